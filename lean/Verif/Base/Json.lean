import Verif.Base.Dict

/-!
# JSON values

What `json.load` / `yaml.load` produce.  Floats are decimal literals `m * 10^-e`
(compared literally).  An object is a dictionary in insertion order.
-/

namespace Pyopenapi

inductive Json where
  | null
  | bool (b : Bool)
  | int (n : Int)
  | flt (m : Int) (e : Nat)
  | str (s : Str)
  | arr (l : List Json)
  | obj (d : List (Str × Json))
  deriving Repr

namespace Json

mutual
def decEqJ : (a b : Json) → Decidable (a = b)
  | .null, b => match b with
    | .null => .isTrue rfl
    | .bool _ | .int _ | .flt _ _ | .str _ | .arr _ | .obj _ => .isFalse nofun
  | .bool x, b => match b with
    | .bool y => if h : x = y then .isTrue (by rw [h]) else .isFalse (fun e => h (Json.bool.inj e))
    | .null | .int _ | .flt _ _ | .str _ | .arr _ | .obj _ => .isFalse nofun
  | .int x, b => match b with
    | .int y => if h : x = y then .isTrue (by rw [h]) else .isFalse (fun e => h (Json.int.inj e))
    | .null | .bool _ | .flt _ _ | .str _ | .arr _ | .obj _ => .isFalse nofun
  | .flt x e, b => match b with
    | .flt y f => if h : x = y ∧ e = f then .isTrue (by rw [h.1, h.2])
                  else .isFalse (fun eq => h (Json.flt.inj eq))
    | .null | .bool _ | .int _ | .str _ | .arr _ | .obj _ => .isFalse nofun
  | .str x, b => match b with
    | .str y => if h : x = y then .isTrue (by rw [h]) else .isFalse (fun e => h (Json.str.inj e))
    | .null | .bool _ | .int _ | .flt _ _ | .arr _ | .obj _ => .isFalse nofun
  | .arr x, b => match b with
    | .arr y => match decEqL x y with
      | .isTrue h => .isTrue (by rw [h])
      | .isFalse h => .isFalse (fun e => h (Json.arr.inj e))
    | .null | .bool _ | .int _ | .flt _ _ | .str _ | .obj _ => .isFalse nofun
  | .obj x, b => match b with
    | .obj y => match decEqD x y with
      | .isTrue h => .isTrue (by rw [h])
      | .isFalse h => .isFalse (fun e => h (Json.obj.inj e))
    | .null | .bool _ | .int _ | .flt _ _ | .str _ | .arr _ => .isFalse nofun
def decEqL : (a b : List Json) → Decidable (a = b)
  | [], [] => .isTrue rfl
  | [], _ :: _ => .isFalse nofun
  | _ :: _, [] => .isFalse nofun
  | x :: xs, y :: ys => match decEqJ x y with
    | .isFalse h => .isFalse (fun e => h (List.cons.inj e).1)
    | .isTrue h => match decEqL xs ys with
      | .isFalse h' => .isFalse (fun e => h' (List.cons.inj e).2)
      | .isTrue h' => .isTrue (by rw [h, h'])
def decEqD : (a b : List (Str × Json)) → Decidable (a = b)
  | [], [] => .isTrue rfl
  | [], _ :: _ => .isFalse nofun
  | _ :: _, [] => .isFalse nofun
  | (k, x) :: xs, (l, y) :: ys =>
    if hk : k = l then
      match decEqJ x y with
      | .isFalse h => .isFalse (fun e => h (Prod.mk.inj (List.cons.inj e).1).2)
      | .isTrue h => match decEqD xs ys with
        | .isFalse h' => .isFalse (fun e => h' (List.cons.inj e).2)
        | .isTrue h' => .isTrue (by rw [hk, h, h'])
    else .isFalse (fun e => hk (Prod.mk.inj (List.cons.inj e).1).1)
end

instance : DecidableEq Json := decEqJ

/-- Python truthiness. -/
def truthy : Json → Bool
  | .null => false
  | .bool b => b
  | .int n => n ≠ 0
  | .flt m _ => m ≠ 0
  | .str s => !s.isEmpty
  | .arr l => !l.isEmpty
  | .obj d => !d.isEmpty

/-- `isinstance(x, dict)` as an option. -/
def asObj? : Json → Option (Dict Json)
  | .obj d => some d
  | _ => none

/-- `isinstance(x, str)` as an option. -/
def asStr? : Json → Option Str
  | .str s => some s
  | _ => none

/-- `isinstance(x, list)` as an option. -/
def asArr? : Json → Option (List Json)
  | .arr s => some s
  | _ => none

mutual
/-- All keys of all objects inside are unique (true of every parsed document). -/
def wf : Json → Bool
  | .arr l => wfL l
  | .obj d => decide (Dict.NodupKeys d) && wfD d
  | _ => true
def wfL : List Json → Bool
  | [] => true
  | j :: l => wf j && wfL l
def wfD : List (Str × Json) → Bool
  | [] => true
  | (_, j) :: d => wf j && wfD d
end

end Json
end Pyopenapi
