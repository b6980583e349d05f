import Verif.Model.Ops
import Verif.Model.Utils
import Verif.Spec.Obj

/-!
# pyopenapi/utils.py: `compare_container`
-/

namespace Pyopenapi

/-- `type(x).__name__`. -/
def Json.typeName : Json → Str
  | .null => s% "NoneType"
  | .bool _ => s% "bool"
  | .int _ => s% "int"
  | .flt _ _ => s% "float"
  | .str _ => s% "str"
  | .arr _ => s% "list"
  | .obj _ => s% "dict"

/-- What a reported difference says about one side. -/
inductive Seen where
  | nothing
  | len (n : Nat)
  | type (s : Str)
  | val (j : Json)
  deriving DecidableEq

/-- A reported difference: where, and what is on both sides. -/
abbrev Diff := Str × Seen × Seen

/-- CPython's `sorted` on lists of JSON values, by what is known of it: a permutation that does not depend on
the order of keys inside, TypeError when two elements cannot be compared, and numbers and strings can. -/
structure Sorter where
  sort : List Json → R (List Json)
  perm : ∀ {l m}, sort l = .ok m → m.Perm l
  typeError : ∀ {l e}, sort l = .error e → e = .typeError
  reorder : ∀ {l m : List Json}, List.Forall₂ Spec.JEq l m →
    (∃ l' m', sort l = .ok l' ∧ sort m = .ok m' ∧ List.Forall₂ Spec.JEq l' m') ∨
    (sort l = .error .typeError ∧ sort m = .error .typeError)
  strings : ∀ {l m : List Json}, (∀ x ∈ l, ∃ s, x = .str s) → l.Perm m → ∃ r, sort l = .ok r ∧ sort m = .ok r

/-- utils.py:386-396: the elements of a list all have the type of the first one. -/
def sameTypes : List Json → Bool
  | [] => true
  | x :: xs => xs.all (fun y => y.typeName = x.typeName)

/-- `issubclass(t, str)`. -/
def Json.isStr : Json → Bool
  | .str _ => true
  | _ => false

/-- `issubclass(t, int)`: bool is a subclass. -/
def Json.isInt : Json → Bool
  | .int _ | .bool _ => true
  | _ => false

/-- `type_src == dict`. -/
def Json.isObj : Json → Bool
  | .obj _ => true
  | _ => false

/-- utils.py:398-413: the types of the elements of both lists agree. -/
def kindsAgree (x y : Json) : Bool :=
  (x.isStr && y.isStr) || (x.isInt && y.isInt) || (x.typeName = y.typeName)

/-- The reports of a sequence of comparisons, up to the first exception. -/
def concatM : List (R (List Diff)) → R (List Diff)
  | [] => .ok []
  | x :: xs => do
    let a ← x
    let b ← concatM xs
    .ok (a ++ b)

/-- utils.py:346-356: the keys that count. -/
def keepKey (inc exc : List Str) (k : Str) : Bool := (inc.isEmpty || inc.contains k) && !exc.contains k

/-- `d[k]` for a key of `d`. -/
def Json.at (d : Dict Json) (k : Str) : Json := (Dict.get? d k).getD .null

/-- utils.py:415-421: lists of dicts are compared in their order, others sorted. -/
def toSort (S : Sorter) (x : Json) (l : List Json) : R (List Json) := if x.isObj then .ok l else S.sort l

/-- utils.py:326-450 `compare_container`.  Python sets have no order: here the keys are visited in the order
of the dictionaries.  `fuel` bounds the recursion (see `compareContainer`). -/
def cmpC (S : Sorter) (inc exc : List Str) : Nat → Json → Json → Str → R (List Diff)
  | 0, _, _, _ => .error .recursion
  | n + 1, .obj d, .obj e, base => do
    let ks := (Dict.keys d).filter (keepKey inc exc)
    let kd := (Dict.keys e).filter (keepKey inc exc)
    let added := (kd.filter (fun k => !ks.contains k)).map (fun k => (jpCompose [k] (some base), Seen.nothing, Seen.nothing))
    let removed := (ks.filter (fun k => !kd.contains k)).map (fun k => (jpCompose [k] (some base), Seen.nothing, Seen.nothing))
    let same ← concatM ((ks.filter (fun k => kd.contains k)).map (fun k =>
      cmpC S inc exc n (Json.at d k) (Json.at e k) (jpCompose [k] (some base))))
    .ok (added ++ removed ++ same)
  | _ + 1, .obj d, dst, base => .ok [(base, .type (Json.obj d).typeName, .type dst.typeName)]
  | n + 1, .arr l, .arr m, base =>
    if l.length ≠ m.length then .ok [(base, .len l.length, .len m.length)]
    else match l, m with
      | x :: l, y :: m =>
        if !sameTypes (x :: l) || !sameTypes (y :: m) then .error .valueError
        else if !kindsAgree x y then
          .ok [(base, .type (s% "<class '" ++ x.typeName ++ s% "'>"), .type (s% "<class '" ++ y.typeName ++ s% "'>"))]
        else do
          let l' ← toSort S x (x :: l)
          let m' ← toSort S x (y :: m)
          concatM ((List.zip l' m').zipIdx.map (fun p =>
            cmpC S inc exc n p.1.1 p.1.2 (jpCompose [Str.ofNat p.2] (some base))))
      | _, _ => .ok []
  | _ + 1, .arr l, dst, base => .ok [(base, .type (Json.arr l).typeName, .type dst.typeName)]
  | _ + 1, src, dst, base => if Json.scalarEq src dst then .ok [] else .ok [(base, .val src, .val dst)]

mutual
/-- A bound for the nesting of a value. -/
def Json.height : Json → Nat
  | .arr l => Json.heightL l + 1
  | .obj d => Json.heightD d + 1
  | _ => 1
def Json.heightL : List Json → Nat
  | [] => 0
  | j :: l => max j.height (Json.heightL l)
def Json.heightD : List (Str × Json) → Nat
  | [] => 0
  | (_, j) :: d => max j.height (Json.heightD d)
end

/-- `compare_container(src, dst, base_path=base, exclude=exc, include=inc)`: the nesting of `src` bounds the
recursion. -/
def compareContainer (S : Sorter) (inc exc : List Str) (src dst : Json) (base : Str) : R (List Diff) :=
  cmpC S inc exc src.height src dst base

end Pyopenapi
