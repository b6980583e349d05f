import Verif.Model.Obj

/-!
# pyopenapi/migration/spec/obj.py: merge_children, attach_child, compare
-/

namespace Pyopenapi

/-- Values of a JSON number or bool, as `m * 10^-e` (a Python bool is an int). -/
def Json.num? : Json → Option (Int × Nat)
  | .bool b => some (if b then 1 else 0, 0)
  | .int n => some (n, 0)
  | .flt m e => some (m, e)
  | _ => none

/-- Equal numbers. -/
def numEq (a b : Int × Nat) : Bool := a.1 * (10 : Int) ^ b.2 = b.1 * (10 : Int) ^ a.2

/-- Python `==` between scalars (`1 == True`, `1 == 1.0`); no scalar equals a list or a dict. -/
def Json.scalarEq (a b : Json) : Bool :=
  match a.num?, b.num? with
  | some x, some y => numEq x y
  | _, _ => match a, b with
    | .str s, .str t => s = t
    | .null, .null => true
    | _, _ => false

namespace Obj

/-- `setattr(self, name, obj)` for a child (obj.py:118-124): only objects are accepted.  A new child
is put last here, wherever it is declared. -/
def setKid (kids : Dict Obj) (k : Str) (o : Obj) : R (Dict Obj) :=
  if o.isPrim then .error .generic else .ok (Dict.set kids k o)

/-- obj.py:580-585: one round of `merge_children`; `get` is `getattr(other, name)`. -/
def mergeStep (get : Str → R Obj) (kids : Dict Obj) (k : Str) : R (Dict Obj) :=
  match Dict.get? kids k with
  | some o => if o.truthy then .ok kids else fill
  | none => fill
where
  fill : R (Dict Obj) := do
    let o ← get k
    if o.truthy then setKid kids k o else .ok kids

/-- `getattr(other, name)` of any object; lists and maps have no such attribute. -/
def attr (T : Table) (o : Obj) (k : Str) : R Obj :=
  match o with
  | .base c _ spec kids => getattr T c spec kids k
  | _ => .error .attributeError

/-- obj.py:576-587, 247, 394: `a.merge_children(b)`, the new `a`.  (`b` is not changed; that the two
objects then share the merged children is not modelled: objects are values.) -/
def mergeChildren (T : Table) (a b : Obj) : R Obj :=
  match a with
  | .base c p spec kids => do
    let kids' ← (Dict.keys (T c).children).foldlM (mergeStep (attr T b)) kids
    .ok (.base c p spec kids')
  | .list _ _ _ _ => .error .notImplemented
  | .map _ _ _ _ => .error .notImplemented
  | .prim _ => .error .attributeError

/-- obj.py:667-677 `attach_child`, the new object. -/
def attachChild (T : Table) (a : Obj) (k : Str) (o : Obj) : R Obj :=
  match a with
  | .base c p spec kids =>
    if Dict.has (T c).children k then do
      let kids' ← setKid kids k o
      .ok (.base c p spec kids')
    else .error .generic
  | _ => .error .attributeError

/-- The first key of `d` that `e` lacks (`list(set(d) - set(e))[0]`; which one Python takes is not
determined). -/
def missingKey {α β : Type} (d : Dict α) (e : Dict β) : Option Str :=
  (Dict.keys d).find? (fun k => !Dict.has e k)

mutual
/-- obj.py:595-626, `_cmp_` on two raw values. -/
def cmpRaw (name : Str) : Json → Json → R (Bool × Str)
  | .null, b => .ok (decide (b = .null), name)
  | .bool x, b => .ok (Json.scalarEq (.bool x) b, name)
  | .int x, b => .ok (Json.scalarEq (.int x) b, name)
  | .str x, b => .ok (Json.scalarEq (.str x) b, name)
  | .flt m e, b => match b with
    | .flt _ _ => .ok (Json.scalarEq (.flt m e) b, name)
    | _ => .ok (false, name)
  | .arr l, b => match b with
    | .arr m => cmpRawL name l m 0
    | _ => .ok (false, name)
  | .obj d, b => match b with
    | .obj e => match missingKey d e with
      | some k => .ok (false, jpCompose [k] (some name))
      | none => match missingKey e d with
        | some k => .ok (false, jpCompose [k] (some name))
        | none => cmpRawD name d e
    | _ => .ok (false, name)
/-- obj.py:604-609: the elements of the first list, against those of the second. -/
def cmpRawL (name : Str) : List Json → List Json → Nat → R (Bool × Str)
  | [], _, _ => .ok (true, [])
  | x :: l, m, i => match m[i]? with
    | none => .error .indexError
    | some y => do
      let r ← cmpRaw (jpCompose [Str.ofNat i] (some name)) x y
      if r.1 then cmpRawL name l m (i + 1) else .ok r
/-- obj.py:619-622. -/
def cmpRawD (name : Str) : List (Str × Json) → Dict Json → R (Bool × Str)
  | [], _ => .ok (true, [])
  | (k, x) :: d, e => match Dict.get? e k with
    | none => .error .keyError
    | some y => do
      let r ← cmpRaw (jpCompose [k] (some name)) x y
      if r.1 then cmpRawD name d e else .ok r
end

/-- `type(a) == type(b)` for two objects (classes made by `list_`/`map_` are told apart by their
element builder). -/
def sameType : Obj → Obj → Bool
  | .base c _ _ _, .base c' _ _ _ => c = c'
  | .list b _ _ _, .list b' _ _ _ => b = b'
  | .map b _ _ _, .map b' _ _ _ => b = b'
  | _, _ => false

/-- A loop that stops at the first difference (obj.py:628-634). -/
def allSame {α : Type} (f : α → R (Bool × Str)) : List α → R (Bool × Str)
  | [] => .ok (true, [])
  | x :: l => do
    let r ← f x
    if r.1 then allSame f l else .ok r

/-- obj.py:628-634 for a field. -/
def cmpField (s s' : Json) (base : Option Str) (kf : Str × FieldDef) : R (Bool × Str) := do
  let u ← readField kf.2 s kf.1
  let v ← readField kf.2 s' kf.1
  cmpRaw (jpCompose [kf.1] base) u v

/-- `isinstance(x, six.string_types + six.integer_types)` on a raw value. -/
def isStrInt : Json → Bool
  | .str _ | .int _ | .bool _ => true
  | _ => false

/-- Python `==` between a raw string or int and anything. -/
def eqAny (j : Json) : Obj → Bool
  | .prim k => Json.scalarEq j k
  | _ => false

mutual
/-- obj.py:250-267, 397-419, 588-636: `a.compare(b, base)`: same or not, and where the first difference
is.  Fields and children are visited in the order of the tables; no name is both a field and a child
(`okTable_pkg`). -/
def compare (T : Table) (a b : Obj) (base : Option Str) : R (Bool × Str) :=
  match a with
  | .prim _ => .error .attributeError
  | .base c _ s kids => match b with
    | .base c' _ s' kids' =>
      if c = c' then do
        let r ← allSame (cmpField s s' base) (T c).fields
        if r.1 then allSame (fun k => cmpKid T k kids kids' base) (Dict.keys (T c).children) else .ok r
      else .ok (false, [])
    | _ => .ok (false, [])
  | .list bd _ _ es => match b with
    | .list bd' _ _ es' =>
      if bd = bd' ∧ es.length = es'.length then cmpElems T es es' 0 base else .ok (false, [])
    | _ => .ok (false, [])
  | .map bd _ _ es => match b with
    | .map bd' _ _ es' =>
      if bd = bd' then
        match missingKey es es' with
        | some k => .ok (false, jpCompose [k] base)
        | none => match missingKey es' es with
          | some k => .ok (false, jpCompose [k] base)
          | none => cmpItems T es es' base
      else .ok (false, [])
    | _ => .ok (false, [])
termination_by 2 * sizeOf a + 1
decreasing_by all_goals (simp; try omega)

/-- obj.py:628-634 for a child: `_cmp_` on two values that may be objects, raw (a bool) or `None`. -/
def cmpKid (T : Table) (k : Str) (kids kids' : List (Str × Obj)) (base : Option Str) : R (Bool × Str) :=
  match _h : Dict.get? kids k with
  | none => match Dict.get? kids' k with
    | none | some (.prim .null) => .ok (true, jpCompose [k] base)
    | some _ => .ok (false, jpCompose [k] base)
  | some x => cmpVal T (jpCompose [k] base) x ((Dict.get? kids' k).getD (.prim .null))
termination_by 2 * sizeOf kids + 1
decreasing_by
  have := List.sizeOf_lt_of_mem (Dict.mem_of_get? _h)
  simp at this ⊢
  omega

/-- obj.py:595-626 `_cmp_`. -/
def cmpVal (T : Table) (name : Str) (x y : Obj) : R (Bool × Str) :=
  match x with
  | .prim u => match y with
    | .prim v => cmpRaw name u v
    | _ => .ok (false, name)
  | x => if sameType x y then compare T x y (some name) else .ok (false, name)
termination_by 2 * sizeOf x + 2

/-- obj.py:258-266: the elements of two lists of the same length; the first raw element ends the
comparison. -/
def cmpElems (T : Table) (es es' : List Obj) (i : Nat) (base : Option Str) : R (Bool × Str) :=
  match es, es' with
  | x :: es, y :: es' =>
    let name := jpCompose [Str.ofNat i] base
    match x with
    | .prim j => if isStrInt j then .ok (eqAny j y, name) else .error .attributeError
    | x => do
      let r ← compare T x y (some name)
      if r.1 then cmpElems T es es' (i + 1) base else .ok r
  | _, _ => .ok (true, [])
termination_by 2 * sizeOf es
decreasing_by all_goals (simp; try omega)

/-- obj.py:409-417: the entries of the first map, against those of the second; the first raw value
ends the comparison. -/
def cmpItems (T : Table) (es : List (Str × Obj)) (es' : Dict Obj) (base : Option Str) : R (Bool × Str) :=
  match es with
  | [] => .ok (true, [])
  | (k, x) :: es =>
    let name := jpCompose [k] base
    match Dict.get? es' k with
    | none => .error .keyError
    | some y => match x with
      | .prim j => if isStrInt j then .ok (eqAny j y, name) else .error .attributeError
      | x => do
        let r ← compare T x y (some name)
        if r.1 then cmpItems T es es' base else .ok r
termination_by 2 * sizeOf es
decreasing_by all_goals (simp; try omega)
end

end Obj
end Pyopenapi
