import Verif.Base.Dict

/-!
# pyopenapi/utils.py: CycleGuard, deref

Objects are heap addresses (`Nat`): `CycleGuard` compares with `in`, i.e. by identity, since
`Base2Obj` defines no `__eq__` (a `weakref.proxy` compares its referent).
-/

namespace Pyopenapi

/-- What `deref` looks at in an object: whether its `ref` attribute is not `None`
(utils.py:156) and the `ref_obj` of its 'migration' attribute group (`none` when there is no such
group, or no resolved object; utils.py:157-161). -/
structure RefNode where
  hasRef : Bool
  refObj : Option Nat
  deriving DecidableEq, Repr

abbrev RefHeap := Nat → RefNode

/-- The object `deref` moves to from `cur`, if it does not stop there (utils.py:156-163). -/
def RefHeap.next (h : RefHeap) (cur : Nat) : Option Nat :=
  if (h cur).hasRef then (h cur).refObj else none

/-- utils.py:109-113 `CycleGuard.update` on the list of visited objects. -/
def guardUpdate (visited : List Nat) (obj : Nat) : R (List Nat) :=
  if obj ∈ visited then .error .cycle else .ok (visited ++ [obj])

/-- utils.py:156-166, the loop of `deref`.  The Python loop is unbounded; `none` says that
`fuel` iterations were not enough. -/
def derefLoop (h : RefHeap) : Nat → List Nat → Nat → Option (R Nat)
  | 0, _, _ => none
  | fuel + 1, visited, cur =>
    match h.next cur with
    | none => some (.ok cur)
    | some nxt => match guardUpdate visited nxt with
      | .error e => some (.error e)
      | .ok visited' => derefLoop h fuel visited' nxt

/-- utils.py:151-166 `deref(obj)` with a fresh guard. -/
def deref (h : RefHeap) (fuel : Nat) (obj : Nat) : Option (R Nat) :=
  match guardUpdate [] obj with
  | .error e => some (.error e)
  | .ok visited => derefLoop h fuel visited obj

end Pyopenapi
