import Verif.Spec.Compare
import Verif.Model.Container
import Batteries.Data.List.Basic

/-! # Specification: when two JSON values agree, and what is inside a value -/

namespace Pyopenapi.Spec

/-- A value inside another one. -/
inductive InJ : Json → Json → Prop
  | here (j : Json) : InJ j j
  | key {d : Dict Json} {k : Str} {v w : Json} : Dict.get? d k = some v → InJ v w → InJ (.obj d) w
  | elem {l : List Json} {v w : Json} : v ∈ l → InJ v w → InJ (.arr l) w

/-- Every list inside has elements of one Python type. -/
def Uniform (j : Json) : Prop := ∀ l, InJ j (.arr l) → ∀ x ∈ l, ∀ y ∈ l, x.typeName = y.typeName

/-- Every list inside that holds no dict can be sorted. -/
def Sortable (S : Sorter) (j : Json) : Prop :=
  ∀ l, InJ j (.arr l) → l ≠ [] → (∀ x ∈ l, ∀ d, x ≠ .obj d) → ∃ m, S.sort l = .ok m

/-- Neither a list nor a dict. -/
def Scalar : Json → Prop
  | .arr _ | .obj _ => False
  | _ => True

/-- Two values have the same shape, as far as the keys in `K` go: equal scalars, the same keys, lists of dicts
of the same length and element by element, other lists equal up to reordering. -/
inductive Alike (K : Str → Prop) : Json → Json → Prop
  | scalar {u v : Json} : Scalar u → PyEq u v → Alike K u v
  | obj {d e : Dict Json} : (∀ k, K k → (Dict.get? d k = none ↔ Dict.get? e k = none)) →
      (∀ k x y, K k → Dict.get? d k = some x → Dict.get? e k = some y → Alike K x y) → Alike K (.obj d) (.obj e)
  | inOrder {l m : List Json} : (∀ x ∈ l, ∃ d, x = .obj d) → l.length = m.length →
      (∀ (i : Nat) x y, l[i]? = some x → m[i]? = some y → Alike K x y) → Alike K (.arr l) (.arr m)
  | anyOrder {l m l' m' : List Json} : l'.Perm l → m'.Perm m → l'.length = m'.length →
      (∀ (i : Nat) x y, l'[i]? = some x → m'[i]? = some y → Alike K x y) → Alike K (.arr l) (.arr m)

/-- The keys that count, given `include` and `exclude`. -/
def Counts (inc exc : List Str) (k : Str) : Prop := (inc = [] ∨ k ∈ inc) ∧ k ∉ exc

instance (inc exc : List Str) (k : Str) : Decidable (Counts inc exc k) := inferInstanceAs (Decidable (_ ∧ _))

mutual
/-- The value without the keys that do not satisfy `K`, at any depth. -/
def prune (K : Str → Bool) : Json → Json
  | .arr l => .arr (pruneL K l)
  | .obj d => .obj (pruneD K d)
  | j => j
def pruneL (K : Str → Bool) : List Json → List Json
  | [] => []
  | j :: l => prune K j :: pruneL K l
def pruneD (K : Str → Bool) : List (Str × Json) → List (Str × Json)
  | [] => []
  | (k, j) :: d => if K k then (k, prune K j) :: pruneD K d else pruneD K d
end

/-- The same report about pruned values. -/
def pruneSeen (K : Str → Bool) : Seen → Seen
  | .val j => .val (prune K j)
  | s => s

/-- No list inside holds a list that holds (at any depth) a dict. -/
def FlatLists (j : Json) : Prop := ∀ l, InJ j (.arr l) → ∀ x ∈ l, ∀ m, x = .arr m → ∀ d, ¬ InJ x (.obj d)

end Pyopenapi.Spec
