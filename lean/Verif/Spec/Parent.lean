import Verif.Model.Parent

/-! # Specification of parents: who holds what -/

namespace Pyopenapi.Parent.Spec

open Pyopenapi.Heap (Val Body)

/-- In memory `m`, the object at `a` holds the value `v` under `k`: a child, an entry of a map, or an
element of a list under its decimal index. -/
inductive Holds (m : Mem) (a : Nat) : Str → Val → Prop
  | child {n : Node} {c : Str} {kids : Dict Val} {k : Str} {v : Val} : m[a]? = some n →
      n.body = .base c kids → (k, v) ∈ kids → Holds m a k v
  | item {n : Node} {es : Dict Val} {k : Str} {v : Val} : m[a]? = some n → n.body = .map es →
      (k, v) ∈ es → Holds m a k v
  | elem {n : Node} {es : List Val} {i : Nat} {v : Val} : m[a]? = some n → n.body = .list es →
      es[i]? = some v → Holds m a (Str.ofNat i) v

/-- The object at `a` is of a class. -/
def IsBase (m : Mem) (a : Nat) : Prop := ∃ n c kids, m[a]? = some n ∧ n.body = .base c kids

/-- The object at `a` is a list or a map without elements. -/
def Empty (m : Mem) (a : Nat) : Prop := ∃ n, m[a]? = some n ∧ (n.body = .list [] ∨ n.body = .map [])

mutual
/-- In memory `m`, the value `v` is the tree `o`. -/
def Shows (m : Mem) : Val → Obj → Prop
  | .raw j, .prim j' => j = j'
  | .ref a, .base c path spec ks => ∃ n kids, m[a]? = some n ∧ n.body = .base c kids ∧
      n.path = path ∧ n.spec = spec ∧ ShowsItems m kids ks
  | .ref a, .list _ path spec es => ∃ n vs, m[a]? = some n ∧ n.body = .list vs ∧
      n.path = path ∧ n.spec = spec ∧ ShowsElems m vs es
  | .ref a, .map _ path spec es => ∃ n vs, m[a]? = some n ∧ n.body = .map vs ∧
      n.path = path ∧ n.spec = spec ∧ ShowsItems m vs es
  | _, _ => False
/-- Name by name. -/
def ShowsItems (m : Mem) : Dict Val → List (Str × Obj) → Prop
  | [], [] => True
  | (k, v) :: vs, (k', o) :: os => k = k' ∧ Shows m v o ∧ ShowsItems m vs os
  | _, _ => False
/-- Element by element. -/
def ShowsElems (m : Mem) : List Val → List Obj → Prop
  | [], [] => True
  | v :: vs, o :: os => Shows m v o ∧ ShowsElems m vs os
  | _, _ => False
end

/-- `names` leads down from `a` to `b`, one object at a time. -/
inductive Down (m : Mem) : Nat → List Str → Nat → Prop
  | here (a : Nat) : Down m a [] a
  | step {a b c : Nat} {k : Str} {ks : List Str} : Holds m a k (.ref b) → Down m b ks c →
      Down m a (k :: ks) c

/-- `get_parent()` called `n` times. -/
def up (parent : Nat → Option Nat) : Nat → Nat → Option Nat
  | 0, a => some a
  | n + 1, a => (parent a).bind (up parent n)

/-- The operations of a history that attach object `b` to an object and succeed: the objects attached
to, in order. -/
inductive Attached (names : Str → List Str) (limit : Nat) (b : Nat) : World → List Heap.Op → List Nat → Prop
  | nil (w : World) : Attached names limit b w [] []
  | attach {w w' : World} {a : Nat} {k : Str} {h : Heap.Store} {ops : List Heap.Op} {as : List Nat} :
      Heap.attachChild names w.objs a k (.ref b) = .ok h →
      step names limit w (.attachChild a k (.ref b)) = .ok w' → Attached names limit b w' ops as →
      Attached names limit b w (.attachChild a k (.ref b) :: ops) (a :: as)
  | other {w w' : World} {op : Heap.Op} {ops : List Heap.Op} {as : List Nat} :
      (∀ a k h, op = .attachChild a k (.ref b) → Heap.attachChild names w.objs a k (.ref b) ≠ .ok h) →
      step names limit w op = .ok w' → Attached names limit b w' ops as →
      Attached names limit b w (op :: ops) as

end Pyopenapi.Parent.Spec
