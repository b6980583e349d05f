import Verif.Model.Heap

/-! # Specification of `get_children`: the children an object has now -/

namespace Pyopenapi.Heap.Spec

/-- Object `a` holds value `v` under `k`: a child of a `Base2Obj`, an entry of a map, or an element of
a list under its decimal index. -/
inductive Holds (h : Store) (a : Nat) : Str → Val → Prop
  | child {c : Str} {kids : Dict Val} {k : Str} {v : Val} : (h a).body = .base c kids →
      Dict.get? kids k = some v → Holds h a k v
  | item {es : Dict Val} {k : Str} {v : Val} : (h a).body = .map es → Dict.get? es k = some v →
      Holds h a k v
  | elem {es : List Val} {i : Nat} {v : Val} : (h a).body = .list es → es[i]? = some v →
      Holds h a (Str.ofNat i) v

/-- An object of a class, as opposed to a list or map. -/
def IsBase (h : Store) (a : Nat) : Prop := ∃ c kids, (h a).body = .base c kids

/-- `b` is a child of `a` under `name`: `a` holds it, directly or through lists and maps; the name
through a container is the JSON pointer of its slot and of the name inside. -/
inductive Child (h : Store) : Nat → Str → Nat → Prop
  | direct {a b : Nat} {k : Str} : Holds h a k (.ref b) → IsBase h b → Child h a k b
  | through {a m b : Nat} {k n : Str} : Holds h a k (.ref m) → ¬ IsBase h m → Child h m n b →
      Child h a (jpCompose [k, n] none) b

/-- The dictionary `d` lists the children of `a`: under exactly the names they have. -/
def Current (h : Store) (a : Nat) (d : Dict Nat) : Prop :=
  (∀ n b, Dict.get? d n = some b → Child h a n b) ∧
  (∀ n, (∃ b, Child h a n b) → ∃ b, Dict.get? d n = some b)

/-- Container `m` is inside `a`, reached through lists and maps only. -/
inductive Inside (h : Store) (m : Nat) : Nat → Prop
  | direct {a : Nat} {k : Str} : Holds h a k (.ref m) → Inside h m a
  | through {a x : Nat} {k : Str} : Holds h a k (.ref x) → ¬ IsBase h x → Inside h m x → Inside h m a

/-- Python dictionaries have unique keys. -/
def WfBody : Body → Prop
  | .base _ kids => Dict.NodupKeys kids
  | .map es => Dict.NodupKeys es
  | .list _ => True

/-- So have those of all objects. -/
def Wf (h : Store) : Prop := ∀ a, WfBody (h a).body

/-- An operation that cannot make a cache stale: a list or map is changed directly only while no
object around it has remembered its children, a child is assigned without `attach_child` only while
the object has not remembered its children, and `merge_children` does not raise half way. -/
def Safe (names : Str → List Str) (h : Store) : Op → Prop
  | .setItem m _ _ => ∀ a, Inside h m a → (h a).cache = []
  | .extend l _ => ∀ a, Inside h l a → (h a).cache = []
  | .assign a _ _ => (h a).cache = []
  | .mergeChildren a b => (mergeChildren names h a b).2 = none ∨ (h a).cache = [] ∨ ¬ IsBase h a
  | .attachChild _ _ _ => True
  | .getChildren _ => True

/-- Every operation of the history is safe where it happens. -/
def SafeRun (names : Str → List Str) (limit : Nat) : Store → List Op → Prop
  | _, [] => True
  | h, op :: ops => Safe names h op ∧ ∀ h', step names limit h op = .ok h' → SafeRun names limit h' ops

end Pyopenapi.Heap.Spec
