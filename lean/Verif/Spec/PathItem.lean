import Verif.Model.PathItem

/-! # Specification of the merge of a path item with the path items it refers to -/

namespace Pyopenapi.PathItem.Spec
open Heap

/-- The child `k` of the object `a`, when it has one that is not empty. -/
def child (h : Store) (a : Nat) (k : Str) : Option Val :=
  match (h a).body with
  | .base _ kids => (Dict.get? kids k).filter (truthy h)
  | _ => none

/-- The first of these objects that has the child `k` has this one. -/
def first (h : Store) (l : List Nat) (k : Str) : Option Val := l.findSome? (fun a => child h a k)

/-- Following references from `a`: each object refers to the next. -/
inductive Trail (next : Nat → Option Nat) : Nat → List Nat → Prop
  | one {a : Nat} : Trail next a [a]
  | more {a b : Nat} {l : List Nat} : next a = some b → Trail next b l → Trail next a (a :: l)

/-- Where the references lead: from the reference of `a` (none, or empty: nowhere). -/
def nextOf (ref : Nat → Option Str) (target : Str → Option Nat) (a : Nat) : Option Nat :=
  match ref a with
  | none | some [] => none
  | some (c :: r) => target (c :: r)

/-- All objects reached from `a`, each once, up to the one that refers to nothing or back. -/
structure Whole (next : Nat → Option Nat) (a : Nat) (l : List Nat) : Prop where
  trail : Trail next a l
  once : l.Nodup
  ends : ∀ z, l.getLast? = some z → ∀ b, next z = some b → b ∈ l

/-- An application that always gives the same object for a reference, and changes neither the children nor the
references of objects.  (An object that is loaded on the way counts as being there from the beginning.) -/
structure Steady {W : Type} (env : Env W) (ref : Nat → Option Str) (target : Str → Option Nat) (good : W → Prop) : Prop where
  refs : ∀ w, good w → env.ref w = ref
  stays : ∀ r h w, good w → good (env.resolve r h w).2.2
  bodies : ∀ r h w, good w → ∀ a, ((env.resolve r h w).2.1 a).body = (h a).body
  answers : ∀ r h w b, good w → (env.resolve r h w).1 = .ok (some b) → target r = some b

end Pyopenapi.PathItem.Spec
