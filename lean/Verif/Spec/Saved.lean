import Verif.Model.Saved
import Verif.Model.Tables
import Verif.Spec.Obj
import Verif.Spec.Compare

/-! # Specification: an object that has been saved and loaded again -/

namespace Pyopenapi.Spec
open Obj

/-- What a document says for a name, `null` being nothing. -/
def said (k : Str) : Json → Option Json
  | .obj d => match Dict.get? d k with
    | some .null => none
    | v => v
  | _ => none

/-- `o'` says the same as `o`, but for the references `f` tells, and for empty children, which are not there. -/
inductive SavedAs (f : Obj → Option Str) : Obj → Obj → Prop
  | prim (j : Json) : SavedAs f (.prim j) (.prim j)
  | base {c : Str} {p p' : Option Str} {s : Json} {d' : Dict Json} {kids kids' : Dict Obj} :
      (∀ k fd, (k, fd) ∈ (pkg c).fields → Dict.get? d' k =
        if k = s% "$ref" then ((f (.base c p s kids)).map Json.str).or (said k s) else said k s) →
      (∀ k, (∃ y', Dict.get? kids' k = some y') ↔ ∃ y, Dict.get? kids k = some y ∧ y.truthy = true) →
      (∀ k y y', Dict.get? kids k = some y → Dict.get? kids' k = some y' → SavedAs f y y') →
      SavedAs f (.base c p s kids) (.base c p' (.obj d') kids')
  | list {b b' : Builder} {p p' : Option Str} {s s' : Json} {es es' : List Obj} :
      es'.length = es.length → (∀ (i : Nat) y y', es[i]? = some y → es'[i]? = some y' → SavedAs f y y') →
      SavedAs f (.list b p s es) (.list b' p' s' es')
  | map {b b' : Builder} {p p' : Option Str} {s s' : Json} {es es' : Dict Obj} :
      Dict.keys es' = Dict.keys es → (∀ k y y', Dict.get? es k = some y → Dict.get? es' k = some y' → SavedAs f y y') →
      SavedAs f (.map b p s es) (.map b' p' s' es')

/-- References that are rewritten are references, and what is of a class of references has one. -/
def Rewritable (f : Obj → Option Str) (o : Obj) : Prop :=
  ∀ c p s kids, Inside o (.base c p s kids) → refClass pkg c = true ∨ f (.base c p s kids) ≠ none →
    ∃ v, said (s% "$ref") s = some v

/-- Nothing in the object is in the way of a dump: every document of an object is one, no required child is missing or empty,
no child is a bare `true`, and no field is there that cannot be read (`name` and `in` of a header). -/
def Whole (o : Obj) : Prop :=
  ∀ c p s kids, Inside o (.base c p s kids) → ∃ d, s = .obj d ∧
    (∀ k cd, (k, cd) ∈ (pkg c).children → cd.required = true → ∃ y, Dict.get? kids k = some y ∧ y.truthy = true) ∧
    (∀ k j, (k, .prim j) ∈ kids → j.truthy = false) ∧
    ∀ k fd, (k, fd) ∈ (pkg c).fields → fd.restricted = true → Dict.get? d k = none

end Pyopenapi.Spec
