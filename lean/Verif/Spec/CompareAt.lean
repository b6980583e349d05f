import Verif.Spec.Compare
import Verif.Model.Container

/-! # Specification: where two objects differ -/

namespace Pyopenapi.Spec
open Obj

/-- Two JSON values differ at a place, told by keys and indices: the values there are not equal in Python or not of the same
type (`1` and `1.0`), or only one of them is there. -/
inductive RawDiffers : Json → Json → List Str → Prop
  | value {u v : Json} : ¬ PyEq u v ∨ u.typeName ≠ v.typeName → RawDiffers u v []
  | onlyLeft {d e : Dict Json} {k : Str} : Dict.get? d k ≠ none → Dict.get? e k = none → RawDiffers (.obj d) (.obj e) [k]
  | onlyRight {d e : Dict Json} {k : Str} : Dict.get? d k = none → Dict.get? e k ≠ none → RawDiffers (.obj d) (.obj e) [k]
  | elem {l m : List Json} {i : Nat} {x y : Json} {ts : List Str} : l[i]? = some x → m[i]? = some y → RawDiffers x y ts →
      RawDiffers (.arr l) (.arr m) (Str.ofNat i :: ts)
  | key {d e : Dict Json} {k : Str} {x y : Json} {ts : List Str} : (k, x) ∈ d → Dict.get? e k = some y → RawDiffers x y ts →
      RawDiffers (.obj d) (.obj e) (k :: ts)

/-- Of one kind: both raw, of one class, or lists or maps of the same. -/
inductive OfOneKind : Obj → Obj → Prop
  | prim {u v : Json} : OfOneKind (.prim u) (.prim v)
  | base {c : Str} {p p' : Option Str} {s s' : Json} {kids kids' : Dict Obj} : OfOneKind (.base c p s kids) (.base c p' s' kids')
  | list {b : Builder} {p p' : Option Str} {s s' : Json} {es es' : List Obj} : OfOneKind (.list b p s es) (.list b p' s' es')
  | map {b : Builder} {p p' : Option Str} {s s' : Json} {es es' : Dict Obj} : OfOneKind (.map b p s es) (.map b p' s' es')

/-- Two values that are themselves different, and where: not of one kind; raw values that differ; a field that does; a key
that only one of two maps has. -/
inductive Different (T : Table) : Obj → Obj → List Str → Prop
  | kind {x y : Obj} : ¬ OfOneKind x y → Different T x y []
  | raw {u v : Json} {ts : List Str} : RawDiffers u v ts → Different T (.prim u) (.prim v) ts
  | field {c k : Str} {fd : FieldDef} {p p' : Option Str} {s s' u v : Json} {kids kids' : Dict Obj} {ts : List Str} :
      (k, fd) ∈ (T c).fields → readField fd s k = .ok u → readField fd s' k = .ok v → RawDiffers u v ts →
      Different T (.base c p s kids) (.base c p' s' kids') (k :: ts)
  | onlyLeft {b : Builder} {p p' : Option Str} {s s' : Json} {es es' : Dict Obj} {k : Str} : Dict.get? es k ≠ none →
      Dict.get? es' k = none → Different T (.map b p s es) (.map b p' s' es') [k]
  | onlyRight {b : Builder} {p p' : Option Str} {s s' : Json} {es es' : Dict Obj} {k : Str} : Dict.get? es k = none →
      Dict.get? es' k ≠ none → Different T (.map b p s es) (.map b p' s' es') [k]

/-- Two lists that are not of one length, or elements of two lists or entries of two maps that are not of one kind. -/
inductive Misshapen : Obj → Obj → List Str → Prop
  | length {b : Builder} {p p' : Option Str} {s s' : Json} {es es' : List Obj} : es.length ≠ es'.length →
      Misshapen (.list b p s es) (.list b p' s' es') []
  | elem {b : Builder} {p p' : Option Str} {s s' : Json} {es es' : List Obj} {i : Nat} {x y : Obj} : es[i]? = some x →
      es'[i]? = some y → ¬ OfOneKind x y → Misshapen (.list b p s es) (.list b p' s' es') [Str.ofNat i]
  | item {b : Builder} {p p' : Option Str} {s s' : Json} {es es' : Dict Obj} {k : Str} {x y : Obj} : (k, x) ∈ es →
      Dict.get? es' k = some y → ¬ OfOneKind x y → Misshapen (.map b p s es) (.map b p' s' es') [k]

/-- Two objects differ, in the way `leaf`, at a place inside them: the same children, elements and entries lead there. -/
inductive ApartAt (T : Table) (leaf : Obj → Obj → List Str → Prop) : Obj → Obj → List Str → Prop
  | here {x y : Obj} {ts : List Str} : leaf x y ts → ApartAt T leaf x y ts
  | child {c k : Str} {p p' : Option Str} {s s' : Json} {kids kids' : Dict Obj} {ts : List Str} : k ∈ Dict.keys (T c).children →
      ApartAt T leaf ((Dict.get? kids k).getD (.prim .null)) ((Dict.get? kids' k).getD (.prim .null)) ts →
      ApartAt T leaf (.base c p s kids) (.base c p' s' kids') (k :: ts)
  | elem {b : Builder} {p p' : Option Str} {s s' : Json} {es es' : List Obj} {i : Nat} {x y : Obj} {ts : List Str} :
      es[i]? = some x → es'[i]? = some y → ApartAt T leaf x y ts →
      ApartAt T leaf (.list b p s es) (.list b p' s' es') (Str.ofNat i :: ts)
  | item {b : Builder} {p p' : Option Str} {s s' : Json} {es es' : Dict Obj} {k : Str} {x y : Obj} {ts : List Str} :
      (k, x) ∈ es → Dict.get? es' k = some y → ApartAt T leaf x y ts →
      ApartAt T leaf (.map b p s es) (.map b p' s' es') (k :: ts)

/-- The pointer to a place from a base, composed token by token. -/
def placeAt (base : Option Str) : List Str → Str
  | [] => base.getD []
  | t :: ts => placeAt (some (jpCompose [t] base)) ts

end Pyopenapi.Spec
