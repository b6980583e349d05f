import Verif.Spec.MainDoc

/-!
# Specification: the parameters of an operation and those of its path

Both in Swagger 2.0 and in OpenAPI 3.0 the parameters of a path item hold for all of its operations, but for those an operation
has another parameter with the same `name` and `in` for.
-/

namespace Pyopenapi.Spec

/-- The parameters that hold for an operation: its own, and those of the path (`shared`) it does not have a parameter of the
same identity for. -/
def effective {α : Type} (ident : α → Json × Json) (shared own : List α) : List α :=
  own ++ shared.filter (fun f => decide (ident f ∉ own.map ident))

/-- What identifies a parameter of 2.0. -/
def Part.ident (f : Part) : Json × Json := (look f.doc (s% "name"), look f.doc (s% "in"))

/-- What identifies a parameter of 3.0. -/
def ident3 : Json → Json × Json
  | .obj e => (look e (s% "name"), look e (s% "in"))
  | _ => (.null, .null)

/-- The parameters outside of the body that are written down in `d`, in 2.0. -/
def plainsOf (refs : Refs) (d : Dict Json) : List Part := (paramsOf refs d).filter Part.isPlain

/-- What the parameter `y` of the converted document `r` is: itself, or the entry of `components.parameters` the reference to a
shared parameter is to.  (The converter keeps references as they were written; that they lead to that entry in the document that
is made of `r` is `RefersTo` of C86.) -/
def lead3 (r : Dict Json) (y : Json) : Json :=
  match y with
  | .obj e =>
    match Dict.get? e (s% "$ref") with
    | none => .obj e
    | some v => ((objAt (objAt r (s% "components")) (s% "parameters")).findSome?
        (fun p => if v = .str (pointer [s% "parameters", p.1]) then some p.2 else none)).getD .null
  | y => y

end Pyopenapi.Spec
