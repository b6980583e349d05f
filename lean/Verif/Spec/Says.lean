import Verif.Base.Json

/-!
# Specification: the version a document tells
-/

namespace Pyopenapi.Spec

/-- The keys under which a document may tell its version, in the order they are looked for (1.2, 2.0, 3.0). -/
def versionKeys : List Str := [s% "swaggerVersion", s% "swagger", s% "openapi"]

/-- The document tells that it is of version `v`; for `none`: it has none of the keys. -/
def SaysVersion : Json → Option Str → Prop
  | .obj d, v => versionKeys.findSome? (fun k => Dict.get? d k) = v.map Json.str
  | _, _ => False

end Pyopenapi.Spec
