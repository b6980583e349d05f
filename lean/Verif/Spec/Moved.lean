import Verif.Spec.ConvDoc

/-!
# Specification: path items that say everything themselves
-/

namespace Pyopenapi.Spec

/-- Nothing of the operation `d` is left to the document: its media types are its own, unless it has no body, no response
with a schema (of other than a file), and it names no schemes (which are put before the host of the document). -/
structure OpSaysAll (refs : Refs) (d : Dict Json) : Prop where
  consumes : strsAt d (s% "consumes") ≠ [] ∨ ∀ f ∈ paramsOf refs d, f.isPlain = true
  produces : strsAt d (s% "produces") ≠ [] ∨
    ∀ kv ∈ objAt d (s% "responses"), ∀ s, given (behind refs.resp kv.2).doc (s% "schema") = some s → IsFile s
  schemes : listAt d (s% "schemes") = []

/-- Nothing of the path item `d` is left to the document. -/
structure ItemSaysAll (refs : Refs) (d : Dict Json) : Prop where
  shared : ∀ f ∈ paramsOf refs d, f.isPlain = true
  ops : ∀ p ∈ opsOf d, OpSaysAll refs p.2

end Pyopenapi.Spec
