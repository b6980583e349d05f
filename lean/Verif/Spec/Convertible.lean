import Verif.Spec.ConvSwagger

/-!
# Specification: the Swagger 2.0 documents that can be converted
-/

namespace Pyopenapi.Spec

/-- The parameters of one list can be converted: they are parts of a form (besides those outside of the body), valid and no
two of one name, or one of them is a body; and every `collectionFormat` can be said. -/
def ParamsFit (consumes : List Str) (fs : List Part) : Prop :=
  ¬ StyleTrouble consumes fs ∧
  (((∀ f ∈ fs, f.isPlain = true ∨ (f.isPart = true ∧ f.Valid)) ∧ ¬ Clash consumes (fs.filter Part.isPart)) ∨
   (∃ l1 f l2, fs = l1 ++ f :: l2 ∧ placeOf f.doc = .body ∧ ValidParam f ∧ ∀ g ∈ l1 ++ l2, g.isPlain = true))

/-- The servers of an operation `e` of the document `d` can be told: it names no schemes, or the document has a host (`ok`
accepts it as the authority of a url) and a base path. -/
def SchemesFit (ok : Str → Bool) (d e : Dict Json) : Prop :=
  listAt e (s% "schemes") = [] ∨ ∃ host b, StringAt d (s% "host") host ∧ StringAt d (s% "basePath") b ∧
    HostText host ∧ BaseText b ∧ ok host = true ∧ (∀ s ∈ strsAt d (s% "schemes"), s ∈ schemes2) ∧
    ∀ s ∈ strsAt e (s% "schemes"), s ∈ schemes2

/-- An operation can be converted, but for its parameters. -/
def OpFits (refs : Refs) (ok : Str → Bool) (d e : Dict Json) : Prop :=
  (∀ kv ∈ objAt e (s% "responses"), HeadersOk (behind refs.resp kv.2)) ∧ SchemesFit ok d e

/-- A path item can be converted.  Either no parameter of its own goes into a body, and those of each operation can be
converted; or some are parts of forms, as those of the operations then are (and all names differ); or one is a body, and
no operation has one. -/
def ItemFits (refs : Refs) (ok : Str → Bool) (d e : Dict Json) : Prop :=
  (∀ p ∈ opsOf e, OpFits refs ok d p.2) ∧
  (((∀ f ∈ paramsOf refs e, f.isPlain = true) ∧ ¬ StyleTrouble (strsAt d (s% "consumes")) (paramsOf refs e) ∧
      ∀ p ∈ opsOf e, ParamsFit (ownOr p.2 (s% "consumes") (strsAt d (s% "consumes"))) (paramsOf refs p.2)) ∨
   (FormsOnly refs e ∧ partsOf refs e ≠ [] ∧ ¬ StyleTrouble (strsAt d (s% "consumes")) (paramsOf refs e) ∧
      ¬ Clash (strsAt d (s% "consumes")) (partsOf refs e ++ (opsOf e).flatMap (fun p => partsOf refs p.2)) ∧
      ∀ p ∈ opsOf e, FormsOnly refs p.2 ∧ strsAt p.2 (s% "consumes") = [] ∧ listAt p.2 (s% "schemes") = [] ∧
        ¬ StyleTrouble (strsAt d (s% "consumes")) (paramsOf refs p.2)) ∨
   (ParamsFit (strsAt d (s% "consumes")) (paramsOf refs e) ∧ (∃ f ∈ paramsOf refs e, placeOf f.doc = .body) ∧
      ∀ p ∈ opsOf e, (∀ f ∈ paramsOf refs p.2, f.isPlain = true) ∧
        ¬ StyleTrouble (ownOr p.2 (s% "consumes") (strsAt d (s% "consumes"))) (paramsOf refs p.2)))

/-- A document can be converted: `host` and `basePath` are strings, it has no (non-empty) `security` (see C58), no path is an
extension, every path item and every shared parameter can be converted, no header of a shared response has a
`collectionFormat` that cannot be said, and every OAuth 2 scheme has a flow. -/
structure Convertible (refs : Refs) (ok : Str → Bool) (d : Dict Json) : Prop where
  host : ∃ s, StringAt d (s% "host") s
  basePath : ∃ s, StringAt d (s% "basePath") s
  security : listAt d (s% "security") = []
  paths : ∀ k e, (k, .obj e) ∈ objAt d (s% "paths") → Str.startsWith k (s% "x-") = false ∧ ItemFits refs ok d e
  parameters : ∀ k e, (k, .obj e) ∈ objAt d (s% "parameters") → ParamsFit [] [⟨e, none⟩]
  responses : ∀ k e, (k, .obj e) ∈ objAt d (s% "responses") → HeadersOk ⟨e, none⟩
  schemes : ∀ k e, (k, .obj e) ∈ objAt d (s% "securityDefinitions") → HasFlow e

end Pyopenapi.Spec
