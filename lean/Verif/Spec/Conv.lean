import Verif.Spec.Obj

/-!
# Specification of the conversion from Swagger 2.0 to OpenAPI 3.0

Relations between raw documents (JSON), written from the two specifications and from what the converters are meant
to keep; nothing here mentions the converters.
-/

namespace Pyopenapi.Spec

/-- The documents of regular shape: an object wherever an object of a class is expected, a list, a map or a string
where one is.  (`Shaped` also describes the irregular values the loader lets through.) -/
inductive Regular (T : Table) : Builder → Json → Prop
  | cls {c : Str} {d : Dict Json} :
      (∀ k cd, (k, cd) ∈ (T c).children → cd.required = true → Dict.get? d k ≠ none) →
      (∀ k cd v, (k, cd) ∈ (T c).children → Dict.get? d k = some v → v ≠ .null → Regular T cd.builder v) →
      Regular T (.cls c) (.obj d)
  | isStr {s : Str} : Regular T .isStr (.str s)
  | str {s : Str} : Regular T .isStrOrInt (.str s)
  | int {n : Int} : Regular T .isStrOrInt (.int n)
  | list {b : Builder} {l : List Json} : (∀ x ∈ l, Regular T b x) → Regular T (.listOf b) (.arr l)
  | map {b : Builder} {d : Dict Json} : (∀ k x, (k, x) ∈ d → Regular T b x) → Regular T (.mapOf b) (.obj d)
  | ref {r : Str} {b : Builder} {d : Dict Json} {v : Json} : Dict.get? d (s% "$ref") = some v →
      Regular T (.cls r) (.obj d) → Regular T (.ifNotRef r b) (.obj d)
  | notRef {r : Str} {b : Builder} {d : Dict Json} : Dict.get? d (s% "$ref") = none → Regular T b (.obj d) →
      Regular T (.ifNotRef r b) (.obj d)
  | bool {b : Builder} {v : Bool} : Regular T (.ifNotBool b) (.bool v)
  | notBool {b : Builder} {j : Json} : (∀ v, j ≠ .bool v) → Regular T b j → Regular T (.ifNotBool b) j

/-- The member `k` of an object, absent when it is `null` (a `null` member means nothing in either
specification). -/
def given (d : Dict Json) (k : Str) : Option Json := (Dict.get? d k).filter (fun v => v ≠ .null)

/-- The member `k`, `null` when absent (`d.get(k)`). -/
def look (d : Dict Json) (k : Str) : Json := (Dict.get? d k).getD .null

/-- `r` has the members `ks` of `d`, with the same values. -/
def Copied (ks : List Str) (d r : Dict Json) : Prop := ∀ k ∈ ks, Dict.get? r k = given d k

/-- `r` has no other members than these. -/
def Only (ks : List Str) (r : Dict Json) : Prop := ∀ k, Dict.get? r k ≠ none → k ∈ ks

/-! ## schemas -/

/-- What JSON Schema keywords a parameter, header or items object can have in Swagger 2.0. -/
def simpleKeywords : List Str := [s% "type", s% "format", s% "default", s% "maximum", s% "exclusiveMaximum",
  s% "minimum", s% "exclusiveMinimum", s% "maxLength", s% "minLength", s% "pattern", s% "maxItems", s% "minItems",
  s% "uniqueItems", s% "enum", s% "multipleOf"]

/-- The keywords of a Swagger 2.0 schema that mean the same in OpenAPI 3.0. -/
def schemaKeywords : List Str := simpleKeywords ++ [s% "title", s% "maxProperties", s% "minProperties",
  s% "description", s% "readOnly", s% "example"]

/-- An external documentation object: the url, and the description when there is one. -/
def DocsTo (d : Dict Json) (r : Json) : Prop :=
  ∃ e, r = .obj e ∧ Dict.get? e (s% "url") = some (look d (s% "url")) ∧
    Dict.get? e (s% "description") = (given d (s% "description")).filter (fun v => v.truthy) ∧
    Only [s% "url", s% "description"] e

/-- An xml object is copied. -/
def XmlTo (d : Dict Json) (r : Json) : Prop :=
  ∃ e, r = .obj e ∧ Copied [s% "name", s% "namespace", s% "prefix", s% "attribute", s% "wrapped"] d e ∧
    Only [s% "name", s% "namespace", s% "prefix", s% "attribute", s% "wrapped"] e

/-- `P` relates the objects at a member of two documents: both absent (or `null`), or both there and related. -/
def Both (d : Dict Json) (k : Str) (r : Dict Json) (P : Dict Json → Json → Prop) : Prop :=
  (given d k = none → Dict.get? r k = none) ∧
  (∀ v, given d k = some v → ∃ e x, v = .obj e ∧ Dict.get? r k = some x ∧ P e x)

/-- The parts of a schema that hold no schema. -/
def SchemaFlat (d r : Dict Json) : Prop :=
  Copied schemaKeywords d r ∧
  Dict.get? r (s% "required") = (match Dict.get? d (s% "required") with
    | some (.arr (x :: l)) => some (.arr (x :: l))
    | _ => none) ∧
  Dict.get? r (s% "discriminator") = (match given d (s% "discriminator") with
    | some v => if v.truthy then some (.obj [(s% "propertyName", v)]) else none
    | none => none) ∧
  Both d (s% "xml") r XmlTo ∧
  Both d (s% "externalDocs") r DocsTo ∧
  Only (schemaKeywords ++ [s% "required", s% "allOf", s% "items", s% "properties", s% "additionalProperties",
    s% "discriminator", s% "xml", s% "externalDocs"]) r

/-- The object is a reference. -/
def IsRef (d : Dict Json) : Prop := (look d (s% "$ref")).truthy = true

/-- `SchemaTo j r`: the OpenAPI 3.0 schema `r` says what the Swagger 2.0 schema `j` says.  A reference stands
alone; a file is a binary string; every other keyword is kept, at every depth, and nothing is added.
`additionalProperties: true` is the default of both specifications and is left out. -/
inductive SchemaTo : Json → Json → Prop
  | ref {d : Dict Json} {v : Json} : Dict.get? d (s% "$ref") = some v → v.truthy = true →
      SchemaTo (.obj d) (.obj [(s% "$ref", v)])
  | file {d : Dict Json} : ¬ IsRef d → Dict.get? d (s% "type") = some (.str (s% "file")) →
      SchemaTo (.obj d) (.obj [(s% "type", .str (s% "string")), (s% "format", .str (s% "binary"))])
  | plain {d r : Dict Json} : ¬ IsRef d → Dict.get? d (s% "type") ≠ some (.str (s% "file")) →
      SchemaFlat d r →
      -- allOf: the list of the conversions
      ((∀ x l, Dict.get? d (s% "allOf") ≠ some (.arr (x :: l))) → Dict.get? r (s% "allOf") = none) →
      (∀ x l, Dict.get? d (s% "allOf") = some (.arr (x :: l)) →
        ∃ l', Dict.get? r (s% "allOf") = some (.arr l') ∧ l'.length = (x :: l).length) →
      (∀ l l' (n : Nat) x y, Dict.get? d (s% "allOf") = some (.arr l) → Dict.get? r (s% "allOf") = some (.arr l') →
        l[n]? = some x → l'[n]? = some y → SchemaTo x y) →
      -- items
      (given d (s% "items") = none ↔ Dict.get? r (s% "items") = none) →
      (∀ v w, given d (s% "items") = some v → Dict.get? r (s% "items") = some w → SchemaTo v w) →
      -- properties: the same names
      ((∀ kv ps, Dict.get? d (s% "properties") ≠ some (.obj (kv :: ps))) → Dict.get? r (s% "properties") = none) →
      (∀ kv ps, Dict.get? d (s% "properties") = some (.obj (kv :: ps)) →
        ∃ qs, Dict.get? r (s% "properties") = some (.obj qs) ∧ Dict.keys qs = Dict.keys (kv :: ps)) →
      (∀ ps qs k v w, Dict.get? d (s% "properties") = some (.obj ps) → Dict.get? r (s% "properties") = some (.obj qs) →
        Dict.get? ps k = some v → Dict.get? qs k = some w → SchemaTo v w) →
      -- additionalProperties
      (given d (s% "additionalProperties") = none ∨ Dict.get? d (s% "additionalProperties") = some (.bool true) ↔
        Dict.get? r (s% "additionalProperties") = none) →
      (Dict.get? d (s% "additionalProperties") = some (.bool false) →
        Dict.get? r (s% "additionalProperties") = some (.bool false)) →
      (∀ v w, given d (s% "additionalProperties") = some v → (∀ b, v ≠ .bool b) →
        Dict.get? r (s% "additionalProperties") = some w → SchemaTo v w) →
      SchemaTo (.obj d) (.obj r)

end Pyopenapi.Spec

namespace Pyopenapi.Spec

/-! ## how arrays are written in parameters -/

/-- How the elements of an array are sent: in one value, with a separator, or one value each. -/
inductive Wire where
  | joined (sep : Char)
  | repeated
  deriving DecidableEq, Repr

/-- Swagger 2.0, Parameter Object, `collectionFormat`: `multi` is for query and form parameters only. -/
def wire2 (cf in_ : Str) : Option Wire :=
  if cf = s% "csv" then some (.joined ',')
  else if cf = s% "ssv" then some (.joined ' ')
  else if cf = s% "tsv" then some (.joined '\t')
  else if cf = s% "pipes" then some (.joined '|')
  else if cf = s% "multi" ∧ (in_ = s% "query" ∨ in_ = s% "formData") then some .repeated
  else none

/-- OpenAPI 3.0, Parameter Object, `style`: the default by location.  The properties of a form are described like
query parameters (Encoding Object). -/
def defaultStyle (in_ : Str) : Str :=
  if in_ = s% "path" ∨ in_ = s% "header" then s% "simple" else s% "form"

/-- OpenAPI 3.0, table of style values: the styles a parameter may have where it is.  (A part of a form may have those of a
query parameter: Encoding Object.) -/
def stylesAt (in_ : Str) : List Str :=
  if in_ = s% "path" then [s% "matrix", s% "label", s% "simple"]
  else if in_ = s% "header" then [s% "simple"]
  else if in_ = s% "cookie" then [s% "form"]
  else if in_ = s% "query" ∨ in_ = s% "formData" then [s% "form", s% "spaceDelimited", s% "pipeDelimited", s% "deepObject"]
  else []

/-- OpenAPI 3.0, Parameter Object, `explode`: true by default for style `form` only; and the table of style
values for arrays. -/
def wire3 (style : Str) (explode : Option Bool) : Option Wire :=
  let ex := explode.getD (style = s% "form")
  if style = s% "form" then some (if ex then .repeated else .joined ',')
  else if style = s% "simple" then some (.joined ',')
  else if style = s% "spaceDelimited" then some (if ex then .repeated else .joined ' ')
  else if style = s% "pipeDelimited" then some (if ex then .repeated else .joined '|')
  else none

/-- What an OpenAPI 3.0 parameter (or header, with `in_` given) says about arrays. -/
def wireOf (in_ : Str) (r : Dict Json) : Option Wire :=
  let style := match Dict.get? r (s% "style") with
    | some (.str s) => s
    | _ => defaultStyle in_
  wire3 style (match Dict.get? r (s% "explode") with
    | some (.bool b) => some b
    | _ => none)

end Pyopenapi.Spec
