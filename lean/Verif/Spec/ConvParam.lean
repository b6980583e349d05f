import Verif.Spec.Conv
import Batteries.Data.List.Basic

/-!
# Specification of the conversion of parameters, headers, bodies and responses
-/

namespace Pyopenapi.Spec

/-- An items object of Swagger 2.0 as a schema: every keyword kept at every depth, nothing added.
(`collectionFormat` of nested arrays has no equivalent in OpenAPI 3.0.) -/
inductive ItemsTo : Json → Json → Prop
  | mk {d r : Dict Json} : Copied simpleKeywords d r →
      (given d (s% "items") = none ↔ Dict.get? r (s% "items") = none) →
      (∀ v w, given d (s% "items") = some v → Dict.get? r (s% "items") = some w → ItemsTo v w) →
      Only (simpleKeywords ++ [s% "items"]) r → ItemsTo (.obj d) (.obj r)

/-- The schema of a parameter or header, whose keywords stand in the object itself in Swagger 2.0. -/
def SimpleTo (d r : Dict Json) : Prop := ItemsTo (.obj d) (.obj r)

/-- The object says something about the type of the value. -/
def Typed (d : Dict Json) : Prop := ∃ k ∈ simpleKeywords ++ [s% "items"], given d k ≠ none

/-- Where `collectionFormat` is given and has an equivalent, it is kept: the arrays are sent the same way.
(`tsv` has none, and Swagger 2.0 has no `multi` outside of queries and forms.) -/
def StyleKept (d : Dict Json) (in_ : Str) (r : Dict Json) : Prop :=
  ∀ cf w, Dict.get? d (s% "collectionFormat") = some (.str cf) → cf ≠ s% "tsv" → wire2 cf in_ = some w →
    wireOf in_ r = some w

/-- A parameter that is not in the body. -/
def ParamTo (d r : Dict Json) : Prop :=
  Copied [s% "description", s% "required", s% "allowEmptyValue"] d r ∧
  Dict.get? r (s% "name") = some (look d (s% "name")) ∧
  Dict.get? r (s% "in") = some (look d (s% "in")) ∧
  (¬ Typed d → Dict.get? r (s% "schema") = none) ∧
  (Typed d → ∃ s, Dict.get? r (s% "schema") = some (.obj s) ∧ SimpleTo d s) ∧
  (∀ in_, Dict.get? d (s% "in") = some (.str in_) → in_ ∈ [s% "query", s% "path", s% "header"] → StyleKept d in_ r) ∧
  (Dict.get? d (s% "collectionFormat") = none → Dict.get? r (s% "style") = none ∧ Dict.get? r (s% "explode") = none) ∧
  Only [s% "description", s% "required", s% "allowEmptyValue", s% "name", s% "in", s% "schema", s% "style",
    s% "explode"] r

/-- A header of a response. -/
def HeaderTo (d r : Dict Json) : Prop :=
  Copied [s% "description"] d r ∧
  (∃ s, Dict.get? r (s% "schema") = some (.obj s) ∧ SimpleTo d s) ∧
  StyleKept d (s% "header") r ∧
  (Dict.get? d (s% "collectionFormat") = none → Dict.get? r (s% "style") = none ∧ Dict.get? r (s% "explode") = none) ∧
  Only [s% "description", s% "schema", s% "style", s% "explode"] r

/-- `collectionFormat` asks for what cannot be said in OpenAPI 3.0 (or what the converter refuses): spaces or pipes
outside of arrays in queries. -/
def BadStyle (d : Dict Json) (in_ type_ : Json) : Prop :=
  (Dict.get? d (s% "collectionFormat") = some (.str (s% "ssv")) ∨
    Dict.get? d (s% "collectionFormat") = some (.str (s% "pipes"))) ∧
  (in_ ≠ .str (s% "query") ∨ type_ ≠ .str (s% "array"))

/-! ## parameters in the body -/

/-- What a parameter of Swagger 2.0 is: a part of a form (a file or not), the body, or neither. -/
inductive Place where
  | plain
  | part (file : Bool)
  | body
  deriving DecidableEq, Repr

/-- The place of a parameter. -/
def placeOf (d : Dict Json) : Place :=
  if look d (s% "type") = .str (s% "file") then .part true
  else if look d (s% "in") = .str (s% "formData") then .part false
  else if look d (s% "in") = .str (s% "body") then .body
  else .plain

/-- The media types of forms. -/
def formTypes : List Str := [s% "application/x-www-form-urlencoded", s% "multipart/form-data"]

/-- The media types in which a file can be sent. -/
def fileTypes : List Str := formTypes ++ [s% "application/octet-stream", s% "application/pdf", s% "image/*",
  s% "image/gif", s% "image/png", s% "image/jpeg", s% "image/bmp", s% "image/webp", s% "audio/*", s% "audio/midi",
  s% "audio/mpeg", s% "audio/webm", s% "audio/ogg", s% "audio/wav", s% "video/*", s% "video/webm", s% "video/ogg"]

/-- The media types of a part: those of `consumes` that fit it, or the default. -/
def partTypes (consumes : List Str) (file : Bool) : List Str :=
  match consumes.filter (fun t => t ∈ if file then fileTypes else formTypes) with
  | [] => [if file then s% "multipart/form-data" else s% "application/x-www-form-urlencoded"]
  | l => l

/-- The media types of a body. -/
def bodyTypes (consumes : List Str) : List Str := if consumes = [] then [s% "application/json"] else consumes

/-- A part of a form: the parameter, and the reference it stands behind (if any). -/
structure Part where
  doc : Dict Json
  ref : Option Json

/-- The name of a part. -/
def Part.name (f : Part) : Str :=
  match Dict.get? f.doc (s% "name") with
  | some (.str n) => n
  | _ => []

/-- The part is required. -/
def Part.required (f : Part) : Bool := (look f.doc (s% "required")).truthy

/-- The part is a file. -/
def Part.file (f : Part) : Bool := decide (look f.doc (s% "type") = .str (s% "file"))

/-- A part that is valid in Swagger 2.0: it has a name and no schema, `required` is not a list. -/
def Part.Valid (f : Part) : Prop :=
  (∃ n, Dict.get? f.doc (s% "name") = some (.str n)) ∧
  (look f.doc (s% "type") = .str (s% "file") ∨ look f.doc (s% "in") = .str (s% "formData")) ∧
  given f.doc (s% "schema") = none ∧
  (∀ l, Dict.get? f.doc (s% "required") ≠ some (.arr l))

/-- The schema of a part, before `nullable`. -/
def PartSchema (f : Part) (r : Dict Json) : Prop :=
  match f.ref with
  | some v => r = [(s% "$ref", v)]
  | none =>
    if f.file then r = [(s% "type", .str (s% "string")), (s% "format", .str (s% "binary"))]
    else Copied (simpleKeywords ++ [s% "description"]) f.doc r ∧
      (given f.doc (s% "items") = none → Dict.get? r (s% "items") = none) ∧
      (∀ v, given f.doc (s% "items") = some v → ∃ w, Dict.get? r (s% "items") = some w ∧ ItemsTo v w) ∧
      Only (simpleKeywords ++ [s% "description", s% "items"]) r

/-- The property of a part: its schema, nullable when the value may be empty. -/
def PropTo (f : Part) (r : Dict Json) : Prop :=
  ∃ r0, PartSchema f r0 ∧ (∀ k, k ≠ s% "nullable" → Dict.get? r k = Dict.get? r0 k) ∧
    Dict.get? r (s% "nullable") = if look f.doc (s% "allowEmptyValue") = .bool true then some (.bool true) else none

/-- The media type of a value of such a type (OpenAPI 3.0, Encoding Object, `contentType`). -/
inductive ValueType : Json → Str → Prop
  | file {d : Dict Json} : look d (s% "type") = .str (s% "file") → ValueType (.obj d) (s% "application/octet-stream")
  | object {d : Dict Json} : look d (s% "type") = .str (s% "object") → ValueType (.obj d) (s% "application/json")
  | array {d : Dict Json} {v : Json} {m : Str} : look d (s% "type") = .str (s% "array") →
      given d (s% "items") = some v → ValueType v m → ValueType (.obj d) m
  | bare {d : Dict Json} : look d (s% "type") = .str (s% "array") → given d (s% "items") = none →
      ValueType (.obj d) (s% "text/plain")
  | plain {d : Dict Json} : look d (s% "type") ∉ [Json.str (s% "file"), .str (s% "object"), .str (s% "array")] →
      ValueType (.obj d) (s% "text/plain")

/-- The encoding of a part: the media type of its value, and nothing else for a part in `formData`.  (The style is
written only for a file that is said to be elsewhere.) -/
def EncodingTo (d e : Dict Json) : Prop :=
  (∃ c, Dict.get? e (s% "contentType") = some (.str c) ∧ ValueType (.obj d) c) ∧
  Only [s% "contentType", s% "style", s% "explode"] e ∧
  (look d (s% "in") = .str (s% "formData") → Only [s% "contentType"] e)

/-- The media type object `m` of a form with parts `qs`, under the media type `t`: one property for each part, in
order; the names of the required ones; an encoding for each in forms. -/
def FormTo (t : Str) (qs : List Part) (m : Dict Json) : Prop :=
  ∃ schema props, Dict.get? m (s% "schema") = some (.obj schema) ∧
    Dict.get? schema (s% "properties") = some (.obj props) ∧
    Dict.keys props = qs.map Part.name ∧
    (∀ f ∈ qs, ∃ p, Dict.get? props f.name = some (.obj p) ∧ PropTo f p) ∧
    Dict.get? schema (s% "required") = (match (qs.filter Part.required).map (fun f => Json.str f.name) with
      | [] => none
      | l => some (.arr l)) ∧
    Only [s% "properties", s% "required"] schema ∧
    (t ∈ formTypes → ∃ encs, Dict.get? m (s% "encoding") = some (.obj encs) ∧
      Dict.keys encs = qs.map Part.name ∧
      ∀ f ∈ qs, ∃ e, Dict.get? encs f.name = some (.obj e) ∧ EncodingTo f.doc e) ∧
    (t ∉ formTypes → Dict.get? m (s% "encoding") = none) ∧
    Only [s% "schema", s% "encoding"] m

/-- The request body of a form with parts `fs`. -/
def FormBody (consumes : List Str) (fs : List Part) (b : Dict Json) : Prop :=
  (∃ content, Dict.get? b (s% "content") = some (.obj content) ∧
    ∀ t, match fs.filter (fun f => t ∈ partTypes consumes f.file) with
      | [] => Dict.get? content t = none
      | q :: qs => ∃ m, Dict.get? content t = some (.obj m) ∧ FormTo t (q :: qs) m) ∧
  Dict.get? b (s% "required") = (if fs.any Part.required then some (.bool true) else none) ∧
  Only [s% "content", s% "required"] b

/-- Two parts with one name in one media type. -/
def Clash (consumes : List Str) (fs : List Part) : Prop :=
  ∃ t, ¬ ((fs.filter (fun f => t ∈ partTypes consumes f.file)).map Part.name).Nodup

/-- The request body made of a body parameter. -/
def BodyTo (consumes : List Str) (d b : Dict Json) : Prop :=
  (∃ content s, Dict.get? b (s% "content") = some (.obj content) ∧
    (match given d (s% "schema") with
      | none => s = .obj []
      | some j => SchemaTo j s) ∧
    (∀ t, Dict.get? content t = if t ∈ bodyTypes consumes then some (.obj [(s% "schema", s)]) else none)) ∧
  Dict.get? b (s% "required") = (if (look d (s% "required")).truthy then some (.bool true) else none) ∧
  Dict.get? b (s% "description") = given d (s% "description") ∧
  Only [s% "content", s% "required", s% "description"] b

end Pyopenapi.Spec

namespace Pyopenapi.Spec

/-- A parameter outside of the body: a reference stays, anything else is converted. -/
def PlainTo (f : Part) (r : Json) : Prop :=
  match f.ref with
  | some v => r = .obj [(s% "$ref", v)]
  | none => ∃ e, r = .obj e ∧ ParamTo f.doc e

/-- The parameter is a part of a form. -/
def Part.isPart (f : Part) : Bool := decide (placeOf f.doc ≠ .plain ∧ placeOf f.doc ≠ .body)

/-- The parameter is outside of the body. -/
def Part.isPlain (f : Part) : Bool := decide (placeOf f.doc = .plain)

/-- `collectionFormat` of some parameter cannot be converted.  (References to parameters outside of bodies are not
followed, and media types other than those of forms have no encodings.) -/
def StyleTrouble (consumes : List Str) (fs : List Part) : Prop :=
  ∃ f ∈ fs, BadStyle f.doc (look f.doc (s% "in")) (look f.doc (s% "type")) ∧
    ((f.isPlain = true ∧ f.ref = none) ∨ (f.isPart = true ∧ ∃ t ∈ partTypes consumes f.file, t ∈ formTypes))

end Pyopenapi.Spec
