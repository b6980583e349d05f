import Verif.Spec.ConvParam

/-!
# Specification of the conversion of responses, operations, path items and whole documents
-/

namespace Pyopenapi.Spec

/-- Where references lead: the documents of the parameters and responses, by the value of `$ref`. -/
structure Refs where
  param : Json → Option (Dict Json)
  resp : Json → Option (Dict Json)

/-- What stands at a place for an object or a reference: the object, or the one the reference leads to. -/
def behind (find : Json → Option (Dict Json)) : Json → Part
  | .obj d =>
    match Dict.get? d (s% "$ref") with
    | none => ⟨d, none⟩
    | some v => ⟨(find v).getD [], some v⟩
  | _ => ⟨[], none⟩

/-- The object is no reference, or one that leads somewhere. -/
def Resolves (find : Json → Option (Dict Json)) (j : Json) : Prop :=
  ∀ d v, j = .obj d → Dict.get? d (s% "$ref") = some v → v.truthy = true ∧ find v ≠ none

/-- The list at `k`: empty when there is none. -/
def listAt (d : Dict Json) (k : Str) : List Json :=
  match Dict.get? d k with
  | some (.arr l) => l
  | _ => []

/-- The object at `k`: empty when there is none. -/
def objAt (d : Dict Json) (k : Str) : Dict Json :=
  match Dict.get? d k with
  | some (.obj e) => e
  | _ => []

/-- The strings of the list at `k`. -/
def strsAt (d : Dict Json) (k : Str) : List Str :=
  (listAt d k).filterMap (fun x => match x with
    | .str s => some s
    | _ => none)

/-- The list of the operation, or that of the document when the operation has none. -/
def ownOr (d : Dict Json) (k : Str) (dflt : List Str) : List Str :=
  if strsAt d k = [] then dflt else strsAt d k

/-- `r` has at `k` a list of as many as `d`, element by element related; neither has an empty list. -/
def ListTo (d : Dict Json) (k : Str) (r : Dict Json) (P : Json → Json → Prop) : Prop :=
  (listAt d k = [] → Dict.get? r k = none) ∧
  (listAt d k ≠ [] → ∃ l, Dict.get? r k = some (.arr l) ∧ List.Forall₂ P (listAt d k) l)

/-- A dictionary with the same keys in the same order, entry by entry related. -/
def EntriesTo (P : Json → Json → Prop) (d r : Dict Json) : Prop :=
  List.Forall₂ (fun x y => x.1 = y.1 ∧ P x.2 y.2) d r

/-- `r` has at `k'` a map with the keys `d` has at `k`, entry by entry related; an empty map is left out. -/
def MapTo (d : Dict Json) (k : Str) (r : Dict Json) (k' : Str) (P : Json → Json → Prop) : Prop :=
  (objAt d k = [] → Dict.get? r k' = none) ∧
  (objAt d k ≠ [] → ∃ m, Dict.get? r k' = some (.obj m) ∧ EntriesTo P (objAt d k) m)

/-- A non-empty list is kept, an empty one left out. -/
def ListKept (d : Dict Json) (k : Str) (r : Dict Json) : Prop :=
  Dict.get? r k = if listAt d k = [] then none else some (.arr (listAt d k))

/-! ## responses -/

/-- The schema is that of a file. -/
def IsFile (s : Json) : Prop := ∃ e, s = .obj e ∧ look e (s% "type") = .str (s% "file")

/-- The media types of a response: those of `produces`, or a default by the type of the schema. -/
def responseTypes (produces : List Str) (s : Json) : List Str :=
  if produces = [] then
    [match s with
      | .obj e => if look e (s% "type") = .str (s% "object") then s% "application/json" else s% "text/plain"
      | _ => s% "text/plain"]
  else produces

/-- The content of a response: the schema, under every media type. -/
def ContentTo (produces : List Str) (s : Json) (content : Dict Json) : Prop :=
  ∃ x, SchemaTo s x ∧
    ∀ t, Dict.get? content t = if t ∈ responseTypes produces s then some (.obj [(s% "schema", x)]) else none

/-- A response.  (`FileContent` is what is made of a file.) -/
def ResponseTo (FileContent : Dict Json → Prop) (produces : List Str) (f : Part) (r : Json) : Prop :=
  ∃ e, r = .obj e ∧
    (∀ v, f.ref = some v → given f.doc (s% "schema") = none → e = [(s% "$ref", v)]) ∧
    ((f.ref = none ∨ given f.doc (s% "schema") ≠ none) →
      Copied [s% "description"] f.doc e ∧
      (given f.doc (s% "schema") = none → Dict.get? e (s% "content") = none) ∧
      (∀ s, given f.doc (s% "schema") = some s → ∃ content, Dict.get? e (s% "content") = some (.obj content) ∧
        (¬ IsFile s → ContentTo produces s content) ∧ (IsFile s → FileContent content)) ∧
      MapTo f.doc (s% "headers") e (s% "headers") (fun x y => ∃ d r, x = .obj d ∧ y = .obj r ∧ HeaderTo d r) ∧
      Only [s% "description", s% "content", s% "headers"] e)

/-- What the converter makes of a file: no schema, its members in the media type itself. -/
def BareFile (content : Dict Json) : Prop :=
  content = [(s% "application/octet-stream", .obj [(s% "type", .str (s% "string")), (s% "format", .str (s% "binary"))])]

/-! ## operations and path items -/

/-- The members of a converted operation. -/
def operationMembers : List Str := [s% "summary", s% "description", s% "operationId", s% "deprecated", s% "tags",
  s% "security", s% "parameters", s% "requestBody", s% "responses", s% "externalDocs", s% "servers"]

/-- The parameters of an operation or a path item. -/
def paramsOf (refs : Refs) (d : Dict Json) : List Part := (listAt d (s% "parameters")).map (behind refs.param)

/-- The references of the parameters lead somewhere. -/
def ParamsResolve (refs : Refs) (d : Dict Json) : Prop := ∀ j ∈ listAt d (s% "parameters"), Resolves refs.param j

/-- All references of an operation lead somewhere. -/
def OpResolves (refs : Refs) (d : Dict Json) : Prop :=
  ParamsResolve refs d ∧ ∀ kv ∈ objAt d (s% "responses"), Resolves refs.resp kv.2

/-- The parameters outside of the body, in order. -/
def ParamsTo (refs : Refs) (d r : Dict Json) : Prop :=
  ((paramsOf refs d).filter Part.isPlain = [] → Dict.get? r (s% "parameters") = none) ∧
  ((paramsOf refs d).filter Part.isPlain ≠ [] → ∃ ps, Dict.get? r (s% "parameters") = some (.arr ps) ∧
    List.Forall₂ PlainTo ((paramsOf refs d).filter Part.isPlain) ps)

/-- An operation, but for its request body and its servers. -/
def OperationTo (refs : Refs) (produces : List Str) (d r : Dict Json) : Prop :=
  Copied [s% "summary", s% "description", s% "operationId", s% "deprecated"] d r ∧
  ListKept d (s% "tags") r ∧
  ListKept d (s% "security") r ∧
  ParamsTo refs d r ∧
  MapTo d (s% "responses") r (s% "responses")
    (fun x y => ResponseTo BareFile (ownOr d (s% "produces") produces) (behind refs.resp x) y) ∧
  Both d (s% "externalDocs") r DocsTo ∧
  (listAt d (s% "schemes") = [] ↔ Dict.get? r (s% "servers") = none) ∧
  Only operationMembers r

/-- The methods of a path item in Swagger 2.0. -/
def methods2 : List Str := [s% "get", s% "put", s% "post", s% "delete", s% "options", s% "head", s% "patch"]

/-- The operations of a path item, in the order of `methods2`. -/
def opsOf (d : Dict Json) : List (Str × Dict Json) :=
  methods2.filterMap (fun m => match Dict.get? d m with
    | some (.obj e) => some (m, e)
    | _ => none)

/-- All references of a path item lead somewhere. -/
def PathResolves (refs : Refs) (d : Dict Json) : Prop :=
  ParamsResolve refs d ∧ ∀ p ∈ opsOf d, OpResolves refs p.2

/-- A path item: the same operations, converted, and the parameters outside of the body. -/
def PathItemTo (refs : Refs) (produces : List Str) (d r : Dict Json) : Prop :=
  (∀ m ∈ methods2, Both d m r (fun e y => ∃ x, y = .obj x ∧ OperationTo refs produces e x)) ∧
  ParamsTo refs d r ∧
  ((look d (s% "$ref")).truthy = true ↔ Dict.get? r (s% "$ref") ≠ none) ∧
  Only (methods2 ++ [s% "$ref", s% "parameters", s% "x-pyopenapi_internal_request_body"]) r

/-- The request body `b` is that of the parameters `fs`: the form of the parts, or the body, or none.  (Nothing is said
of a body beside parts of a form, which Swagger 2.0 does not allow.) -/
def RequestOf (consumes : List Str) (fs : List Part) (b : Option Json) : Prop :=
  ((∀ f ∈ fs, f.isPlain = true) → b = none) ∧
  ((∀ f ∈ fs, f.isPlain = true ∨ f.isPart = true) → (∃ f ∈ fs, f.isPart = true) →
    ∃ e, b = some (.obj e) ∧ FormBody consumes (fs.filter Part.isPart) e) ∧
  (∀ l1 f l2, fs = l1 ++ f :: l2 → placeOf f.doc = .body → (∀ g ∈ l1 ++ l2, g.isPlain = true) →
    ∃ e, b = some (.obj e) ∧ BodyTo consumes f.doc e)

/-- Parameters that are valid in Swagger 2.0: the parts have names and no schema, and no body is a file. -/
def ValidParam (f : Part) : Prop :=
  (f.isPart = true → f.Valid) ∧
  (placeOf f.doc = .body → ∀ s, given f.doc (s% "schema") = some s → ¬ IsFile s)

end Pyopenapi.Spec

namespace Pyopenapi.Spec

/-- No header of the response has a `collectionFormat` that cannot be said. -/
def HeadersOk (f : Part) : Prop :=
  ∀ k d, Dict.get? (objAt f.doc (s% "headers")) k = some (.obj d) →
    ¬ BadStyle d (.str (s% "header")) (look d (s% "type"))

/-- The parts of forms among the parameters. -/
def partsOf (refs : Refs) (d : Dict Json) : List Part := (paramsOf refs d).filter Part.isPart

/-- Parameters of forms only (besides those outside of the body), valid ones. -/
def FormsOnly (refs : Refs) (d : Dict Json) : Prop :=
  ∀ f ∈ paramsOf refs d, f.isPlain = true ∨ (f.isPart = true ∧ f.Valid)

end Pyopenapi.Spec
