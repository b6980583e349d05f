import Verif.Spec.ConvDoc
import Verif.Spec.Pointer

/-!
# Specification of the conversion from Swagger 1.2 to Swagger 2.0

Relations between raw documents.  `Numbers` is what Python makes of a bound: `float(x)` and `int(float(x))`.
-/

namespace Pyopenapi.Spec

/-- The name of a model of a resource among the definitions of the 2.0 document: the resource path without its first
character, the separator and the id of the model; one of them alone when the other is empty. -/
def modelName (sep path id : Str) : Str :=
  if path.drop 1 = [] then id else if id = [] then path.drop 1 else path.drop 1 ++ sep ++ id

/-- A reference to that model. -/
def modelRef (sep path id : Str) : Str := s% "#/definitions/" ++ modelName sep path id

/-- The types of Swagger 1.2 that are no models. -/
def Primitive (t : Str) : Prop := t ∈ [s% "integer", s% "number", s% "string", s% "boolean", s% "array", s% "void"]

instance (t : Str) : Decidable (Primitive t) := inferInstanceAs (Decidable (_ ∈ _))

/-- A non-empty string. -/
def textOf : Json → Option Str
  | .str (c :: s) => some (c :: s)
  | _ => none

/-- The primitive type of a data type. -/
def primitiveOf (d : Dict Json) : Option Str := (textOf (look d (s% "type"))).filter (fun t => Primitive t)

/-- The model a data type refers to: as its type, or as its `$ref`. -/
def modelOf (d : Dict Json) : Option Str :=
  ((textOf (look d (s% "type"))).filter (fun t => ¬ Primitive t)).or (textOf (look d (s% "$ref")))

/-- The type of a data type, and its reference. -/
def TypeTo (sep path : Str) (d r : Dict Json) : Prop :=
  Dict.get? r (s% "type") = (primitiveOf d).map .str ∧
  Dict.get? r (s% "$ref") = (modelOf d).map (fun m => .str (modelRef sep path m))

/-- `float(x)` and `int(float(x))`, as relations. -/
structure Numbers where
  float : Json → Json → Prop
  whole : Json → Json → Prop

/-- A bound of a data type: a whole number for integers, a number for numbers; there is none when the data type has
none (or an empty one). -/
def BoundTo (num : Numbers) (d : Dict Json) (k : Str) (r : Dict Json) : Prop :=
  if (look d k).truthy then
    (look d (s% "type") = .str (s% "integer") ∧ ∃ n, num.whole (look d k) n ∧ Dict.get? r k = some n) ∨
    (look d (s% "type") = .str (s% "number") ∧ ∃ n, num.float (look d k) n ∧ Dict.get? r k = some n)
  else Dict.get? r k = none

/-- A schema made of a data type (a property, a body, what an operation returns). -/
def DataTypeTo (num : Numbers) (sep path : Str) (d r : Dict Json) : Prop :=
  TypeTo sep path d r ∧
  Dict.get? r (s% "format") = Dict.get? d (s% "format") ∧
  Dict.get? r (s% "default") = Dict.get? d (s% "defaultValue") ∧
  BoundTo num d (s% "minimum") r ∧ BoundTo num d (s% "maximum") r ∧
  Dict.get? r (s% "uniqueItems") = some (look d (s% "uniqueItems")) ∧
  Dict.get? r (s% "enum") = some (look d (s% "enum")) ∧
  (given d (s% "items") = none → Dict.get? r (s% "items") = none) ∧
  (∀ e, given d (s% "items") = some (.obj e) → ∃ i, Dict.get? r (s% "items") = some (.obj i) ∧ TypeTo sep path e i ∧
    Dict.get? i (s% "format") = some (look e (s% "format")) ∧ Only [s% "type", s% "$ref", s% "format"] i) ∧
  Only [s% "type", s% "$ref", s% "format", s% "default", s% "minimum", s% "maximum", s% "uniqueItems", s% "enum", s% "items"] r

/-- The items of a repeated parameter, or of a parameter that is an array: a primitive type and its format. -/
def Items12To (d i : Dict Json) : Prop :=
  (∃ t, primitiveOf d = some t ∧ Dict.get? i (s% "type") = some (.str t)) ∧
  Dict.get? i (s% "format") = Dict.get? d (s% "format")

/-- Where a parameter is: `form` is called `formData`. -/
def placeTo (p : Json) : Json := if p = .str (s% "form") then .str (s% "formData") else p

/-- What all parameters have. -/
def ParamHeadTo (d r : Dict Json) : Prop :=
  (∀ k ∈ [s% "name", s% "required", s% "description"], Dict.get? r k = Dict.get? d k) ∧
  Dict.get? r (s% "in") = some (placeTo (look d (s% "paramType")))

/-- The parameter can be given several times, and says nothing of its items. -/
def Repeats (d : Dict Json) : Prop := look d (s% "allowMultiple") = .bool true ∧ given d (s% "items") = none

instance (d : Dict Json) : Decidable (Repeats d) := inferInstanceAs (Decidable (_ ∧ _))

/-- A repeated parameter is an array, with commas, of the primitive type, its format and its enum; its default is the
only element of the default. -/
def RepeatedTo (d r : Dict Json) : Prop :=
  Dict.get? r (s% "type") = some (.str (s% "array")) ∧
  Dict.get? r (s% "collectionFormat") = some (.str (s% "csv")) ∧
  Dict.get? r (s% "uniqueItems") = Dict.get? d (s% "uniqueItems") ∧
  Dict.get? r (s% "default") = (Dict.get? d (s% "defaultValue")).map (fun v => .arr [v]) ∧
  ∃ i, Dict.get? r (s% "items") = some (.obj i) ∧ Items12To d i ∧ Dict.get? i (s% "enum") = some (look d (s% "enum")) ∧
    Only [s% "type", s% "format", s% "enum"] i

/-- Any other parameter: `lower` is `str.lower`. -/
def SingleTo (num : Numbers) (lower : Str → Str) (d r : Dict Json) : Prop :=
  (∃ t, look d (s% "type") = .str t ∧ Dict.get? r (s% "type") = some (.str (lower t))) ∧
  Dict.get? r (s% "format") = Dict.get? d (s% "format") ∧
  Dict.get? r (s% "default") = Dict.get? d (s% "defaultValue") ∧
  BoundTo num d (s% "minimum") r ∧ BoundTo num d (s% "maximum") r ∧
  Dict.get? r (s% "enum") = some (look d (s% "enum")) ∧
  (given d (s% "items") = none → Dict.get? r (s% "items") = none ∧ Dict.get? r (s% "collectionFormat") = none ∧
    Dict.get? r (s% "uniqueItems") = none) ∧
  (∀ e, given d (s% "items") = some (.obj e) →
    Dict.get? r (s% "collectionFormat") = some (.str (s% "csv")) ∧
    Dict.get? r (s% "uniqueItems") = Dict.get? d (s% "uniqueItems") ∧
    ∃ i, Dict.get? r (s% "items") = some (.obj i) ∧ Items12To e i ∧ Only [s% "type", s% "format"] i)

/-- A converted parameter. -/
def ParameterTo (num : Numbers) (lower : Str → Str) (sep path : Str) (d r : Dict Json) : Prop :=
  ParamHeadTo d r ∧
  (look d (s% "paramType") = .str (s% "body") →
    (∃ s, Dict.get? r (s% "schema") = some (.obj s) ∧ DataTypeTo num sep path d s) ∧
    Only [s% "name", s% "required", s% "description", s% "in", s% "schema"] r) ∧
  (look d (s% "paramType") ≠ .str (s% "body") →
    textOf (look d (s% "$ref")) = none ∧
    (Repeats d → RepeatedTo d r ∧ Only [s% "name", s% "required", s% "description", s% "in", s% "type", s% "collectionFormat",
      s% "uniqueItems", s% "items", s% "default"] r) ∧
    (¬ Repeats d → SingleTo num lower d r ∧ Only [s% "name", s% "required", s% "description", s% "in", s% "type", s% "format",
      s% "default", s% "minimum", s% "maximum", s% "enum", s% "collectionFormat", s% "uniqueItems", s% "items"] r))

/-! ## operations -/

/-- The string at `k`. -/
def textAt (d : Dict Json) (k : Str) : Str :=
  match Dict.get? d k with
  | some (.str s) => s
  | _ => []

/-- The objects of the list at `k`. -/
def dictsAt (d : Dict Json) (k : Str) : List (Dict Json) :=
  (listAt d k).filterMap (fun x => match x with
    | .obj e => some e
    | _ => none)

/-- The path of a resource. -/
def resourcePath (decl : Dict Json) : Str := textAt decl (s% "resourcePath")

/-- The value of the operation, or that of its resource when the operation has none (or an empty one). -/
def ownElse (decl op : Dict Json) (k : Str) : Option Json :=
  if (look op k).truthy then some (look op k) else if (look decl k).truthy then some (look decl k) else none

/-- The scopes of a list of authorizations. -/
def scopesTo : Json → List Json
  | .arr es => es.map (fun e => match e with
    | .obj d => look d (s% "scope")
    | _ => .null)
  | _ => []

/-- The security requirements: of the operation, or of its resource when the operation has none; one for each name, with
its scopes. -/
def securityTo (decl op : Dict Json) : Option Json :=
  match (if objAt op (s% "authorizations") = [] then objAt decl (s% "authorizations") else objAt op (s% "authorizations")) with
  | [] => none
  | l => some (.arr (l.map (fun nl => .obj [(nl.1, .arr (scopesTo nl.2))])))

/-- The response: what the operation returns. -/
def ResponseTo12 (num : Numbers) (sep path : Str) (op s : Dict Json) : Prop :=
  Dict.get? s (s% "description") = some (.str []) ∧
  (look op (s% "type") = .str (s% "void") → Dict.get? s (s% "schema") = none) ∧
  (look op (s% "type") ≠ .str (s% "void") → ∃ t, Dict.get? s (s% "schema") = some (.obj t) ∧ DataTypeTo num sep path op t) ∧
  Only [s% "description", s% "schema"] s

/-- A converted operation of the resource `decl`. -/
def OperationTo12 (num : Numbers) (lower : Str → Str) (sep : Str) (decl op r : Dict Json) : Prop :=
  Dict.get? r (s% "tags") = (if (resourcePath decl).drop 1 = [] then none else some (.arr [.str ((resourcePath decl).drop 1)])) ∧
  Dict.get? r (s% "operationId") = Dict.get? op (s% "nickname") ∧
  Dict.get? r (s% "summary") = Dict.get? op (s% "summary") ∧
  Dict.get? r (s% "description") = Dict.get? op (s% "notes") ∧
  Dict.get? r (s% "deprecated") = some (.bool (decide (look op (s% "deprecated") = .str (s% "true")))) ∧
  Dict.get? r (s% "consumes") = ownElse decl op (s% "consumes") ∧
  Dict.get? r (s% "produces") = ownElse decl op (s% "produces") ∧
  (∃ ps : List (Dict Json), Dict.get? r (s% "parameters") = some (.arr (ps.map .obj)) ∧
    List.Forall₂ (ParameterTo num lower sep (resourcePath decl)) (dictsAt op (s% "parameters")) ps) ∧
  Dict.get? r (s% "security") = securityTo decl op ∧
  (∃ s, Dict.get? r (s% "responses") = some (.obj [(s% "default", .obj s)]) ∧
    ResponseTo12 num sep (resourcePath decl) op s) ∧
  Only [s% "tags", s% "operationId", s% "summary", s% "description", s% "deprecated", s% "consumes", s% "produces",
    s% "parameters", s% "security", s% "responses"] r

/-- An operation, with the resource it is of, its whole path (with the base path of the resource) and its method. -/
structure Op12 where
  path : Str
  method : Str
  decl : Dict Json
  op : Dict Json

/-- The operations of a resource, in order. -/
def opsOf12 (lower : Str → Str) (decl : Dict Json) : List Op12 :=
  (dictsAt decl (s% "apis")).flatMap (fun api => (dictsAt api (s% "operations")).map (fun op =>
    ⟨textAt decl (s% "basePath") ++ textAt api (s% "path"), lower (textAt op (s% "method")), decl, op⟩))

/-- The paths have these operations, each under its path and method; of several with one path and method, the last. -/
def PathsTo12 (num : Numbers) (lower : Str → Str) (sep : Str) (ops : List Op12) (paths : Dict (Dict Json)) : Prop :=
  (∀ p, Dict.get? paths p ≠ none ↔ ∃ x ∈ ops, x.path = p) ∧
  ∀ p item, Dict.get? paths p = some item → ∀ m,
    match (ops.filter (fun x => x.path = p ∧ x.method = m)).getLast? with
    | none => Dict.get? item m = none
    | some x => ∃ r, Dict.get? item m = some (.obj r) ∧ OperationTo12 num lower sep x.decl x.op r

/-! ## models -/

/-- A model, with the resource it is of. -/
structure Model12 where
  decl : Dict Json
  model : Dict Json

/-- The name of the model among the definitions. -/
def Model12.name (sep : Str) (x : Model12) : Str := modelName sep (resourcePath x.decl) (textAt x.model (s% "id"))

/-- The reference to the model. -/
def Model12.ref (sep : Str) (x : Model12) : Json :=
  .obj [(s% "$ref", .str (s% "#/definitions/" ++ x.name sep))]

/-- The names of its subtypes among the definitions. -/
def Model12.subs (sep : Str) (x : Model12) : List Str :=
  (strsAt x.model (s% "subTypes")).map (modelName sep (resourcePath x.decl))

/-- The models of a resource, in order. -/
def modelsOf12 (decl : Dict Json) : List Model12 :=
  (objAt decl (s% "models")).filterMap (fun km => match km.2 with
    | .obj m => some ⟨decl, m⟩
    | _ => none)

/-- The models called `n`. -/
def namedOf (sep : Str) (ms : List Model12) (n : Str) : List Model12 := ms.filter (fun x => x.name sep = n)

/-- The parents of the definition `n`: the models that have it as a subtype. -/
def parentsOf (sep : Str) (ms : List Model12) (n : Str) : List Json :=
  ms.flatMap (fun x => (x.subs sep).filterMap (fun t => if t = n then some (x.ref sep) else none))

/-- The property `k` of these models: of the last that has it. -/
def propertyOf (xs : List Model12) (k : Str) : Option (Model12 × Json) :=
  (xs.filterMap (fun x => (Dict.get? (objAt x.model (s% "properties")) k).map (fun v => (x, v)))).getLast?

/-- A converted property. -/
def PropertyTo12 (num : Numbers) (sep path : Str) (d r : Dict Json) : Prop :=
  ∃ s, DataTypeTo num sep path d s ∧ (∀ k, k ≠ s% "description" → Dict.get? r k = Dict.get? s k) ∧
    Dict.get? r (s% "description") = some (look d (s% "description"))

/-- The definition made of the models `xs` of one name, with these parents. -/
def DefinitionTo (num : Numbers) (sep : Str) (xs : List Model12) (parents : List Json) (s : Dict Json) : Prop :=
  Dict.get? s (s% "allOf") = (if parents = [] then none else some (.arr parents)) ∧
  (xs = [] → Dict.get? s (s% "properties") = none) ∧
  (xs ≠ [] → ∃ props, Dict.get? s (s% "properties") = some (.obj props) ∧ ∀ k,
    match propertyOf xs k with
    | none => Dict.get? props k = none
    | some (x, v) => ∃ d r, v = .obj d ∧ Dict.get? props k = some (.obj r) ∧
        PropertyTo12 num sep (resourcePath x.decl) d r) ∧
  (∀ k ∈ [s% "required", s% "discriminator", s% "description"],
    Dict.get? s k = (xs.filterMap (fun x => Dict.get? x.model k)).getLast?) ∧
  Only [s% "allOf", s% "properties", s% "required", s% "discriminator", s% "description"] s

/-- The definitions made of models. -/
def DefinitionsTo (num : Numbers) (sep : Str) (ms : List Model12) (defs : Dict (Dict Json)) : Prop :=
  ∀ n, match Dict.get? defs n with
    | none => namedOf sep ms n = [] ∧ parentsOf sep ms n = []
    | some s => (namedOf sep ms n ≠ [] ∨ parentsOf sep ms n ≠ []) ∧
        DefinitionTo num sep (namedOf sep ms n) (parentsOf sep ms n) s

/-! ## the resource listing -/

/-- The member below these objects; empty where one is missing. -/
def follow : List Str → Dict Json → Dict Json
  | [], d => d
  | k :: ks, d => follow ks (objAt d k)

/-- The value at `k` when it is not empty. -/
def solid (d : Dict Json) (k : Str) : Option Json := if (look d k).truthy then some (look d k) else none

/-- The login url of an implicit grant. -/
def loginUrl (d : Dict Json) : Option Json := solid (follow [s% "grantTypes", s% "implicit", s% "loginEndpoint"] d) (s% "url")

/-- The token url of a grant by authorization code. -/
def tokenUrl (d : Dict Json) : Option Json :=
  solid (follow [s% "grantTypes", s% "authorization_code", s% "tokenEndpoint"] d) (s% "url")

/-- The security definition made of an authorization. -/
def AuthorizationTo12 (d r : Dict Json) : Prop :=
  Dict.get? r (s% "type") = some (if look d (s% "type") = .str (s% "basicAuth") then .str (s% "basic") else look d (s% "type")) ∧
  (∃ sc, Dict.get? r (s% "scopes") = some (.obj sc) ∧ ∀ k, Dict.get? sc k =
    ((dictsAt d (s% "scopes")).filterMap (fun s =>
      if look s (s% "scope") = .str k then some (look s (s% "description")) else none)).getLast?) ∧
  (look d (s% "type") = .str (s% "oauth2") →
    Dict.get? r (s% "authorizationUrl") = loginUrl d ∧ Dict.get? r (s% "tokenUrl") = tokenUrl d ∧
    Dict.get? r (s% "flow") = (if loginUrl d ≠ none then some (.str (s% "implicit"))
      else if tokenUrl d ≠ none then some (.str (s% "access_code")) else none) ∧
    Only [s% "type", s% "scopes", s% "authorizationUrl", s% "tokenUrl", s% "flow"] r) ∧
  (look d (s% "type") = .str (s% "apiKey") →
    Dict.get? r (s% "name") = some (look d (s% "keyname")) ∧ Dict.get? r (s% "in") = some (look d (s% "passAs")) ∧
    Only [s% "type", s% "scopes", s% "name", s% "in"] r) ∧
  (look d (s% "type") ≠ .str (s% "oauth2") → look d (s% "type") ≠ .str (s% "apiKey") → Only [s% "type", s% "scopes"] r)

/-- The security definitions: one for each authorization, under its name as a token of a JSON pointer. -/
def SecurityTo12 (listing sd : Dict Json) : Prop :=
  ∀ key, match Dict.get? sd key with
    | none => ∀ n, escape n = key → Dict.get? (objAt listing (s% "authorizations")) n = none
    | some v => ∃ n d r, key = escape n ∧ Dict.get? (objAt listing (s% "authorizations")) n = some (.obj d) ∧
        v = .obj r ∧ AuthorizationTo12 d r

/-- The info object. -/
def InfoTo12 (listing r : Dict Json) : Prop :=
  Dict.get? r (s% "version") = some (look listing (s% "apiVersion")) ∧
  Dict.get? r (s% "title") = solid (objAt listing (s% "info")) (s% "title") ∧
  Dict.get? r (s% "description") = solid (objAt listing (s% "info")) (s% "description") ∧
  Dict.get? r (s% "termsOfService") = solid (objAt listing (s% "info")) (s% "termsOfServiceUrl") ∧
  Dict.get? r (s% "contact") = (solid (objAt listing (s% "info")) (s% "contact")).map (fun c => .obj [(s% "email", c)]) ∧
  (match Dict.get? r (s% "license") with
    | none => solid (objAt listing (s% "info")) (s% "license") = none ∧ solid (objAt listing (s% "info")) (s% "licenseUrl") = none
    | some l => (solid (objAt listing (s% "info")) (s% "license") ≠ none ∨ solid (objAt listing (s% "info")) (s% "licenseUrl") ≠ none) ∧
      ∃ e, l = .obj e ∧ Dict.get? e (s% "name") = solid (objAt listing (s% "info")) (s% "license") ∧
        Dict.get? e (s% "url") = solid (objAt listing (s% "info")) (s% "licenseUrl") ∧ Only [s% "name", s% "url"] e) ∧
  Only [s% "version", s% "title", s% "description", s% "termsOfService", s% "contact", s% "license"] r

/-! ## the document -/

/-- The scheme of a url: a letter, then letters, digits, `+`, `-` and `.`. -/
def IsScheme (s : Str) : Prop :=
  (∃ c a, s = c :: a ∧ c.isAlpha = true) ∧ ∀ c ∈ s, c.isAlpha = true ∨ c.isDigit = true ∨ c ∈ ['+', '-', '.']

/-- The host of a url: printable characters, none of which ends it. -/
def IsHost (h : Str) : Prop := ∀ c ∈ h, 32 < c.toNat ∧ c ∉ ['/', '?', '#']

/-- `scheme://host`. -/
def siteOf (scheme host : Str) : Str := scheme ++ s% "://" ++ host

/-- A path of this site: the site, a slash and the rest. -/
def OfSite (scheme host p : Str) : Prop := ∃ r, p = siteOf scheme host ++ '/' :: r

/-- A path without a site: a slash, and then neither another slash nor a blank. -/
def NoSite (p : Str) : Prop := ∃ r, p = '/' :: r ∧ ∀ c r', r = c :: r' → c ≠ '/' ∧ 32 < c.toNat

/-- The operation under its path without the site. -/
def Op12.within (scheme host : Str) (x : Op12) : Op12 := { x with path := x.path.drop (siteOf scheme host).length }

/-- Objects by name. -/
def objectsOf (d : Dict (Dict Json)) : Json := .obj (d.map (fun kv => (kv.1, .obj kv.2)))

/-- All operations of the resources. -/
def allOps (lower : Str → Str) (decls : List (Dict Json)) : List Op12 := decls.flatMap (opsOf12 lower)

/-- All models of the resources. -/
def allModels (decls : List (Dict Json)) : List Model12 := decls.flatMap modelsOf12

/-- What does not depend on the host. -/
structure DocumentTo12 (num : Numbers) (sep : Str) (listing : Dict Json) (decls : List (Dict Json)) (doc : Dict Json) : Prop where
  version : Dict.get? doc (s% "swagger") = some (.str (s% "2.0"))
  info : ∃ i, Dict.get? doc (s% "info") = some (.obj i) ∧ InfoTo12 listing i
  tags : ∃ ts : List Str, Dict.get? doc (s% "tags") = some (.arr (ts.map (fun t => .obj [(s% "name", .str t)]))) ∧ ts.Nodup ∧
    ∀ t, t ∈ ts ↔ ∃ e ∈ decls, (resourcePath e).drop 1 = t
  definitions : ∃ defs, Dict.get? doc (s% "definitions") = some (objectsOf defs) ∧ DefinitionsTo num sep (allModels decls) defs
  security : ∃ sd, Dict.get? doc (s% "securityDefinitions") = some (.obj sd) ∧ SecurityTo12 listing sd
  schemes : Dict.get? doc (s% "schemes") = some (.arr [.str (s% "http"), .str (s% "https")])
  basePath : Dict.get? doc (s% "basePath") = some (.str [])
  noShared : ∀ k ∈ [s% "parameters", s% "responses"], Dict.get? doc k = some (.obj [])
  noCommon : ∀ k ∈ [s% "security", s% "consumes", s% "produces"], Dict.get? doc k = some (.arr [])
  only : Only [s% "swagger", s% "schemes", s% "host", s% "basePath", s% "tags", s% "definitions", s% "parameters", s% "responses",
    s% "paths", s% "security", s% "securityDefinitions", s% "consumes", s% "produces", s% "info"] doc

/-! ## what can be upgraded -/

/-- `type` and `$ref` are strings, when there are any. -/
def TypeOk (d : Dict Json) : Prop := ∀ k ∈ [s% "type", s% "$ref"], (look d k).truthy = true → ∃ t, look d k = .str t

/-- The bound `k` is a number, of an integer or a number; when there is one. -/
def BoundOk (num : Numbers) (d : Dict Json) (k : Str) : Prop := (look d k).truthy = true →
  (look d (s% "type") = .str (s% "integer") ∧ ∃ n, num.whole (look d k) n) ∨
  (look d (s% "type") = .str (s% "number") ∧ ∃ n, num.float (look d k) n)

/-- A data type that becomes a schema. -/
def DataTypeOk (num : Numbers) (d : Dict Json) : Prop :=
  TypeOk d ∧ BoundOk num d (s% "minimum") ∧ BoundOk num d (s% "maximum") ∧ ∀ e, given d (s% "items") = some (.obj e) → TypeOk e

/-- A primitive type, and no reference. -/
def PrimitiveOk (d : Dict Json) : Prop := (look d (s% "$ref")).truthy = false ∧ ∃ t, look d (s% "type") = .str t ∧ Primitive t

/-- A parameter that can be converted. -/
def ParameterOk (num : Numbers) (d : Dict Json) : Prop :=
  Dict.get? d (s% "paramType") ≠ none ∧
  (look d (s% "paramType") = .str (s% "body") → DataTypeOk num d) ∧
  (look d (s% "paramType") ≠ .str (s% "body") →
    (look d (s% "$ref")).truthy = false ∧
    (Repeats d → PrimitiveOk d) ∧
    (¬ Repeats d → (∃ t, look d (s% "type") = .str t) ∧ BoundOk num d (s% "minimum") ∧ BoundOk num d (s% "maximum")) ∧
    ∀ e, given d (s% "items") = some (.obj e) → PrimitiveOk e)

/-- A string is there. -/
def HasText (d : Dict Json) (k : Str) : Prop := ∃ t, Dict.get? d k = some (.str t)

/-- A list of strings. -/
def StringsOk (j : Json) : Prop := ∃ ss : List Str, j = .arr (ss.map .str)

/-- An operation of a resource that can be converted. -/
def OperationOk (num : Numbers) (lower : Str → Str) (decl op : Dict Json) : Prop :=
  given op (s% "parameters") ≠ none ∧ (∀ p ∈ dictsAt op (s% "parameters"), ParameterOk num p) ∧
  (look op (s% "type") ≠ .str (s% "void") → DataTypeOk num op) ∧
  HasText op (s% "method") ∧ lower (textAt op (s% "method")) ≠ s% "parameters" ∧
  (∀ k ∈ [s% "consumes", s% "produces"], ∀ j, ownElse decl op k = some j → StringsOk j) ∧
  (∀ nl ∈ (if objAt op (s% "authorizations") = [] then objAt decl (s% "authorizations") else objAt op (s% "authorizations")),
    StringsOk (.arr (scopesTo nl.2)))

/-- A model that can be converted. -/
def ModelOk (num : Numbers) (m : Dict Json) : Prop :=
  HasText m (s% "id") ∧ (∀ k p, (k, .obj p) ∈ objAt m (s% "properties") → DataTypeOk num p) ∧
  ((look m (s% "subTypes")).truthy = true → StringsOk (look m (s% "subTypes")))

/-- A resource that can be converted. -/
def ResourceOk (num : Numbers) (lower : Str → Str) (decl : Dict Json) : Prop :=
  HasText decl (s% "resourcePath") ∧ HasText decl (s% "basePath") ∧ given decl (s% "models") ≠ none ∧
  (∀ api ∈ dictsAt decl (s% "apis"), HasText api (s% "path") ∧ given api (s% "operations") ≠ none ∧
    ∀ op ∈ dictsAt api (s% "operations"), OperationOk num lower decl op) ∧
  (∀ k m, (k, .obj m) ∈ objAt decl (s% "models") → ModelOk num m)

/-- An authorization that can be converted: its scopes and their descriptions are strings, and the endpoints have urls. -/
def AuthorizationOk (d : Dict Json) : Prop :=
  (∀ s ∈ dictsAt d (s% "scopes"), HasText s (s% "scope") ∧ HasText s (s% "description")) ∧
  (∀ e, given (follow [s% "grantTypes", s% "implicit"] d) (s% "loginEndpoint") = some (.obj e) → Dict.get? e (s% "url") ≠ none) ∧
  (∀ e, given (follow [s% "grantTypes", s% "authorization_code"] d) (s% "tokenEndpoint") = some (.obj e) →
    Dict.get? e (s% "url") ≠ none)

/-- A resource listing that can be converted. -/
def ListingOk (l : Dict Json) : Prop :=
  given l (s% "info") ≠ none ∧ Dict.get? (objAt l (s% "info")) (s% "title") ≠ none ∧
  Dict.get? (objAt l (s% "info")) (s% "description") ≠ none ∧
  ∀ n d, (n, .obj d) ∈ objAt l (s% "authorizations") → AuthorizationOk d

end Pyopenapi.Spec
