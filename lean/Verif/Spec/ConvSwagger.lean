import Verif.Spec.ConvDoc

/-!
# Specification of the conversion of whole documents
-/

namespace Pyopenapi.Spec

/-- The member is there, whatever it is (`null` when the document has none). -/
def Carried (k : Str) (d r : Dict Json) : Prop := Dict.get? r k = some (look d k)

/-- The contact of an `info`. -/
def ContactTo (d : Dict Json) (r : Json) : Prop :=
  ∃ e, r = .obj e ∧ Copied [s% "name", s% "url", s% "email"] d e ∧ Only [s% "name", s% "url", s% "email"] e

/-- The license of an `info`. -/
def LicenseTo (d : Dict Json) (r : Json) : Prop :=
  ∃ e, r = .obj e ∧ Carried (s% "name") d e ∧ Copied [s% "url"] d e ∧ Only [s% "name", s% "url"] e

/-- The `info` of a document. -/
def InfoTo (d : Dict Json) (r : Json) : Prop :=
  ∃ e, r = .obj e ∧ Carried (s% "title") d e ∧ Carried (s% "version") d e ∧
    Copied [s% "description", s% "termsOfService"] d e ∧
    Both d (s% "contact") e ContactTo ∧ Both d (s% "license") e LicenseTo ∧
    Only [s% "title", s% "version", s% "description", s% "termsOfService", s% "contact", s% "license"] e

/-- A tag. -/
def TagTo (d : Dict Json) (r : Json) : Prop :=
  ∃ e, r = .obj e ∧ Carried (s% "name") d e ∧ Copied [s% "description"] d e ∧ Both d (s% "externalDocs") e DocsTo ∧
    Only [s% "name", s% "description", s% "externalDocs"] e

/-! ## security schemes -/

/-- The flow of an OAuth 2 scheme, as OpenAPI 3 has it: the urls, and the scopes (required). -/
def FlowTo (d : Dict Json) (r : Json) : Prop :=
  ∃ e, r = .obj e ∧ Copied [s% "authorizationUrl", s% "tokenUrl"] d e ∧
    Dict.get? e (s% "scopes") = some (.obj (objAt d (s% "scopes"))) ∧
    Only [s% "authorizationUrl", s% "tokenUrl", s% "scopes"] e

/-- The name OpenAPI 3 has for a flow of Swagger 2.0. -/
def flowName (flow : Str) : Str :=
  if flow = s% "application" then s% "clientCredentials"
  else if flow = s% "accessCode" then s% "authorizationCode"
  else flow

/-- A security scheme of OpenAPI 3 that says the same as one of Swagger 2.0. -/
def SchemeTo (d : Dict Json) (r : Json) : Prop :=
  ∃ e, r = .obj e ∧ Dict.get? e (s% "description") = given d (s% "description") ∧
    (look d (s% "type") = .str (s% "basic") →
      Dict.get? e (s% "type") = some (.str (s% "http")) ∧ Dict.get? e (s% "scheme") = some (.str (s% "basic"))) ∧
    (look d (s% "type") = .str (s% "apiKey") →
      Dict.get? e (s% "type") = some (.str (s% "apiKey")) ∧ Copied [s% "name", s% "in"] d e) ∧
    (look d (s% "type") = .str (s% "oauth2") →
      Dict.get? e (s% "type") = some (.str (s% "oauth2")) ∧
      ∀ f, look d (s% "flow") = .str f → ∃ x, Dict.get? e (s% "flows") = some (.obj [(flowName f, x)]) ∧ FlowTo d x)

/-- What the converter makes of a security scheme. -/
def SchemeKept (d : Dict Json) (r : Json) : Prop :=
  ∃ e, r = .obj e ∧ Carried (s% "type") d e ∧ Copied [s% "description", s% "name", s% "in"] d e ∧
    Dict.get? e (s% "scheme") = (if look d (s% "type") = .str (s% "basic") then some (.str (s% "basic")) else none) ∧
    (look d (s% "type") ≠ .str (s% "oauth2") → Dict.get? e (s% "flows") = none) ∧
    (look d (s% "type") = .str (s% "oauth2") → ∃ f x, look d (s% "flow") = .str f ∧ f ≠ [] ∧
      Dict.get? e (s% "flows") = some (.obj [(f, .obj x)]) ∧
      Copied [s% "authorizationUrl", s% "tokenUrl"] d x ∧
      Dict.get? x (s% "scopes") = (if objAt d (s% "scopes") = [] then none else some (.obj (objAt d (s% "scopes")))) ∧
      Only [s% "authorizationUrl", s% "tokenUrl", s% "scopes"] x) ∧
    Only [s% "type", s% "description", s% "name", s% "in", s% "scheme", s% "flows"] e

/-- No scheme of OAuth 2, or one with a flow. -/
def HasFlow (d : Dict Json) : Prop := look d (s% "type") = .str (s% "oauth2") → ∃ f, look d (s% "flow") = .str f ∧ f ≠ []

/-! ## documents -/

/-- The entries of a map of parameters that are such. -/
def paramsWhere (p : Part → Bool) (m : Dict Json) : Dict Json :=
  m.filter (fun kv => match kv.2 with
    | .obj d => p ⟨d, none⟩
    | _ => false)

/-- A request body made of one named parameter: the form of that part, or the body. -/
def OneBody (x y : Json) : Prop :=
  ∃ d e, x = .obj d ∧ y = .obj e ∧
    (placeOf d = .body → BodyTo [] d e) ∧ (placeOf d ≠ .body → FormBody [] [⟨d, none⟩] e)

/-- `components`: the schemas, the named parameters (split), the responses and the security schemes. -/
def ComponentsTo (d r : Dict Json) : Prop :=
  MapTo d (s% "definitions") r (s% "schemas") SchemaTo ∧
  (∀ ps, ps = paramsWhere Part.isPlain (objAt d (s% "parameters")) →
    (ps = [] → Dict.get? r (s% "parameters") = none) ∧
    (ps ≠ [] → ∃ m, Dict.get? r (s% "parameters") = some (.obj m) ∧
      EntriesTo (fun x y => ∃ e, x = .obj e ∧ PlainTo ⟨e, none⟩ y) ps m)) ∧
  (∀ ps, ps = paramsWhere (fun f => !f.isPlain) (objAt d (s% "parameters")) →
    (ps = [] → Dict.get? r (s% "requestBodies") = none) ∧
    (ps ≠ [] → ∃ m, Dict.get? r (s% "requestBodies") = some (.obj m) ∧ EntriesTo OneBody ps m)) ∧
  MapTo d (s% "responses") r (s% "responses")
    (fun x y => ∃ e, x = .obj e ∧ ResponseTo BareFile (strsAt d (s% "produces")) ⟨e, none⟩ y) ∧
  MapTo d (s% "securityDefinitions") r (s% "securitySchemes") (fun x y => ∃ e, x = .obj e ∧ SchemeKept e y) ∧
  Only [s% "schemas", s% "parameters", s% "requestBodies", s% "responses", s% "securitySchemes"] r

/-- A whole document.  (The server is the subject of `ServerUrl`.) -/
def DocTo (refs : Refs) (d r : Dict Json) : Prop :=
  Dict.get? r (s% "openapi") = some (.str (s% "3.0.0")) ∧
  Both d (s% "info") r InfoTo ∧
  (∃ url, Dict.get? r (s% "servers") = some (.arr [.obj [(s% "url", .str url)]])) ∧
  MapTo d (s% "paths") r (s% "paths")
    (fun x y => ∃ e q, x = .obj e ∧ y = .obj q ∧ PathItemTo refs (strsAt d (s% "produces")) e q) ∧
  ListTo d (s% "tags") r (fun x y => ∃ e, x = .obj e ∧ TagTo e y) ∧
  Both d (s% "externalDocs") r DocsTo ∧
  (∃ c, ComponentsTo d c ∧ Dict.get? r (s% "components") = if c = [] then none else some (.obj c)) ∧
  Only [s% "openapi", s% "info", s% "servers", s% "paths", s% "tags", s% "externalDocs", s% "components"] r

/-- Every reference of the document leads somewhere. -/
def DocResolves (refs : Refs) (d : Dict Json) : Prop :=
  ∀ k e, (k, .obj e) ∈ objAt d (s% "paths") → PathResolves refs e

/-- The named parameters are valid. -/
def NamedValid (d : Dict Json) : Prop :=
  ∀ k e, (k, .obj e) ∈ objAt d (s% "parameters") → ValidParam ⟨e, none⟩

/-! ## the url of the server -/

/-- The string a member has, `''` when there is none. -/
def StringAt (d : Dict Json) (k s : Str) : Prop := look d k = .str s ∨ (look d k = .null ∧ s = [])

/-- The url of the server of a document: `scheme://host/basePath` with a base path, the host alone without one, `/`
without both. -/
def ServerUrl (host basePath : Str) (schemes : List Str) (url : Str) : Prop :=
  (basePath ≠ [] → url = (schemes.head?.getD (s% "https")) ++ s% "://" ++ host ++
    (if Str.startsWith basePath ['/'] then [] else ['/']) ++ basePath) ∧
  (basePath = [] → host ≠ [] → url = host) ∧
  (basePath = [] → host = [] → url = ['/'])

/-- A host (and port): visible characters, none of which ends the authority of a url. -/
def HostText (host : Str) : Prop := ∀ c ∈ host, 32 < c.toNat ∧ c ≠ '/' ∧ c ≠ '?' ∧ c ≠ '#'

/-- A base path: `/` in front, visible characters, no query and no fragment. -/
def BaseText (b : Str) : Prop := b.head? = some '/' ∧ ∀ c ∈ b, 32 < c.toNat ∧ c ≠ '?' ∧ c ≠ '#'

/-- The schemes of Swagger 2.0. -/
def schemes2 : List Str := [s% "http", s% "https", s% "ws", s% "wss"]

/-- Servers with these urls. -/
def serversWith (urls : List Str) : Json := .arr (urls.map (fun u => .obj [(s% "url", .str u)]))

end Pyopenapi.Spec
