import Verif.Model.Conv
import Verif.Model.Scan
import Verif.Model.Utils

/-!
# pyopenapi/migration/versions/v1_2/scanner/upgrade.py: from Swagger 1.2 to Swagger 2.0

The functions read loaded 1.2 objects and give JSON.  Python's `str.lower`, `float` and `int` are parameters.
-/

namespace Pyopenapi
namespace Up12
open Obj Conv

/-- What is taken from Python: `float(x)`, `int(x)` of a float, `str.lower`, and the check of IPv6 hosts in `urlparse`. -/
structure Env where
  sep : Str
  lower : Str → Str
  float : Json → R Json
  trunc : Json → R Json
  urlOk : Str → Bool

/-- upgrade.py:22 -/
def primitives : List Str := [s% "integer", s% "number", s% "string", s% "boolean", s% "array", s% "void"]

/-- upgrade.py:25-26 `_is_primitive`. -/
def isPrimitive : Json → Bool
  | .str s => primitives.contains s
  | _ => false

/-- A value used as a string (`x.lower()`, `a + x`, `x[1:]`); other types raise. -/
def asText (e : Err) : Json → R Str
  | .str s => .ok s
  | _ => .error e

/-- upgrade.py:32, 37: `'#/definitions/' + scope_compose(scope, name, sep=sep)`. -/
def definitionRef (env : Env) (scope : Str) (name : Json) : R Str := do
  let n ← asText .typeError name
  match scopeCompose (some scope) (some n) env.sep with
  | some s => .ok (s% "#/definitions/" ++ s)
  | none => .error .typeError

/-- upgrade.py:31-32, 36-37: `if name: dst['$ref'] = ...`. -/
def setRef (env : Env) (scope : Str) (name : Json) (dst : Dict Json) : R (Dict Json) :=
  if name.truthy then do
    let r ← definitionRef env scope name
    .ok (Dict.set dst (s% "$ref") (.str r))
  else .ok dst

/-- upgrade.py:29-37 `update_type_and_ref`. -/
def updateTypeAndRef (env : Env) (scope : Str) (src : Obj) (dst : Dict Json) : R (Dict Json) := do
  let ref ← fld src (s% "$ref")
  let dst ← setRef env scope ref dst
  let ty ← fld src (s% "type")
  if isPrimitive ty then do
    let t ← asText .attributeError ty
    .ok (Dict.set dst (s% "type") (.str (env.lower t)))
  else setRef env scope ty dst

/-- upgrade.py:41-55 `_from_str`. -/
def fromStr (env : Env) (src : Obj) (name : Str) (dst : Dict Json) : R (Dict Json) := do
  let val ← fld src name
  if val.truthy then do
    let ty ← fld src (s% "type")
    if ty = .str (s% "integer") then do
      let f ← env.float val
      let n ← env.trunc f
      .ok (Dict.set dst name n)
    else if ty = .str (s% "number") then do
      let f ← env.float val
      .ok (Dict.set dst name f)
    else .error .schemaError
  else .ok (Dict.erase dst name)

/-- upgrade.py:40-58 `convert_min_max`. -/
def convertMinMax (env : Env) (src : Obj) (dst : Dict Json) : R (Dict Json) := do
  let dst ← fromStr env src (s% "minimum") dst
  fromStr env src (s% "maximum") dst

/-- `if obj.is_set(src): spec[name] = obj.src`. -/
def copySet (o : Obj) (src name : Str) (dst : Dict Json) : R (Dict Json) := do
  let b ← isSet o src
  if b then do
    let v ← fld o src
    .ok (Dict.set dst name v)
  else .ok dst

/-- upgrade.py:74-78: the items of a schema. -/
def itemsOf (env : Env) (scope : Str) (o : Obj) (dst : Dict Json) : R (Dict Json) :=
  match kidT o (s% "items") with
  | none => .ok dst
  | some it => do
    let d ← updateTypeAndRef env scope it []
    let f ← fld it (s% "format")
    .ok (Dict.set dst (s% "items") (.obj (Dict.set d (s% "format") f)))

/-- upgrade.py:61-80 `convert_schema_from_datatype` (never called with `None`). -/
def schemaOf (env : Env) (scope : Str) (o : Obj) : R (Dict Json) := do
  let d ← updateTypeAndRef env scope o []
  let d ← copySet o (s% "format") (s% "format") d
  let d ← copySet o (s% "defaultValue") (s% "default") d
  let d ← convertMinMax env o d
  let u ← fld o (s% "uniqueItems")
  let e ← fld o (s% "enum")
  itemsOf env scope o (Dict.set (Dict.set d (s% "uniqueItems") u) (s% "enum") e)

/-- upgrade.py:83-94 `convert_items`. -/
def convertItems (env : Env) (o : Obj) : R (Dict Json) := do
  let ref ← fld o (s% "$ref")
  if ref.truthy then .error .schemaError
  else do
    let ty ← fld o (s% "type")
    if isPrimitive ty then do
      let t ← asText .attributeError ty
      copySet o (s% "format") (s% "format") [(s% "type", .str (env.lower t))]
    else .error .schemaError

/-- upgrade.py:98-104: name, required, description. -/
def paramHead (o : Obj) : R (Dict Json) := do
  let d ← copySet o (s% "name") (s% "name") []
  let d ← copySet o (s% "required") (s% "required") d
  copySet o (s% "description") (s% "description") d

/-- upgrade.py:119-126: a parameter that can be repeated. -/
def repeated (env : Env) (o : Obj) (d : Dict Json) : R (Dict Json) := do
  let d := Dict.set (Dict.set d (s% "type") (.str (s% "array"))) (s% "collectionFormat") (.str (s% "csv"))
  let d ← copySet o (s% "uniqueItems") (s% "uniqueItems") d
  let it ← convertItems env o
  let b ← isSet o (s% "defaultValue")
  let v ← fld o (s% "defaultValue")
  let e ← fld o (s% "enum")
  let d := Dict.set d (s% "items") (.obj (Dict.set it (s% "enum") e))
  .ok (if b then Dict.set d (s% "default") (.arr [v]) else d)

/-- upgrade.py:128-134: any other parameter. -/
def single (env : Env) (o : Obj) (d : Dict Json) : R (Dict Json) := do
  let ty ← fld o (s% "type")
  let t ← asText .attributeError ty
  let d ← copySet o (s% "format") (s% "format") (Dict.set d (s% "type") (.str (env.lower t)))
  let d ← copySet o (s% "defaultValue") (s% "default") d
  let d ← convertMinMax env o d
  let e ← fld o (s% "enum")
  .ok (Dict.set d (s% "enum") e)

/-- upgrade.py:136-140: the items of a parameter. -/
def paramItems (env : Env) (o : Obj) (d : Dict Json) : R (Dict Json) :=
  match kidT o (s% "items") with
  | none => .ok d
  | some it => do
    let d ← copySet o (s% "uniqueItems") (s% "uniqueItems") (Dict.set d (s% "collectionFormat") (.str (s% "csv")))
    let i ← convertItems env it
    .ok (Dict.set d (s% "items") (.obj i))

/-- upgrade.py:115-142: a parameter that is no body. -/
def plainParam (env : Env) (o : Obj) (d : Dict Json) : R (Dict Json) := do
  let ref ← fld o (s% "$ref")
  if ref.truthy then .error .schemaError
  else do
    let m ← fld o (s% "allowMultiple")
    let d ← (if m = .bool true ∧ kid o (s% "items") = none then repeated env o d else single env o d)
    paramItems env o d

/-- upgrade.py:97-142 `convert_parameter`. -/
def convertParameter (env : Env) (scope : Str) (o : Obj) : R (Dict Json) := do
  let d ← paramHead o
  let pt ← fld o (s% "paramType")
  let pt := if pt = .str (s% "form") then .str (s% "formData") else pt
  let d := Dict.set d (s% "in") pt
  if pt = .str (s% "body") then do
    let s ← schemaOf env scope o
    .ok (Dict.set d (s% "schema") (.obj s))
  else plainParam env o d

/-- `api_decl.resourcePath[1:]` (upgrade.py:148, 197, 294; slices of lists are not modelled). -/
def scopeOf (decl : Obj) : R Str := do
  let p ← fld decl (s% "resourcePath")
  let s ← asText .typeError p
  .ok (s.drop 1)

/-- upgrade.py:159-165: `x = obj.x if obj.x else api_decl.x; if x: op_spec['x'] = x`. -/
def ownOrDecl (op decl : Obj) (k : Str) (d : Dict Json) : R (Dict Json) := do
  let a ← fld op k
  let b ← fld decl k
  let v := if a.truthy then a else b
  .ok (if v.truthy then Dict.set d k v else d)

/-- The parameters of an operation, converted in order (upgrade.py:167-169). -/
def paramsOf (env : Env) (scope : Str) : List Obj → R (List Json)
  | [] => .ok []
  | p :: ps => do
    let d ← convertParameter env scope p
    let ds ← paramsOf env scope ps
    .ok (.obj d :: ds)

/-- `[v.scope for v in scopes]` (upgrade.py:177). -/
def scopesOf : List Obj → R (List Json)
  | [] => .ok []
  | v :: vs => do
    let s ← fld v (s% "scope")
    let r ← scopesOf vs
    .ok (s :: r)

/-- upgrade.py:175-177: the requirements, in order. -/
def securityOf : List (Str × Obj) → R (List Json)
  | [] => .ok []
  | (name, l) :: rest => do
    let s ← scopesOf (elems (some l))
    let r ← securityOf rest
    .ok (.obj [(name, .arr s)] :: r)

/-- upgrade.py:171-177. -/
def withSecurity (op decl : Obj) (d : Dict Json) : R (Dict Json) :=
  let auth := match kidT op (s% "authorizations") with
    | some a => some a
    | none => kidT decl (s% "authorizations")
  match auth with
  | none => .ok d
  | some a => do
    let s ← securityOf (entries (some a))
    .ok (Dict.set d (s% "security") (.arr s))

/-- upgrade.py:179-186: the response. -/
def responseOf (env : Env) (scope : Str) (op : Obj) : R (Dict Json) := do
  let ty ← fld op (s% "type")
  if ty = .str (s% "void") then .ok [(s% "description", .str [])]
  else do
    let s ← schemaOf env scope op
    .ok [(s% "schema", .obj s), (s% "description", .str [])]

/-- upgrade.py:145-186: the converted operation. -/
def operationOf (env : Env) (op decl : Obj) : R (Dict Json) := do
  let scope ← scopeOf decl
  let d : Dict Json := if scope = [] then [] else [(s% "tags", .arr [.str scope])]
  let d ← copySet op (s% "nickname") (s% "operationId") d
  let d ← copySet op (s% "summary") (s% "summary") d
  let d ← copySet op (s% "notes") (s% "description") d
  let dep ← fld op (s% "deprecated")
  let d := Dict.set d (s% "deprecated") (.bool (decide (dep = .str (s% "true"))))
  let d ← ownOrDecl op decl (s% "consumes") d
  let d ← ownOrDecl op decl (s% "produces") d
  match kid op (s% "parameters") with
  | none => .error .typeError
  | some ps => do
    let l ← paramsOf env scope (elems (some ps))
    let d ← withSecurity op decl (Dict.set d (s% "parameters") (.arr l))
    let r ← responseOf env scope op
    .ok (Dict.set d (s% "responses") (.obj [(s% "default", .obj r)]))

/-- The document under construction: what `_resource_listing` made that does not change, and what the other handlers
add to. -/
structure State where
  info : Dict Json
  tags : List Str
  definitions : Dict (Dict Json)
  paths : Dict (Dict Json)
  securityDefinitions : Dict Json

/-- upgrade.py:188-193: `path = ...; swagger['paths'][path][method] = op_spec`. -/
def convertOperation (env : Env) (op api decl : Obj) (st : State) : R State := do
  let d ← operationOf env op decl
  let base ← fld decl (s% "basePath")
  let p ← fld api (s% "path")
  let a ← asText .typeError base
  let b ← asText .typeError p
  let m ← fld op (s% "method")
  let m ← asText .attributeError m
  let item := (Dict.get? st.paths (a ++ b)).getD []
  .ok { st with paths := Dict.set st.paths (a ++ b) (Dict.set item (env.lower m) (.obj d)) }

/-- upgrade.py:204-207: the converted properties, in order. -/
def propertiesOf (env : Env) (scope : Str) : List (Str × Obj) → R (Dict Json)
  | [] => .ok []
  | (name, p) :: rest => do
    let s ← schemaOf env scope p
    let desc ← fld p (s% "description")
    let r ← propertiesOf env scope rest
    .ok ((name, .obj (Dict.set s (s% "description") desc)) :: r)

/-- The dict that `setdefault(_, {})` gives. -/
def dictOr : Option Json → Dict Json
  | some (.obj d) => d
  | _ => []

/-- The list that `setdefault(_, [])` gives. -/
def listOr : Option Json → List Json
  | some (.arr l) => l
  | _ => []

/-- `spec.setdefault('properties', {}).update(props)` (upgrade.py:209). -/
def addProperties (props spec : Dict Json) : Dict Json :=
  Dict.set spec (s% "properties") (.obj (Dict.update (dictOr (Dict.get? spec (s% "properties"))) props))

/-- `sub_o_spec.setdefault('allOf', []).append(new_ref)` (upgrade.py:222-226). -/
def addParent (ref : Str) (spec : Dict Json) : Dict Json :=
  Dict.set spec (s% "allOf") (.arr (listOr (Dict.get? spec (s% "allOf")) ++ [.obj [(s% "$ref", .str ref)]]))

/-- `model.subTypes or []`, as something to iterate over: a list, the characters of a string, the keys of a dict. -/
def iterate (j : Json) : R (List Json) :=
  if j.truthy then match j with
    | .arr l => .ok l
    | .str s => .ok (s.map (fun c => .str [c]))
    | .obj d => .ok (d.map (fun kv => .str kv.1))
    | _ => .error .typeError
  else .ok []

/-- upgrade.py:218-226: the subtypes get the model as parent. -/
def addSubtypes (env : Env) (scope name : Str) : List Json → Dict (Dict Json) → R (Dict (Dict Json))
  | [], defs => .ok defs
  | t :: ts, defs => do
    let n ← asText .typeError t
    match scopeCompose (some scope) (some n) env.sep with
    | none => .error .typeError
    | some sub =>
      addSubtypes env scope name ts
        (Dict.set defs sub (addParent (s% "#/definitions/" ++ name) ((Dict.get? defs sub).getD [])))

/-- upgrade.py:211-216: required, discriminator, description. -/
def modelFields (m : Obj) (d : Dict Json) : R (Dict Json) := do
  let d ← copySet m (s% "required") (s% "required") d
  let d ← copySet m (s% "discriminator") (s% "discriminator") d
  copySet m (s% "description") (s% "description") d

/-- upgrade.py:196-226 `convert_model`. -/
def convertModel (env : Env) (decl m : Obj) (st : State) : R State := do
  let scope ← scopeOf decl
  let id ← fld m (s% "id")
  let id ← asText .typeError id
  match scopeCompose (some scope) (some id) env.sep with
  | none => .error .typeError
  | some name => do
    let props ← propertiesOf env scope (entries (kid m (s% "properties")))
    let spec ← modelFields m (addProperties props ((Dict.get? st.definitions name).getD []))
    let subs ← fld m (s% "subTypes")
    let subs ← iterate subs
    let defs ← addSubtypes env scope name subs (Dict.set st.definitions name spec)
    .ok { st with definitions := defs }

/-- upgrade.py:303-306: the operations of one api. -/
def convertApi (env : Env) (decl : Obj) (st : State) (api : Obj) : R State :=
  match kid api (s% "operations") with
  | none => .error .typeError
  | some ops => (elems (some ops)).foldlM (fun st op => convertOperation env op api decl st) st

/-- upgrade.py:292-308 `_api_declaration`. -/
def apiDeclaration (env : Env) (st : Option State) (decl : Obj) : R (Option State) := do
  let name ← scopeOf decl
  match st with
  | none => .error .typeError
  | some st => do
    let st := { st with tags := if st.tags.contains name then st.tags else st.tags ++ [name] }
    let st ← (elems (kid decl (s% "apis"))).foldlM (convertApi env decl) st
    match kid decl (s% "models") with
    | none => .error .attributeError
    | some ms => do
      let st ← (entries (some ms)).foldlM (fun st km => convertModel env decl km.2 st) st
      .ok (some st)

/-- `value = ...; if value: spec[name] = value`. -/
def setIf (v : Json) (name : Str) (d : Dict Json) : Dict Json := if v.truthy then Dict.set d name v else d

/-- upgrade.py:277-286: the license. -/
def licenseOf (name url : Json) (d : Dict Json) : Dict Json :=
  if name.truthy || url.truthy then Dict.set d (s% "license") (.obj (setIf url (s% "url") (setIf name (s% "name") []))) else d

/-- upgrade.py:240-290 `_resource_listing`. -/
def resourceListing (o : Obj) : R State := do
  let v ← fld o (s% "apiVersion")
  match kid o (s% "info") with
  | none => .error .attributeError
  | some i => do
    let title ← fld i (s% "title")
    let desc ← fld i (s% "description")
    let tos ← fld i (s% "termsOfServiceUrl")
    let contact ← fld i (s% "contact")
    let license ← fld i (s% "license")
    let url ← fld i (s% "licenseUrl")
    let d := setIf tos (s% "termsOfService") (setIf desc (s% "description") (setIf title (s% "title") [(s% "version", v)]))
    let d := if contact.truthy then Dict.set d (s% "contact") (.obj [(s% "email", contact)]) else d
    .ok ⟨licenseOf license url d, [], [], [], []⟩

/-- upgrade.py:18-19 `_get_name`: the third part of the path. -/
def getName (path : Str) : R Str :=
  match Str.splitC '/' path with
  | _ :: _ :: n :: _ => .ok n
  | _ => .error .indexError

/-- utils.py:464-470 `get_or_none(obj, k1, .., kn, field)` along children; `null` when something is missing. -/
def getOrNone : List Str → Str → Option Obj → R Json
  | _, _, none => .ok .null
  | [], k, some o => fld o k
  | c :: cs, k, some o => getOrNone cs k (kidT o c)

/-- upgrade.py:317-319: the scopes of an authorization. -/
def scopeMap : List Obj → Dict Json → R (Dict Json)
  | [], d => .ok d
  | s :: ss, d => do
    let k ← fld s (s% "scope")
    let k ← asText .typeError k
    let v ← fld s (s% "description")
    scopeMap ss (Dict.set d k v)

/-- upgrade.py:331-334: the flow. -/
def flowOf (au tu : Json) (d : Dict Json) : Dict Json :=
  if au.truthy then Dict.set d (s% "flow") (.str (s% "implicit"))
  else if tu.truthy then Dict.set d (s% "flow") (.str (s% "access_code"))
  else d

/-- upgrade.py:310-337: a converted authorization.  (Scope names that are no strings are not modelled.) -/
def authorizationOf (o : Obj) : R (Dict Json) := do
  let ty ← fld o (s% "type")
  let ty := if ty = .str (s% "basicAuth") then .str (s% "basic") else ty
  let sc ← scopeMap (elems (kid o (s% "scopes"))) []
  let d : Dict Json := [(s% "type", ty), (s% "scopes", .obj sc)]
  if ty = .str (s% "oauth2") then do
    let au ← getOrNone [s% "grantTypes", s% "implicit", s% "loginEndpoint"] (s% "url") (some o)
    let tu ← getOrNone [s% "grantTypes", s% "authorization_code", s% "tokenEndpoint"] (s% "url") (some o)
    .ok (flowOf au tu (setIf tu (s% "tokenUrl") (setIf au (s% "authorizationUrl") d)))
  else if ty = .str (s% "apiKey") then do
    let k ← fld o (s% "keyname")
    let p ← fld o (s% "passAs")
    .ok (Dict.set (Dict.set d (s% "name") k) (s% "in") p)
  else .ok d

/-- upgrade.py:310-339 `_authorization`. -/
def authorization (st : Option State) (path : Str) (o : Obj) : R (Option State) := do
  let d ← authorizationOf o
  let n ← getName path
  match st with
  | none => .error .typeError
  | some st => .ok (some { st with securityDefinitions := Dict.set st.securityDefinitions n (.obj d) })

/-- upgrade.py:229-234, 240, 292, 310: the dispatcher of `Upgrade`. -/
def dispatcher (env : Env) : Dispatcher (Option State) Unit where
  route := [
    (s% "v1_2.ResourceListing", [fun _ _ o => do let s ← resourceListing o; .ok (some s, ())]),
    (s% "v1_2.ApiDeclaration", [fun st _ o => do let s ← apiDeclaration env st o; .ok (s, ())]),
    (s% "v1_2.Authorization", [fun st p o => do let s ← authorization st p o; .ok (s, ())])]

/-- `min(a, b)` of strings. -/
def smaller (a b : Str) : Str := if b < a then b else a

/-- `max(a, b)` of strings. -/
def larger (a b : Str) : Str := if a < b then b else a

/-- The common beginning of two strings (genericpath.py `commonprefix`: the loop over `s1`). -/
def agree : Str → Str → Str
  | a :: as, b :: bs => if a = b then a :: agree as bs else []
  | _, _ => []

/-- `os.path.commonprefix` (CPython 3.11 genericpath.py:69-83): of the smallest and the largest string. -/
def commonPrefix : List Str → Str
  | [] => []
  | x :: xs => agree (xs.foldl smaller x) (xs.foldl larger x)

/-- upgrade.py:348-352: the last slash is cut off; an empty string has no last character. -/
def trimSlash (s : Str) : R Str :=
  match s.getLast? with
  | none => .error .indexError
  | some c => .ok (if c = '/' then s.dropLast else s)

/-- upgrade.py:354-363: the host, and the paths without scheme and host. -/
def hostAndPaths (env : Env) (paths : Dict (Dict Json)) : R (Str × Dict (Dict Json)) := do
  let c ← trimSlash (commonPrefix (Dict.keys paths))
  if c = [] then .ok ([], paths)
  else do
    let u ← Url.parse env.urlOk c
    let n := (Url.unparse ⟨u.scheme, u.netloc, [], [], [], []⟩).length
    .ok (u.netloc, paths.foldl (fun d kv => Dict.set d (kv.1.drop n) kv.2) [])

/-- upgrade.py:242-255, 288, 356, 363: the whole document. -/
def document (st : State) (host : Str) (paths : Dict (Dict Json)) : Dict Json := [
  (s% "swagger", .str (s% "2.0")),
  (s% "schemes", .arr [.str (s% "http"), .str (s% "https")]),
  (s% "host", .str host),
  (s% "basePath", .str []),
  (s% "tags", .arr (st.tags.map (fun n => .obj [(s% "name", .str n)]))),
  (s% "definitions", .obj (st.definitions.map (fun kv => (kv.1, .obj kv.2)))),
  (s% "parameters", .obj []),
  (s% "responses", .obj []),
  (s% "paths", .obj (paths.map (fun kv => (kv.1, .obj kv.2)))),
  (s% "security", .arr []),
  (s% "securityDefinitions", .obj st.securityDefinitions),
  (s% "consumes", .arr []),
  (s% "produces", .arr []),
  (s% "info", .obj st.info)]

/-- upgrade.py:341-365 `get_swagger`, up to the construction of the object (`none`: `None`). -/
def getSwagger (env : Env) (st : Option State) : R (Option (Dict Json)) :=
  match st with
  | none => .ok none
  | some st => do
    let hp ← hostAndPaths env st.paths
    .ok (some (document st hp.1 hp.2))

/-- v2_0/main.py:14-24: the scans of the listing and of its resources, and the new document, from which the 2.0 object
is made. -/
def upgrade12 (env : Env) (listing : Obj) (resources : List (Str × Obj)) : R (Dict Json × Obj) := do
  let st ← scan [[some (dispatcher env)]] (some listing) [] none
  let st ← resources.foldlM (fun st r => scan [[some (dispatcher env)]] (some r.2) [] st) st
  let d ← getSwagger env st
  match d with
  | none => .error .generic
  | some d => do
    let o ← build pkg (.cls (s% "v2_0.Swagger")) (.obj d) (some (s% "#")) []
    .ok (d, o)

end Up12
end Pyopenapi
