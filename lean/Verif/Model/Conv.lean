import Verif.Model.Tables
import Verif.Model.Store
import Verif.Model.Url

/-!
# pyopenapi/migration/versions/v2_0/scanner/upgrade: converters from Swagger 2.0 to OpenAPI 3.0

The converters read loaded 2.0 objects (`Obj`) and give JSON (Python dictionaries).  The `path` arguments are
only used in messages and are left out.  Values are copied here where Python shares them; the one place where
sharing can be seen in the result, the request body of a path item, is modelled by passing it on
(`pathOps`).
-/

namespace Pyopenapi
namespace Conv
open Obj

/-! ### reading objects -/

/-- `getattr(obj, name, None)` for a field (obj.py:24-34); `None` for a name the class does not have. -/
def fld (o : Obj) (k : Str) : R Json :=
  match o with
  | .base c _ spec _ =>
    match Dict.get? (pkg c).fields k with
    | some fd => readField fd spec k
    | none => .ok .null
  | _ => .ok .null

/-- `getattr(obj, name, None)` for a child; `none` is `None`. -/
def kid (o : Obj) (k : Str) : Option Obj :=
  match o with
  | .base _ _ _ kids => Dict.get? kids k
  | _ => none

/-- The same, when it is truthy (`if obj.child:`). -/
def kidT (o : Obj) (k : Str) : Option Obj := (kid o k).filter Obj.truthy

/-- `obj.is_set(k)` (obj.py:153-159). -/
def isSet (o : Obj) (k : Str) : R Bool :=
  match o with
  | .base _ _ spec _ => specHas spec k
  | _ => .ok false

/-- The elements of a `_Map` (nothing for `None`). -/
def entries : Option Obj → List (Str × Obj)
  | some (.map _ _ _ d) => d
  | _ => []

/-- The elements of a `_List` (nothing for `None`). -/
def elems : Option Obj → List Obj
  | some (.list _ _ _ l) => l
  | _ => []

/-- The elements of a `_List` of strings. -/
def strs (o : Option Obj) : List Str :=
  (elems o).filterMap (fun x => match x with
    | .prim (.str s) => some s
    | _ => none)

theorem kid_size {o c : Obj} {k : Str} (h : kid o k = some c) : sizeOf c < sizeOf o := by
  cases o with
  | base cl p s kids =>
    have := List.sizeOf_lt_of_mem (Dict.mem_of_get? (h : Dict.get? kids k = some c))
    simp at this ⊢
    omega
  | _ => simp [kid] at h

theorem kidT_kid {o c : Obj} {k : Str} (h : kidT o k = some c) : kid o k = some c ∧ c.truthy = true := by
  unfold kidT at h
  cases hk : kid o k with
  | none => rw [hk] at h; cases h
  | some x =>
    rw [hk, Option.filter_some] at h
    split at h
    · cases h; rename_i ht; exact ⟨rfl, ht⟩
    · cases h

theorem kidT_size {o c : Obj} {k : Str} (h : kidT o k = some c) : sizeOf c < sizeOf o := kid_size (kidT_kid h).1

theorem elems_size {o c : Obj} {k : Str} (h : kidT o k = some c) : sizeOf (elems (some c)) < sizeOf o := by
  have := kidT_size h
  cases c with
  | list b p s l => simp [elems] at this ⊢; omega
  | _ => simp [elems] at this ⊢; omega

theorem entries_size {o c : Obj} {k : Str} (h : kidT o k = some c) : sizeOf (entries (some c)) < sizeOf o := by
  have := kidT_size h
  cases c with
  | map b p s l => simp [entries] at this ⊢; omega
  | _ => simp [entries] at this ⊢; omega

/-! ### constants.py -/

/-- constants.py:5-21 -/
def baseSchemaFields : List Str := [s% "type", s% "format", s% "default", s% "maximum", s% "exclusiveMaximum",
  s% "minimum", s% "exclusiveMinimum", s% "maxLength", s% "minLength", s% "pattern", s% "maxItems", s% "minItems",
  s% "uniqueItems", s% "enum", s% "multipleOf"]

/-- constants.py:23-31 -/
def schemaFields : List Str := baseSchemaFields ++ [s% "title", s% "maxProperties", s% "minProperties",
  s% "description", s% "readOnly", s% "writeOnly", s% "example"]

/-- constants.py:33-53 -/
def fileContentTypes : List Str := [s% "multipart/form-data", s% "application/x-www-form-urlencoded",
  s% "application/octet-stream", s% "application/pdf", s% "image/*", s% "image/gif", s% "image/png", s% "image/jpeg",
  s% "image/bmp", s% "image/webp", s% "audio/*", s% "audio/midi", s% "audio/mpeg", s% "audio/webm", s% "audio/ogg",
  s% "audio/wav", s% "video/*", s% "video/webm", s% "video/ogg"]

/-! ### converters.py -/

/-- converters.py:12-19 `_generate_fields`, added to `ret` (`ret.update(...)`). -/
def genFields (o : Obj) : List Str → Dict Json → R (Dict Json)
  | [], ret => .ok ret
  | name :: names, ret => do
    let v ← fld o name
    genFields o names (if v = .null then ret else Dict.set ret name v)

/-- converters.py:22-46 `to_style_and_explode`. -/
def toStyleExplode (cf in_ type_ : Json) : R (Option Str × Option Bool) :=
  if cf = .str (s% "csv") then
    if in_ = .str (s% "query") then .ok (some (s% "form"), some false)
    else if in_ = .str (s% "path") ∨ in_ = .str (s% "header") then .ok (some (s% "simple"), none)
    else .ok (none, none)
  else if cf = .str (s% "ssv") then
    if in_ ≠ .str (s% "query") ∨ type_ ≠ .str (s% "array") then .error .schemaError
    else .ok (some (s% "spaceDelimited"), none)
  else if cf = .str (s% "pipes") then
    if in_ ≠ .str (s% "query") ∨ type_ ≠ .str (s% "array") then .error .schemaError
    else .ok (some (s% "pipeDelimited"), none)
  else if cf = .str (s% "multi") then
    if in_ = .str (s% "query") then .ok (some (s% "form"), some true) else .ok (none, none)
  else .ok (none, none)

/-- converters.py:76-82 `to_external_docs`. -/
def toExternalDocs (o : Obj) : R (Dict Json) := do
  let url ← fld o (s% "url")
  let desc ← fld o (s% "description")
  .ok (if desc.truthy then [(s% "url", url), (s% "description", desc)] else [(s% "url", url)])

/-- converters.py:155-159, 54-57, 479-482: `if obj.externalDocs: ret['externalDocs'] = ...`. -/
def putExternalDocs (o : Obj) (ret : Dict Json) : R (Dict Json) :=
  match kidT o (s% "externalDocs") with
  | some d => do let r ← toExternalDocs d; .ok (Dict.set ret (s% "externalDocs") (.obj r))
  | none => .ok ret

/-- converters.py:49-59 `to_tag`. -/
def toTag (o : Obj) : R Json := do
  let name ← fld o (s% "name")
  let ret ← genFields o [s% "description"] [(s% "name", name)]
  let ret ← putExternalDocs o ret
  .ok (.obj ret)

/-- converters.py:62-73 `to_xml`. -/
def toXml (o : Obj) : R (Dict Json) :=
  genFields o [s% "name", s% "namespace", s% "prefix", s% "attribute", s% "wrapped"] []

/-- converters.py:85-97 `from_items`. -/
def fromItems (o : Obj) : R Json := do
  let ref ← fld o (s% "$ref")
  if ref.truthy then .ok (.obj [(s% "$ref", ref)])
  else do
    let ret ← genFields o baseSchemaFields []
    match _h : kidT o (s% "items") with
    | some it => do
      let r ← fromItems it
      .ok (.obj (Dict.set ret (s% "items") r))
    | none => .ok (.obj ret)
termination_by sizeOf o
decreasing_by exact kidT_size _h

/-- converters.py:113-115. -/
def putRequired (o : Obj) (ret : Dict Json) : R (Dict Json) := do
  match ← fld o (s% "required") with
  | .arr (x :: l) => .ok (Dict.set ret (s% "required") (.arr (x :: l)))
  | _ => .ok ret

/-- converters.py:151-153. -/
def putXml (o : Obj) (ret : Dict Json) : R (Dict Json) :=
  match kidT o (s% "xml") with
  | some x => do let r ← toXml x; .ok (Dict.set ret (s% "xml") (.obj r))
  | none => .ok ret

/-- converters.py:147-159: discriminator, xml, externalDocs. -/
def putRest (o : Obj) (ret : Dict Json) : R (Dict Json) := do
  let disc ← fld o (s% "discriminator")
  let ret := if disc.truthy then Dict.set ret (s% "discriminator") (.obj [(s% "propertyName", disc)]) else ret
  let ret ← putXml o ret
  putExternalDocs o ret

mutual
/-- converters.py:100-161 `to_schema`.  `fi` says whether `items_converter` is `from_items`. -/
def toSchema (fi : Bool) (o : Obj) : R Json := do
  let ref ← fld o (s% "$ref")
  let type_ ← fld o (s% "type")
  if ref.truthy then .ok (.obj [(s% "$ref", ref)])
  else if type_ = .str (s% "file") then
    .ok (.obj [(s% "type", .str (s% "string")), (s% "format", .str (s% "binary"))])
  else do
    let ret ← genFields o schemaFields []
    let ret ← putRequired o ret
    let ret ← putAllOf o ret
    let ret ← putItems fi o ret
    let ret ← putProperties fi o ret
    let ret ← putAdditional o ret
    let ret ← putRest o ret
    .ok (.obj ret)
termination_by (sizeOf o, 1)
/-- converters.py:117-122. -/
def putAllOf (o : Obj) (ret : Dict Json) : R (Dict Json) :=
  match _h : kidT o (s% "allOf") with
  | some l => do
    let r ← toSchemaList (elems (some l))
    .ok (Dict.set ret (s% "allOf") (.arr r))
  | none => .ok ret
termination_by (sizeOf o, 0)
decreasing_by exact Prod.Lex.left _ _ (elems_size _h)
/-- converters.py:124-126. -/
def putItems (fi : Bool) (o : Obj) (ret : Dict Json) : R (Dict Json) :=
  match _h : kidT o (s% "items") with
  | some it => do
    let r ← if fi then fromItems it else toSchema false it
    .ok (Dict.set ret (s% "items") r)
  | none => .ok ret
termination_by (sizeOf o, 0)
decreasing_by exact Prod.Lex.left _ _ (kidT_size _h)
/-- converters.py:128-135. -/
def putProperties (fi : Bool) (o : Obj) (ret : Dict Json) : R (Dict Json) :=
  match _h : kidT o (s% "properties") with
  | some d => do
    let r ← toSchemaProps fi (entries (some d)) []
    .ok (Dict.set ret (s% "properties") (.obj r))
  | none => .ok ret
termination_by (sizeOf o, 0)
decreasing_by exact Prod.Lex.left _ _ (entries_size _h)
/-- converters.py:137-145. -/
def putAdditional (o : Obj) (ret : Dict Json) : R (Dict Json) :=
  match _h : kid o (s% "additionalProperties") with
  | some (.prim (.bool b)) => .ok (if b then ret else Dict.set ret (s% "additionalProperties") (.bool false))
  | some ap => do
    let r ← toSchema false ap
    .ok (Dict.set ret (s% "additionalProperties") r)
  | none => .ok ret
termination_by (sizeOf o, 0)
decreasing_by exact Prod.Lex.left _ _ (kid_size _h)
/-- converters.py:120-122. -/
def toSchemaList (l : List Obj) : R (List Json) :=
  match l with
  | [] => .ok []
  | o :: l => do
    let j ← toSchema false o
    let r ← toSchemaList l
    .ok (j :: r)
termination_by (sizeOf l, 0)
decreasing_by
  · exact Prod.Lex.left _ _ (by simp; omega)
  · exact Prod.Lex.left _ _ (by simp; omega)
/-- converters.py:130-135. -/
def toSchemaProps (fi : Bool) (l : List (Str × Obj)) (ret : Dict Json) : R (Dict Json) :=
  match l with
  | [] => .ok ret
  | (k, o) :: l => do
    let j ← toSchema fi o
    toSchemaProps fi l (Dict.set ret k j)
termination_by (sizeOf l, 0)
decreasing_by
  · exact Prod.Lex.left _ _ (by simp; omega)
  · exact Prod.Lex.left _ _ (by simp; omega)
end

/-- `to_schema(x)` for a child that may be `None` (every attribute of `None` is `None`). -/
def toSchema? (fi : Bool) : Option Obj → R Json
  | some o => toSchema fi o
  | none => .ok (.obj [])

/-- converters.py:175-176. -/
def putScopes (o : Obj) (ret : Dict Json) : R (Dict Json) :=
  match kidT o (s% "scopes") with
  | some s => do let j ← Obj.dump pkg s; .ok (Dict.set ret (s% "scopes") j)
  | none => .ok ret

/-- converters.py:164-178 `to_flows`. -/
def toFlows (o : Obj) : R (Dict Json) := do
  let flow ← fld o (s% "flow")
  if flow.truthy = false then .error .schemaError
  else match flow with
    | .str f => do
      let ret ← genFields o [s% "authorizationUrl", s% "tokenUrl"] []
      let ret ← putScopes o ret
      .ok [(f, .obj ret)]
    | _ => .error .typeError

/-- converters.py:185-188. -/
def schemeDetails (o : Obj) (type_ : Json) (ret : Dict Json) : R (Dict Json) :=
  if type_ = .str (s% "basic") then .ok (Dict.set ret (s% "scheme") (.str (s% "basic")))
  else if type_ = .str (s% "oauth2") then do let f ← toFlows o; .ok (Dict.set ret (s% "flows") (.obj f))
  else .ok ret

/-- converters.py:181-196 `to_security_scheme`. -/
def toSecurityScheme (o : Obj) : R Json := do
  let type_ ← fld o (s% "type")
  let ret ← schemeDetails o type_ [(s% "type", type_)]
  let ret ← genFields o [s% "description", s% "name", s% "in"] ret
  .ok (.obj ret)

/-- converters.py:215-218, 356-359: put style and explode. -/
def putStyle (se : Option Str × Option Bool) (ret : Dict Json) : Dict Json :=
  let ret := match se.1 with
    | some s => Dict.set ret (s% "style") (.str s)
    | none => ret
  match se.2 with
  | some b => Dict.set ret (s% "explode") (.bool b)
  | none => ret

/-- converters.py:209-218, 351-359: the style of an object in location `in_`. -/
def putCollection (o : Obj) (in_ : Json) (ret : Dict Json) : R (Dict Json) := do
  if ← isSet o (s% "collectionFormat") then do
    let cf ← fld o (s% "collectionFormat")
    let type_ ← fld o (s% "type")
    let se ← toStyleExplode cf in_ type_
    .ok (putStyle se ret)
  else .ok ret

/-- converters.py:205-207, 347-349: the items of a schema made of a header or parameter. -/
def putSimpleItems (o : Obj) (schema : Dict Json) : R (Dict Json) :=
  match kidT o (s% "items") with
  | some it => do let r ← fromItems it; .ok (Dict.set schema (s% "items") r)
  | none => .ok schema

/-- converters.py:199-220 `to_header`. -/
def toHeader (o : Obj) : R Json := do
  let ret ← genFields o [s% "description"] []
  let schema ← genFields o baseSchemaFields []
  let schema ← putSimpleItems o schema
  let ret ← putCollection o (.str (s% "header")) (Dict.set ret (s% "schema") (.obj schema))
  .ok (.obj ret)

/-- converters.py:223-240 `_decide_encoding_content_type`; `None` has no type.  (The loop over `items` of
arrays ends at the first type that is not `array`; the call then decides on that one.) -/
def encodingType (o : Obj) : R Str := do
  let type_ ← fld o (s% "type")
  if type_ = .str (s% "file") then .ok (s% "application/octet-stream")
  else if type_ = .str (s% "object") then .ok (s% "application/json")
  else if type_ = .str (s% "array") then
    match _h : kid o (s% "items") with
    | some it => encodingType it
    | none => .ok (s% "text/plain")
  else .ok (s% "text/plain")
termination_by sizeOf o
decreasing_by exact kid_size _h

/-- converters.py:243-263 `to_encoding`. -/
def toEncoding (o : Obj) (contentType : Str) : R (Dict Json) :=
  if contentType = s% "application/x-www-form-urlencoded" ∨ contentType = s% "multipart/form-data" then do
    let ct ← encodingType o
    let ret : Dict Json := [(s% "contentType", .str ct)]
    if ← isSet o (s% "collectionFormat") then do
      let cf ← fld o (s% "collectionFormat")
      let in_ ← fld o (s% "in")
      let type_ ← fld o (s% "type")
      let se ← toStyleExplode cf in_ type_
      .ok (if se.1.isSome then putStyle se ret else ret)
    else .ok ret
  else .ok []

/-- What the converters need besides the object: `deref` (utils.py:151-166, C14), the order in which Python
iterates a set of strings, `normalized_ref` of a path item (set by the scanners of C12), and the check of the
authority of a url (`Url.parse`). -/
structure Env where
  deref : Obj → R Obj
  setOrder : List Str → List Str
  normRef : Obj → Json
  ok : Str → Bool

/-- CPython `urlsplit(url)`: `urlparse` without the split of `params`. -/
def urlSplit (ok : Str → Bool) (url : Str) : R Url :=
  let (scheme, r) := Url.schemeSplit (Url.clean url)
  let (netloc, r) := Url.netlocSplit r
  if !ok netloc then .error .valueError
  else
    let (r, fragment) := Str.cut '#' r
    let (path, query) := Str.cut '?' r
    .ok ⟨scheme, netloc, path, [], query.getD [], fragment.getD []⟩

/-- converters.py:488-492: the url with another scheme; `urlunsplit` is `urlunparse` without `params`. -/
def Env.withScheme (env : Env) (scheme url : Str) : R Str := do
  let u ← urlSplit env.ok url
  .ok (Url.unparse { u with scheme := scheme })

/-- A dictionary inside a dictionary, `{}` when absent (`setdefault(k, {})`). -/
def sub (d : Dict Json) (k : Str) : Dict Json :=
  match Dict.get? d k with
  | some (.obj e) => e
  | _ => []

/-- The list at `k`, `[]` when absent (`setdefault(k, [])`). -/
def subL (d : Dict Json) (k : Str) : List Json :=
  match Dict.get? d k with
  | some (.arr l) => l
  | _ => []

/-- A JSON string as a Python string, for use as a key.  (Python takes any hashable value; here anything else
raises.) -/
def asKey : Json → R Str
  | .str s => .ok s
  | _ => .error .typeError

/-- converters.py:266-294 `to_media_type`. -/
def toMediaType (env : Env) (o : Obj) (contentType : Str) (existing : Dict Json) : R (Dict Json) := do
  let resolved ← env.deref o
  let schema := sub existing (s% "schema")
  let required ← fld resolved (s% "required")
  let nameJ ← fld resolved (s% "name")
  let schema := if required.truthy then Dict.set schema (s% "required") (.arr (subL schema (s% "required") ++ [nameJ])) else schema
  let props := sub schema (s% "properties")
  let name ← asKey nameJ
  if Dict.has props name then .error .schemaError
  else do
    let src := (kidT resolved (s% "schema")).getD resolved
    let ref ← fld o (s% "$ref")
    let prop ← toSchema true (if ref.truthy then o else src)
    let aev ← fld resolved (s% "allowEmptyValue")
    let prop := match prop with
      | .obj p => if aev = .bool true then .obj (Dict.set p (s% "nullable") (.bool true)) else .obj p
      | p => p
    let schema := Dict.set schema (s% "properties") (.obj (Dict.set props name prop))
    let ret := Dict.set existing (s% "schema") (.obj schema)
    let enc ← toEncoding src contentType
    .ok (if enc.isEmpty then ret
      else Dict.set ret (s% "encoding") (.obj (Dict.set (sub ret (s% "encoding")) name (.obj enc))))

/-- parameter_context.py: the flags. -/
structure Ctx where
  isBody : Bool
  isFile : Bool
  isForm : Bool
  deriving DecidableEq, Repr

/-- parameter_context.py:58-65 `get_default_mime_type`. -/
def Ctx.defaultMime (c : Ctx) : Str :=
  if c.isFile then s% "multipart/form-data"
  else if c.isForm then s% "application/x-www-form-urlencoded"
  else if c.isBody then s% "application/json"
  else s% "text/plain"

/-- parameter_context.py:44-56 `get_valid_mime_type`. -/
def Ctx.mimes (env : Env) (c : Ctx) (consumes : List Str) : List Str :=
  if consumes = [] then [c.defaultMime]
  else if c.isFile then
    match env.setOrder (consumes.filter (fun m => m ∈ fileContentTypes)) with
    | [] => [c.defaultMime]
    | l => l
  else if c.isForm then
    match env.setOrder (consumes.filter (fun m => m = s% "application/x-www-form-urlencoded" ∨ m = s% "multipart/form-data")) with
    | [] => [c.defaultMime]
    | l => l
  else consumes

/-- converters.py:306-309. -/
def formContent (env : Env) (o : Obj) : List Str → Dict Json → R (Dict Json)
  | [], content => .ok content
  | t :: ts, content => do
    let m ← toMediaType env o t (sub content t)
    formContent env o ts (Dict.set content t (.obj m))

/-- converters.py:318-321. -/
def bodyContent (schema : Json) : List Str → Dict Json → Dict Json
  | [], content => content
  | t :: ts, content => bodyContent schema ts (Dict.set content t (.obj (Dict.set (sub content t) (s% "schema") schema)))

/-- converters.py:297-327 `to_request_body`.  `existing` is `none` for `None` (the dictionaries made here are
never empty). -/
def toRequestBody (env : Env) (o : Obj) (existing : Option (Dict Json)) (ctx : Ctx) (consumes : List Str) :
    R (Dict Json) := do
  let ret := existing.getD []
  let content := sub ret (s% "content")
  let ret := Dict.set ret (s% "content") (.obj content)
  let resolved ← env.deref o
  let required ← fld resolved (s% "required")
  let ret := if required.truthy then Dict.set ret (s% "required") (.bool true) else ret
  let mimes := ctx.mimes env consumes
  if ctx.isFile || ctx.isForm then do
    let content ← formContent env o mimes content
    .ok (Dict.set ret (s% "content") (.obj content))
  else if ctx.isBody then
    if existing.isSome then .error .schemaError
    else do
      let ret ← genFields resolved [s% "description"] ret
      let schema ← toSchema? false (kid resolved (s% "schema"))
      .ok (Dict.set ret (s% "content") (.obj (bodyContent schema mimes content)))
  else .error .schemaError

/-- converters.py:330-361 `to_parameter`.  (`schema` is put at once, with its `items`.) -/
def toParameter (o : Obj) : R Json := do
  let ret ← genFields o [s% "description", s% "required", s% "allowEmptyValue"] []
  let in_ ← fld o (s% "in")
  let schema ← genFields o baseSchemaFields []
  let name ← fld o (s% "name")
  let schema ← putSimpleItems o schema
  let ret := if schema.isEmpty then ret else Dict.set ret (s% "schema") (.obj schema)
  let ret := Dict.set (Dict.set ret (s% "name") name) (s% "in") in_
  let ret ← putCollection o in_ ret
  .ok (.obj ret)

/-- converters.py:364-390 `from_parameter`: the flags and either the (new) body or the parameter. -/
def paramCtx (env : Env) (o : Obj) : R Ctx := do
  let resolved ← env.deref o
  let in_ ← fld resolved (s% "in")
  let type_ ← fld resolved (s% "type")
  if type_ = .str (s% "file") then .ok ⟨true, true, false⟩
  else if in_ = .str (s% "formData") then .ok ⟨true, false, true⟩
  else if in_ = .str (s% "body") then
    match kid resolved (s% "schema") with
    | some s => do
      let s ← env.deref s
      let t ← fld s (s% "type")
      .ok ⟨true, t = .str (s% "file"), false⟩
    | none => .ok ⟨true, false, false⟩
  else .ok ⟨false, false, false⟩

/-- converters.py:384-388: a parameter that is not a body. -/
def plainParameter (o : Obj) : R Json := do
  let ref ← fld o (s% "$ref")
  if ref.truthy then .ok (.obj [(s% "$ref", ref)]) else toParameter o

/-- converters.py:457-466, 540-553: the loop over parameters; the parameters made so far and the body. -/
def parameters (env : Env) (consumes : List Str) : List Obj → List Json → Option (Dict Json) →
    R (List Json × Option (Dict Json))
  | [], ps, body => .ok (ps, body)
  | o :: os, ps, body => do
    let ctx ← paramCtx env o
    if ctx.isBody then do
      let b ← toRequestBody env o body ctx consumes
      parameters env consumes os ps (some b)
    else do
      let p ← plainParameter o
      parameters env consumes os (ps ++ [p]) body

/-- converters.py:430-433. -/
def toHeaders : List (Str × Obj) → Dict Json → R (Dict Json)
  | [], ret => .ok ret
  | (k, h) :: hs, ret => do
    let j ← toHeader h
    toHeaders hs (Dict.set ret k j)

/-- converters.py:406-426: the content of a response with schema `s`. -/
def responseContent (s : Obj) (produces : List Str) : R (Dict Json) := do
  let type_ ← fld s (s% "type")
  let produces := if produces = [] then
    [if type_ = .str (s% "object") then s% "application/json" else s% "text/plain"] else produces
  if type_ = .str (s% "file") then
    .ok [(s% "application/octet-stream", .obj [(s% "type", .str (s% "string")), (s% "format", .str (s% "binary"))])]
  else do
    let j ← toSchema false s
    .ok (produces.foldl (fun c t => Dict.set c t (.obj [(s% "schema", j)])) [])

/-- converters.py:406-426. -/
def putContent (o : Obj) (produces : List Str) (ret : Dict Json) : R (Dict Json) :=
  match kidT o (s% "schema") with
  | none => .ok ret
  | some s => do let c ← responseContent s produces; .ok (Dict.set ret (s% "content") (.obj c))

/-- converters.py:428-433. -/
def putHeaders (o : Obj) (ret : Dict Json) : R (Dict Json) :=
  match kidT o (s% "headers") with
  | some hs => do let h ← toHeaders (entries (some hs)) []; .ok (Dict.set ret (s% "headers") (.obj h))
  | none => .ok ret

/-- converters.py:393-435 `to_response`. -/
def toResponse (env : Env) (o : Obj) (produces : List Str) : R Json := do
  let ref ← fld o (s% "$ref")
  let resolved ← env.deref o
  if ref.truthy ∧ (kidT resolved (s% "schema")).isNone then .ok (.obj [(s% "$ref", ref)])
  else do
    let ret ← genFields resolved [s% "description"] []
    let ret ← putContent resolved produces ret
    let ret ← putHeaders resolved ret
    .ok (.obj ret)

/-- converters.py:474-476, 681-684: a map of responses. -/
def toResponses (env : Env) (produces : List Str) : List (Str × Obj) → Dict Json → R (Dict Json)
  | [], ret => .ok ret
  | (k, r) :: rs, ret => do
    let j ← toResponse env r produces
    toResponses env produces rs (Dict.set ret k j)

/-- converters.py:487-492. -/
def toServers (env : Env) (root : Str) : List Str → R (List Json)
  | [] => .ok []
  | s :: ss => do
    let u ← env.withScheme s root
    let r ← toServers env root ss
    .ok (.obj [(s% "url", .str u)] :: r)

/-- `x.dump()` put under `k` when the child is truthy (converters.py:448-452). -/
def putDump (o : Obj) (k : Str) (ret : Dict Json) : R (Dict Json) :=
  match kidT o k with
  | some c => do let j ← Obj.dump pkg c; .ok (Dict.set ret k j)
  | none => .ok ret

/-- `a or b` for two lists. -/
def orElse (a b : List Str) : List Str := if a = [] then b else a

/-- converters.py:471-476. -/
def putOpResponses (env : Env) (o : Obj) (produces : List Str) (ret : Dict Json) : R (Dict Json) :=
  match kidT o (s% "responses") with
  | some rs => do
    let r ← toResponses env (orElse (strs (kid o (s% "produces"))) produces) (entries (some rs)) []
    .ok (Dict.set ret (s% "responses") (.obj r))
  | none => .ok ret

/-- converters.py:484-492. -/
def putServers (env : Env) (o : Obj) (root : Str) (ret : Dict Json) : R (Dict Json) :=
  match kidT o (s% "schemes") with
  | some ss => do
    let l ← toServers env root (strs (some ss))
    .ok (Dict.set ret (s% "servers") (.arr l))
  | none => .ok ret

/-- converters.py:438-494 `to_operation`: the operation without its `requestBody`, and the body.  (Where
`requestBody` stands among the keys is not kept: it is added by the caller.) -/
def toOperation (env : Env) (o : Obj) (body : Option (Dict Json)) (root : Str) (produces consumes : List Str) :
    R (Dict Json × Option (Dict Json)) := do
  let ret ← genFields o [s% "summary", s% "description", s% "operationId", s% "deprecated"] []
  let ret ← putDump o (s% "tags") ret
  let ret ← putDump o (s% "security") ret
  let (ps, body) ← parameters env (orElse (strs (kid o (s% "consumes"))) consumes) (elems (kid o (s% "parameters"))) [] body
  let ret := if ps = [] then ret else Dict.set ret (s% "parameters") (.arr ps)
  let ret ← putOpResponses env o produces ret
  let ret ← putExternalDocs o ret
  let ret ← putServers env o root ret
  .ok (ret, body)

/-- converters.py:468-469: `if body: ret['requestBody'] = body`. -/
def putBody (body : Option (Dict Json)) (ret : Dict Json) : Dict Json :=
  match body with
  | some b => Dict.set ret (s% "requestBody") (.obj b)
  | none => ret

/-- converters.py:497-500 `to_contact`. -/
def toContact (o : Obj) : R (Dict Json) := genFields o [s% "name", s% "url", s% "email"] []

/-- converters.py:503-508 `to_license`. -/
def toLicense (o : Obj) : R (Dict Json) := do
  let name ← fld o (s% "name")
  genFields o [s% "url"] [(s% "name", name)]

/-- converters.py:521-523. -/
def putContact (o : Obj) (ret : Dict Json) : R (Dict Json) :=
  match kidT o (s% "contact") with
  | some c => do let j ← toContact c; .ok (Dict.set ret (s% "contact") (.obj j))
  | none => .ok ret

/-- converters.py:524-526. -/
def putLicense (o : Obj) (ret : Dict Json) : R (Dict Json) :=
  match kidT o (s% "license") with
  | some c => do let j ← toLicense c; .ok (Dict.set ret (s% "license") (.obj j))
  | none => .ok ret

/-- converters.py:511-528 `to_info`. -/
def toInfo (o : Obj) : R (Dict Json) := do
  let title ← fld o (s% "title")
  let version ← fld o (s% "version")
  let ret ← genFields o [s% "description", s% "termsOfService"] [(s% "title", title), (s% "version", version)]
  let ret ← putContact o ret
  putLicense o ret

/-- converters.py:556-564. -/
def methods : List Str := [s% "get", s% "put", s% "post", s% "delete", s% "options", s% "head", s% "patch"]

/-- converters.py:556-573: the operations of a path item; `body` is the request body made from the parameters
of the path item.  When there is one, it is one dictionary that every operation adds its own parameters to and
refers to, so each operation sees it as the last one has left it; when there is none, each operation makes its
own. -/
def pathOps (env : Env) (o : Obj) (root : Str) (produces consumes : List Str) : List Str → Option (Dict Json) →
    List (Str × Dict Json) → R (List (Str × Dict Json) × Option (Dict Json))
  | [], body, acc => .ok (acc, body)
  | m :: ms, body, acc =>
    match kidT o m with
    | none => pathOps env o root produces consumes ms body acc
    | some op => do
      let (ret, b) ← toOperation env op body root produces consumes
      match body with
      | some _ => pathOps env o root produces consumes ms b (acc ++ [(m, ret)])
      | none => pathOps env o root produces consumes ms none (acc ++ [(m, putBody b ret)])

/-- converters.py:546-549: the relocations of the parameters of a path item that go into a body. -/
def bodyIndexes (env : Env) : List Obj → Nat → R (List Nat)
  | [], _ => .ok []
  | o :: os, i => do
    let ctx ← paramCtx env o
    let r ← bodyIndexes env os (i + 1)
    .ok (if ctx.isFile || ctx.isBody then i :: r else r)

/-- converters.py:531-583 `to_path_item`. -/
def toPathItem (env : Env) (o : Obj) (root : Str) (consumes produces : List Str) : R (Dict Json × Routes) := do
  let ref ← fld o (s% "$ref")
  let ret : Dict Json := if ref.truthy then [(s% "$ref", env.normRef o)] else []
  let (ps, body) ← parameters env consumes (elems (kid o (s% "parameters"))) [] none
  let idx ← bodyIndexes env (elems (kid o (s% "parameters"))) 0
  let reloc : Routes := idx.map (fun i => (s% "parameters/" ++ Str.ofNat i, .to (s% "x-pyopenapi_internal_request_body")))
  let ret := if ps = [] then ret else Dict.set ret (s% "parameters") (.arr ps)
  let (ops, body) ← pathOps env o root produces consumes methods body []
  let ops := ops.map (fun p => (p.1, .obj (putBody body p.2)))
  let ret := Dict.update ret ops
  .ok (match body with
    | some b => Dict.set ret (s% "x-pyopenapi_internal_request_body") (.obj b)
    | none => ret, reloc)

/-- A string field, `''` for `None` (both falsy).  (Python fails later on other values; here it raises.) -/
def strOr : Json → R Str
  | .null => .ok []
  | .str s => .ok s
  | _ => .error .typeError

/-- converters.py:586-592 `from_swagger_to_server`: the url. -/
def serverUrl (o : Obj) : R Str := do
  let host ← strOr (← fld o (s% "host"))
  let basePath ← strOr (← fld o (s% "basePath"))
  let url := if basePath = [] then host
    else Url.unparse ⟨((strs (kid o (s% "schemes"))).head?).getD (s% "https"), host, basePath, [], [], []⟩
  .ok (if url = [] then ['/'] else url)

/-- converters.py:617: `k.replace('~', '~0').replace('/', '~1')`. -/
def escapeKey (k : Str) : Str := (Str.replace k ['~'] ['~', '0']).replace ['/'] ['~', '1']

/-- converters.py:606-619: the paths, and the relocations inside them. -/
def toPaths (env : Env) (root : Str) (consumes produces : List Str) : List (Str × Obj) → Dict Json → Routes →
    R (Dict Json × Routes)
  | [], ret, reloc => .ok (ret, reloc)
  | (k, p) :: ps, ret, reloc =>
    if Str.startsWith k (s% "x-") then .error .schemaError
    else do
      let (j, r) ← toPathItem env p root consumes produces
      toPaths env root consumes produces ps (Dict.set ret k (.obj j))
        (if r = [] then reloc else Dict.set reloc (escapeKey k) (.nested r))

/-- converters.py:627-630. -/
def toTags : List Obj → R (List Json)
  | [] => .ok []
  | o :: os => do
    let j ← toTag o
    let r ← toTags os
    .ok (j :: r)

/-- converters.py:651-673: the named parameters: those that stay parameters, those that become request bodies, and
the relocations of the latter. -/
def toNamedParameters (env : Env) : List (Str × Obj) → Dict Json → Dict Json → Routes → R (Dict Json × Dict Json × Routes)
  | [], ps, bs, reloc => .ok (ps, bs, reloc)
  | (k, o) :: os, ps, bs, reloc => do
    let ctx ← paramCtx env o
    if ctx.isBody then do
      let b ← toRequestBody env o none ctx []
      toNamedParameters env os ps (Dict.set bs k (.obj b))
        (Dict.set reloc k (.to (s% "#/components/requestBodies/" ++ k)))
    else do
      let p ← plainParameter o
      toNamedParameters env os (Dict.set ps k p) bs reloc

/-- converters.py:690-692. -/
def toSecuritySchemes : List (Str × Obj) → Dict Json → R (Dict Json)
  | [], ret => .ok ret
  | (k, o) :: os, ret => do
    let j ← toSecurityScheme o
    toSecuritySchemes os (Dict.set ret k j)

/-- `d.setdefault(k, {})` filled with `v`, when there is something to put. -/
def putSome (k : Str) (v : Dict Json) (d : Dict Json) : Dict Json :=
  if v = [] then d else Dict.set d k (.obj v)

/-- converters.py:643-647. -/
def putSchemas (o : Obj) (c : Dict Json × Routes) : R (Dict Json × Routes) :=
  match kidT o (s% "definitions") with
  | some d => do
    let r ← toSchemaProps false (entries (some d)) []
    .ok (Dict.set c.1 (s% "schemas") (.obj r), Dict.set c.2 (s% "definitions") (.to (s% "components/schemas")))
  | none => .ok c

/-- converters.py:650-674. -/
def putParameters (env : Env) (o : Obj) (c : Dict Json × Routes) : R (Dict Json × Routes) :=
  match kidT o (s% "parameters") with
  | some d => do
    let (ps, bs, pr) ← toNamedParameters env (entries (some d)) [] [] []
    .ok (putSome (s% "parameters") ps (putSome (s% "requestBodies") bs c.1),
      Dict.set c.2 (s% "parameters") (.nested (Dict.set pr [] (.to (s% "#/components/parameters")))))
  | none => .ok c

/-- converters.py:677-684. -/
def putResponses (env : Env) (o : Obj) (c : Dict Json × Routes) : R (Dict Json × Routes) :=
  match kidT o (s% "responses") with
  | some d => do
    let r ← toResponses env (strs (kid o (s% "produces"))) (entries (some d)) []
    .ok (Dict.set c.1 (s% "responses") (.obj r), Dict.set c.2 (s% "responses") (.to (s% "components/responses")))
  | none => .ok c

/-- converters.py:687-694. -/
def putSecurity (o : Obj) (c : Dict Json × Routes) : R (Dict Json × Routes) :=
  match kidT o (s% "securityDefinitions") with
  | some d => do
    let r ← toSecuritySchemes (entries (some d)) []
    .ok (Dict.set c.1 (s% "securitySchemes") (.obj r),
      Dict.set c.2 (s% "securityDefinitions") (.to (s% "components/securitySchemes")))
  | none => .ok c

/-- converters.py:600-602. -/
def putInfo (o : Obj) (ret : Dict Json) : R (Dict Json) :=
  match kidT o (s% "info") with
  | some i => do let j ← toInfo i; .ok (Dict.set ret (s% "info") (.obj j))
  | none => .ok ret

/-- converters.py:609-619. -/
def putPaths (env : Env) (o : Obj) (root : Str) (c : Dict Json × Routes) : R (Dict Json × Routes) :=
  match kidT o (s% "paths") with
  | some d => do
    let (ps, pr) ← toPaths env root (strs (kid o (s% "consumes"))) (strs (kid o (s% "produces"))) (entries (some d)) [] []
    .ok (Dict.set c.1 (s% "paths") (.obj ps), if pr = [] then c.2 else Dict.set c.2 (s% "paths") (.nested pr))
  | none => .ok c

/-- converters.py:626-630. -/
def putTags (o : Obj) (ret : Dict Json) : R (Dict Json) :=
  match kidT o (s% "tags") with
  | some l => do let r ← toTags (elems (some l)); .ok (Dict.set ret (s% "tags") (.arr r))
  | none => .ok ret

/-- converters.py:595-697 `to_openapi`.  `ret['security'] = obj.security` (626-627) puts a `_List` object into the
document, which the constructor of the new document then rejects (obj.py:213); it is a failure here.  (No valid
document gets there: C58.) -/
def toOpenapi (env : Env) (o : Obj) : R (Dict Json × Routes) := do
  let ret ← putInfo o [(s% "openapi", .str (s% "3.0.0"))]
  let url ← serverUrl o
  let ret := Dict.set ret (s% "servers") (.arr [.obj [(s% "url", .str url)]])
  let (ret, reloc) ← putPaths env o url (ret, [])
  if (kidT o (s% "security")).isSome then .error .generic
  else do
    let ret ← putTags o ret
    let ret ← putExternalDocs o ret
    let (comps, reloc) ← putSchemas o ([], reloc)
    let (comps, reloc) ← putParameters env o (comps, reloc)
    let (comps, reloc) ← putResponses env o (comps, reloc)
    let (comps, reloc) ← putSecurity o (comps, reloc)
    .ok (putSome (s% "components") comps ret, reloc)

end Conv
end Pyopenapi
