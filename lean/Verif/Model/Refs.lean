import Verif.Model.Scan
import Verif.Model.Url
import Verif.Model.Tables

/-!
# References of a document: versions/v2_0/scanner/{norm_ref,resolve}.py, versions/v3_0_0/scanner/{norm_ref,resolve}.py

The scanners set attributes of the objects they visit and of children of these.  In a freshly loaded document an object
is known by its place, the tokens that lead to it from the root; `visits` lists the objects a scan yields, with their
places (scan.py:9-24; that these are the places below the root, each once, is C32).
-/

namespace Pyopenapi.Refs

/-- The attributes of group 'migration' of an object (attrs.py), and its `$ref` when it has been rewritten. -/
structure Attrs (α : Type) where
  normalized : Option Str := none
  refObj : Option α := none
  newRef : Option Str := none

/-- Attributes of all objects, and the rest of the world (the application). -/
structure St (α W : Type) where
  attrs : List Str → Attrs α
  world : W

/-- Set the attributes at one place. -/
def St.put {α W : Type} (s : St α W) (ts : List Str) (a : Attrs α) : St α W :=
  { s with attrs := fun us => if us = ts then a else s.attrs us }

/-- What the scanners use: `ok` of urllib's `urlparse` (Model/Url), the url of the document, `app.resolve_obj(ref,
parser=...)` (an object that is not empty, with its reference, or nothing), `utils.jr_split`. -/
structure Env (α W : Type) where
  ok : Str → Bool
  url : Str
  resolve : Str → Builder → W → R (Option (α × Str)) × W
  split : Str → R (Str × Str)

variable {α W : Type}

/-- `obj.ref`. -/
def refOf : Obj → R Json
  | .base c _ spec kids => do
    let o ← Obj.getattr pkg c spec kids (s% "$ref")
    match o with
    | .prim v => .ok v
    | _ => .error .attributeError
  | _ => .error .attributeError

/-- norm_ref.py:18-21 (v2), 13-16 (v3) `_normalize`; a `$ref` that is no string has no `find` (utils.py:261). -/
def normalizeOne (env : Env α W) (ts : List Str) (o : Obj) (s : St α W) : R (St α W) := do
  let v ← refOf o
  if v.truthy then
    match v with
    | .str r => do
      let n ← normalizeJr env.ok (some r) (some env.url)
      .ok (s.put ts { s.attrs ts with normalized := n })
    | _ => .error .attributeError
  else .ok s

/-- norm_ref.py:33-43 (v2): the classes with a handler. -/
def normClasses2 : List Str := [s% "v2_0.Schema", s% "v2_0.Reference", s% "v2_0.PathItem"]
/-- norm_ref.py:28-34 (v3). -/
def normClasses3 : List Str := [s% "v3_0_0.Reference", s% "v3_0_0.PathItem"]

/-- The scan with `NormalizeRef`. -/
def normalizeAll (env : Env α W) (classes : List Str) (visits : List (List Str × Obj)) (s : St α W) : R (St α W) :=
  visits.foldlM (fun s v => match v.2.className? with
    | some c => if c ∈ classes then normalizeOne env v.1 v.2 s else .ok s
    | none => .ok s) s

/-- How a handler goes through a child: the child itself, its elements in order, its entries. -/
inductive Shape where
  | one | list | map
  deriving DecidableEq

/-- One loop of a handler: which child, how, and the parser given to `_resolve`. -/
structure Step where
  child : Str
  shape : Shape
  parser : Builder

/-- `ParameterOrReference` and the like. -/
def orRef2 (c : Str) : Builder := .ifNotRef (s% "v2_0.Reference") (.cls c)
def orRef3 (c : Str) : Builder := .ifNotRef (s% "v3_0_0.Reference") (.cls c)
/-- v3_0_0/objects.py:489-493 `CallbackOrReference`. -/
def callbackOrRef : Builder := .ifNotRef (s% "v3_0_0.Reference") (.mapOf (.cls (s% "v3_0_0.PathItem")))

/-- v2_0/scanner/resolve.py:66-84: the loops of the handlers, by class. -/
def steps2 (c : Str) : List Step :=
  if c = s% "v2_0.PathItem" then [⟨s% "parameters", .list, orRef2 (s% "v2_0.Parameter")⟩]
  else if c = s% "v2_0.Operation" then
    [⟨s% "parameters", .list, orRef2 (s% "v2_0.Parameter")⟩, ⟨s% "responses", .map, orRef2 (s% "v2_0.Response")⟩]
  else []

/-- v2_0/scanner/resolve.py:62-68: handlers that resolve the object itself. -/
def own2 (c : Str) : Option Builder :=
  if c = s% "v2_0.Schema" then some (.cls c)
  else if c = s% "v2_0.PathItem" then some (.cls c)
  else none

/-- v3_0_0/scanner/resolve.py:82-234: the loops of the handlers, by class.  (`additionalProperties: true` is no object,
and `_resolve` would leave it alone: the test of :121 is left out.) -/
def steps3 (c : Str) : List Step :=
  if c = s% "v3_0_0.PathItem" then [⟨s% "parameters", .list, orRef3 (s% "v3_0_0.Parameter")⟩]
  else if c = s% "v3_0_0.Schema" then
    [⟨s% "allOf", .list, orRef3 (s% "v3_0_0.Schema")⟩, ⟨s% "oneOf", .list, orRef3 (s% "v3_0_0.Schema")⟩,
     ⟨s% "anyOf", .list, orRef3 (s% "v3_0_0.Schema")⟩, ⟨s% "not", .one, orRef3 (s% "v3_0_0.Schema")⟩,
     ⟨s% "items", .one, orRef3 (s% "v3_0_0.Schema")⟩, ⟨s% "properties", .map, orRef3 (s% "v3_0_0.Schema")⟩,
     ⟨s% "additionalProperties", .one, orRef3 (s% "v3_0_0.Schema")⟩]
  else if c = s% "v3_0_0.Parameter" ∨ c = s% "v3_0_0.Header" then
    [⟨s% "schema", .one, orRef3 (s% "v3_0_0.Schema")⟩, ⟨s% "examples", .map, orRef3 (s% "v3_0_0.Example")⟩]
  else if c = s% "v3_0_0.Encoding" then [⟨s% "headers", .map, orRef3 (s% "v3_0_0.Header")⟩]
  else if c = s% "v3_0_0.MediaType" then
    [⟨s% "schema", .one, orRef3 (s% "v3_0_0.Schema")⟩, ⟨s% "examples", .map, orRef3 (s% "v3_0_0.Example")⟩]
  else if c = s% "v3_0_0.Response" then
    [⟨s% "headers", .map, orRef3 (s% "v3_0_0.Header")⟩, ⟨s% "links", .map, orRef3 (s% "v3_0_0.Link")⟩]
  else if c = s% "v3_0_0.Operation" then
    [⟨s% "parameters", .list, orRef3 (s% "v3_0_0.Parameter")⟩, ⟨s% "requestBody", .one, orRef3 (s% "v3_0_0.RequestBody")⟩,
     ⟨s% "responses", .map, orRef3 (s% "v3_0_0.Response")⟩, ⟨s% "callbacks", .map, callbackOrRef⟩]
  else if c = s% "v3_0_0.Components" then
    [⟨s% "schemas", .map, orRef3 (s% "v3_0_0.Schema")⟩, ⟨s% "responses", .map, orRef3 (s% "v3_0_0.Response")⟩,
     ⟨s% "parameters", .map, orRef3 (s% "v3_0_0.Parameter")⟩, ⟨s% "examples", .map, orRef3 (s% "v3_0_0.Example")⟩,
     ⟨s% "requestBodies", .map, orRef3 (s% "v3_0_0.RequestBody")⟩, ⟨s% "headers", .map, orRef3 (s% "v3_0_0.Header")⟩,
     ⟨s% "securitySchemes", .map, orRef3 (s% "v3_0_0.SecurityScheme")⟩, ⟨s% "links", .map, orRef3 (s% "v3_0_0.Link")⟩,
     ⟨s% "callbacks", .map, callbackOrRef⟩]
  else []

/-- v3_0_0/scanner/resolve.py:82-84: a path item is resolved itself. -/
def own3 (c : Str) : Option Builder := if c = s% "v3_0_0.PathItem" then some (.cls c) else none

/-- `enumerate(l)` for the elements of a list. -/
def enumFrom (k : Str) : Nat → List Obj → List (List Str × Obj)
  | _, [] => []
  | i, x :: l => ([k, Str.ofNat i], x) :: enumFrom k (i + 1) l

/-- What one loop goes through, with places below the object.  `six.iteritems` needs a map (`items`), `enumerate` a list;
a child that is None or empty is skipped (`or []`, `or {}`). -/
def held (kids : Dict Obj) (st : Step) : R (List (List Str × Obj)) :=
  match Dict.get? kids st.child with
  | none => .ok []
  | some x => match st.shape with
    | .one => .ok [([st.child], x)]
    | .list => if x.truthy then match x with
      | .list _ _ _ es => .ok (enumFrom st.child 0 es)
      | _ => .error .typeError
      else .ok []
    | .map => if x.truthy then match x with
      | .map _ _ _ es => .ok (es.map (fun e => ([st.child, e.1], e.2)))
      | _ => .error .attributeError
      else .ok []

/-- v2_0/scanner/resolve.py:24-50 `_resolve`.  Where nothing is found the code raises AttributeError while it puts
together its message (`obj.normalized_ref`, :47-48).  Objects without `ref` are left alone. -/
def resolve2 (env : Env α W) (parser : Builder) (ts : List Str) (x : Obj) (s : St α W) : R (St α W) :=
  match x.className? with
  | none => .ok s
  | some c =>
    if c ∉ normClasses2 then .ok s
    else do
      let v ← refOf x
      if !v.truthy then .ok s
      else if (s.attrs ts).refObj.isSome then .ok s
      else match (s.attrs ts).normalized with
        | none | some [] => .error .jsonRef
        | some (q :: n) => match env.resolve (q :: n) parser s.world with
          | (.error e, _) => .error e
          | (.ok none, _) => .error .attributeError
          | (.ok (some (a, _)), w) =>
            .ok { s.put ts { s.attrs ts with refObj := some a } with world := w }

/-- v3_0_0/scanner/resolve.py:64-67: the reference is rewritten. -/
def rewrite (env : Env α W) (old : Json) (new : Str) : R Str :=
  match old with
  | .str r => if Str.startsWith r (s% "#") then do
      let (_, jp) ← env.split new
      .ok jp
    else .ok new
  | _ => .error .attributeError

/-- `obj.ref`, that may have been rewritten. -/
def currentRef (a : Attrs α) (x : Obj) : R Json :=
  match a.newRef with
  | some r => .ok (.str r)
  | none => refOf x

/-- v3_0_0/scanner/resolve.py:36-70 `_resolve`; AttributeError as in `resolve2` (:61-62). -/
def resolve3 (env : Env α W) (parser : Builder) (ts : List Str) (x : Obj) (s : St α W) : R (St α W) :=
  match x.className? with
  | none => .ok s
  | some c =>
    if c ∉ normClasses3 then .ok s
    else match (s.attrs ts).normalized with
      | none | some [] => if c = s% "v3_0_0.Reference" then .error .jsonRef else .ok s
      | some (q :: n) => match env.resolve (q :: n) parser s.world with
        | (.error e, _) => .error e
        | (.ok none, _) => .error .attributeError
        | (.ok (some (a, new)), w) => do
          let v ← currentRef (s.attrs ts) x
          let r ← rewrite env v new
          .ok { s.put ts { normalized := some new, refObj := some a, newRef := some r } with world := w }

/-- Handlers that start with the object itself. -/
def handleOwn (res : Builder → List Str → Obj → St α W → R (St α W)) (p : Option Builder) (ts : List Str) (x : Obj)
    (s : St α W) : R (St α W) :=
  match p with
  | some p => res p ts x s
  | none => .ok s

/-- A handler: the object itself, then the loops. -/
def handle (res : Builder → List Str → Obj → St α W → R (St α W)) (own : Str → Option Builder) (steps : Str → List Step)
    (s : St α W) (v : List Str × Obj) : R (St α W) :=
  match v.2 with
  | .base c _ _ kids => do
    let s ← handleOwn res (own c) v.1 v.2 s
    (steps c).foldlM (fun s st => do
      let l ← held kids st
      l.foldlM (fun s x => res st.parser (v.1 ++ x.1) x.2 s) s) s
  | _ => .ok s

/-- v2_0/main.py:31, 40: both scans of a 2.0 document. -/
def upgrade2 (env : Env α W) (visits : List (List Str × Obj)) (s : St α W) : R (St α W) := do
  let s ← normalizeAll env normClasses2 visits s
  visits.foldlM (handle (resolve2 env) own2 steps2) s

/-- v3_0_0/main.py:52, 61: both scans of a 3.0 document. -/
def upgrade3 (env : Env α W) (visits : List (List Str × Obj)) (s : St α W) : R (St α W) := do
  let s ← normalizeAll env normClasses3 visits s
  visits.foldlM (handle (resolve3 env) own3 steps3) s

end Pyopenapi.Refs
