import Verif.Model.App
import Verif.Model.Conv
import Verif.Model.Refs
import Verif.Model.Up12
import Verif.Lemmas.ObjEq
import Verif.Props.Scan

/-!
# The migration modules: versions/v1_2/main.py, versions/v2_0/main.py, versions/v3_0_0/main.py

An application whose objects are those of the package (`Obj`), put together from the models of the store and of `ApiBase`
(Model/Store, Model/App), of the scanners (Model/Refs) and of the converters (Model/Conv, Model/Up12).

Objects are values.  A loaded object knows the reference it was loaded from (`path`), so that objects of different
documents, and at different places of one document, are different values; the attributes of an object are kept in a list
beside.  While the references of a document are being resolved, other documents are loaded and upgraded; these see the
absolute references of the first one (which its merges may use), and of the objects its references lead to they see
nothing (and they use nothing).  Not modelled: that an object given as `override` is shared (it is copied here), and
attributes that a nested upgrade sets on objects of the document that is just being scanned.
-/

namespace Pyopenapi.Main

/-- What can change besides the store: the attributes of group 'migration' of objects (attrs.py; `final_obj` on its own, in
`finals`), `cached_apis` of 1.2 listings (base.py:174), and the rest (the resolver and the network). -/
structure World (W : Type) where
  attrs : List (Obj × Refs.Attrs Obj)
  finals : List (Obj × Obj)
  cached : List (Obj × Dict Obj)
  rest : W

/-- What an application is given: its url, the parts of `urllib` and `os.path` that are parameters (Model/Url), the
resolver, the order of sets, what the conversion from 1.2 uses, and a bound for the rounds of the loop that merges path
items (which the code does not have: only the objects there are bound it). -/
structure Outer (W : Type) where
  url : Str
  ok : Str → Bool
  path2url : Str → R Str
  abspath : Str → R Str
  fetch : Str → W → R Json × W
  setOrder : List Str → List Str
  up12 : Up12.Env
  rounds : Nat

variable {W : Type}

/-- `obj.get_attrs('migration', ...)` (obj.py:167-178): attributes that were not set are None. -/
def attrsOf (w : World W) (o : Obj) : Refs.Attrs Obj :=
  match w.attrs.find? (fun p => decide (p.1 = o)) with
  | some p => p.2
  | none => {}

/-- The objects a scan yields, with their places (scan.py:9-24, C32). -/
def visits (root : Obj) : List (List Str × Obj) := walk [] (Obj.nodes root) root

/-- The attributes of the objects of a document, by place. -/
def byPlace (w : World W) (L : List (List Str × Obj)) (ts : List Str) : Refs.Attrs Obj :=
  match L.find? (fun v => decide (v.1 = ts)) with
  | some v => attrsOf w v.2
  | none => {}

/-- The attributes after a scan. -/
def remember (w : World W) (L : List (List Str × Obj)) (attrs : List Str → Refs.Attrs Obj) : World W :=
  { w with attrs := L.map (fun v => (v.2, attrs v.1)) ++ w.attrs }

/-- `getattr(obj, 'ref', None)`. -/
def refValue (o : Obj) : Json :=
  match Refs.refOf o with
  | .ok v => v
  | .error _ => .null

/-- utils.py:156-164: the loop of `deref`.  (The number bounds the rounds; the guard stops the loop of Python.) -/
def derefLoop (w : World W) : Nat → List Obj → Obj → R Obj
  | 0, _, _ => .error .recursion
  | n + 1, visited, cur =>
    if refValue cur = .null then .ok cur
    else match (attrsOf w cur).refObj with
      | none => .ok cur
      | some next => if next ∈ visited then .error .cycle else derefLoop w n (visited ++ [next]) next

/-- utils.py:151-166 `deref`. -/
def deref (w : World W) (o : Obj) : R Obj := derefLoop w (w.attrs.length + 1) [o] o

/-- What the converters are given (Model/Conv). -/
def convEnv (out : Outer W) (w : World W) : Conv.Env where
  deref := deref w
  setOrder := out.setOrder
  normRef o := match (attrsOf w o).normalized with
    | some r => .str r
    | none => .null
  ok := out.ok

/-- `obj.__swagger_version__`; of containers only `Callback` has it (v3_0_0/objects.py:489-490), a map of path items.  (`paths`
of a 3.0.0 document, which has not, is such a map too, but is never loaded on its own.) -/
def versionOf : Obj → R Str
  | .base c _ _ _ => .ok (pkg c).version
  | .map b _ _ _ => if b = .cls (s% "v3_0_0.PathItem") then .ok (s% "3.0.0") else .error .attributeError
  | _ => .error .attributeError

/-- A reference is followed by the application: `app.resolve_obj(ref, from_spec_version=..., parser=..., to_spec_version=...,
remove_dummy=...)`; what is found may be empty. -/
def resolveIn (app : AppEnv Obj (World W)) (dummy : Bool) (from_ : Str) (to : Option Str) (n : Str) (p : Builder) (a : App Obj (World W)) :
    R (Option (Obj × Str)) × App Obj (World W) :=
  match App.resolveObj app n from_ (some (fun j path w => (build pkg p j (some path) [], w))) to dummy a with
  | (.error e, a) => (.error e, a)
  | (.ok (o, new), a) => (.ok (if o.truthy then some (o, new) else none), a)

/-- What the scanners of references are given (Model/Refs), for a document at `url`. -/
def refsEnv (out : Outer W) (app : AppEnv Obj (World W)) (url from_ : Str) (to : Option Str) :
    Refs.Env Obj (App Obj (World W)) where
  ok := out.ok
  url := url
  resolve := resolveIn app true from_ to
  split := jrSplit out.ok out.path2url out.abspath

/-- comm.py:22-41: the loop of `_merge_path_item`.  (The number bounds the rounds; the guard stops the loop of Python.) -/
def mergeLoop (app : AppEnv Obj (World W)) (cls from_ to : Str) : Nat → List Obj → Option Str → Obj → App Obj (World W) →
    R Obj × App Obj (World W)
  | 0, _, _, _, a => (.error .recursion, a)
  | _ + 1, _, none, final, a => (.ok final, a)
  | _ + 1, _, some [], final, a => (.ok final, a)
  | n + 1, visited, some (c :: r), final, a =>
    match resolveIn app false from_ (some to) (c :: r) (.cls cls) a with
    | (.error e, a) => (.error e, a)
    | (.ok none, a) => (.error .generic, a)
    | (.ok (some (o, _)), a) =>
      if o ∈ visited then (.ok final, a)
      else match Obj.mergeChildren pkg final o with
        | .error e => (.error e, a)
        | .ok final => mergeLoop app cls from_ to n (visited ++ [o]) (attrsOf a.world o).normalized final a

/-- comm.py:8-43 `_merge_path_item`. -/
def mergePathItem (out : Outer W) (app : AppEnv Obj (World W)) (cls from_ to : Str) (o : Obj) (a : App Obj (World W)) :
    R Obj × App Obj (World W) :=
  match build pkg (.cls cls) (.obj []) none [] with
  | .error e => (.error e, a)
  | .ok final => match Obj.mergeChildren pkg final o with
    | .error e => (.error e, a)
    | .ok final => mergeLoop app cls from_ to out.rounds [o] (attrsOf a.world o).normalized final a

/-- v2_0/scanner/merge.py, v3_0_0/scanner/merge.py: the scan with `Merge`. -/
def mergeAll (out : Outer W) (app : AppEnv Obj (World W)) (cls from_ to : Str) : List (List Str × Obj) → App Obj (World W) →
    R Unit × App Obj (World W)
  | [], a => (.ok (), a)
  | (_, o) :: L, a =>
    if o.className? = some cls then
      match Refs.refOf o with
      | .error e => (.error e, a)
      | .ok v => if v.truthy then match mergePathItem out app cls from_ to o a with
          | (.error e, a) => (.error e, a)
          | (.ok f, a) => mergeAll out app cls from_ to L { a with world := { a.world with finals := (o, f) :: a.world.finals } }
        else mergeAll out app cls from_ to L a
    else mergeAll out app cls from_ to L a

/-- utils.py:169-172 `final`.  (An object that has no attribute `final_obj` gives itself, as one whose `final_obj` is None
does.) -/
def final (w : World W) (o : Obj) : Obj :=
  if (refValue o).truthy then match w.finals.find? (fun p => decide (p.1 = o)) with
    | some p => p.2
    | none => o
  else o

/-- v1_2/main.py:9-12. -/
def upgrade12 (o : Obj) (a : App Obj (World W)) : R (Obj × Routes) × App Obj (World W) := (.ok (o, []), a)

/-- v2_0/main.py:14-24: from 1.2 to 2.0. -/
def from12 (out : Outer W) (o : Obj) (w : World W) : R Obj := do
  let d ← Up12.upgrade12 out.up12 o (match w.cached.find? (fun p => decide (p.1 = o)) with
    | some p => p.2
    | none => [])
  .ok d.2

/-- v2_0/main.py:26-44: a 2.0 object.  `YamlFixer` (:33) does nothing here, where all keys are strings (C60, C78).
`app` is the application, as far as it is called by the scanners. -/
def finish20 (out : Outer W) (app : AppEnv Obj (World W)) (o : Obj) (jref : Str) (a : App Obj (World W)) :
    R (Obj × Routes) × App Obj (World W) :=
  match jrSplit out.ok out.path2url out.abspath jref with
  | .error e => (.error e, a)
  | .ok (url, jp) =>
    let a := { a with store := a.store.set o url jp (s% "2.0") }
    match Refs.normalizeAll (refsEnv out app url (s% "2.0") none) Refs.normClasses2 (visits o) ⟨byPlace a.world (visits o), a⟩ with
    | .error e => (.error e, a)
    | .ok s =>
      let a := { a with world := remember a.world (visits o) s.attrs }
      match (visits o).foldlM (Refs.handle (Refs.resolve2 (refsEnv out app url (s% "2.0") none)) Refs.own2 Refs.steps2)
          { s with world := a } with
      | .error e => (.error e, a)
      | .ok s =>
        let a := { s.world with world := remember s.world.world (visits o) s.attrs }
        match mergeAll out app (s% "v2_0.PathItem") (s% "2.0") (s% "2.0") (visits o) a with
        | (.error e, a) => (.error e, a)
        | (.ok _, a) => (.ok (o, []), a)

/-- v2_0/main.py:11-48 `upgrade`. -/
def upgrade20 (out : Outer W) (app : AppEnv Obj (World W)) (o : Obj) (jref : Str) (a : App Obj (World W)) :
    R (Obj × Routes) × App Obj (World W) :=
  match versionOf o with
  | .error e => (.error e, a)
  | .ok v =>
    if v = s% "1.2" then match from12 out o a.world with
      | .error e => (.error e, a)
      | .ok o => finish20 out app o jref a
    else if v = s% "2.0" then finish20 out app o jref a
    else (.error .generic, a)

/-- v3_0_0/main.py:23-45: from 2.0 to 3.0.0, by the class of the object. -/
def convert (env : Conv.Env) (o : Obj) (url jp : Str) (ov : Dict Obj) : R (Obj × Routes) :=
  match o.className? with
  | none => .error .generic
  | some c =>
    if c = s% "v2_0.Swagger" then do
      let (j, reloc) ← Conv.toOpenapi env o
      let o ← build pkg (.cls (s% "v3_0_0.OpenApi")) (.obj j) (some jp) ov
      .ok (o, reloc)
    else if c = s% "v2_0.License" then do
      let j ← Conv.toLicense o
      let o ← build pkg (.cls (s% "v3_0_0.License")) (.obj j) (some jp) ov
      .ok (o, [])
    else if c = s% "v2_0.Info" then do
      let j ← Conv.toInfo o
      let o ← build pkg (.cls (s% "v3_0_0.Info")) (.obj j) (some jp) ov
      .ok (o, [])
    else if c = s% "v2_0.Schema" then do
      let j ← Conv.toSchema false o
      let o ← build pkg (.cls (s% "v3_0_0.Schema")) j (some jp) ov
      .ok (o, [])
    else if c = s% "v2_0.PathItem" then do
      let (j, reloc) ← Conv.toPathItem env o url [] []
      let o ← build pkg (.cls (s% "v3_0_0.PathItem")) (.obj j) (some jp) []
      .ok (o, reloc)
    else .error .generic

/-- v3_0_0/main.py:26-29: what was migrated before from below this object. -/
def overrideFor (o : Obj) (url jp : Str) (a : App Obj (World W)) : R (Dict Obj) :=
  match o.className? with
  | some c =>
    if c ∈ [s% "v2_0.Swagger", s% "v2_0.License", s% "v2_0.Info", s% "v2_0.Schema"] then
      match a.store.getUnder url jp (s% "3.0.0") false with
      | .error e => .error e
      | .ok (ov, _) => .ok (ov.getD [])
    else .ok []
  | none => .ok []

/-- v3_0_0/main.py:47-66: a 3.0.0 object. -/
def finish30 (out : Outer W) (app : AppEnv Obj (World W)) (o : Obj) (reloc : Routes) (url jp : Str) (a : App Obj (World W)) :
    R (Obj × Routes) × App Obj (World W) :=
  match Refs.normalizeAll (refsEnv out app url (s% "2.0") none) Refs.normClasses3 (visits o) ⟨byPlace a.world (visits o), a⟩ with
  | .error e => (.error e, a)
  | .ok s =>
    let a := { a with store := a.store.set o url jp (s% "3.0.0"), world := remember a.world (visits o) s.attrs }
    match a.store.updateRoutes url (s% "3.0.0") [(jp, .nested reloc)] with
    | (st, .error e) => (.error e, { a with store := st })
    | (st, .ok _) =>
      let a := { a with store := st }
      let from_ := if a.original = s% "3.0.0" then s% "3.0.0" else s% "2.0"
      match (visits o).foldlM (Refs.handle (Refs.resolve3 (refsEnv out app url from_ (some (s% "3.0.0")))) Refs.own3 Refs.steps3)
          { s with world := a } with
      | .error e => (.error e, a)
      | .ok s =>
        let a := { s.world with world := remember s.world.world (visits o) s.attrs }
        match mergeAll out app (s% "v3_0_0.PathItem") from_ (s% "3.0.0") (visits o) a with
        | (.error e, a) => (.error e, a)
        | (.ok _, a) => (.ok (o, reloc), a)

/-- v3_0_0/main.py:17-66 `upgrade`. -/
def upgrade30 (out : Outer W) (app : AppEnv Obj (World W)) (o : Obj) (jref : Str) (a : App Obj (World W)) :
    R (Obj × Routes) × App Obj (World W) :=
  match jrSplit out.ok out.path2url out.abspath jref with
  | .error e => (.error e, a)
  | .ok (url, jp) =>
    match versionOf o with
    | .error e => (.error e, a)
    | .ok v =>
      if v = s% "2.0" then
        match overrideFor o url jp a with
        | .error e => (.error e, a)
        | .ok ov => match convert (convEnv out a.world) o url jp ov with
          | .error e => (.error e, a)
          | .ok (o, reloc) => finish30 out app o reloc url jp a
      else if v = s% "3.0.0" then finish30 out app o [] url jp a
      else (.error .generic, a)

/-- base.py:221-236: the migration module of a version. -/
def upgrade (out : Outer W) (app : AppEnv Obj (World W)) (ver : Str) (o : Obj) (jref : Str) (a : App Obj (World W)) :
    R (Obj × Routes) × App Obj (World W) :=
  if ver = s% "1.2" then upgrade12 o a
  else if ver = s% "2.0" then upgrade20 out app o jref a
  else if ver = s% "3.0.0" then upgrade30 out app o jref a
  else (.error .generic, a)

/-- `obj.resolve(tokens)` (spec/obj.py:554-574), for tokens that are no names of Python attributes (see Model/PyAttrs.lean); a
child that is not there is None. -/
def resolveObject (o : Obj) (ts : List Str) : R (Option Obj) :=
  match Obj.resolve pkg ts o with
  | .error e => .error e
  | .ok (.prim .null) => .ok none
  | .ok x => .ok (some x)

/-- base.py:160-165: the url of a resource. -/
def resourceUrl (out : Outer W) (jref path : Str) : R Str := do
  let base ← urlDirname out.ok jref
  urlJoin out.ok base (path.drop 1)

/-- base.py:157-158: the paths of the resources of a listing; a path that is no string cannot be sliced. -/
def listingPaths (o : Obj) : R (List Str) :=
  match o with
  | .base _ _ _ kids => match Dict.get? kids (s% "apis") with
    | some (.list _ _ _ es) => es.mapM (fun e => match e with
      | .base c _ spec kids => do
        match ← Obj.getattr pkg c spec kids (s% "path") with
        | .prim (.str s) => .ok s
        | _ => .error .typeError
      | _ => .error .attributeError)
    | _ => .error .typeError
  | _ => .error .attributeError

/-- The application without its migration modules. -/
def appWith (out : Outer W) (up : Str → Obj → Str → App Obj (World W) → R (Obj × Routes) × App Obj (World W)) :
    AppEnv Obj (World W) where
  url := out.url
  split := jrSplit out.ok out.path2url out.abspath
  ops _ := ⟨resolveObject, Obj.truthy⟩
  versionOf := versionOf
  isRoot o := match o.className? with
    | some c => decide (c ∈ [s% "v1_2.ResourceListing", s% "v2_0.Swagger", s% "v3_0_0.OpenApi"])
    | none => false
  isPrim o := o.isPrim
  upgrade := up
  prepare o _ a := (.ok o, a)
  fetch jref w := ((out.fetch jref w.rest).1, { w with rest := (out.fetch jref w.rest).2 })
  swagger j jref ov w := (build pkg (.cls (s% "v2_0.Swagger")) j (some jref) (ov.getD []), w)
  openapi j jref ov w := (build pkg (.cls (s% "v3_0_0.OpenApi")) j (some jref) (ov.getD []), w)
  listing j jref w := (do
    let o ← build pkg (.cls (s% "v1_2.ResourceListing")) j (some jref) []
    let ps ← listingPaths o
    .ok (o, ps), w)
  declaration j path w := (build pkg (.cls (s% "v1_2.ApiDeclaration")) j (some path) [], w)
  attach o apis w := { w with cached := (o, apis) :: w.cached }
  resourceUrl := resourceUrl out

/-- The application: a migration may load and migrate other documents, which may load others; the number bounds how deep
(Python's recursion limit does). -/
def application (out : Outer W) : Nat → AppEnv Obj (World W)
  | 0 => appWith out (fun _ _ _ a => (.error .recursion, a))
  | n + 1 => appWith out (upgrade out (application out n))

/-- base.py:27-69 `__init__`: an application with nothing loaded.  `get_supported_versions` (utils.py) lists the packages
below `migration/versions`. -/
def opened (rest : W) : App Obj (World W) where
  store := Store.init [s% "1.2", s% "2.0", s% "3.0.0"]
  original := []
  current := none
  world := ⟨[], [], [], rest⟩

end Pyopenapi.Main
