import Verif.Model.Store
import Verif.Base.Json

/-!
# pyopenapi/migration/base.py: ApiBase

`App` is the state of an application: its store, the two version properties, and `world`, which is everything
else that can change (the resolver and its cache, the heap the objects live in, the network).
`Env` is what an application is built from and does not change: how references are split, what can be read off
an object, the migration modules, `prepare_obj`, the resolver, the object classes.  The migration modules and
`prepare_obj` may do anything to the application, including calling it again.
-/

namespace Pyopenapi

/-- base.py:43-69: the mutable attributes. -/
structure App (O W : Type) where
  store : Store O
  original : Str
  current : Option Str
  world : W

/-- What an application is made of. -/
structure AppEnv (O W : Type) where
  /-- `self.url` -/
  url : Str
  /-- `utils.jr_split` -/
  split : Str → R (Str × Str)
  /-- what the store uses of objects, in the present state of the heap -/
  ops : W → ObjOps O
  /-- `obj.__swagger_version__` (AttributeError for containers) -/
  versionOf : O → R Str
  /-- `isinstance(obj, (OpenApi, Swagger, ResourceListing))` -/
  isRoot : O → Bool
  /-- `isinstance(obj, (string_types, integer_types, list, dict))` -/
  isPrim : O → Bool
  /-- `versions/v.../main.py: upgrade(obj, app, jref)` for each version -/
  upgrade : Str → O → Str → App O W → R (O × Routes) × App O W
  /-- `prepare_obj(obj, jref)` -/
  prepare : O → Str → App O W → R O × App O W
  /-- `self.resolver.resolve(jref, getter)` -/
  fetch : Str → W → R Json × W
  /-- `Swagger(...)`, `OpenApi(...)`, or a parser: `(src_spec, jref, override)` -/
  swagger : Json → Str → Option (Dict O) → W → R O × W
  openapi : Json → Str → Option (Dict O) → W → R O × W
  /-- `ResourceListing(...)` with the paths of its `apis` -/
  listing : Json → Str → W → R (O × List Str) × W
  /-- `ApiDeclaration(...)` -/
  declaration : Json → Str → W → R O × W
  /-- `obj.cached_apis = ...` -/
  attach : O → Dict O → W → W
  /-- `url_join(url_dirname(jref), path[1:])` -/
  resourceUrl : Str → Str → R Str

namespace App
variable {O W : Type}

/-- base.py:212-216: keep the versions that are not older than the object. -/
def planLoop (f : StrictVersion) : List Str → R (List Str)
  | [] => .ok []
  | v :: vs => do
    let w ← parseVersion v
    let r ← planLoop f vs
    pure (if StrictVersion.lt w f = false then v :: r else r)

/-- base.py:209-216: the versions to run. -/
def plan (versions : List Str) (from_ to : Str) : R (List Str) := do
  let i ← Store.indexOf versions to
  let f ← parseVersion from_
  planLoop f (versions.take (i + 1))

/-- base.py:221-253: the loop over the versions. -/
def migrateLoop (env : AppEnv O W) (jref url : Str) : List Str → Str → Str → O → App O W → R O × App O W
  | [], _, _, obj, a => (.ok obj, a)
  | v :: vs, jp, from_, obj, a =>
    match env.upgrade v obj jref a with
    | (.error e, a) => (.error e, a)
    | (.ok (obj, reloc), a) =>
      match a.store.updateRoutes url v [(jp, .nested reloc)] with
      | (st, .error e) => (.error e, { a with store := st })
      | (st, .ok _) =>
        match st.relocate url jp from_ v with
        | .error e => (.error e, { a with store := st })
        | .ok jp' =>
          match env.prepare obj (url ++ jp') { a with store := st } with
          | (.error e, a) => (.error e, a)
          | (.ok obj, a) => migrateLoop env jref url vs jp' v obj { a with store := a.store.set obj url jp' v }

/-- base.py:198-258 `migrate_obj`.  The list of versions is the one the store was made with (base.py:60-61);
every version listed has a migration module, so the loader checks (base.py:224-233) never fail. -/
def migrateObj (env : AppEnv O W) (obj : O) (jref ver : Str) (a : App O W) : R O × App O W :=
  if ver ∉ a.store.versions then (.error .valueError, a)
  else match env.versionOf obj with
    | .error e => (.error e, a)
    | .ok ov =>
      match plan a.store.versions ov ver with
      | .error e => (.error e, a)
      | .ok vs =>
        match env.split jref with
        | .error e => (.error e, a)
        | .ok (url, jp) =>
          match migrateLoop env jref url vs jp ov obj a with
          | (.error e, a) => (.error e, a)
          | (.ok obj, a) => (.ok obj, if env.isRoot obj then { a with current := some ver } else a)

/-- base.py:156-173: the loop over the resources of a 1.2 listing.  It rebinds `url`. -/
def resources (env : AppEnv O W) (jref : Str) : List Str → Str → Dict O → W → R (Str × Dict O) × W
  | [], url, apis, w => (.ok (url, apis), w)
  | path :: rest, _, apis, w =>
    match env.resourceUrl jref path with
    | .error e => (.error e, w)
    | .ok url =>
      match env.fetch url w with
      | (.error e, w) => (.error e, w)
      | (.ok spec, w) =>
        if spec = .null then (.error .generic, w)
        else match env.declaration spec (jpCompose [path.drop 1] (some url)) w with
          | (.error e, w) => (.error e, w)
          | (.ok o, w) => resources env jref rest url (Dict.set apis (path.drop 1) o) w

/-- base.py:131-132: the version of a loaded value; anything but a dict has no such attribute.  A version that
is neither a string nor absent is not supported. -/
def specVersion : Json → R (Option Str)
  | .obj d => match getSwaggerVersion d with
    | .str v => .ok (some v)
    | .null => .ok none
    | _ => .error .notImplemented
  | _ => .error .attributeError

/-- base.py:148-190: building the object; the result is the object, the url it is cached under and its version.
`parser` is only used when there is no version. -/
def build (env : AppEnv O W) (src : Json) (jref url : Str) (version : Option Str) (override : Option (Dict O))
    (parser : Option (Json → Str → W → R O × W)) (w : W) : R (O × Str × Str) × W :=
  match version with
  | some v =>
    if v = s% "1.2" then
      match env.listing src jref w with
      | (.error e, w) => (.error e, w)
      | (.ok (obj, paths), w) =>
        match resources env jref paths url [] w with
        | (.error e, w) => (.error e, w)
        | (.ok (url, apis), w) => (.ok (obj, url, v), env.attach obj apis w)
    else if v = s% "2.0" then
      match env.swagger src jref override w with
      | (.error e, w) => (.error e, w)
      | (.ok obj, w) => (.ok (obj, url, v), w)
    else if v = s% "3.0.0" then
      match env.openapi src jref override w with
      | (.error e, w) => (.error e, w)
      | (.ok obj, w) => (.ok (obj, url, v), w)
    else (.error .notImplemented, w)
  | none =>
    match parser with
    | none => (.error .notImplemented, w)
    | some p =>
      match p src jref w with
      | (.error e, w) => (.error e, w)
      | (.ok obj, w) =>
        match env.versionOf obj with
        | .ok v => (.ok (obj, url, v), w)
        | .error _ => (.ok (obj, url, []), w)

/-- base.py:123-196 `load_obj`.  The version `None` is written as the empty string when used as a key of the
store. -/
def loadObj (env : AppEnv O W) (jref : Str) (parser : Option (Json → Str → W → R O × W)) (removeDummy : Bool)
    (a : App O W) : R O × App O W :=
  match env.fetch jref a.world with
  | (.error e, w) => (.error e, { a with world := w })
  | (.ok src, w) =>
    let a := { a with world := w }
    match specVersion src with
    | .error e => (.error e, a)
    | .ok version =>
      match env.split jref with
      | .error e => (.error e, a)
      | .ok (url, jp) =>
        match a.store.get (env.ops a.world) url jp (version.getD []) with
        | .error e => (.error e, a)
        | .ok found =>
          match found.filter (env.ops a.world).truthy with
          | some obj => (.ok obj, a)
          | none =>
            match a.store.getUnder url jp (version.getD []) removeDummy with
            | .error e => (.error e, a)
            | .ok (override, st) =>
              match build env src jref url version override parser a.world with
              | (.error e, w) => (.error e, { a with store := st, world := w })
              | (.ok (obj, url, v), w) =>
                if (env.ops w).truthy obj = false then (.error .generic, { a with store := st, world := w })
                else
                  let a := { a with store := st.set obj url jp v, world := w }
                  if env.isRoot obj then
                    match env.versionOf obj with
                    | .error e => (.error e, a)
                    | .ok ov => (.ok obj, { a with original := ov })
                  else (.ok obj, a)

/-- base.py:313-331: when the object is not cached under the version asked for. -/
def resolveMiss (env : AppEnv O W) (jref url jp from_ to : Str) (parser : Option (Json → Str → W → R O × W))
    (removeDummy : Bool) (a : App O W) : R (O × Str) × App O W :=
  match a.store.getUntil (env.ops a.world) url jp from_ (some to) with
  | .error e => (.error e, a)
  | .ok found =>
    match (match found with
      | some (o, j, _) => ((.ok (o, url ++ j) : R (O × Str)), a)
      | none =>
        if from_ ≠ a.original then (.error .generic, a)
        else match loadObj env jref parser removeDummy a with
          | (.error e, a) => (.error e, a)
          | (.ok o, a) => (.ok (o, jref), a)) with
    | (.error e, a) => (.error e, a)
    | (.ok (obj, jref), a) =>
      match (if (env.ops a.world).truthy obj then migrateObj env obj jref to a else (.ok obj, a)) with
      | (.error e, a) => (.error e, a)
      | (.ok obj, a) =>
        match (if (env.ops a.world).truthy obj then env.prepare obj jref a else (.ok obj, a)) with
        | (.error e, a) => (.error e, a)
        | (.ok obj, a) =>
          match a.store.relocate url jp from_ to with
          | .error e => (.error e, a)
          | .ok p => (.ok (obj, p), a)

/-- base.py:260-343 `resolve_obj`: the object and the new reference.  (`weakref.proxy` gives another handle on
the same object.) -/
def resolveObj (env : AppEnv O W) (jref from_ : Str) (parser : Option (Json → Str → W → R O × W)) (to : Option Str)
    (removeDummy : Bool) (a : App O W) : R (O × Str) × App O W :=
  if jref = [] then (.error .valueError, a)
  else
    let to := match to with
      | some t => if t = [] then from_ else t
      | none => from_
    match env.split jref with
    | .error e => (.error e, a)
    | .ok (u, jp) =>
      let url := if u = [] then env.url else u
      let jref := if u = [] then url ++ jp else jref
      match (if from_ ≠ to then a.store.relocate url jp from_ to else .ok jp) with
      | .error e => (.error e, a)
      | .ok p =>
        match a.store.get (env.ops a.world) url p to with
        | .error e => (.error e, a)
        | .ok (some o) => (.ok (o, if env.isPrim o then p else url ++ p), a)
        | .ok none =>
          match resolveMiss env jref url jp from_ to parser removeDummy a with
          | (.error e, a) => (.error e, a)
          | (.ok (o, p), a) => (.ok (o, if env.isPrim o then p else url ++ p), a)

end App
end Pyopenapi
