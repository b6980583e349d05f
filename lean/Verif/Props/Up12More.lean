import Verif.Lemmas.Up12Good
import Verif.Props.Up12

/-!
# The conversion from Swagger 1.2 to Swagger 2.0: when it succeeds, security, repeated parameters
-/

namespace Pyopenapi
open Spec Obj Conv Up12

variable {env : Up12.Env} {l : Dict Json} {ds : List (Dict Json)} {listing : Obj} {rs : List (Str × Obj)}

/-! ### C77: well formed documents are upgraded -/

/-- The listing and its resources can be converted. -/
structure Spec.Upgradable (num : Numbers) (lower : Str → Str) (l : Dict Json) (ds : List (Dict Json)) : Prop where
  listing : ListingOk l
  resources : ∀ e ∈ ds, ResourceOk num lower e
  operations : allOps lower ds ≠ []

/-- C77: a listing with well formed resources, all of one site, is upgraded to a 2.0 object. -/
theorem C77_site (hp : PythonOk env) (hs : Source12 l ds listing rs) (hu : Upgradable env.numbers env.lower l ds)
    (scheme host : Str) (h1 : IsScheme scheme) (h2 : IsHost host) (h3 : host ≠ []) (h4 : env.urlOk host = true)
    (ho : ∀ x ∈ allOps env.lower ds, OfSite scheme host x.path) :
    ∃ doc o, upgrade12 env listing rs = .ok (doc, o) ∧ Built (.cls (s% "v2_0.Swagger")) (.obj doc) o :=
  upgrade12_total hp.lower hp.numbers hs.listing hu.listing hs.resources hu.resources (fun paths hst hn => by
    obtain ⟨p', e, _⟩ := hostAndPaths_site (env := env) h1 h2 h3 h4 (paths_ne hst hu.operations) hn (paths_keys hst ho)
    exact ⟨_, e⟩)

/-- C77: and so is one without a site. -/
theorem C77_noSite (hp : PythonOk env) (hs : Source12 l ds listing rs) (hu : Upgradable env.numbers env.lower l ds)
    (h4 : env.urlOk [] = true) (ho : ∀ x ∈ allOps env.lower ds, NoSite x.path) :
    ∃ doc o, upgrade12 env listing rs = .ok (doc, o) ∧ Built (.cls (s% "v2_0.Swagger")) (.obj doc) o :=
  upgrade12_total hp.lower hp.numbers hs.listing hu.listing hs.resources hu.resources (fun paths hst hn => by
    obtain ⟨p', e, _⟩ := hostAndPaths_noSite (env := env) h4 (paths_ne hst hu.operations) hn (paths_keys hst ho)
    exact ⟨_, e⟩)

theorem foldlM_each {σ α : Type} {f : σ → α → R σ} {xs : List α} {s s' : σ} (h : xs.foldlM f s = .ok s') :
    ∀ x ∈ xs, ∃ t t', f t x = .ok t' := by
  induction xs generalizing s with
  | nil => intro x hx; cases hx
  | cons y ys ih =>
    rw [List.foldlM_cons] at h
    obtain ⟨t, e, h⟩ := bindOk h
    intro x hx
    rcases List.mem_cons.1 hx with rfl | hx
    · exact ⟨s, t, e⟩
    · exact ih h x hx

/-- Each resource of an upgraded listing has been converted. -/
theorem each_resource (hs : Source12 l ds listing rs) {doc : Dict Json} {o : Obj}
    (hr : upgrade12 env listing rs = .ok (doc, o)) (e : Dict Json) (he : e ∈ ds) :
    ∃ decl st st', Built (.cls (s% "v1_2.ApiDeclaration")) (.obj e) decl ∧ apiDeclaration env st decl = .ok st' := by
  unfold upgrade12 at hr
  obtain ⟨st0, _, hr⟩ := bindOk hr
  obtain ⟨st1, g1, _⟩ := bindOk hr
  obtain ⟨r, hr, hb⟩ := forall₂_mem_left hs.resources he
  obtain ⟨t, t', h⟩ := foldlM_each g1 r hr
  rw [scan_resource hb] at h
  exact ⟨r.2, t, t', hb, h⟩

/-- C77 (deviation): `models` is optional in Swagger 1.2, but a listing with a resource without them is not upgraded. -/
theorem C77_no_models_violation (hs : Source12 l ds listing rs) (e : Dict Json) (he : e ∈ ds)
    (hm : given e (s% "models") = none) : ∀ doc o, upgrade12 env listing rs ≠ .ok (doc, o) := by
  intro doc o hr
  obtain ⟨decl, st, st', hb, h⟩ := each_resource hs hr e he
  unfold apiDeclaration at h
  obtain ⟨_, _, h⟩ := bindOk h
  cases st with
  | none => cases h
  | some st =>
    obtain ⟨st1, _, h⟩ := bindOk h
    rw [built_kid_none hb hm] at h
    cases h

/-- C77 (deviation): the same for an operation without `parameters`. -/
theorem C77_no_parameters_violation (hs : Source12 l ds listing rs) (e api op : Dict Json) (he : e ∈ ds)
    (ha : api ∈ dictsAt e (s% "apis")) (hop : op ∈ dictsAt api (s% "operations")) (hm : given op (s% "parameters") = none) :
    ∀ doc o, upgrade12 env listing rs ≠ .ok (doc, o) := by
  intro doc o hr
  obtain ⟨decl, st, st', hb, h⟩ := each_resource hs hr e he
  unfold apiDeclaration at h
  obtain ⟨_, _, h⟩ := bindOk h
  cases st with
  | none => cases h
  | some st =>
    obtain ⟨st1, g, _⟩ := bindOk h
    obtain ⟨a, ha', hba⟩ := forall₂_mem_left (kid_dictsAt hb (k := s% "apis") (c' := s% "v1_2.Api") (by decide +kernel)) ha
    obtain ⟨t, t', h1⟩ := foldlM_each g a ha'
    unfold convertApi at h1
    split at h1
    · cases h1
    rename_i ops hops
    have hk := kid_dictsAt hba (k := s% "operations") (c' := s% "v1_2.Operation") (by decide +kernel)
    rw [hops] at hk
    obtain ⟨p, hp', hbp⟩ := forall₂_mem_left hk hop
    obtain ⟨u, u', h2⟩ := foldlM_each h1 p hp'
    unfold convertOperation at h2
    obtain ⟨d, h3, _⟩ := bindOk h2
    unfold operationOf at h3
    obtain ⟨_, _, h3⟩ := bindOk h3
    obtain ⟨_, _, h3⟩ := bindOk h3
    obtain ⟨_, _, h3⟩ := bindOk h3
    obtain ⟨_, _, h3⟩ := bindOk h3
    obtain ⟨_, _, h3⟩ := bindOk h3
    obtain ⟨_, _, h3⟩ := bindOk h3
    obtain ⟨_, _, h3⟩ := bindOk h3
    rw [built_kid_none hbp hm] at h3
    cases h3

/-! ### C76: security -/

/-- C76: the authorizations of the listing are security definitions, under their names when these have neither `/` nor
`~`. -/
theorem C76_defined_partial (hp : PythonOk env) (hs : Source12 l ds listing rs) (doc : Dict Json) (o : Obj)
    (hr : upgrade12 env listing rs = .ok (doc, o)) (n : Str) (d : Dict Json)
    (hd : Dict.get? (objAt l (s% "authorizations")) n = some (.obj d)) (h1 : '/' ∉ n) (h2 : '~' ∉ n) :
    ∃ r, Dict.get? (objAt doc (s% "securityDefinitions")) n = some (.obj r) ∧ AuthorizationTo12 d r := by
  obtain ⟨sd, e, h⟩ := (C75_document hp hs doc o hr).security
  have ho : objAt doc (s% "securityDefinitions") = sd := by unfold objAt; rw [e]
  have hn : escape n = n := escape_plain h1 h2
  have := h n
  rw [ho]
  cases hq : Dict.get? sd n with
  | none => rw [hq] at this; rw [this n hn] at hd; cases hd
  | some v =>
    rw [hq] at this
    obtain ⟨m, d', r, hm, hg, rfl, ha⟩ := this
    have : m = n := by
      have e1 := unescape_escape m
      rw [← hm] at e1
      have e2 := unescape_escape n
      rw [hn] at e2
      exact e1.symm.trans e2
    subst this
    rw [hg] at hd
    cases hd
    exact ⟨r, rfl, ha⟩

/-- C76: every security definition is of an authorization of the listing, under its name as a token of a JSON pointer. -/
theorem C76_only (hp : PythonOk env) (hs : Source12 l ds listing rs) (doc : Dict Json) (o : Obj)
    (hr : upgrade12 env listing rs = .ok (doc, o)) (key : Str) (v : Json)
    (hv : Dict.get? (objAt doc (s% "securityDefinitions")) key = some v) :
    ∃ n d r, key = escape n ∧ Dict.get? (objAt l (s% "authorizations")) n = some (.obj d) ∧ v = .obj r ∧ AuthorizationTo12 d r := by
  obtain ⟨sd, e, h⟩ := (C75_document hp hs doc o hr).security
  have ho : objAt doc (s% "securityDefinitions") = sd := by unfold objAt; rw [e]
  rw [ho] at hv
  have := h key
  rw [hv] at this
  exact this

/-- C76 (deviation): an authorization with a `/` in its name is defined under another name, so that the requirements of
the operations, which have the name as it is, do not find it. -/
theorem C76_slash_violation (hp : PythonOk env) (hs : Source12 l ds listing rs) (doc : Dict Json) (o : Obj)
    (hr : upgrade12 env listing rs = .ok (doc, o)) (n : Str) (h1 : '/' ∈ n) :
    Dict.get? (objAt doc (s% "securityDefinitions")) n = none := by
  cases hq : Dict.get? (objAt doc (s% "securityDefinitions")) n with
  | none => rfl
  | some v =>
    obtain ⟨m, _, _, rfl, _⟩ := C76_only hp hs doc o hr n v hq
    rw [← jpEncode_eq_escape] at h1
    exact absurd h1 (slash_not_mem_jpEncode m)

/-! ### C64, C65: parameters -/

/-- C64: a parameter, no body and not repeated, with a bound, but neither of type `integer` nor `number`, is rejected. -/
theorem C64_parameter_rejected (hp : PythonOk env) (path : Str) (d : Dict Json) (o : Obj)
    (h : Built (.cls (s% "v1_2.Parameter")) (.obj d) o) (hb : look d (s% "paramType") ≠ .str (s% "body")) (hm : ¬ Repeats d)
    (k : Str) (hk : k ∈ [s% "minimum", s% "maximum"]) (hv : (look d k).truthy = true)
    (hi : look d (s% "type") ≠ .str (s% "integer")) (hn : look d (s% "type") ≠ .str (s% "number")) :
    ∀ r, convertParameter env (path.drop 1) o ≠ .ok r := by
  intro r hr
  obtain ⟨h1, h2⟩ := C64_parameter_bounds_partial hp path d o h r hr hb hm
  simp only [List.mem_cons, List.not_mem_nil, or_false] at hk
  unfold BoundTo at h1 h2
  rcases hk with rfl | rfl
  · rw [if_pos hv] at h1
    rcases h1 with h1 | h1
    · exact hi h1.1
    · exact hn h1.1
  · rw [if_pos hv] at h2
    rcases h2 with h2 | h2
    · exact hi h2.1
    · exact hn h2.1

/-- C64: the same for bodies, properties and what operations return. -/
theorem C64_schema_rejected (hp : PythonOk env) (path c : Str) (hc : c ∈ [s% "v1_2.Parameter", s% "v1_2.Operation", s% "v1_2.Property"])
    (d : Dict Json) (o : Obj) (h : Built (.cls c) (.obj d) o)
    (k : Str) (hk : k ∈ [s% "minimum", s% "maximum"]) (hv : (look d k).truthy = true)
    (hi : look d (s% "type") ≠ .str (s% "integer")) (hn : look d (s% "type") ≠ .str (s% "number")) :
    ∀ r, schemaOf env (path.drop 1) o ≠ .ok r := by
  intro r hr
  obtain ⟨h1, h2⟩ := C64_schema_bounds hp path c hc d o h r hr
  simp only [List.mem_cons, List.not_mem_nil, or_false] at hk
  unfold BoundTo at h1 h2
  rcases hk with rfl | rfl
  · rw [if_pos hv] at h1
    rcases h1 with h1 | h1
    · exact hi h1.1
    · exact hn h1.1
  · rw [if_pos hv] at h2
    rcases h2 with h2 | h2
    · exact hi h2.1
    · exact hn h2.1

/-- C64 (deviation): a bound that is the number zero (not the string `"0"`) is lost. -/
theorem C64_zero_violation (hp : PythonOk env) (path c : Str) (hc : c ∈ [s% "v1_2.Parameter", s% "v1_2.Operation", s% "v1_2.Property"])
    (d : Dict Json) (o : Obj) (h : Built (.cls c) (.obj d) o) (r : Dict Json) (hr : schemaOf env (path.drop 1) o = .ok r)
    (k : Str) (hk : k ∈ [s% "minimum", s% "maximum"]) (hv : Dict.get? d k = some (.int 0)) : Dict.get? r k = none := by
  obtain ⟨h1, h2⟩ := C64_schema_bounds hp path c hc d o h r hr
  have hl : ∀ k, Dict.get? d k = some (.int 0) → ¬ (look d k).truthy = true := by
    intro k hv; unfold look; rw [hv]; decide
  simp only [List.mem_cons, List.not_mem_nil, or_false] at hk
  unfold BoundTo at h1 h2
  rcases hk with rfl | rfl
  · rw [if_neg (hl _ hv)] at h1; exact h1
  · rw [if_neg (hl _ hv)] at h2; exact h2

/-- C65: a repeated primitive parameter is converted, to an array with commas whose items have the type, the format and
the enum of the parameter; its default is a list. -/
theorem C65_repeated (hp : PythonOk env) (path : Str) (d : Dict Json) (o : Obj)
    (h : Built (.cls (s% "v1_2.Parameter")) (.obj d) o) (hpt : Dict.get? d (s% "paramType") ≠ none)
    (hb : look d (s% "paramType") ≠ .str (s% "body")) (hm : look d (s% "allowMultiple") = .bool true)
    (hi : given d (s% "items") = none) (hr : (look d (s% "$ref")).truthy = false) (t : Str)
    (ht : look d (s% "type") = .str t) (hprim : Primitive t) :
    ∃ r i, convertParameter env (path.drop 1) o = .ok r ∧ ParamHeadTo d r ∧
      Dict.get? r (s% "type") = some (.str (s% "array")) ∧ Dict.get? r (s% "collectionFormat") = some (.str (s% "csv")) ∧
      Dict.get? r (s% "uniqueItems") = Dict.get? d (s% "uniqueItems") ∧
      Dict.get? r (s% "default") = (Dict.get? d (s% "defaultValue")).map (fun v => .arr [v]) ∧
      Dict.get? r (s% "items") = some (.obj i) ∧ Dict.get? i (s% "type") = some (.str t) ∧
      Dict.get? i (s% "format") = Dict.get? d (s% "format") ∧ Dict.get? i (s% "enum") = some (look d (s% "enum")) ∧
      Only [s% "type", s% "format", s% "enum"] i ∧
      Only [s% "name", s% "required", s% "description", s% "in", s% "type", s% "collectionFormat", s% "uniqueItems", s% "items",
        s% "default"] r := by
  have hrep : Repeats d := ⟨hm, hi⟩
  have hno : ∀ e, given d (s% "items") ≠ some (.obj e) := fun e he => by rw [hi] at he; cases he
  obtain ⟨r, hr'⟩ := convertParameter_total (env := env) (path := path) h ⟨hpt, fun e => absurd e hb, fun _ =>
    ⟨hr, fun _ => ⟨hr, t, ht, hprim⟩, fun hn => absurd hrep hn, fun e he => absurd he (hno e)⟩⟩
  obtain ⟨⟨h0, _, hpl⟩, _⟩ := convertParameter_ok hp.lower hp.numbers h hr'
  obtain ⟨⟨r1, r2, r3, r4, i, i1, ⟨⟨t', i2, i3⟩, i4⟩, i5, i6⟩, ho⟩ := (hpl hb).2.1 hrep
  have : t' = t := by
    unfold primitiveOf at i2
    rw [ht] at i2
    cases t with
    | nil => cases i2
    | cons c s =>
      simp only [textOf, Option.filter] at i2
      split at i2
      · cases i2; rfl
      · cases i2
  subst this
  exact ⟨r, i, hr', h0, r1, r2, r3, r4, i1, i3, i4, i5, i6, ho⟩

/-- C65: a repeated parameter that is no primitive is rejected. -/
theorem C65_rejected (hp : PythonOk env) (path : Str) (d : Dict Json) (o : Obj)
    (h : Built (.cls (s% "v1_2.Parameter")) (.obj d) o) (hb : look d (s% "paramType") ≠ .str (s% "body"))
    (hm : Repeats d) (ht : primitiveOf d = none) : ∀ r, convertParameter env (path.drop 1) o ≠ .ok r := by
  intro r hr
  obtain ⟨⟨_, _, hpl⟩, _⟩ := convertParameter_ok hp.lower hp.numbers h hr
  obtain ⟨⟨_, _, _, _, i, _, ⟨⟨t', i2, _⟩, _⟩, _⟩, _⟩ := (hpl hb).2.1 hm
  rw [ht] at i2
  cases i2

/-! ### a document -/

/-- A Python that knows the number one. -/
def demoEnv : Up12.Env where
  sep := s% "!##!"
  lower := List.map Char.toLower
  float := fun j => match j with
    | .str ['1'] => .ok (.flt 1 0)
    | _ => .error .valueError
  trunc := fun j => match j with
    | .flt n 0 => .ok (.int n)
    | _ => .error .typeError
  urlOk := fun _ => true

theorem demoEnv_ok : PythonOk demoEnv where
  lower := by
    intro t ht
    exact (show ∀ t ∈ [s% "integer", s% "number", s% "string", s% "boolean", s% "array", s% "void"], demoEnv.lower t = t by
      decide +kernel) t ht
  numbers := by
    constructor
    · intro v n h
      simp only [demoEnv] at h
      split at h <;> cases h
      exact ⟨_, _, rfl⟩
    · intro v n h
      simp only [demoEnv] at h
      split at h <;> cases h
      exact ⟨_, rfl⟩

/-- A listing with two authorizations. -/
def demoListing : Dict Json := [
  (s% "swaggerVersion", .str (s% "1.2")), (s% "apiVersion", .str (s% "7")),
  (s% "apis", .arr [.obj [(s% "path", .str (s% "/pet"))], .obj [(s% "path", .str (s% "/shop"))]]),
  (s% "info", .obj [(s% "title", .str (s% "t")), (s% "description", .str (s% "d"))]),
  (s% "authorizations", .obj [
    (s% "key", .obj [(s% "type", .str (s% "apiKey")), (s% "passAs", .str (s% "header")), (s% "keyname", .str (s% "k"))]),
    (s% "a/b", .obj [(s% "type", .str (s% "oauth2")),
      (s% "scopes", .arr [.obj [(s% "scope", .str (s% "w")), (s% "description", .str (s% "write"))]]),
      (s% "grantTypes", .obj [(s% "implicit", .obj [(s% "loginEndpoint", .obj [(s% "url", .str (s% "http://l"))])])])])])]

/-- A repeated parameter. -/
def demoRepeated : Dict Json := [
  (s% "paramType", .str (s% "query")), (s% "name", .str (s% "ids")), (s% "type", .str (s% "integer")),
  (s% "format", .str (s% "int64")), (s% "allowMultiple", .bool true), (s% "minimum", .str (s% "1")),
  (s% "enum", .arr [.str (s% "1")]), (s% "defaultValue", .str (s% "1"))]

/-- A parameter with a bound. -/
def demoBounded : Dict Json := [
  (s% "paramType", .str (s% "form")), (s% "name", .str (s% "n")), (s% "type", .str (s% "integer")), (s% "minimum", .str (s% "1"))]

/-- A string with a bound. -/
def demoWrong : Dict Json := [
  (s% "paramType", .str (s% "query")), (s% "name", .str (s% "n")), (s% "type", .str (s% "string")), (s% "minimum", .str (s% "1"))]

/-- A model. -/
def demoCat : Dict Json := [(s% "id", .str (s% "Cat")), (s% "properties", .obj [
  (s% "lives", .obj [(s% "type", .str (s% "integer")), (s% "minimum", .str (s% "1"))])])]

/-- A model with a subtype. -/
def demoPetModel : Dict Json := [(s% "id", .str (s% "Pet")), (s% "subTypes", .arr [.str (s% "Cat")]),
  (s% "properties", .obj [(s% "friend", .obj [(s% "$ref", .str (s% "Pet"))])])]

/-- A model of another resource. -/
def demoOther : Dict Json := [(s% "id", .str (s% "Pet")), (s% "properties", .obj [])]

/-- An operation with parameters. -/
def demoGet : Dict Json := [
  (s% "method", .str (s% "GET")), (s% "nickname", .str (s% "getPet")), (s% "type", .str (s% "Pet")),
  (s% "authorizations", .obj [(s% "a/b", .arr [.obj [(s% "scope", .str (s% "w"))]])]),
  (s% "parameters", .arr [.obj demoRepeated, .obj demoBounded])]

/-- A body. -/
def demoBody : Dict Json := [(s% "paramType", .str (s% "body")), (s% "name", .str (s% "body")), (s% "type", .str (s% "Pet"))]

/-- An operation with a body. -/
def demoBuy : Dict Json := [
  (s% "method", .str (s% "POST")), (s% "nickname", .str (s% "buy")), (s% "type", .str (s% "void")),
  (s% "parameters", .arr [.obj demoBody]),
  (s% "responseMessages", .arr [.obj [(s% "code", .int 404), (s% "message", .str (s% "no such thing"))]])]

/-- A resource with models, one the subtype of the other. -/
def demoPet : Dict Json := [
  (s% "swaggerVersion", .str (s% "1.2")), (s% "basePath", .str (s% "http://a.com/api")), (s% "resourcePath", .str (s% "/pet")),
  (s% "apis", .arr [.obj [(s% "path", .str (s% "/pet")), (s% "operations", .arr [.obj demoGet])]]),
  (s% "models", .obj [(s% "Cat", .obj demoCat), (s% "Pet", .obj demoPetModel)])]

/-- Another resource of the site. -/
def demoShop : Dict Json := [
  (s% "swaggerVersion", .str (s% "1.2")), (s% "basePath", .str (s% "http://a.com")), (s% "resourcePath", .str (s% "/shop/x")),
  (s% "apis", .arr [.obj [(s% "path", .str (s% "/shop")), (s% "operations", .arr [.obj demoBuy])]]),
  (s% "models", .obj [(s% "Pet", .obj demoOther)])]

theorem demo_source : ∃ listing rs, Source12 demoListing [demoPet, demoShop] listing rs := by
  obtain ⟨o, _, h⟩ := built_exists (regularB_sound 12 (.cls (s% "v1_2.ResourceListing")) (.obj demoListing) (by decide +kernel))
    (by decide +kernel) none
  obtain ⟨o1, _, h1⟩ := built_exists (regularB_sound 12 (.cls (s% "v1_2.ApiDeclaration")) (.obj demoPet) (by decide +kernel))
    (by decide +kernel) none
  obtain ⟨o2, _, h2⟩ := built_exists (regularB_sound 12 (.cls (s% "v1_2.ApiDeclaration")) (.obj demoShop) (by decide +kernel))
    (by decide +kernel) none
  refine ⟨o, [(s% "pet", o1), (s% "shop", o2)], h, .cons h1 (.cons h2 .nil), fun e he k m hm ht => ?_⟩
  simp only [List.mem_cons, List.not_mem_nil, or_false] at he
  rcases he with rfl | rfl
  · have hm : (k, Json.obj m) ∈ [(s% "Cat", .obj demoCat), (s% "Pet", .obj demoPetModel)] := hm
    simp only [List.mem_cons, List.not_mem_nil, or_false, Prod.mk.injEq, Json.obj.injEq] at hm
    rcases hm with ⟨rfl, rfl⟩ | ⟨rfl, rfl⟩
    · exact absurd ht (by decide +kernel)
    · exact ⟨_, rfl⟩
  · have hm : (k, Json.obj m) ∈ [(s% "Pet", .obj demoOther)] := hm
    simp only [List.mem_cons, List.not_mem_nil, or_false, Prod.mk.injEq, Json.obj.injEq] at hm
    obtain ⟨rfl, rfl⟩ := hm
    exact absurd ht (by decide +kernel)

theorem demo_parameters : ParameterOk demoEnv.numbers demoRepeated ∧ ParameterOk demoEnv.numbers demoBounded := by
  refine ⟨⟨by decide +kernel, fun h => absurd h (by decide +kernel), fun _ => ⟨by decide +kernel, fun _ => ⟨by decide +kernel, _, rfl,
    by decide +kernel⟩, fun h => absurd (show Repeats demoRepeated from ⟨by decide +kernel, by decide +kernel⟩) h, fun e he => ?_⟩⟩,
    ⟨by decide +kernel, fun h => absurd h (by decide +kernel), fun _ => ⟨by decide +kernel, fun h => absurd h.1 (by decide +kernel), fun _ =>
      ⟨⟨_, rfl⟩, fun _ => .inl ⟨rfl, .int 1, .flt 1 0, rfl, rfl⟩, fun h => absurd h (by decide +kernel)⟩, fun e he => ?_⟩⟩⟩
  · rw [show given demoRepeated (s% "items") = none by decide +kernel] at he; cases he
  · rw [show given demoBounded (s% "items") = none by decide +kernel] at he; cases he

/-- Data types without bounds and items. -/
theorem simple_ok {num : Numbers} {d : Dict Json} (h1 : TypeOk d) (h2 : look d (s% "minimum") = .null) (h3 : look d (s% "maximum") = .null)
    (h4 : given d (s% "items") = none) : DataTypeOk num d :=
  ⟨h1, fun h => (by rw [h2] at h; cases h), fun h => (by rw [h3] at h; cases h), fun e he => (by rw [h4] at he; cases he)⟩

theorem typeOk_of {d : Dict Json} (h : ∀ k ∈ [s% "type", s% "$ref"], look d k = .null ∨ ∃ t, look d k = .str t) : TypeOk d := by
  intro k hk ht
  rcases h k hk with e | e
  · rw [e] at ht; cases ht
  · exact e

theorem two_ok {d : Dict Json} (h1 : look d (s% "type") = .null ∨ ∃ t, look d (s% "type") = .str t)
    (h2 : look d (s% "$ref") = .null ∨ ∃ t, look d (s% "$ref") = .str t) : TypeOk d := by
  refine typeOk_of (fun k hk => ?_)
  simp only [List.mem_cons, List.not_mem_nil, or_false] at hk
  rcases hk with rfl | rfl
  · exact h1
  · exact h2

theorem demo_pet : ResourceOk demoEnv.numbers demoEnv.lower demoPet := by
  refine ⟨⟨_, rfl⟩, ⟨_, rfl⟩, by decide +kernel, fun api ha => ?_, fun k m hm => ?_⟩
  · have ha : api ∈ [[(s% "path", Json.str (s% "/pet")), (s% "operations", .arr [.obj demoGet])]] := ha
    rw [List.mem_singleton] at ha
    subst ha
    refine ⟨⟨_, rfl⟩, by decide +kernel, fun op hop => ?_⟩
    have hop : op ∈ [demoGet] := hop
    rw [List.mem_singleton] at hop
    subst hop
    refine ⟨by decide +kernel, fun p hp => ?_, fun _ => ?_, ⟨_, rfl⟩, by decide +kernel, fun k hk j hj => ?_, fun nl hnl => ?_⟩
    · have hp : p ∈ [demoRepeated, demoBounded] := hp
      simp only [List.mem_cons, List.not_mem_nil, or_false] at hp
      rcases hp with rfl | rfl
      · exact demo_parameters.1
      · exact demo_parameters.2
    · exact simple_ok (two_ok (.inr ⟨_, rfl⟩) (.inl rfl)) rfl rfl rfl
    · rw [(show ∀ k ∈ [s% "consumes", s% "produces"], ownElse demoPet demoGet k = none by decide +kernel) k hk] at hj
      cases hj
    · have hnl : nl ∈ [(s% "a/b", Json.arr [.obj [(s% "scope", .str (s% "w"))]])] := hnl
      rw [List.mem_singleton] at hnl
      subst hnl
      exact ⟨[s% "w"], rfl⟩
  · have hm : (k, Json.obj m) ∈ [(s% "Cat", .obj demoCat), (s% "Pet", .obj demoPetModel)] := hm
    simp only [List.mem_cons, List.not_mem_nil, or_false, Prod.mk.injEq, Json.obj.injEq] at hm
    rcases hm with ⟨rfl, rfl⟩ | ⟨rfl, rfl⟩
    · refine ⟨⟨_, rfl⟩, fun k p hp => ?_, fun h => absurd h (by decide +kernel)⟩
      have hp : (k, Json.obj p) ∈ [(s% "lives", Json.obj [(s% "type", .str (s% "integer")), (s% "minimum", .str (s% "1"))])] := hp
      simp only [List.mem_cons, List.not_mem_nil, or_false, Prod.mk.injEq, Json.obj.injEq] at hp
      obtain ⟨rfl, rfl⟩ := hp
      exact ⟨two_ok (.inr ⟨_, rfl⟩) (.inl rfl), fun _ => .inl ⟨rfl, .int 1, .flt 1 0, rfl, rfl⟩, fun h => absurd h (by decide +kernel),
        fun e he => (by rw [show given _ (s% "items") = none from rfl] at he; cases he)⟩
    · refine ⟨⟨_, rfl⟩, fun k p hp => ?_, fun h => ⟨[s% "Cat"], rfl⟩⟩
      have hp : (k, Json.obj p) ∈ [(s% "friend", Json.obj [(s% "$ref", .str (s% "Pet"))])] := hp
      simp only [List.mem_cons, List.not_mem_nil, or_false, Prod.mk.injEq, Json.obj.injEq] at hp
      obtain ⟨rfl, rfl⟩ := hp
      exact simple_ok (two_ok (.inl rfl) (.inr ⟨_, rfl⟩)) rfl rfl rfl

theorem demo_shop : ResourceOk demoEnv.numbers demoEnv.lower demoShop := by
  refine ⟨⟨_, rfl⟩, ⟨_, rfl⟩, by decide +kernel, fun api ha => ?_, fun k m hm => ?_⟩
  · have ha : api ∈ [[(s% "path", Json.str (s% "/shop")), (s% "operations", .arr [.obj demoBuy])]] := ha
    rw [List.mem_singleton] at ha
    subst ha
    refine ⟨⟨_, rfl⟩, by decide +kernel, fun op hop => ?_⟩
    have hop : op ∈ [demoBuy] := hop
    rw [List.mem_singleton] at hop
    subst hop
    refine ⟨by decide +kernel, fun p hp => ?_, fun h => absurd rfl h, ⟨_, rfl⟩, by decide +kernel, fun k hk j hj => ?_,
      fun nl hnl => ?_⟩
    · have hp : p ∈ [demoBody] := hp
      rw [List.mem_singleton] at hp
      subst hp
      exact ⟨by decide +kernel, fun _ => simple_ok (two_ok (.inr ⟨_, rfl⟩) (.inl rfl)) rfl rfl rfl, fun h => absurd rfl h⟩
    · rw [(show ∀ k ∈ [s% "consumes", s% "produces"], ownElse demoShop demoBuy k = none by decide +kernel) k hk] at hj
      cases hj
    · have hnl : nl ∈ ([] : Dict Json) := hnl
      cases hnl
  · have hm : (k, Json.obj m) ∈ [(s% "Pet", .obj demoOther)] := hm
    simp only [List.mem_cons, List.not_mem_nil, or_false, Prod.mk.injEq, Json.obj.injEq] at hm
    obtain ⟨rfl, rfl⟩ := hm
    refine ⟨⟨_, rfl⟩, fun k p hp => ?_, fun h => absurd h (by decide +kernel)⟩
    have hp : (k, Json.obj p) ∈ ([] : Dict Json) := hp
    cases hp

theorem demo_upgradable : Upgradable demoEnv.numbers demoEnv.lower demoListing [demoPet, demoShop] := by
  refine ⟨⟨by decide +kernel, by decide +kernel, by decide +kernel, fun n d hd => ?_⟩, fun e he => ?_, ?_⟩
  · have hd : (n, Json.obj d) ∈ [(s% "key", Json.obj [(s% "type", .str (s% "apiKey")), (s% "passAs", .str (s% "header")), (s% "keyname", .str (s% "k"))]),
      (s% "a/b", .obj [(s% "type", .str (s% "oauth2")),
        (s% "scopes", .arr [.obj [(s% "scope", .str (s% "w")), (s% "description", .str (s% "write"))]]),
        (s% "grantTypes", .obj [(s% "implicit", .obj [(s% "loginEndpoint", .obj [(s% "url", .str (s% "http://l"))])])])])] := hd
    simp only [List.mem_cons, List.not_mem_nil, or_false, Prod.mk.injEq, Json.obj.injEq] at hd
    rcases hd with ⟨rfl, rfl⟩ | ⟨rfl, rfl⟩
    · exact ⟨fun s hs => (by cases hs), fun e he => (by cases he), fun e he => (by cases he)⟩
    · refine ⟨fun s hs => ?_, fun e he => ?_, fun e he => (by cases he)⟩
      · have hs : s ∈ [[(s% "scope", Json.str (s% "w")), (s% "description", .str (s% "write"))]] := hs
        rw [List.mem_singleton] at hs
        subst hs
        exact ⟨⟨_, rfl⟩, ⟨_, rfl⟩⟩
      · have he : some (Json.obj [(s% "url", .str (s% "http://l"))]) = some (Json.obj e) := he
        cases he
        decide +kernel
  · simp only [List.mem_cons, List.not_mem_nil, or_false] at he
    rcases he with rfl | rfl
    · exact demo_pet
    · exact demo_shop
  · decide +kernel

theorem demo_site : IsScheme (s% "http") ∧ IsHost (s% "a.com") ∧
    ∀ x ∈ allOps demoEnv.lower [demoPet, demoShop], OfSite (s% "http") (s% "a.com") x.path := by
  refine ⟨⟨⟨_, _, rfl, by decide⟩, by decide⟩, by unfold IsHost; decide, fun x hx => ?_⟩
  have hx : x ∈ [(⟨s% "http://a.com/api/pet", s% "get", demoPet, demoGet⟩ : Op12), ⟨s% "http://a.com/shop", s% "post", demoShop, demoBuy⟩] := hx
  simp only [List.mem_cons, List.not_mem_nil, or_false] at hx
  rcases hx with rfl | rfl
  · exact ⟨s% "api/pet", rfl⟩
  · exact ⟨s% "shop", rfl⟩

/-- The document is upgraded. -/
theorem demo_upgraded : ∃ listing rs doc o, Source12 demoListing [demoPet, demoShop] listing rs ∧
    upgrade12 demoEnv listing rs = .ok (doc, o) ∧ Built (.cls (s% "v2_0.Swagger")) (.obj doc) o := by
  obtain ⟨listing, rs, hs⟩ := demo_source
  obtain ⟨h1, h2, h3⟩ := demo_site
  obtain ⟨doc, o, hr, hb⟩ := C77_site demoEnv_ok hs demo_upgradable _ _ h1 h2 (by decide) rfl h3
  exact ⟨listing, rs, doc, o, hs, hr, hb⟩

/-- C61, C62, C63, C74, C76 on it: the host, the paths, the models, the parent of the subtype, the security definitions;
a reference to a model of `/pet` is resolved, one to a model of `/shop/x` is not. -/
example : ∃ listing rs doc o, upgrade12 demoEnv listing rs = .ok (doc, o) ∧
    Dict.get? doc (s% "host") = some (.str (s% "a.com")) ∧
    (∀ p, p ∈ Dict.keys (objAt doc (s% "paths")) ↔ p = s% "/api/pet" ∨ p = s% "/shop") ∧
    (∃ s, definitionAt doc (s% "pet!##!Pet") = some (.obj s)) ∧
    (∃ s ps, definitionAt doc (s% "pet!##!Cat") = some (.obj s) ∧ Dict.get? s (s% "allOf") = some (.arr ps) ∧
      Json.obj [(s% "$ref", .str (s% "#/definitions/pet!##!Pet"))] ∈ ps) ∧
    (∃ r, Dict.get? (objAt doc (s% "securityDefinitions")) (s% "key") = some (.obj r)) ∧
    Dict.get? (objAt doc (s% "securityDefinitions")) (s% "a/b") = none ∧
    (∃ x, Obj.resolve pkg ((jpSplit (s% "#/definitions/pet!##!Pet")).drop 1) o = .ok x) ∧
    (∃ s, definitionAt doc (s% "shop/x!##!Pet") = some (.obj s)) ∧
    Obj.resolve pkg ((jpSplit (s% "#/definitions/shop/x!##!Pet")).drop 1) o = .error .keyError := by
  obtain ⟨listing, rs, doc, o, hs, hr, _⟩ := demo_upgraded
  obtain ⟨h1, h2, h3⟩ := demo_site
  have hc := C63_site demoEnv_ok hs doc o hr _ _ h1 h2 (by decide) rfl (by decide +kernel) h3
  have hd := C63_round demoEnv_ok hs doc o hr _ _ h1 h2 (by decide) rfl (by decide +kernel) h3
  obtain ⟨s, _, e1, _⟩ := C61_registered demoEnv_ok hs doc o hr demoPet demoPetModel (s% "Pet") (by simp) (by decide +kernel)
  obtain ⟨s2, ps, e2, e3, e4⟩ := C62_subtypes demoEnv_ok hs doc o hr demoPet demoPetModel (s% "Pet") (s% "Cat") (by simp)
    (by decide +kernel) (by decide +kernel)
  obtain ⟨r, e5, _⟩ := C76_defined_partial demoEnv_ok hs doc o hr (s% "key") _ rfl (by decide) (by decide)
  obtain ⟨x, e6, _⟩ := C74_resolves_partial demoEnv_ok hs doc o hr (s% "/pet") (s% "Pet") s e1 (by decide +kernel) (by decide +kernel)
  obtain ⟨s3, _, e7, _⟩ := C61_registered demoEnv_ok hs doc o hr demoShop demoOther (s% "Pet") (by simp) (by decide +kernel)
  have e8 : definitionAt doc (s% "shop") = none := by
    obtain ⟨defs, hd, hg⟩ := definitionAt_eq (C75_document demoEnv_ok hs doc o hr)
    have := hd (s% "shop")
    rw [hg]
    cases hq : Dict.get? defs (s% "shop") with
    | none => rfl
    | some s => rw [hq] at this; exact absurd this.1 (by decide +kernel)
  have e9 := C74_slash_violation demoEnv_ok hs doc o hr (s% "/shop/x") (s% "Pet") (s% "shop") (s% "x!##!Pet") (by decide)
    (by decide +kernel) e8
  refine ⟨listing, rs, doc, o, hr, hc.1, fun p => ?_, ⟨s, e1⟩, ⟨s2, ps, e2, e3, e4⟩, ⟨r, e5⟩,
    C76_slash_violation demoEnv_ok hs doc o hr (s% "a/b") (by decide), ⟨x, e6⟩, ⟨s3, e7⟩, e9⟩
  rw [hd p]
  have hx : ∀ x, x ∈ allOps demoEnv.lower [demoPet, demoShop] ↔
    x = (⟨s% "http://a.com/api/pet", s% "get", demoPet, demoGet⟩ : Op12) ∨ x = ⟨s% "http://a.com/shop", s% "post", demoShop, demoBuy⟩ := by
    intro x
    rw [show allOps demoEnv.lower [demoPet, demoShop] = [(⟨s% "http://a.com/api/pet", s% "get", demoPet, demoGet⟩ : Op12),
      ⟨s% "http://a.com/shop", s% "post", demoShop, demoBuy⟩] from rfl]
    simp
  constructor
  · rintro ⟨x, hm, e⟩
    rcases (hx x).1 hm with rfl | rfl
    · exact .inl (List.append_cancel_left (as := s% "http://a.com") e.symm)
    · exact .inr (List.append_cancel_left (as := s% "http://a.com") e.symm)
  · rintro (rfl | rfl)
    · exact ⟨_, (hx _).2 (.inl rfl), rfl⟩
    · exact ⟨_, (hx _).2 (.inr rfl), rfl⟩

/-- C65 on a repeated parameter. -/
example : ∃ o r i, Built (.cls (s% "v1_2.Parameter")) (.obj demoRepeated) o ∧ convertParameter demoEnv (s% "pet") o = .ok r ∧
    Dict.get? r (s% "items") = some (.obj i) ∧ Dict.get? i (s% "type") = some (.str (s% "integer")) ∧
    Dict.get? i (s% "minimum") = none := by
  obtain ⟨o, _, h⟩ := built_exists (regularB_sound 12 (.cls (s% "v1_2.Parameter")) (.obj demoRepeated) (by decide +kernel))
    (by decide +kernel) none
  obtain ⟨r, i, h1, _, _, _, _, _, h2, h3, _, _, h4, _⟩ := C65_repeated demoEnv_ok (s% "/pet") demoRepeated o h (by decide +kernel)
    (by decide +kernel) (by decide +kernel) (by decide +kernel) (by decide +kernel) (s% "integer") rfl (by decide +kernel)
  exact ⟨o, r, i, h, h1, h2, h3, only_none h4 (by decide)⟩

/-- C64 on a parameter with a bound, and on a string with one. -/
example : ∃ o r, Built (.cls (s% "v1_2.Parameter")) (.obj demoBounded) o ∧ convertParameter demoEnv (s% "pet") o = .ok r ∧
    Dict.get? r (s% "minimum") = some (.int 1) := by
  obtain ⟨o, _, h⟩ := built_exists (regularB_sound 12 (.cls (s% "v1_2.Parameter")) (.obj demoBounded) (by decide +kernel))
    (by decide +kernel) none
  obtain ⟨r, hr⟩ := convertParameter_total (env := demoEnv) (path := s% "/pet") h demo_parameters.2
  obtain ⟨h1, _⟩ := C64_parameter_bounds_partial demoEnv_ok (s% "/pet") demoBounded o h r hr (by decide +kernel)
    (fun h => absurd h.1 (by decide +kernel))
  unfold BoundTo at h1
  rw [if_pos (by decide +kernel)] at h1
  rcases h1 with ⟨_, n, ⟨f, e1, e2⟩, e3⟩ | ⟨e, _⟩
  · cases (show Except.ok (Json.flt 1 0) = Except.ok f from e1)
    cases (show Except.ok (Json.int 1) = Except.ok n from e2)
    exact ⟨o, r, h, hr, e3⟩
  · exact absurd e (by decide +kernel)

example : ∃ o, Built (.cls (s% "v1_2.Parameter")) (.obj demoWrong) o ∧ ∀ r, convertParameter demoEnv (s% "pet") o ≠ .ok r := by
  obtain ⟨o, _, h⟩ := built_exists (regularB_sound 12 (.cls (s% "v1_2.Parameter")) (.obj demoWrong) (by decide +kernel))
    (by decide +kernel) none
  exact ⟨o, h, C64_parameter_rejected demoEnv_ok (s% "/pet") demoWrong o h (by decide +kernel) (fun h => absurd h.1 (by decide +kernel))
    (s% "minimum") (by simp) (by decide +kernel) (by decide +kernel) (by decide +kernel)⟩

/-! ### C63: different sites -/

/-- C63 (deviation): the common part of two hosts is taken for a host. -/
theorem C63_two_hosts_violation : hostAndPaths demoEnv [(s% "http://a.com/x", []), (s% "http://a.org/y", [])] =
    .ok (s% "a.", [(s% "com/x", []), (s% "org/y", [])]) := by rfl

/-- C63 (deviation): `http` and `https` of one host leave no host, and the paths are whole urls. -/
theorem C63_two_schemes_violation : hostAndPaths demoEnv [(s% "http://a.com/x", []), (s% "https://a.com/y", [])] =
    .ok ([], [(s% "http://a.com/x", []), (s% "https://a.com/y", [])]) := by rfl

/-- C63 (deviation): the same for two ports of one host. -/
theorem C63_two_ports_violation : hostAndPaths demoEnv [(s% "http://a.com:80/x", []), (s% "http://a.com:8080/y", [])] =
    .ok (s% "a.com:80", [(s% "/x", []), (s% "80/y", [])]) := by rfl

end Pyopenapi
