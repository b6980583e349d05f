import Verif.Lemmas.ConvSwagger
import Verif.Props.Load
import Verif.Lemmas.Url
import Verif.Lemmas.Eval

/-!
# C53, C56, C58, C72: whole documents
-/

namespace Pyopenapi
open Spec Obj Conv

theorem entriesTo_lookup {P : Json → Json → Prop} {l m : Dict Json} (h : EntriesTo P l m) {k : Str} {v : Json}
    (hv : Dict.get? l k = some v) : ∃ w, Dict.get? m k = some w ∧ P v w := by
  have hk := forall₂_keys (P := P) h
  have : (Dict.get? m k).isSome = true := by
    rw [Dict.get?_isSome_iff, hk, ← Dict.get?_isSome_iff, hv]; rfl
  obtain ⟨w, hw⟩ := Option.isSome_iff_exists.1 this
  exact ⟨w, hw, forall₂_lookup (P := P) h hv hw⟩

/-- C53: whenever a document is converted, the converted document says the same: same paths and operations, same
`info`, tags and documentation, and every definition, named parameter, response and security scheme in `components`.
(`DocTo`.) -/
theorem C53_document {refs : Refs} {env : Env} (he : EnvOk refs env) (d : Dict Json) (o : Obj)
    (h : Built (.cls (s% "v2_0.Swagger")) (.obj d) o) (hres : DocResolves refs d) (hv : NamedValid d)
    (r : Dict Json) (rl : Routes) (hr : toOpenapi env o = .ok (r, rl)) : DocTo refs d r :=
  (toOpenapi_built he h hres hv hr).1

/-- C53: the paths of the converted document are those of the document, in its order; `PathItemTo` relates the path
items. -/
theorem C53_paths {refs : Refs} {env : Env} (he : EnvOk refs env) (d : Dict Json) (o : Obj)
    (h : Built (.cls (s% "v2_0.Swagger")) (.obj d) o) (hres : DocResolves refs d) (hv : NamedValid d)
    (r : Dict Json) (rl : Routes) (hr : toOpenapi env o = .ok (r, rl)) :
    Dict.keys (objAt r (s% "paths")) = Dict.keys (objAt d (s% "paths")) ∧
    ∀ p e, Dict.get? (objAt d (s% "paths")) p = some (.obj e) →
      ∃ q, Dict.get? (objAt r (s% "paths")) p = some (.obj q) ∧ PathItemTo refs (strsAt d (s% "produces")) e q := by
  have hd := (toOpenapi_built he h hres hv hr).1.2.2.2.1
  by_cases hp : objAt d (s% "paths") = []
  · rw [hp]
    have := hd.1 hp
    refine ⟨?_, fun p e h => by cases h⟩
    unfold objAt
    rw [this]
  · obtain ⟨m, h1, h2⟩ := hd.2 hp
    have hm : objAt r (s% "paths") = m := objAt_of h1
    rw [hm]
    refine ⟨forall₂_keys (P := fun x y => ∃ e q, x = Json.obj e ∧ y = Json.obj q ∧ PathItemTo refs _ e q) h2, fun p e hpe => ?_⟩
    obtain ⟨y, hy, e', q, h1, h2, h3⟩ := entriesTo_lookup h2 hpe
    cases h1
    subst h2
    exact ⟨q, hy, h3⟩

/-- C53: a document with an extension among its paths is not converted. -/
theorem C53_extension {env : Env} (d : Dict Json) (o : Obj) (h : Built (.cls (s% "v2_0.Swagger")) (.obj d) o)
    (k : Str) (hk : k ∈ Dict.keys (objAt d (s% "paths"))) (hx : Str.startsWith k (s% "x-") = true) :
    ∃ e, toOpenapi env o = .error e := by
  obtain ⟨h1, _, h3, _⟩ := kid_objAt (b := .cls (s% "v2_0.PathItem")) (k := s% "paths") h (by decide +kernel)
  have hne : objAt d (s% "paths") ≠ [] := by
    intro h0; rw [h0] at hk; cases hk
  obtain ⟨y, hy, hy', _⟩ := h3 hne
  have hex : ∃ p ∈ entries (kid o (s% "paths")), Str.startsWith p.1 (s% "x-") = true := by
    obtain ⟨kv, hkv, rfl⟩ := List.mem_map.1 hk
    obtain ⟨p, hp, he, _⟩ := forall₂_mem_left h1 hkv
    exact ⟨p, hp, he ▸ hx⟩
  rw [hy'] at hex
  obtain ⟨r1, e1, _, _⟩ := putInfo_built h [(s% "openapi", .str (s% "3.0.0"))] rfl
  unfold toOpenapi
  simp only [e1, bind, Except.bind]
  cases serverUrl o with
  | error e => exact ⟨e, rfl⟩
  | ok url =>
    dsimp only
    obtain ⟨e, he⟩ := toPaths_extension (env := env) (root := url) (consumes := strs (kid o (s% "consumes")))
      (produces := strs (kid o (s% "produces"))) _ [] [] hex
    refine ⟨e, ?_⟩
    simp only [putPaths, hy, he, bind, Except.bind]

/-! ## C56 the server -/

theorem strOr_at {d : Dict Json} {k s : Str} (h : StringAt d k s) : strOr (look d k) = .ok s := by
  rcases h with h | ⟨h, rfl⟩ <;> rw [h] <;> rfl

theorem unparse_server {sch host basePath : Str} (h : sch ∈ schemes2)
    (hb : basePath ≠ []) : Url.unparse ⟨sch, host, basePath, [], [], []⟩ =
      sch ++ s% "://" ++ host ++ (if Str.startsWith basePath ['/'] then [] else ['/']) ++ basePath := by
  have hs : ∀ sch ∈ schemes2, sch ≠ [] ∧ Url.usesNetloc.contains sch = true := by decide
  obtain ⟨h1, h2⟩ := hs sch h
  unfold Url.unparse
  simp only [if_pos (Or.inr (Or.inl ⟨h1, h2⟩) : host ≠ [] ∨ (sch ≠ [] ∧ Url.usesNetloc.contains sch = true) ∨
    (s% "//").isPrefixOf basePath = true), if_pos h1, Url.withMark, if_true, List.append_nil]
  cases basePath with
  | nil => exact absurd rfl hb
  | cons c r =>
    by_cases hc : c = '/'
    · subst hc
      simp [Str.startsWith]
    · have : Str.startsWith (c :: r) ['/'] = false := by
        simp [Str.startsWith, List.isPrefixOf, Ne.symm hc]
      rw [this, if_pos ⟨by simp, by simp [hc]⟩]
      simp

/-- The url of the server of a document. -/
theorem serverUrl_spec {d : Dict Json} {o : Obj} (h : Built (.cls (s% "v2_0.Swagger")) (.obj d) o) {host basePath url : Str}
    (hh : StringAt d (s% "host") host) (hb : StringAt d (s% "basePath") basePath)
    (hs : ∀ s ∈ strsAt d (s% "schemes"), s ∈ schemes2) (hu : serverUrl o = .ok url) :
    ServerUrl host basePath (strsAt d (s% "schemes")) url := by
  have hk : plainFields (s% "v2_0.Swagger") [s% "host", s% "basePath"] = true := by decide +kernel
  unfold serverUrl at hu
  rw [built_fld h (plainFields_cls hk), built_fld h (plainFields_cls hk), plainFields_val hk (by simp),
    plainFields_val hk (by simp)] at hu
  simp only [strOr_at hh, strOr_at hb, bind, Except.bind, Except.ok.injEq] at hu
  rw [(strs_strsAt h (k := s% "schemes") (by decide +kernel)).1] at hu
  have hsch : ((strsAt d (s% "schemes")).head?).getD (s% "https") ∈ schemes2 := by
    cases hl : strsAt d (s% "schemes") with
    | nil => decide
    | cons a l => exact hs a (by rw [hl]; simp)
  unfold ServerUrl
  generalize ((strsAt d (s% "schemes")).head?).getD (s% "https") = sch at hu hsch ⊢
  subst hu
  refine ⟨fun hb => ?_, fun hb hne => ?_, fun hb hn => ?_⟩
  · rw [if_neg hb]
    rw [unparse_server hsch hb, if_neg (by simp)]
  · rw [if_pos hb, if_neg hne]
  · rw [if_pos hb, if_pos hn]

/-- C56: the converted document has one server; its url is made of the first of the `schemes` (`https` without
`schemes`), the `host` and the `basePath`. -/
theorem C56_server {refs : Refs} {env : Env} (he : EnvOk refs env) (d : Dict Json) (o : Obj)
    (h : Built (.cls (s% "v2_0.Swagger")) (.obj d) o) (hres : DocResolves refs d) (hv : NamedValid d)
    (r : Dict Json) (rl : Routes) (hr : toOpenapi env o = .ok (r, rl)) (host basePath : Str)
    (hh : StringAt d (s% "host") host) (hb : StringAt d (s% "basePath") basePath)
    (hs : ∀ s ∈ strsAt d (s% "schemes"), s ∈ schemes2) :
    ∃ url, Dict.get? r (s% "servers") = some (.arr [.obj [(s% "url", .str url)]]) ∧
      ServerUrl host basePath (strsAt d (s% "schemes")) url := by
  obtain ⟨_, _, url, _, _, hu, hser, _⟩ := toOpenapi_built he h hres hv hr
  refine ⟨url, hser, ?_⟩
  exact serverUrl_spec h hh hb hs hu

/-! ## C53: when a document is converted -/

theorem toNamedParameters_total {env : Env} : ∀ (os : List (Str × Obj)) (ps bs : Dict Json) (rl : Routes),
    (∀ p ∈ os, ∃ r, parameters env [] [p.2] [] none = .ok r) → ∃ r, toNamedParameters env os ps bs rl = .ok r
  | [], ps, bs, rl, _ => ⟨_, rfl⟩
  | (k, o) :: os, ps, bs, rl, h => by
    obtain ⟨r, hr⟩ := h (k, o) (by simp)
    rw [toNamedParameters]
    simp only [parameters, bind, Except.bind] at hr ⊢
    cases hc : paramCtx env o with
    | error e => rw [hc] at hr; cases hr
    | ok ctx =>
      rw [hc] at hr
      dsimp only at hr ⊢
      cases hib : ctx.isBody with
      | true =>
        rw [hib, if_pos rfl] at hr
        rw [if_pos rfl]
        cases hb : toRequestBody env o none ctx [] with
        | error e => rw [hb] at hr; cases hr
        | ok b => exact toNamedParameters_total os _ _ _ (fun p hp => h p (by simp [hp]))
      | false =>
        rw [hib, if_neg (by simp)] at hr
        rw [if_neg (by simp)]
        cases hb : plainParameter o with
        | error e => rw [hb] at hr; cases hr
        | ok b => exact toNamedParameters_total os _ _ _ (fun p hp => h p (by simp [hp]))

theorem toPaths_total {env : Env} {root : Str} {consumes produces : List Str} :
    ∀ (os : List (Str × Obj)) (ret : Dict Json) (rl : Routes),
    (∀ p ∈ os, Str.startsWith p.1 (s% "x-") = false ∧ ∃ r, toPathItem env p.2 root consumes produces = .ok r) →
    ∃ r, toPaths env root consumes produces os ret rl = .ok r
  | [], ret, rl, _ => ⟨_, rfl⟩
  | (k, o) :: os, ret, rl, h => by
    obtain ⟨hx, r, hr⟩ := h (k, o) (by simp)
    rw [toPaths, if_neg (by rw [hx]; simp)]
    simp only [hr, bind, Except.bind]
    exact toPaths_total os _ _ (fun p hp => h p (by simp [hp]))

/-- C53: a document is converted when its `host` and `basePath` are strings, it has no (non-empty) `security`, no path
is an extension, every path item and every named parameter is converted, no header of a named response has a
`collectionFormat` that cannot be said, and every OAuth 2 scheme has a flow. -/
theorem C53_converted {refs : Refs} {env : Env} (he : EnvOk refs env) (d : Dict Json) (o : Obj)
    (h : Built (.cls (s% "v2_0.Swagger")) (.obj d) o) (host basePath : Str)
    (hh : StringAt d (s% "host") host) (hb : StringAt d (s% "basePath") basePath)
    (hsec : listAt d (s% "security") = [])
    (hpaths : ∀ k e, (k, .obj e) ∈ objAt d (s% "paths") → Str.startsWith k (s% "x-") = false ∧
      ∀ po root, serverUrl o = .ok root → Built (.cls (s% "v2_0.PathItem")) (.obj e) po →
        ∃ r, toPathItem env po root (strsAt d (s% "consumes")) (strsAt d (s% "produces")) = .ok r)
    (hparams : ∀ k e, (k, .obj e) ∈ objAt d (s% "parameters") → ∀ po, Built (.cls (s% "v2_0.Parameter")) (.obj e) po →
      ∃ r, parameters env [] [po] [] none = .ok r)
    (hresp : ∀ k e, (k, .obj e) ∈ objAt d (s% "responses") → HeadersOk ⟨e, none⟩)
    (hflow : ∀ k e, (k, .obj e) ∈ objAt d (s% "securityDefinitions") → HasFlow e) :
    ∃ r rl, toOpenapi env o = .ok (r, rl) := by
  obtain ⟨r1, e1, _, st1⟩ := putInfo_built h [(s% "openapi", .str (s% "3.0.0"))] rfl
  have hk : plainFields (s% "v2_0.Swagger") [s% "host", s% "basePath"] = true := by decide +kernel
  have hurl : ∃ url, serverUrl o = .ok url := by
    unfold serverUrl
    rw [built_fld h (plainFields_cls hk), built_fld h (plainFields_cls hk), plainFields_val hk (by simp),
      plainFields_val hk (by simp)]
    simp only [strOr_at hh, strOr_at hb, bind, Except.bind]
    exact ⟨_, rfl⟩
  obtain ⟨url, hurl⟩ := hurl
  have hp : ∀ c, ∃ c', putPaths env o url c = .ok c' := by
    intro c
    obtain ⟨h1, h2, h3, _⟩ := kid_objAt (b := .cls (s% "v2_0.PathItem")) (k := s% "paths") h (by decide +kernel)
    unfold putPaths
    by_cases hn : objAt d (s% "paths") = []
    · rw [h2 hn]; exact ⟨_, rfl⟩
    · obtain ⟨y, e1, e2, _⟩ := h3 hn
      rw [e2] at h1
      rw [e1, (strs_strsAt h (k := s% "consumes") (by decide +kernel)).1, (strs_strsAt h (k := s% "produces") (by decide +kernel)).1]
      obtain ⟨r, hr⟩ := toPaths_total (env := env) (root := url) (consumes := strsAt d (s% "consumes"))
        (produces := strsAt d (s% "produces")) (entries (some y)) [] [] (fun p hp => by
          obtain ⟨x, hx, hxp, hb⟩ := forall₂_mem h1 hp
          obtain ⟨k, j⟩ := x
          obtain ⟨e, he⟩ := built_obj hb
          dsimp only at he hxp
          subst he
          obtain ⟨q1, q2⟩ := hpaths _ _ hx
          rw [← hxp]
          exact ⟨q1, q2 _ _ hurl hb⟩)
      dsimp only
      simp only [hr, bind, Except.bind]
      exact ⟨_, rfl⟩
  have hq : ∀ c, ∃ c', putParameters env o c = .ok c' := by
    intro c
    obtain ⟨h1, h2, h3, _⟩ := kid_objAt (b := .cls (s% "v2_0.Parameter")) (k := s% "parameters") h (by decide +kernel)
    unfold putParameters
    by_cases hn : objAt d (s% "parameters") = []
    · rw [h2 hn]; exact ⟨_, rfl⟩
    · obtain ⟨y, e1, e2, _⟩ := h3 hn
      rw [e2] at h1
      rw [e1]
      obtain ⟨r, hr⟩ := toNamedParameters_total (env := env) (entries (some y)) [] [] [] (fun p hp => by
          obtain ⟨x, hx, hxp, hb⟩ := forall₂_mem h1 hp
          obtain ⟨k, j⟩ := x
          obtain ⟨e, he⟩ := built_obj hb
          dsimp only at he hxp
          subst he
          exact hparams _ _ hx _ hb)
      dsimp only
      simp only [hr, bind, Except.bind]
      exact ⟨_, rfl⟩
  have hr : ∀ c, ∃ c', putResponses env o c = .ok c' := by
    intro c
    obtain ⟨h1, h2, h3, _⟩ := kid_objAt (b := .cls (s% "v2_0.Response")) (k := s% "responses") h (by decide +kernel)
    unfold putResponses
    by_cases hn : objAt d (s% "responses") = []
    · rw [h2 hn]; exact ⟨_, rfl⟩
    · obtain ⟨y, e1, e2, _⟩ := h3 hn
      rw [e2] at h1
      rw [e1]
      dsimp only
      rw [toResponses_eq]
      obtain ⟨r, hr⟩ := setAll_total (f := fun o' => toResponse env o' (strs (kid o (s% "produces")))) (es := entries (some y))
        (fun p hp => by
          obtain ⟨x, hx, hxp, hb⟩ := forall₂_mem h1 hp
          obtain ⟨k, j⟩ := x
          obtain ⟨e, he'⟩ := built_obj hb
          dsimp only at he' hxp
          subst he'
          rcases C57_response env p.2 ⟨e, none⟩ (strs (kid o (s% "produces"))) (.inl ⟨rfl, hb, he.resp _ _ hb⟩) with
            ⟨r, hr, _⟩ | ⟨_, k2, d2, hk2, hb2⟩
          · exact ⟨r, hr⟩
          · exact absurd hb2 (hresp _ _ hx k2 d2 hk2)) []
      simp only [hr, bind, Except.bind]
      exact ⟨_, rfl⟩
  have hs : ∀ c, ∃ c', putSecurity o c = .ok c' := by
    intro c
    obtain ⟨h1, h2, h3, _⟩ := kid_objAt (b := .cls (s% "v2_0.SecurityScheme")) (k := s% "securityDefinitions") h (by decide +kernel)
    unfold putSecurity
    by_cases hn : objAt d (s% "securityDefinitions") = []
    · rw [h2 hn]; exact ⟨_, rfl⟩
    · obtain ⟨y, e1, e2, _⟩ := h3 hn
      rw [e2] at h1
      rw [e1]
      dsimp only
      rw [toSecuritySchemes_eq]
      obtain ⟨r, hr⟩ := setAll_total (f := toSecurityScheme) (es := entries (some y))
        (fun p hp => by
          obtain ⟨x, hx, hxp, hb⟩ := forall₂_mem h1 hp
          obtain ⟨k, j⟩ := x
          obtain ⟨e, he⟩ := built_obj hb
          dsimp only at he hxp
          subst he
          obtain ⟨r, hr, _⟩ := (toSecurityScheme_built hb).1 (hflow _ _ hx)
          exact ⟨r, hr⟩) []
      simp only [hr, bind, Except.bind]
      exact ⟨_, rfl⟩
  have hsecn : ¬ (kidT o (s% "security")).isSome = true := by
    rw [(kid_listAt h (b := .listOf .isStr) (k := s% "security") (by decide +kernel)).2.1 hsec]; simp
  have hsch : ∀ rl, ∃ c, putSchemas o ([], rl) = .ok c := fun rl => by
    obtain ⟨r, hr, _⟩ := putSchemas_built h ([], rl) rfl
    exact ⟨_, hr⟩
  unfold toOpenapi
  simp only [e1, hurl, bind, Except.bind]
  have hpf := hp (Dict.set r1 (s% "servers") (.arr [.obj [(s% "url", .str url)]]), [])
  obtain ⟨⟨c1, rl1⟩, hc1⟩ := hpf
  simp only [hc1, if_neg hsecn]
  have htag : ∃ r, putTags o c1 = .ok r := by
    obtain ⟨h1, h2, h3⟩ := kid_listAt (b := .cls (s% "v2_0.Tag")) (k := s% "tags") h (by decide +kernel)
    unfold putTags
    by_cases hn : listAt d (s% "tags") = []
    · rw [h2 hn]; exact ⟨_, rfl⟩
    · obtain ⟨y, e1, e2, _⟩ := h3 hn
      rw [e2] at h1
      obtain ⟨l, hl, _⟩ := toTags_built h1
      simp only [e1, hl, bind, Except.bind]
      exact ⟨_, rfl⟩
  obtain ⟨c2, hc2⟩ := htag
  have hext : ∃ r, putExternalDocs o c2 = .ok r := by
    obtain ⟨r, hr, _⟩ := putExternalDocs_built h (by decide +kernel) [] rfl
    unfold putExternalDocs at hr ⊢
    cases hx : kidT o (s% "externalDocs") with
    | none => exact ⟨_, rfl⟩
    | some y =>
      rw [hx] at hr
      simp only [bind, Except.bind] at hr ⊢
      cases hy : toExternalDocs y with
      | error _ => rw [hy] at hr; cases hr
      | ok j => exact ⟨_, rfl⟩
  obtain ⟨c3, hc3⟩ := hext
  obtain ⟨⟨c4, rl4⟩, hc4⟩ := hsch rl1
  obtain ⟨⟨c5, rl5⟩, hc5⟩ := hq (c4, rl4)
  obtain ⟨⟨c6, rl6⟩, hc6⟩ := hr (c5, rl5)
  obtain ⟨⟨c7, rl7⟩, hc7⟩ := hs (c6, rl6)
  simp only [hc2, hc3, hc4, hc5, hc6, hc7]
  exact ⟨_, _, rfl⟩

/-! ## C58 documents with `security` -/

/-- C58 is false: no document whose `security` is a list with an object in front, as the specification has it
(`security: [{api_key: []}]`), can be loaded. -/
theorem C58_violation (d e : Dict Json) (l : List Json) (h : Dict.get? d (s% "security") = some (.arr (.obj e :: l)))
    (path : Option Str) : ¬ ∃ o, build pkg (.cls (s% "v2_0.Swagger")) (.obj d) path [] = .ok o := by
  rw [C21_build_iff_shaped]
  intro hs
  have hc : ∃ cd, (s% "security", cd) ∈ (pkg (s% "v2_0.Swagger")).children ∧ cd.builder = .listOf (.listOf .isStr) := by
    exact ⟨_, Dict.mem_of_get? (d := (pkg (s% "v2_0.Swagger")).children) (k := s% "security") rfl, rfl⟩
  obtain ⟨cd, hm, hb⟩ := hc
  cases hs with
  | clsObj _ h2 =>
    have := h2 _ cd _ hm h (by simp)
    rw [hb] at this
    cases this with
    | list h3 =>
      have := h3 (.obj e) (by simp)
      cases this
  | clsLeaf h0 => rw [h0] at hm; cases hm
  | clsOther h0 => exact h0 d rfl

/-- C58, the part that holds: an empty `security` is no obstacle. -/
theorem C58_empty_partial (d d' : Dict Json) (h : Dict.get? d (s% "security") = some (.arr []))
    (h' : Dict.get? d' (s% "security") = none) (hsame : ∀ k, k ≠ s% "security" → Dict.get? d k = Dict.get? d' k)
    (path : Option Str) : (∃ o, build pkg (.cls (s% "v2_0.Swagger")) (.obj d) path [] = .ok o) ↔
      ∃ o, build pkg (.cls (s% "v2_0.Swagger")) (.obj d') path [] = .ok o := by
  rw [C21_build_iff_shaped, C21_build_iff_shaped]
  have hcd : ∀ cd, (s% "security", cd) ∈ (pkg (s% "v2_0.Swagger")).children →
      cd.builder = .listOf (.listOf .isStr) ∧ cd.required = false := by
    intro cd hcd
    have : Dict.get? (pkg (s% "v2_0.Swagger")).children (s% "security") = some cd :=
      Dict.get?_of_mem (by decide +kernel) hcd
    cases this
    exact ⟨rfl, rfl⟩
  constructor
  · intro hs
    cases hs with
    | clsObj h1 h2 =>
      refine .clsObj (fun k cd hm hreq => ?_) (fun k cd v hm hv hn => ?_)
      · by_cases hk : k = s% "security"
        · subst hk
          rw [(hcd cd hm).2] at hreq; cases hreq
        · rw [← hsame k hk]; exact h1 k cd hm hreq
      · by_cases hk : k = s% "security"
        · subst hk
          rw [h'] at hv; cases hv
        · rw [← hsame k hk] at hv; exact h2 k cd v hm hv hn
    | clsLeaf h0 => cases h0
    | clsOther h0 => exact absurd rfl (h0 d)
  · intro hs
    cases hs with
    | clsObj h1 h2 =>
      refine .clsObj (fun k cd hm hreq => ?_) (fun k cd v hm hv hn => ?_)
      · by_cases hk : k = s% "security"
        · subst hk
          rw [(hcd cd hm).2] at hreq; cases hreq
        · rw [hsame k hk]; exact h1 k cd hm hreq
      · by_cases hk : k = s% "security"
        · subst hk
          rw [h] at hv; cases hv
          rw [(hcd cd hm).1]
          exact .list (fun x hx => by cases hx)
        · rw [hsame k hk] at hv; exact h2 k cd v hm hv hn
    | clsLeaf h0 => cases h0
    | clsOther h0 => exact absurd rfl (h0 d')

/-! ## C72 security schemes -/

/-- C72, the part that holds: an `apiKey`, and an OAuth 2 scheme of the flows `implicit` and `password` with scopes,
are converted to what OpenAPI 3 has for them. -/
theorem C72_scheme_partial (d : Dict Json) (o : Obj) (h : Built (.cls (s% "v2_0.SecurityScheme")) (.obj d) o)
    (ht : look d (s% "type") = .str (s% "apiKey") ∨ (look d (s% "type") = .str (s% "oauth2") ∧
      (look d (s% "flow") = .str (s% "implicit") ∨ look d (s% "flow") = .str (s% "password")) ∧
      objAt d (s% "scopes") ≠ [])) :
    ∃ r, toSecurityScheme o = .ok r ∧ SchemeTo d r := by
  have hf : HasFlow d := by
    rcases ht with ht | ⟨_, hf | hf, _⟩
    · intro h2; rw [ht] at h2; cases h2
    · exact fun _ => ⟨_, hf, by decide⟩
    · exact fun _ => ⟨_, hf, by decide⟩
  obtain ⟨r, h1, ⟨e, rfl, k1, k2, k3, k4, k5, k6⟩, _⟩ := (toSecurityScheme_built h).1 hf
  refine ⟨_, h1, e, rfl, k2 _ (by simp), fun h0 => ?_, fun h0 => ⟨k1.trans (by rw [h0]), fun k hk => k2 _ (by revert hk; revert k; decide)⟩, fun h0 => ?_⟩
  · rcases ht with ht | ⟨ht, _⟩ <;> rw [ht] at h0 <;> cases h0
  · refine ⟨k1.trans (by rw [h0]), fun f hfl => ?_⟩
    rcases ht with ht | ⟨ht, hfl', hsc⟩
    · rw [ht] at h0; cases h0
    · obtain ⟨f', x, g1, g2, g3, g4, g5, g6⟩ := k5 h0
      rw [hfl] at g1 hfl'
      cases g1
      have hn : flowName f = f := by
        rcases hfl' with h | h <;> cases h <;> rfl
      rw [hn]
      rw [if_neg hsc] at g5
      exact ⟨_, g3, x, rfl, g4, g5, g6⟩

/-- C72 is false for `basic`: the type stays `basic`, which OpenAPI 3 does not have. -/
theorem C72_basic_violation (d : Dict Json) (o : Obj) (h : Built (.cls (s% "v2_0.SecurityScheme")) (.obj d) o)
    (ht : look d (s% "type") = .str (s% "basic")) :
    ∃ r, toSecurityScheme o = .ok r ∧ ¬ SchemeTo d r := by
  obtain ⟨r, h1, ⟨e, rfl, k1, _⟩, _⟩ := (toSecurityScheme_built h).1 (fun h2 => by rw [ht] at h2; cases h2)
  refine ⟨_, h1, ?_⟩
  rintro ⟨e', he, _, hb, _⟩
  cases he
  have := (hb ht).1
  rw [k1, ht] at this
  exact absurd this (by decide)

/-- C72 is false for the flows `application` and `accessCode`: their names are kept, and OpenAPI 3 has other ones. -/
theorem C72_flow_violation (d : Dict Json) (o : Obj) (h : Built (.cls (s% "v2_0.SecurityScheme")) (.obj d) o)
    (ht : look d (s% "type") = .str (s% "oauth2"))
    (hf : look d (s% "flow") = .str (s% "application") ∨ look d (s% "flow") = .str (s% "accessCode")) :
    ∃ r, toSecurityScheme o = .ok r ∧ ¬ SchemeTo d r := by
  obtain ⟨r, h1, ⟨e, rfl, _, _, _, _, k5, _⟩, _⟩ := (toSecurityScheme_built h).1 (fun _ => by
    rcases hf with hf | hf <;> exact ⟨_, hf, by decide⟩)
  refine ⟨_, h1, ?_⟩
  rintro ⟨e', he, _, _, _, ho⟩
  cases he
  obtain ⟨f, x, g1, _, g3, _⟩ := k5 ht
  obtain ⟨y, hy, _⟩ := (ho ht).2 f g1
  rw [g3] at hy
  simp only [Option.some.injEq, Json.obj.injEq, List.cons.injEq, Prod.mk.injEq, and_true] at hy
  rcases hf with hf | hf <;> rw [hf] at g1 <;> cases g1 <;> exact absurd hy.1 (by decide)

/-- C72 is false without scopes: the flow then has no `scopes`, which OpenAPI 3 requires. -/
theorem C72_scopes_violation (d : Dict Json) (o : Obj) (h : Built (.cls (s% "v2_0.SecurityScheme")) (.obj d) o)
    (ht : look d (s% "type") = .str (s% "oauth2")) (f : Str) (hf : look d (s% "flow") = .str f) (hne : f ≠ [])
    (hs : objAt d (s% "scopes") = []) : ∃ r, toSecurityScheme o = .ok r ∧ ¬ SchemeTo d r := by
  obtain ⟨r, h1, ⟨e, rfl, _, _, _, _, k5, _⟩, _⟩ := (toSecurityScheme_built h).1 (fun _ => ⟨f, hf, hne⟩)
  refine ⟨_, h1, ?_⟩
  rintro ⟨e', he, _, _, _, ho⟩
  cases he
  obtain ⟨f', x, g1, _, g3, _, g5, _⟩ := k5 ht
  obtain ⟨y, hy, z, rfl, _, hz, _⟩ := (ho ht).2 f hf
  rw [g3] at hy
  simp only [Option.some.injEq, Json.obj.injEq, List.cons.injEq, Prod.mk.injEq, and_true] at hy
  cases hy.2
  rw [if_pos hs, hz] at g5
  cases g5

/-- C72: an OAuth 2 scheme without a flow is refused. -/
theorem C72_no_flow (d : Dict Json) (o : Obj) (h : Built (.cls (s% "v2_0.SecurityScheme")) (.obj d) o)
    (ht : look d (s% "type") = .str (s% "oauth2")) (hf : look d (s% "flow") = .null) :
    toSecurityScheme o = .error .schemaError :=
  (toSecurityScheme_built h).2.1 ht (by rw [hf]; rfl)

/-! ## C73 the servers of an operation -/

theorem visible_safe {c : Char} (h : 32 < c.toNat) : Url.unsafeChar c = false := by
  rw [Url.unsafeChar, Bool.or_eq_false_iff, Bool.or_eq_false_iff]
  refine ⟨⟨?_, ?_⟩, ?_⟩ <;> rw [beq_eq_false_iff_ne] <;> rintro rfl <;> exact absurd h (by decide)

/-- The url of a server, taken apart and put together with another scheme. -/
theorem withScheme_server (env : Env) {s sch host b : Str} (hs : s ∈ schemes2) (hsch : sch ∈ schemes2)
    (hh : HostText host) (hb : BaseText b) (hok : env.ok host = true) :
    env.withScheme s (sch ++ s% "://" ++ host ++ b) = .ok (s ++ s% "://" ++ host ++ b) := by
  have hbn : b ≠ [] := by rintro rfl; exact absurd hb.1 (by simp)
  have hbs : Str.startsWith b ['/'] = true := by
    cases b with
    | nil => exact absurd rfl hbn
    | cons c r =>
      have := hb.1
      simp only [List.head?_cons, Option.some.injEq] at this
      subst this; simp [Str.startsWith, List.isPrefixOf]
  have hun : ∀ x ∈ schemes2, Url.unparse ⟨x, host, b, [], [], []⟩ = x ++ s% "://" ++ host ++ b := by
    intro x hx
    rw [unparse_server hx hbn, if_pos hbs, List.append_nil]
  have hfront : Url.Front ⟨sch, host, b, [], [], []⟩ := by
    refine ⟨.inr ?_, fun c hc => ?_, fun c hc => ?_⟩
    · have : ∀ sch ∈ schemes2, ∃ c r, sch = c :: r ∧ c.isAlpha = true ∧ (c :: r).all Url.schemeChar = true ∧
          (c :: r).map Char.toLower = c :: r := by
        intro x hx
        simp only [schemes2, List.mem_cons, List.not_mem_nil, or_false] at hx
        rcases hx with rfl | rfl | rfl | rfl <;> exact ⟨_, _, rfl, by decide, by decide, by decide⟩
      exact this sch hsch
    · obtain ⟨_, h1, h2, h3⟩ := hh c hc
      simp [Url.endsNetloc, h1, h2, h3]
    · simp only [List.not_mem_nil, or_false] at hc
      rcases hc with hc | hc
      · exact visible_safe (hh c hc).1
      · exact visible_safe (hb.2 c hc).1
  obtain ⟨r, h1, h2⟩ := Url.parse_front hfront (.inr hb.1)
  have ht : Url.tail ⟨sch, host, b, [], [], []⟩ = b := by
    simp [Url.tail, Url.withMark]
  rw [hun sch hsch] at h1
  rw [ht] at h2
  have hnq : '?' ∉ b := fun hm => (hb.2 _ hm).2.1 rfl
  have hnf : '#' ∉ b := fun hm => (hb.2 _ hm).2.2 rfl
  unfold Env.withScheme urlSplit
  simp only [h1, h2, hok, Str.cut_of_not_mem hnf, Str.cut_of_not_mem hnq, bind, Except.bind, Bool.not_true,
    Bool.false_eq_true, if_false, Option.getD_none]
  rw [hun s hs]

theorem toServers_all {env : Env} {root : Str} {f : Str → Str} : ∀ {ss : List Str},
    (∀ s ∈ ss, env.withScheme s root = .ok (f s)) →
    toServers env root ss = .ok ((ss.map f).map (fun u => .obj [(s% "url", .str u)]))
  | [], _ => rfl
  | s :: ss, h => by
    rw [toServers, h s (by simp), toServers_all (fun x hx => h x (by simp [hx]))]
    rfl

/-- C73, the part that holds: the server of the document is `scheme://host/base`; then an operation with `schemes` has
one server for each of them, with the same host and base path. -/
theorem C73_servers_partial {refs : Refs} {env : Env} (he : EnvOk refs env) (d : Dict Json) (o : Obj)
    (h : Built (.cls (s% "v2_0.Operation")) (.obj d) o) (hres : OpResolves refs d) (host b root : Str) (l : List Str)
    (hroot : ServerUrl host b l root) (hl : ∀ s ∈ l, s ∈ schemes2) (hh : HostText host) (hb : BaseText b)
    (hok : env.ok host = true) (hs : ∀ s ∈ strsAt d (s% "schemes"), s ∈ schemes2)
    (hne : listAt d (s% "schemes") ≠ [])
    (produces consumes : List Str) (body body' : Option (Dict Json)) (r : Dict Json)
    (hr : toOperation env o body root produces consumes = .ok (r, body')) :
    Dict.get? r (s% "servers") =
      some (serversWith ((strsAt d (s% "schemes")).map (fun s => s ++ s% "://" ++ host ++ b))) := by
  obtain ⟨_, _, _, h4⟩ := toOperation_built he h hres hr
  obtain ⟨ls, h5, h6⟩ := h4 hne
  have hbn : b ≠ [] := by rintro rfl; exact absurd hb.1 (by simp)
  have hbs : Str.startsWith b ['/'] = true := by
    cases b with
    | nil => exact absurd rfl hbn
    | cons c r =>
      have := hb.1
      simp only [List.head?_cons, Option.some.injEq] at this
      subst this; simp [Str.startsWith, List.isPrefixOf]
  have hsch : l.head?.getD (s% "https") ∈ schemes2 := by
    cases l with
    | nil => decide
    | cons a l => exact hl a (by simp)
  have e := hroot.1 hbn
  rw [if_pos hbs, List.append_nil] at e
  rw [e, toServers_all (f := fun s => s ++ s% "://" ++ host ++ b)
    (fun s hx => withScheme_server env (hs s hx) hsch hh hb hok)] at h5
  cases h5
  exact h6

/-- C73 is false without a base path: the url of the document is then the host alone, which is read as a path. -/
theorem C73_host_violation {refs : Refs} {env : Env} (he : EnvOk refs env) (d : Dict Json) (o : Obj)
    (h : Built (.cls (s% "v2_0.Operation")) (.obj d) o) (hres : OpResolves refs d) (host root : Str) (l : List Str)
    (hroot : ServerUrl host [] l root) (hh : HostText host) (hc : ':' ∉ host) (hn : host ≠ [])
    (hok : env.ok [] = true) (hs : ∀ s ∈ strsAt d (s% "schemes"), s ∈ schemes2)
    (hne : listAt d (s% "schemes") ≠ [])
    (produces consumes : List Str) (body body' : Option (Dict Json)) (r : Dict Json)
    (hr : toOperation env o body root produces consumes = .ok (r, body')) :
    Dict.get? r (s% "servers") =
      some (serversWith ((strsAt d (s% "schemes")).map (fun s => s ++ s% ":///" ++ host))) := by
  obtain ⟨_, _, _, h4⟩ := toOperation_built he h hres hr
  obtain ⟨ls, h5, h6⟩ := h4 hne
  have e := hroot.2.1 rfl hn
  subst e
  have hw : ∀ s ∈ schemes2, env.withScheme s root = .ok (s ++ s% ":///" ++ root) := by
    intro s hs
    have h1 : Url.clean root = root := by
      refine Url.clean_id (fun c hc => visible_safe (hh c hc).1) (fun c r he => ?_)
      have := (hh c (by rw [he]; simp)).1
      omega
    have h2 : Url.schemeSplit root = ([], root) := by
      unfold Url.schemeSplit
      rw [Str.cut_of_not_mem hc]
      cases root <;> rfl
    have h3 : Url.netlocSplit root = ([], root) := by
      unfold Url.netlocSplit
      split
      · exact absurd rfl (hh '/' (by simp)).2.1
      · rfl
    have hnq : '?' ∉ root := fun hm => (hh _ hm).2.2.1 rfl
    have hnf : '#' ∉ root := fun hm => (hh _ hm).2.2.2 rfl
    have hst : Str.startsWith root ['/'] = false := by
      cases root with
      | nil => rfl
      | cons c r =>
        have := (hh c (by simp)).2.1
        simp [Str.startsWith, List.isPrefixOf, Ne.symm this]
    unfold Env.withScheme urlSplit
    simp only [h1, h2, h3, hok, Str.cut_of_not_mem hnf, Str.cut_of_not_mem hnq, bind, Except.bind, Bool.not_true,
      Bool.false_eq_true, if_false, Option.getD_none]
    rw [unparse_server hs hn, hst]
    simp
  rw [toServers_all (f := fun s => s ++ s% ":///" ++ root) (fun s hx => hw s (hs s hx))] at h5
  cases h5
  exact h6

/-! ## a document -/

/-- A document with something of everything. -/
def wholeDoc : Dict Json := [
  (s% "swagger", .str (s% "2.0")),
  (s% "info", .obj [(s% "title", .str (s% "t")), (s% "version", .str (s% "1")), (s% "license", .obj [(s% "name", .str (s% "MIT"))])]),
  (s% "host", .str (s% "h.com")), (s% "basePath", .str (s% "/v1")), (s% "schemes", .arr [.str (s% "http")]),
  (s% "tags", .arr [.obj [(s% "name", .str (s% "a"))]]),
  (s% "paths", .obj [(s% "/p", .obj sampleItem)]),
  (s% "definitions", .obj [(s% "Pet", .obj [(s% "type", .str (s% "object")), (s% "properties", .obj
    [(s% "id", .obj [(s% "type", .str (s% "integer"))])])])]),
  (s% "parameters", .obj [
    (s% "k", .obj [(s% "name", .str (s% "a")), (s% "in", .str (s% "formData")), (s% "type", .str (s% "string"))]),
    (s% "kk", .obj [(s% "name", .str (s% "q")), (s% "in", .str (s% "query")), (s% "type", .str (s% "string"))]),
    (s% "a/b", .obj [(s% "name", .str (s% "b")), (s% "in", .str (s% "formData")), (s% "type", .str (s% "string"))])]),
  (s% "responses", .obj [(s% "R", .obj [(s% "description", .str (s% "ok")), (s% "schema", .obj [(s% "type", .str (s% "string"))])])]),
  (s% "securityDefinitions", .obj [(s% "b", .obj [(s% "type", .str (s% "basic"))])])]

theorem wholeDoc_built : ∃ o, Built (.cls (s% "v2_0.Swagger")) (.obj wholeDoc) o := by
  obtain ⟨o, _, h⟩ := built_exists (regularB_sound 12 (.cls (s% "v2_0.Swagger")) (.obj wholeDoc) (by decide +kernel))
    (by decide +kernel) none
  exact ⟨o, h⟩

theorem wholeDoc_resolves : DocResolves noRefs wholeDoc := by
  intro k e hk
  have : (k, Json.obj e) ∈ [(s% "/p", Json.obj sampleItem)] := hk
  simp only [List.mem_singleton, Prod.mk.injEq, Json.obj.injEq] at this
  obtain ⟨_, rfl⟩ := this
  exact sampleItem_resolves

/-- The named parameters of `wholeDoc`: parts of forms and a query parameter. -/
theorem wholeDoc_params {k : Str} {e : Dict Json} (h : (k, .obj e) ∈ objAt wholeDoc (s% "parameters")) :
    (Part.isPlain ⟨e, none⟩ = true ∨ (Part.isPart ⟨e, none⟩ = true ∧ Part.Valid ⟨e, none⟩)) ∧
      Dict.get? e (s% "collectionFormat") = none := by
  have h' : (k, Json.obj e) ∈ [(s% "k", Json.obj (samplePart (s% "a")).doc), (s% "kk", Json.obj
    [(s% "name", .str (s% "q")), (s% "in", .str (s% "query")), (s% "type", .str (s% "string"))]),
    (s% "a/b", Json.obj (samplePart (s% "b")).doc)] := h
  simp only [List.mem_cons, List.not_mem_nil, or_false, Prod.mk.injEq, Json.obj.injEq] at h'
  rcases h' with ⟨_, rfl⟩ | ⟨_, rfl⟩ | ⟨_, rfl⟩
  · exact ⟨.inr (samplePart_valid (s% "a")), rfl⟩
  · exact ⟨.inl rfl, rfl⟩
  · exact ⟨.inr (samplePart_valid (s% "b")), rfl⟩

theorem wholeDoc_valid : NamedValid wholeDoc := by
  intro k e hk
  obtain ⟨h | ⟨h1, h2⟩, _⟩ := wholeDoc_params hk
  · have hp : placeOf e = .plain := by simpa [Part.isPlain] using h
    refine ⟨fun h' => ?_, fun h' => by rw [hp] at h'; cases h'⟩
    simp only [Part.isPart, hp, decide_eq_true_eq] at h'
    exact absurd rfl h'.1
  · refine ⟨fun _ => h2, fun h' => ?_⟩
    simp only [Part.isPart, decide_eq_true_eq] at h1
    exact absurd h' h1.2

/-- `wholeDoc` is converted: the hypotheses of C53 and C56 hold of it. -/
theorem wholeDoc_converts (o : Obj) (h : Built (.cls (s% "v2_0.Swagger")) (.obj wholeDoc) o) :
    ∃ r rl, toOpenapi plainEnv o = .ok (r, rl) := by
  refine C53_converted plainEnv_ok wholeDoc o h (s% "h.com") (s% "/v1") (.inl rfl) (.inl rfl) rfl ?_ ?_ ?_ ?_
  · intro k e hk
    have : (k, Json.obj e) ∈ [(s% "/p", Json.obj sampleItem)] := hk
    simp only [List.mem_singleton, Prod.mk.injEq, Json.obj.injEq] at this
    obtain ⟨rfl, rfl⟩ := this
    exact ⟨by decide, fun po root _ hb => sampleItem_converts po hb root⟩
  · intro k e hk po hb
    obtain ⟨h1, h2⟩ := wholeDoc_params hk
    have hin : ParamsIn plainEnv [po] [⟨e, none⟩] := .cons (.inl ⟨rfl, hb, rfl⟩) .nil
    obtain ⟨ps, body, hr, _⟩ := (C49_forms plainEnv plainEnv_set [] [po] [⟨e, none⟩] hin (fun f hf => by
      rw [List.mem_singleton] at hf; subst hf; exact h1)).2 (by
        rintro (⟨t, ht⟩ | ⟨f, hf, ⟨hb, _⟩, _⟩)
        · refine ht ?_
          have : (((([⟨e, none⟩] : List Part).filter Part.isPart).filter (fun f => decide (t ∈ partTypes [] f.file))).map Part.name).Sublist
            ([⟨e, none⟩].map Part.name) := (List.filter_sublist.trans List.filter_sublist).map _
          exact this.nodup (by simp)
        · rw [List.mem_singleton] at hf
          subst hf
          rcases hb with hb | hb <;> dsimp only at hb <;> rw [h2] at hb <;> cases hb)
    exact ⟨_, hr⟩
  · intro k e hk
    have : (k, Json.obj e) ∈ [(s% "R", Json.obj [(s% "description", .str (s% "ok")), (s% "schema", .obj [(s% "type", .str (s% "string"))])])] := hk
    simp only [List.mem_singleton, Prod.mk.injEq, Json.obj.injEq] at this
    obtain ⟨_, rfl⟩ := this
    intro k d hd
    cases hd
  · intro k e hk
    have : (k, Json.obj e) ∈ [(s% "b", Json.obj [(s% "type", .str (s% "basic"))])] := hk
    simp only [List.mem_singleton, Prod.mk.injEq, Json.obj.injEq] at this
    obtain ⟨_, rfl⟩ := this
    intro h
    cases h

/-- C53 and C56 of `wholeDoc`. -/
example : ∃ o r rl, toOpenapi plainEnv o = .ok (r, rl) ∧ DocTo noRefs wholeDoc r ∧
    Dict.get? r (s% "servers") = some (serversWith [s% "http://h.com/v1"]) := by
  obtain ⟨o, ho⟩ := wholeDoc_built
  obtain ⟨r, rl, hr⟩ := wholeDoc_converts o ho
  obtain ⟨url, h1, h2⟩ := C56_server plainEnv_ok wholeDoc o ho wholeDoc_resolves wholeDoc_valid r rl hr
    (s% "h.com") (s% "/v1") (.inl rfl) (.inl rfl) (by decide +kernel)
  have h3 := h2.1 (by decide)
  refine ⟨o, r, rl, hr, C53_document plainEnv_ok wholeDoc o ho wholeDoc_resolves wholeDoc_valid r rl hr, ?_⟩
  rw [h1, h3]
  rfl

/-- A document that C58 is about. -/
example : ¬ ∃ o, build pkg (.cls (s% "v2_0.Swagger"))
    (.obj (wholeDoc ++ [(s% "security", .arr [.obj [(s% "b", .arr [])]])])) none [] = .ok o :=
  C58_violation _ [(s% "b", .arr [])] [] (by decide +kernel) none

/-- A `basic` scheme (C72). -/
example : ∃ o r, Built (.cls (s% "v2_0.SecurityScheme")) (.obj [(s% "type", .str (s% "basic"))]) o ∧
    toSecurityScheme o = .ok r ∧ ¬ SchemeTo [(s% "type", .str (s% "basic"))] r := by
  obtain ⟨o, _, h⟩ := built_exists (regularB_sound 9 (.cls (s% "v2_0.SecurityScheme")) (.obj [(s% "type", .str (s% "basic"))])
    (by decide +kernel)) (by decide +kernel) none
  obtain ⟨r, h1, h2⟩ := C72_basic_violation _ o h rfl
  exact ⟨o, r, h, h1, h2⟩

/-- An OAuth 2 scheme that is converted well (C72). -/
def goodScheme : Dict Json := [(s% "type", .str (s% "oauth2")), (s% "flow", .str (s% "implicit")),
  (s% "authorizationUrl", .str (s% "http://a")), (s% "scopes", .obj [(s% "w", .str (s% "write"))])]

example : ∃ o r, Built (.cls (s% "v2_0.SecurityScheme")) (.obj goodScheme) o ∧
    toSecurityScheme o = .ok r ∧ SchemeTo goodScheme r := by
  obtain ⟨o, _, h⟩ := built_exists (regularB_sound 9 (.cls (s% "v2_0.SecurityScheme")) (.obj goodScheme)
    (by decide +kernel)) (by decide +kernel) none
  obtain ⟨r, h1, h2⟩ := C72_scheme_partial _ o h (.inr ⟨rfl, .inl rfl, by decide⟩)
  exact ⟨o, r, h, h1, h2⟩

/-- An operation with schemes (C73). -/
def schemedOp : Dict Json := [(s% "schemes", .arr [.str (s% "https"), .str (s% "ws")]),
  (s% "responses", .obj [(s% "200", .obj [(s% "description", .str (s% "ok"))])])]

theorem schemedOp_resolves : OpResolves noRefs schemedOp := by
  refine ⟨fun j hj => (by cases hj), fun kv hkv => ?_⟩
  have : kv ∈ [(s% "200", Json.obj [(s% "description", .str (s% "ok"))])] := hkv
  rw [List.mem_singleton] at this
  subst this
  exact resolves_plain (by decide)

/-- What the operation becomes, computed. -/
theorem schemedOp_converts (root : Str) (hroot : root = s% "http://h.com/v1" ∨ root = s% "h.com") :
    ∃ o r b, Built (.cls (s% "v2_0.Operation")) (.obj schemedOp) o ∧
      toOperation plainEnv o none root [] [] = .ok (r, b) := by
  have hb : ∃ o, buildF pkg 9 (.cls (s% "v2_0.Operation")) (.obj schemedOp) none = .ok o ∧
      ∃ x, toOperation plainEnv o none root [] [] = .ok x := by
    have : (match buildF pkg 9 (.cls (s% "v2_0.Operation")) (.obj schemedOp) none with
      | .ok o => (match toOperation plainEnv o none root [] [] with | .ok _ => true | _ => false)
      | _ => false) = true := by
      rcases hroot with rfl | rfl <;> decide +kernel
    revert this
    cases buildF pkg 9 (.cls (s% "v2_0.Operation")) (.obj schemedOp) none with
    | error e => intro h; cases h
    | ok o =>
      dsimp only
      cases hx : toOperation plainEnv o none root [] [] with
      | error e => intro h; cases h
      | ok x => intro _; exact ⟨o, rfl, x, hx⟩
  obtain ⟨o, h1, ⟨r, b⟩, h2⟩ := hb
  exact ⟨o, r, b, ⟨regularB_sound 9 (.cls (s% "v2_0.Operation")) (.obj schemedOp) (by decide +kernel), by decide +kernel, none,
    buildF_sound _ _ _ _ _ h1⟩, h2⟩

/-- C73 of an operation: right with a base path, wrong without one. -/
example : (∃ o r b, toOperation plainEnv o none (s% "http://h.com/v1") [] [] = .ok (r, b) ∧
      Dict.get? r (s% "servers") = some (serversWith [s% "https://h.com/v1", s% "ws://h.com/v1"])) ∧
    (∃ o r b, toOperation plainEnv o none (s% "h.com") [] [] = .ok (r, b) ∧
      Dict.get? r (s% "servers") = some (serversWith [s% "https:///h.com", s% "ws:///h.com"])) := by
  have hh : HostText (s% "h.com") := by unfold HostText; decide
  constructor
  · obtain ⟨o, r, b, h1, h2⟩ := schemedOp_converts _ (.inl rfl)
    refine ⟨o, r, b, h2, ?_⟩
    exact C73_servers_partial plainEnv_ok schemedOp o h1 schemedOp_resolves (s% "h.com") (s% "/v1") _ [s% "http"]
      ⟨fun _ => rfl, (fun h => by cases h), (fun h => by cases h)⟩ (by decide) hh (by unfold BaseText; decide) rfl (by decide)
      (by decide) [] [] none b r h2
  · obtain ⟨o, r, b, h1, h2⟩ := schemedOp_converts _ (.inr rfl)
    refine ⟨o, r, b, h2, ?_⟩
    exact C73_host_violation plainEnv_ok schemedOp o h1 schemedOp_resolves (s% "h.com") _ []
      ⟨(fun h => absurd rfl h), (fun _ _ => rfl), (fun _ h => by cases h)⟩ hh (by decide) (by decide) rfl (by decide)
      (by decide) [] [] none b r h2

end Pyopenapi
