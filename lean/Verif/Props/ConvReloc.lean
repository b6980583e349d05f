import Verif.Props.ConvSwagger
import Verif.Props.ConvSchema
import Verif.Props.Routes
import Verif.Spec.ConvReloc

/-!
# C54, C55: converted definitions and parameters are where references are relocated to
-/

namespace Pyopenapi
open Spec Obj Conv

/-- The text of a pointer after `#`. -/
def tail' (ts : List Str) : Str := ts.flatMap (fun t => '/' :: escape t)

theorem pointer_cons (t : Str) (ts : List Str) : pointer (t :: ts) = '#' :: '/' :: (escape t ++ tail' ts) := by
  simp [pointer, tail']

theorem tail'_cons (t : Str) (ts : List Str) : tail' (t :: ts) = '/' :: (escape t ++ tail' ts) := by
  simp [tail']

theorem relocated_iff {url : Str} {rl : Routes} {p q : Str} :
    Relocated url rl p q ↔ patchJp p [(s% "#", .nested rl)] = q := by
  have h : ∀ O, (migrated O url rl).relocate url p (s% "2.0") (s% "3.0.0") = .ok (patchJp p [(s% "#", .nested rl)]) := by
    intro O
    have e : (migrated O url rl) = Store.run [s% "1.2", s% "2.0", s% "3.0.0"] [.updateRoutes url (s% "3.0.0") [(s% "#", .nested rl)]] := rfl
    rw [e, C42_relocate_uses_routes packageVersions_ordered _ url p (s% "2.0") (s% "3.0.0") (by decide) (by decide) (by decide +kernel) (by decide +kernel)]
    rw [← e]
    congr 2
    unfold migrated Store.updateRoutes Store.tableFor Store.init Store.routesAt
    simp [Dict.get?, Dict.set, Dict.update]
  constructor
  · intro hr
    have := (h Unit).symm.trans (hr Unit)
    cases this; rfl
  · intro hr O
    rw [h, hr]

/-- The sections of a document that have routes. -/
def sections : List Str := [s% "paths", s% "definitions", s% "parameters", s% "responses", s% "securityDefinitions"]

theorem prefix_eq {a b r s : Str} (h : a ++ r = b ++ s) (h1 : a.isPrefixOf b = false ∨ a = b) (h2 : b.isPrefixOf a = false ∨ a = b) : a = b := by
  rcases h1 with h1 | h1
  · rcases h2 with h2 | h2
    · exfalso
      rcases List.append_eq_append_iff.1 h with ⟨c, hc, _⟩ | ⟨c, hc, _⟩
      · rw [hc] at h1
        have : a.isPrefixOf (a ++ c) = true := by rw [List.isPrefixOf_iff_prefix]; exact List.prefix_append _ _
        rw [this] at h1; cases h1
      · rw [hc] at h2
        have : b.isPrefixOf (b ++ c) = true := by rw [List.isPrefixOf_iff_prefix]; exact List.prefix_append _ _
        rw [this] at h2; cases h2
    · exact h2
  · exact h1

theorem section_longest {rl : Routes} (hk : ∀ f ∈ Dict.keys rl, f ∈ sections) {sec rest : Str} {t : Route}
    (hs : sec ∈ sections) (hm : (sec, t) ∈ rl) : Longest rl (sec ++ rest) sec t := by
  refine ⟨hm, ⟨rest, rfl⟩, fun f' t' hf ⟨r, hr⟩ => ?_⟩
  have hf' : f' ∈ sections := hk f' (List.mem_map.2 ⟨_, hf, rfl⟩)
  have key : ∀ a ∈ sections, ∀ b ∈ sections, a.isPrefixOf b = false ∨ a = b := by decide
  have := prefix_eq hr (key _ hs _ hf') ((key _ hf' _ hs).imp id Eq.symm)
  rw [this]; exact Nat.le_refl _

theorem hash_longest (rl : Routes) (s : Str) : Longest [(s% "#", .nested rl)] ('#' :: s) (s% "#") (.nested rl) := by
  refine ⟨by simp, ⟨s, rfl⟩, ?_⟩
  intro f' t' hf _
  simp only [List.mem_singleton, Prod.mk.injEq] at hf
  rw [hf.1]; exact Nat.le_refl _

theorem patchLoop_hash {rl : Routes} (hrl : rl ≠ []) (s : Str) :
    patchLoop [(s% "#", .nested rl)] [] ('#' :: '/' :: s) = patchLoop rl (s% "#") s := by
  rw [patchLoop_unfold, pickRoute_of_longest (by simp [Dict.NodupKeys, Dict.keys]) (hash_longest rl ('/' :: s))]
  simp [hrl, Str.startsWith]

/-- A pointer below a section with a relative route. -/
theorem patch_section {rl : Routes} (hn : Dict.NodupKeys rl) (hk : ∀ f ∈ Dict.keys rl, f ∈ sections) {sec t : Str}
    (hs : sec ∈ sections) (hm : (sec, Route.to t) ∈ rl) (ht : t ≠ []) (hh : Str.startsWith t ['#'] = false) (rest : Str) :
    patchJp ('#' :: '/' :: (sec ++ '/' :: rest)) [(s% "#", .nested rl)] = '#' :: '/' :: (t ++ '/' :: rest) := by
  have hrl : rl ≠ [] := by intro h; rw [h] at hm; cases hm
  unfold patchJp
  rw [patchLoop_hash hrl, patchLoop_unfold, pickRoute_of_longest hn (section_longest hk hs hm)]
  simp only [ht, if_false, hh, Bool.false_eq_true]
  have : ('#' :: '/' :: (sec ++ '/' :: rest)).drop ((s% "#" ++ sec).length + 1) = '/' :: rest := by
    have : '#' :: '/' :: (sec ++ '/' :: rest) = ('#' :: '/' :: sec) ++ '/' :: rest := rfl
    rw [this]
    have hl : (s% "#" ++ sec).length + 1 = ('#' :: '/' :: sec).length := by simp
    rw [hl, List.drop_left]
  rw [this]
  simp [Str.startsWith]

theorem routeIf_nodup {m : Dict Json} {k : Str} {t : Route} {rl : Routes} (h : Dict.NodupKeys rl) :
    Dict.NodupKeys (routeIf m k t rl) := by
  unfold routeIf; split
  · exact h
  · exact Dict.nodupKeys_set h _ _

theorem routeIf_keys {m : Dict Json} {k : Str} {t : Route} {rl : Routes} (hk : k ∈ sections)
    (h : ∀ f ∈ Dict.keys rl, f ∈ sections) : ∀ f ∈ Dict.keys (routeIf m k t rl), f ∈ sections := by
  unfold routeIf; split
  · exact h
  · intro f hf
    rcases Dict.mem_keys_set.1 hf with rfl | hf
    · exact hk
    · exact h f hf

theorem docRoutes_nodup (d B : Dict Json) (pr : Routes) : Dict.NodupKeys (docRoutes d B pr) := by
  unfold docRoutes pathsRoute
  refine routeIf_nodup (routeIf_nodup (routeIf_nodup (routeIf_nodup ?_)))
  split <;> simp [Dict.NodupKeys, Dict.keys, Dict.set]

theorem docRoutes_keys (d B : Dict Json) (pr : Routes) : ∀ f ∈ Dict.keys (docRoutes d B pr), f ∈ sections := by
  unfold docRoutes pathsRoute
  refine routeIf_keys (by decide) (routeIf_keys (by decide) (routeIf_keys (by decide) (routeIf_keys (by decide) ?_)))
  split
  · simp [Dict.keys]
  · intro f hf
    have : f = s% "paths" := by simpa [Dict.keys, Dict.set] using hf
    rw [this]; decide

theorem routeIf_self {m : Dict Json} (hm : m ≠ []) (k : Str) (t : Route) (rl : Routes) :
    Dict.get? (routeIf m k t rl) k = some t := by
  rw [routeIf, if_neg hm]; exact Dict.get?_set_self _ _ _

theorem routeIf_other {m : Dict Json} {k k' : Str} (h : k' ≠ k) (t : Route) (rl : Routes) :
    Dict.get? (routeIf m k t rl) k' = Dict.get? rl k' := by
  unfold routeIf; split
  · rfl
  · exact Dict.get?_set_ne _ _ (Ne.symm h)

theorem doc_section {d B : Dict Json} {pr : Routes} {sec x : Str}
    (h : (sec, x) ∈ [(s% "definitions", s% "schemas"), (s% "responses", s% "responses"), (s% "securityDefinitions", s% "securitySchemes")])
    (hne : objAt d sec ≠ []) (url : Str) (ts : List Str) (t : Str) :
    Relocated url (docRoutes d B pr) (pointer (sec :: t :: ts)) (pointer (s% "components" :: x :: t :: ts)) := by
  rw [relocated_iff]
  have key : Dict.get? (docRoutes d B pr) sec = some (.to (s% "components/" ++ x)) ∧ sec ∈ sections ∧ escape sec = sec ∧ escape x = x ∧
      Str.startsWith (s% "components/" ++ x) ['#'] = false := by
    simp only [List.mem_cons, Prod.mk.injEq, List.not_mem_nil, or_false] at h
    rcases h with ⟨rfl, rfl⟩ | ⟨rfl, rfl⟩ | ⟨rfl, rfl⟩
    · refine ⟨?_, by decide, by decide, by decide, by decide⟩
      unfold docRoutes
      rw [routeIf_other (by decide), routeIf_other (by decide), routeIf_other (by decide), routeIf_self hne]
      rfl
    · refine ⟨?_, by decide, by decide, by decide, by decide⟩
      unfold docRoutes
      rw [routeIf_other (by decide), routeIf_self hne]
      rfl
    · refine ⟨?_, by decide, by decide, by decide, by decide⟩
      unfold docRoutes
      rw [routeIf_self hne]
      rfl
  obtain ⟨h1, h2, h3, h4, h5⟩ := key
  rw [pointer_cons, tail'_cons, h3]
  rw [patch_section (docRoutes_nodup d B pr) (docRoutes_keys d B pr) h2 (Dict.mem_of_get? h1) (by simp) h5]
  rw [pointer_cons, tail'_cons, tail'_cons, h4]
  have : escape (s% "components") = s% "components" := by decide
  rw [this]
  simp

theorem objAt_ne {d : Dict Json} {k n : Str} {v : Json} (h : Dict.get? (objAt d k) n = some v) : objAt d k ≠ [] := by
  intro h0; rw [h0] at h; cases h

theorem components_entry {r c : Dict Json} (hc : Dict.get? r (s% "components") = if c = [] then none else some (.obj c))
    {x n : Str} {m : Dict Json} (hx : Dict.get? c x = some (.obj m)) {v w : Json} {ts : List Str} (hm : Dict.get? m n = some v) (hw : RawAt v ts w) :
    RawAt (.obj r) (s% "components" :: x :: n :: ts) w := by
  have hne : c ≠ [] := by intro h0; rw [h0] at hx; cases hx
  rw [if_neg hne] at hc
  exact .key hc (.key hx (.key hm hw))

/-- C54 for definitions: a reference to a definition, or to any schema below it, is relocated to where the conversion of
that schema is. -/
theorem C54_definitions {refs : Refs} {env : Env} (he : EnvOk refs env) (d : Dict Json) (o : Obj)
    (h : Built (.cls (s% "v2_0.Swagger")) (.obj d) o) (hres : DocResolves refs d) (hv : NamedValid d)
    (r : Dict Json) (rl : Routes) (hr : toOpenapi env o = .ok (r, rl)) (url n : Str) (v : Json)
    (hn : Dict.get? (objAt d (s% "definitions")) n = some v) (ts : List Str) :
    Relocated url rl (pointer (s% "definitions" :: n :: ts)) (pointer (s% "components" :: s% "schemas" :: n :: ts)) ∧
    ∀ w, SchemaAt v ts w → CutOff v ts ∨
      ∃ w', RawAt (.obj r) (s% "components" :: s% "schemas" :: n :: ts) w' ∧ SchemaTo w w' := by
  obtain ⟨hd, _, url', B, pr, _, _, _, rfl, _⟩ := toOpenapi_built he h hres hv hr
  refine ⟨doc_section (by simp) (objAt_ne hn) url ts n, fun w hw => ?_⟩
  obtain ⟨c, hc, hc'⟩ := hd.2.2.2.2.2.2.1
  obtain ⟨m, m1, m2⟩ := hc.1.2 (objAt_ne hn)
  obtain ⟨y, hy, hP⟩ := entriesTo_lookup m2 hn
  rcases C46_every_depth hP hw with h | ⟨w', h1, h2⟩
  · exact .inl h
  · exact .inr ⟨w', components_entry hc' m1 hy h1, h2⟩

/-- C54 for responses: a reference to a named response is relocated to where its conversion is, and a reference to one of
its headers to where the conversion of that header is. -/
theorem C54_responses {refs : Refs} {env : Env} (he : EnvOk refs env) (d : Dict Json) (o : Obj)
    (h : Built (.cls (s% "v2_0.Swagger")) (.obj d) o) (hres : DocResolves refs d) (hv : NamedValid d)
    (r : Dict Json) (rl : Routes) (hr : toOpenapi env o = .ok (r, rl)) (url n : Str) (e : Dict Json)
    (hn : Dict.get? (objAt d (s% "responses")) n = some (.obj e)) :
    (∀ ts, Relocated url rl (pointer (s% "responses" :: n :: ts)) (pointer (s% "components" :: s% "responses" :: n :: ts))) ∧
    (∃ w, RawAt (.obj r) [s% "components", s% "responses", n] w ∧ ResponseTo BareFile (strsAt d (s% "produces")) ⟨e, none⟩ w) ∧
    ∀ k x, Dict.get? (objAt e (s% "headers")) k = some (.obj x) →
      ∃ w, RawAt (.obj r) [s% "components", s% "responses", n, s% "headers", k] (.obj w) ∧ HeaderTo x w := by
  obtain ⟨hd, _, url', B, pr, _, _, _, rfl, _⟩ := toOpenapi_built he h hres hv hr
  obtain ⟨c, hc, hc'⟩ := hd.2.2.2.2.2.2.1
  obtain ⟨m, m1, m2⟩ := hc.2.2.2.1.2 (objAt_ne hn)
  obtain ⟨y, hy, e', he', hP⟩ := entriesTo_lookup m2 hn
  cases he'
  refine ⟨fun ts => doc_section (by simp) (objAt_ne hn) url ts n,
    ⟨y, components_entry hc' m1 hy (.here y), hP⟩, fun k x hx => ?_⟩
  obtain ⟨e2, rfl, _, h2⟩ := hP
  obtain ⟨_, _, _, h3, _⟩ := h2 (.inl rfl)
  obtain ⟨hm, q1, q2⟩ := h3.2 (objAt_ne hx)
  obtain ⟨z, hz, d', r', hd', hr', hH⟩ := entriesTo_lookup q2 hx
  cases hd'
  subst hr'
  exact ⟨r', components_entry hc' m1 hy (.key q1 (.key hz (.here _))), hH⟩

/-- C54 for security definitions: a reference to one is relocated to where its conversion is. -/
theorem C54_security {refs : Refs} {env : Env} (he : EnvOk refs env) (d : Dict Json) (o : Obj)
    (h : Built (.cls (s% "v2_0.Swagger")) (.obj d) o) (hres : DocResolves refs d) (hv : NamedValid d)
    (r : Dict Json) (rl : Routes) (hr : toOpenapi env o = .ok (r, rl)) (url n : Str) (e : Dict Json)
    (hn : Dict.get? (objAt d (s% "securityDefinitions")) n = some (.obj e)) :
    Relocated url rl (pointer [s% "securityDefinitions", n]) (pointer [s% "components", s% "securitySchemes", n]) ∧
    ∃ w, RawAt (.obj r) [s% "components", s% "securitySchemes", n] w ∧ SchemeKept e w := by
  obtain ⟨hd, _, url', B, pr, _, _, _, rfl, _⟩ := toOpenapi_built he h hres hv hr
  obtain ⟨c, hc, hc'⟩ := hd.2.2.2.2.2.2.1
  obtain ⟨m, m1, m2⟩ := hc.2.2.2.2.1.2 (objAt_ne hn)
  obtain ⟨y, hy, e', he', hP⟩ := entriesTo_lookup m2 hn
  cases he'
  exact ⟨doc_section (by simp) (objAt_ne hn) url [] n,
    y, components_entry hc' m1 hy (.here y), hP⟩

/-- C54 is false below responses: a reference to the schema of a named response is relocated to a place where there is
nothing. -/
theorem C54_response_schema_violation {refs : Refs} {env : Env} (he : EnvOk refs env) (d : Dict Json) (o : Obj)
    (h : Built (.cls (s% "v2_0.Swagger")) (.obj d) o) (hres : DocResolves refs d) (hv : NamedValid d)
    (r : Dict Json) (rl : Routes) (hr : toOpenapi env o = .ok (r, rl)) (url n : Str) (e : Dict Json)
    (hn : Dict.get? (objAt d (s% "responses")) n = some (.obj e)) (_hs : given e (s% "schema") ≠ none) :
    Relocated url rl (pointer [s% "responses", n, s% "schema"]) (pointer [s% "components", s% "responses", n, s% "schema"]) ∧
    ¬ ∃ w, RawAt (.obj r) [s% "components", s% "responses", n, s% "schema"] w := by
  obtain ⟨h1, ⟨w, h2, e2, rfl, _, h4⟩, _⟩ := C54_responses he d o h hres hv r rl hr url n e hn
  refine ⟨h1 _, ?_⟩
  obtain ⟨_, _, _, _, h5⟩ := h4 (.inl rfl)
  rintro ⟨w, hw⟩
  have hfun : ∀ {j : Json} {ts : List Str} {a : Json}, RawAt j ts a → ∀ {us b}, RawAt j (ts ++ us) b → RawAt a us b := by
    intro j ts a ha
    induction ha with
    | here j => intro us b hb; exact hb
    | key hk _ ih =>
      intro us b hb
      cases hb with
      | key hk' hb' => rw [hk] at hk'; cases hk'; exact ih hb'
    | idx hk _ ih =>
      intro us b hb
      generalize hq : Str.ofNat _ :: _ ++ us = q at hb
      cases hb with
      | idx hk' hb' =>
        simp only [List.cons_append, List.cons.injEq] at hq
        obtain ⟨hq1, rfl⟩ := hq
        have := ofNat_inj hq1
        subst this
        rw [hk] at hk'; cases hk'; exact ih hb'
      | here => simp at hq
  have := hfun h2 (us := [s% "schema"]) hw
  cases this with
  | key hk _ =>
    have : s% "schema" ∈ [s% "description", s% "content", s% "headers"] := h5 _ (by rw [hk]; simp)
    revert this; decide

/-! ## C55 parameters -/

/-- The routes of the named parameters. -/
def paramTable (B : Dict Json) : Routes := Dict.set (bodyRoutes B) [] (.to (s% "#/components/parameters"))

theorem bodyRoutes_keys (B : Dict Json) : Dict.keys (bodyRoutes B) = Dict.keys B := by
  simp [bodyRoutes, Dict.keys, Function.comp_def]

theorem bodyRoutes_get {B : Dict Json} {k : Str} (h : k ∈ Dict.keys B) :
    Dict.get? (bodyRoutes B) k = some (.to (s% "#/components/requestBodies/" ++ k)) := by
  induction B with
  | nil => simp [Dict.keys] at h
  | cons x B ih =>
    obtain ⟨a, b⟩ := x
    show Dict.get? ((a, Route.to _) :: bodyRoutes B) k = _
    rw [Dict.get?_cons]
    split
    · rename_i he; subst he; rfl
    · rename_i he
      apply ih
      simp only [Dict.keys, List.map_cons, List.mem_cons] at h
      rcases h with h | h
      · exact absurd h.symm he
      · exact h

theorem paramTable_nodup {B : Dict Json} (h : Dict.NodupKeys B) : Dict.NodupKeys (paramTable B) := by
  apply Dict.nodupKeys_set
  unfold Dict.NodupKeys
  rw [bodyRoutes_keys]; exact h

theorem paramTable_ne (B : Dict Json) : paramTable B ≠ [] := by
  intro h
  have := Dict.get?_set_self (bodyRoutes B) [] (Route.to (s% "#/components/parameters"))
  unfold paramTable at h
  rw [h] at this; cases this

theorem paramTable_keys {B : Dict Json} {k : Str} (h : k ∈ Dict.keys (paramTable B)) : k = [] ∨ k ∈ Dict.keys B := by
  rcases Dict.mem_keys_set.1 h with h | h
  · exact .inl h
  · exact .inr (bodyRoutes_keys B ▸ h)

theorem patchLoop_params {rl : Routes} (hn : Dict.NodupKeys rl) (hk : ∀ f ∈ Dict.keys rl, f ∈ sections) {B : Dict Json}
    (hm : (s% "parameters", Route.nested (paramTable B)) ∈ rl) (s : Str) :
    patchLoop [(s% "#", .nested rl)] [] (s% "#/parameters/" ++ s) = patchLoop (paramTable B) (s% "#/parameters") s := by
  have hrl : rl ≠ [] := by intro h; rw [h] at hm; cases hm
  have e : s% "#/parameters/" ++ s = '#' :: '/' :: (s% "parameters" ++ '/' :: s) := rfl
  rw [e, patchLoop_hash hrl, patchLoop_unfold, pickRoute_of_longest hn (section_longest hk (by decide) hm)]
  simp [paramTable_ne, Str.startsWith]

/-- A pointer to a named parameter, with the longest body name that is a prefix of it. -/
theorem patch_body {rl : Routes} (hn : Dict.NodupKeys rl) (hk : ∀ f ∈ Dict.keys rl, f ∈ sections) {B : Dict Json} (hB : Dict.NodupKeys B)
    (hm : (s% "parameters", Route.nested (paramTable B)) ∈ rl) {k r : Str} (hkB : k ∈ Dict.keys B) (hne : k ≠ [])
    (hmax : ∀ k' ∈ Dict.keys B, (∃ r', k ++ r = k' ++ r') → k'.length ≤ k.length) :
    patchJp (s% "#/parameters/" ++ (k ++ r)) [(s% "#", .nested rl)] = s% "#/components/requestBodies/" ++
      (k ++ if r = [] then [] else (if Str.endsWith k ['/'] || Str.startsWith r ['/'] then [] else ['/']) ++ r) := by
  have hl : Longest (paramTable B) (k ++ r) k (.to (s% "#/components/requestBodies/" ++ k)) := by
    refine ⟨?_, ⟨r, rfl⟩, ?_⟩
    · apply Dict.mem_of_get?
      rw [paramTable, Dict.get?_set_ne _ _ (Ne.symm hne)]
      exact bodyRoutes_get hkB
    · intro f' t' hf hr
      rcases paramTable_keys (List.mem_map.2 ⟨_, hf, rfl⟩ : f' ∈ Dict.keys (paramTable B)) with h | h
      · rw [h]; simp
      · exact hmax f' h hr
  unfold patchJp
  rw [patchLoop_params hn hk hm, patchLoop_unfold, pickRoute_of_longest (paramTable_nodup hB) hl]
  have h1 : ¬ (s% "#/components/requestBodies/" ++ k) = [] := by simp
  have h2 : Str.startsWith (s% "#/components/requestBodies/" ++ k) ['#'] = true := rfl
  have h3 : (s% "#/parameters/" ++ (k ++ r)).drop ((s% "#/parameters" ++ k).length + 1) = r := by
    have : s% "#/parameters/" ++ (k ++ r) = (s% "#/parameters/" ++ k) ++ r := by simp
    rw [this]
    have hl : (s% "#/parameters" ++ k).length + 1 = (s% "#/parameters/" ++ k).length := by simp
    rw [hl, List.drop_left]
  have h4 : Str.endsWith (s% "#/components/requestBodies/" ++ k) ['/'] = Str.endsWith k ['/'] := by
    obtain ⟨k0, c, rfl⟩ : ∃ k0 c, k = k0 ++ [c] := ⟨k.dropLast, k.getLast hne, (List.dropLast_concat_getLast hne).symm⟩
    simp [Str.endsWith, List.isSuffixOf, List.isPrefixOf]
  simp only [h1, if_false, h2, if_true, h3, h4]
  split
  · simp
  · simp

/-- A pointer to a named parameter, when no name of a body is a prefix of it. -/
theorem patch_plain {rl : Routes} (hn : Dict.NodupKeys rl) (hk : ∀ f ∈ Dict.keys rl, f ∈ sections) {B : Dict Json} (hB : Dict.NodupKeys B)
    (hm : (s% "parameters", Route.nested (paramTable B)) ∈ rl) {s : Str} (hs : s ≠ []) (hsl : Str.startsWith s ['/'] = false)
    (hmax : ∀ k' ∈ Dict.keys B, k' ≠ [] → ¬ ∃ r', s = k' ++ r') :
    patchJp (s% "#/parameters/" ++ s) [(s% "#", .nested rl)] = s% "#/components/parameters/" ++ s := by
  have hl : Longest (paramTable B) s [] (.to (s% "#/components/parameters")) := by
    refine ⟨?_, ⟨s, rfl⟩, ?_⟩
    · apply Dict.mem_of_get?
      exact Dict.get?_set_self _ _ _
    · intro f' t' hf hr
      rcases paramTable_keys (List.mem_map.2 ⟨_, hf, rfl⟩ : f' ∈ Dict.keys (paramTable B)) with h | h
      · rw [h]; exact Nat.le_refl _
      · by_cases h0 : f' = []
        · rw [h0]; exact Nat.le_refl _
        · exact absurd hr (hmax f' h h0)
  unfold patchJp
  rw [patchLoop_params hn hk hm, patchLoop_unfold, pickRoute_of_longest (paramTable_nodup hB) hl]
  have h3 : (s% "#/parameters/" ++ s).drop ((s% "#/parameters" ++ []).length + 1) = s := rfl
  have h4 : Str.endsWith (s% "#/components/parameters") ['/'] = false := by decide
  have h5 : Str.startsWith (s% "#/components/parameters") ['#'] = true := rfl
  dsimp only
  rw [if_neg (by decide)]
  dsimp only
  rw [h3, if_pos h5, if_neg hs, h4, hsl]
  rfl

theorem paramsWhere_get {p : Part → Bool} {m : Dict Json} {n : Str} {e : Dict Json} (hn : Dict.get? m n = some (.obj e))
    (hp : p ⟨e, none⟩ = true) (hm : Dict.NodupKeys m) : Dict.get? (paramsWhere p m) n = some (.obj e) := by
  apply Dict.get?_of_mem
  · unfold Dict.NodupKeys Dict.keys paramsWhere
    exact (List.filter_sublist.map _).nodup hm
  · exact List.mem_filter.2 ⟨Dict.mem_of_get? hn, hp⟩

theorem paramsWhere_keys {p : Part → Bool} {m : Dict Json} {n : Str} (hm : Dict.NodupKeys m) (h : n ∈ Dict.keys (paramsWhere p m)) :
    ∃ e, Dict.get? m n = some (.obj e) ∧ p ⟨e, none⟩ = true := by
  obtain ⟨⟨k, v⟩, h1, rfl⟩ := List.mem_map.1 h
  obtain ⟨h2, h3⟩ := List.mem_filter.1 h1
  cases v with
  | obj e => exact ⟨e, Dict.get?_of_mem hm h2, h3⟩
  | _ => cases h3

/-- What is known of the routes of a converted document with named parameters. -/
theorem doc_params {refs : Refs} {env : Env} (he : EnvOk refs env) {d : Dict Json} {o : Obj}
    (h : Built (.cls (s% "v2_0.Swagger")) (.obj d) o) (hres : DocResolves refs d) (hv : NamedValid d)
    {r : Dict Json} {rl : Routes} (hr : toOpenapi env o = .ok (r, rl)) (hne : objAt d (s% "parameters") ≠ []) :
    Dict.NodupKeys rl ∧ (∀ f ∈ Dict.keys rl, f ∈ sections) ∧ Dict.NodupKeys (objAt d (s% "parameters")) ∧
    (∃ B, Dict.NodupKeys B ∧ (∀ k, k ∈ Dict.keys B ↔ BodyNamed d k) ∧ (s% "parameters", Route.nested (paramTable B)) ∈ rl) ∧
    ∃ c, ComponentsTo d c ∧ Dict.get? r (s% "components") = if c = [] then none else some (.obj c) := by
  obtain ⟨hd, _, url', B, pr, _, _, hB, rfl, _⟩ := toOpenapi_built he h hres hv hr
  obtain ⟨_, _, _, hw⟩ := kid_objAt h (k := s% "parameters") (b := .cls (s% "v2_0.Parameter")) (by decide +kernel)
  have hnd : Dict.NodupKeys (objAt d (s% "parameters")) := wf_nodup hw
  have hkeys : Dict.keys B = Dict.keys (paramsWhere (fun f => !f.isPlain) (objAt d (s% "parameters"))) := forall₂_keys (P := OneBody) hB
  refine ⟨docRoutes_nodup d B pr, docRoutes_keys d B pr, hnd, ⟨B, ?_, fun k => ?_, ?_⟩, hd.2.2.2.2.2.2.1⟩
  · unfold Dict.NodupKeys
    rw [hkeys]
    exact (List.filter_sublist.map _).nodup hnd
  · rw [hkeys]
    constructor
    · intro hk
      obtain ⟨e, h1, h2⟩ := paramsWhere_keys hnd hk
      exact ⟨e, h1, by simpa using h2⟩
    · rintro ⟨e, h1, h2⟩
      rw [← Dict.get?_isSome_iff, paramsWhere_get h1 (by simp [h2]) hnd]
      rfl
  · apply Dict.mem_of_get?
    unfold docRoutes
    rw [routeIf_other (by decide), routeIf_other (by decide), routeIf_self hne]
    rfl

theorem pointer_params (n : Str) : pointer [s% "parameters", n] = s% "#/parameters/" ++ escape n := by
  rw [pointer_cons, tail'_cons]
  have : escape (s% "parameters") = s% "parameters" := by decide
  rw [this]; simp [tail']

theorem pointer_components {x : Str} (hx : escape x = x) (n : Str) :
    pointer [s% "components", x, n] = s% "#/components/" ++ (x ++ '/' :: escape n) := by
  rw [pointer_cons, tail'_cons, tail'_cons, hx]
  have : escape (s% "components") = s% "components" := by decide
  rw [this]; simp [tail']

theorem escape_ne_nil {n : Str} (h : n ≠ []) : escape n ≠ [] := by
  intro h0
  have := unescape_escape n
  rw [h0] at this
  exact h this.symm

theorem escape_no_slash (n : Str) : Str.startsWith (escape n) ['/'] = false := by
  have := slash_not_mem_jpEncode n
  rw [jpEncode_eq_escape] at this
  cases hs : escape n with
  | nil => rfl
  | cons c s =>
    rw [hs] at this
    simp only [List.mem_cons, not_or] at this
    simp [Str.startsWith, List.isPrefixOf, this.1]

/-- C55 for parameters that become request bodies, the part that holds: a reference to one whose name needs no escaping
is relocated to where the request body is.  (Missing: names with `/` or `~`, and the empty name.) -/
theorem C55_body_partial {refs : Refs} {env : Env} (he : EnvOk refs env) (d : Dict Json) (o : Obj)
    (h : Built (.cls (s% "v2_0.Swagger")) (.obj d) o) (hres : DocResolves refs d) (hv : NamedValid d)
    (r : Dict Json) (rl : Routes) (hr : toOpenapi env o = .ok (r, rl)) (url n : Str) (e : Dict Json)
    (hn : Dict.get? (objAt d (s% "parameters")) n = some (.obj e)) (hb : Part.isPlain ⟨e, none⟩ = false)
    (h0 : n ≠ []) (hesc : '/' ∉ n ∧ '~' ∉ n) :
    Relocated url rl (pointer [s% "parameters", n]) (pointer [s% "components", s% "requestBodies", n]) ∧
    ∃ w, RawAt (.obj r) [s% "components", s% "requestBodies", n] w ∧ OneBody (.obj e) w := by
  obtain ⟨h1, h2, hnd, ⟨B, h3, h4, h5⟩, c, hc, hc'⟩ := doc_params he h hres hv hr (objAt_ne hn)
  have hesc' : escape n = n := escape_plain hesc.1 hesc.2
  constructor
  · rw [relocated_iff, pointer_params, hesc', pointer_components (by decide), hesc']
    have := patch_body h1 h2 h3 h5 (k := n) (r := []) ((h4 n).2 ⟨e, hn, hb⟩) h0 (by
      rintro k' _ ⟨r', hr'⟩
      have := congrArg List.length hr'
      simp at this; omega)
    rw [List.append_nil] at this
    rw [this]; simp
  · have hw := paramsWhere_get (p := fun f => !f.isPlain) hn (by simp [hb]) hnd
    obtain ⟨m, m1, m2⟩ := (hc.2.2.1 _ rfl).2 (by intro hx; rw [hx] at hw; cases hw)
    obtain ⟨y, hy, hP⟩ := entriesTo_lookup m2 hw
    exact ⟨y, components_entry hc' m1 hy (.here y), hP⟩

/-- C55 for parameters that stay parameters, the part that holds: a reference to one is relocated to where its conversion
is when no name of a body parameter is a prefix of its (escaped) name.  (Missing: the other names, and the empty name.) -/
theorem C55_plain_partial {refs : Refs} {env : Env} (he : EnvOk refs env) (d : Dict Json) (o : Obj)
    (h : Built (.cls (s% "v2_0.Swagger")) (.obj d) o) (hres : DocResolves refs d) (hv : NamedValid d)
    (r : Dict Json) (rl : Routes) (hr : toOpenapi env o = .ok (r, rl)) (url n : Str) (e : Dict Json)
    (hn : Dict.get? (objAt d (s% "parameters")) n = some (.obj e)) (hb : Part.isPlain ⟨e, none⟩ = true)
    (h0 : n ≠ []) (hpre : ∀ k, BodyNamed d k → k ≠ [] → ¬ ∃ s, escape n = k ++ s) :
    Relocated url rl (pointer [s% "parameters", n]) (pointer [s% "components", s% "parameters", n]) ∧
    ∃ w, RawAt (.obj r) [s% "components", s% "parameters", n] w ∧ PlainTo ⟨e, none⟩ w := by
  obtain ⟨h1, h2, hnd, ⟨B, h3, h4, h5⟩, c, hc, hc'⟩ := doc_params he h hres hv hr (objAt_ne hn)
  constructor
  · rw [relocated_iff, pointer_params, pointer_components (by decide)]
    rw [patch_plain h1 h2 h3 h5 (escape_ne_nil h0) (escape_no_slash n) (fun k' hk' hne => hpre k' ((h4 k').1 hk') hne)]
    simp
  · have hw := paramsWhere_get (p := Part.isPlain) hn hb hnd
    obtain ⟨m, m1, m2⟩ := (hc.2.1 _ rfl).2 (by intro hx; rw [hx] at hw; cases hw)
    obtain ⟨y, hy, e', he', hP⟩ := entriesTo_lookup m2 hw
    cases he'
    exact ⟨y, components_entry hc' m1 hy (.here y), hP⟩

/-- C55 is false: whenever the name of a body parameter is a prefix of the (escaped) name of another one, references to the
latter are not relocated to where its conversion is. -/
theorem C55_prefix_violation {refs : Refs} {env : Env} (he : EnvOk refs env) (d : Dict Json) (o : Obj)
    (h : Built (.cls (s% "v2_0.Swagger")) (.obj d) o) (hres : DocResolves refs d) (hv : NamedValid d)
    (r : Dict Json) (rl : Routes) (hr : toOpenapi env o = .ok (r, rl)) (url n : Str) (e : Dict Json)
    (_hn : Dict.get? (objAt d (s% "parameters")) n = some (.obj e)) (_hb : Part.isPlain ⟨e, none⟩ = true)
    (k s : Str) (hk : BodyNamed d k) (hk0 : k ≠ []) (hks : escape n = k ++ s) :
    ¬ Relocated url rl (pointer [s% "parameters", n]) (pointer [s% "components", s% "parameters", n]) := by
  obtain ⟨e', he', _⟩ := hk
  obtain ⟨h1, h2, hnd, ⟨B, h3, h4, h5⟩, c, hc, hc'⟩ := doc_params he h hres hv hr (objAt_ne he')
  rw [relocated_iff, pointer_params, pointer_components (by decide)]
  have hkB : k ∈ Dict.keys (paramTable B) :=
    Dict.mem_keys_set.2 (.inr (bodyRoutes_keys B ▸ (h4 k).2 ⟨e', he', by assumption⟩))
  obtain ⟨⟨k', t⟩, hkt, hke⟩ := List.mem_map.1 hkB
  dsimp only at hke
  subst hke
  cases hp : pickRoute (escape n) (paramTable B) none with
  | none => exact absurd ⟨s, hks⟩ (pickRoute_none hp k' t hkt)
  | some x =>
    obtain ⟨f, t'⟩ := x
    have hl := pickRoute_some hp
    have hlen := hl.2.2 k' t hkt ⟨s, hks⟩
    have hf0 : f ≠ [] := by
      intro hf; rw [hf] at hlen
      exact hk0 (List.eq_nil_of_length_eq_zero (Nat.le_zero.1 hlen))
    have hfB : f ∈ Dict.keys B := by
      rcases paramTable_keys (List.mem_map.2 ⟨_, hl.1, rfl⟩ : f ∈ Dict.keys (paramTable B)) with hf | hf
      · exact absurd hf hf0
      · exact hf
    obtain ⟨s', hs'⟩ := hl.2.1
    rw [hs']
    rw [patch_body h1 h2 h3 h5 hfB hf0 (fun k2 hk2 hr2 => by
      have : k2 ∈ Dict.keys (paramTable B) := Dict.mem_keys_set.2 (.inr (bodyRoutes_keys B ▸ hk2))
      obtain ⟨⟨k3, t3⟩, hkt3, hke3⟩ := List.mem_map.1 this
      dsimp only at hke3
      subst hke3
      exact hl.2.2 k3 t3 hkt3 (hs' ▸ hr2))]
    intro hbad
    have := congrArg (fun l => l.drop 13) hbad
    simp at this

/-- C55 is false: a reference to a body parameter whose name needs escaping (and has, escaped, no name of a body as a prefix)
is relocated into `parameters`, where there is nothing of that name. -/
theorem C55_escape_violation {refs : Refs} {env : Env} (he : EnvOk refs env) (d : Dict Json) (o : Obj)
    (h : Built (.cls (s% "v2_0.Swagger")) (.obj d) o) (hres : DocResolves refs d) (hv : NamedValid d)
    (r : Dict Json) (rl : Routes) (hr : toOpenapi env o = .ok (r, rl)) (url n : Str)
    (hn : BodyNamed d n) (h0 : n ≠ []) (hpre : ∀ k, BodyNamed d k → k ≠ [] → ¬ ∃ s, escape n = k ++ s) :
    Relocated url rl (pointer [s% "parameters", n]) (pointer [s% "components", s% "parameters", n]) ∧
    ¬ ∃ w, RawAt (.obj r) [s% "components", s% "parameters", n] w := by
  obtain ⟨e, hn, hb⟩ := hn
  obtain ⟨h1, h2, hnd, ⟨B, h3, h4, h5⟩, c, hc, hc'⟩ := doc_params he h hres hv hr (objAt_ne hn)
  constructor
  · rw [relocated_iff, pointer_params, pointer_components (by decide)]
    rw [patch_plain h1 h2 h3 h5 (escape_ne_nil h0) (escape_no_slash n) (fun k' hk' hne => hpre k' ((h4 k').1 hk') hne)]
    simp
  · rintro ⟨w, hw⟩
    cases hw with
    | key hk hw =>
      rw [hc'] at hk
      split at hk
      · cases hk
      · cases hk
        cases hw with
        | key hk hw =>
          by_cases hps : paramsWhere Part.isPlain (objAt d (s% "parameters")) = []
          · rw [(hc.2.1 _ rfl).1 hps] at hk; cases hk
          · obtain ⟨m, m1, m2⟩ := (hc.2.1 _ rfl).2 hps
            rw [m1] at hk
            cases hk
            cases hw with
            | key hk hw =>
              have hkm := Dict.get?_isSome_iff.1 (by rw [hk]; rfl : (Dict.get? m n).isSome = true)
              rw [forall₂_keys (P := fun x y => ∃ e, x = Json.obj e ∧ PlainTo ⟨e, none⟩ y) m2] at hkm
              obtain ⟨e2, h6, h7⟩ := paramsWhere_keys hnd hkm
              rw [hn] at h6
              cases h6
              rw [hb] at h7; cases h7

/-- C55 is false for the empty name: a reference to that parameter is relocated to the whole map of parameters. -/
theorem C55_empty_violation {refs : Refs} {env : Env} (he : EnvOk refs env) (d : Dict Json) (o : Obj)
    (h : Built (.cls (s% "v2_0.Swagger")) (.obj d) o) (hres : DocResolves refs d) (hv : NamedValid d)
    (r : Dict Json) (rl : Routes) (hr : toOpenapi env o = .ok (r, rl)) (url : Str) (v : Json)
    (hn : Dict.get? (objAt d (s% "parameters")) [] = some v) :
    Relocated url rl (pointer [s% "parameters", []]) (pointer [s% "components", s% "parameters"]) := by
  obtain ⟨h1, h2, hnd, ⟨B, h3, h4, h5⟩, c, hc, hc'⟩ := doc_params he h hres hv hr (objAt_ne hn)
  rw [relocated_iff, pointer_params]
  have hl : Longest (paramTable B) [] [] (.to (s% "#/components/parameters")) := by
    refine ⟨Dict.mem_of_get? (Dict.get?_set_self _ _ _), ⟨[], rfl⟩, ?_⟩
    rintro f' t' _ ⟨r', hr'⟩
    rw [(List.append_eq_nil_iff.1 hr'.symm).1]; exact Nat.le_refl _
  unfold patchJp
  rw [patchLoop_params h1 h2 h5]
  have : escape [] = [] := rfl
  rw [this, patchLoop_unfold, pickRoute_of_longest (paramTable_nodup h3) hl]
  decide

/-! ### instances -/

theorem wholeDoc_reloc : ∃ o r rl, Built (.cls (s% "v2_0.Swagger")) (.obj wholeDoc) o ∧ toOpenapi plainEnv o = .ok (r, rl) := by
  obtain ⟨o, ho⟩ := wholeDoc_built
  obtain ⟨r, rl, hr⟩ := wholeDoc_converts o ho
  exact ⟨o, r, rl, ho, hr⟩

theorem schemaAt_trans {j x w : Json} {ts us : List Str} (h : SchemaAt j ts x) (h2 : SchemaAt x us w) :
    SchemaAt j (ts ++ us) w := by
  induction h with
  | here => exact h2
  | allOf a b _ ih => exact .allOf a b (ih h2)
  | items a b _ ih => exact .items a b (ih h2)
  | property a b _ ih => exact .property a b (ih h2)
  | additional a b c _ ih => exact .additional a b c (ih h2)

/-- What is cut off is below a reference or a file. -/
theorem cutOff_meets {j : Json} {ts : List Str} (h : CutOff j ts) :
    ∃ us d, SchemaAt j us (.obj d) ∧ (IsRef d ∨ Dict.get? d (s% "type") = some (.str (s% "file"))) := by
  induction h with
  | ref h => exact ⟨[], _, .here _, .inl h⟩
  | file h => exact ⟨[], _, .here _, .inr h⟩
  | deeper ha _ ih =>
    obtain ⟨us, d, h1, h2⟩ := ih
    exact ⟨_, d, schemaAt_trans ha h1, h2⟩

/-- C54 of `wholeDoc`: the property `id` of its definition `Pet`. -/
example : ∃ r rl, Relocated (s% "u") rl (s% "#/definitions/Pet/properties/id") (s% "#/components/schemas/Pet/properties/id") ∧
    ∃ w, RawAt (.obj r) [s% "components", s% "schemas", s% "Pet", s% "properties", s% "id"] w ∧
      SchemaTo (.obj [(s% "type", .str (s% "integer"))]) w := by
  obtain ⟨o, r, rl, ho, hr⟩ := wholeDoc_reloc
  have h := C54_definitions plainEnv_ok wholeDoc o ho wholeDoc_resolves wholeDoc_valid r rl hr (s% "u") (s% "Pet")
    (.obj [(s% "type", .str (s% "object")), (s% "properties", .obj [(s% "id", .obj [(s% "type", .str (s% "integer"))])])])
    rfl [s% "properties", s% "id"]
  refine ⟨r, rl, h.1, ?_⟩
  rcases h.2 _ (.property rfl rfl (.here _)) with hc | hw
  · exfalso
    obtain ⟨us, d, ha, hd⟩ := cutOff_meets hc
    cases ha with
    | here => revert hd; simp [IsRef, look, Dict.get?, Json.truthy]
    | allOf h1 _ _ => cases h1
    | items h1 _ _ => cases h1
    | additional h1 _ _ _ => cases h1
    | property h1 h2 ha =>
      cases h1
      have : _ ∈ [(s% "id", Json.obj [(s% "type", Json.str (s% "integer"))])] := Dict.mem_of_get? h2
      simp only [List.mem_singleton, Prod.mk.injEq] at this
      obtain ⟨_, rfl⟩ := this
      cases ha with
      | here => revert hd; simp [IsRef, look, Dict.get?, Json.truthy]
      | allOf h1 _ _ => cases h1
      | items h1 _ _ => cases h1
      | additional h1 _ _ _ => cases h1
      | property h1 _ _ => cases h1
  · exact hw

/-- C54 of `wholeDoc`: its response and its security scheme. -/
example : ∃ r rl, Relocated (s% "u") rl (s% "#/responses/R") (s% "#/components/responses/R") ∧
    (∃ w, RawAt (.obj r) [s% "components", s% "responses", s% "R"] w) ∧
    Relocated (s% "u") rl (s% "#/securityDefinitions/b") (s% "#/components/securitySchemes/b") ∧
    ∃ w, RawAt (.obj r) [s% "components", s% "securitySchemes", s% "b"] w := by
  obtain ⟨o, r, rl, ho, hr⟩ := wholeDoc_reloc
  have h := C54_responses plainEnv_ok wholeDoc o ho wholeDoc_resolves wholeDoc_valid r rl hr (s% "u") (s% "R") _ rfl
  have h2 := C54_security plainEnv_ok wholeDoc o ho wholeDoc_resolves wholeDoc_valid r rl hr (s% "u") (s% "b") _ rfl
  exact ⟨r, rl, h.1 [], ⟨_, h.2.1.choose_spec.1⟩, h2.1, ⟨_, h2.2.choose_spec.1⟩⟩

/-- C54 of `wholeDoc`: the schema of its response. -/
example : ∃ r rl, Relocated (s% "u") rl (s% "#/responses/R/schema") (s% "#/components/responses/R/schema") ∧
    ¬ ∃ w, RawAt (.obj r) [s% "components", s% "responses", s% "R", s% "schema"] w := by
  obtain ⟨o, r, rl, ho, hr⟩ := wholeDoc_reloc
  exact ⟨r, rl, C54_response_schema_violation plainEnv_ok wholeDoc o ho wholeDoc_resolves wholeDoc_valid r rl hr (s% "u") (s% "R")
    _ rfl (by decide)⟩

theorem wholeDoc_bodies {k : Str} (h : BodyNamed wholeDoc k) : k = s% "k" ∨ k = s% "a/b" := by
  obtain ⟨e, h1, h2⟩ := h
  have h' : (k, Json.obj e) ∈ [(s% "k", Json.obj (samplePart (s% "a")).doc), (s% "kk", Json.obj
    [(s% "name", .str (s% "q")), (s% "in", .str (s% "query")), (s% "type", .str (s% "string"))]),
    (s% "a/b", Json.obj (samplePart (s% "b")).doc)] := Dict.mem_of_get? h1
  simp only [List.mem_cons, List.not_mem_nil, or_false, Prod.mk.injEq, Json.obj.injEq] at h'
  rcases h' with ⟨rfl, _⟩ | ⟨_, rfl⟩ | ⟨rfl, _⟩
  · exact .inl rfl
  · exact absurd h2 (by decide)
  · exact .inr rfl

/-- C55 of `wholeDoc`: the body parameter `k` is found, the query parameter `kk` and the body parameter `a/b` are not. -/
example : ∃ r rl, (Relocated (s% "u") rl (s% "#/parameters/k") (s% "#/components/requestBodies/k") ∧
      ∃ w, RawAt (.obj r) [s% "components", s% "requestBodies", s% "k"] w) ∧
    ¬ Relocated (s% "u") rl (s% "#/parameters/kk") (s% "#/components/parameters/kk") ∧
    (Relocated (s% "u") rl (s% "#/parameters/a~1b") (s% "#/components/parameters/a~1b") ∧
      ¬ ∃ w, RawAt (.obj r) [s% "components", s% "parameters", s% "a/b"] w) := by
  obtain ⟨o, r, rl, ho, hr⟩ := wholeDoc_reloc
  have h1 := C55_body_partial plainEnv_ok wholeDoc o ho wholeDoc_resolves wholeDoc_valid r rl hr (s% "u") (s% "k") _ rfl
    (by decide) (by decide) (by decide)
  have h2 := C55_prefix_violation plainEnv_ok wholeDoc o ho wholeDoc_resolves wholeDoc_valid r rl hr (s% "u") (s% "kk") _ rfl
    (by decide) (s% "k") (s% "k") ⟨_, rfl, by decide⟩ (by decide) rfl
  have h3 := C55_escape_violation plainEnv_ok wholeDoc o ho wholeDoc_resolves wholeDoc_valid r rl hr (s% "u") (s% "a/b")
    ⟨_, rfl, by decide⟩ (by decide) (fun k hk _ ⟨s, hs⟩ => by
      rcases wholeDoc_bodies hk with rfl | rfl
      · simp [escape] at hs
      · simp [escape] at hs)
  exact ⟨r, rl, ⟨h1.1, ⟨_, h1.2.choose_spec.1⟩⟩, h2, h3⟩

end Pyopenapi
