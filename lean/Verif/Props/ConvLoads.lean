import Verif.Lemmas.ConvLoads2
import Verif.Props.ConvSwagger

/-!
# C71: what is converted can be loaded
-/

namespace Pyopenapi
open Spec Obj Conv

namespace Spec

/-- The flows OpenAPI 3 has. -/
def flows3 : List Str := [s% "implicit", s% "password", s% "clientCredentials", s% "authorizationCode"]

/-- An OAuth 2 scheme names scopes, or a flow OpenAPI 3 does not have. -/
def ScopesGiven (e : Dict Json) : Prop :=
  look e (s% "type") = .str (s% "oauth2") → objAt e (s% "scopes") ≠ [] ∨ ∀ f ∈ flows3, look e (s% "flow") ≠ .str f

end Spec

theorem scopesGiven_ok {e : Dict Json} {o : Obj} (h : Built (.cls (s% "v2_0.SecurityScheme")) (.obj e) o)
    (hs : ScopesGiven e) : ScopesOk o := by
  intro ht
  have hk : plainFields (s% "v2_0.SecurityScheme") [s% "type", s% "flow"] = true := by decide +kernel
  have htype := built_fld h (plainFields_cls hk) (s% "type")
  have hflow := built_fld h (plainFields_cls hk) (s% "flow")
  rw [plainFields_val hk (by simp)] at htype hflow
  rw [htype] at ht
  rcases hs (Except.ok.inj ht) with h1 | h1
  · obtain ⟨_, _, h3, _⟩ := kid_objAt (b := .isStr) (k := s% "scopes") h (by decide +kernel)
    obtain ⟨y, hy, _⟩ := h3 h1
    exact .inl (by rw [hy]; rfl)
  · refine .inr (fun f hf => ?_)
    rw [hflow] at hf
    have hn : f ∉ flows3 := fun hm => h1 f hm (Except.ok.inj hf)
    cases hg : Dict.get? (pkg (s% "v3_0_0.OAuthFlows")).children f with
    | none => rfl
    | some cd =>
      have hall : (pkg (s% "v3_0_0.OAuthFlows")).children.all (fun kc => decide (kc.1 ∈ flows3)) = true := by decide +kernel
      exact absurd (of_decide_eq_true (List.all_eq_true.1 hall _ (Dict.mem_of_get? hg))) hn

theorem shaped_step {c : Str} {d : Dict Json} {k : Str} {cd : ChildDef} {v : Dict Json} (hsh : Shaped pkg (.cls c) (.obj d))
    (hc : Dict.get? (pkg c).children k = some cd) (hv : Dict.get? d k = some (.obj v)) : Shaped pkg cd.builder (.obj v) := by
  cases hsh with
  | clsObj _ h2 => exact h2 k cd _ (Dict.mem_of_get? hc) hv (fun e => by cases e)
  | clsLeaf hl => rw [hl] at hc; cases hc
  | clsOther hn => exact absurd rfl (hn _)

theorem kept_unshaped {e : Dict Json} {r : Json} (h : SchemeKept e r) (hs : ¬ ScopesGiven e) :
    ¬ Shaped pkg (.cls (s% "v3_0_0.SecurityScheme")) r := by
  intro s1
  refine hs (fun ht => ?_)
  by_cases hsc : objAt e (s% "scopes") = []
  · refine .inr (fun f hm hf => ?_)
    obtain ⟨e', rfl, _, _, _, _, k5, _⟩ := h
    obtain ⟨f', x, g1, _, g3, _, g5, _⟩ := k5 ht
    rw [hf] at g1
    cases g1
    rw [if_pos hsc] at g5
    have s2 := shaped_step (k := s% "flows") (cd := { builder := .cls (s% "v3_0_0.OAuthFlows") }) s1 (by decide +kernel) g3
    have s3 := shaped_step (k := f) (cd := { builder := .cls (s% "v3_0_0.OAuthFlow") }) s2
      (of_decide_eq_true (List.all_eq_true.1 (show flows3.all (fun f => decide (Dict.get? (pkg (s% "v3_0_0.OAuthFlows")).children f =
        some { builder := .cls (s% "v3_0_0.OAuthFlow") })) = true by decide +kernel) f hm))
      (by rw [Dict.get?_cons, if_pos rfl])
    cases s3 with
    | clsObj h1 _ => exact h1 (s% "scopes") { builder := .mapOf .isStr, required := true }
                      (Dict.mem_of_get? (by decide +kernel)) rfl g5
    | clsLeaf hl => exact absurd hl (by decide +kernel)
    | clsOther hn => exact absurd rfl (hn _)
  · exact .inl hsc

/-- C71 is false of a scheme without scopes: it is converted, and what is made of it cannot be loaded. -/
theorem C71_scopes_violation (e : Dict Json) (o : Obj) (h : Built (.cls (s% "v2_0.SecurityScheme")) (.obj e) o)
    (hf : HasFlow e) (hs : ¬ ScopesGiven e) :
    ∃ r, toSecurityScheme o = .ok r ∧ ∀ q, ¬ ∃ o', build pkg (.cls (s% "v3_0_0.SecurityScheme")) r q [] = .ok o' := by
  obtain ⟨r, h1, h2, _⟩ := (toSecurityScheme_built h).1 hf
  exact ⟨_, h1, fun q hq => kept_unshaped h2 hs ((C21_build_iff_shaped (T := pkg) _ _ q).1 hq)⟩

/-- C71: whatever document is converted, the result can be loaded, provided every OAuth 2 scheme names scopes. -/
theorem C71_document {env : Env} (he : EnvLoads AnyLoaded (fun _ _ => True) env) (d : Dict Json) (o : Obj)
    (h : Built (.cls (s% "v2_0.Swagger")) (.obj d) o)
    (hs : ∀ k e, (k, .obj e) ∈ objAt d (s% "securityDefinitions") → ScopesGiven e)
    (r : Dict Json) (rl : Routes) (hr : toOpenapi env o = .ok (r, rl)) (q : Option Str) :
    ∃ o', build pkg (.cls (s% "v3_0_0.OpenApi")) (.obj r) q [] = .ok o' := by
  have hc : ClsLoaded AnyLoaded (s% "v2_0.Swagger") o := by
    obtain ⟨p, hp⟩ := h.path
    exact ⟨⟨_, _, p, trivial, h.wf, hp⟩, _, p, h.wf, hp⟩
  have hl := toOpenapi_loads he hc (fun x hx k y hy => by
    obtain ⟨h1, _⟩ := kid_objAt (b := .cls (s% "v2_0.SecurityScheme")) (k := s% "securityDefinitions") h (by decide +kernel)
    rw [(kidT_kid hx).1] at h1
    obtain ⟨⟨k', j⟩, hm, hk, hb⟩ := forall₂_mem h1 hy
    obtain ⟨e, he⟩ := built_obj hb
    dsimp only at he hk
    subst he hk
    exact scopesGiven_ok hb (hs _ _ hm)) hr
  obtain ⟨o', ho', _⟩ := built_exists hl.1.regular hl.2 q
  exact ⟨o', ho'⟩

/-- C71, exactly: the converted document can be loaded if and only if every OAuth 2 scheme names scopes. -/
theorem C71_document_iff {refs : Refs} {env : Env} (hl : EnvLoads AnyLoaded (fun _ _ => True) env) (he : EnvOk refs env) (d : Dict Json) (o : Obj)
    (h : Built (.cls (s% "v2_0.Swagger")) (.obj d) o) (hres : DocResolves refs d) (hv : NamedValid d)
    (r : Dict Json) (rl : Routes) (hr : toOpenapi env o = .ok (r, rl)) (q : Option Str) :
    (∃ o', build pkg (.cls (s% "v3_0_0.OpenApi")) (.obj r) q [] = .ok o') ↔
      ∀ k e, (k, .obj e) ∈ objAt d (s% "securityDefinitions") → ScopesGiven e := by
  refine ⟨fun hb k e hk => ?_, fun hs => C71_document hl d o h hs r rl hr q⟩
  rw [C21_build_iff_shaped] at hb
  obtain ⟨_, _, _, _, _, _, ⟨c, ⟨_, _, _, _, hc, _⟩, hcr⟩, _⟩ := C53_document he d o h hres hv r rl hr
  have hne : objAt d (s% "securityDefinitions") ≠ [] := fun e => by rw [e] at hk; cases hk
  obtain ⟨m, hm, hent⟩ := hc.2 hne
  have hcne : c ≠ [] := fun e => by rw [e] at hm; cases hm
  rw [if_neg hcne] at hcr
  obtain ⟨⟨k', y⟩, hym, hkk, e', hee, hkept⟩ := forall₂_mem_left hent hk
  cases hee
  have s1 := shaped_step (k := s% "components") (cd := { builder := .cls (s% "v3_0_0.Components") }) hb (by decide +kernel) hcr
  have s2 := shaped_step (k := s% "securitySchemes") (cd := { builder := .mapOf (.ifNotRef (s% "v3_0_0.Reference")
    (.cls (s% "v3_0_0.SecurityScheme"))) }) s1 (by decide +kernel) hm
  cases s2 with
  | map h2 =>
    have h3 := h2 _ _ hym
    refine Classical.byContradiction (fun hn => ?_)
    have hnot : ¬ Within (s% "$ref") y := by
      obtain ⟨e2, rfl, _, _, _, _, _, ho⟩ := hkept
      rintro ⟨v, hv⟩
      exact absurd (ho (s% "$ref") (by rw [hv]; simp)) (by decide)
    cases h3 with
    | ref h4 _ => exact hnot h4
    | notRef _ _ h4 => exact kept_unshaped hkept hn h4

theorem plainEnv_loads : EnvLoads AnyLoaded (fun _ _ => True) plainEnv where
  deref := fun o p h _ e => by cases e; exact h
  normRef := fun _ _ _ _ _ => ⟨rfl, trivial⟩

/-- C71 of `wholeDoc`: it is converted, and the result can be loaded. -/
example : ∃ o r rl o', Built (.cls (s% "v2_0.Swagger")) (.obj wholeDoc) o ∧ toOpenapi plainEnv o = .ok (r, rl) ∧
    build pkg (.cls (s% "v3_0_0.OpenApi")) (.obj r) none [] = .ok o' := by
  obtain ⟨o, ho⟩ := wholeDoc_built
  obtain ⟨r, rl, hr⟩ := wholeDoc_converts o ho
  obtain ⟨o', ho'⟩ := C71_document plainEnv_loads wholeDoc o ho (fun k e hk => by
    have : (k, Json.obj e) ∈ [(s% "b", Json.obj [(s% "type", .str (s% "basic"))])] := hk
    simp only [List.mem_singleton, Prod.mk.injEq, Json.obj.injEq] at this
    obtain ⟨_, rfl⟩ := this
    intro h
    cases h) r rl hr none
  exact ⟨o, r, rl, o', ho, hr, ho'⟩

/-- An OAuth 2 scheme whose `scopes` are empty, as Swagger 2.0 allows. -/
def noScopes : Dict Json := [(s% "type", .str (s% "oauth2")), (s% "flow", .str (s% "implicit")),
  (s% "authorizationUrl", .str (s% "http://h/a")), (s% "scopes", .obj [])]

/-- A document with that scheme. -/
def noScopesDoc : Dict Json := [
  (s% "swagger", .str (s% "2.0")), (s% "host", .str (s% "h.com")), (s% "basePath", .str (s% "/v1")),
  (s% "securityDefinitions", .obj [(s% "a", .obj noScopes)])]

example : ∃ o, Built (.cls (s% "v2_0.SecurityScheme")) (.obj noScopes) o ∧
    ∃ r, toSecurityScheme o = .ok r ∧ ∀ q, ¬ ∃ o', build pkg (.cls (s% "v3_0_0.SecurityScheme")) r q [] = .ok o' := by
  obtain ⟨o, _, h⟩ := built_exists (regularB_sound 12 (.cls (s% "v2_0.SecurityScheme")) (.obj noScopes) (by decide +kernel))
    (by decide +kernel) none
  exact ⟨o, h, C71_scopes_violation noScopes o h (fun _ => ⟨s% "implicit", rfl, by decide⟩)
    (fun h => (h rfl).elim (fun h => h rfl) (fun h => h (s% "implicit") (by decide) rfl))⟩

/-- C71 is false of `noScopesDoc`: it is loaded and converted, and the result cannot be loaded. -/
theorem C71_document_violation : ∃ o r rl, Built (.cls (s% "v2_0.Swagger")) (.obj noScopesDoc) o ∧
    toOpenapi plainEnv o = .ok (r, rl) ∧ ∀ q, ¬ ∃ o', build pkg (.cls (s% "v3_0_0.OpenApi")) (.obj r) q [] = .ok o' := by
  obtain ⟨o, _, h⟩ := built_exists (regularB_sound 12 (.cls (s% "v2_0.Swagger")) (.obj noScopesDoc) (by decide +kernel))
    (by decide +kernel) none
  have hk : ∀ k e, (k, Json.obj e) ∈ objAt noScopesDoc (s% "securityDefinitions") → k = s% "a" ∧ e = noScopes := by
    intro k e hk
    have : (k, Json.obj e) ∈ [(s% "a", Json.obj noScopes)] := hk
    simpa only [List.mem_singleton, Prod.mk.injEq, Json.obj.injEq] using this
  obtain ⟨r, rl, hr⟩ := C53_converted plainEnv_ok noScopesDoc o h (s% "h.com") (s% "/v1") (.inl rfl) (.inl rfl) rfl
    (fun k e hk => by cases hk) (fun k e hk => by cases hk) (fun k e hk => by cases hk)
    (fun k e he => by
      obtain ⟨_, rfl⟩ := hk k e he
      exact fun _ => ⟨s% "implicit", rfl, by decide⟩)
  refine ⟨o, r, rl, h, hr, fun q => ?_⟩
  rw [C71_document_iff plainEnv_loads plainEnv_ok noScopesDoc o h (fun k e hk => by cases hk) (fun k e hk => by cases hk) r rl hr q]
  intro h
  exact (h (s% "a") noScopes (by decide) rfl).elim (fun h => h rfl) (fun h => h (s% "implicit") (by decide) rfl)

end Pyopenapi
