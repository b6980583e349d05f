import Verif.Lemmas.Up12Scan

/-! The resource listing: info and authorizations. -/

namespace Pyopenapi
open Spec Obj Conv
namespace Up12

theorem setIf_step (v : Json) (name : Str) (d : Dict Json) (hv : v.wf = true) : Step name d (setIf v name d) := by
  unfold setIf
  split
  · exact .set _ _ hv
  · exact .refl _ _

theorem setIf_get {d : Dict Json} {k : Str} (name : Str) {r : Dict Json} (h : Dict.get? r name = none) :
    Dict.get? (setIf (look d k) name r) name = solid d k := by
  unfold setIf solid
  split
  · rw [Dict.get?_set_self]
  · exact h

theorem setIf_ne {v : Json} {name k : Str} {d : Dict Json} (h : name ≠ k) : Dict.get? (setIf v name d) k = Dict.get? d k := by
  unfold setIf
  split
  · rw [Dict.get?_set_ne _ _ h]
  · rfl

/-- A child of a class: what it is made of, or nothing. -/
theorem kid_cls_objAt {c c' : Str} {d : Dict Json} {o : Obj} (h : Built (.cls c) (.obj d) o) {k : Str}
    (hc : (Dict.get? (pkg c).children k).map (fun cd => cd.builder) = some (.cls c')) :
    (objAt d k = [] ∧ kidT o k = none ∧ kid o k = none) ∨
    (∃ x, kidT o k = some x ∧ kid o k = some x ∧ Built (.cls c') (.obj (objAt d k)) x) := by
  rcases built_kid_cls h hc with ⟨h1, h2, h3⟩ | ⟨e, x, h1, h2, h3, h4⟩
  · refine .inl ⟨?_, h2, h3⟩
    rcases given_none.1 h1 with h | h <;> (unfold objAt; rw [h])
  · refine .inr ⟨x, h2, h3, ?_⟩
    have := (given_some.1 h1).1
    rw [objAt_of this]
    exact h4

theorem get?_setIf (v : Json) (name : Str) (d : Dict Json) (k : Str) :
    Dict.get? (setIf v name d) k = if name = k ∧ v.truthy = true then some v else Dict.get? d k := by
  unfold setIf
  by_cases hv : v.truthy = true
  · rw [if_pos hv, Dict.get?_set]
    by_cases hk : name = k <;> simp [hk, hv]
  · rw [if_neg hv, if_neg (fun h => hv h.2)]

theorem look_nil (k : Str) : look [] k = .null := rfl

theorem infoOf_ok {l : Dict Json} {o : Obj} (h : Built (.cls (s% "v1_2.ResourceListing")) (.obj l) o) {st : State}
    (hr : resourceListing o = .ok st) : InfoTo12 l st.info ∧ st.tags = [] ∧ st.definitions = [] ∧ st.paths = [] ∧
      st.securityDefinitions = [] := by
  unfold resourceListing at hr
  obtain ⟨v, g0, hr⟩ := bindOk hr
  rw [built_look h (by decide +kernel)] at g0
  cases g0
  rcases kid_cls_objAt h (k := s% "info") (c' := s% "v1_2.Info") (by decide +kernel) with ⟨_, _, h3⟩ | ⟨i, _, h3, hi⟩
  · rw [h3] at hr; cases hr
  rw [h3] at hr
  dsimp only at hr
  obtain ⟨x1, g1, hr⟩ := bindOk hr
  have g1 := built_reqd hi (by decide +kernel) g1
  obtain ⟨x2, g2, hr⟩ := bindOk hr
  have g2 := built_reqd hi (by decide +kernel) g2
  obtain ⟨x3, g3, hr⟩ := bindOk hr
  rw [built_look hi (by decide +kernel)] at g3
  cases g3
  obtain ⟨x4, g4, hr⟩ := bindOk hr
  rw [built_look hi (by decide +kernel)] at g4
  cases g4
  obtain ⟨x5, g5, hr⟩ := bindOk hr
  rw [built_look hi (by decide +kernel)] at g5
  cases g5
  obtain ⟨x6, g6, hr⟩ := bindOk hr
  rw [built_look hi (by decide +kernel)] at g6
  cases g6
  cases hr
  refine ⟨?_, rfl, rfl, rfl, rfl⟩
  dsimp only
  subst g1 g2
  unfold InfoTo12
  generalize objAt l (s% "info") = e
  have hc : ∀ (v : Json) (d : Dict Json) (k : Str), Dict.get? (if v.truthy = true then Dict.set d (s% "contact") (.obj [(s% "email", v)]) else d) k =
      if s% "contact" = k ∧ v.truthy = true then some (.obj [(s% "email", v)]) else Dict.get? d k := by
    intro v d k
    by_cases hv : v.truthy = true
    · rw [if_pos hv, Dict.get?_set]
      by_cases hk : s% "contact" = k <;> simp [hk, hv]
    · rw [if_neg hv, if_neg (fun h => hv h.2)]
  have hl : ∀ (n u : Json) (d : Dict Json) (k : Str), s% "license" ≠ k → Dict.get? (licenseOf n u d) k = Dict.get? d k := by
    intro n u d k hk
    unfold licenseOf
    split
    · rw [Dict.get?_set_ne _ _ hk]
    · rfl
  refine ⟨?_, ?_, ?_, ?_, ?_, ?_, ?_⟩
  · rw [hl _ _ _ _ (by decide), hc, if_neg (fun h => absurd h.1 (by decide)), setIf_ne (by decide), setIf_ne (by decide), setIf_ne (by decide)]
    rfl
  · rw [hl _ _ _ _ (by decide), hc, if_neg (fun h => absurd h.1 (by decide)), setIf_ne (by decide), setIf_ne (by decide), setIf_get _ rfl]
  · rw [hl _ _ _ _ (by decide), hc, if_neg (fun h => absurd h.1 (by decide)), setIf_ne (by decide), setIf_get _ (by rw [setIf_ne (by decide)]; rfl)]
  · rw [hl _ _ _ _ (by decide), hc, if_neg (fun h => absurd h.1 (by decide)), setIf_get _ (by rw [setIf_ne (by decide), setIf_ne (by decide)]; rfl)]
  · rw [hl _ _ _ _ (by decide), hc, setIf_ne (by decide), setIf_ne (by decide), setIf_ne (by decide)]
    unfold solid
    by_cases ht : (look e (s% "contact")).truthy = true
    · rw [if_pos ⟨rfl, ht⟩, if_pos ht]; rfl
    · rw [if_neg (fun h => ht h.2), if_neg ht]; rfl
  · unfold licenseOf
    by_cases hn : ((look e (s% "license")).truthy || (look e (s% "licenseUrl")).truthy) = true
    · rw [if_pos hn, Dict.get?_set_self]
      dsimp only
      refine ⟨?_, _, rfl, ?_, ?_, ?_⟩
      · rcases Bool.or_eq_true _ _ ▸ hn with h | h
        · left; simp [solid, h]
        · right; simp [solid, h]
      · rw [setIf_ne (by decide), setIf_get _ rfl]
      · rw [setIf_get _ (by rw [setIf_ne (by decide)]; rfl)]
      · intro k hk
        rw [get?_setIf] at hk
        split at hk
        next h => rw [← h.1]; decide
        rw [get?_setIf] at hk
        split at hk
        next h => rw [← h.1]; decide
        exact absurd rfl hk
    · rw [if_neg hn]
      rw [hc, if_neg (fun h => absurd h.1 (by decide)), setIf_ne (by decide), setIf_ne (by decide), setIf_ne (by decide)]
      simp only [Bool.or_eq_true, not_or] at hn
      simp only [solid, hn.1, hn.2, Bool.false_eq_true, if_false]
      trivial
  · intro k hk
    by_cases h0 : s% "license" = k
    · rw [← h0]; decide
    rw [hl _ _ _ _ h0, hc] at hk
    split at hk
    next h => rw [← h.1]; decide
    rw [get?_setIf] at hk
    split at hk
    next h => rw [← h.1]; decide
    rw [get?_setIf] at hk
    split at hk
    next h => rw [← h.1]; decide
    rw [get?_setIf] at hk
    split at hk
    next h => rw [← h.1]; decide
    rw [Dict.get?_cons] at hk
    split at hk
    next h => rw [← h]; decide
    exact absurd rfl hk

theorem getOrNone_ok {c : Str} {d : Dict Json} {o : Obj} (h : Built (.cls c) (.obj d) o) {k : Str}
    (hk : requiredField c k = true) {v : Json} (hr : getOrNone [] k (some o) = .ok v) : v = look d k :=
  built_reqd h hk hr

theorem getOrNone_step {c c' k0 k : Str} {ks : List Str} {d : Dict Json} {o : Obj} (h : Built (.cls c) (.obj d) o)
    (hc : (Dict.get? (pkg c).children k0).map (fun cd => cd.builder) = some (.cls c')) {v : Json}
    (hr : getOrNone (k0 :: ks) k (some o) = .ok v)
    (hs : ∀ x, Built (.cls c') (.obj (objAt d k0)) x → getOrNone ks k (some x) = .ok v → v = look (follow ks (objAt d k0)) k) :
    v = look (follow (k0 :: ks) d) k := by
  rw [getOrNone] at hr
  unfold follow
  rcases kid_cls_objAt h hc with ⟨h1, h2, _⟩ | ⟨x, h2, _, h4⟩
  · rw [h2, getOrNone] at hr
    cases hr
    rw [h1]
    have : ∀ ks, follow ks [] = [] := by
      intro ks
      induction ks with
      | nil => rfl
      | cons k ks ih => rw [follow]; exact ih
    rw [this]
    rfl
  · rw [h2] at hr
    exact hs x h4 hr

theorem loginUrl_ok {d : Dict Json} {o : Obj} (h : Built (.cls (s% "v1_2.Authorization")) (.obj d) o) {v : Json}
    (hr : getOrNone [s% "grantTypes", s% "implicit", s% "loginEndpoint"] (s% "url") (some o) = .ok v) :
    v = look (follow [s% "grantTypes", s% "implicit", s% "loginEndpoint"] d) (s% "url") :=
  getOrNone_step h (c' := s% "v1_2.GrantTypes") (by decide +kernel) hr (fun _ h hr =>
    getOrNone_step h (c' := s% "v1_2.Implicit") (by decide +kernel) hr (fun _ h hr =>
      getOrNone_step h (c' := s% "v1_2.LoginEndpoint") (by decide +kernel) hr (fun _ h hr =>
        getOrNone_ok h (by decide +kernel) hr)))

theorem tokenUrl_ok {d : Dict Json} {o : Obj} (h : Built (.cls (s% "v1_2.Authorization")) (.obj d) o) {v : Json}
    (hr : getOrNone [s% "grantTypes", s% "authorization_code", s% "tokenEndpoint"] (s% "url") (some o) = .ok v) :
    v = look (follow [s% "grantTypes", s% "authorization_code", s% "tokenEndpoint"] d) (s% "url") :=
  getOrNone_step h (c' := s% "v1_2.GrantTypes") (by decide +kernel) hr (fun _ h hr =>
    getOrNone_step h (c' := s% "v1_2.AuthorizationCode") (by decide +kernel) hr (fun _ h hr =>
      getOrNone_step h (c' := s% "v1_2.TokenEndpoint") (by decide +kernel) hr (fun _ h hr =>
        getOrNone_ok h (by decide +kernel) hr)))

theorem scopeMap_ok {ds : List (Dict Json)} {os : List Obj}
    (h : List.Forall₂ (fun e o => Built (.cls (s% "v1_2.Scope")) (.obj e) o) ds os) : ∀ {sc sc' : Dict Json},
    scopeMap os sc = .ok sc' → ∀ k, Dict.get? sc' k = ((ds.filterMap (fun s =>
      if look s (s% "scope") = .str k then some (look s (s% "description")) else none)).getLast?).or (Dict.get? sc k) := by
  induction h with
  | nil => intro sc sc' hr k; cases hr; rfl
  | @cons d o ds os hb _ ih =>
    intro sc sc' hr k
    unfold scopeMap at hr
    obtain ⟨x, g1, hr⟩ := bindOk hr
    have g1 := built_reqd hb (by decide +kernel) g1
    obtain ⟨t, g2, hr⟩ := bindOk hr
    have g2 := asText_ok g2
    rw [built_look hb (by decide +kernel)] at hr
    obtain ⟨_, e0, hr⟩ := bindOk hr
    cases e0
    rw [ih hr k, List.filterMap_cons, ← g1, g2, Dict.get?_set]
    by_cases hk : t = k
    · subst hk
      simp only [if_true, List.getLast?_cons]
      cases ((ds.filterMap (fun s =>
        if look s (s% "scope") = .str t then some (look s (s% "description")) else none)).getLast?) <;> rfl
    · have : Json.str t ≠ .str k := fun h => hk (by cases h; rfl)
      simp only [hk, this, if_false]

theorem authorizationOf_ok {d : Dict Json} {o : Obj} (h : Built (.cls (s% "v1_2.Authorization")) (.obj d) o) {r : Dict Json}
    (hr : authorizationOf o = .ok r) : AuthorizationTo12 d r := by
  unfold authorizationOf at hr
  rw [built_look h (by decide +kernel)] at hr
  obtain ⟨_, e0, hr⟩ := bindOk hr
  cases e0
  obtain ⟨sc, g1, hr⟩ := bindOk hr
  have hsc := scopeMap_ok (kid_dictsAt h (k := s% "scopes") (c' := s% "v1_2.Scope") (by decide +kernel)) g1
  simp only [Dict.get?, Option.or_none] at hsc
  have ho : (if look d (s% "type") = .str (s% "basicAuth") then Json.str (s% "basic") else look d (s% "type")) = .str (s% "oauth2") ↔
      look d (s% "type") = .str (s% "oauth2") := by
    split
    next e => rw [e]; decide
    · rfl
  have ha : (if look d (s% "type") = .str (s% "basicAuth") then Json.str (s% "basic") else look d (s% "type")) = .str (s% "apiKey") ↔
      look d (s% "type") = .str (s% "apiKey") := by
    split
    next e => rw [e]; decide
    · rfl
  dsimp only at hr
  by_cases h1 : look d (s% "type") = .str (s% "oauth2")
  · rw [if_pos (ho.2 h1)] at hr
    obtain ⟨au, g2, hr⟩ := bindOk hr
    obtain ⟨tu, g3, hr⟩ := bindOk hr
    have g2 := loginUrl_ok h g2
    have g3 := tokenUrl_ok h g3
    cases hr
    have hfl : ∀ (a t : Json) (d : Dict Json) (k : Str), s% "flow" ≠ k → Dict.get? (flowOf a t d) k = Dict.get? d k := by
      intro a t d k hk
      unfold flowOf
      split
      · rw [Dict.get?_set_ne _ _ hk]
      · split
        · rw [Dict.get?_set_ne _ _ hk]
        · rfl
    have hau : loginUrl d = if au.truthy = true then some au else none := by rw [g2]; rfl
    have htu : tokenUrl d = if tu.truthy = true then some tu else none := by rw [g3]; rfl
    refine ⟨?_, ⟨sc, ?_, hsc⟩, fun _ => ⟨?_, ?_, ?_, ?_⟩, fun h => ?_, fun h => absurd h1 h⟩
    · rw [hfl _ _ _ _ (by decide), setIf_ne (by decide), setIf_ne (by decide)]
      rfl
    · rw [hfl _ _ _ _ (by decide), setIf_ne (by decide), setIf_ne (by decide)]
      rfl
    · rw [hfl _ _ _ _ (by decide), setIf_ne (by decide), hau, get?_setIf]
      split
      next h => rw [if_pos h.2]
      next h => rw [if_neg (fun h2 => h ⟨rfl, h2⟩)]; rfl
    · rw [hfl _ _ _ _ (by decide), htu, get?_setIf]
      split
      next h => rw [if_pos h.2]
      next h =>
        rw [if_neg (fun h2 => h ⟨rfl, h2⟩), setIf_ne (by decide)]; rfl
    · rw [hau, htu]
      unfold flowOf
      by_cases ta : au.truthy = true
      · rw [if_pos ta, Dict.get?_set_self]
        simp [ta]
      · rw [if_neg ta]
        by_cases tt : tu.truthy = true
        · rw [if_pos tt, Dict.get?_set_self]
          simp [ta, tt]
        · rw [if_neg tt, setIf_ne (by decide), setIf_ne (by decide)]
          simp [ta, tt, Dict.get?]
    · intro k hk
      by_cases h0 : s% "flow" = k
      · rw [← h0]; decide
      rw [hfl _ _ _ _ h0, get?_setIf] at hk
      split at hk
      next h => rw [← h.1]; decide
      rw [get?_setIf] at hk
      split at hk
      next h => rw [← h.1]; decide
      rw [Dict.get?_cons] at hk
      split at hk
      next h => rw [← h]; decide
      rw [Dict.get?_cons] at hk
      split at hk
      next h => rw [← h]; decide
      exact absurd rfl hk
    · rw [h1] at h; exact absurd h (by decide)
  · rw [if_neg (fun h => h1 (ho.1 h))] at hr
    by_cases h2 : look d (s% "type") = .str (s% "apiKey")
    · rw [if_pos (ha.2 h2), built_look h (by decide +kernel)] at hr
      obtain ⟨_, e0, hr⟩ := bindOk hr
      cases e0
      rw [built_look h (by decide +kernel)] at hr
      obtain ⟨_, e0, hr⟩ := bindOk hr
      cases e0
      cases hr
      refine ⟨?_, ⟨sc, ?_, hsc⟩, fun h => absurd h h1, fun _ => ⟨?_, ?_, ?_⟩, fun _ h => absurd h2 h⟩
      · rw [Dict.get?_set_ne _ _ (by decide), Dict.get?_set_ne _ _ (by decide)]; rfl
      · rw [Dict.get?_set_ne _ _ (by decide), Dict.get?_set_ne _ _ (by decide)]; rfl
      · rw [Dict.get?_set_ne _ _ (by decide), Dict.get?_set_self]
      · rw [Dict.get?_set_self]
      · intro k hk
        rw [Dict.get?_set] at hk
        split at hk
        next h => rw [← h]; decide
        rw [Dict.get?_set] at hk
        split at hk
        next h => rw [← h]; decide
        rw [Dict.get?_cons] at hk
        split at hk
        next h => rw [← h]; decide
        rw [Dict.get?_cons] at hk
        split at hk
        next h => rw [← h]; decide
        exact absurd rfl hk
    · rw [if_neg (fun h => h2 (ha.1 h))] at hr
      cases hr
      refine ⟨rfl, ⟨sc, rfl, hsc⟩, fun h => absurd h h1, fun h => absurd h h2, fun _ _ => ?_⟩
      intro k hk
      rw [Dict.get?_cons] at hk
      split at hk
      next h => rw [← h]; decide
      rw [Dict.get?_cons] at hk
      split at hk
      next h => rw [← h]; decide
      exact absurd rfl hk

/-- An authorization. -/
def isAuth (o : Obj) : Prop := o.className? = some (s% "v1_2.Authorization")

/-- The visits after the first one: authorizations, and what has no effect. -/
theorem auths_fold {env : Env} : ∀ (L : List (Str × Obj)) (s : State) (st : Option State),
    (∀ po ∈ L, po.2.className? ≠ some (s% "v1_2.ResourceListing") ∧ po.2.className? ≠ some (s% "v1_2.ApiDeclaration")) →
    L.foldlM (act env) (some s) = .ok st → ∃ s', st = some s' ∧ s' = { s with securityDefinitions := s'.securityDefinitions } ∧
      ∀ key, (∃ po ∈ L, isAuth po.2 ∧ getName po.1 = .ok key ∧ ∃ r, authorizationOf po.2 = .ok r ∧
          Dict.get? s'.securityDefinitions key = some (.obj r)) ∨
        ((∀ po ∈ L, isAuth po.2 → getName po.1 ≠ .ok key) ∧
          Dict.get? s'.securityDefinitions key = Dict.get? s.securityDefinitions key)
  | [], s, st, _, hr => by
    cases hr
    exact ⟨s, rfl, rfl, fun key => .inr ⟨by simp, rfl⟩⟩
  | po :: L, s, st, h, hr => by
    rw [List.foldlM_cons] at hr
    obtain ⟨st1, g1, hr⟩ := bindOk hr
    obtain ⟨n1, n2⟩ := h po (by simp)
    by_cases ha : isAuth po.2
    · have ha' := ha
      unfold isAuth at ha
      simp only [act, ha] at g1
      rw [if_neg (by decide), if_neg (by decide), if_pos trivial] at g1
      unfold authorization at g1
      obtain ⟨r, g2, g1⟩ := bindOk g1
      obtain ⟨n, g3, g1⟩ := bindOk g1
      cases g1
      obtain ⟨s', e1, e2, e3⟩ := auths_fold L _ _ (fun po hm => h po (List.mem_cons_of_mem _ hm)) hr
      refine ⟨s', e1, e2, fun key => ?_⟩
      rcases e3 key with ⟨q, hq, f⟩ | ⟨f1, f2⟩
      · exact .inl ⟨q, List.mem_cons_of_mem _ hq, f⟩
      · by_cases hk : n = key
        · subst hk
          exact .inl ⟨po, by simp, ha', g3, r, g2, by rw [f2]; exact Dict.get?_set_self _ _ _⟩
        · refine .inr ⟨fun q hq hqa => ?_, ?_⟩
          · rcases List.mem_cons.1 hq with rfl | hq
            · rw [g3]; intro hc; cases hc; exact hk rfl
            · exact f1 q hq hqa
          · rw [f2]; exact Dict.get?_set_ne _ _ hk
    · rw [act_unrouted] at g1
      · cases g1
        obtain ⟨s', e1, e2, e3⟩ := auths_fold L _ _ (fun po hm => h po (List.mem_cons_of_mem _ hm)) hr
        refine ⟨s', e1, e2, fun key => ?_⟩
        rcases e3 key with ⟨q, hq, f⟩ | ⟨f1, f2⟩
        · exact .inl ⟨q, List.mem_cons_of_mem _ hq, f⟩
        · refine .inr ⟨fun q hq hqa => ?_, f2⟩
          rcases List.mem_cons.1 hq with rfl | hq
          · exact absurd hqa ha
          · exact f1 q hq hqa
      · intro c hc
        rw [hc] at n1 n2
        have n3 : some c ≠ some (s% "v1_2.Authorization") := fun hc' => ha (hc.trans hc')
        simp only [ne_eq, Option.some.injEq] at n1 n2 n3
        simp [unrouted, n1, n2, n3]

/-- What lies below a list or a map of objects of a class: its elements. -/
theorem elem_cls {T : Table} {c : Str} {j : Json} {p : Option Str} {m x : Obj} {ts : List Str} (hl : Leads m ts x) (hm : m.isBase = false)
    (h : build T (.listOf (.cls c)) j p [] = .ok m ∨ build T (.mapOf (.cls c)) j p [] = .ok m) (hj : j.wf = true) :
    (∃ y q, y.wf = true ∧ build T (.cls c) y q [] = .ok x) ∧ ∃ k, ts = [k] ∧ Slot m k x := by
  have key : ∀ k z, Slot m k z → ∃ y q, y.wf = true ∧ build T (.cls c) y q [] = .ok z := by
    intro k z hs
    cases hs with
    | child h => cases hm
    | item hx =>
      rcases h with h | h
      · cases j with
        | arr l => rw [build_list] at h; split at h <;> cases h
        | _ => rw [build_list_other _ _ _ (by simp)] at h; cases h
      · obtain ⟨d, rfl, _, h2⟩ := map_elems h
        obtain ⟨y, q, hy, h3⟩ := h2 _ _ hx
        simp only [Json.wf, Bool.and_eq_true, decide_eq_true_eq] at hj
        exact ⟨y, q, wf_of_memD hj.2 hy, h3⟩
    | elem hx =>
      rcases h with h | h
      · obtain ⟨l, rfl, h2⟩ := list_elems h
        obtain ⟨y, hy, q, h3⟩ := h2 _ (List.mem_of_getElem? hx)
        exact ⟨y, q, wf_of_memL (by simpa [Json.wf] using hj) hy, h3⟩
      · cases j with
        | obj l => rw [build_map] at h; split at h <;> cases h
        | _ => rw [build_map_other _ _ _ (by simp)] at h; cases h
  cases hl with
  | direct hs _ => exact ⟨key _ _ hs, _, rfl, hs⟩
  | through hs hb _ =>
    obtain ⟨y, q, _, hy⟩ := key _ _ hs
    rw [build_cls] at hy
    split at hy <;> cases hy
    cases hb

/-- The children of the listing that are authorizations: those of the map. -/
theorem listing_leads {l : Dict Json} {o : Obj} (h : Built (.cls (s% "v1_2.ResourceListing")) (.obj l) o) {ts : List Str} {x : Obj}
    (hl : Leads o ts x) : (∃ c, x.className? = some c ∧ c ≠ s% "v1_2.ResourceListing" ∧ c ≠ s% "v1_2.ApiDeclaration" ∧
        ∃ j p, j.wf = true ∧ build pkg (.cls c) j p [] = .ok x) ∧
      (isAuth x → ∃ n, ts = [s% "authorizations", n] ∧ (n, x) ∈ entries (kid o (s% "authorizations"))) := by
  obtain ⟨hr, hw, p, hb⟩ := id h
  obtain ⟨l', p', ks, e1, rfl, hk⟩ := built_cls h
  cases e1
  have hnd : Dict.NodupKeys ks := Dict.nodupKeys_collect (okTable_pkg.cls _).children hk
  have key : ∀ k m, Slot (.base (s% "v1_2.ResourceListing") p' (.obj l) ks) k m →
      Dict.get? ks k = some m ∧ ∃ cd v q, (k, cd) ∈ (pkg (s% "v1_2.ResourceListing")).children ∧ v.wf = true ∧
        build pkg cd.builder v q [] = .ok m := by
    intro k m hs
    cases hs with
    | child hm =>
      obtain ⟨cd, d, v, h1, e2, h3, h4⟩ := (base_kids hb).2 _ _ hm
      cases e2
      exact ⟨Dict.get?_of_mem hnd hm, cd, v, _, h1, wf_at hw h3, h4⟩
  have hch : (pkg (s% "v1_2.ResourceListing")).children = [
    (s% "apis", { builder := (.listOf (.cls (s% "v1_2.ResourceInListing"))) }),
    (s% "info", { builder := (.cls (s% "v1_2.Info")) }),
    (s% "authorizations", { builder := (.mapOf (.cls (s% "v1_2.Authorization"))) })] := by rfl
  have hbase : ∀ c j q, build pkg (.cls c) j q [] = .ok x → x.className? = some c := by
    intro c j q hx
    rw [build_cls] at hx
    split at hx <;> cases hx
    rfl
  cases hl with
  | @direct _ _ k hs hx =>
    obtain ⟨h1, cd, v, q, h2, h3, h4⟩ := key _ _ hs
    rw [hch] at h2
    simp only [List.mem_cons, Prod.mk.injEq, List.not_mem_nil, or_false] at h2
    rcases h2 with ⟨rfl, rfl⟩ | ⟨rfl, rfl⟩ | ⟨rfl, rfl⟩
    · have := build_cont (b := .listOf (.cls (s% "v1_2.ResourceInListing"))) rfl h4
      rw [hx] at this; cases this
    · have hc := hbase _ _ _ h4
      refine ⟨⟨_, hc, by decide, by decide, v, q, h3, h4⟩, fun ha => ?_⟩
      unfold isAuth at ha
      rw [hc] at ha
      exact absurd ha (by decide)
    · have := build_cont (b := .mapOf (.cls (s% "v1_2.Authorization"))) rfl h4
      rw [hx] at this; cases this
  | @through _ m _ k ts hs hm hl =>
    obtain ⟨h1, cd, v, q, h2, h3, h4⟩ := key _ _ hs
    rw [hch] at h2
    simp only [List.mem_cons, Prod.mk.injEq, List.not_mem_nil, or_false] at h2
    rcases h2 with ⟨rfl, rfl⟩ | ⟨rfl, rfl⟩ | ⟨rfl, rfl⟩
    · obtain ⟨⟨j, q', f1, f2⟩, e⟩ := elem_cls hl hm (.inl h4) h3
      have hc := hbase _ _ _ f2
      refine ⟨⟨_, hc, by decide, by decide, j, q', f1, f2⟩, fun ha => ?_⟩
      unfold isAuth at ha
      rw [hc] at ha
      exact absurd ha (by decide)
    · obtain ⟨ks', e⟩ : ∃ ks', m = .base (s% "v1_2.Info") q v ks' := by
        dsimp only at h4
        rw [build_cls] at h4
        split at h4 <;> cases h4
        exact ⟨_, rfl⟩
      rw [e] at hm
      cases hm
    · obtain ⟨⟨j, q', f1, f2⟩, n, rfl, e⟩ := elem_cls hl hm (.inr h4) h3
      have hc := hbase _ _ _ f2
      refine ⟨⟨_, hc, by decide, by decide, j, q', f1, f2⟩, fun _ => ⟨n, rfl, ?_⟩⟩
      have hkid : kid (.base (s% "v1_2.ResourceListing") p' (.obj l) ks) (s% "authorizations") = some m := h1
      rw [hkid]
      cases e with
      | child _ => cases hm
      | item he => exact he
      | elem _ =>
        cases v with
        | obj d =>
          dsimp only at h4
          rw [build_map] at h4
          split at h4 <;> cases h4
        | _ => rw [build_map_other _ _ _ (by simp)] at h4; cases h4

theorem getName_path (n : Str) : getName (s% "#/authorizations/" ++ escape n) = .ok (escape n) := by
  unfold getName
  have h1 : '/' ∉ escape n := by rw [← jpEncode_eq_escape]; exact slash_not_mem_jpEncode n
  have : Str.splitC '/' (s% "#/authorizations/" ++ escape n) = [s% "#", s% "authorizations", escape n] := by
    have h2 : (s% "#/authorizations/" ++ escape n) = Str.joinC '/' [s% "#", s% "authorizations", escape n] := by
      simp [Str.joinC]
    rw [h2]
    refine Str.splitC_joinC (by simp) ?_
    intro p hp
    simp only [List.mem_cons, List.not_mem_nil, or_false] at hp
    rcases hp with rfl | rfl | rfl
    · decide
    · decide
    · exact h1
  rw [this]

/-- The scan of the listing. -/
theorem scan_listing {env : Env} {st0 st : Option State} {l : Dict Json} {o : Obj}
    (h : Built (.cls (s% "v1_2.ResourceListing")) (.obj l) o)
    (hr : scan [[some (dispatcher env)]] (some o) [] st0 = .ok st) :
    ∃ s, st = some s ∧ StateTo env [] s ∧ InfoTo12 l s.info ∧ SecurityTo12 l s.securityDefinitions := by
  rw [scan_act] at hr
  obtain ⟨hreg, hw, p, hb⟩ := id h
  unfold traverse at hr
  rw [traverseLoop_one, List.foldlM_cons] at hr
  have hcl : o.className? = some (s% "v1_2.ResourceListing") := by
    rw [build_cls] at hb
    split at hb <;> cases hb
    rfl
  obtain ⟨st1, g1, hr⟩ := bindOk hr
  simp only [act, hcl, if_true] at g1
  obtain ⟨s1, g2, e1⟩ : ∃ s, resourceListing o = .ok s ∧ st1 = some s := by
    cases hq : resourceListing o with
    | error e => rw [hq] at g1; cases g1
    | ok s => rw [hq] at g1; cases g1; exact ⟨s, rfl, rfl⟩
  subst e1
  obtain ⟨i1, i2, i3, i4, i5⟩ := infoOf_ok h g2
  have hleaf : isLeaf [] o = false := by cases o <;> rfl
  rw [hleaf] at hr
  simp only [Bool.false_eq_true, if_false] at hr
  -- the children, with their names
  have hC : ∀ c, noCallbacks c = true → (pkg c).children.all
      (fun kc => within noCallbacks (fun b => flatB b || contB b) kc.2.builder) = true := by
    intro c hc
    have h := pkg_children (p := fun c kc => !noCallbacks c ||
      within noCallbacks (fun b => flatB b || contB b) kc.2.builder) (by decide +kernel) c
    simpa [hc] using h
  have hload : Loaded pkg (fun b => within noCallbacks (fun b => flatB b || contB b) b = true) o :=
    ⟨_, _, p, by decide, hw, hb⟩
  have hkeyed := loaded_keyed okTable_pkg (closed_within hC) hload
  have hkids := kids_lab _ o (Nat.le_refl _) (lab_names_nodup _ o (Nat.le_refl _) hkeyed (loaded_noMix plainNames_pkg hC hload))
  have hmem : ∀ nm x, (nm, x) ∈ kids o ↔ ∃ ts, Leads o ts x ∧ nm = nameOf ts := by
    intro nm x
    rw [hkids]
    simp only [List.mem_map, labN, Prod.exists, Prod.mk.injEq]
    constructor
    · rintro ⟨ts, y, hm, rfl, rfl⟩
      exact ⟨ts, (mem_lab _ o (Nat.le_refl _) ts y).1 hm, rfl⟩
    · rintro ⟨ts, hl, rfl⟩
      exact ⟨ts, x, (mem_lab _ o (Nat.le_refl _) ts x).2 hl, rfl, rfl⟩
  have hfold : ∀ (L : List (Str × Obj)) (s : Option State), (∀ po ∈ L, ∃ ts, Leads o ts po.2) →
      (L.flatMap (fun s => traverseLoop [] [s])).foldlM (act env) s = L.foldlM (act env) s := by
    intro L
    induction L with
    | nil => intro s _; rfl
    | cons po L ih =>
      intro s hL
      obtain ⟨ts, hl⟩ := hL po (by simp)
      obtain ⟨⟨c, _, c1, _, j, q, hj, hx⟩, _⟩ := listing_leads h hl
      rw [List.flatMap_cons, List.foldlM_append, List.foldlM_cons]
      rw [show traverseLoop [] [po] = traverseLoop [] [(po.1, po.2)] from rfl, fold_one c1 hj hx]
      congr 1
      funext s
      exact ih s (fun po hm => hL po (List.mem_cons_of_mem _ hm))
  have hsub : ∀ po ∈ ((kids o).map (fun c => (s% "#" ++ '/' :: c.1, c.2))).reverse, ∃ ts, Leads o ts po.2 ∧
      po.1 = s% "#/" ++ nameOf ts := by
    rintro ⟨q, x⟩ hm
    simp only [List.mem_reverse, List.mem_map, Prod.exists, Prod.mk.injEq] at hm
    obtain ⟨nm, y, hy, rfl, rfl⟩ := hm
    obtain ⟨ts, hl, rfl⟩ := (hmem nm y).1 hy
    exact ⟨ts, hl, rfl⟩
  rw [hfold _ _ (fun po hm => (hsub po hm).imp (fun _ h => h.1))] at hr
  obtain ⟨s', e1, e2, e3⟩ := auths_fold _ _ _ (by
    intro po hm
    obtain ⟨ts, hl, _⟩ := hsub po hm
    obtain ⟨⟨c, c0, c1, c2, _⟩, _⟩ := listing_leads h hl
    rw [c0]
    exact ⟨fun h => c1 (Option.some.inj h), fun h => c2 (Option.some.inj h)⟩) hr
  obtain ⟨q1, q2, q3, q4⟩ := kid_objAt h (k := s% "authorizations") (b := .cls (s% "v1_2.Authorization")) (by decide +kernel)
  refine ⟨s', e1, stateTo_nil (by rw [e2]; exact i4) (by rw [e2]; exact i3) (by rw [e2]; exact i2), by rw [e2]; exact i1, ?_⟩
  have hname : ∀ n, s% "#/" ++ nameOf [s% "authorizations", n] = s% "#/authorizations/" ++ escape n := by
    intro n
    rw [nameOf, nameOf, jpCompose2, jpEncode_eq_escape, jpEncode_eq_escape]
    rfl
  intro key
  rcases e3 key with ⟨po, hm, ha, hn, r, hr1, hr2⟩ | ⟨f1, f2⟩
  · rw [hr2]
    obtain ⟨ts, hl, hpo⟩ := hsub po hm
    obtain ⟨n, rfl, hx⟩ := (listing_leads h hl).2 ha
    rw [hpo, hname, getName_path] at hn
    cases hn
    obtain ⟨⟨n', v⟩, hv1, hv2, hv3⟩ := forall₂_mem_right q1 hx
    simp only at hv2 hv3
    subst hv2
    obtain ⟨d, _, _, rfl, _, _⟩ := built_cls hv3
    exact ⟨n', d, r, rfl, Dict.get?_of_mem (wf_nodup q4) hv1, rfl, authorizationOf_ok hv3 hr1⟩
  · rw [f2, i5]
    intro n hn
    cases hg : Dict.get? (objAt l (s% "authorizations")) n with
    | none => rfl
    | some v =>
      exfalso
      obtain ⟨⟨n', x⟩, hx1, hx2, hx3⟩ := forall₂_mem_left q1 (Dict.mem_of_get? hg)
      simp only at hx2 hx3
      subst hx2
      obtain ⟨m, hm⟩ : ∃ m, kid o (s% "authorizations") = some m := by
        cases hk : kid o (s% "authorizations") with
        | none => rw [hk] at hx1; cases hx1
        | some m => exact ⟨m, rfl⟩
      rw [hm] at hx1
      have hl : Leads o [s% "authorizations", n] x := by
        obtain ⟨l', p', ks, _, rfl, hk⟩ := built_cls h
        refine .through (.child (Dict.mem_of_get? hm)) ?_ (.direct ?_ ?_)
        · cases m with
          | base => cases hx1
          | _ => rfl
        · cases m with
          | map b p s es => exact .item hx1
          | _ => cases hx1
        · obtain ⟨d, _, _, _, rfl, _⟩ := built_cls hx3
          rfl
      have hin : (s% "#/" ++ nameOf [s% "authorizations", n], x) ∈ ((kids o).map (fun c => (s% "#" ++ '/' :: c.1, c.2))).reverse := by
        simp only [List.mem_reverse, List.mem_map, Prod.exists, Prod.mk.injEq]
        exact ⟨_, x, (hmem _ x).2 ⟨_, hl, rfl⟩, rfl, rfl⟩
      refine f1 _ hin ?_ ?_
      · obtain ⟨d, _, _, _, rfl, _⟩ := built_cls hx3
        rfl
      · dsimp only
        rw [hname, getName_path, hn]

end Up12
end Pyopenapi
