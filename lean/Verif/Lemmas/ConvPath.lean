import Verif.Lemmas.ConvResp
import Verif.Props.ConvBody

/-!
# Operations and path items
-/

namespace Pyopenapi
open Spec Obj Conv

/-- What the conversion is told about references, agrees with the documents they lead to; sets are sets; and no
reference to a schema leads to one of a file. -/
structure EnvOk (refs : Refs) (env : Env) : Prop where
  set : SetOk env
  param : ∀ d o, Built (.cls (s% "v2_0.Parameter")) (.obj d) o → env.deref o = .ok o
  paramRef : ∀ d v e o, Built (.cls (s% "v2_0.Reference")) (.obj d) o → Dict.get? d (s% "$ref") = some v →
    refs.param v = some e → ∃ p, env.deref o = .ok p ∧ Built (.cls (s% "v2_0.Parameter")) (.obj e) p
  resp : ∀ d o, Built (.cls (s% "v2_0.Response")) (.obj d) o → env.deref o = .ok o
  respRef : ∀ d v e o, Built (.cls (s% "v2_0.Reference")) (.obj d) o → Dict.get? d (s% "$ref") = some v →
    refs.resp v = some e → ∃ p, env.deref o = .ok p ∧ Built (.cls (s% "v2_0.Response")) (.obj e) p

  schema : ∀ j o, Built (.cls (s% "v2_0.Schema")) j o → ¬ IsFile j →
    ∃ s t, env.deref o = .ok s ∧ fld s (s% "type") = .ok t ∧ t ≠ .str (s% "file")

/-- A place for an object or a reference. -/
theorem built_ifNotRef {c : Str} {j : Json} {o : Obj} (h : Built (.ifNotRef (s% "v2_0.Reference") (.cls c)) j o) :
    ∃ d, j = .obj d ∧
      ((Dict.get? d (s% "$ref") = none ∧ Built (.cls c) (.obj d) o) ∨
       (∃ v, Dict.get? d (s% "$ref") = some v ∧ Built (.cls (s% "v2_0.Reference")) (.obj d) o)) := by
  obtain ⟨hr, hw, p, hb⟩ := h
  cases hr with
  | @ref _ _ d v hv hreg =>
    refine ⟨d, rfl, .inr ⟨v, hv, hreg, hw, p, ?_⟩⟩
    rw [build_ifNotRef] at hb
    simpa [specHas, hv, Dict.has] using hb
  | @notRef _ _ d hv hreg =>
    refine ⟨d, rfl, .inl ⟨hv, hreg, hw, p, ?_⟩⟩
    rw [build_ifNotRef] at hb
    simpa [specHas, hv, Dict.has] using hb

/-- A parameter of the document, as loaded. -/
theorem paramIn_of {refs : Refs} {env : Env} (he : EnvOk refs env) {j : Json} {o : Obj}
    (h : Built (.ifNotRef (s% "v2_0.Reference") (.cls (s% "v2_0.Parameter"))) j o) (hr : Resolves refs.param j) :
    ParamIn env o (behind refs.param j).ref (behind refs.param j).doc := by
  obtain ⟨d, rfl, ⟨h1, h2⟩ | ⟨v, h1, h2⟩⟩ := built_ifNotRef h
  · simp only [behind, h1]
    exact .inl ⟨rfl, h2, he.param d o h2⟩
  · obtain ⟨h3, h4⟩ := hr d v rfl h1
    obtain ⟨e, h4⟩ := Option.ne_none_iff_exists'.1 h4
    simp only [behind, h1, h4, Option.getD_some]
    obtain ⟨p, h5, h6⟩ := he.paramRef d v e o h2 h1 h4
    exact .inr ⟨v, d, p, rfl, h3, h2, h1, h5, h6⟩

/-- A response of the document, as loaded. -/
theorem respIn_of {refs : Refs} {env : Env} (he : EnvOk refs env) {j : Json} {o : Obj}
    (h : Built (.ifNotRef (s% "v2_0.Reference") (.cls (s% "v2_0.Response"))) j o) (hr : Resolves refs.resp j) :
    RespIn env o (behind refs.resp j) := by
  obtain ⟨d, rfl, ⟨h1, h2⟩ | ⟨v, h1, h2⟩⟩ := built_ifNotRef h
  · simp only [behind, h1]
    exact .inl ⟨rfl, h2, he.resp d o h2⟩
  · obtain ⟨h3, h4⟩ := hr d v rfl h1
    obtain ⟨e, h4⟩ := Option.ne_none_iff_exists'.1 h4
    simp only [behind, h1, h4, Option.getD_some]
    obtain ⟨p, h5, h6⟩ := he.respRef d v e o h2 h1 h4
    exact .inr ⟨v, d, p, rfl, h3, h2, h1, h5, h6⟩

/-- The parameters of an operation or a path item. -/
theorem paramsIn_of {refs : Refs} {env : Env} (he : EnvOk refs env) {c : Str} {d : Dict Json} {o : Obj}
    (h : Built (.cls c) (.obj d) o)
    (hc : (Dict.get? (pkg c).children (s% "parameters")).map (fun cd => cd.builder) =
      some (.listOf (.ifNotRef (s% "v2_0.Reference") (.cls (s% "v2_0.Parameter"))))) (hr : ParamsResolve refs d) :
    ParamsIn env (elems (kid o (s% "parameters"))) (paramsOf refs d) := by
  obtain ⟨h1, _⟩ := kid_listAt h hc
  unfold ParamsIn paramsOf
  unfold ParamsResolve at hr
  generalize listAt d (s% "parameters") = l at h1 hr
  generalize elems (kid o (s% "parameters")) = es at h1
  induction h1 with
  | nil => exact .nil
  | cons hx _ ih => exact .cons (paramIn_of he hx (hr _ (by simp))) (ih (fun j hj => hr j (by simp [hj])))

theorem toServers_length {env : Env} {root : Str} {ss : List Str} {l : List Json} (h : toServers env root ss = .ok l) :
    l.length = ss.length ∧ (Json.arr l).wf = true := by
  induction ss generalizing l with
  | nil => cases h; exact ⟨rfl, rfl⟩
  | cons s ss ih =>
    simp only [toServers, bind, Except.bind] at h
    cases h1 : env.withScheme s root with
    | error e => rw [h1] at h; cases h
    | ok u =>
      cases h2 : toServers env root ss with
      | error e => rw [h1, h2] at h; cases h
      | ok r =>
        rw [h1, h2] at h
        cases h
        obtain ⟨a, b⟩ := ih h2
        refine ⟨by simp [a], ?_⟩
        simp only [Json.wf, Json.wfL, Bool.and_eq_true] at b ⊢
        exact ⟨by simp [Json.wfD, Json.wf, Dict.NodupKeys, Dict.keys], b⟩

theorem putServers_built {env : Env} {d : Dict Json} {o : Obj} (h : Built (.cls (s% "v2_0.Operation")) (.obj d) o)
    {root : Str} {ret ret' : Dict Json} (hr : Dict.get? ret (s% "servers") = none)
    (hp : putServers env o root ret = .ok ret') :
    (listAt d (s% "schemes") = [] → ret' = ret) ∧
    (listAt d (s% "schemes") ≠ [] → ∃ l, toServers env root (strsAt d (s% "schemes")) = .ok l ∧
      Dict.get? ret' (s% "servers") = some (.arr l)) ∧ Step (s% "servers") ret ret' := by
  have hc : (Dict.get? (pkg (s% "v2_0.Operation")).children (s% "schemes")).map (fun cd => cd.builder) =
    some (.listOf .isStr) := by decide +kernel
  obtain ⟨_, h2, h3⟩ := kid_listAt h hc
  obtain ⟨s1, _⟩ := strs_strsAt h hc
  unfold putServers at hp
  by_cases hn : listAt d (s% "schemes") = []
  · rw [h2 hn] at hp; cases hp
    exact ⟨fun _ => rfl, fun hne => absurd hn hne, .refl _ _⟩
  · obtain ⟨y, y1, y2, _⟩ := h3 hn
    rw [y2] at s1
    simp only [y1, s1, bind, Except.bind] at hp
    cases ht : toServers env root (strsAt d (s% "schemes")) with
    | error e => rw [ht] at hp; cases hp
    | ok l =>
      rw [ht] at hp
      cases hp
      exact ⟨fun he => absurd he hn, fun _ => ⟨l, rfl, Dict.get?_set_self _ _ _⟩, .set _ _ (toServers_length ht).2⟩

theorem putOpResponses_built {refs : Refs} {env : Env} (he : EnvOk refs env) {d : Dict Json} {o : Obj}
    (h : Built (.cls (s% "v2_0.Operation")) (.obj d) o) (hres : ∀ kv ∈ objAt d (s% "responses"), Resolves refs.resp kv.2)
    {produces : List Str} {ret ret' : Dict Json} (hr : Dict.get? ret (s% "responses") = none)
    (hp : putOpResponses env o produces ret = .ok ret') :
    MapTo d (s% "responses") ret' (s% "responses")
      (fun x y => ResponseTo BareFile (ownOr d (s% "produces") produces) (behind refs.resp x) y) ∧
    Step (s% "responses") ret ret' := by
  obtain ⟨h1, h2, h3, hw⟩ := kid_objAt h (k := s% "responses")
    (b := .ifNotRef (s% "v2_0.Reference") (.cls (s% "v2_0.Response"))) (by decide +kernel)
  obtain ⟨s1, _⟩ := strs_strsAt h (k := s% "produces") (by decide +kernel)
  unfold putOpResponses at hp
  by_cases hn : objAt d (s% "responses") = []
  · rw [h2 hn] at hp; cases hp
    exact ⟨⟨fun _ => hr, fun hne => absurd hn hne⟩, .refl _ _⟩
  · obtain ⟨y, y1, y2, _⟩ := h3 hn
    rw [y2] at h1
    simp only [y1, s1, toResponses_eq, bind, Except.bind] at hp
    have ho : orElse (strsAt d (s% "produces")) produces = ownOr d (s% "produces") produces := rfl
    rw [ho] at hp
    cases hs : setAll (fun o => toResponse env o (ownOr d (s% "produces") produces)) (entries (some y)) [] with
    | error e => rw [hs] at hp; cases hp
    | ok m =>
      rw [hs] at hp
      cases hp
      obtain ⟨m1, m2⟩ := setAll_built
        (P := fun x y => ResponseTo BareFile (ownOr d (s% "produces") produces) (behind refs.resp x) y) h1 (wf_nodup hw)
        (fun x o r ⟨k, hk⟩ hbo hro => by
          rcases toResponse_built (respIn_of he hbo (hres _ hk)) (ownOr d (s% "produces") produces) with
            ⟨r', a1, a2, a3⟩ | ⟨a1, _⟩
          · rw [a1] at hro; cases hro; exact ⟨a2, a3⟩
          · rw [a1] at hro; cases hro) hs
      exact ⟨⟨fun hne => absurd hne hn, fun _ => ⟨m, Dict.get?_set_self _ _ _, m1⟩⟩, .set _ _ m2⟩

/-- The parameters put into an operation or a path item. -/
theorem putParams_built {refs : Refs} {env : Env} {d : Dict Json} {os : List Obj} {consumes : List Str}
    {body body' : Option (Dict Json)} {ps : List Json} (h : ParamsIn env os (paramsOf refs d))
    (hp : parameters env consumes os [] body = .ok (ps, body')) {ret : Dict Json}
    (hr : Dict.get? ret (s% "parameters") = none) :
    ParamsTo refs d (if ps = [] then ret else Dict.set ret (s% "parameters") (.arr ps)) ∧
    (∀ k, k ≠ s% "parameters" →
      Dict.get? (if ps = [] then ret else Dict.set ret (s% "parameters") (.arr ps)) k = Dict.get? ret k) := by
  obtain ⟨h1, _, _⟩ := C48_partition env consumes os _ h body ps body' hp
  refine ⟨⟨fun hn => ?_, fun hn => ?_⟩, fun k hk => ?_⟩
  · rw [hn] at h1; cases h1; exact hr
  · have : ps ≠ [] := by
      intro hps
      rw [hps] at h1
      generalize List.filter Part.isPlain (paramsOf refs d) = q at h1 hn
      cases h1; exact hn rfl
    rw [if_neg this]
    exact ⟨ps, Dict.get?_set_self _ _ _, h1⟩
  · split
    · rfl
    · exact Dict.get?_set_ne _ _ (Ne.symm hk)

/-- An operation: what it becomes, and the request body that goes with it. -/
theorem toOperation_built {refs : Refs} {env : Env} (he : EnvOk refs env) {d : Dict Json} {o : Obj}
    (h : Built (.cls (s% "v2_0.Operation")) (.obj d) o) (hres : OpResolves refs d) {root : Str}
    {produces consumes : List Str} {body body' : Option (Dict Json)} {ret : Dict Json}
    (ht : toOperation env o body root produces consumes = .ok (ret, body')) :
    OperationTo refs produces d ret ∧ Dict.get? ret (s% "requestBody") = none ∧
    (∃ ps, parameters env (ownOr d (s% "consumes") consumes) (elems (kid o (s% "parameters"))) [] body = .ok (ps, body')) ∧
    (listAt d (s% "schemes") ≠ [] → ∃ l, toServers env root (strsAt d (s% "schemes")) = .ok l ∧
      Dict.get? ret (s% "servers") = some (.arr l)) := by
  obtain ⟨r0, e0, c0, o0, _⟩ := genFields_copied
    (ks := [s% "summary", s% "description", s% "operationId", s% "deprecated"]) h (by decide +kernel) [] (by simp)
  have g0 : ∀ k, k ∉ [s% "summary", s% "description", s% "operationId", s% "deprecated"] → Dict.get? r0 k = none := by
    intro k hk; rw [o0 k hk]; rfl
  obtain ⟨r1, e1, c1, st1⟩ := putDump_built h (k := s% "tags") (b := .isStr) (by decide +kernel) rfl r0 (g0 _ (by decide))
  obtain ⟨r2, e2, c2, st2⟩ := putDump_built h (k := s% "security") (b := .mapOf (.listOf .isStr)) (by decide +kernel) rfl r1
    (by rw [st1.frame _ (by decide)]; exact g0 _ (by decide))
  obtain ⟨s1, _⟩ := strs_strsAt h (k := s% "consumes") (by decide +kernel)
  have hpin := paramsIn_of he h (by decide +kernel) hres.1
  unfold toOperation at ht
  have ho : orElse (strsAt d (s% "consumes")) consumes = ownOr d (s% "consumes") consumes := rfl
  simp only [e0, e1, e2, s1, ho, bind, Except.bind] at ht
  cases hp : parameters env (ownOr d (s% "consumes") consumes) (elems (kid o (s% "parameters"))) [] body with
  | error e => rw [hp] at ht; cases ht
  | ok pb =>
    obtain ⟨ps, b⟩ := pb
    rw [hp] at ht
    dsimp only at ht
    obtain ⟨q1, q2⟩ := putParams_built hpin hp (ret := r2)
      (by rw [st2.frame _ (by decide), st1.frame _ (by decide)]; exact g0 _ (by decide))
    generalize hr3 : (if ps = [] then r2 else Dict.set r2 (s% "parameters") (.arr ps)) = r3 at ht q1 q2
    cases hr : putOpResponses env o produces r3 with
    | error e => rw [hr] at ht; cases ht
    | ok r4 =>
      rw [hr] at ht
      dsimp only at ht
      obtain ⟨m1, st4⟩ := putOpResponses_built he h hres.2
        (by rw [q2 _ (by decide), st2.frame _ (by decide), st1.frame _ (by decide)]; exact g0 _ (by decide)) hr
      obtain ⟨r5, e5, b5, st5⟩ := putExternalDocs_built h (by decide +kernel) r4
        (by rw [st4.frame _ (by decide), q2 _ (by decide), st2.frame _ (by decide), st1.frame _ (by decide)]; exact g0 _ (by decide))
      rw [e5] at ht
      dsimp only at ht
      cases hs : putServers env o root r5 with
      | error e => rw [hs] at ht; cases ht
      | ok r6 =>
        rw [hs] at ht
        cases ht
        have n5 : Dict.get? r5 (s% "servers") = none := by
          rw [st5.frame _ (by decide), st4.frame _ (by decide), q2 _ (by decide), st2.frame _ (by decide),
            st1.frame _ (by decide)]; exact g0 _ (by decide)
        obtain ⟨v1, v2, st6⟩ := putServers_built h n5 hs
        have fr : ∀ k, k ≠ s% "servers" → k ≠ s% "externalDocs" → k ≠ s% "responses" → k ≠ s% "parameters" →
            Dict.get? ret k = Dict.get? r2 k := by
          intro k k1 k2 k3 k4
          rw [st6.frame _ k1, st5.frame _ k2, st4.frame _ k3, q2 _ k4]
        refine ⟨⟨fun k hk => ?_, ?_, ?_, ?_, ?_, ?_, ?_, fun k hk => ?_⟩, ?_, ⟨ps, rfl⟩, v2⟩
        · have hne : k ≠ s% "servers" ∧ k ≠ s% "externalDocs" ∧ k ≠ s% "responses" ∧ k ≠ s% "parameters" ∧
            k ≠ s% "security" ∧ k ≠ s% "tags" := by revert hk; revert k; decide
          rw [fr k hne.1 hne.2.1 hne.2.2.1 hne.2.2.2.1, st2.frame _ hne.2.2.2.2.1, st1.frame _ hne.2.2.2.2.2]
          exact c0 k hk
        · unfold ListKept; rw [fr _ (by decide) (by decide) (by decide) (by decide), st2.frame _ (by decide)]; exact c1
        · unfold ListKept; rw [fr _ (by decide) (by decide) (by decide) (by decide)]; exact c2
        · unfold ParamsTo at q1 ⊢
          rw [st6.frame _ (by decide), st5.frame _ (by decide), st4.frame _ (by decide)]; exact q1
        · unfold MapTo at m1 ⊢
          rw [st6.frame _ (by decide), st5.frame _ (by decide)]; exact m1
        · unfold Both at b5 ⊢
          rw [st6.frame _ (by decide)]; exact b5
        · constructor
          · intro hn; rw [v1 hn]; exact n5
          · intro hn
            refine Decidable.byContradiction (fun hne => ?_)
            obtain ⟨l, _, hl⟩ := v2 hne
            rw [hn] at hl; cases hl
        · refine Decidable.byContradiction (fun hn => hk ?_)
          simp only [operationMembers, List.mem_cons, List.not_mem_nil, or_false, not_or] at hn
          obtain ⟨n1, n2, n3, n4, n5, n6, n7, n8, n9, n10, n11⟩ := hn
          rw [fr k n11 n10 n9 n7, st2.frame _ n6, st1.frame _ n5]
          exact g0 k (by simp [n1, n2, n3, n4])
        · rw [fr _ (by decide) (by decide) (by decide) (by decide), st2.frame _ (by decide), st1.frame _ (by decide)]
          exact g0 _ (by decide)

/-! ### path items -/

/-- The operations of a path item without a body of its own: each is converted alone. -/
theorem pathOps_none {env : Env} {o : Obj} {root : Str} {produces consumes : List Str} :
    ∀ (ms : List Str) (acc ops : List (Str × Dict Json)) (body' : Option (Dict Json)),
      pathOps env o root produces consumes ms none acc = .ok (ops, body') →
      body' = none ∧ ∃ qs, ops = acc ++ qs ∧
        List.Forall₂ (fun m q => q.1 = m ∧ ∃ op ret b, kidT o m = some op ∧
          toOperation env op none root produces consumes = .ok (ret, b) ∧ q.2 = putBody b ret)
          (ms.filter (fun m => (kidT o m).isSome)) qs := by
  intro ms
  induction ms with
  | nil => intro acc ops body' h; cases h; exact ⟨rfl, [], by simp, .nil⟩
  | cons m ms ih =>
    intro acc ops body' h
    rw [pathOps] at h
    cases hk : kidT o m with
    | none =>
      rw [hk] at h
      obtain ⟨h1, qs, h2, h3⟩ := ih _ _ _ h
      refine ⟨h1, qs, h2, ?_⟩
      rw [List.filter_cons, if_neg (by rw [hk]; simp)]; exact h3
    | some op =>
      rw [hk] at h
      simp only [bind, Except.bind] at h
      cases ht : toOperation env op none root produces consumes with
      | error e => rw [ht] at h; cases h
      | ok rb =>
        obtain ⟨ret, b⟩ := rb
        rw [ht] at h
        dsimp only at h
        obtain ⟨h1, qs, h2, h3⟩ := ih _ _ _ h
        refine ⟨h1, (m, putBody b ret) :: qs, by rw [h2]; simp, ?_⟩
        rw [List.filter_cons, if_pos (by rw [hk]; rfl)]
        exact .cons ⟨rfl, op, ret, b, hk, ht, rfl⟩ h3

/-- The operations of a path item with a body: each adds to it what it has. -/
theorem pathOps_some {env : Env} {o : Obj} {root : Str} {produces consumes : List Str} :
    ∀ (ms : List Str) (acc ops : List (Str × Dict Json)) (body : Dict Json) (body' : Option (Dict Json)),
      (∀ m op b ret b', kidT o m = some op → toOperation env op (some b) root produces consumes = .ok (ret, b') →
        b' ≠ none) →
      pathOps env o root produces consumes ms (some body) acc = .ok (ops, body') →
      body' ≠ none ∧ ∃ qs, ops = acc ++ qs ∧
        List.Forall₂ (fun m q => q.1 = m ∧ ∃ op b b', kidT o m = some op ∧
          toOperation env op (some b) root produces consumes = .ok (q.2, b'))
          (ms.filter (fun m => (kidT o m).isSome)) qs := by
  intro ms
  induction ms with
  | nil => intro acc ops body body' _ h; cases h; exact ⟨by simp, [], by simp, .nil⟩
  | cons m ms ih =>
    intro acc ops body body' hne h
    rw [pathOps] at h
    cases hk : kidT o m with
    | none =>
      rw [hk] at h
      obtain ⟨h1, qs, h2, h3⟩ := ih _ _ _ _ hne h
      refine ⟨h1, qs, h2, ?_⟩
      rw [List.filter_cons, if_neg (by rw [hk]; simp)]; exact h3
    | some op =>
      rw [hk] at h
      simp only [bind, Except.bind] at h
      cases ht : toOperation env op (some body) root produces consumes with
      | error e => rw [ht] at h; cases h
      | ok rb =>
        obtain ⟨ret, b⟩ := rb
        rw [ht] at h
        dsimp only at h
        obtain ⟨b, rfl⟩ := Option.ne_none_iff_exists'.1 (hne m op _ _ _ hk ht)
        obtain ⟨h1, qs, h2, h3⟩ := ih _ _ _ _ hne h
        refine ⟨h1, (m, ret) :: qs, by rw [h2]; simp, ?_⟩
        rw [List.filter_cons, if_pos (by rw [hk]; rfl)]
        exact .cons ⟨rfl, op, _, _, hk, ht⟩ h3

theorem parameters_some {env : Env} {consumes : List Str} {os : List Obj} :
    ∀ (ps : List Json) (b : Dict Json) (ps' : List Json) (body' : Option (Dict Json)),
      parameters env consumes os ps (some b) = .ok (ps', body') → body' ≠ none := by
  induction os with
  | nil => intro ps b ps' body' h; cases h; simp
  | cons o os ih =>
    intro ps b ps' body' h
    simp only [parameters, bind, Except.bind] at h
    cases hc : paramCtx env o with
    | error e => rw [hc] at h; cases h
    | ok ctx =>
      rw [hc] at h
      dsimp only at h
      split at h
      · cases hr : toRequestBody env o (some b) ctx consumes with
        | error e => rw [hr] at h; cases h
        | ok b' => rw [hr] at h; exact ih _ _ _ _ h
      · cases hr : plainParameter o with
        | error e => rw [hr] at h; cases h
        | ok p => rw [hr] at h; exact ih _ _ _ _ h

theorem toOperation_params {env : Env} {o : Obj} {root : Str} {produces consumes : List Str}
    {body body' : Option (Dict Json)} {ret : Dict Json}
    (ht : toOperation env o body root produces consumes = .ok (ret, body')) :
    ∃ ps, parameters env (orElse (strs (kid o (s% "consumes"))) consumes) (elems (kid o (s% "parameters"))) [] body =
      .ok (ps, body') := by
  unfold toOperation at ht
  simp only [bind, Except.bind] at ht
  split at ht
  · cases ht
  split at ht
  · cases ht
  split at ht
  · cases ht
  split at ht
  · cases ht
  rename_i pb hp
  split at ht
  · cases ht
  split at ht
  · cases ht
  split at ht
  · cases ht
  cases ht
  exact ⟨_, hp⟩

theorem toOperation_some {env : Env} {o : Obj} {root : Str} {produces consumes : List Str} {b : Dict Json}
    {body' : Option (Dict Json)} {ret : Dict Json}
    (ht : toOperation env o (some b) root produces consumes = .ok (ret, body')) : body' ≠ none := by
  obtain ⟨ps, hp⟩ := toOperation_params ht
  exact parameters_some _ _ _ _ hp

theorem putBody_get (b : Option (Dict Json)) (ret : Dict Json) :
    (∀ k, k ≠ s% "requestBody" → Dict.get? (putBody b ret) k = Dict.get? ret k) ∧
    (Dict.get? ret (s% "requestBody") = none → Dict.get? (putBody b ret) (s% "requestBody") = b.map Json.obj) := by
  cases b with
  | none => exact ⟨fun _ _ => rfl, fun h => h⟩
  | some b => exact ⟨fun k hk => Dict.get?_set_ne _ _ (Ne.symm hk), fun _ => Dict.get?_set_self _ _ _⟩

/-- The description of an operation says nothing about its request body. -/
theorem operationTo_congr {refs : Refs} {produces : List Str} {d r r' : Dict Json} (h : OperationTo refs produces d r)
    (hr : ∀ k, k ≠ s% "requestBody" → Dict.get? r' k = Dict.get? r k) : OperationTo refs produces d r' := by
  obtain ⟨h1, h2, h3, h4, h5, h6, h7, h8⟩ := h
  refine ⟨fun k hk => ?_, ?_, ?_, ?_, ?_, ?_, ?_, fun k hk => ?_⟩
  · have : k ≠ s% "requestBody" := by revert hk; revert k; decide
    rw [hr k this]; exact h1 k hk
  · unfold ListKept at h2 ⊢; rw [hr _ (by decide)]; exact h2
  · unfold ListKept at h3 ⊢; rw [hr _ (by decide)]; exact h3
  · unfold ParamsTo at h4 ⊢; rw [hr _ (by decide)]; exact h4
  · unfold MapTo at h5 ⊢; rw [hr _ (by decide)]; exact h5
  · unfold Both at h6 ⊢; rw [hr _ (by decide)]; exact h6
  · rw [hr _ (by decide)]; exact h7
  · by_cases hb : k = s% "requestBody"
    · subst hb; decide
    · rw [hr k hb] at hk; exact h8 k hk

/-- The result of a path item, member by member. -/
theorem toPathItem_parts {env : Env} {o : Obj} {root : Str} {consumes produces : List Str} {r : Dict Json} {rl : Routes}
    (h : toPathItem env o root consumes produces = .ok (r, rl)) :
    ∃ ref ps body ops body', fld o (s% "$ref") = .ok ref ∧
      parameters env consumes (elems (kid o (s% "parameters"))) [] none = .ok (ps, body) ∧
      pathOps env o root produces consumes methods body [] = .ok (ops, body') ∧
      (Dict.NodupKeys ops → ∀ k, k ≠ s% "x-pyopenapi_internal_request_body" → Dict.get? r k =
        ((Dict.get? (ops.map (fun p => (p.1, Json.obj (putBody body' p.2)))) k).or
          (Dict.get? (if ps = [] then (if ref.truthy then [(s% "$ref", env.normRef o)] else [])
            else Dict.set (if ref.truthy then [(s% "$ref", env.normRef o)] else []) (s% "parameters") (.arr ps)) k))) := by
  unfold toPathItem at h
  simp only [bind, Except.bind] at h
  split at h
  · cases h
  rename_i ref href
  split at h
  · cases h
  rename_i pb hp
  split at h
  · cases h
  split at h
  · cases h
  rename_i ob hops
  obtain ⟨ps, body⟩ := pb
  obtain ⟨ops, body'⟩ := ob
  cases h
  refine ⟨ref, ps, body, ops, body', href, hp, hops, fun hn k hk => ?_⟩
  have hn' : Dict.NodupKeys (ops.map (fun p => (p.1, Json.obj (putBody body' p.2)))) := by
    unfold Dict.NodupKeys Dict.keys at hn ⊢
    rw [List.map_map]; exact hn
  rw [← Dict.get?_update hn']
  cases body' with
  | none => rfl
  | some b => exact Dict.get?_set_ne _ _ (Ne.symm hk)

theorem get?_map_val (f : Dict Json → Json) (l : List (Str × Dict Json)) (k : Str) :
    Dict.get? (l.map (fun p => (p.1, f p.2))) k = (Dict.get? l k).map f := by
  induction l with
  | nil => rfl
  | cons p l ih =>
    obtain ⟨k', v⟩ := p
    rw [List.map_cons, Dict.get?_cons, Dict.get?_cons]
    split
    · rfl
    · exact ih

/-- The operations of a path item: what stands at each method. -/
theorem ops_lookup {P : Str → Dict Json → Prop} {o : Obj} {ops : List (Str × Dict Json)}
    (h : List.Forall₂ (fun m q => q.1 = m ∧ P m q.2) (methods.filter (fun m => (kidT o m).isSome)) ops) :
    Dict.NodupKeys ops ∧
    (∀ m, m ∉ methods ∨ kidT o m = none → Dict.get? ops m = none) ∧
    (∀ m ∈ methods, ∀ op, kidT o m = some op → ∃ q, Dict.get? ops m = some q ∧ P m q) := by
  have hkeys : Dict.keys ops = methods.filter (fun m => (kidT o m).isSome) := by
    generalize methods.filter (fun m => (kidT o m).isSome) = l at h
    induction h with
    | nil => rfl
    | cons hx _ ih => simp only [Dict.keys, List.map_cons] at ih ⊢; rw [ih, hx.1]
  have hnd : Dict.NodupKeys ops := by
    unfold Dict.NodupKeys; rw [hkeys]
    exact List.Nodup.sublist List.filter_sublist (by decide)
  refine ⟨hnd, fun m hm => ?_, fun m hm op hk => ?_⟩
  · cases hg : Dict.get? ops m with
    | none => rfl
    | some q =>
      have : m ∈ Dict.keys ops := Dict.get?_isSome_iff.1 (by rw [hg]; rfl)
      rw [hkeys, List.mem_filter] at this
      rcases hm with hm | hm
      · exact absurd this.1 hm
      · rw [hm] at this; simp at this
  · have : m ∈ Dict.keys ops := by rw [hkeys, List.mem_filter]; exact ⟨hm, by rw [hk]; rfl⟩
    obtain ⟨q, hq⟩ := Option.isSome_iff_exists.1 (Dict.get?_isSome_iff.2 this)
    refine ⟨q, hq, ?_⟩
    obtain ⟨m', _, h1, h2⟩ := forall₂_mem h (Dict.mem_of_get? hq)
    simp only at h1 h2
    subst h1; exact h2

theorem method_ne {m : Str} (hm : m ∈ methods2) : m ≠ s% "x-pyopenapi_internal_request_body" ∧
    m ≠ s% "parameters" ∧ m ≠ s% "$ref" := by
  revert hm; revert m; decide

/-- The operation of a method. -/
theorem kid_method {d : Dict Json} {o : Obj} (h : Built (.cls (s% "v2_0.PathItem")) (.obj d) o) {m : Str}
    (hm : m ∈ methods2) :
    (given d m = none ∧ kidT o m = none ∧ kid o m = none) ∨
    (∃ e x, given d m = some (.obj e) ∧ kidT o m = some x ∧ kid o m = some x ∧ (m, e) ∈ opsOf d ∧
      Built (.cls (s% "v2_0.Operation")) (.obj e) x) := by
  have hc : (Dict.get? (pkg (s% "v2_0.PathItem")).children m).map (fun cd => cd.builder) =
      some (.cls (s% "v2_0.Operation")) := by
    revert hm; revert m; decide +kernel
  rcases built_kid_cls h hc with ⟨h1, h2, h3⟩ | ⟨e, x, h1, h2, h3, h4⟩
  · exact .inl ⟨h1, h2, h3⟩
  · refine .inr ⟨e, x, h1, h2, h3, ?_, h4⟩
    unfold opsOf
    rw [List.mem_filterMap]
    exact ⟨m, hm, by rw [(given_some.1 h1).1]⟩

/-! ### when the conversion succeeds -/

theorem setAll_total {f : Obj → R Json} {es : List (Str × Obj)} (h : ∀ e ∈ es, ∃ j, f e.2 = .ok j) (ret : Dict Json) :
    ∃ r, setAll f es ret = .ok r := by
  induction es generalizing ret with
  | nil => exact ⟨ret, rfl⟩
  | cons p es ih =>
    obtain ⟨k, o⟩ := p
    obtain ⟨j, hj⟩ := h (k, o) (by simp)
    rw [setAll]
    simp only at hj
    rw [hj]
    exact ih (fun e he => h e (by simp [he])) _

/-- An operation is converted when its parameters are, its headers can be and it names no schemes. -/
theorem toOperation_total {refs : Refs} {env : Env} (he : EnvOk refs env) {d : Dict Json} {o : Obj}
    (h : Built (.cls (s% "v2_0.Operation")) (.obj d) o) (hres : OpResolves refs d) {root : Str}
    {produces consumes : List Str} {body body' : Option (Dict Json)} {ps : List Json}
    (hp : parameters env (ownOr d (s% "consumes") consumes) (elems (kid o (s% "parameters"))) [] body = .ok (ps, body'))
    (hh : ∀ kv ∈ objAt d (s% "responses"), HeadersOk (behind refs.resp kv.2))
    (hs : listAt d (s% "schemes") = [] ∨ ∃ l, toServers env root (strsAt d (s% "schemes")) = .ok l) :
    ∃ ret, toOperation env o body root produces consumes = .ok (ret, body') := by
  obtain ⟨r0, e0, c0, o0, _⟩ := genFields_copied
    (ks := [s% "summary", s% "description", s% "operationId", s% "deprecated"]) h (by decide +kernel) [] (by simp)
  have g0 : ∀ k, k ∉ [s% "summary", s% "description", s% "operationId", s% "deprecated"] → Dict.get? r0 k = none := by
    intro k hk; rw [o0 k hk]; rfl
  obtain ⟨r1, e1, c1, st1⟩ := putDump_built h (k := s% "tags") (b := .isStr) (by decide +kernel) rfl r0 (g0 _ (by decide))
  obtain ⟨r2, e2, c2, st2⟩ := putDump_built h (k := s% "security") (b := .mapOf (.listOf .isStr)) (by decide +kernel) rfl r1
    (by rw [st1.frame _ (by decide)]; exact g0 _ (by decide))
  obtain ⟨s1, _⟩ := strs_strsAt h (k := s% "consumes") (by decide +kernel)
  have hpin := paramsIn_of he h (by decide +kernel) hres.1
  unfold toOperation
  have ho : orElse (strsAt d (s% "consumes")) consumes = ownOr d (s% "consumes") consumes := rfl
  simp only [e0, e1, e2, s1, ho, hp, bind, Except.bind]
  obtain ⟨q1, q2⟩ := putParams_built hpin hp (ret := r2)
    (by rw [st2.frame _ (by decide), st1.frame _ (by decide)]; exact g0 _ (by decide))
  generalize (if ps = [] then r2 else Dict.set r2 (s% "parameters") (.arr ps)) = r3 at q1 q2
  obtain ⟨r4, hr⟩ : ∃ r4, putOpResponses env o produces r3 = .ok r4 := by
    obtain ⟨h1, h2, h3, hw⟩ := kid_objAt h (k := s% "responses")
      (b := .ifNotRef (s% "v2_0.Reference") (.cls (s% "v2_0.Response"))) (by decide +kernel)
    unfold putOpResponses
    by_cases hn : objAt d (s% "responses") = []
    · rw [h2 hn]; exact ⟨_, rfl⟩
    · obtain ⟨y, y1, y2, _⟩ := h3 hn
      rw [y2] at h1
      simp only [y1, toResponses_eq, bind, Except.bind]
      obtain ⟨m, hm⟩ := setAll_total (f := fun x => toResponse env x (orElse (strs (kid o (s% "produces"))) produces))
        (es := entries (some y)) (fun e hmem => by
          obtain ⟨x, hx, hk, hb⟩ := forall₂_mem h1 hmem
          rcases toResponse_built (respIn_of he hb (hres.2 x hx)) (orElse (strs (kid o (s% "produces"))) produces) with
            ⟨r, a1, _⟩ | ⟨_, k, dd, a1, a2⟩
          · exact ⟨r, a1⟩
          · exact absurd a2 (hh x hx k dd a1)) []
      rw [hm]; exact ⟨_, rfl⟩
  rw [hr]
  dsimp only
  obtain ⟨m1, st4⟩ := putOpResponses_built he h hres.2
    (by rw [q2 _ (by decide), st2.frame _ (by decide), st1.frame _ (by decide)]; exact g0 _ (by decide)) hr
  obtain ⟨r5, e5, b5, st5⟩ := putExternalDocs_built h (by decide +kernel) r4
    (by rw [st4.frame _ (by decide), q2 _ (by decide), st2.frame _ (by decide), st1.frame _ (by decide)]; exact g0 _ (by decide))
  rw [e5]
  dsimp only
  obtain ⟨_, k2, k3⟩ := kid_listAt h (k := s% "schemes") (b := .isStr) (by decide +kernel)
  obtain ⟨t1, _⟩ := strs_strsAt h (k := s% "schemes") (by decide +kernel)
  obtain ⟨r6, hs6⟩ : ∃ r6, putServers env o root r5 = .ok r6 := by
    unfold putServers
    by_cases hn : listAt d (s% "schemes") = []
    · rw [k2 hn]; exact ⟨_, rfl⟩
    · obtain ⟨y, y1, y2, _⟩ := k3 hn
      rw [y2] at t1
      rcases hs with hs | ⟨l, hl⟩
      · exact absurd hs hn
      · simp only [y1, t1, hl, bind, Except.bind]; exact ⟨_, rfl⟩
  rw [hs6]
  exact ⟨r6, rfl⟩

/-- The parts of forms of the operations with the given methods. -/
def opParts (refs : Refs) (d : Dict Json) (ms : List Str) : List Part :=
  (ms.filterMap (fun m => match Dict.get? d m with
    | some (.obj e) => some (m, e)
    | _ => none)).flatMap (fun p => partsOf refs p.2)

theorem opParts_none {refs : Refs} {d : Dict Json} {m : Str} (ms : List Str) (h : given d m = none) :
    opParts refs d (m :: ms) = opParts refs d ms := by
  unfold opParts
  rw [List.filterMap_cons]
  rcases given_none.1 h with h | h <;> rw [h]

theorem opParts_some {refs : Refs} {d e : Dict Json} {m : Str} (ms : List Str) (h : given d m = some (.obj e)) :
    opParts refs d (m :: ms) = partsOf refs e ++ opParts refs d ms := by
  unfold opParts
  rw [List.filterMap_cons, (given_some.1 h).1]
  rfl

/-- What a shared body comes to: the parts of the operations are added, one after the other. -/
theorem pathOps_forms {refs : Refs} {env : Env} (he : EnvOk refs env) {d : Dict Json} {o : Obj}
    (h : Built (.cls (s% "v2_0.PathItem")) (.obj d) o) (hres : PathResolves refs d) {root : Str}
    {produces consumes : List Str} (hcons : ∀ p ∈ opsOf d, strsAt p.2 (s% "consumes") = [])
    (hforms : ∀ p ∈ opsOf d, FormsOnly refs p.2) :
    ∀ (ms : List Str), (∀ m ∈ ms, m ∈ methods2) → ∀ (gs : List Part) (body : Dict Json) (acc : List (Str × Dict Json)),
      FormSoFar consumes gs (some body) →
      (∀ ops body', pathOps env o root produces consumes ms (some body) acc = .ok (ops, body') →
        FormSoFar consumes (gs ++ opParts refs d ms) body' ∧ body' ≠ none) ∧
      (¬ Clash consumes (gs ++ opParts refs d ms) →
        (∀ p ∈ opsOf d, ¬ StyleTrouble consumes (paramsOf refs p.2) ∧
          (∀ kv ∈ objAt p.2 (s% "responses"), HeadersOk (behind refs.resp kv.2)) ∧ listAt p.2 (s% "schemes") = []) →
        ∃ ops body', pathOps env o root produces consumes ms (some body) acc = .ok (ops, body')) := by
  intro ms
  induction ms with
  | nil =>
    intro _ gs body acc hb
    refine ⟨fun ops body' hh => ?_, fun _ _ => ⟨acc, some body, rfl⟩⟩
    cases hh
    refine ⟨?_, by simp⟩
    simpa [opParts] using hb
  | cons m ms ih =>
    intro hms gs body acc hb
    have hms' : ∀ m ∈ ms, m ∈ methods2 := fun m' hm' => hms m' (by simp [hm'])
    rcases kid_method h (hms m (by simp)) with ⟨h1, h2, _⟩ | ⟨e, op, h1, h2, _, hmem, hbo⟩
    · rw [opParts_none ms h1]
      have hstep : pathOps env o root produces consumes (m :: ms) (some body) acc =
          pathOps env o root produces consumes ms (some body) acc := by rw [pathOps, h2]
      rw [hstep]
      exact ih hms' gs body acc hb
    · rw [opParts_some ms h1, ← List.append_assoc]
      have hc : ownOr e (s% "consumes") consumes = consumes := by unfold ownOr; rw [if_pos (hcons _ hmem)]
      have hin := paramsIn_of he hbo (by decide +kernel) (hres.2 _ hmem).1
      have hpf := parameters_forms he.set hin (hforms _ hmem) gs [] (some body) hb
      constructor
      · intro ops body' hh
        rw [pathOps, h2] at hh
        simp only [bind, Except.bind] at hh
        cases ht : toOperation env op (some body) root produces consumes with
        | error e => rw [ht] at hh; cases hh
        | ok rb =>
          obtain ⟨ret, b⟩ := rb
          rw [ht] at hh
          dsimp only at hh
          obtain ⟨b, rfl⟩ := Option.ne_none_iff_exists'.1 (toOperation_some ht)
          obtain ⟨_, _, ⟨ps, hps⟩, _⟩ := toOperation_built he hbo (hres.2 _ hmem) ht
          rw [hc] at hps
          rcases hpf with ⟨_, h4⟩ | ⟨_, ps', b', h4, h5, _⟩
          · rw [hps] at h4; cases h4
          · rw [hps] at h4
            cases h4
            exact (ih hms' _ b _ h5).1 _ _ hh
      · intro hncl hok
        obtain ⟨ok1, ok2, ok3⟩ := hok _ hmem
        rcases hpf with ⟨hbad, _⟩ | ⟨_, ps', b', h4, h5, _⟩
        · exfalso
          rcases hbad with hbad | hbad
          · exact hncl (clash_mono hbad)
          · exact ok1 hbad
        · have hp' : parameters env (ownOr e (s% "consumes") consumes) (elems (kid op (s% "parameters"))) [] (some body) =
              .ok (ps', b') := by rw [hc]; exact h4
          obtain ⟨ret, ht⟩ := toOperation_total he hbo (hres.2 _ hmem) (root := root) (produces := produces) hp' ok2 (.inl ok3)
          obtain ⟨b, rfl⟩ := Option.ne_none_iff_exists'.1 (toOperation_some ht)
          rw [pathOps, h2]
          simp only [ht, bind, Except.bind]
          exact (ih hms' _ b _ h5).2 hncl hok

theorem bodyIndexes_total {env : Env} {os : List Obj} {fs : List Part} (h : ParamsIn env os fs)
    (hv : ∀ f ∈ fs, f.isPlain = true ∨ f.isPart = true) : ∀ i, ∃ l, bodyIndexes env os i = .ok l := by
  induction h with
  | nil => intro i; exact ⟨[], rfl⟩
  | @cons o f os fs hof _ ih =>
    intro i
    obtain ⟨l, hl⟩ := ih (fun f hf => hv f (by simp [hf])) (i + 1)
    rcases hv f (by simp) with hf | hf
    · simp only [bodyIndexes, paramCtx_plain hof (of_decide_eq_true hf), hl, bind, Except.bind]; exact ⟨_, rfl⟩
    · simp only [bodyIndexes, paramCtx_part hof hf, hl, bind, Except.bind]; exact ⟨_, rfl⟩

end Pyopenapi
