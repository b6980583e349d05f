import Verif.Spec.Convertible
import Verif.Props.ConvSwagger

/-!
# C53: which documents are converted
-/

namespace Pyopenapi
open Spec Obj Conv

/-- Parameters outside of the body. -/
theorem parameters_out {env : Env} {consumes : List Str} {os : List Obj} {fs : List Part} (h : ParamsIn env os fs)
    (hp : ∀ f ∈ fs, f.isPlain = true) (hs : ¬ StyleTrouble consumes fs) :
    ∀ (ps : List Json) (body : Option (Dict Json)), ∃ ps', parameters env consumes os ps body = .ok (ps', body) := by
  induction h with
  | nil => intro ps body; exact ⟨ps, rfl⟩
  | @cons o f os fs hof _ ih =>
    intro ps body
    have hpl := hp f (by simp)
    simp only [parameters, bind, Except.bind, paramCtx_plain hof (of_decide_eq_true hpl), Bool.false_eq_true, if_false]
    rcases plainParameter_built hof with ⟨⟨hbad, href⟩, _⟩ | ⟨_, r, hr, _⟩
    · exact absurd ⟨f, by simp, hbad, .inl ⟨hpl, href⟩⟩ hs
    · rw [hr]
      exact ih (fun f hf => hp f (by simp [hf])) (fun ⟨f', hf', hx⟩ => hs ⟨f', by simp [hf'], hx⟩) _ _

theorem paramsIn_split {env : Env} {l2 : List Part} : ∀ {os : List Obj} {l1 : List Part}, ParamsIn env os (l1 ++ l2) →
    ∃ o1 o2, ParamsIn env o1 l1 ∧ ParamsIn env o2 l2 ∧ os = o1 ++ o2
  | os, [], h => ⟨[], os, .nil, h, rfl⟩
  | _, _ :: _, .cons hg htl => by
    obtain ⟨a, b, h1, h2, e⟩ := paramsIn_split htl
    exact ⟨_ :: a, b, .cons hg h1, h2, by rw [e]; rfl⟩

/-- Parameters that can be converted are. -/
theorem parameters_fit {refs : Refs} {env : Env} (he : EnvOk refs env) {consumes : List Str} {os : List Obj} {fs : List Part}
    (h : ParamsIn env os fs) (hf : ParamsFit consumes fs) : ∃ r, parameters env consumes os [] none = .ok r := by
  obtain ⟨hs, ⟨hv, hc⟩ | ⟨l1, f, l2, rfl, hb, hval, hpl⟩⟩ := hf
  · obtain ⟨ps, b, hr, _⟩ := (C49_forms env he.set consumes os fs h hv).2 (fun hn => hn.elim hc hs)
    exact ⟨_, hr⟩
  · obtain ⟨o1, o2, h1, h2, rfl⟩ := paramsIn_split h
    cases h2 with
    | @cons o _ o2 _ ho h2 =>
      obtain ⟨ps1, e1⟩ := parameters_out (consumes := consumes) h1 (fun g hg => hpl g (by simp [hg]))
        (fun ⟨f', hf', hx⟩ => hs ⟨f', by simp [hf'], hx⟩) [] none
      obtain ⟨b, e2, _⟩ := toRequestBody_body ho consumes
      obtain ⟨ps2, e3⟩ := parameters_out (consumes := consumes) h2 (fun g hg => hpl g (by simp [hg]))
        (fun ⟨f', hf', hx⟩ => hs ⟨f', by simp [hf'], hx⟩) ps1 (some b)
      have hib : bodyCtx.isBody = true := rfl
      rw [parameters_append, e1]
      simp only [parameters, bind, Except.bind, paramCtx_body ho hb (bodyOk_of he ho (hval.2 hb)), hib, if_true, e2, e3]
      exact ⟨_, rfl⟩

/-- The operations of a path item are converted when each is, whatever the body before it is. -/
theorem pathOps_total {env : Env} {o : Obj} {root : Str} {produces consumes : List Str} {body : Option (Dict Json)}
    (h : ∀ m ∈ methods2, ∀ op, kidT o m = some op → ∃ ret b, toOperation env op body root produces consumes = .ok (ret, b) ∧
      (body ≠ none → b = body)) :
    ∀ (ms : List Str), (∀ m ∈ ms, m ∈ methods2) → ∀ acc, ∃ r, pathOps env o root produces consumes ms body acc = .ok r := by
  intro ms
  induction ms with
  | nil => intro _ acc; exact ⟨_, rfl⟩
  | cons m ms ih =>
    intro hm acc
    have ih' := ih (fun m hm' => hm m (by simp [hm']))
    rw [pathOps]
    cases hk : kidT o m with
    | none => exact ih' acc
    | some op =>
      obtain ⟨ret, b, hr, hb⟩ := h m (hm m (by simp)) op hk
      simp only [hr, bind, Except.bind]
      cases body with
      | none => exact ih' _
      | some x => rw [hb (by simp)]; exact ih' _

theorem bodyIndexes_fit {refs : Refs} {env : Env} (he : EnvOk refs env) {os : List Obj} {fs : List Part} (h : ParamsIn env os fs)
    (hv : ∀ f ∈ fs, f.isPlain = true ∨ f.isPart = true ∨ (placeOf f.doc = .body ∧ ValidParam f)) :
    ∀ i, ∃ l, bodyIndexes env os i = .ok l := by
  induction h with
  | nil => intro i; exact ⟨[], rfl⟩
  | @cons o f os fs hof _ ih =>
    intro i
    obtain ⟨l, hl⟩ := ih (fun f hf => hv f (by simp [hf])) (i + 1)
    rcases hv f (by simp) with hf | hf | ⟨hb, hf⟩
    · simp only [bodyIndexes, paramCtx_plain hof (of_decide_eq_true hf), hl, bind, Except.bind]; exact ⟨_, rfl⟩
    · simp only [bodyIndexes, paramCtx_part hof hf, hl, bind, Except.bind]; exact ⟨_, rfl⟩
    · simp only [bodyIndexes, paramCtx_body hof hb (bodyOk_of he hof (hf.2 hb)), hl, bind, Except.bind]; exact ⟨_, rfl⟩

theorem servers_fit {env : Env} {d e : Dict Json} {o : Obj} (h : Built (.cls (s% "v2_0.Swagger")) (.obj d) o) {root : Str}
    (hu : serverUrl o = .ok root) (hf : SchemesFit env.ok d e) :
    listAt e (s% "schemes") = [] ∨ ∃ l, toServers env root (strsAt e (s% "schemes")) = .ok l := by
  refine hf.imp_right ?_
  rintro ⟨host, b, h1, h2, h3, h4, h5, h6, h7⟩
  have hbn : b ≠ [] := by rintro rfl; exact absurd h4.1 (by simp)
  have hbs : Str.startsWith b ['/'] = true := by
    cases b with
    | nil => exact absurd rfl hbn
    | cons c r =>
      have := h4.1
      simp only [List.head?_cons, Option.some.injEq] at this
      subst this; simp [Str.startsWith, List.isPrefixOf]
  have hsch : (strsAt d (s% "schemes")).head?.getD (s% "https") ∈ schemes2 := by
    generalize strsAt d (s% "schemes") = l at h6
    cases l with
    | nil => decide
    | cons a l => exact h6 a (by simp)
  have e := (serverUrl_spec h h1 h2 h6 hu).1 hbn
  rw [if_pos hbs, List.append_nil] at e
  rw [e, toServers_all (f := fun s => s ++ s% "://" ++ host ++ b)
    (fun s hx => withScheme_server env (h7 s hx) hsch h3 h4 h5)]
  exact ⟨_, rfl⟩

/-- Path items that can be converted are, wherever they stand. -/
theorem toPathItem_fits {refs : Refs} {env : Env} (he : EnvOk refs env) {d e : Dict Json} {po : Obj} {root : Str}
    (hserv : ∀ p ∈ opsOf e, listAt p.2 (s% "schemes") = [] ∨ ∃ l, toServers env root (strsAt p.2 (s% "schemes")) = .ok l)
    (hp : Built (.cls (s% "v2_0.PathItem")) (.obj e) po) (hres : PathResolves refs e) (hf : ItemFits refs env.ok d e) :
    ∃ r, toPathItem env po root (strsAt d (s% "consumes")) (strsAt d (s% "produces")) = .ok r := by
  have hin := paramsIn_of he hp (by decide +kernel) hres.1
  have hk : plainFields (s% "v2_0.PathItem") [s% "$ref"] = true := by decide +kernel
  have finish : ∀ (ps : List Json) (body : Option (Dict Json)),
      parameters env (strsAt d (s% "consumes")) (elems (kid po (s% "parameters"))) [] none = .ok (ps, body) →
      (∀ f ∈ paramsOf refs e, f.isPlain = true ∨ f.isPart = true ∨ (placeOf f.doc = .body ∧ ValidParam f)) →
      (∀ p ∈ opsOf e, ∀ op, Built (.cls (s% "v2_0.Operation")) (.obj p.2) op → ∃ ps b,
        parameters env (ownOr p.2 (s% "consumes") (strsAt d (s% "consumes"))) (elems (kid op (s% "parameters"))) [] body = .ok (ps, b) ∧
          (body ≠ none → b = body)) →
      ∃ r, toPathItem env po root (strsAt d (s% "consumes")) (strsAt d (s% "produces")) = .ok r := by
    intro ps body h1 h2 h3
    obtain ⟨ops, h4⟩ := pathOps_total (o := po) (env := env) (root := root) (produces := strsAt d (s% "produces"))
      (consumes := strsAt d (s% "consumes")) (body := body) (fun m hm op hop => by
        rcases kid_method hp hm with ⟨_, h2', _⟩ | ⟨e', op', _, h2', _, hmem, hbo⟩
        · rw [hop] at h2'; cases h2'
        · rw [hop] at h2'
          cases h2'
          obtain ⟨ps, b, h4, h5⟩ := h3 _ hmem _ hbo
          obtain ⟨ret, h6⟩ := toOperation_total he hbo (hres.2 _ hmem) (root := root) (produces := strsAt d (s% "produces"))
            h4 (hf.1 _ hmem).1 (hserv _ hmem)
          exact ⟨ret, b, h6, h5⟩) methods (fun m hm => hm) []
    obtain ⟨idx, h5⟩ := bodyIndexes_fit he hin h2 0
    unfold toPathItem
    simp only [built_fld hp (plainFields_cls hk), h1, h4, h5, bind, Except.bind]
    exact ⟨_, rfl⟩
  rcases hf.2 with ⟨h1, h2, h3⟩ | ⟨h1, h2, h3, h4, h5⟩ | ⟨h1, ⟨f, hf1, hf2⟩, h3⟩
  · obtain ⟨ps, hps⟩ := parameters_out hin h1 h2 [] none
    refine finish ps none hps (fun f hf => .inl (h1 f hf)) (fun p hp' op hop => ?_)
    obtain ⟨⟨ps, b⟩, hr⟩ := parameters_fit he (paramsIn_of he hop (by decide +kernel) (hres.2 _ hp').1) (h3 _ hp')
    exact ⟨ps, b, hr, fun hn => absurd rfl hn⟩
  · exact C52_converted he e po hp hres root _ _ (fun p hp => (h5 p hp).2.1) h1 (fun p hp => (h5 p hp).1) h2 h4 h3
      (fun p hp => ⟨(h5 p hp).2.2.2, (hf.1 p hp).1, (h5 p hp).2.2.1⟩)
  · obtain ⟨⟨ps, b⟩, hr⟩ := parameters_fit he hin h1
    refine finish ps b hr (fun g hg => ?_) (fun p hp' op hop => ?_)
    · obtain ⟨_, ⟨hv, _⟩ | ⟨l1, f', l2, e', hb, hval, hpl⟩⟩ := h1
      · exact (hv g hg).imp_right (fun h => .inl h.1)
      · rw [e'] at hg
        rcases List.mem_append.1 hg with hg | hg
        · exact .inl (hpl g (by simp [hg]))
        · rcases List.mem_cons.1 hg with rfl | hg
          · exact .inr (.inr ⟨hb, hval⟩)
          · exact .inl (hpl g (by simp [hg]))
    · obtain ⟨ps, hr⟩ := parameters_out (paramsIn_of he hop (by decide +kernel) (hres.2 _ hp').1) (h3 p hp').1 (h3 p hp').2 [] b
      exact ⟨ps, b, hr, fun _ => rfl⟩

/-- Path items that can be converted are. -/
theorem toPathItem_fit {refs : Refs} {env : Env} (he : EnvOk refs env) {d e : Dict Json} {o po : Obj} {root : Str}
    (h : Built (.cls (s% "v2_0.Swagger")) (.obj d) o) (hu : serverUrl o = .ok root)
    (hp : Built (.cls (s% "v2_0.PathItem")) (.obj e) po) (hres : PathResolves refs e) (hf : ItemFits refs env.ok d e) :
    ∃ r, toPathItem env po root (strsAt d (s% "consumes")) (strsAt d (s% "produces")) = .ok r :=
  toPathItem_fits he (fun p hp => servers_fit h hu (hf.1 p hp).2) hp hres hf

/-- **C53**: documents that can be converted are. -/
theorem C53_total {refs : Refs} {env : Env} (he : EnvOk refs env) (d : Dict Json) (o : Obj)
    (h : Built (.cls (s% "v2_0.Swagger")) (.obj d) o) (hres : DocResolves refs d) (hc : Convertible refs env.ok d) :
    ∃ r rl, toOpenapi env o = .ok (r, rl) := by
  obtain ⟨host, hh⟩ := hc.host
  obtain ⟨base, hb⟩ := hc.basePath
  refine C53_converted he d o h host base hh hb hc.security (fun k e hk => ?_) (fun k e hk po hb => ?_) hc.responses hc.schemes
  · obtain ⟨h1, h2⟩ := hc.paths k e hk
    exact ⟨h1, fun po root hu hb => toPathItem_fit he h hu hb (hres k e hk) h2⟩
  · exact parameters_fit he (.cons (.inl ⟨rfl, hb, he.param _ _ hb⟩) .nil) (hc.parameters k e hk)

end Pyopenapi
