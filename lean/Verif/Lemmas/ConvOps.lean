import Verif.Lemmas.ConvBody

/-!
# What the converters make of lists of parameters
-/

namespace Pyopenapi
open Spec Obj Conv

/-! ### the body -/

theorem bodyContent_get (s : Json) : ∀ (ts : List Str) (content : Dict Json),
    (∀ t ∈ ts, Conv.sub content t = [] ∨ Conv.sub content t = [(s% "schema", s)]) →
    (∀ t, Dict.get? (bodyContent s ts content) t = if t ∈ ts then some (.obj [(s% "schema", s)]) else Dict.get? content t) ∧
    ((Json.obj content).wf = true → s.wf = true → (Json.obj (bodyContent s ts content)).wf = true) := by
  intro ts
  induction ts with
  | nil => intro content _; exact ⟨fun t => by simp [bodyContent], fun h _ => h⟩
  | cons t ts ih =>
    intro content h
    have hset : Dict.set (Conv.sub content t) (s% "schema") s = [(s% "schema", s)] := by
      rcases h t (by simp) with h | h <;> rw [h] <;> simp [Dict.set]
    simp only [bodyContent]
    rw [hset]
    have hsub : ∀ t' ∈ ts, Conv.sub (Dict.set content t (.obj [(s% "schema", s)])) t' = [] ∨
        Conv.sub (Dict.set content t (.obj [(s% "schema", s)])) t' = [(s% "schema", s)] := by
      intro t' ht'
      by_cases he : t = t'
      · subst he; exact .inr (sub_some (Dict.get?_set_self _ _ _))
      · have : Conv.sub (Dict.set content t (.obj [(s% "schema", s)])) t' = Conv.sub content t' := by
          unfold Conv.sub; rw [Dict.get?_set_ne _ _ he]
        rw [this]; exact h t' (by simp [ht'])
    obtain ⟨h1, h2⟩ := ih _ hsub
    refine ⟨fun t' => ?_, fun hw hs => h2 (wf_set_obj hw (wf_set_obj (d := []) (k := s% "schema") rfl hs)) hs⟩
    rw [h1 t']
    by_cases h3 : t' ∈ ts
    · simp [h3]
    · by_cases he : t = t'
      · subst he; simp [Dict.get?_set_self]
      · rw [Dict.get?_set_ne _ _ he]; simp [h3, Ne.symm he]

/-- The flags of a body. -/
def bodyCtx : Ctx := ⟨true, false, false⟩

theorem body_mimes (env : Env) (consumes : List Str) : bodyCtx.mimes env consumes = bodyTypes consumes := by
  unfold Ctx.mimes bodyTypes
  by_cases h : consumes = [] <;> simp [h, bodyCtx, Ctx.defaultMime]

theorem toRequestBody_body {env : Env} {o : Obj} {f : Part} (h : ParamIn env o f.ref f.doc) (consumes : List Str) :
    ∃ b, toRequestBody env o none bodyCtx consumes = .ok b ∧ BodyTo consumes f.doc b ∧ (Json.obj b).wf = true := by
  obtain ⟨p, hp, hbp, _⟩ := param_resolved h
  unfold toRequestBody
  simp only [hp, param_fld hbp (k := s% "required") (by decide), bind, Except.bind, Option.getD_none]
  have e0 : Conv.sub [] (s% "content") = [] := rfl
  rw [e0, if_neg (by decide), if_pos (by decide), if_neg (by simp)]
  generalize hb1 : (if (look f.doc (s% "required")).truthy = true then
    Dict.set (Dict.set ([] : Dict Json) (s% "content") (.obj [])) (s% "required") (.bool true)
    else Dict.set ([] : Dict Json) (s% "content") (.obj [])) = b1
  have g1 : Dict.get? b1 (s% "required") = (if (look f.doc (s% "required")).truthy then some (.bool true) else none) := by
    rw [← hb1]; split
    · exact Dict.get?_set_self _ _ _
    · rfl
  have g2 : ∀ k, k ∉ [s% "content", s% "required"] → Dict.get? b1 k = none := by
    intro k hk
    simp only [List.mem_cons, List.not_mem_nil, or_false, not_or] at hk
    rw [← hb1]; split
    · rw [Dict.get?_set_ne _ _ (Ne.symm hk.2), Dict.get?_set_ne _ _ (Ne.symm hk.1)]; rfl
    · rw [Dict.get?_set_ne _ _ (Ne.symm hk.1)]; rfl
  have w1 : (Json.obj b1).wf = true := by rw [← hb1]; split <;> decide +kernel
  obtain ⟨b2, e2, c2, o2, w2⟩ := genFields_copied (ks := [s% "description"]) hbp (by decide +kernel) b1 (by
    intro k hk; simp only [List.mem_singleton] at hk; subst hk; exact g2 _ (by decide))
  have hsc : ∃ s, toSchema? false (kid p (s% "schema")) = .ok s ∧ (match given f.doc (s% "schema") with
      | none => s = .obj []
      | some j => SchemaTo j s) ∧ s.wf = true := by
    rcases built_kid_cls hbp (k := s% "schema") (c' := s% "v2_0.Schema") (by decide +kernel) with
      ⟨k1, _, k2⟩ | ⟨e, x, k1, _, k2, k3⟩
    · rw [k2, k1]; exact ⟨_, rfl, rfl, rfl⟩
    · obtain ⟨r, r1, r2, r3⟩ := toSchema_built _ _ x (Nat.le_refl _) k3
      rw [k2, k1]; exact ⟨r, r1, r2, r3⟩
  obtain ⟨s, s1, s2, s3⟩ := hsc
  simp only [e2, s1]
  rw [body_mimes]
  obtain ⟨c1, c3⟩ := bodyContent_get s (bodyTypes consumes) [] (fun _ _ => .inl rfl)
  refine ⟨_, rfl, ⟨⟨_, s, Dict.get?_set_self _ _ _, s2, fun t => ?_⟩, ?_, ?_, ?_⟩, wf_set_obj (w2 w1) (c3 rfl s3)⟩
  · rw [c1 t]; rfl
  · rw [Dict.get?_set_ne _ _ (by decide), o2 _ (by decide)]; exact g1
  · rw [Dict.get?_set_ne _ _ (by decide)]; exact c2 _ (by simp)
  · intro k hk
    refine Decidable.byContradiction (fun hn => hk ?_)
    simp only [List.mem_cons, List.not_mem_nil, or_false, not_or] at hn
    rw [Dict.get?_set_ne _ _ (Ne.symm hn.1), o2 _ (by simp [hn.2.2])]
    exact g2 k (by simp [hn.1, hn.2.1])

/-! ### one parameter -/

theorem paramCtx_plain {env : Env} {o : Obj} {f : Part} (h : ParamIn env o f.ref f.doc)
    (hp : placeOf f.doc = .plain) : paramCtx env o = .ok ⟨false, false, false⟩ := by
  obtain ⟨p, hp', hbp, _⟩ := param_resolved h
  unfold paramCtx
  simp only [hp', param_fld hbp (k := s% "in") (by decide), param_fld hbp (k := s% "type") (by decide), bind, Except.bind]
  unfold placeOf at hp
  split at hp
  · cases hp
  rename_i h1
  split at hp
  · cases hp
  rename_i h2
  split at hp
  · cases hp
  rename_i h3
  rw [if_neg h1, if_neg h2, if_neg h3]

theorem paramCtx_part {env : Env} {o : Obj} {f : Part} (h : ParamIn env o f.ref f.doc)
    (hp : f.isPart = true) : paramCtx env o = .ok (partCtx f.file) := by
  obtain ⟨p, hp', hbp, _⟩ := param_resolved h
  unfold paramCtx
  simp only [hp', param_fld hbp (k := s% "in") (by decide), param_fld hbp (k := s% "type") (by decide), bind, Except.bind]
  unfold Part.isPart placeOf at hp
  by_cases h1 : look f.doc (s% "type") = .str (s% "file")
  · rw [if_pos h1]
    have : f.file = true := decide_eq_true h1
    rw [this]; rfl
  have hnf : f.file = false := decide_eq_false h1
  rw [if_neg h1] at hp ⊢
  by_cases h2 : look f.doc (s% "in") = .str (s% "formData")
  · rw [if_pos h2, hnf]; rfl
  rw [if_neg h2] at hp
  split at hp <;> simp at hp

/-- The schema of the body is not that of a file.  (Swagger 2.0 has no such bodies.) -/
def BodyOk (env : Env) (o : Obj) : Prop :=
  ∀ p s, env.deref o = .ok p → kid p (s% "schema") = some s →
    ∃ s' t, env.deref s = .ok s' ∧ fld s' (s% "type") = .ok t ∧ t ≠ .str (s% "file")

theorem paramCtx_body {env : Env} {o : Obj} {f : Part} (h : ParamIn env o f.ref f.doc)
    (hp : placeOf f.doc = .body) (hok : BodyOk env o) : paramCtx env o = .ok bodyCtx := by
  obtain ⟨p, hp', hbp, _⟩ := param_resolved h
  unfold paramCtx
  simp only [hp', param_fld hbp (k := s% "in") (by decide), param_fld hbp (k := s% "type") (by decide), bind, Except.bind]
  unfold placeOf at hp
  split at hp
  · cases hp
  rename_i h1
  split at hp
  · cases hp
  rename_i h2
  split at hp
  · rename_i h3
    rw [if_neg h1, if_neg h2, if_pos h3]
    cases hk : kid p (s% "schema") with
    | none => rfl
    | some s =>
      obtain ⟨s', t, a1, a2, a3⟩ := hok p s hp' hk
      simp only [a1, a2]
      simp [bodyCtx, a3]
  · cases hp

/-- A parameter outside of the body. -/
theorem plainParameter_built {env : Env} {o : Obj} {f : Part} (h : ParamIn env o f.ref f.doc) :
    ((BadStyle f.doc (look f.doc (s% "in")) (look f.doc (s% "type")) ∧ f.ref = none) ∧
      plainParameter o = .error .schemaError) ∨
    (¬ (BadStyle f.doc (look f.doc (s% "in")) (look f.doc (s% "type")) ∧ f.ref = none) ∧
      ∃ r, plainParameter o = .ok r ∧ PlainTo f r ∧ r.wf = true) := by
  obtain ⟨j, hj, _, hn⟩ := param_ref h
  unfold plainParameter
  simp only [hj, bind, Except.bind]
  rcases h with ⟨h1, h2, h3⟩ | ⟨v, e, p, h1, h2, h3, h4, h5, h6⟩
  · rw [hn h1, if_neg (by decide)]
    rcases toParameter_built h2 with ⟨hb, he⟩ | ⟨hb, r, hr, ht, hw⟩
    · exact .inl ⟨⟨hb, h1⟩, he⟩
    · refine .inr ⟨fun hc => hb hc.1, _, hr, ?_, hw⟩
      unfold PlainTo; rw [h1]; exact ⟨r, rfl, ht⟩
  · have hjv : j = v := by
      have hk : plainFields (s% "v2_0.Reference") [s% "$ref"] = true := by decide +kernel
      rw [built_fld h3 (plainFields_cls hk), plainFields_val hk (by simp)] at hj
      simp only [look, h4, Option.getD_some, Except.ok.injEq] at hj
      exact hj.symm
    subst hjv
    rw [if_pos h2]
    refine .inr ⟨(fun hc => by rw [h1] at hc; cases hc.2), _, rfl, ?_, wf_set_obj (d := []) (k := s% "$ref") rfl (wf_at h3.wf h4)⟩
    unfold PlainTo; rw [h1]

/-! ### a list of parameters -/

theorem parameters_append (env : Env) (consumes : List Str) (l1 l2 : List Obj) (ps : List Json)
    (body : Option (Dict Json)) : parameters env consumes (l1 ++ l2) ps body = (do
      let (ps, body) ← parameters env consumes l1 ps body
      parameters env consumes l2 ps body) := by
  induction l1 generalizing ps body with
  | nil => rfl
  | cons o l1 ih =>
    simp only [List.cons_append, parameters, bind, Except.bind]
    cases paramCtx env o with
    | error e => rfl
    | ok ctx =>
      dsimp only
      split
      · cases toRequestBody env o body ctx consumes with
        | error e => rfl
        | ok b => dsimp only; rw [ih]; rfl
      · cases plainParameter o with
        | error e => rfl
        | ok p => dsimp only; rw [ih]; rfl

theorem placeOf_cases (f : Part) : f.isPlain = true ∨ f.isPart = true ∨ placeOf f.doc = .body := by
  unfold Part.isPlain Part.isPart
  cases placeOf f.doc <;> simp

/-- The parameters of a list that stay parameters, in order. -/
theorem parameters_plain {env : Env} {consumes : List Str} {os : List Obj} {fs : List Part}
    (h : List.Forall₂ (fun o f => ParamIn env o f.ref f.doc) os fs) :
    ∀ (ps : List Json) (body : Option (Dict Json)) (ps' : List Json) (body' : Option (Dict Json)),
      parameters env consumes os ps body = .ok (ps', body') →
      ∃ qs, ps' = ps ++ qs ∧ List.Forall₂ PlainTo (fs.filter Part.isPlain) qs ∧
        (body'.isSome = (body.isSome || fs.any (fun f => !f.isPlain))) ∧
        (fs.all Part.isPlain = true → body' = body) := by
  induction h with
  | nil => intro ps body ps' body' h; cases h; exact ⟨[], by simp, .nil, by simp, fun _ => rfl⟩
  | @cons o f os fs hof _ ih =>
    intro ps body ps' body' h
    simp only [parameters, bind, Except.bind] at h
    cases hc : paramCtx env o with
    | error e => rw [hc] at h; cases h
    | ok ctx =>
      rw [hc] at h
      dsimp only at h
      by_cases hpl : f.isPlain = true
      · have := paramCtx_plain hof (of_decide_eq_true hpl)
        rw [hc] at this
        cases this
        rw [if_neg (by decide)] at h
        rcases plainParameter_built hof with ⟨_, he⟩ | ⟨_, r, hr, ht, _⟩
        · rw [he] at h; cases h
        · rw [hr] at h
          dsimp only at h
          obtain ⟨qs, a1, a2, a3, a4⟩ := ih _ _ _ _ h
          refine ⟨r :: qs, by rw [a1]; simp, ?_, ?_, ?_⟩
          · rw [List.filter_cons, if_pos hpl]; exact .cons ht a2
          · rw [a3]; simp [hpl]
          · intro hall; exact a4 (by simp only [List.all_cons, Bool.and_eq_true] at hall; exact hall.2)
      · have hb : ctx.isBody = true := by
          rcases placeOf_cases f with h' | h' | h'
          · exact absurd h' hpl
          · have := paramCtx_part hof h'
            rw [hc] at this; cases this; rfl
          · obtain ⟨p, hp', hbp, _⟩ := param_resolved hof
            unfold paramCtx at hc
            simp only [hp', param_fld hbp (k := s% "in") (by decide), param_fld hbp (k := s% "type") (by decide), bind,
              Except.bind] at hc
            unfold placeOf at h'
            split at h'
            · cases h'
            rename_i n1
            split at h'
            · cases h'
            rename_i n2
            split at h'
            · rename_i n3
              rw [if_neg n1, if_neg n2, if_pos n3] at hc
              cases hk : kid p (s% "schema") with
              | none => rw [hk] at hc; cases hc; rfl
              | some s =>
                rw [hk] at hc
                dsimp only at hc
                cases hs : env.deref s with
                | error e => rw [hs] at hc; cases hc
                | ok s' =>
                  rw [hs] at hc
                  dsimp only at hc
                  cases ht : fld s' (s% "type") with
                  | error e => rw [ht] at hc; cases hc
                  | ok t => rw [ht] at hc; cases hc; rfl
            · cases h'
        rw [if_pos hb] at h
        cases hr : toRequestBody env o body ctx consumes with
        | error e => rw [hr] at h; cases h
        | ok b =>
          rw [hr] at h
          dsimp only at h
          obtain ⟨qs, a1, a2, a3, _⟩ := ih _ _ _ _ h
          refine ⟨qs, a1, ?_, ?_, ?_⟩
          · rw [List.filter_cons, if_neg hpl]; exact a2
          · rw [a3]; simp [hpl]
          · intro hall; simp [hpl] at hall

/-! ### forms -/

theorem formSoFar_noClash {consumes : List Str} {fs : List Part} {body : Option (Dict Json)}
    (h : FormSoFar consumes fs body) : ¬ Clash consumes fs := by
  rintro ⟨t, ht⟩
  cases body with
  | none => have h : fs = [] := h; subst h; exact ht (by simp)
  | some b =>
    obtain ⟨⟨⟨content, c1, c2⟩, _, _⟩, hw⟩ := h
    have := c2 t
    cases hq : fs.filter (fun f => decide (t ∈ partTypes consumes f.file)) with
    | nil => rw [hq] at ht; exact ht (by simp)
    | cons q qs =>
      rw [hq] at this ht
      obtain ⟨m, m1, schema, props, a1, a2, a3, _⟩ := this
      refine ht ?_
      rw [← a3]
      exact wf_nodup (wf_at (wf_at (wf_at (wf_at hw c1) m1) a1) a2)

theorem clash_mono {consumes : List Str} {fs gs : List Part} (h : Clash consumes fs) : Clash consumes (fs ++ gs) := by
  obtain ⟨t, ht⟩ := h
  refine ⟨t, fun hn => ht ?_⟩
  rw [List.filter_append, List.map_append] at hn
  exact (List.nodup_append.1 hn).1

/-- The whole list, when it has no body parameter: it is converted, or it is in trouble and raises. -/
theorem parameters_forms {env : Env} (hs : SetOk env) {consumes : List Str} {os : List Obj} {fs : List Part}
    (h : List.Forall₂ (fun o f => ParamIn env o f.ref f.doc) os fs)
    (hv : ∀ f ∈ fs, f.isPlain = true ∨ (f.isPart = true ∧ f.Valid)) :
    ∀ (gs : List Part) (ps : List Json) (body : Option (Dict Json)), FormSoFar consumes gs body →
      ((Clash consumes (gs ++ fs.filter Part.isPart) ∨ StyleTrouble consumes fs) ∧
        parameters env consumes os ps body = .error .schemaError) ∨
      (¬ (Clash consumes (gs ++ fs.filter Part.isPart) ∨ StyleTrouble consumes fs) ∧
        ∃ ps' body', parameters env consumes os ps body = .ok (ps', body') ∧
          FormSoFar consumes (gs ++ fs.filter Part.isPart) body' ∧
          (fs.filter Part.isPart = [] → body' = body) ∧
          (∀ p ∈ ps', p ∈ ps ∨ p.wf = true)) := by
  induction h with
  | nil =>
    intro gs ps body hb
    refine .inr ⟨?_, ps, body, rfl, by simpa using hb, fun _ => rfl, fun p hp => .inl hp⟩
    rintro (h | ⟨f, hf, _⟩)
    · exact formSoFar_noClash hb (by simpa using h)
    · cases hf
  | @cons o f os fs hof _ ih =>
    intro gs ps body hb
    have ih' := ih (fun f' hf' => hv f' (by simp [hf']))
    rcases hv f (by simp) with hpl | ⟨hpt, hval⟩
    · have hpt : f.isPart = false := by
        unfold Part.isPart; rw [of_decide_eq_true hpl]; rfl
      have hfl : (f :: fs).filter Part.isPart = fs.filter Part.isPart := by rw [List.filter_cons, hpt]; rfl
      rw [hfl]
      simp only [parameters, bind, Except.bind, paramCtx_plain hof (of_decide_eq_true hpl), Bool.false_eq_true, if_false]
      rcases plainParameter_built hof with ⟨⟨hbad, href⟩, he⟩ | ⟨hok, r, hr, ht, hw⟩
      · rw [he]
        exact .inl ⟨.inr ⟨f, by simp, hbad, .inl ⟨hpl, href⟩⟩, rfl⟩
      · rw [hr]
        dsimp only
        rcases ih' gs (ps ++ [r]) body hb with ⟨htr, he⟩ | ⟨htr, ps', body', he, k1, k2, k3⟩
        · refine .inl ⟨htr.imp_right ?_, he⟩
          rintro ⟨f', hf', hx⟩; exact ⟨f', by simp [hf'], hx⟩
        · refine .inr ⟨fun hc => htr (hc.imp_right ?_), ps', body', he, k1, k2, fun p hp => ?_⟩
          · rintro ⟨f', hf', hb', hx⟩
            rcases List.mem_cons.1 hf' with rfl | hf'
            · rcases hx with ⟨_, href⟩ | ⟨hx, _⟩
              · exact absurd ⟨hb', href⟩ hok
              · rw [hpt] at hx; cases hx
            · exact ⟨f', hf', hb', hx⟩
          · rcases k3 p hp with hp | hp
            · rcases List.mem_append.1 hp with hp | hp
              · exact .inl hp
              · simp only [List.mem_singleton] at hp; subst hp; exact .inr hw
            · exact .inr hp
    · have hpl : f.isPlain = false := by
        cases hx : f.isPlain with
        | false => rfl
        | true => unfold Part.isPart at hpt; rw [of_decide_eq_true hx] at hpt; cases hpt
      have hfl : gs ++ (f :: fs).filter Part.isPart = (gs ++ [f]) ++ fs.filter Part.isPart := by
        rw [List.filter_cons, hpt]; simp
      rw [hfl]
      have hbody : (partCtx f.file).isBody = true := rfl
      simp only [parameters, bind, Except.bind, paramCtx_part hof hpt, hbody, if_true]
      rcases toRequestBody_part hs hof hval consumes hb with ⟨⟨t, ht, hbad⟩, he⟩ | ⟨hgood, b, he, hb'⟩
      · rw [he]
        refine .inl ⟨?_, rfl⟩
        rcases hbad with hdup | ⟨htf, hbs⟩
        · refine .inl (clash_mono ⟨t, ?_⟩)
          have hsn := partsIn_snoc consumes gs f t
          unfold partsIn at hsn
          rw [hsn, if_pos ht, List.map_append]
          intro hn
          exact (List.nodup_append.1 hn).2.2 _ hdup _ (by simp) rfl
        · exact .inr ⟨f, by simp, hbs, .inr ⟨hpt, t, ht, htf⟩⟩
      · rw [he]
        dsimp only
        rcases ih' (gs ++ [f]) ps (some b) hb' with ⟨htr, he⟩ | ⟨htr, ps', body', he, k1, k2, k3⟩
        · refine .inl ⟨htr.imp_right ?_, he⟩
          rintro ⟨f', hf', hx⟩; exact ⟨f', by simp [hf'], hx⟩
        · refine .inr ⟨fun hc => htr (hc.imp_right ?_), ps', body', he, k1, ?_, k3⟩
          · rintro ⟨f', hf', hbs, hx⟩
            rcases List.mem_cons.1 hf' with rfl | hf'
            · rcases hx with ⟨hx, _⟩ | ⟨_, t, ht, htf⟩
              · rw [hpl] at hx; cases hx
              · exact absurd (.inr ⟨htf, hbs⟩) (hgood t ht)
            · exact ⟨f', hf', hbs, hx⟩
          · intro hn; rw [List.filter_cons, hpt] at hn; cases hn

/-- After a body (or a part of one), a body parameter raises. -/
theorem toRequestBody_second {env : Env} {o : Obj} {f : Part} (h : ParamIn env o f.ref f.doc) (consumes : List Str)
    (b : Dict Json) : toRequestBody env o (some b) bodyCtx consumes = .error .schemaError := by
  obtain ⟨p, hp, hbp, _⟩ := param_resolved h
  unfold toRequestBody
  simp only [hp, param_fld hbp (k := s% "required") (by decide), bind, Except.bind]
  rw [if_neg (by decide), if_pos (by decide), if_pos (by simp)]

end Pyopenapi
