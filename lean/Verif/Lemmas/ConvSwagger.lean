import Verif.Spec.ConvSwagger
import Verif.Props.ConvPath

/-!
# The conversion of whole documents
-/

namespace Pyopenapi
open Spec Obj Conv

/-- A map, converted entry by entry. -/
theorem setAll_to {P : Json → Json → Prop} {f : Obj → R Json} {b : Builder} {d : Dict Json} {es : List (Str × Obj)}
    (hf : List.Forall₂ (fun x y => x.1 = y.1 ∧ Built b x.2 y.2) d es) (hn : Dict.NodupKeys d)
    (hP : ∀ x o r, (∃ k, (k, x) ∈ d) → Built b x o → f o = .ok r → P x r) {r : Dict Json}
    (h : setAll f es [] = .ok r) : EntriesTo P d r := by
  have hsteps := setAll_steps h
  have hf' : List.Forall₂ (fun x y => x.1 = y.1 ∧ ∃ r, f y.2 = .ok r ∧ P x.2 r) d es := by
    clear h hn
    induction hf with
    | nil => exact .nil
    | @cons x y d es hx _ ih =>
      obtain ⟨j, hj⟩ := hsteps y (by simp)
      refine .cons ⟨hx.1, j, hj, hP _ _ _ ⟨x.1, by simp⟩ hx.2 hj⟩
        (ih (fun x o r ⟨k, hk⟩ => hP x o r ⟨k, by simp [hk]⟩) (fun e he => hsteps e (by simp [he])))
  obtain ⟨rs, h1, h2⟩ := setAll_ok (P := P) hf' [] (by simpa [Dict.keys, Dict.NodupKeys] using hn)
  rw [h] at h1
  cases h1
  rw [List.nil_append]
  exact h2

theorem built_obj {c : Str} {j : Json} {o : Obj} (h : Built (.cls c) j o) : ∃ d, j = .obj d := by
  obtain ⟨d, _, _, rfl, _⟩ := built_cls h; exact ⟨d, rfl⟩

/-! ### info and tags -/

theorem only_of_frame {ks : List Str} {r : Dict Json} (h : ∀ k, k ∉ ks → Dict.get? r k = none) : Only ks r :=
  fun k hk => Decidable.byContradiction (fun hn => hk (h k hn))

theorem toContact_built {d : Dict Json} {o : Obj} (h : Built (.cls (s% "v2_0.Contact")) (.obj d) o) :
    ∃ r, toContact o = .ok r ∧ ContactTo d (.obj r) ∧ (Json.obj r).wf = true := by
  obtain ⟨r, h1, h2, h3, h4⟩ := genFields_copied (ks := [s% "name", s% "url", s% "email"]) h (by decide +kernel) [] (by simp)
  exact ⟨r, h1, ⟨r, rfl, h2, only_of_frame (fun k hk => by rw [h3 k hk]; rfl)⟩, h4 rfl⟩

theorem toLicense_built {d : Dict Json} {o : Obj} (h : Built (.cls (s% "v2_0.License")) (.obj d) o) :
    ∃ r, toLicense o = .ok r ∧ LicenseTo d (.obj r) ∧ (Json.obj r).wf = true := by
  have hk : plainFields (s% "v2_0.License") [s% "name"] = true := by decide +kernel
  obtain ⟨r, h1, h2, h3, h4⟩ := genFields_copied (ks := [s% "url"]) h (by decide +kernel) [(s% "name", look d (s% "name"))]
    (by simp [Dict.get?_cons])
  simp only [toLicense, built_fld h (plainFields_cls hk), plainFields_val hk (k := s% "name") (by simp), bind, Except.bind]
  refine ⟨r, h1, ⟨r, rfl, ?_, h2, only_of_frame (fun k hk => ?_)⟩, h4 ?_⟩
  · unfold Carried; rw [h3 _ (by decide)]; rfl
  · simp only [List.mem_cons, List.not_mem_nil, or_false, not_or] at hk
    rw [h3 _ (by simp [hk.2]), Dict.get?_cons, if_neg (Ne.symm hk.1)]; rfl
  · exact wf_set_obj (d := []) (k := s% "name") rfl (look_wf h.wf _)

theorem putCls_built {c c' : Str} {d : Dict Json} {o : Obj} (h : Built (.cls c) (.obj d) o) {k : Str}
    (hc : (Dict.get? (pkg c).children k).map (fun cd => cd.builder) = some (.cls c'))
    {put : Obj → Dict Json → R (Dict Json)} {f : Obj → R (Dict Json)} {P : Dict Json → Json → Prop}
    (hput : ∀ ret, put o ret = match kidT o k with
      | some c => (do let j ← f c; .ok (Dict.set ret k (.obj j)))
      | none => .ok ret)
    (hP : ∀ e x, Built (.cls c') (.obj e) x → ∃ r, f x = .ok r ∧ P e (.obj r) ∧ (Json.obj r).wf = true)
    (ret : Dict Json) (hr : Dict.get? ret k = none) :
    ∃ ret', put o ret = .ok ret' ∧ Both d k ret' P ∧ Step k ret ret' := by
  rw [hput]
  rcases built_kid_cls h hc with ⟨h1, h2, _⟩ | ⟨e, x, h1, h2, _, h3⟩
  · rw [h2]
    exact ⟨ret, rfl, ⟨fun _ => hr, fun v hv => (by rw [h1] at hv; cases hv)⟩, .refl _ _⟩
  · obtain ⟨r, h4, h5, h6⟩ := hP e x h3
    simp only [h2, h4, bind, Except.bind]
    refine ⟨_, rfl, ⟨(fun hn => by rw [h1] at hn; cases hn), fun v hv => ?_⟩, .set _ _ h6⟩
    rw [h1] at hv
    cases hv
    exact ⟨e, _, rfl, Dict.get?_set_self _ _ _, h5⟩

theorem toInfo_built {d : Dict Json} {o : Obj} (h : Built (.cls (s% "v2_0.Info")) (.obj d) o) :
    ∃ r, toInfo o = .ok r ∧ InfoTo d (.obj r) ∧ (Json.obj r).wf = true := by
  have hk : plainFields (s% "v2_0.Info") [s% "title", s% "version"] = true := by decide +kernel
  have hw : (Json.obj [(s% "title", look d (s% "title")), (s% "version", look d (s% "version"))]).wf = true :=
    wf_set_obj (d := [(s% "title", look d (s% "title"))]) (k := s% "version")
      (wf_set_obj (d := []) (k := s% "title") rfl (look_wf h.wf _)) (look_wf h.wf _)
  obtain ⟨r, h1, h2, h3, h4⟩ := genFields_copied (ks := [s% "description", s% "termsOfService"]) h (by decide +kernel)
    [(s% "title", look d (s% "title")), (s% "version", look d (s% "version"))] (by simp [Dict.get?_cons])
  obtain ⟨r1, e1, b1, st1⟩ := putCls_built h (k := s% "contact") (c' := s% "v2_0.Contact") (by decide +kernel)
    (put := putContact) (f := toContact) (P := ContactTo) (fun ret => by unfold putContact; cases kidT o (s% "contact") <;> rfl)
    (fun e x hx => toContact_built hx) r (by rw [h3 _ (by decide)]; rfl)
  obtain ⟨r2, e2, b2, st2⟩ := putCls_built h (k := s% "license") (c' := s% "v2_0.License") (by decide +kernel)
    (put := putLicense) (f := toLicense) (P := LicenseTo) (fun ret => by unfold putLicense; cases kidT o (s% "license") <;> rfl)
    (fun e x hx => toLicense_built hx) r1 (by rw [st1.frame _ (by decide), h3 _ (by decide)]; rfl)
  simp only [toInfo, built_fld h (plainFields_cls hk), plainFields_val hk (k := s% "title") (by simp),
    plainFields_val hk (k := s% "version") (by simp), h1, e1, e2, bind, Except.bind]
  refine ⟨r2, rfl, ⟨r2, rfl, ?_, ?_, fun k hk => ?_, ?_, b2, only_of_frame (fun k hk => ?_)⟩, st2.wf (st1.wf (h4 hw))⟩
  · unfold Carried; rw [st2.frame _ (by decide), st1.frame _ (by decide), h3 _ (by decide)]; rfl
  · unfold Carried; rw [st2.frame _ (by decide), st1.frame _ (by decide), h3 _ (by decide)]; rfl
  · have hne : k ≠ s% "license" ∧ k ≠ s% "contact" := by revert hk; revert k; decide
    rw [st2.frame _ hne.1, st1.frame _ hne.2]; exact h2 k hk
  · unfold Both at b1 ⊢; rw [st2.frame _ (by decide)]; exact b1
  · simp only [List.mem_cons, List.not_mem_nil, or_false, not_or] at hk
    obtain ⟨n1, n2, n3, n4, n5, n6⟩ := hk
    rw [st2.frame _ n6, st1.frame _ n5, h3 _ (by simp [n3, n4]), Dict.get?_cons, if_neg (Ne.symm n1), Dict.get?_cons,
      if_neg (Ne.symm n2)]; rfl

theorem toTag_built {d : Dict Json} {o : Obj} (h : Built (.cls (s% "v2_0.Tag")) (.obj d) o) :
    ∃ r, toTag o = .ok r ∧ TagTo d r ∧ r.wf = true := by
  have hk : plainFields (s% "v2_0.Tag") [s% "name"] = true := by decide +kernel
  obtain ⟨r, h1, h2, h3, h4⟩ := genFields_copied (ks := [s% "description"]) h (by decide +kernel)
    [(s% "name", look d (s% "name"))] (by simp [Dict.get?_cons])
  obtain ⟨r1, e1, b1, st1⟩ := putExternalDocs_built h (by decide +kernel) r (by rw [h3 _ (by decide)]; rfl)
  simp only [toTag, built_fld h (plainFields_cls hk), plainFields_val hk (k := s% "name") (by simp), h1, e1, bind, Except.bind]
  refine ⟨_, rfl, ⟨r1, rfl, ?_, fun k hk => ?_, b1, only_of_frame (fun k hk => ?_)⟩, st1.wf (h4 ?_)⟩
  · unfold Carried; rw [st1.frame _ (by decide), h3 _ (by decide)]; rfl
  · have hne : k ≠ s% "externalDocs" := by revert hk; revert k; decide
    rw [st1.frame _ hne]; exact h2 k hk
  · simp only [List.mem_cons, List.not_mem_nil, or_false, not_or] at hk
    rw [st1.frame _ hk.2.2, h3 _ (by simp [hk.2.1]), Dict.get?_cons, if_neg (Ne.symm hk.1)]; rfl
  · exact wf_set_obj (d := []) (k := s% "name") rfl (look_wf h.wf _)

theorem toTags_built {l : List Json} {os : List Obj} (h : List.Forall₂ (Built (.cls (s% "v2_0.Tag"))) l os) :
    ∃ r, toTags os = .ok r ∧ List.Forall₂ (fun x y => (∃ e, x = .obj e ∧ TagTo e y) ∧ y.wf = true) l r := by
  induction h with
  | nil => exact ⟨[], rfl, .nil⟩
  | @cons x o l os hx _ ih =>
    obtain ⟨d, rfl⟩ := built_obj hx
    obtain ⟨j, h1, h2, h3⟩ := toTag_built hx
    obtain ⟨r, h4, h5⟩ := ih
    exact ⟨j :: r, by simp only [toTags, h1, h4, bind, Except.bind], .cons ⟨⟨d, rfl, h2⟩, h3⟩ h5⟩

theorem putTags_built {d : Dict Json} {o : Obj} (h : Built (.cls (s% "v2_0.Swagger")) (.obj d) o) (ret : Dict Json)
    (hr : Dict.get? ret (s% "tags") = none) :
    ∃ ret', putTags o ret = .ok ret' ∧ ListTo d (s% "tags") ret' (fun x y => ∃ e, x = .obj e ∧ TagTo e y) ∧
      Step (s% "tags") ret ret' := by
  obtain ⟨h1, h2, h3⟩ := kid_listAt h (k := s% "tags") (b := .cls (s% "v2_0.Tag")) (by decide +kernel)
  unfold putTags
  by_cases hn : listAt d (s% "tags") = []
  · rw [h2 hn]
    exact ⟨ret, rfl, ⟨fun _ => hr, fun hn' => absurd hn hn'⟩, .refl _ _⟩
  · obtain ⟨y, e1, e2, _⟩ := h3 hn
    rw [e2] at h1
    obtain ⟨r, h4, h5⟩ := toTags_built h1
    simp only [e1, h4, bind, Except.bind]
    exact ⟨_, rfl, ⟨fun hn' => absurd hn' hn, fun _ => ⟨r, Dict.get?_set_self _ _ _, forall₂_weaken h5 (fun _ _ _ hp => hp.1)⟩⟩,
      .set _ _ (forall₂_wfL h5 (fun _ _ hp => hp.2))⟩

/-! ### security schemes -/

theorem putScopes_built {d : Dict Json} {o : Obj} (h : Built (.cls (s% "v2_0.SecurityScheme")) (.obj d) o)
    (ret : Dict Json) (hr : Dict.get? ret (s% "scopes") = none) :
    ∃ ret', putScopes o ret = .ok ret' ∧
      Dict.get? ret' (s% "scopes") = (if objAt d (s% "scopes") = [] then none else some (.obj (objAt d (s% "scopes")))) ∧
      Step (s% "scopes") ret ret' := by
  obtain ⟨_, h2, h3, hw⟩ := kid_objAt h (k := s% "scopes") (b := .isStr) (by decide +kernel)
  unfold putScopes
  by_cases hn : objAt d (s% "scopes") = []
  · rw [h2 hn, if_pos hn]; exact ⟨ret, rfl, hr, .refl _ _⟩
  · obtain ⟨y, e1, _, hby⟩ := h3 hn
    have hd := dump_raw (.mapOf .isStr) rfl _ _ hby
    rw [dumpElem_obj (hd.2 (by simp))] at hd
    simp only [e1, hd.1, bind, Except.bind]
    refine ⟨_, rfl, ?_, .set _ _ hw⟩
    rw [if_neg hn, Dict.get?_set_self]

theorem truthy_str {f : Str} : (Json.str f).truthy = true ↔ f ≠ [] := by
  cases f <;> simp [Json.truthy]

/-- The outcome of the conversion of a security scheme. -/
theorem toSecurityScheme_built {d : Dict Json} {o : Obj} (h : Built (.cls (s% "v2_0.SecurityScheme")) (.obj d) o) :
    (HasFlow d → ∃ r, toSecurityScheme o = .ok r ∧ SchemeKept d r ∧ r.wf = true) ∧
    (look d (s% "type") = .str (s% "oauth2") → (look d (s% "flow")).truthy = false →
      toSecurityScheme o = .error .schemaError) ∧
    (¬ HasFlow d → ∃ e, toSecurityScheme o = .error e) := by
  have hk : plainFields (s% "v2_0.SecurityScheme") [s% "type", s% "flow"] = true := by decide +kernel
  have htype := built_fld h (plainFields_cls hk) (s% "type")
  have hflow := built_fld h (plainFields_cls hk) (s% "flow")
  rw [plainFields_val hk (by simp)] at htype hflow
  unfold toSecurityScheme
  simp only [htype, bind, Except.bind]
  have hwt : (Json.obj [(s% "type", look d (s% "type"))]).wf = true :=
    wf_set_obj (d := []) (k := s% "type") rfl (look_wf h.wf _)
  refine ⟨fun hf => ?_, fun h1 h2 => ?_, fun hf => ?_⟩
  · obtain ⟨ret, hret, g1, g2, g3, g4, g6, g5⟩ : ∃ ret, schemeDetails o (look d (s% "type")) [(s% "type", look d (s% "type"))] = .ok ret ∧
        Dict.get? ret (s% "type") = some (look d (s% "type")) ∧
        Dict.get? ret (s% "scheme") = (if look d (s% "type") = .str (s% "basic") then some (.str (s% "basic")) else none) ∧
        (look d (s% "type") ≠ .str (s% "oauth2") → Dict.get? ret (s% "flows") = none) ∧
        (look d (s% "type") = .str (s% "oauth2") → ∃ f x, look d (s% "flow") = .str f ∧ f ≠ [] ∧
          Dict.get? ret (s% "flows") = some (.obj [(f, .obj x)]) ∧
          Copied [s% "authorizationUrl", s% "tokenUrl"] d x ∧
          Dict.get? x (s% "scopes") = (if objAt d (s% "scopes") = [] then none else some (.obj (objAt d (s% "scopes")))) ∧
          Only [s% "authorizationUrl", s% "tokenUrl", s% "scopes"] x) ∧
        (∀ k, k ≠ s% "type" → k ≠ s% "scheme" → k ≠ s% "flows" → Dict.get? ret k = none) ∧ (Json.obj ret).wf = true := by
      unfold schemeDetails
      by_cases hb : look d (s% "type") = .str (s% "basic")
      · rw [if_pos hb]
        refine ⟨_, rfl, rfl, ?_, fun _ => rfl, fun ho => ?_, fun k k1 k2 k3 => ?_, wf_set_obj hwt rfl⟩
        · rw [if_pos hb]; rfl
        · rw [hb] at ho; exact absurd ho (by decide)
        · rw [Dict.get?_set_ne _ _ (Ne.symm k2), Dict.get?_cons, if_neg (Ne.symm k1)]; rfl
      · rw [if_neg hb]
        by_cases ho : look d (s% "type") = .str (s% "oauth2")
        · rw [if_pos ho]
          obtain ⟨f, hf1, hf2⟩ := hf ho
          obtain ⟨r, h1, h2, h3, h4⟩ := genFields_copied (ks := [s% "authorizationUrl", s% "tokenUrl"]) h (by decide +kernel) [] (by simp)
          obtain ⟨r1, e1, b1, st1⟩ := putScopes_built h r (by rw [h3 _ (by decide)]; rfl)
          have ht : (Json.str f).truthy = true := truthy_str.2 hf2
          have hfl : toFlows o = .ok [(f, .obj r1)] := by
            simp only [toFlows, hflow, hf1, ht, h1, e1, bind, Except.bind]; rfl
          simp only [hfl, bind, Except.bind]
          refine ⟨_, rfl, rfl, ?_, fun hn => absurd ho hn, fun _ => ⟨f, r1, hf1.trans rfl, hf2, rfl, fun k hk => ?_, b1,
            only_of_frame (fun k hk => ?_)⟩, fun k k1 k2 k3 => ?_, wf_set_obj (ho ▸ hwt) (wf_set_obj (d := []) (k := f) rfl (st1.wf (h4 rfl)))⟩
          · rw [if_neg hb]; rfl
          · have hne : k ≠ s% "scopes" := by revert hk; revert k; decide
            rw [st1.frame _ hne]; exact h2 k hk
          · simp only [List.mem_cons, List.not_mem_nil, or_false, not_or] at hk
            rw [st1.frame _ hk.2.2, h3 _ (by simp [hk.1, hk.2.1])]; rfl
          · rw [Dict.get?_set_ne _ _ (Ne.symm k3), Dict.get?_cons, if_neg (Ne.symm k1)]; rfl
        · rw [if_neg ho]
          refine ⟨_, rfl, rfl, ?_, fun _ => rfl, fun ho' => absurd ho' ho, fun k k1 k2 k3 => ?_, hwt⟩
          · rw [if_neg hb]; rfl
          · rw [Dict.get?_cons, if_neg (Ne.symm k1)]; rfl
    obtain ⟨r, h1, h2, h3, h4⟩ := genFields_copied (ks := [s% "description", s% "name", s% "in"]) h (by decide +kernel) ret
      (fun k hk => g6 k (by revert hk; revert k; decide) (by revert hk; revert k; decide) (by revert hk; revert k; decide))
    simp only [hret, h1]
    refine ⟨_, rfl, ⟨r, rfl, ?_, h2, ?_, fun hn => ?_, fun ho => ?_, only_of_frame (fun k hk => ?_)⟩, h4 g5⟩
    · unfold Carried; rw [h3 _ (by decide)]; exact g1
    · rw [h3 _ (by decide)]; exact g2
    · rw [h3 _ (by decide)]; exact g3 hn
    · rw [h3 _ (by decide)]; exact g4 ho
    · simp only [List.mem_cons, List.not_mem_nil, or_false, not_or] at hk
      obtain ⟨n1, n2, n3, n4, n5, n6⟩ := hk
      rw [h3 _ (by simp [n2, n3, n4])]; exact g6 k n1 n5 n6
  · simp only [schemeDetails, h1, if_neg (show ¬ Json.str (s% "oauth2") = .str (s% "basic") by decide), if_pos, toFlows, hflow, h2, bind, Except.bind]
  · have ho : look d (s% "type") = .str (s% "oauth2") :=
      Decidable.byContradiction (fun hn => hf (fun ho => absurd ho hn))
    have hno : ∀ f, look d (s% "flow") = .str f → f = [] :=
      fun f h1 => Decidable.byContradiction (fun h2 => hf (fun _ => ⟨f, h1, h2⟩))
    have : ∃ e, toFlows o = .error e := by
      simp only [toFlows, hflow, bind, Except.bind]
      split
      · exact ⟨_, rfl⟩
      · rename_i ht
        split
        · rename_i f hfl
          rw [hno f hfl] at hfl
          rw [hfl] at ht
          exact absurd rfl ht
        · exact ⟨_, rfl⟩
    obtain ⟨e, he⟩ := this
    simp only [schemeDetails, ho, if_neg (show ¬ Json.str (s% "oauth2") = .str (s% "basic") by decide), if_pos, he, bind, Except.bind]
    exact ⟨_, rfl⟩

/-! ### named parameters -/

theorem toSecuritySchemes_eq (l : List (Str × Obj)) (ret : Dict Json) :
    toSecuritySchemes l ret = setAll toSecurityScheme l ret := by
  induction l generalizing ret with
  | nil => rfl
  | cons p l ih =>
    obtain ⟨k, o⟩ := p
    rw [toSecuritySchemes, setAll]
    simp only [bind, Except.bind, ih]
    cases toSecurityScheme o <;> rfl

/-- One parameter of a map. -/
theorem named_one {refs : Refs} {env : Env} (he : EnvOk refs env) {e : Dict Json} {o : Obj}
    (h : Built (.cls (s% "v2_0.Parameter")) (.obj e) o) (hv : ValidParam ⟨e, none⟩) {ctx : Ctx}
    (hc : paramCtx env o = .ok ctx) :
    (ctx.isBody = !(Part.isPlain ⟨e, none⟩)) ∧
    (∀ b, ctx.isBody = true → toRequestBody env o none ctx [] = .ok b → OneBody (.obj e) (.obj b)) ∧
    (∀ p, ctx.isBody = false → plainParameter o = .ok p → PlainTo ⟨e, none⟩ p) := by
  have hin : ParamIn env o none e := .inl ⟨rfl, h, he.param _ _ h⟩
  have hins : ParamsIn env [o] [⟨e, none⟩] := .cons hin .nil
  by_cases hp : placeOf e = .plain
  · have hc' := paramCtx_plain (f := ⟨e, none⟩) hin hp
    rw [hc] at hc'
    cases hc'
    refine ⟨by simp [Part.isPlain, hp], (fun b hb => by cases hb), fun p _ hpp => ?_⟩
    have hr : parameters env [] [o] [] none = .ok ([p], none) := by
      simp only [parameters, hc, hpp, bind, Except.bind]; rfl
    have := (C48_partition env [] _ _ hins none _ _ hr).1
    rw [List.filter_cons_of_pos (by simp [Part.isPlain, hp])] at this
    cases this with
    | cons h1 _ => exact h1
  · have hib : ctx.isBody = true := by
      by_cases hb : placeOf e = .body
      · have hok := bodyOk_of he (f := ⟨e, none⟩) hin (hv.2 hb)
        rw [paramCtx_body (f := ⟨e, none⟩) hin hb hok] at hc
        cases hc; rfl
      · rw [paramCtx_part (f := ⟨e, none⟩) hin (decide_eq_true ⟨hp, hb⟩)] at hc
        cases hc
        cases Part.file ⟨e, none⟩ <;> rfl
    refine ⟨by rw [hib]; simp [Part.isPlain, hp], fun b _ hb => ?_, fun p hf => by rw [hib] at hf; cases hf⟩
    have hr : parameters env [] [o] [] none = .ok ([], some b) := by
      simp only [parameters, hc, hb, hib, bind, Except.bind, if_true]
    obtain ⟨_, r2, r3⟩ := requestOf_parameters he hins (fun f hf => by
      rw [List.mem_singleton] at hf; subst hf; exact hv) hr
    refine ⟨e, b, rfl, rfl, fun hpb => ?_, fun hpb => ?_⟩
    · obtain ⟨e', h1, h2⟩ := r3 [] ⟨e, none⟩ [] rfl hpb (by simp)
      cases h1; exact h2
    · have hpart : Part.isPart ⟨e, none⟩ = true := decide_eq_true ⟨hp, hpb⟩
      obtain ⟨e', h1, h2⟩ := r2 (fun f hf => by rw [List.mem_singleton] at hf; subst hf; exact .inr hpart)
        ⟨_, List.mem_singleton.2 rfl, hpart⟩
      cases h1
      rw [List.filter_cons_of_pos hpart] at h2
      exact h2

/-- The relocations of the parameters that become request bodies. -/
def bodyRoutes (bs : Dict Json) : Routes := bs.map (fun kv => (kv.1, .to (s% "#/components/requestBodies/" ++ kv.1)))

theorem route_append_new {d : Routes} {k : Str} {v : Route} (h : k ∉ Dict.keys d) : Dict.set d k v = d ++ [(k, v)] := by
  induction d with
  | nil => rfl
  | cons x d ih =>
    obtain ⟨a, b⟩ := x
    simp only [Dict.keys, List.map_cons, List.mem_cons, not_or] at h
    rw [Dict.set, if_neg (Ne.symm h.1), ih h.2]; rfl

theorem keys_append_not {V : Type} {d : Dict V} {k k2 : Str} {v : V} (h : k2 ∉ Dict.keys d) (hne : k2 ≠ k) :
    k2 ∉ Dict.keys (d ++ [(k, v)]) := by
  unfold Dict.keys at h ⊢
  rw [List.map_append, List.mem_append]
  rintro (h1 | h1)
  · exact h h1
  · exact hne (by simpa using h1)

theorem toNamedParameters_built {refs : Refs} {env : Env} (he : EnvOk refs env) {m : Dict Json} {os : List (Str × Obj)}
    (h : List.Forall₂ (fun x y => x.1 = y.1 ∧ Built (.cls (s% "v2_0.Parameter")) x.2 y.2) m os)
    (hv : ∀ k e, (k, .obj e) ∈ m → ValidParam ⟨e, none⟩) :
    ∀ (ps bs : Dict Json) (rl : Routes) (ps' bs' : Dict Json) (rl' : Routes),
      (Dict.keys m).Nodup → (∀ k ∈ Dict.keys m, k ∉ Dict.keys ps ∧ k ∉ Dict.keys bs ∧ k ∉ Dict.keys rl) →
      toNamedParameters env os ps bs rl = .ok (ps', bs', rl') →
      ∃ P B, ps' = ps ++ P ∧ bs' = bs ++ B ∧ rl' = rl ++ bodyRoutes B ∧
        EntriesTo (fun x y => ∃ e, x = .obj e ∧ PlainTo ⟨e, none⟩ y) (paramsWhere Part.isPlain m) P ∧
        EntriesTo OneBody (paramsWhere (fun f => !f.isPlain) m) B := by
  induction h with
  | nil =>
    intro ps bs rl ps' bs' rl' _ _ hr
    cases hr
    exact ⟨[], [], by simp, by simp, by simp [bodyRoutes], .nil, .nil⟩
  | @cons x y m os hxy hrest ih =>
    obtain ⟨k, j⟩ := x
    obtain ⟨k', o⟩ := y
    obtain ⟨hkk, hb⟩ := hxy
    dsimp only at hkk hb
    subst hkk
    obtain ⟨e, rfl⟩ := built_obj hb
    intro ps bs rl ps' bs' rl' hn hd hr
    rw [toNamedParameters] at hr
    cases hc : paramCtx env o with
    | error e => rw [hc] at hr; cases hr
    | ok ctx =>
      obtain ⟨h1, h2, h3⟩ := named_one he hb (hv k e (by simp)) hc
      simp only [hc, bind, Except.bind] at hr
      have hn' : (Dict.keys m).Nodup := (List.nodup_cons.1 hn).2
      have hkm : k ∉ Dict.keys m := (List.nodup_cons.1 hn).1
      obtain ⟨hk1, hk2, hk3⟩ := hd k (by simp [Dict.keys])
      have hne : ∀ k2 ∈ Dict.keys m, k2 ≠ k := fun k2 h2 he => hkm (he ▸ h2)
      cases hib : ctx.isBody with
      | true =>
        rw [hib] at hr h1
        simp only [if_true] at hr
        cases hrb : toRequestBody env o none ctx [] with
        | error e => rw [hrb] at hr; cases hr
        | ok b =>
          rw [hrb] at hr
          dsimp only at hr
          rw [set_append_new hk2, route_append_new hk3] at hr
          obtain ⟨P, B, e1, e2, e3, e4, e5⟩ := ih (fun k e hke => hv k e (by simp [hke])) _ _ _ _ _ _ hn'
            (fun k2 hk2 => by
              obtain ⟨a1, a2, a3⟩ := hd k2 (by simp only [Dict.keys, List.map_cons, List.mem_cons]; exact .inr hk2)
              exact ⟨a1, keys_append_not a2 (hne k2 hk2), keys_append_not a3 (hne k2 hk2)⟩) hr
          have hpl : Part.isPlain ⟨e, none⟩ = false := by simpa using h1
          refine ⟨P, (k, .obj b) :: B, e1, by rw [e2]; simp, by rw [e3]; simp [bodyRoutes], ?_, ?_⟩
          · unfold paramsWhere at e4 ⊢
            rw [List.filter_cons_of_neg (by simp [hpl])]; exact e4
          · unfold paramsWhere at e5 ⊢
            rw [List.filter_cons_of_pos (by simp [hpl])]
            exact .cons ⟨rfl, h2 b hib hrb⟩ e5
      | false =>
        rw [hib] at hr h1
        simp only [Bool.false_eq_true, if_false] at hr
        cases hrb : plainParameter o with
        | error e => rw [hrb] at hr; cases hr
        | ok p =>
          rw [hrb] at hr
          dsimp only at hr
          rw [set_append_new hk1] at hr
          obtain ⟨P, B, e1, e2, e3, e4, e5⟩ := ih (fun k e hke => hv k e (by simp [hke])) _ _ _ _ _ _ hn'
            (fun k2 hk2 => by
              obtain ⟨a1, a2, a3⟩ := hd k2 (by simp only [Dict.keys, List.map_cons, List.mem_cons]; exact .inr hk2)
              exact ⟨keys_append_not a1 (hne k2 hk2), a2, a3⟩) hr
          have hpl : Part.isPlain ⟨e, none⟩ = true := by simpa using h1
          refine ⟨(k, p) :: P, B, by rw [e1]; simp, e2, e3, ?_, ?_⟩
          · unfold paramsWhere at e4 ⊢
            rw [List.filter_cons_of_pos (by simp [hpl])]
            exact .cons ⟨rfl, e, rfl, h3 p hib hrb⟩ e4
          · unfold paramsWhere at e5 ⊢
            rw [List.filter_cons_of_neg (by simp [hpl])]; exact e5

/-! ### the parts of `components` -/

/-- Nothing else is changed. -/
def FrameAt (key : Str) (ret ret' : Dict Json) : Prop := ∀ k, k ≠ key → Dict.get? ret' k = Dict.get? ret k

/-- The routes, with one more when there is something to relocate. -/
def routeIf (m : Dict Json) (k : Str) (t : Route) (rl : Routes) : Routes := if m = [] then rl else Dict.set rl k t

theorem putSchemas_built {d : Dict Json} {o : Obj} (h : Built (.cls (s% "v2_0.Swagger")) (.obj d) o)
    (c : Dict Json × Routes) (hr : Dict.get? c.1 (s% "schemas") = none) :
    ∃ r, putSchemas o c = .ok (r, routeIf (objAt d (s% "definitions")) (s% "definitions") (.to (s% "components/schemas")) c.2) ∧
      MapTo d (s% "definitions") r (s% "schemas") SchemaTo ∧ FrameAt (s% "schemas") c.1 r := by
  obtain ⟨h1, h2, h3, hw⟩ := kid_objAt h (k := s% "definitions") (b := .cls (s% "v2_0.Schema")) (by decide +kernel)
  unfold putSchemas routeIf
  by_cases hn : objAt d (s% "definitions") = []
  · rw [h2 hn, if_pos hn]; exact ⟨c.1, rfl, ⟨fun _ => hr, fun hn' => absurd hn hn'⟩, fun _ _ => rfl⟩
  · obtain ⟨y, e1, e2, _⟩ := h3 hn
    rw [e2] at h1
    obtain ⟨r, h4⟩ := setAll_total (f := toSchema false) (es := entries (some y)) (fun e hem => by
      obtain ⟨x, _, hx⟩ := forall₂_mem h1 hem
      obtain ⟨j, hj, _⟩ := toSchema_built _ _ _ (Nat.le_refl _) hx.2
      exact ⟨j, hj⟩) []
    have h5 := setAll_to h1 (wf_nodup hw) (P := SchemaTo) (fun x o r _ hb hr => by
      obtain ⟨j, hj, hs, _⟩ := toSchema_built _ _ _ (Nat.le_refl _) hb
      rw [hr] at hj; cases hj; exact hs) h4
    simp only [e1, toSchemaProps_eq, h4, bind, Except.bind]
    rw [if_neg hn]
    exact ⟨_, rfl, ⟨fun hn' => absurd hn' hn, fun _ => ⟨r, Dict.get?_set_self _ _ _, h5⟩⟩,
      fun k hk => Dict.get?_set_ne _ _ (Ne.symm hk)⟩

theorem putResponses_built {refs : Refs} {env : Env} (he : EnvOk refs env) {d : Dict Json} {o : Obj}
    (h : Built (.cls (s% "v2_0.Swagger")) (.obj d) o)
    (c c' : Dict Json × Routes) (hr : Dict.get? c.1 (s% "responses") = none) (hp : putResponses env o c = .ok c') :
    c'.2 = routeIf (objAt d (s% "responses")) (s% "responses") (.to (s% "components/responses")) c.2 ∧
      MapTo d (s% "responses") c'.1 (s% "responses")
        (fun x y => ∃ e, x = .obj e ∧ ResponseTo BareFile (strsAt d (s% "produces")) ⟨e, none⟩ y) ∧
      FrameAt (s% "responses") c.1 c'.1 := by
  obtain ⟨h1, h2, h3, hw⟩ := kid_objAt h (k := s% "responses") (b := .cls (s% "v2_0.Response")) (by decide +kernel)
  obtain ⟨s1, _⟩ := strs_strsAt h (k := s% "produces") (by decide +kernel)
  unfold putResponses at hp
  unfold routeIf
  by_cases hn : objAt d (s% "responses") = []
  · rw [h2 hn] at hp
    cases hp
    rw [if_pos hn]; exact ⟨rfl, ⟨fun _ => hr, fun hn' => absurd hn hn'⟩, fun _ _ => rfl⟩
  · obtain ⟨y, e1, e2, _⟩ := h3 hn
    rw [e2] at h1
    simp only [e1, toResponses_eq, s1, bind, Except.bind] at hp
    cases h4 : setAll (fun o => toResponse env o (strsAt d (s% "produces"))) (entries (some y)) [] with
    | error e => rw [h4] at hp; cases hp
    | ok r =>
      rw [h4] at hp
      cases hp
      have h5 := setAll_to h1 (wf_nodup hw)
        (P := fun x y => ∃ e, x = .obj e ∧ ResponseTo BareFile (strsAt d (s% "produces")) ⟨e, none⟩ y) (fun x o r _ hb hr => by
          obtain ⟨e, rfl⟩ := built_obj hb
          refine ⟨e, rfl, ?_⟩
          rcases toResponse_built (f := ⟨e, none⟩) (.inl ⟨rfl, hb, he.resp _ _ hb⟩) (strsAt d (s% "produces")) with
            ⟨r', h1, h2, _⟩ | ⟨h1, _⟩
          · rw [hr] at h1; cases h1; exact h2
          · rw [hr] at h1; cases h1) h4
      rw [if_neg hn]
      exact ⟨rfl, ⟨fun hn' => absurd hn' hn, fun _ => ⟨r, Dict.get?_set_self _ _ _, h5⟩⟩,
        fun k hk => Dict.get?_set_ne _ _ (Ne.symm hk)⟩

theorem putSecurity_built {d : Dict Json} {o : Obj} (h : Built (.cls (s% "v2_0.Swagger")) (.obj d) o)
    (c c' : Dict Json × Routes) (hr : Dict.get? c.1 (s% "securitySchemes") = none) (hp : putSecurity o c = .ok c') :
    c'.2 = routeIf (objAt d (s% "securityDefinitions")) (s% "securityDefinitions") (.to (s% "components/securitySchemes")) c.2 ∧
      MapTo d (s% "securityDefinitions") c'.1 (s% "securitySchemes") (fun x y => ∃ e, x = .obj e ∧ SchemeKept e y) ∧
      FrameAt (s% "securitySchemes") c.1 c'.1 := by
  obtain ⟨h1, h2, h3, hw⟩ := kid_objAt h (k := s% "securityDefinitions") (b := .cls (s% "v2_0.SecurityScheme")) (by decide +kernel)
  unfold putSecurity at hp
  unfold routeIf
  by_cases hn : objAt d (s% "securityDefinitions") = []
  · rw [h2 hn] at hp
    cases hp
    rw [if_pos hn]; exact ⟨rfl, ⟨fun _ => hr, fun hn' => absurd hn hn'⟩, fun _ _ => rfl⟩
  · obtain ⟨y, e1, e2, _⟩ := h3 hn
    rw [e2] at h1
    simp only [e1, toSecuritySchemes_eq, bind, Except.bind] at hp
    cases h4 : setAll toSecurityScheme (entries (some y)) [] with
    | error e => rw [h4] at hp; cases hp
    | ok r =>
      rw [h4] at hp
      cases hp
      have h5 := setAll_to h1 (wf_nodup hw) (P := fun x y => ∃ e, x = .obj e ∧ SchemeKept e y) (fun x o r _ hb hr => by
          obtain ⟨e, rfl⟩ := built_obj hb
          refine ⟨e, rfl, ?_⟩
          obtain ⟨q1, _, q3⟩ := toSecurityScheme_built hb
          by_cases hf : HasFlow e
          · obtain ⟨r', q4, q5, _⟩ := q1 hf
            rw [hr] at q4; cases q4; exact q5
          · obtain ⟨e', q4⟩ := q3 hf
            rw [hr] at q4; cases q4) h4
      rw [if_neg hn]
      exact ⟨rfl, ⟨fun hn' => absurd hn' hn, fun _ => ⟨r, Dict.get?_set_self _ _ _, h5⟩⟩,
        fun k hk => Dict.get?_set_ne _ _ (Ne.symm hk)⟩

theorem putSome_get (k : Str) (v d : Dict Json) (hr : Dict.get? d k = none) :
    Dict.get? (putSome k v d) k = (if v = [] then none else some (.obj v)) ∧ FrameAt k d (putSome k v d) := by
  unfold putSome
  split
  · exact ⟨hr, fun _ _ => rfl⟩
  · exact ⟨Dict.get?_set_self _ _ _, fun k2 hk => Dict.get?_set_ne _ _ (Ne.symm hk)⟩

/-- The named parameters; `B` is the map of request bodies. -/
theorem putParameters_built {refs : Refs} {env : Env} (he : EnvOk refs env) {d : Dict Json} {o : Obj}
    (h : Built (.cls (s% "v2_0.Swagger")) (.obj d) o) (hv : NamedValid d)
    (c c' : Dict Json × Routes) (hr : Dict.get? c.1 (s% "parameters") = none) (hr' : Dict.get? c.1 (s% "requestBodies") = none)
    (hp : putParameters env o c = .ok c') :
    ∃ P B, c'.2 = routeIf (objAt d (s% "parameters")) (s% "parameters")
        (.nested (Dict.set (bodyRoutes B) [] (.to (s% "#/components/parameters")))) c.2 ∧
      EntriesTo (fun x y => ∃ e, x = .obj e ∧ PlainTo ⟨e, none⟩ y) (paramsWhere Part.isPlain (objAt d (s% "parameters"))) P ∧
      EntriesTo OneBody (paramsWhere (fun f => !f.isPlain) (objAt d (s% "parameters"))) B ∧
      Dict.get? c'.1 (s% "parameters") = (if P = [] then none else some (.obj P)) ∧
      Dict.get? c'.1 (s% "requestBodies") = (if B = [] then none else some (.obj B)) ∧
      (∀ k, k ≠ s% "parameters" → k ≠ s% "requestBodies" → Dict.get? c'.1 k = Dict.get? c.1 k) := by
  obtain ⟨h1, h2, h3, hw⟩ := kid_objAt h (k := s% "parameters") (b := .cls (s% "v2_0.Parameter")) (by decide +kernel)
  unfold putParameters at hp
  unfold routeIf
  by_cases hn : objAt d (s% "parameters") = []
  · rw [h2 hn] at hp
    cases hp
    refine ⟨[], [], by rw [if_pos hn], ?_, ?_, hr, hr', fun _ _ _ => rfl⟩
    · rw [hn]; exact .nil
    · rw [hn]; exact .nil
  · obtain ⟨y, e1, e2, _⟩ := h3 hn
    rw [e2] at h1
    simp only [e1, bind, Except.bind] at hp
    cases h4 : toNamedParameters env (entries (some y)) [] [] [] with
    | error e => rw [h4] at hp; cases hp
    | ok q =>
      obtain ⟨ps, bs, rl⟩ := q
      obtain ⟨P, B, q1, q2, q3, q4, q5⟩ := toNamedParameters_built he h1 hv [] [] [] ps bs rl (wf_nodup hw)
        (fun k _ => by simp [Dict.keys]) h4
      rw [List.nil_append] at q1 q2 q3
      subst q1 q2 q3
      rw [h4] at hp
      cases hp
      obtain ⟨a1, a2⟩ := putSome_get (s% "requestBodies") bs c.1 hr'
      obtain ⟨b1, b2⟩ := putSome_get (s% "parameters") ps (putSome (s% "requestBodies") bs c.1)
        (by rw [a2 _ (by decide)]; exact hr)
      refine ⟨ps, bs, by rw [if_neg hn], q4, q5, b1, ?_, fun k k1 k2 => ?_⟩
      · rw [b2 _ (by decide)]; exact a1
      · rw [b2 _ k1, a2 _ k2]

/-! ### paths -/

theorem toPaths_built {refs : Refs} {env : Env} (he : EnvOk refs env) {root : Str} {consumes produces : List Str}
    {m : Dict Json} {os : List (Str × Obj)}
    (h : List.Forall₂ (fun x y => x.1 = y.1 ∧ Built (.cls (s% "v2_0.PathItem")) x.2 y.2) m os)
    (hres : ∀ k e, (k, .obj e) ∈ m → PathResolves refs e) :
    ∀ (ret : Dict Json) (rl : Routes) (ret' : Dict Json) (rl' : Routes),
      (Dict.keys m).Nodup → (∀ k ∈ Dict.keys m, k ∉ Dict.keys ret) →
      toPaths env root consumes produces os ret rl = .ok (ret', rl') →
      (∀ k ∈ Dict.keys m, Str.startsWith k (s% "x-") = false) ∧
      ∃ P, ret' = ret ++ P ∧ EntriesTo (fun x y => ∃ e q, x = .obj e ∧ y = .obj q ∧ PathItemTo refs produces e q) m P := by
  induction h with
  | nil =>
    intro ret rl ret' rl' _ _ hr
    cases hr
    exact ⟨fun k hk => by simp [Dict.keys] at hk, [], by simp, .nil⟩
  | @cons x y m os hxy hrest ih =>
    obtain ⟨k, j⟩ := x
    obtain ⟨k', o⟩ := y
    obtain ⟨hkk, hb⟩ := hxy
    dsimp only at hkk hb
    subst hkk
    obtain ⟨e, rfl⟩ := built_obj hb
    intro ret rl ret' rl' hn hd hr
    rw [toPaths] at hr
    by_cases hx : Str.startsWith k (s% "x-") = true
    · rw [if_pos hx] at hr; cases hr
    rw [if_neg hx] at hr
    cases hc : toPathItem env o root consumes produces with
    | error e => rw [hc] at hr; cases hr
    | ok q =>
      obtain ⟨q, r⟩ := q
      simp only [hc, bind, Except.bind] at hr
      have hn' : (Dict.keys m).Nodup := (List.nodup_cons.1 hn).2
      have hkm : k ∉ Dict.keys m := (List.nodup_cons.1 hn).1
      rw [set_append_new (hd k (by simp [Dict.keys]))] at hr
      obtain ⟨i1, P, i2, i3⟩ := ih (fun k e hke => hres k e (by simp [hke])) _ _ _ _ hn' (fun k2 hk2 =>
        keys_append_not (hd k2 (by simp only [Dict.keys, List.map_cons, List.mem_cons]; exact .inr hk2))
          (fun he : k2 = k => hkm (he ▸ hk2))) hr
      refine ⟨fun k2 hk2 => ?_, (k, .obj q) :: P, by rw [i2]; simp, .cons ⟨rfl, e, q, rfl, rfl, ?_⟩ i3⟩
      · simp only [Dict.keys, List.map_cons, List.mem_cons] at hk2
        rcases hk2 with rfl | hk2
        · simpa using hx
        · exact i1 k2 hk2
      · exact C53_path_item he e o hb (hres k e (by simp)) root consumes produces q r hc

/-- A path with an extension key raises `SchemaError`, unless an earlier one fails. -/
theorem toPaths_extension {env : Env} {root : Str} {consumes produces : List Str} (os : List (Str × Obj)) :
    ∀ (ret : Dict Json) (rl : Routes), (∃ p ∈ os, Str.startsWith p.1 (s% "x-") = true) →
      ∃ e, toPaths env root consumes produces os ret rl = .error e := by
  induction os with
  | nil => rintro ret rl ⟨p, hp, _⟩; cases hp
  | cons p os ih =>
    obtain ⟨k, o⟩ := p
    rintro ret rl ⟨q, hq, hx⟩
    rw [toPaths]
    by_cases hk : Str.startsWith k (s% "x-") = true
    · rw [if_pos hk]; exact ⟨_, rfl⟩
    · rw [if_neg hk]
      rcases List.mem_cons.1 hq with rfl | hq
      · exact absurd hx hk
      · cases hc : toPathItem env o root consumes produces with
        | error e => exact ⟨e, rfl⟩
        | ok r =>
          simp only [bind, Except.bind]
          exact ih _ _ ⟨q, hq, hx⟩

/-- The routes of the paths. -/
def pathsRoute (pr : Routes) (rl : Routes) : Routes := if pr = [] then rl else Dict.set rl (s% "paths") (.nested pr)

theorem putPaths_built {refs : Refs} {env : Env} (he : EnvOk refs env) {d : Dict Json} {o : Obj}
    (h : Built (.cls (s% "v2_0.Swagger")) (.obj d) o) (hres : DocResolves refs d) {root : Str}
    (c c' : Dict Json × Routes) (hr : Dict.get? c.1 (s% "paths") = none) (hp : putPaths env o root c = .ok c') :
    (∃ pr, c'.2 = pathsRoute pr c.2 ∧
      (objAt d (s% "paths") = [] → pr = []) ∧
      (objAt d (s% "paths") ≠ [] → ∃ P, toPaths env root (strsAt d (s% "consumes")) (strsAt d (s% "produces"))
        (entries (kid o (s% "paths"))) [] [] = .ok (P, pr))) ∧
    (∀ k ∈ Dict.keys (objAt d (s% "paths")), Str.startsWith k (s% "x-") = false) ∧
    MapTo d (s% "paths") c'.1 (s% "paths")
      (fun x y => ∃ e q, x = .obj e ∧ y = .obj q ∧ PathItemTo refs (strsAt d (s% "produces")) e q) ∧
    FrameAt (s% "paths") c.1 c'.1 := by
  obtain ⟨h1, h2, h3, hw⟩ := kid_objAt h (k := s% "paths") (b := .cls (s% "v2_0.PathItem")) (by decide +kernel)
  obtain ⟨s1, _⟩ := strs_strsAt h (k := s% "produces") (by decide +kernel)
  obtain ⟨s2, _⟩ := strs_strsAt h (k := s% "consumes") (by decide +kernel)
  unfold putPaths at hp
  by_cases hn : objAt d (s% "paths") = []
  · rw [h2 hn] at hp
    cases hp
    refine ⟨⟨[], rfl, fun _ => rfl, fun hn' => absurd hn hn'⟩, ?_, ⟨fun _ => hr, fun hn' => absurd hn hn'⟩, fun _ _ => rfl⟩
    intro k hk
    rw [hn] at hk
    simp [Dict.keys] at hk
  · obtain ⟨y, e1, e2, _⟩ := h3 hn
    rw [e2] at h1
    simp only [e1, s1, s2, bind, Except.bind] at hp
    cases h4 : toPaths env root (strsAt d (s% "consumes")) (strsAt d (s% "produces")) (entries (some y)) [] [] with
    | error e => rw [h4] at hp; cases hp
    | ok q =>
      obtain ⟨ps, pr⟩ := q
      obtain ⟨i1, P, i2, i3⟩ := toPaths_built he h1 hres [] [] ps pr (wf_nodup hw) (fun k _ => by simp [Dict.keys]) h4
      rw [h4] at hp
      cases hp
      rw [List.nil_append] at i2
      subst i2
      refine ⟨⟨pr, rfl, fun hn' => absurd hn' hn, fun _ => ⟨ps, by rw [e2]; exact h4⟩⟩, i1,
        ⟨fun hn' => absurd hn' hn, fun _ => ⟨ps, Dict.get?_set_self _ _ _, i3⟩⟩, fun k hk => Dict.get?_set_ne _ _ (Ne.symm hk)⟩

/-! ### documents -/

theorem putInfo_built {d : Dict Json} {o : Obj} (h : Built (.cls (s% "v2_0.Swagger")) (.obj d) o) (ret : Dict Json)
    (hr : Dict.get? ret (s% "info") = none) :
    ∃ ret', putInfo o ret = .ok ret' ∧ Both d (s% "info") ret' InfoTo ∧ Step (s% "info") ret ret' :=
  putCls_built h (k := s% "info") (c' := s% "v2_0.Info") (by decide +kernel)
    (put := putInfo) (f := toInfo) (P := InfoTo) (fun ret => by unfold putInfo; cases kidT o (s% "info") <;> rfl)
    (fun e x hx => toInfo_built hx) ret hr

/-- The routes of a document: `B` is the map of request bodies made of named parameters, `pr` the routes of the paths. -/
def docRoutes (d B : Dict Json) (pr : Routes) : Routes :=
  routeIf (objAt d (s% "securityDefinitions")) (s% "securityDefinitions") (.to (s% "components/securitySchemes"))
    (routeIf (objAt d (s% "responses")) (s% "responses") (.to (s% "components/responses"))
      (routeIf (objAt d (s% "parameters")) (s% "parameters")
        (.nested (Dict.set (bodyRoutes B) [] (.to (s% "#/components/parameters"))))
        (routeIf (objAt d (s% "definitions")) (s% "definitions") (.to (s% "components/schemas"))
          (pathsRoute pr []))))

theorem toOpenapi_built {refs : Refs} {env : Env} (he : EnvOk refs env) {d : Dict Json} {o : Obj}
    (h : Built (.cls (s% "v2_0.Swagger")) (.obj d) o) (hres : DocResolves refs d) (hv : NamedValid d)
    {r : Dict Json} {rl : Routes} (hr : toOpenapi env o = .ok (r, rl)) :
    DocTo refs d r ∧ (∀ k ∈ Dict.keys (objAt d (s% "paths")), Str.startsWith k (s% "x-") = false) ∧
    ∃ url B pr, serverUrl o = .ok url ∧ Dict.get? r (s% "servers") = some (.arr [.obj [(s% "url", .str url)]]) ∧
      EntriesTo OneBody (paramsWhere (fun f => !f.isPlain) (objAt d (s% "parameters"))) B ∧ rl = docRoutes d B pr ∧
      (objAt d (s% "paths") = [] → pr = []) ∧
      (objAt d (s% "paths") ≠ [] → ∃ P, toPaths env url (strsAt d (s% "consumes")) (strsAt d (s% "produces"))
        (entries (kid o (s% "paths"))) [] [] = .ok (P, pr)) := by
  obtain ⟨r1, e1, b1, st1⟩ := putInfo_built h [(s% "openapi", .str (s% "3.0.0"))] rfl
  have hg0 : ∀ k, k ≠ s% "openapi" → Dict.get? [(s% "openapi", Json.str (s% "3.0.0"))] k = none := by
    intro k hk; rw [Dict.get?_cons, if_neg (Ne.symm hk)]; rfl
  unfold toOpenapi at hr
  simp only [e1, bind, Except.bind] at hr
  cases hurl : serverUrl o with
  | error e => rw [hurl] at hr; cases hr
  | ok url =>
    rw [hurl] at hr
    dsimp only at hr
    cases hpaths : putPaths env o url (Dict.set r1 (s% "servers") (.arr [.obj [(s% "url", .str url)]]), []) with
    | error e => rw [hpaths] at hr; cases hr
    | ok c1 =>
      rw [hpaths] at hr
      dsimp only at hr
      obtain ⟨⟨pr, p1, p2, p3⟩, p4, p5, p6⟩ := putPaths_built he h hres _ _
        (by dsimp only; rw [Dict.get?_set_ne _ _ (by decide), st1.frame _ (by decide)]; exact hg0 _ (by decide)) hpaths
      obtain ⟨r2, rl2⟩ := c1
      dsimp only at p1 p5 p6 hr
      by_cases hsec : (kidT o (s% "security")).isSome = true
      · rw [if_pos hsec] at hr; cases hr
      rw [if_neg hsec] at hr
      obtain ⟨r3, e3, b3, st3⟩ := putTags_built h r2
        (by rw [p6 _ (by decide), Dict.get?_set_ne _ _ (by decide), st1.frame _ (by decide)]; exact hg0 _ (by decide))
      obtain ⟨r4, e4, b4, st4⟩ := putExternalDocs_built h (by decide +kernel) r3
        (by rw [st3.frame _ (by decide), p6 _ (by decide), Dict.get?_set_ne _ _ (by decide), st1.frame _ (by decide)]; exact hg0 _ (by decide))
      obtain ⟨c2, e5, b5, f5⟩ := putSchemas_built h ([], rl2) rfl
      dsimp only at f5
      simp only [e3, e4, e5] at hr
      cases hpar : putParameters env o (c2, routeIf (objAt d (s% "definitions")) (s% "definitions") (.to (s% "components/schemas")) rl2) with
      | error e => rw [hpar] at hr; cases hr
      | ok c3 =>
        rw [hpar] at hr
        dsimp only at hr
        obtain ⟨P, B, g1, g2, g3, g4, g5, g6⟩ := putParameters_built he h hv _ _
          (by dsimp only; rw [f5 _ (by decide)]; rfl) (by dsimp only; rw [f5 _ (by decide)]; rfl) hpar
        cases hresp : putResponses env o (c3.1, c3.2) with
        | error e => rw [hresp] at hr; cases hr
        | ok c4 =>
          rw [hresp] at hr
          dsimp only at hr
          obtain ⟨q1, q2, q3⟩ := putResponses_built he h _ _
            (by dsimp only; rw [g6 _ (by decide) (by decide)]; dsimp only; rw [f5 _ (by decide)]; rfl) hresp
          cases hsecd : putSecurity o (c4.1, c4.2) with
          | error e => rw [hsecd] at hr; cases hr
          | ok c5 =>
            rw [hsecd] at hr
            dsimp only at hr q1 q3 g1 g6
            obtain ⟨w1, w2, w3⟩ := putSecurity_built h _ _
              (by dsimp only; rw [q3 _ (by decide), g6 _ (by decide) (by decide), f5 _ (by decide)]; rfl) hsecd
            dsimp only at w1 w3
            cases hr
            have n4 : Dict.get? r4 (s% "components") = none := by
              rw [st4.frame _ (by decide), st3.frame _ (by decide), p6 _ (by decide), Dict.get?_set_ne _ _ (by decide),
                st1.frame _ (by decide)]; exact hg0 _ (by decide)
            obtain ⟨z1, z2⟩ := putSome_get (s% "components") c5.1 r4 n4
            have hserv : Dict.get? (putSome (s% "components") c5.1 r4) (s% "servers") =
                some (.arr [.obj [(s% "url", .str url)]]) := by
              rw [z2 _ (by decide), st4.frame _ (by decide), st3.frame _ (by decide), p6 _ (by decide), Dict.get?_set_self]
            have hcomp : ComponentsTo d c5.1 := by
              refine ⟨?_, ?_, ?_, ?_, w2, only_of_frame (fun k hk => ?_)⟩
              · unfold MapTo at b5 ⊢
                rw [w3 _ (by decide), q3 _ (by decide), g6 _ (by decide) (by decide)]; exact b5
              · rintro ps rfl
                rw [w3 _ (by decide), q3 _ (by decide), g4]
                constructor
                · intro hn
                  rw [hn] at g2
                  cases g2
                  rfl
                · intro hn
                  have hP : P ≠ [] := by rintro rfl; cases hq : paramsWhere Part.isPlain (objAt d (s% "parameters")) with
                    | nil => exact hn hq
                    | cons a l => rw [hq] at g2; cases g2
                  exact ⟨P, if_neg hP, g2⟩
              · rintro ps rfl
                rw [w3 _ (by decide), q3 _ (by decide), g5]
                constructor
                · intro hn
                  rw [hn] at g3
                  cases g3
                  rfl
                · intro hn
                  have hB : B ≠ [] := by rintro rfl; cases hq : paramsWhere (fun f => !f.isPlain) (objAt d (s% "parameters")) with
                    | nil => exact hn hq
                    | cons a l => rw [hq] at g3; cases g3
                  exact ⟨B, if_neg hB, g3⟩
              · unfold MapTo at q2 ⊢
                rw [w3 _ (by decide)]; exact q2
              · simp only [List.mem_cons, List.not_mem_nil, or_false, not_or] at hk
                obtain ⟨n1, n2, n3, n4, n5⟩ := hk
                rw [w3 _ n5, q3 _ n4, g6 _ n2 n3, f5 _ n1]; rfl
            refine ⟨⟨?_, ?_, ⟨url, hserv⟩, ?_, ?_, ?_, ⟨c5.1, hcomp, z1⟩, only_of_frame (fun k hk => ?_)⟩, p4,
              url, B, pr, rfl, hserv, g3, ?_, p2, p3⟩
            · rw [z2 _ (by decide), st4.frame _ (by decide), st3.frame _ (by decide), p6 _ (by decide),
                Dict.get?_set_ne _ _ (by decide), st1.frame _ (by decide)]; rfl
            · unfold Both at b1 ⊢
              rw [z2 _ (by decide), st4.frame _ (by decide), st3.frame _ (by decide), p6 _ (by decide),
                Dict.get?_set_ne _ _ (by decide)]; exact b1
            · unfold MapTo at p5 ⊢
              rw [z2 _ (by decide), st4.frame _ (by decide), st3.frame _ (by decide)]; exact p5
            · unfold ListTo at b3 ⊢
              rw [z2 _ (by decide), st4.frame _ (by decide)]; exact b3
            · unfold Both at b4 ⊢
              rw [z2 _ (by decide)]; exact b4
            · simp only [List.mem_cons, List.not_mem_nil, or_false, not_or] at hk
              obtain ⟨n1, n2, n3, n4, n5, n6, n7⟩ := hk
              rw [z2 _ n7, st4.frame _ n6, st3.frame _ n5, p6 _ n4, Dict.get?_set_ne _ _ (Ne.symm n3), st1.frame _ n2]
              exact hg0 _ n1
            · unfold docRoutes
              rw [w1, q1, g1, p1]

end Pyopenapi
