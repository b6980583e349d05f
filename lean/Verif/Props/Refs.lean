import Verif.Lemmas.RefTotal

/-! # C79–C82: references are resolved -/

namespace Pyopenapi.Refs
open _root_.Pyopenapi.Spec _root_.Pyopenapi.Refs.Spec Obj

variable {α W : Type}

theorem covers2 : ∀ c, (pkg c).children.all (covers (s% "v2_0.Reference") steps2 c) = true :=
  pkg_children (p := covers (s% "v2_0.Reference") steps2) (by decide +kernel)
theorem covers3 : ∀ c, (pkg c).children.all (covers (s% "v3_0_0.Reference") steps3 c) = true :=
  pkg_children (p := covers (s% "v3_0_0.Reference") steps3) (by decide +kernel)

theorem scanned_unique {root : Obj} {L : List (List Str × Obj)} (hL : Scanned root L) {ts : List Str} {x y : Obj}
    (hx : Visited [] root ts x) (hy : Visited [] root ts y) : x = y := by
  have h1 := (hL.2.2 ts x).2 hx
  have h2 := (hL.2.2 ts y).2 hy
  exact Option.some.inj ((Dict.get?_of_mem (d := L) hL.2.1 h1).symm.trans (Dict.get?_of_mem (d := L) hL.2.1 h2))

/-- After the first scan: what every place has. -/
theorem normalized_fresh {env : Env α W} {classes : List Str} (hf : ∀ c ∈ classes, refField c = true) {root : Obj}
    {L : List (List Str × Obj)} (hL : Scanned root L) {w : W} {s : St α W} (h : normalizeAll env classes L (fresh w) = .ok s) :
    (∀ ts x r, Visited [] root ts x → Refers classes x r → ∃ n, normalizeJr env.ok (some r) (some env.url) = .ok n ∧
      s.attrs ts = { normalized := n }) ∧
    (∀ ts, (∀ x r, Visited [] root ts x → ¬ Refers classes x r) → s.attrs ts = {}) ∧ s.world = w := by
  obtain ⟨h1, h2, h3⟩ := normalizeAll_at hf hL.2.1 h
  refine ⟨fun ts x r hv hr => (h2 ts x ((hL.2.2 ts x).2 hv)).1 r hr, fun ts hno => ?_, h1⟩
  by_cases hm : ts ∈ L.map Prod.fst
  · obtain ⟨⟨ts', x⟩, hm2, rfl⟩ := List.mem_map.1 hm
    exact (h2 ts' x hm2).2 (fun r => hno x r ((hL.2.2 ts' x).1 hm2))
  · exact h3 ts hm

/-- **C79**.  When a 2.0 document is upgraded without error, every reference in it (of an object of class Reference, Schema
or PathItem, with a `$ref` that is not empty) has an object: the one the application answered for the `$ref` made
absolute, of the kind declared at that place.  The root may be any object but a Reference; other objects get nothing. -/
theorem C79_resolved (env : Env α W) (c : Str) (hc : c ≠ s% "v2_0.Reference") (j : Json) (hj : j.wf = true) (p : Option Str) (root : Obj)
    (hb : build pkg (.cls c) j p [] = .ok root) (L : List (List Str × Obj)) (hL : Scanned root L) (w : W) (s' : St α W)
    (h : upgrade2 env L (fresh w) = .ok s') :
    (∀ ts x r, Visited [] root ts x → Refers [s% "v2_0.Reference", s% "v2_0.Schema", s% "v2_0.PathItem"] x r →
      ∃ a new, (s'.attrs ts).refObj = some a ∧ Answer env root ts r a new) ∧
    (∀ ts, (∀ x r, Visited [] root ts x → ¬ Refers [s% "v2_0.Reference", s% "v2_0.Schema", s% "v2_0.PathItem"] x r) →
      s'.attrs ts = {}) := by
  have hcl : ∀ x r, Refers [s% "v2_0.Reference", s% "v2_0.Schema", s% "v2_0.PathItem"] x r ↔ Refers normClasses2 x r := by
    intro x r
    constructor <;>
    · rintro ⟨c, q, d, kids, h1, h2, h3⟩
      refine ⟨c, q, d, kids, h1, ?_, h3⟩
      simp only [normClasses2, List.mem_cons, List.not_mem_nil, or_false] at h2 ⊢
      rcases h2 with h2 | h2 | h2 <;> simp [h2]
  simp only [hcl]
  have hd := doc_of_build hj hb
  obtain ⟨s1, hn, hr⟩ := bindOk h
  obtain ⟨hn1, hn2, hw⟩ := normalized_fresh (fun c hc => refField2 hc) hL hn
  obtain ⟨hheld, hrun⟩ := scan_calls hr
  -- what holds at all times
  have hinv : (∀ ts, (s'.attrs ts).normalized = (s1.attrs ts).normalized ∧ (s'.attrs ts).newRef = (s1.attrs ts).newRef ∧
      ∀ a, (s'.attrs ts).refObj = some a → ∃ n p w w' new, (s1.attrs ts).normalized = some n ∧
        env.resolve n p w = (.ok (some (a, new)), w') ∧ Expected root ts p) := by
    refine foldlM_keep (P := fun (s : St α W) => ∀ ts, (s.attrs ts).normalized = (s1.attrs ts).normalized ∧ (s.attrs ts).newRef = (s1.attrs ts).newRef ∧
      ∀ a, (s.attrs ts).refObj = some a → ∃ n p w w' new, (s1.attrs ts).normalized = some n ∧
        env.resolve n p w = (.ok (some (a, new)), w') ∧ Expected root ts p) ?_ hrun ?_
    · rintro ⟨p, us, x⟩ hm s s2 hs hP ts
      obtain ⟨v, hv, hm⟩ := List.mem_flatMap.1 hm
      obtain ⟨h1, h2, _⟩ := resolve2_ok hs
      by_cases hu : ts = us
      · subst hu
        rcases h2 with e | ⟨hbase, n, a, new, w1, w2, hn, hres, e⟩
        · rw [e]; exact hP ts
        · rw [e]
          refine ⟨(hP ts).1, (hP ts).2.1, ?_⟩
          intro a' ha
          cases ha
          exact ⟨n, p, w1, w2, new, by rw [← (hP ts).1, hn], hres,
            (call_expected own2_ok steps2_ok hd ((hL.2.2 _ _).1 hv) hm hbase).1⟩
      · rw [h1 ts hu]; exact hP ts
    · intro ts
      refine ⟨rfl, rfl, ?_⟩
      intro a ha
      exfalso
      by_cases hex : ∃ x r, Visited [] root ts x ∧ Refers normClasses2 x r
      · obtain ⟨x, r, hv, hr⟩ := hex
        obtain ⟨n, _, e⟩ := hn1 ts x r hv hr
        rw [e] at ha; cases ha
      · rw [hn2 ts (fun x r hv hr => hex ⟨x, r, hv, hr⟩)] at ha; cases ha
  constructor
  · intro ts x r hv hr
    -- some call is made for it
    have hcall : ∃ us o p, Visited [] root us o ∧ (p, ts, x) ∈ calls own2 steps2 (us, o) := by
      obtain ⟨c', q, d, kids, rfl, hc', hd', _⟩ := hr
      by_cases href : c' = s% "v2_0.Reference"
      · subst href
        refine ref_called covers2 hd ?_ hv rfl (fun us o hv => hheld _ ((hL.2.2 _ _).2 hv))
        obtain ⟨kids', rfl⟩ := build_class hb
        simpa [className?] using hc
      · refine ⟨ts, _, .cls c', hv, mem_calls.2 ⟨c', q, .obj d, kids, rfl, .inl ⟨?_, rfl, rfl⟩⟩⟩
        simp only [normClasses2, List.mem_cons, List.not_mem_nil, or_false, href, false_or] at hc'
        rcases hc' with rfl | rfl <;> decide
    obtain ⟨us, o, p', hvo, hm⟩ := hcall
    have hsome : (s'.attrs ts).refObj.isSome = true := by
      refine foldlM_reach (P := fun (s : St α W) => (s.attrs ts).refObj.isSome = true) (x0 := (p', ts, x)) ?_ ?_
        (List.mem_flatMap.2 ⟨_, (hL.2.2 _ _).2 hvo, hm⟩) hrun
      · rintro ⟨p, us, x⟩ _ s s2 hs hP
        obtain ⟨h1, h2, _⟩ := resolve2_ok hs
        by_cases hu : ts = us
        · subst hu
          rcases h2 with e | ⟨_, n, a, new, w1, w2, hn, hres, e⟩
          · rw [e]; exact hP
          · rw [e]; rfl
        · rw [h1 ts hu]; exact hP
      · intro s s2 hs
        exact (resolve2_ok hs).2.2 ⟨r, hr⟩
    obtain ⟨a, ha⟩ := Option.isSome_iff_exists.1 hsome
    obtain ⟨n, p, w1, w2, new, h1, h2, h3⟩ := (hinv ts).2.2 a ha
    obtain ⟨n', hn', e⟩ := hn1 ts x r hv hr
    rw [e] at h1
    cases h1
    exact ⟨a, new, ha, n, p, w1, w2, hn', h3, h2⟩
  · intro ts hno
    have e := hn2 ts hno
    obtain ⟨h1, h2, h3⟩ := hinv ts
    rw [e] at h1 h2 h3
    generalize hA : s'.attrs ts = A at h1 h2 h3
    obtain ⟨n, ro, nr⟩ := A
    cases h1; cases h2
    cases ro with
    | none => rfl
    | some a => obtain ⟨n, _, _, _, _, hn, _⟩ := h3 a rfl; cases hn

/-- **C80**.  When a 3.0 document is upgraded without error, every Reference and every path item with a `$ref` has the object
the application answered for it (`$ref` made absolute, of the kind declared at that place); its normalized reference is
the one the application gave, and so is its `$ref`, without the url when it was a local one.  Other objects are left as they
were.  Partial: for documents the scan visits as it should (`Scanned`), that is, without mixed callbacks (C32). -/
theorem C80_resolved_partial (env : Env α W) (c : Str) (hc : c ≠ s% "v3_0_0.Reference") (j : Json) (hj : j.wf = true) (p : Option Str)
    (root : Obj) (hb : build pkg (.cls c) j p [] = .ok root) (L : List (List Str × Obj)) (hL : Scanned root L) (w : W) (s' : St α W)
    (h : upgrade3 env L (fresh w) = .ok s') :
    (∀ ts x r, Visited [] root ts x → Refers [s% "v3_0_0.Reference", s% "v3_0_0.PathItem"] x r →
      ∃ a new r', Answer env root ts r a new ∧ s'.attrs ts = { normalized := some new, refObj := some a, newRef := some r' } ∧
        if r.head? = some '#' then ∃ u, env.split new = .ok (u, r') else r' = new) ∧
    (∀ ts, (∀ x r, Visited [] root ts x → ¬ Refers [s% "v3_0_0.Reference", s% "v3_0_0.PathItem"] x r) → s'.attrs ts = {}) := by
  have hd := doc_of_build hj hb
  obtain ⟨s1, hn, hr⟩ := bindOk h
  obtain ⟨hn1, hn2, hw⟩ := normalized_fresh (classes := normClasses3) (fun c hc => refField3 hc) hL hn
  obtain ⟨hheld, hrun⟩ := scan_calls hr
  constructor
  · intro ts x r hv hr
    have hcall : ∃ us o p, Visited [] root us o ∧ (p, ts, x) ∈ calls own3 steps3 (us, o) := by
      obtain ⟨c', q, d, kids, rfl, hc', hd', _⟩ := hr
      by_cases href : c' = s% "v3_0_0.Reference"
      · subst href
        refine ref_called covers3 hd ?_ hv rfl (fun us o hv => hheld _ ((hL.2.2 _ _).2 hv))
        obtain ⟨kids', rfl⟩ := build_class hb
        simpa [className?] using hc
      · refine ⟨ts, _, .cls c', hv, mem_calls.2 ⟨c', q, .obj d, kids, rfl, .inl ⟨?_, rfl, rfl⟩⟩⟩
        simp only [List.mem_cons, List.not_mem_nil, or_false, href, false_or] at hc'
        subst hc'; decide
    obtain ⟨us, o, p', hvo, hm⟩ := hcall
    have he : eff (p', ts, x) := by
      obtain ⟨c', q, d, kids, rfl, hc', _⟩ := hr
      exact ⟨c', hc', rfl⟩
    obtain ⟨n, hn', e⟩ := hn1 ts x r hv hr
    obtain ⟨q, m, rfl⟩ := normalizeJr_some hn'
    obtain ⟨a, new, w1, w2, v, r', h1, h2, h3, h4⟩ := once_run hrun (calls_apart hd hL)
      (List.mem_flatMap.2 ⟨_, (hL.2.2 _ _).2 hvo, hm⟩) he (by rw [e])
    refine ⟨a, new, r', ⟨q :: m, p', w1, w2, hn', (call_expected own3_ok steps3_ok hd hvo hm (eff_base he)).1, h1⟩, h4, ?_⟩
    rw [e] at h2
    obtain ⟨c', q', d, kids, rfl, hc', hd', hne⟩ := hr
    have hv2 : refOf (.base c' q' (.obj d) kids) = .ok v := h2
    rw [refOf_get (refField3 hc') hd'] at hv2
    cases hv2
    unfold rewrite at h3
    simp only at h3
    have hsw : Str.startsWith r (s% "#") = true ↔ r.head? = some '#' := by
      cases r with
      | nil => simp [Str.startsWith]
      | cons a l =>
        show (('#' == a) && List.isPrefixOf [] l) = true ↔ some a = some '#'
        rw [Bool.and_eq_true, beq_iff_eq, Option.some.injEq]
        exact ⟨fun h => h.1.symm, fun h => ⟨h.symm, rfl⟩⟩
    by_cases hr : r.head? = some '#'
    · rw [if_pos hr]
      rw [if_pos (hsw.2 hr)] at h3
      obtain ⟨⟨u, jp⟩, h5, h6⟩ := bindOk h3
      cases h6
      exact ⟨u, h5⟩
    · rw [if_neg hr]
      rw [if_neg (fun e => hr (hsw.1 e))] at h3
      cases h3; rfl
  · intro ts hno
    refine foldlM_keep (P := fun (t : St α W) => t.attrs ts = {}) ?_ hrun (hn2 ts hno)
    rintro ⟨p, us, x⟩ hm s2 s3 hs hP
    obtain ⟨h1, _, h3, _⟩ := resolve3_ok hs
    by_cases hu : ts = us
    · subst hu
      rw [h3 (by rw [hP]), hP]
    · rw [h1 ts hu]; exact hP

/-! ### When nothing is raised -/

theorem reqs2 : ∀ c ∈ normClasses2, c ∉ ([] : List Str) → refLoose c = true := by
  intro c hc _
  exact List.all_eq_true.1 (show normClasses2.all refLoose = true by decide +kernel) c hc

theorem reqs3 : ∀ c ∈ normClasses3, c ∉ [s% "v3_0_0.Reference"] → refLoose c = true := by
  intro c hc hn
  simp only [normClasses3, List.mem_cons, List.not_mem_nil, or_false] at hc hn
  rcases hc with rfl | rfl
  · exact absurd rfl hn
  · decide +kernel

theorem normalizeAll_total {env : Env α W} {root : Obj} {classes needed : List Str} (hf : ∀ c ∈ classes, refField c = true)
    (hr : RefsOk env root classes needed) (hreq : ∀ c ∈ classes, c ∉ needed → refLoose c = true) {L : List (List Str × Obj)}
    (hL : Scanned root L) (s : St α W) : ∃ s', normalizeAll env classes L s = .ok s' := by
  rw [normalizeAll_eq]
  refine foldlM_total (P := fun _ => True) ?_ trivial
  rintro ⟨ts, x⟩ hm s _
  obtain ⟨s', h⟩ := normStep_total hf hr hreq ((hL.2.2 _ _).1 hm) s
  exact ⟨s', h, trivial⟩

theorem scan_total {res : Builder → List Str → Obj → St α W → R (St α W)} {own : Str → Option Builder} {steps : Str → List Step}
    {L : List (List Str × Obj)} {s : St α W} (hh : ∀ v ∈ L, HeldOk steps v) {P : St α W → Prop}
    (hf : ∀ v ∈ L, ∀ x ∈ calls own steps v, ∀ s, P s → ∃ s', stepCall res s x = .ok s' ∧ P s') (hp : P s) :
    ∃ s', L.foldlM (handle res own steps) s = .ok s' := by
  rw [foldlM_congr' (g := fun s v => (calls own steps v).foldlM (stepCall res) s) (fun v hv s => handle_calls (hh v hv)), ← foldlM_flatMap]
  refine foldlM_total (P := P) ?_ hp
  intro x hx s hp
  obtain ⟨v, hv, hx⟩ := List.mem_flatMap.1 hx
  exact hf v hv x hx s hp

/-- **C79**, the other way round: when every `$ref` of a 2.0 document is a string that can be made absolute, and the
application answers it, nothing is raised. -/
theorem C79_succeeds (env : Env α W) (c : Str) (j : Json) (hj : j.wf = true) (p : Option Str) (root : Obj)
    (hb : build pkg (.cls c) j p [] = .ok root) (L : List (List Str × Obj)) (hL : Scanned root L) (w : W)
    (hr : RefsOk env root [s% "v2_0.Schema", s% "v2_0.Reference", s% "v2_0.PathItem"] []) (ha : Answers env) :
    ∃ s', upgrade2 env L (fresh w) = .ok s' := by
  have hd := doc_of_build hj hb
  obtain ⟨s1, hn⟩ := normalizeAll_total (classes := normClasses2) (fun c hc => refField2 hc) hr reqs2 hL (fresh w)
  obtain ⟨hn1, hn2, hw⟩ := normalized_fresh (classes := normClasses2) (fun c hc => refField2 hc) hL hn
  unfold upgrade2
  simp only [hn, bind, Except.bind]
  refine scan_total (P := fun (s : St α W) => ∀ ts, (s.attrs ts).normalized = (s1.attrs ts).normalized)
    (fun v hv => held2 hd ((hL.2.2 _ _).1 hv)) ?_ (fun _ => rfl)
  rintro ⟨ts, o⟩ hv ⟨p, us, x⟩ hx s hP
  suffices ∃ s', resolve2 env p us x s = .ok s' by
    obtain ⟨s', h⟩ := this
    refine ⟨s', h, fun ts => ?_⟩
    obtain ⟨h1, h2, _⟩ := resolve2_ok h
    by_cases hu : ts = us
    · subst hu
      rcases h2 with e | ⟨_, n, a, new, w1, w2, hn, hres, e⟩
      · rw [e]; exact hP ts
      · rw [e]; exact hP ts
    · rw [h1 ts hu]; exact hP ts
  unfold resolve2
  cases x with
  | base c q spec kids =>
    have hvx := (call_expected own2_ok steps2_ok hd ((hL.2.2 _ _).1 hv) hx rfl).2
    simp only [className?]
    by_cases hc : c ∈ normClasses2
    · rw [if_neg (by simpa using hc)]
      obtain ⟨d, rfl, h⟩ := hr us c q spec kids hvx hc
      rcases h with ⟨h, _⟩ | ⟨r, n, h, hne, hnorm⟩
      · rw [refOf_none (refField2 hc) (reqs2 c hc (by simp)) h]
        exact ⟨s, rfl⟩
      · rw [refOf_get (refField2 hc) h]
        have ht : (Json.str r).truthy = true := by cases r with
          | nil => exact absurd rfl hne
          | cons _ _ => rfl
        simp only [bind, Except.bind, ht, Bool.not_true, Bool.false_eq_true, if_false]
        split
        · exact ⟨s, rfl⟩
        · obtain ⟨n', h', e⟩ := hn1 us _ r hvx ⟨c, q, d, kids, rfl, hc, h, hne⟩
          obtain ⟨q0, m, rfl⟩ := normalizeJr_some h'
          rw [hP us, e]
          simp only
          obtain ⟨a, new, w', hres, _⟩ := ha (q0 :: m) p s.world (by simp)
          rw [hres]
          exact ⟨_, rfl⟩
    · rw [if_pos hc]; exact ⟨s, rfl⟩
  | _ => exact ⟨s, rfl⟩

/-- **C80**, the other way round, for documents without `examples` of media types (C82). -/
theorem C80_succeeds (env : Env α W) (c : Str) (j : Json) (hj : j.wf = true) (p : Option Str) (root : Obj)
    (hb : build pkg (.cls c) j p [] = .ok root) (L : List (List Str × Obj)) (hL : Scanned root L) (w : W)
    (hr : RefsOk env root [s% "v3_0_0.Reference", s% "v3_0_0.PathItem"] [s% "v3_0_0.Reference"]) (ha : Answers env) (hex : NoExamples root) :
    ∃ s', upgrade3 env L (fresh w) = .ok s' := by
  have hd := doc_of_build hj hb
  obtain ⟨s1, hn⟩ := normalizeAll_total (classes := normClasses3) (fun c hc => refField3 hc) hr reqs3 hL (fresh w)
  obtain ⟨hn1, hn2, hw⟩ := normalized_fresh (classes := normClasses3) (fun c hc => refField3 hc) hL hn
  unfold upgrade3
  simp only [hn, bind, Except.bind]
  refine scan_total (P := fun (s : St α W) => (∀ ts x r, Visited [] root ts x → Refers normClasses3 x r →
    ∃ q m, (s.attrs ts).normalized = some (q :: m)) ∧ (∀ ts, (∀ x r, Visited [] root ts x → ¬ Refers normClasses3 x r) →
      (s.attrs ts).normalized = none)) (fun v hv => held3 hd hex ((hL.2.2 _ _).1 hv)) ?_ ?_
  · rintro ⟨ts, o⟩ hv ⟨p, us, x⟩ hx s hP
    have huniq : ∀ {ts x y}, Visited [] root ts x → Visited [] root ts y → x = y := fun hx hy => scanned_unique hL hx hy
    suffices ∃ s', resolve3 env p us x s = .ok s' by
      obtain ⟨s', h⟩ := this
      obtain ⟨h1, h2, h3, h4⟩ := resolve3_ok h
      refine ⟨s', h, ?_, ?_⟩
      · intro ts y r hvy hry
        by_cases hu : ts = us
        · subst hu
          by_cases he : eff (p, ts, x)
          · obtain ⟨q, m, hn⟩ := hP.1 ts y r hvy hry
            obtain ⟨a, new, w1, w2, v, r', hres, _, _, e⟩ := h4 q m he hn
            obtain ⟨a', new', w', hres', hnew, _⟩ := ha (q :: m) p w1 (by simp)
            rw [hres] at hres'
            cases hres'
            rw [e]
            cases new with
            | nil => exact absurd rfl hnew
            | cons q m => exact ⟨q, m, rfl⟩
          · rw [h2 he]; exact hP.1 ts y r hvy hry
        · rw [h1 ts hu]; exact hP.1 ts y r hvy hry
      · intro ts hno
        by_cases hu : ts = us
        · subst hu
          rw [h3 (hP.2 ts hno)]; exact hP.2 ts hno
        · rw [h1 ts hu]; exact hP.2 ts hno
    unfold resolve3
    cases x with
    | base c q spec kids =>
      have hvx := (call_expected own3_ok steps3_ok hd ((hL.2.2 _ _).1 hv) hx rfl).2
      simp only [className?]
      by_cases hc : c ∈ normClasses3
      · rw [if_neg (by simpa using hc)]
        obtain ⟨d, rfl, h⟩ := hr us c q spec kids hvx hc
        rcases h with ⟨h, hneed⟩ | ⟨r, n, h, hne, hnorm⟩
        · rw [hP.2 us ?_]
          · simp only
            rw [if_neg (by simpa using hneed)]; exact ⟨s, rfl⟩
          · intro y r hy hry
            have := huniq hvx hy
            subst this
            obtain ⟨_, _, _, _, he, _, hd', _⟩ := hry
            cases he
            rw [h] at hd'; cases hd'
        · obtain ⟨q0, m, hnm⟩ := hP.1 us _ r hvx ⟨c, q, d, kids, rfl, hc, h, hne⟩
          rw [hnm]
          simp only
          obtain ⟨a, new, w', hres, hnew, u, jp, hsp⟩ := ha (q0 :: m) p s.world (by simp)
          rw [hres]
          simp only
          have hv : ∃ r, currentRef (s.attrs us) (.base c q (.obj d) kids) = .ok (.str r) := by
            unfold currentRef
            cases hnr : (s.attrs us).newRef with
            | some r => exact ⟨r, rfl⟩
            | none => exact ⟨r, refOf_get (refField3 hc) h⟩
          obtain ⟨r, hv⟩ := hv
          rw [hv]
          have hw : ∃ r', rewrite env (.str r) new = .ok r' := by
            unfold rewrite
            simp only
            split
            · rw [hsp]; exact ⟨jp, rfl⟩
            · exact ⟨new, rfl⟩
          obtain ⟨r', hw⟩ := hw
          simp only [bind, Except.bind, hw]
          exact ⟨_, rfl⟩
      · rw [if_pos hc]; exact ⟨s, rfl⟩
    | _ => exact ⟨s, rfl⟩
  · refine ⟨fun ts x r hv hr => ?_, fun ts hno => by rw [hn2 ts hno]⟩
    obtain ⟨n, h, e⟩ := hn1 ts x r hv hr
    obtain ⟨q, m, rfl⟩ := normalizeJr_some h
    exact ⟨q, m, by rw [e]⟩

/-! ### Errors -/

theorem not_ok {β : Type} {x : R β} (h : ∀ b, x ≠ .ok b) : ∃ e, x = .error e := by
  cases x with
  | error e => exact ⟨e, rfl⟩
  | ok b => exact absurd rfl (h b)

/-- **C81**: a 2.0 document with a reference to nothing is not upgraded: an error is raised. -/
theorem C81_dangling (env : Env α W) (c : Str) (hc : c ≠ s% "v2_0.Reference") (j : Json) (hj : j.wf = true) (p : Option Str) (root : Obj)
    (hb : build pkg (.cls c) j p [] = .ok root) (L : List (List Str × Obj)) (hL : Scanned root L) (w : W)
    (ts : List Str) (x : Obj) (r : Str) (hv : Visited [] root ts x)
    (hr : Refers [s% "v2_0.Reference", s% "v2_0.Schema", s% "v2_0.PathItem"] x r) (hdang : Dangling env r) :
    ∃ e, upgrade2 env L (fresh w) = .error e := by
  refine not_ok (fun s' h => ?_)
  obtain ⟨a, new, _, n, p', w1, w2, h1, _, h3⟩ := (C79_resolved env c hc j hj p root hb L hL w s' h).1 ts x r hv hr
  exact hdang n p' w1 h1 a new (by rw [h3])

/-- **C81** for 3.0 documents. -/
theorem C81_dangling3 (env : Env α W) (c : Str) (hc : c ≠ s% "v3_0_0.Reference") (j : Json) (hj : j.wf = true) (p : Option Str) (root : Obj)
    (hb : build pkg (.cls c) j p [] = .ok root) (L : List (List Str × Obj)) (hL : Scanned root L) (w : W)
    (ts : List Str) (x : Obj) (r : Str) (hv : Visited [] root ts x)
    (hr : Refers [s% "v3_0_0.Reference", s% "v3_0_0.PathItem"] x r) (hdang : Dangling env r) :
    ∃ e, upgrade3 env L (fresh w) = .error e := by
  refine not_ok (fun s' h => ?_)
  obtain ⟨a, new, r', ⟨n, p', w1, w2, h1, _, h3⟩, _⟩ := (C80_resolved_partial env c hc j hj p root hb L hL w s' h).1 ts x r hv hr
  exact hdang n p' w1 h1 a new (by rw [h3])

/-- **C82**: a 3.0 document with `examples` of a media type is never upgraded, whatever the application answers. -/
theorem C82_examples_violation (env : Env α W) (c : Str) (j : Json) (hj : j.wf = true) (p : Option Str) (root : Obj)
    (hb : build pkg (.cls c) j p [] = .ok root) (L : List (List Str × Obj)) (hL : Scanned root L) (s : St α W)
    (ts : List Str) (q : Option Str) (spec : Json) (kids : Dict Obj) (hv : Visited [] root ts (.base (s% "v3_0_0.MediaType") q spec kids))
    (m : Obj) (hm : Dict.get? kids (s% "examples") = some m) :
    ∃ e, upgrade3 env L s = .error e := by
  refine not_ok (fun s' h => ?_)
  obtain ⟨s1, hn, hr⟩ := bindOk h
  obtain ⟨hheld, _⟩ := scan_calls hr
  obtain ⟨c', q', spec', kids', he, hbm, _⟩ := doc_base (visited_doc (doc_of_build hj hb) hv)
  cases he
  obtain ⟨cd, d, v, hcd, rfl, hgv, hbk⟩ := (base_kids hbm).2 _ _ (Dict.mem_of_get? hm)
  have hbuilder : cd.builder = orRef3 (s% "v3_0_0.Example") := by
    have : (pkg (s% "v3_0_0.MediaType")).children.all (fun kc => kc.1 ≠ s% "examples" || kc.2.builder = orRef3 (s% "v3_0_0.Example")) = true := by
      decide +kernel
    simpa using List.all_eq_true.1 this _ hcd
  rw [hbuilder] at hbk
  have hbase : ∃ c1 kids1 p1 s1, m = .base c1 p1 s1 kids1 := by
    unfold orRef3 at hbk
    rw [build_ifNotRef] at hbk
    split at hbk
    · cases hbk
    · obtain ⟨kids1, e⟩ := build_class hbk; exact ⟨_, _, _, _, e⟩
    · obtain ⟨kids1, e⟩ := build_class hbk; exact ⟨_, _, _, _, e⟩
  obtain ⟨c1, kids1, p1, s1, rfl⟩ := hbase
  refine hheld _ ((hL.2.2 _ _).2 hv) _ q (.obj d) kids rfl ⟨s% "examples", .map, orRef3 (s% "v3_0_0.Example")⟩
    (show _ ∈ [_, _] from List.mem_cons_of_mem _ List.mem_cons_self) .attributeError ?_
  unfold held
  rw [hm]
  rfl

/-! ### Cases -/

/-- An application that finds the answer 7 at the reference asked for. -/
def answering : Env Nat Unit where
  ok := fun _ => true
  url := s% "file:///a.json"
  resolve := fun n _ w => (.ok (some (7, n)), w)
  split := fun n => .ok (((Str.cut '#' n).1), '#' :: ((Str.cut '#' n).2.getD []))

/-- An application that finds nothing. -/
def empty : Env Nat Unit := { answering with resolve := fun _ _ w => (.ok none, w) }

/-- The objects of a document, as the scan of C32. -/
theorem scanned_walk {root : Obj} (hk : Keyed root) (hm : NoMix root) : Scanned root (walk [] (nodes root) root) :=
  ⟨walk_traverse _ _ (Nat.le_refl _) hk hm _, walk_nodup _ _ (Nat.le_refl _) hk hm, walk_visited _ _ (Nat.le_refl _)⟩

/-- A document as loaded, of the classes without callbacks, is scanned as the theorems above suppose. -/
theorem scanned_loaded {c : Str} (hc : noCallbacks c = true) {j : Json} (hj : j.wf = true) {p : Option Str} {root : Obj}
    (h : build pkg (.cls c) j p [] = .ok root) : ∃ L, Scanned root L := C32_loaded_partial [] c hc j hj p root h

theorem scanned_single (c : Str) (q : Option Str) (spec : Json) : Scanned (.base c q spec []) [([], .base c q spec [])] := by
  refine scanned_walk (root := .base c q spec []) ?_ ?_ 
  · intro m hm
    cases hm with
    | here => exact List.Pairwise.nil
    | child h _ => cases h
  · intro m hm
    cases hm with
    | here => intro k o h; cases h
    | child h _ => cases h

/-- **C81**: the error is not the JsonReferenceError that is meant, but an AttributeError. -/
theorem C81_error_violation : ∃ root, build pkg (.cls (s% "v2_0.Schema")) (.obj [(s% "$ref", .str (s% "#/a"))]) none [] = .ok root ∧
    Scanned root [([], root)] ∧ upgrade2 empty [([], root)] (fresh ()) = .error .attributeError :=
  ⟨.base (s% "v2_0.Schema") none (.obj [(s% "$ref", .str (s% "#/a"))]) [], by decide +kernel, scanned_single _ _ _, by rfl⟩

/-- **C79**: a document that is itself a Reference (the target of another one) is never resolved, although the application
would answer: for every reference. -/
theorem C79_root_violation (r : Str) (hr : r ≠ []) (n : Option Str) (hn : normalizeJr answering.ok (some r) (some answering.url) = .ok n) :
    ∃ root s', build pkg (.cls (s% "v2_0.Reference")) (.obj [(s% "$ref", .str r)]) none [] = .ok root ∧
      Scanned root [([], root)] ∧ Refers [s% "v2_0.Reference"] root r ∧
      upgrade2 answering [([], root)] (fresh ()) = .ok s' ∧ (s'.attrs []).refObj = none := by
  have hb : build pkg (.cls (s% "v2_0.Reference")) (.obj [(s% "$ref", .str r)]) none [] =
      .ok (.base (s% "v2_0.Reference") none (.obj [(s% "$ref", .str r)]) []) := by rw [build_cls]; rfl
  refine ⟨_, (fresh ()).put [] { normalized := n }, hb, scanned_single _ _ _, ⟨_, _, _, _, rfl, List.mem_cons_self, rfl, hr⟩, ?_, by rw [put_self]⟩
  have ht : (Json.str r).truthy = true := by cases r with
    | nil => exact absurd rfl hr
    | cons _ _ => rfl
  have h1 : normalizeAll answering normClasses2 [([], .base (s% "v2_0.Reference") none (.obj [(s% "$ref", .str r)]) [])] (fresh ()) =
      .ok ((fresh ()).put [] { normalized := n }) := by
    rw [normalizeAll_eq]
    simp only [List.foldlM_cons, List.foldlM_nil, normStep, className?]
    rw [if_pos (by decide)]
    unfold normalizeOne
    rw [refOf_get (refField2 (by decide)) (show Dict.get? [(s% "$ref", Json.str r)] (s% "$ref") = some (.str r) from rfl)]
    simp only [bind, Except.bind, ht, if_true, hn]
    rfl
  unfold upgrade2
  rw [h1]
  rfl

/-- A response with a header that is a reference. -/
def withHeader : Json := .obj [(s% "description", .str []),
  (s% "headers", .obj [(s% "X", .obj [(s% "$ref", .str (s% "#/components/headers/H"))]), (s% "Y", .obj [])])]

def headerRoot : Obj := .base (s% "v3_0_0.Response") none withHeader
      [(s% "headers", .map (orRef3 (s% "v3_0_0.Header")) (some (s% "headers"))
        (.obj [(s% "X", .obj [(s% "$ref", .str (s% "#/components/headers/H"))]), (s% "Y", .obj [])])
        [(s% "X", .base (s% "v3_0_0.Reference") (some (s% "headers/X")) (.obj [(s% "$ref", .str (s% "#/components/headers/H"))]) []),
         (s% "Y", .base (s% "v3_0_0.Header") (some (s% "headers/Y")) (.obj []) [])])]

theorem headerRoot_built : build pkg (.cls (s% "v3_0_0.Response")) withHeader none [] = .ok headerRoot := by decide +kernel

/-- The hypotheses of C80 are met, and the reference has its answer. -/
example : ∃ root L s', build pkg (.cls (s% "v3_0_0.Response")) withHeader none [] = .ok root ∧ Scanned root L ∧
    upgrade3 answering L (fresh ()) = .ok s' ∧
    (∃ x, Visited [] root [s% "headers", s% "X"] x ∧ Refers [s% "v3_0_0.Reference", s% "v3_0_0.PathItem"] x (s% "#/components/headers/H")) ∧
    (s'.attrs [s% "headers", s% "X"]).refObj = some 7 ∧
    (s'.attrs [s% "headers", s% "X"]).newRef = some (s% "#/components/headers/H") ∧
    (s'.attrs [s% "headers", s% "X"]).normalized = some (s% "file:///a.json#/components/headers/H") := by
  have hb := headerRoot_built
  have hl : Loaded pkg (fun b => within noCallbacks (fun b => flatB b || contB b) b = true) _ := ⟨_, _, _, by decide, by decide, hb⟩
  have hC : ∀ c, noCallbacks c = true → (pkg c).children.all
      (fun kc => within noCallbacks (fun b => flatB b || contB b) kc.2.builder) = true := by
    intro c hc
    have h := pkg_children (p := fun c kc => !noCallbacks c ||
      within noCallbacks (fun b => flatB b || contB b) kc.2.builder) (by decide +kernel) c
    simpa [hc] using h
  refine ⟨_, _, _, hb, scanned_walk (loaded_keyed okTable_pkg (closed_within hC) hl) (loaded_noMix plainNames_pkg hC hl), rfl,
    ⟨_, .child (ts := []) (us := [_, _]) .root (by simp) (.through (.child List.mem_cons_self) rfl (.direct (.item List.mem_cons_self) rfl)),
      ⟨_, _, _, _, rfl, List.mem_cons_self, rfl, by decide⟩⟩, ?_, ?_, ?_⟩
  · rfl
  · rfl
  · rfl

/-- An application that answers everything, and one that answers nothing. -/
example : Answers answering ∧ Dangling empty (s% "#/a") := by
  refine ⟨fun n p w hn => ⟨7, n, w, rfl, hn, _, _, rfl⟩, ?_⟩
  intro n p w _ a new h
  cases h

/-- The references of that response are as C80 asks. -/
example (root : Obj) (h : build pkg (.cls (s% "v3_0_0.Response")) withHeader none [] = .ok root) :
    RefsOk answering root [s% "v3_0_0.Reference", s% "v3_0_0.PathItem"] [s% "v3_0_0.Reference"] ∧ NoExamples root := by
  have hb := headerRoot_built
  rw [hb] at h
  cases h
  have hvis : ∀ ts x, Visited [] headerRoot ts x → (ts, x) ∈ [([], headerRoot),
      ([s% "headers", s% "Y"], .base (s% "v3_0_0.Header") (some (s% "headers/Y")) (.obj []) []),
      ([s% "headers", s% "X"], .base (s% "v3_0_0.Reference") (some (s% "headers/X")) (.obj [(s% "$ref", .str (s% "#/components/headers/H"))]) [])] := by
    intro ts x hv
    rw [← walk_visited (nodes headerRoot) _ (Nat.le_refl _)] at hv
    exact hv
  constructor
  · intro ts c q spec kids hv hc
    have hm := hvis _ _ hv
    simp only [headerRoot, List.mem_cons, Prod.mk.injEq, Obj.base.injEq, List.not_mem_nil, or_false] at hm
    rcases hm with ⟨_, rfl, _⟩ | ⟨_, rfl, _⟩ | ⟨_, rfl, _, rfl, _⟩
    · simp at hc
    · simp at hc
    · exact ⟨_, rfl, .inr ⟨_, _, rfl, by decide, rfl⟩⟩
  · intro ts q spec kids hv
    have hm := hvis _ _ hv
    simp [headerRoot] at hm

/-- A media type with an example: the document of C82. -/
example : ∃ root q spec kids m, build pkg (.cls (s% "v3_0_0.MediaType"))
      (.obj [(s% "examples", .obj [(s% "a", .obj [(s% "value", .int 1)])])]) none [] = .ok root ∧ (∃ L, Scanned root L) ∧
    Visited [] root [] (.base (s% "v3_0_0.MediaType") q spec kids) ∧ Dict.get? kids (s% "examples") = some m := by
  have hb : build pkg (.cls (s% "v3_0_0.MediaType")) (.obj [(s% "examples", .obj [(s% "a", .obj [(s% "value", .int 1)])])]) none [] =
      .ok (.base (s% "v3_0_0.MediaType") none (.obj [(s% "examples", .obj [(s% "a", .obj [(s% "value", .int 1)])])])
        [(s% "examples", .base (s% "v3_0_0.Example") (some (s% "examples")) (.obj [(s% "a", .obj [(s% "value", .int 1)])]) [])]) := by
    decide +kernel
  exact ⟨_, _, _, _, _, hb, scanned_loaded (by decide) (by decide) hb, .root, rfl⟩

end Pyopenapi.Refs
