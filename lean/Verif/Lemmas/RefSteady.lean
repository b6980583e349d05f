import Verif.Lemmas.RefInv

/-!
# References an application answers from what it has

When every reference of a document is answered without changing the state of the application, the scans succeed and leave that
state alone.
-/

namespace Pyopenapi.Refs
open _root_.Pyopenapi.Spec _root_.Pyopenapi.Refs.Spec Obj

variable {α W : Type}

/-- In the state `w`, the references of the document have the answers `ans`, for any parser, and the state stays. -/
def Steady (env : Env α W) (root : Obj) (classes : List Str) (w : W) (ans : Str → α × Str) : Prop :=
  ∀ ts x r n, Visited [] root ts x → Refers classes x r → normalizeJr env.ok (some r) (some env.url) = .ok (some n) →
    ∀ p, env.resolve n p w = (.ok (some (ans n)), w)

theorem upgrade2_steady (env : Env α W) (c : Str) (hc : c ≠ s% "v2_0.Reference") (j : Json) (hj : j.wf = true) (p : Option Str) (root : Obj)
    (hb : build pkg (.cls c) j p [] = .ok root) (L : List (List Str × Obj)) (hL : Scanned root L) (w : W)
    (hr : RefsOk env root normClasses2 []) (ans : Str → α × Str) (ha : Steady env root normClasses2 w ans) :
    ∃ s', upgrade2 env L (fresh w) = .ok s' ∧ s'.world = w ∧
      (∀ ts x r, Visited [] root ts x → Refers normClasses2 x r → ∃ n, normalizeJr env.ok (some r) (some env.url) = .ok (some n) ∧
        s'.attrs ts = { normalized := some n, refObj := some (ans n).1 }) ∧
      (∀ ts, (∀ x r, Visited [] root ts x → ¬ Refers normClasses2 x r) → s'.attrs ts = {}) := by
  obtain ⟨s', h1, h2, h3, h4⟩ := upgrade2_inv env c hc j hj p root hb L hL w hr (fun w' => w' = w) (fun n a _ => a = (ans n).1)
    (fun ts x r n p w' hv hx hn _ _ hw => by subst hw; exact ⟨_, _, _, ha ts x r n hv hx hn p, rfl, rfl, fun _ _ h => h⟩) rfl
  refine ⟨s', h1, h2, fun ts x r hv hx => ?_, h4⟩
  obtain ⟨n, a, g1, rfl, g2⟩ := h3 ts x r hv hx
  exact ⟨n, g1, g2⟩

/-! ### 3.0 -/

/-- As long as the state is as `Inv` says, the references of the document are answered when what is expected where they stand is asked for,
and the state stays so; what `Q` says of a reference and its answer is true from then on. -/
def Follows (env : Env α W) (root : Obj) (classes : List Str) (Inv : W → Prop) (Q : Str → α → Str → W → Prop) : Prop :=
  ∀ ts x r n, Visited [] root ts x → Refers classes x r → normalizeJr env.ok (some r) (some env.url) = .ok (some n) →
    ∀ p w, Expected root ts p → Inv w → ∃ y new w', env.resolve n p w = (.ok (some (y, new)), w') ∧ Inv w' ∧ Q n y new w' ∧
      (∃ u jp, env.split new = .ok (u, jp)) ∧ ∀ m y new, Q m y new w → Q m y new w'

/-- What a call needs to succeed. -/
def Ready (env : Env α W) (Inv : W → Prop) (Q : Str → α → Str → W → Prop) (s : St α W) (c : Call) : Prop :=
  eff c → match (s.attrs c.2.1).normalized with
    | none => c.2.2.className? ≠ some (s% "v3_0_0.Reference")
    | some n => n ≠ [] ∧ (∀ w, Inv w → ∃ y new w', env.resolve n c.1 w = (.ok (some (y, new)), w') ∧ Inv w' ∧ Q n y new w' ∧
          (∃ u jp, env.split new = .ok (u, jp)) ∧ ∀ m y new, Q m y new w → Q m y new w') ∧
        ∃ r, currentRef (s.attrs c.2.1) c.2.2 = .ok (.str r)

theorem rewrite_ok {env : Env α W} {new : Str} (h : ∃ u jp, env.split new = .ok (u, jp)) (r : Str) : ∃ r', rewrite env (.str r) new = .ok r' := by
  obtain ⟨u, jp, h⟩ := h
  unfold rewrite
  simp only
  split
  · rw [h]; exact ⟨jp, rfl⟩
  · exact ⟨_, rfl⟩

theorem run3_inv {env : Env α W} {Inv : W → Prop} {Q : Str → α → Str → W → Prop} : ∀ {l : List Call} {s : St α W}, l.Pairwise Apart → Inv s.world →
    (∀ c ∈ l, Ready env Inv Q s c) → ∃ s', l.foldlM (stepCall (resolve3 env)) s = .ok s' ∧ Inv s'.world ∧
      (∀ m y new, Q m y new s.world → Q m y new s'.world) ∧
      (∀ c ∈ l, eff c → ∀ n, (s.attrs c.2.1).normalized = some n → ∃ y new, Q n y new s'.world ∧ ∃ v r, currentRef (s.attrs c.2.1) c.2.2 = .ok v ∧
        rewrite env v new = .ok r ∧ s'.attrs c.2.1 = { normalized := some new, refObj := some y, newRef := some r }) := by
  intro l
  induction l with
  | nil => intro s _ hw _; exact ⟨s, rfl, hw, fun _ _ _ h => h, fun c hc => by cases hc⟩
  | cons c l ih =>
    obtain ⟨p, us, x⟩ := c
    intro s hl hw hr
    rw [List.pairwise_cons] at hl
    obtain ⟨hl1, hl2⟩ := hl
    have key : ∃ s1, resolve3 env p us x s = .ok s1 ∧ Inv s1.world ∧ (∀ m y new, Q m y new s.world → Q m y new s1.world) ∧
        (∀ ts, ts ≠ us → s1.attrs ts = s.attrs ts) ∧ (¬ eff (p, us, x) → s1 = s) ∧
        (eff (p, us, x) → ∀ n, (s.attrs us).normalized = some n → ∃ y new, Q n y new s1.world ∧ ∃ v r, currentRef (s.attrs us) x = .ok v ∧
          rewrite env v new = .ok r ∧ s1.attrs us = { normalized := some new, refObj := some y, newRef := some r }) := by
      unfold resolve3
      by_cases he : eff (p, us, x)
      · have hrd := hr _ List.mem_cons_self he
        obtain ⟨k, hk, hkx⟩ := he
        simp only at hkx
        rw [hkx]
        simp only
        rw [if_neg (by simpa using hk)]
        dsimp only at hrd
        cases hn : (s.attrs us).normalized with
        | none =>
          rw [hn] at hrd
          rw [hkx] at hrd
          dsimp only at hrd ⊢
          rw [if_neg (fun e => hrd (by rw [e]))]
          exact ⟨s, rfl, hw, fun _ _ _ h => h, fun _ _ => rfl, fun _ => rfl, fun _ n h => by cases h⟩
        | some n =>
          rw [hn] at hrd
          obtain ⟨hne, hres, r0, hv⟩ := hrd
          cases n with
          | nil => exact absurd rfl hne
          | cons q m =>
            simp only
            obtain ⟨y, new, w', hres, hw', hq1, hsp, hq2⟩ := hres s.world hw
            obtain ⟨r, hrw⟩ := rewrite_ok hsp r0
            rw [hres]
            simp only [hv, hrw, bind, Except.bind]
            refine ⟨_, rfl, hw', hq2, fun ts ht => put_ne s _ ht, fun h => absurd ⟨k, hk, hkx⟩ h, fun _ n h => ?_⟩
            cases h
            exact ⟨y, new, hq1, .str r0, r, rfl, hrw, put_self s us _⟩
      · refine ⟨s, ?_, hw, fun _ _ _ h => h, fun _ _ => rfl, fun _ => rfl, fun h => absurd h he⟩
        cases hx : x.className? with
        | none => rfl
        | some k =>
          simp only
          rw [if_pos (fun hk => he ⟨k, hk, hx⟩)]
    obtain ⟨s1, h1, hw1, hqq, hother, hskip, hset⟩ := key
    have hready : ∀ c ∈ l, Ready env Inv Q s1 c := by
      intro c hc he
      by_cases hh : eff (p, us, x)
      · have := hother c.2.1 (fun e => hl1 c hc hh he e.symm)
        rw [this]
        exact hr c (List.mem_cons_of_mem _ hc) he
      · rw [hskip hh]
        exact hr c (List.mem_cons_of_mem _ hc) he
    obtain ⟨s2, h2, hw2, hqq2, hset2⟩ := ih hl2 hw1 hready
    refine ⟨s2, by rw [List.foldlM_cons]; show (resolve3 env p us x s >>= _) = _; rw [h1]; exact h2, hw2,
      fun m y new hm => hqq2 m y new (hqq m y new hm), ?_⟩
    intro c hc he n hn
    rcases List.mem_cons.1 hc with rfl | hc'
    · obtain ⟨y, new, h0, v, r, h3, h4, h5⟩ := hset he n hn
      refine ⟨y, new, hqq2 _ _ _ h0, v, r, h3, h4, ?_⟩
      rw [← h5]
      exact eff_run h2 (fun c hc hec e => hl1 c hc he hec e.symm)
    · by_cases hh : eff (p, us, x)
      · have e := hother c.2.1 (fun e => hl1 c hc' hh he e.symm)
        obtain ⟨y, new, h0, v, r, h3, h4, h5⟩ := hset2 c hc' he n (by rw [e]; exact hn)
        rw [e] at h3
        exact ⟨y, new, h0, v, r, h3, h4, h5⟩
      · rw [hskip hh] at hset2
        exact hset2 c hc' he n hn

theorem currentRef_fresh {c : Str} {q : Option Str} {d : Dict Json} {kids : Dict Obj} {r : Str} (hc : c ∈ normClasses3)
    (h : Dict.get? d (s% "$ref") = some (.str r)) (n : Option Str) (a : Option α) :
    currentRef ({ normalized := n, refObj := a } : Attrs α) (.base c q (.obj d) kids) = .ok (.str r) :=
  refOf_get (q := q) (refField3 hc) h

/-- Both scans of a 3.0 document; the first one may have been run with another state. -/
theorem resolve3_follows (env env' : Env α W) (c : Str) (hc : c ≠ s% "v3_0_0.Reference") (j : Json) (hj : j.wf = true) (p : Option Str)
    (root : Obj) (hb : build pkg (.cls c) j p [] = .ok root) (L : List (List Str × Obj)) (hL : Scanned root L) (w0 w : W)
    (hok : env'.ok = env.ok) (hurl : env'.url = env.url) (hex : NoExamples root)
    (hr : RefsOk env root normClasses3 [s% "v3_0_0.Reference"]) (Inv : W → Prop) (Q : Str → α → Str → W → Prop)
    (ha : Follows env' root normClasses3 Inv Q) (hw : Inv w) {s1 : St α W} (hn : normalizeAll env normClasses3 L (fresh w0) = .ok s1) :
    ∃ s', L.foldlM (handle (resolve3 env') own3 steps3) { s1 with world := w } = .ok s' ∧ Inv s'.world ∧
      (∀ ts x r, Visited [] root ts x → Refers normClasses3 x r → ∃ n y new r', normalizeJr env.ok (some r) (some env.url) = .ok (some n) ∧
        Q n y new s'.world ∧ rewrite env' (.str r) new = .ok r' ∧
        s'.attrs ts = { normalized := some new, refObj := some y, newRef := some r' }) ∧
      (∀ ts, (∀ x r, Visited [] root ts x → ¬ Refers normClasses3 x r) → s'.attrs ts = {}) := by
  have hd := doc_of_build hj hb
  obtain ⟨hn1, hn2, _⟩ := normalized_fresh (classes := normClasses3) (fun c hc => refField3 hc) hL hn
  have hheld : ∀ v ∈ L, HeldOk steps3 v := fun v hv => held3 hd hex ((hL.2.2 _ _).1 hv)
  have hready : ∀ c ∈ L.flatMap (calls own3 steps3), Ready env' Inv Q { s1 with world := w } c := by
    rintro ⟨p, us, x⟩ hm he
    obtain ⟨⟨ts, o⟩, hv, hx⟩ := List.mem_flatMap.1 hm
    obtain ⟨hexp, hvx⟩ := call_expected own3_ok steps3_ok hd ((hL.2.2 _ _).1 hv) hx (eff_base he)
    obtain ⟨k, hk, hkx⟩ := he
    dsimp only at hkx ⊢
    cases x with
    | base c q spec kids =>
      simp only [className?, Option.some.injEq] at hkx
      subst hkx
      obtain ⟨d, rfl, h⟩ := hr us c q spec kids hvx hk
      rcases h with ⟨h, hneed⟩ | ⟨r, n, h, hne, hnorm⟩
      · rw [hn2 us ?_]
        · simp only [className?, ne_eq, Option.some.injEq]
          simpa using hneed
        · intro y r hy hry
          have := scanned_unique hL hvx hy
          subst this
          obtain ⟨_, _, _, _, e, _, hd', _⟩ := hry
          cases e
          rw [h] at hd'; cases hd'
      · have hrefers : Refers normClasses3 (.base c q (.obj d) kids) r := ⟨c, q, d, kids, rfl, hk, h, hne⟩
        obtain ⟨n', h', e⟩ := hn1 us _ r hvx hrefers
        obtain ⟨q0, m, rfl⟩ := normalizeJr_some h'
        rw [e]
        exact ⟨by simp, fun w hw => ha us _ r _ hvx hrefers (by rw [hok, hurl]; exact h') p w hexp hw, r, currentRef_fresh hk h _ _⟩
    | _ => cases hkx
  obtain ⟨s', hrun, hw', _, hset⟩ := run3_inv (s := { s1 with world := w }) (calls_apart hd hL) hw hready
  have hrun' : L.foldlM (handle (resolve3 env') own3 steps3) { s1 with world := w } = .ok s' := by
    rw [foldlM_congr' (g := fun s v => (calls own3 steps3 v).foldlM (stepCall (resolve3 env')) s)
      (fun v hv s => handle_calls (hheld v hv)), ← foldlM_flatMap]
    exact hrun
  refine ⟨s', hrun', hw', ?_, ?_⟩
  · intro ts x r hv hr
    have hcall : ∃ us o p, Visited [] root us o ∧ (p, ts, x) ∈ calls own3 steps3 (us, o) := by
      obtain ⟨c', q, d, kids, rfl, hc', hd', _⟩ := hr
      by_cases href : c' = s% "v3_0_0.Reference"
      · subst href
        refine ref_called covers3 hd ?_ hv rfl (fun us o hv => hheld _ ((hL.2.2 _ _).2 hv))
        obtain ⟨kids', rfl⟩ := build_class hb
        simpa [className?] using hc
      · refine ⟨ts, _, .cls c', hv, mem_calls.2 ⟨c', q, .obj d, kids, rfl, .inl ⟨?_, rfl, rfl⟩⟩⟩
        simp only [normClasses3, List.mem_cons, List.not_mem_nil, or_false, href, false_or] at hc'
        subst hc'; decide
    obtain ⟨us, o, p', hvo, hm⟩ := hcall
    have he : eff (p', ts, x) := by
      obtain ⟨c', q, d, kids, rfl, hc', _⟩ := hr
      exact ⟨c', hc', rfl⟩
    obtain ⟨n, hnr, e⟩ := hn1 ts x r hv hr
    obtain ⟨q, m, rfl⟩ := normalizeJr_some hnr
    obtain ⟨y, new, h0, v, r', h1, h2, h3⟩ := hset (p', ts, x) (List.mem_flatMap.2 ⟨_, (hL.2.2 _ _).2 hvo, hm⟩) he (q :: m)
      (by show (s1.attrs ts).normalized = _; rw [e])
    refine ⟨q :: m, y, new, r', hnr, h0, ?_, h3⟩
    have hcur : currentRef (s1.attrs ts) x = .ok v := h1
    obtain ⟨c', q', d, kids, rfl, hc', hd', _⟩ := hr
    rw [e, currentRef_fresh hc' hd'] at hcur
    cases hcur
    exact h2
  · intro ts hno
    have hz : s1.attrs ts = {} := hn2 ts hno
    refine foldlM_keep (P := fun (t : St α W) => t.attrs ts = {}) ?_ hrun hz
    rintro ⟨p, us, x⟩ hm s2 s3 hs hP
    obtain ⟨h1, _, h3, _⟩ := resolve3_ok hs
    by_cases hu : ts = us
    · subst hu
      rw [h3 (by rw [hP]), hP]
    · rw [h1 ts hu]; exact hP

/-- As long as the state is as `Inv` says, the references of the document have the answers `ans`, for any parser, and the state
stays so; what `Q` says of a reference is true from then on. -/
def Stable (env : Env α W) (root : Obj) (classes : List Str) (Inv : W → Prop) (Q : Str → W → Prop) (ans : Str → α × Str) : Prop :=
  ∀ ts x r n, Visited [] root ts x → Refers classes x r → normalizeJr env.ok (some r) (some env.url) = .ok (some n) →
    ∀ p w, Inv w → ∃ w', env.resolve n p w = (.ok (some (ans n)), w') ∧ Inv w' ∧ Q n w' ∧ ∀ m, Q m w → Q m w'

/-- The same where the answers are known. -/
theorem resolve3_inv (env env' : Env α W) (c : Str) (hc : c ≠ s% "v3_0_0.Reference") (j : Json) (hj : j.wf = true) (p : Option Str)
    (root : Obj) (hb : build pkg (.cls c) j p [] = .ok root) (L : List (List Str × Obj)) (hL : Scanned root L) (w0 w : W)
    (hok : env'.ok = env.ok) (hurl : env'.url = env.url) (hex : NoExamples root)
    (hr : RefsOk env root normClasses3 [s% "v3_0_0.Reference"]) (Inv : W → Prop) (Q : Str → W → Prop) (ans : Str → α × Str)
    (ha : Stable env' root normClasses3 Inv Q ans) (hw : Inv w)
    (hsp : ∀ ts x r n, Visited [] root ts x → Refers normClasses3 x r → normalizeJr env.ok (some r) (some env.url) = .ok (some n) →
      ∃ u jp, env'.split (ans n).2 = .ok (u, jp)) :
    ∃ s1, normalizeAll env normClasses3 L (fresh w0) = .ok s1 ∧
    ∃ s', L.foldlM (handle (resolve3 env') own3 steps3) { s1 with world := w } = .ok s' ∧ Inv s'.world ∧
      (∀ ts x r, Visited [] root ts x → Refers normClasses3 x r → ∃ n r', normalizeJr env.ok (some r) (some env.url) = .ok (some n) ∧ Q n s'.world ∧
        rewrite env' (.str r) (ans n).2 = .ok r' ∧
        s'.attrs ts = { normalized := some (ans n).2, refObj := some (ans n).1, newRef := some r' }) ∧
      (∀ ts, (∀ x r, Visited [] root ts x → ¬ Refers normClasses3 x r) → s'.attrs ts = {}) := by
  obtain ⟨s1, hn⟩ := normalizeAll_total (classes := normClasses3) (fun c hc => refField3 hc) hr reqs3 hL (fresh w0)
  obtain ⟨s', h2, h3, h4, h5⟩ := resolve3_follows env env' c hc j hj p root hb L hL w0 w hok hurl hex hr Inv
    (fun n y new w => (y, new) = ans n ∧ Q n w) (fun ts x r n hv hx hn p w _ hw => by
      obtain ⟨w', g1, g2, g3, g4⟩ := ha ts x r n hv hx hn p w hw
      exact ⟨_, _, w', g1, g2, ⟨rfl, g3⟩, hsp ts x r n hv hx (by rw [← hok, ← hurl]; exact hn), fun m y new h => ⟨h.1, g4 m h.2⟩⟩) hw hn
  refine ⟨s1, hn, s', h2, h3, fun ts x r hv hr => ?_, h5⟩
  obtain ⟨n, y, new, r', g1, ⟨g2, g3⟩, g4, g5⟩ := h4 ts x r hv hr
  refine ⟨n, r', g1, g3, ?_, ?_⟩
  · rw [← g2]; exact g4
  · rw [← g2]; exact g5

theorem resolve3_steady (env env' : Env α W) (c : Str) (hc : c ≠ s% "v3_0_0.Reference") (j : Json) (hj : j.wf = true) (p : Option Str)
    (root : Obj) (hb : build pkg (.cls c) j p [] = .ok root) (L : List (List Str × Obj)) (hL : Scanned root L) (w0 w : W)
    (hok : env'.ok = env.ok) (hurl : env'.url = env.url) (hex : NoExamples root)
    (hr : RefsOk env root normClasses3 [s% "v3_0_0.Reference"]) (ans : Str → α × Str) (ha : Steady env' root normClasses3 w ans)
    (hsp : ∀ ts x r n, Visited [] root ts x → Refers normClasses3 x r → normalizeJr env.ok (some r) (some env.url) = .ok (some n) →
      ∃ u jp, env'.split (ans n).2 = .ok (u, jp)) :
    ∃ s1, normalizeAll env normClasses3 L (fresh w0) = .ok s1 ∧
    ∃ s', L.foldlM (handle (resolve3 env') own3 steps3) { s1 with world := w } = .ok s' ∧ s'.world = w ∧
      (∀ ts x r, Visited [] root ts x → Refers normClasses3 x r → ∃ n r', normalizeJr env.ok (some r) (some env.url) = .ok (some n) ∧
        rewrite env' (.str r) (ans n).2 = .ok r' ∧
        s'.attrs ts = { normalized := some (ans n).2, refObj := some (ans n).1, newRef := some r' }) ∧
      (∀ ts, (∀ x r, Visited [] root ts x → ¬ Refers normClasses3 x r) → s'.attrs ts = {}) := by
  obtain ⟨s1, h1, s', h2, h3, h4, h5⟩ := resolve3_inv env env' c hc j hj p root hb L hL w0 w hok hurl hex hr (fun w' => w' = w) (fun _ _ => True) ans
    (fun ts x r n hv hx hn p w' hw => by subst hw; exact ⟨_, ha ts x r n hv hx hn p, rfl, trivial, fun _ h => h⟩) rfl hsp
  refine ⟨s1, h1, s', h2, h3, fun ts x r hv hr => ?_, h5⟩
  obtain ⟨n, r', g1, _, g2⟩ := h4 ts x r hv hr
  exact ⟨n, r', g1, g2⟩

end Pyopenapi.Refs
