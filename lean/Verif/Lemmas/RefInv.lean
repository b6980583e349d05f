import Verif.Props.Refs

/-!
# References an application answers, changing as it does so
-/

namespace Pyopenapi.Refs
open _root_.Pyopenapi.Spec _root_.Pyopenapi.Refs.Spec Obj

variable {α W : Type}

/-- What is resolved is made by the parser that is given. -/
theorem call_built {own : Str → Option Builder} {steps : Str → List Step} (ho : OwnOk own) (hs : StepsOk steps) {root : Obj}
    (hd : Doc root) {v : List Str × Obj} (hv : Visited [] root v.1 v.2) {p : Builder} {us : List Str} {x : Obj}
    (hm : (p, us, x) ∈ calls own steps v) (hx : x.isBase = true) :
    (Expected root us p ∧ Visited [] root us x) ∧ ∃ j q, build pkg p j q [] = .ok x := by
  refine ⟨call_expected ho hs hd hv hm hx, ?_⟩
  obtain ⟨ts, o⟩ := v
  obtain ⟨c, q, spec, kids, rfl, hm⟩ := mem_calls.1 hm
  obtain ⟨c', q', spec', kids', he, hb, _⟩ := doc_base (visited_doc hd hv)
  cases he
  rcases hm with ⟨h1, rfl, rfl⟩ | ⟨st, hst, vs, hh, rfl, rfl⟩
  · obtain ⟨rfl, h2⟩ := ho _ _ h1
    exact ⟨spec, q, hb⟩
  · obtain ⟨ws, cd, rfl, hcd, hat, hor, h⟩ := held_fits (hs c) hb hst hh hx
    exact h

theorem normStep_world {env : Env α W} {classes : List Str} {s s1 : St α W} {v : List Str × Obj}
    (h : normStep env classes s v = .ok s1) (w' : W) :
    normStep env classes { s with world := w' } v = .ok { s1 with world := w' } := by
  unfold normStep at h ⊢
  cases hc : v.2.className? with
  | none => rw [hc] at h; cases h; rfl
  | some c =>
    rw [hc] at h
    dsimp only at h ⊢
    split at h
    · rename_i hm
      rw [if_pos hm]
      unfold normalizeOne at h ⊢
      cases hr : refOf v.2 with
      | error e => rw [hr] at h; cases h
      | ok j =>
        rw [hr] at h
        simp only [bind, Except.bind] at h ⊢
        split at h
        · rename_i ht
          rw [if_pos ht]
          split at h
          · rename_i r
            cases hn : normalizeJr env.ok (some r) (some env.url) with
            | error e => rw [hn] at h; cases h
            | ok n => rw [hn] at h; cases h; rfl
          · cases h
        · rename_i ht
          rw [if_neg ht]
          cases h; rfl
    · rename_i hm
      rw [if_neg hm]
      cases h; rfl

/-- The first scan does not care about the application. -/
theorem normalizeAll_world {env : Env α W} {classes : List Str} {L : List (List Str × Obj)} : ∀ {s s1 : St α W},
    normalizeAll env classes L s = .ok s1 → ∀ w', normalizeAll env classes L { s with world := w' } = .ok { s1 with world := w' } := by
  induction L with
  | nil => intro s s1 h w'; cases h; rfl
  | cons v L ih =>
    intro s s1 h w'
    rw [normalizeAll_eq, List.foldlM_cons] at h ⊢
    obtain ⟨s2, h1, h2⟩ := bindOk h
    rw [normStep_world h1 w']
    exact ih h2 w'

/-- Both scans of a 2.0 document, when every reference has an answer as long as the application is as `Inv` says, and stays so. -/
theorem upgrade2_inv (env : Env α W) (c : Str) (hc : c ≠ s% "v2_0.Reference") (j : Json) (hj : j.wf = true) (p : Option Str) (root : Obj)
    (hb : build pkg (.cls c) j p [] = .ok root) (L : List (List Str × Obj)) (hL : Scanned root L) (w : W)
    (hr : RefsOk env root normClasses2 []) (Inv : W → Prop) (Ans : Str → α → W → Prop)
    (ha : ∀ ts x r n p w, Visited [] root ts x → Refers normClasses2 x r → normalizeJr env.ok (some r) (some env.url) = .ok (some n) →
      Expected root ts p → (∃ j q, build pkg p j q [] = .ok x) → Inv w →
      ∃ a new w', env.resolve n p w = (.ok (some (a, new)), w') ∧ Ans n a w' ∧ Inv w' ∧ ∀ n0 a0, Ans n0 a0 w → Ans n0 a0 w') (hw0 : Inv w) :
    ∃ s', upgrade2 env L (fresh w) = .ok s' ∧ Inv s'.world ∧
      (∀ ts x r, Visited [] root ts x → Refers normClasses2 x r → ∃ n a, normalizeJr env.ok (some r) (some env.url) = .ok (some n) ∧
        Ans n a s'.world ∧ s'.attrs ts = { normalized := some n, refObj := some a }) ∧
      (∀ ts, (∀ x r, Visited [] root ts x → ¬ Refers normClasses2 x r) → s'.attrs ts = {}) := by
  have hd := doc_of_build hj hb
  obtain ⟨s1, hn⟩ := normalizeAll_total (classes := normClasses2) (fun c hc => refField2 hc) hr reqs2 hL (fresh w)
  obtain ⟨hn1, hn2, hw⟩ := normalized_fresh (classes := normClasses2) (fun c hc => refField2 hc) hL hn
  let P : St α W → Prop := fun s => Inv s.world ∧ ∀ ts, (s.attrs ts).normalized = (s1.attrs ts).normalized ∧ (s.attrs ts).newRef = none ∧
    ∀ a, (s.attrs ts).refObj = some a → ∃ n, (s1.attrs ts).normalized = some n ∧ Ans n a s.world
  have hP1 : P s1 := by
    refine ⟨hw ▸ hw0, fun ts => ⟨rfl, ?_⟩⟩
    by_cases hex : ∃ x r, Visited [] root ts x ∧ Refers normClasses2 x r
    · obtain ⟨x, r, hv, hr⟩ := hex
      obtain ⟨n, _, e⟩ := hn1 ts x r hv hr
      rw [e]; exact ⟨rfl, fun a h => by cases h⟩
    · rw [hn2 ts (fun x r hv hr => hex ⟨x, r, hv, hr⟩)]
      exact ⟨rfl, fun a h => by cases h⟩
  have hstep : ∀ v ∈ L, ∀ x ∈ calls own2 steps2 v, ∀ s, P s → ∃ s', stepCall (resolve2 env) s x = .ok s' ∧ P s' := by
    rintro ⟨ts, o⟩ hv ⟨p, us, x⟩ hx s hP
    show ∃ s', resolve2 env p us x s = .ok s' ∧ P s'
    unfold resolve2
    cases x with
    | base c q spec kids =>
      obtain ⟨⟨hexp, hvx⟩, hbx⟩ := call_built own2_ok steps2_ok hd ((hL.2.2 _ _).1 hv) hx rfl
      simp only [className?]
      by_cases hc : c ∈ normClasses2
      · rw [if_neg (by simpa using hc)]
        obtain ⟨d, rfl, h⟩ := hr us c q spec kids hvx hc
        rcases h with ⟨h, _⟩ | ⟨r, n, h, hne, hnorm⟩
        · rw [refOf_none (refField2 hc) (reqs2 c hc (by simp)) h]
          exact ⟨s, rfl, hP⟩
        · rw [refOf_get (refField2 hc) h]
          have ht : (Json.str r).truthy = true := by cases r with
            | nil => exact absurd rfl hne
            | cons _ _ => rfl
          simp only [bind, Except.bind, ht, Bool.not_true, Bool.false_eq_true, if_false]
          have hrefers : Refers normClasses2 (.base c q (.obj d) kids) r := ⟨c, q, d, kids, rfl, hc, h, hne⟩
          split
          · exact ⟨s, rfl, hP⟩
          · obtain ⟨n', h', e⟩ := hn1 us _ r hvx hrefers
            obtain ⟨q0, m, rfl⟩ := normalizeJr_some h'
            have hnn : (s.attrs us).normalized = some (q0 :: m) := by rw [(hP.2 us).1, e]
            simp only [hnn]
            obtain ⟨a, new, w', ha1, ha2, ha3, ha4⟩ := ha us _ r (q0 :: m) p s.world hvx hrefers h' hexp hbx hP.1
            rw [ha1]
            refine ⟨_, rfl, ha3, fun ts => ?_⟩
            by_cases hu : ts = us
            · subst hu
              simp only [put_self]
              refine ⟨by rw [e], (hP.2 ts).2.1, fun a h => ⟨q0 :: m, by rw [e], ?_⟩⟩
              cases h; exact ha2
            · simp only [put_ne s _ hu]
              refine ⟨(hP.2 ts).1, (hP.2 ts).2.1, fun a h => ?_⟩
              obtain ⟨n0, g1, g2⟩ := (hP.2 ts).2.2 a h
              exact ⟨n0, g1, ha4 n0 a g2⟩
      · rw [if_pos hc]; exact ⟨s, rfl, hP⟩
    | _ => exact ⟨s, rfl, hP⟩
  obtain ⟨s', hrun⟩ := scan_total (own := own2) (steps := steps2) (fun v hv => held2 hd ((hL.2.2 _ _).1 hv)) hstep hP1
  obtain ⟨hheld, hrun2⟩ := scan_calls hrun
  have hPend : P s' := by
    refine foldlM_keep (P := P) ?_ hrun2 hP1
    intro x hx s s2 hs hP
    obtain ⟨v, hv, hx⟩ := List.mem_flatMap.1 hx
    obtain ⟨s3, h3, hP3⟩ := hstep v hv x hx s hP
    rw [hs] at h3
    cases h3
    exact hP3
  have hup : upgrade2 env L (fresh w) = .ok s' := by
    unfold upgrade2
    simp only [hn, bind, Except.bind]
    exact hrun
  refine ⟨s', hup, hPend.1, ?_, ?_⟩
  · intro ts x r hv hr
    have hcl : Refers [s% "v2_0.Reference", s% "v2_0.Schema", s% "v2_0.PathItem"] x r := by
      obtain ⟨c, q, d, kids, h1, h2, h3⟩ := hr
      refine ⟨c, q, d, kids, h1, ?_, h3⟩
      simp only [normClasses2, List.mem_cons, List.not_mem_nil, or_false] at h2 ⊢
      rcases h2 with h2 | h2 | h2 <;> simp [h2]
    obtain ⟨a, _, hra, _⟩ := (C79_resolved env c hc j hj p root hb L hL w s' hup).1 ts x r hv hcl
    obtain ⟨n, hnr, e⟩ := hn1 ts x r hv hr
    obtain ⟨q0, m, rfl⟩ := normalizeJr_some hnr
    obtain ⟨h1, h2, h3⟩ := hPend.2 ts
    obtain ⟨n', hn', hans⟩ := h3 a hra
    rw [e] at h1 hn'
    cases hn'
    refine ⟨q0 :: m, a, hnr, hans, ?_⟩
    generalize s'.attrs ts = A at h1 h2 hra
    obtain ⟨x1, x2, x3⟩ := A
    simp only at h1 h2 hra
    subst h1 h2 hra
    rfl
  · intro ts hno
    refine (C79_resolved env c hc j hj p root hb L hL w s' hup).2 ts (fun x r hv hr => hno x r hv ?_)
    obtain ⟨c, q, d, kids, h1, h2, h3⟩ := hr
    refine ⟨c, q, d, kids, h1, ?_, h3⟩
    simp only [normClasses2, List.mem_cons, List.not_mem_nil, or_false] at h2 ⊢
    rcases h2 with h2 | h2 | h2 <;> simp [h2]


end Pyopenapi.Refs
