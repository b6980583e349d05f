import Verif.Lemmas.RefRun

/-! # 3.0: every reference is resolved once -/

namespace Pyopenapi.Refs
open _root_.Pyopenapi.Spec _root_.Pyopenapi.Refs.Spec Obj

variable {α W : Type}

theorem normalizeJr_some {ok : Str → Bool} {r : Str} {u n : Option Str} (h : normalizeJr ok (some r) u = .ok n) :
    ∃ q m, n = some (q :: m) := by
  unfold normalizeJr at h
  simp only at h
  split at h
  · cases h
  · rename_i urlPart _
    unfold joinRef at h
    split at h
    · cases urlPart with
      | nil => rename_i h0; exact absurd rfl h0
      | cons q m =>
        split at h
        · cases h; exact ⟨q, _, rfl⟩
        · cases h; exact ⟨q, _, rfl⟩
    · split at h
      · cases h; exact ⟨_, _, rfl⟩
      · cases h

/-- The call is for an object that may be a reference. -/
def eff (c : Call) : Prop := ∃ k ∈ normClasses3, c.2.2.className? = some k

def Apart (c c' : Call) : Prop := eff c → eff c' → c.2.1 ≠ c'.2.1

theorem resolve3_ok {env : Env α W} {p : Builder} {ts : List Str} {x : Obj} {s s' : St α W} (h : resolve3 env p ts x s = .ok s') :
    (∀ us, us ≠ ts → s'.attrs us = s.attrs us) ∧ (¬ eff (p, ts, x) → s'.attrs ts = s.attrs ts) ∧
    ((s.attrs ts).normalized = none → s'.attrs ts = s.attrs ts) ∧
    (∀ q m, eff (p, ts, x) → (s.attrs ts).normalized = some (q :: m) → ∃ a new w w' v r, env.resolve (q :: m) p w = (.ok (some (a, new)), w') ∧
      currentRef (s.attrs ts) x = .ok v ∧ rewrite env v new = .ok r ∧
      s'.attrs ts = { normalized := some new, refObj := some a, newRef := some r }) := by
  unfold resolve3 at h
  cases hx : x.className? with
  | none =>
    rw [hx] at h
    cases h
    refine ⟨fun _ _ => rfl, fun _ => rfl, fun _ => rfl, ?_⟩
    rintro q m ⟨k, _, hk⟩
    simp [hx] at hk
  | some c =>
    rw [hx] at h
    simp only at h
    by_cases hc : c ∈ normClasses3
    · rw [if_neg (by simpa using hc)] at h
      have heff : eff (p, ts, x) := ⟨c, hc, hx⟩
      cases hn : (s.attrs ts).normalized with
      | none =>
        rw [hn] at h
        simp only at h
        split at h
        · cases h
        · cases h
          exact ⟨fun _ _ => rfl, fun _ => rfl, fun _ => rfl, by simp⟩
      | some n =>
        cases n with
        | nil =>
          rw [hn] at h
          simp only at h
          split at h
          · cases h
          · cases h
            exact ⟨fun _ _ => rfl, fun _ => rfl, fun _ => rfl, by simp⟩
        | cons q m =>
          rw [hn] at h
          simp only at h
          rcases hres : env.resolve (q :: m) p s.world with ⟨_ | (_ | ⟨a, new⟩), w'⟩
          · rw [hres] at h; cases h
          · rw [hres] at h; cases h
          · rw [hres] at h
            simp only at h
            obtain ⟨v, hv, h⟩ := bindOk h
            obtain ⟨r, hr, h⟩ := bindOk h
            cases h
            refine ⟨fun us hu => put_ne s _ hu, fun hne => absurd heff hne, by simp, ?_⟩
            rintro q' m' _ he
            cases he
            exact ⟨a, new, _, _, v, r, hres, hv, hr, put_self s ts _⟩
    · rw [if_pos hc] at h
      cases h
      refine ⟨fun _ _ => rfl, fun _ => rfl, fun _ => rfl, ?_⟩
      rintro q m ⟨k, hk, he⟩
      simp only [hx, Option.some.injEq] at he
      exact absurd (he ▸ hk) hc

/-- In a class's handler, the loops go through different children. -/
theorem steps3_apart (c : Str) : ((steps3 c).map Step.child).Nodup := by
  unfold steps3
  repeat' split
  all_goals decide

/-- No loop yields path items. -/
theorem steps3_noPath (c : Str) : ∀ st ∈ steps3 c, s% "v3_0_0.PathItem" ∉ topClasses st.parser := by
  have : (steps3 c).all (fun st => decide (s% "v3_0_0.PathItem" ∉ topClasses st.parser)) = true := by
    unfold steps3
    repeat' split
    all_goals decide
  intro st hst
  exact of_decide_eq_true (List.all_eq_true.1 this st hst)

theorem enumFrom_apart {k : Str} : ∀ {l : List Obj} {i : Nat}, (enumFrom k i l).Pairwise (fun a b => a.1 ≠ b.1) := by
  intro l
  induction l with
  | nil => intro i; exact .nil
  | cons x l ih =>
    intro i
    rw [enumFrom, List.pairwise_cons]
    refine ⟨?_, ih⟩
    rintro ⟨us, y⟩ hm e
    obtain ⟨n, _, h⟩ := enumFrom_mem hm
    simp only at e
    rw [h] at e
    simp only [List.cons.injEq, and_true, true_and] at e
    have := ofNat_inj e
    omega

/-- What one loop goes through is at different places. -/
theorem held_apart {kids : Dict Obj} {st : Step} (hk : ∀ b p s es, (st.child, Obj.map b p s es) ∈ kids → Dict.NodupKeys es) :
    (heldL kids st).Pairwise (fun a b => a.1 ≠ b.1) := by
  unfold heldL held
  cases hg : Dict.get? kids st.child with
  | none => exact .nil
  | some m =>
    simp only
    cases st.shape with
    | one => simp
    | list =>
      simp only
      by_cases ht : m.truthy = true
      · rw [if_pos ht]
        cases m with
        | list b p s es => exact enumFrom_apart
        | _ => exact .nil
      · rw [if_neg ht]; exact .nil
    | map =>
      simp only
      by_cases ht : m.truthy = true
      · rw [if_pos ht]
        cases m with
        | map b p s es =>
          have hn := hk b p s es (Dict.mem_of_get? hg)
          simp only
          rw [List.pairwise_map]
          have hn' : (es.map Prod.fst).Pairwise (· ≠ ·) := hn
          rw [List.pairwise_map] at hn'
          exact hn'.imp (fun h e => h (by simpa using e))
        | _ => exact .nil
      · rw [if_neg ht]; exact .nil

theorem held_head {kids : Dict Obj} {st : Step} {us : List Str} {x : Obj} (h : (us, x) ∈ heldL kids st) : us.head? = some st.child := by
  unfold heldL held at h
  cases hg : Dict.get? kids st.child with
  | none => rw [hg] at h; simp at h
  | some m =>
    rw [hg] at h
    simp only at h
    cases hs : st.shape with
    | one => rw [hs] at h; simp at h; rw [h.1]; rfl
    | list =>
      rw [hs] at h
      simp only at h
      by_cases ht : m.truthy = true
      · rw [if_pos ht] at h
        cases m with
        | list b p s es => obtain ⟨n, h1, rfl⟩ := enumFrom_mem h; rfl
        | _ => simp at h
      · rw [if_neg ht] at h; simp at h
    | map =>
      rw [hs] at h
      simp only at h
      by_cases ht : m.truthy = true
      · rw [if_pos ht] at h
        cases m with
        | map b p s es =>
          simp only [List.mem_map, Prod.mk.injEq] at h
          obtain ⟨e, he, rfl, rfl⟩ := h
          rfl
        | _ => simp at h
      · rw [if_neg ht] at h; simp at h

theorem eff_base {c : Call} (h : eff c) : c.2.2.isBase = true := by
  obtain ⟨k, _, hk⟩ := h
  cases hx : c.2.2 <;> simp [hx, className?] at hk <;> rfl

/-- No two calls are made for references at the same place. -/
theorem calls_apart {root : Obj} (hd : Doc root) {L : List (List Str × Obj)} (hL : Scanned root L) :
    (L.flatMap (calls own3 steps3)).Pairwise Apart := by
  rw [List.pairwise_flatMap]
  constructor
  · rintro ⟨ts, o⟩ hv
    have hvis := (hL.2.2 _ _).1 hv
    obtain ⟨c, q, spec, kids, rfl, hb, hk⟩ := doc_base (visited_doc hd hvis)
    have hkey := doc_keyed (visited_doc hd hvis)
    unfold calls
    simp only
    rw [List.pairwise_append]
    refine ⟨?_, ?_, ?_⟩
    · unfold ownCalls; cases own3 c <;> simp
    · unfold slotCalls
      rw [List.pairwise_flatMap]
      constructor
      · intro st hst
        rw [List.pairwise_map]
        refine (held_apart (st := st) ?_).imp ?_
        · intro b p s es hm
          exact hkey (.map b p s es) (.child hm (.here _))
        · intro a b hab _ _ e
          exact hab (List.append_cancel_left e)
      · have hn : ((steps3 c).map Step.child).Pairwise (· ≠ ·) := steps3_apart c
        rw [List.pairwise_map] at hn
        refine hn.imp ?_
        rintro st st' hne x hx y hy _ _ e
        simp only [List.mem_map] at hx hy
        obtain ⟨a, ha, rfl⟩ := hx
        obtain ⟨b, hb, rfl⟩ := hy
        have e' := List.append_cancel_left e
        have h1 := held_head ha
        have h2 := held_head hb
        rw [e', h2] at h1
        exact hne (Option.some.inj h1).symm
    · rintro ⟨p, us, x⟩ hx ⟨p', us', x'⟩ hy _ hey e
      unfold ownCalls at hx
      simp only at e
      subst e
      unfold slotCalls at hy
      simp only [List.mem_flatMap, List.mem_map, Prod.mk.injEq] at hy
      obtain ⟨st, _, y, hy, _, e, _⟩ := hy
      cases ho : own3 c with
      | none => rw [ho] at hx; simp at hx
      | some b =>
        rw [ho] at hx
        simp at hx
        rw [hx.2.1] at e
        have := held_head hy
        have h0 : y.1 = [] := List.append_right_eq_self.1 e
        rw [h0] at this
        cases this
  · have hn : (L.map Prod.fst).Pairwise (· ≠ ·) := hL.2.1
    rw [List.pairwise_map] at hn
    refine hn.imp_of_mem ?_
    rintro ⟨ts, o⟩ ⟨ts', o'⟩ hv hv' hne ⟨p, us, x⟩ hx ⟨p', us', x'⟩ hy hex hey e
    simp only at e hne
    subst e
    have hvis := (hL.2.2 _ _).1 hv
    have hvis' := (hL.2.2 _ _).1 hv'
    obtain ⟨_, hu⟩ := call_expected own3_ok steps3_ok hd hvis hx (eff_base hex)
    obtain ⟨_, hu'⟩ := call_expected own3_ok steps3_ok hd hvis' hy (eff_base hey)
    have hxx : x = x' := Option.some.inj ((Dict.get?_of_mem (d := L) hL.2.1 ((hL.2.2 _ _).2 hu)).symm.trans
      (Dict.get?_of_mem (d := L) hL.2.1 ((hL.2.2 _ _).2 hu')))
    subst hxx
    -- an object with a handler of its own is a path item, and no loop yields path items
    have notBoth : ∀ {ts ts' : List Str} {o o' : Obj} {p p' : Builder}, Visited [] root ts' o' →
        (∃ c q spec kids, o = .base c q spec kids ∧ own3 c = some p ∧ us = ts ∧ x = o) →
        (∃ c q spec kids, o' = .base c q spec kids ∧ ∃ st ∈ steps3 c, ∃ vs, (vs, x) ∈ heldL kids st ∧ p' = st.parser ∧ us = ts' ++ vs) → False := by
      rintro ts ts' o o' p p' hvis' ⟨c, q, spec, kids, rfl, ho, _, rfl⟩ ⟨c', q', spec', kids', rfl, st, hst, vs, hm, _, _⟩
      have hc : c = s% "v3_0_0.PathItem" := by
        unfold own3 at ho
        split at ho
        · assumption
        · cases ho
      obtain ⟨c2, q2, spec2, kids2, he, hb, _⟩ := doc_base (visited_doc hd hvis')
      cases he
      obtain ⟨ws, cd, _, _, _, _, y, q', hbx⟩ := held_fits (steps3_ok c') hb hst hm rfl
      have := build_top hbx (c := c) rfl
      rw [hc] at this
      exact steps3_noPath c' st hst this
    obtain ⟨c, q, spec, kids, ho, h1⟩ := mem_calls.1 hx
    obtain ⟨c', q', spec', kids', ho', h2⟩ := mem_calls.1 hy
    simp only at ho ho' h1 h2
    rcases h1 with ⟨h1, e1, e2⟩ | ⟨st, hst, vs, hm, e1, e2⟩ <;>
    rcases h2 with ⟨h2, e3, e4⟩ | ⟨st', hst', vs', hm', e3, e4⟩
    · exact hne (e1.symm.trans e3)
    · exact notBoth hvis' ⟨c, q, spec, kids, ho, h1, e1, e2⟩ ⟨c', q', spec', kids', ho', st', hst', vs', hm', e3, e4⟩
    · exact notBoth hvis ⟨c', q', spec', kids', ho', h2, e3, e4⟩ ⟨c, q, spec, kids, ho, st, hst, vs, hm, e1, e2⟩
    · refine hne (parent_unique (nodes root) (Nat.le_refl _) (doc_keyed hd) hvis
        (ho ▸ held_leads hm (eff_base hex)) hvis' (ho' ▸ held_leads hm' (eff_base hey)) ?_)
      rw [← e2, ← e4]

theorem eff_run {env : Env α W} {l : List Call} {s s' : St α W} {ts : List Str} (h : l.foldlM (stepCall (resolve3 env)) s = .ok s')
    (ha : ∀ c ∈ l, eff c → c.2.1 ≠ ts) : s'.attrs ts = s.attrs ts := by
  refine foldlM_keep (P := fun t => t.attrs ts = s.attrs ts) ?_ h rfl
  rintro ⟨p, us, x⟩ hm s1 s2 hs hP
  obtain ⟨h1, h2, _, _⟩ := resolve3_ok hs
  by_cases hu : us = ts
  · subst hu
    rw [h2 (fun he => ha _ hm he rfl)]; exact hP
  · rw [h1 ts (fun e => hu e.symm)]; exact hP

/-- What a reference has after the run. -/
theorem once_run {env : Env α W} {l : List Call} {s s' : St α W} {p : Builder} {ts : List Str} {x : Obj}
    (h : l.foldlM (stepCall (resolve3 env)) s = .ok s') (hl : l.Pairwise Apart) (hm : (p, ts, x) ∈ l) (he : eff (p, ts, x)) {q : Char} {m : Str}
    (hn : (s.attrs ts).normalized = some (q :: m)) :
    ∃ a new w w' v r, env.resolve (q :: m) p w = (.ok (some (a, new)), w') ∧
      currentRef (s.attrs ts) x = .ok v ∧ rewrite env v new = .ok r ∧
      s'.attrs ts = { normalized := some new, refObj := some a, newRef := some r } := by
  obtain ⟨A, B, rfl⟩ := List.append_of_mem hm
  rw [List.pairwise_append, List.pairwise_cons] at hl
  obtain ⟨_, ⟨hB, _⟩, hA⟩ := hl
  rw [List.foldlM_append] at h
  obtain ⟨s1, h1, h⟩ := bindOk h
  rw [List.foldlM_cons] at h
  obtain ⟨s2, h2, h3⟩ := bindOk h
  have e1 := eff_run (ts := ts) h1 (fun c hc hec => hA c hc _ List.mem_cons_self hec he)
  have e3 := eff_run (ts := ts) h3 (fun c hc hec e => hB c hc he hec e.symm)
  obtain ⟨_, _, _, h4⟩ := resolve3_ok h2
  rw [e1] at h4
  obtain ⟨a, new, w, w', v, r, ha, hv, hr, hs⟩ := h4 q m he hn
  exact ⟨a, new, w, w', v, r, ha, hv, hr, e3.trans hs⟩

end Pyopenapi.Refs
