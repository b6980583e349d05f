import Verif.Lemmas.RefWhere

/-! # Runs of `_resolve` -/

namespace Pyopenapi.Refs
open _root_.Pyopenapi.Spec _root_.Pyopenapi.Refs.Spec Obj

variable {α W : Type}

theorem foldlM_keep {β σ : Type} {f : σ → β → R σ} {P : σ → Prop} : ∀ {l : List β} {s s' : σ},
    (∀ x ∈ l, ∀ s s', f s x = .ok s' → P s → P s') → l.foldlM f s = .ok s' → P s → P s' := by
  intro l
  induction l with
  | nil => intro s s' _ h hp; cases h; exact hp
  | cons a l ih =>
    intro s s' hs h hp
    rw [List.foldlM_cons] at h
    obtain ⟨s1, h1, h2⟩ := bindOk h
    exact ih (fun x hx => hs x (List.mem_cons_of_mem _ hx)) h2 (hs a List.mem_cons_self _ _ h1 hp)

theorem foldlM_reach {β σ : Type} {f : σ → β → R σ} {P : σ → Prop} {x0 : β} : ∀ {l : List β} {s s' : σ},
    (∀ x ∈ l, ∀ s s', f s x = .ok s' → P s → P s') → (∀ s s', f s x0 = .ok s' → P s') → x0 ∈ l → l.foldlM f s = .ok s' → P s' := by
  intro l
  induction l with
  | nil => intro s s' _ _ hm; cases hm
  | cons a l ih =>
    intro s s' hs h0 hm h
    rw [List.foldlM_cons] at h
    obtain ⟨s1, h1, h2⟩ := bindOk h
    rcases List.mem_cons.1 hm with rfl | hm
    · exact foldlM_keep (fun x hx => hs x (List.mem_cons_of_mem _ hx)) h2 (h0 _ _ h1)
    · exact ih (fun x hx => hs x (List.mem_cons_of_mem _ hx)) h0 hm h2

/-- The own handlers resolve objects as their class. -/
def OwnOk (own : Str → Option Builder) : Prop :=
  ∀ c p, own c = some p → p = .cls c ∧ c ∉ [s% "v2_0.Reference", s% "v3_0_0.Reference"]

theorem own2_ok : OwnOk own2 := by
  intro c p h
  unfold own2 at h
  split at h
  · cases h; rename_i h; subst h; exact ⟨rfl, by decide⟩
  · split at h
    · cases h; rename_i h; subst h; exact ⟨rfl, by decide⟩
    · cases h

theorem own3_ok : OwnOk own3 := by
  intro c p h
  unfold own3 at h
  split at h
  · cases h; rename_i h; subst h; exact ⟨rfl, by decide⟩
  · cases h

/-- The loops fit the classes. -/
def StepsOk (steps : Str → List Step) : Prop := ∀ c, (pkg c).children.all (stepsFit steps c) = true

theorem steps2_ok : StepsOk steps2 := pkg_children (p := stepsFit steps2) (by decide +kernel)
theorem steps3_ok : StepsOk steps3 := pkg_children (p := stepsFit steps3) (by decide +kernel)

/-- A call is made for the object itself, or for an object below. -/
theorem mem_calls {own : Str → Option Builder} {steps : Str → List Step} {v : List Str × Obj} {p : Builder} {us : List Str} {x : Obj} :
    (p, us, x) ∈ calls own steps v ↔ ∃ c q spec kids, v.2 = .base c q spec kids ∧
      ((own c = some p ∧ us = v.1 ∧ x = v.2) ∨ ∃ st ∈ steps c, ∃ vs, (vs, x) ∈ heldL kids st ∧ p = st.parser ∧ us = v.1 ++ vs) := by
  obtain ⟨ts, o⟩ := v
  unfold calls
  cases o with
  | base c q spec kids =>
    simp only [List.mem_append, ownCalls, slotCalls, List.mem_flatMap, List.mem_map, Prod.mk.injEq]
    constructor
    · rintro (h | ⟨st, hst, y, hy, rfl, rfl, rfl⟩)
      · cases ho : own c with
        | none => rw [ho] at h; cases h
        | some p' =>
          rw [ho] at h
          simp at h
          obtain ⟨rfl, rfl, rfl⟩ := h
          exact ⟨c, q, spec, kids, rfl, .inl ⟨ho, rfl, rfl⟩⟩
      · exact ⟨c, q, spec, kids, rfl, .inr ⟨st, hst, y.1, hy, rfl, rfl⟩⟩
    · rintro ⟨c', q', spec', kids', he, h⟩
      cases he
      rcases h with ⟨ho, rfl, rfl⟩ | ⟨st, hst, vs, hm, rfl, rfl⟩
      · left; rw [ho]; simp
      · exact .inr ⟨st, hst, (vs, x), hm, rfl, rfl, rfl⟩
  | _ => simp

theorem call_expected {own : Str → Option Builder} {steps : Str → List Step} (ho : OwnOk own) (hs : StepsOk steps) {root : Obj}
    (hd : Doc root) {v : List Str × Obj} (hv : Visited [] root v.1 v.2) {p : Builder} {us : List Str} {x : Obj}
    (hm : (p, us, x) ∈ calls own steps v) (hx : x.isBase = true) : Expected root us p ∧ Visited [] root us x := by
  obtain ⟨ts, o⟩ := v
  obtain ⟨c, q, spec, kids, rfl, hm⟩ := mem_calls.1 hm
  obtain ⟨c', q', spec', kids', he, hb, _⟩ := doc_base (visited_doc hd hv)
  cases he
  rcases hm with ⟨h1, rfl, rfl⟩ | ⟨st, hst, vs, hh, rfl, rfl⟩
  · obtain ⟨rfl, h2⟩ := ho _ _ h1
    exact ⟨.self hv h2, hv⟩
  · obtain ⟨ws, cd, rfl, hcd, hat, hor, _⟩ := held_fits (hs c) hb hst hh hx
    refine ⟨?_, .child hv (by simp) (held_leads hh hx)⟩
    cases hp : st.parser with
    | ifNotRef r b => rw [hp] at hat; exact .slot hv hcd hat
    | _ => rw [hp] at hor; cases hor

/-- Objects of these classes are resolved by their own handler. -/
def selfResolved (own : Str → Option Builder) (c : Str) : Prop := ∃ p, own c = some p

/-- Every reference is resolved by the handler of the object around. -/
theorem ref_called {own : Str → Option Builder} {steps : Str → List Step} {R : Str} (hcov : ∀ c, (pkg c).children.all (covers R steps c) = true)
    {root : Obj} (hd : Doc root) (hroot : root.className? ≠ some R) {ts : List Str} {x : Obj} (hv : Visited [] root ts x)
    (hx : x.className? = some R) (hh : ∀ us o, Visited [] root us o → HeldOk steps (us, o)) :
    ∃ us o p, Visited [] root us o ∧ (p, ts, x) ∈ calls own steps (us, o) := by
  cases hv with
  | root => exact absurd hx hroot
  | @child us vs o _ hv' _ hl =>
    obtain ⟨c, q, spec, kids, rfl, hb, hk⟩ := doc_base (visited_doc hd hv')
    obtain ⟨st, hst, hm, _⟩ := cover_leads hk (hcov c) hb hl hx (hh _ _ hv' c q spec kids rfl)
    exact ⟨us, _, st.parser, hv', mem_calls.2 ⟨c, q, spec, kids, rfl, .inr ⟨st, hst, vs, hm, rfl, rfl⟩⟩⟩

/-! ### 2.0 -/

theorem resolve2_ok {env : Env α W} {p : Builder} {ts : List Str} {x : Obj} {s s' : St α W} (h : resolve2 env p ts x s = .ok s') :
    (∀ us, us ≠ ts → s'.attrs us = s.attrs us) ∧
    (s'.attrs ts = s.attrs ts ∨ (x.isBase = true ∧ ∃ n a new w w', (s.attrs ts).normalized = some n ∧
      env.resolve n p w = (.ok (some (a, new)), w') ∧ s'.attrs ts = { s.attrs ts with refObj := some a })) ∧
    ((∃ r, Refers normClasses2 x r) → (s'.attrs ts).refObj.isSome = true) := by
  have skip : s' = s → ((∃ r, Refers normClasses2 x r) → (s'.attrs ts).refObj.isSome = true) →
      (∀ us, us ≠ ts → s'.attrs us = s.attrs us) ∧
      (s'.attrs ts = s.attrs ts ∨ (x.isBase = true ∧ ∃ n a new w w', (s.attrs ts).normalized = some n ∧
        env.resolve n p w = (.ok (some (a, new)), w') ∧ s'.attrs ts = { s.attrs ts with refObj := some a })) ∧
      ((∃ r, Refers normClasses2 x r) → (s'.attrs ts).refObj.isSome = true) := by
    rintro rfl hi
    exact ⟨fun _ _ => rfl, .inl rfl, hi⟩
  unfold resolve2 at h
  cases x with
  | base c q spec kids =>
    simp only [className?] at h
    by_cases hc : c ∈ normClasses2
    · rw [if_neg (by simpa using hc)] at h
      obtain ⟨v, hv, h⟩ := bindOk h
      by_cases ht : v.truthy = true
      · rw [if_neg (by simp [ht])] at h
        by_cases hr : (s.attrs ts).refObj.isSome = true
        · rw [if_pos hr] at h
          cases h
          exact skip rfl (fun _ => hr)
        · rw [if_neg hr] at h
          cases hn : (s.attrs ts).normalized with
          | none => rw [hn] at h; cases h
          | some n =>
            rw [hn] at h
            cases n with
            | nil => cases h
            | cons q0 n =>
              simp only at h
              rcases hres : env.resolve (q0 :: n) p s.world with ⟨_ | (_ | ⟨a, new⟩), w'⟩
              · rw [hres] at h; cases h
              · rw [hres] at h; cases h
              · rw [hres] at h
                cases h
                refine ⟨fun us hu => put_ne s _ hu, .inr ⟨rfl, q0 :: n, a, new, _, _, rfl, hres, ?_⟩, fun _ => ?_⟩
                · rw [← hn]; exact put_self s ts _
                · rw [show ∀ w, ({ attrs := (s.put ts { normalized := some (q0 :: n), refObj := some a, newRef := (s.attrs ts).newRef }).attrs, world := w } : St α W).attrs ts = _ from fun w => put_self s ts _]
                  rfl
      · rw [if_pos (by simp [ht])] at h
        cases h
        refine skip rfl ?_
        rintro ⟨r, c', q', d', kids', he, _, hd', hr⟩
        cases he
        rw [refOf_get (refField2 hc) hd'] at hv
        cases hv
        cases r with
        | nil => exact absurd rfl hr
        | cons _ _ => exact absurd rfl ht
    · rw [if_pos hc] at h
      cases h
      refine skip rfl ?_
      rintro ⟨r, c', q', d', kids', he, hc', _⟩
      cases he; exact absurd hc' hc
  | _ =>
    cases h
    refine skip rfl ?_
    rintro ⟨r, c', q', d', kids', he, hc', _⟩
    cases he

end Pyopenapi.Refs
