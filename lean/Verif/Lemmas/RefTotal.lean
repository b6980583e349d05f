import Verif.Lemmas.RefOnce

/-! # When the reference scanners raise nothing -/

namespace Pyopenapi.Refs
open _root_.Pyopenapi.Spec _root_.Pyopenapi.Refs.Spec Obj

variable {α W : Type}

theorem foldlM_total {β σ : Type} {f : σ → β → R σ} {P : σ → Prop} : ∀ {l : List β} {s : σ},
    (∀ x ∈ l, ∀ s, P s → ∃ s', f s x = .ok s' ∧ P s') → P s → ∃ s', l.foldlM f s = .ok s' := by
  intro l
  induction l with
  | nil => intro s _ _; exact ⟨s, rfl⟩
  | cons a l ih =>
    intro s hf hp
    obtain ⟨s1, h1, hp1⟩ := hf a List.mem_cons_self s hp
    obtain ⟨s2, h2⟩ := ih (fun x hx => hf x (List.mem_cons_of_mem _ hx)) hp1
    exact ⟨s2, by rw [List.foldlM_cons, h1]; exact h2⟩

theorem held_total {c : Str} {q : Option Str} {spec : Json} {kids : Dict Obj} {st : Step} 
    (h : build pkg (.cls c) spec q [] = .ok (.base c q spec kids))
    (hfit : ∀ m cd, Dict.get? kids st.child = some m → (st.child, cd) ∈ (pkg c).children → fits st cd.builder = true) :
    ∀ e, held kids st ≠ .error e := by
  intro e
  unfold held
  cases hg : Dict.get? kids st.child with
  | none => simp
  | some m =>
    obtain ⟨cd, d, v, hcd, rfl, hv, hbm⟩ := (base_kids h).2 _ _ (Dict.mem_of_get? hg)
    have hf := hfit m cd hg hcd
    unfold fits at hf
    simp only
    cases hs : st.shape with
    | one => simp
    | list =>
      rw [hs] at hf
      simp only [decide_eq_true_eq] at hf ⊢
      rw [hf] at hbm
      cases v with
      | arr l => rw [build_list] at hbm; split at hbm; cases hbm; cases hbm; split <;> simp
      | _ => rw [build_list_other _ _ _ (by simp)] at hbm; cases hbm
    | map =>
      rw [hs] at hf
      simp only [decide_eq_true_eq] at hf ⊢
      rw [hf] at hbm
      cases v with
      | obj l => rw [build_map] at hbm; split at hbm; cases hbm; cases hbm; split <;> simp
      | _ => rw [build_map_other _ _ _ (by simp)] at hbm; cases hbm

/-- All loops over this child fit it. -/
def allFit (steps : Str → List Step) (c : Str) (kc : Str × ChildDef) : Bool :=
  (steps c).all (fun st => st.child ≠ kc.1 || fits st kc.2.builder)

theorem allFit2 : ∀ c, (pkg c).children.all (allFit steps2 c) = true := pkg_children (p := allFit steps2) (by decide +kernel)

theorem allFit3 : ∀ c, (pkg c).children.all (fun kc => allFit steps3 c kc || (c = s% "v3_0_0.MediaType" && kc.1 = s% "examples")) = true :=
  pkg_children (p := fun c kc => allFit steps3 c kc || (c = s% "v3_0_0.MediaType" && kc.1 = s% "examples")) (by decide +kernel)

theorem held2 {root : Obj} (hd : Doc root) {ts : List Str} {o : Obj} (hv : Visited [] root ts o) : HeldOk steps2 (ts, o) := by
  intro c q spec kids he st hst
  obtain ⟨c', q', spec', kids', rfl, hb, _⟩ := doc_base (visited_doc hd hv)
  cases he
  refine held_total hb (fun m cd _ hcd => ?_)
  have := List.all_eq_true.1 (List.all_eq_true.1 (allFit2 c) _ hcd) st hst
  simpa using this

theorem held3 {root : Obj} (hd : Doc root) (hno : NoExamples root) {ts : List Str} {o : Obj} (hv : Visited [] root ts o) :
    HeldOk steps3 (ts, o) := by
  intro c q spec kids he st hst
  obtain ⟨c', q', spec', kids', rfl, hb, _⟩ := doc_base (visited_doc hd hv)
  cases he
  refine held_total hb (fun m cd hm hcd => ?_)
  have := List.all_eq_true.1 (allFit3 c) _ hcd
  rw [Bool.or_eq_true] at this
  rcases this with h | h
  · have := List.all_eq_true.1 h st hst
    simpa using this
  · simp only [Bool.and_eq_true, decide_eq_true_eq] at h
    obtain ⟨rfl, h⟩ := h
    rw [h, hno ts q spec kids hv] at hm
    cases hm

/-- The field `$ref` is optional. -/
def refLoose (c : Str) : Bool := match Dict.get? (pkg c).fields (s% "$ref") with
  | some fd => !fd.required
  | none => false

theorem refOf_none {c : Str} {q : Option Str} {d : Dict Json} {kids : Dict Obj} (hc : refField c = true) (hl : refLoose c = true)
    (h : Dict.get? d (s% "$ref") = none) : refOf (.base c q (.obj d) kids) = .ok .null := by
  unfold refField at hc
  unfold refLoose at hl
  rw [Bool.and_eq_true] at hc
  obtain ⟨h1, h2⟩ := hc
  simp only [refOf, Obj.getattr]
  rw [if_neg (by simpa using h1)]
  cases hg : Dict.get? (pkg c).fields (s% "$ref") with
  | none => rw [hg] at h2; cases h2
  | some fd =>
    rw [hg] at h2 hl
    simp only [Bool.and_eq_true, decide_eq_true_eq] at h2
    simp only [readField, specGet, h]
    rw [if_neg (by simpa using hl), h2.2]
    rfl

theorem normStep_total {env : Env α W} {root : Obj} {classes needed : List Str} (hf : ∀ c ∈ classes, refField c = true)
    (hr : RefsOk env root classes needed) (hreq : ∀ c ∈ classes, c ∉ needed → refLoose c = true) {ts : List Str} {x : Obj} (hv : Visited [] root ts x) (s : St α W) :
    ∃ s', normStep env classes s (ts, x) = .ok s' := by
  unfold normStep
  cases x with
  | base c q spec kids =>
    simp only [className?]
    by_cases hc : c ∈ classes
    · rw [if_pos hc]
      obtain ⟨d, rfl, h⟩ := hr ts c q spec kids hv hc
      unfold normalizeOne
      rcases h with ⟨h, hn⟩ | ⟨r, n, h, hne, hnorm⟩
      · rw [refOf_none (hf c hc) (hreq c hc hn) h]
        exact ⟨s, rfl⟩
      · rw [refOf_get (hf c hc) h]
        have : (Json.str r).truthy = true := by cases r with
          | nil => exact absurd rfl hne
          | cons _ _ => rfl
        simp only [bind, Except.bind, this, if_true, hnorm]
        exact ⟨_, rfl⟩
    · rw [if_neg hc]; exact ⟨s, rfl⟩
  | _ => exact ⟨s, rfl⟩

end Pyopenapi.Refs
