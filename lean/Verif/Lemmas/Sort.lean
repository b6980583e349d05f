import Verif.Base.Sort

namespace Pyopenapi
variable {α : Type}

theorem insertBy_perm (lt : α → α → Bool) (x : α) (l : List α) :
    (insertBy lt x l).Perm (x :: l) := by
  induction l with
  | nil => exact .refl _
  | cons y ys ih =>
    simp only [insertBy]
    split
    · exact .refl _
    · exact (List.Perm.cons y ih).trans (.swap x y ys)

theorem sortBy_perm_aux (lt : α → α → Bool) (l acc : List α) :
    (l.foldl (fun acc x => insertBy lt x acc) acc).Perm (acc ++ l) := by
  induction l generalizing acc with
  | nil => simp
  | cons x xs ih =>
    simp only [List.foldl_cons]
    refine (ih _).trans ?_
    have h1 : (insertBy lt x acc ++ xs).Perm ((x :: acc) ++ xs) :=
      (insertBy_perm lt x acc).append_right xs
    refine h1.trans ?_
    simpa using (List.perm_middle (a := x) (l₁ := acc) (l₂ := xs)).symm

/-- Sorting only reorders. -/
theorem sortBy_perm (lt : α → α → Bool) (l : List α) : (sortBy lt l).Perm l := by
  simpa [sortBy] using sortBy_perm_aux lt l []

/-- `lt` is a strict weak order (what Python needs of `<`). -/
structure StrictWeak (lt : α → α → Bool) : Prop where
  asymm : ∀ a b, lt a b = true → lt b a = false
  negtrans : ∀ a b c, lt a b = false → lt b c = false → lt a c = false

theorem StrictWeak.irrefl {lt : α → α → Bool} (h : StrictWeak lt) (a : α) : lt a a = false := by
  cases hl : lt a a with
  | false => rfl
  | true => have := h.asymm a a hl; rw [hl] at this; exact this

theorem insertBy_sorted {lt : α → α → Bool} (h : StrictWeak lt) (x : α) {l : List α}
    (hl : l.Pairwise (fun a b => lt b a = false)) :
    (insertBy lt x l).Pairwise (fun a b => lt b a = false) := by
  induction l with
  | nil => simp [insertBy]
  | cons y ys ih =>
    simp only [insertBy]
    rw [List.pairwise_cons] at hl
    split
    · rename_i hxy
      rw [List.pairwise_cons]
      refine ⟨?_, List.pairwise_cons.2 hl⟩
      intro a ha
      rcases List.mem_cons.1 ha with rfl | ha
      · exact h.asymm _ _ hxy
      · exact h.negtrans _ _ _ (hl.1 a ha) (h.asymm _ _ hxy)
    · rename_i hxy
      rw [List.pairwise_cons]
      refine ⟨?_, ih hl.2⟩
      intro a ha
      rcases List.mem_cons.1 ((insertBy_perm lt x ys).mem_iff.1 ha) with rfl | ha
      · simpa using hxy
      · exact hl.1 a ha

theorem sortBy_sorted {lt : α → α → Bool} (h : StrictWeak lt) (l : List α) :
    (sortBy lt l).Pairwise (fun a b => lt b a = false) := by
  have : ∀ (l acc : List α), acc.Pairwise (fun a b => lt b a = false) →
      (l.foldl (fun acc x => insertBy lt x acc) acc).Pairwise (fun a b => lt b a = false) := by
    intro l
    induction l with
    | nil => intro acc h; exact h
    | cons x xs ih => intro acc hacc; exact ih _ (insertBy_sorted h x hacc)
  exact this l [] (by simp)

end Pyopenapi
