import Verif.Base.Str

namespace Pyopenapi.Str

theorem splitC_ne_nil (c : Char) (s : Str) : splitC c s ≠ [] := by
  cases s with
  | nil => simp [splitC]
  | cons x xs =>
    simp only [splitC]
    split
    · simp
    · split <;> simp

theorem splitC_cons_eq {c x : Char} {xs : Str} {p : Str} {ps : List Str} (h : x ≠ c)
    (hs : splitC c xs = p :: ps) : splitC c (x :: xs) = (x :: p) :: ps := by
  simp [splitC, h, hs]

/-- Joining the parts of a split gives the string back. -/
theorem joinC_splitC (c : Char) (s : Str) : joinC c (splitC c s) = s := by
  induction s with
  | nil => simp [splitC, joinC]
  | cons x xs ih =>
    obtain ⟨p, ps, hps⟩ := List.exists_cons_of_ne_nil (splitC_ne_nil c xs)
    by_cases h : x = c
    · subst h
      simp only [splitC, if_true, hps, joinC, List.nil_append, List.cons.injEq, true_and]
      rw [← hps]; exact ih
    · rw [splitC_cons_eq h hps]
      rw [hps] at ih
      cases ps with
      | nil => simpa [joinC] using ih
      | cons q qs => simpa [joinC] using ih

/-- No part of a split contains the separator. -/
theorem not_mem_of_mem_splitC {c : Char} {s p : Str} (h : p ∈ splitC c s) : c ∉ p := by
  induction s generalizing p with
  | nil => simp [splitC] at h; subst h; simp
  | cons x xs ih =>
    obtain ⟨q, qs, hq⟩ := List.exists_cons_of_ne_nil (splitC_ne_nil c xs)
    by_cases hx : x = c
    · subst hx
      simp only [splitC, if_true, List.mem_cons] at h
      rcases h with h | h
      · subst h; simp
      · exact ih h
    · rw [splitC_cons_eq hx hq] at h
      rcases List.mem_cons.1 h with h | h
      · subst h
        have := ih (p := q) (by simp [hq])
        simp only [List.mem_cons, not_or]
        exact ⟨fun e => hx e.symm, this⟩
      · exact ih (by simp [hq, h])

theorem splitC_of_not_mem {c : Char} {s : Str} (h : c ∉ s) : splitC c s = [s] := by
  induction s with
  | nil => rfl
  | cons x xs ih =>
    simp only [List.mem_cons, not_or] at h
    rw [splitC_cons_eq (fun e => h.1 e.symm) (ih h.2)]

/-- Splitting `a ++ c :: b` splits `a` and `b` separately. -/
theorem splitC_append (c : Char) (a b : Str) :
    splitC c (a ++ c :: b) = splitC c a ++ splitC c b := by
  induction a with
  | nil => simp [splitC]
  | cons x xs ih =>
    by_cases hx : x = c
    · subst hx
      simp only [List.cons_append, splitC, if_true, ih]
    · obtain ⟨q, qs, hq⟩ := List.exists_cons_of_ne_nil (splitC_ne_nil c xs)
      have := ih
      rw [hq, List.cons_append] at this
      rw [List.cons_append, splitC_cons_eq hx this, splitC_cons_eq hx hq, List.cons_append]

/-- Splitting a join of separator-free parts gives the parts back. -/
theorem splitC_joinC {c : Char} {ps : List Str} (hne : ps ≠ []) (h : ∀ p ∈ ps, c ∉ p) :
    splitC c (joinC c ps) = ps := by
  induction ps with
  | nil => exact absurd rfl hne
  | cons p ps ih =>
    cases ps with
    | nil => exact splitC_of_not_mem (h p (by simp))
    | cons q qs =>
      rw [joinC, splitC_append, ih (by simp) (fun x hx => h x (by simp [hx])),
        splitC_of_not_mem (h p (by simp))]
      rfl

theorem joinC_append {c : Char} {ps qs : List Str} (hp : ps ≠ []) (hq : qs ≠ []) :
    joinC c (ps ++ qs) = joinC c ps ++ c :: joinC c qs := by
  induction ps with
  | nil => exact absurd rfl hp
  | cons p ps ih =>
    cases ps with
    | nil =>
      cases qs with
      | nil => exact absurd rfl hq
      | cons q qs => simp [joinC]
    | cons p' ps' =>
      have := ih (by simp)
      simp only [List.cons_append] at this
      simp [joinC, this]

theorem joinC_cons {c : Char} {p : Str} {qs : List Str} (hq : qs ≠ []) :
    joinC c (p :: qs) = p ++ c :: joinC c qs := by
  have := joinC_append (c := c) (ps := [p]) (by simp) hq
  simpa [joinC] using this

theorem joinC_eq_nil {c : Char} {ps : List Str} (h : joinC c ps = []) : ps = [] ∨ ps = [[]] := by
  match ps, h with
  | [], _ => exact Or.inl rfl
  | [p], h => exact Or.inr (by simpa [joinC] using h)
  | p :: q :: ps, h => simp [joinC] at h

/-! ### replace -/

theorem replaceGo_nil (pat rep : Str) (k : Nat) : replaceGo pat rep k [] = [] := by
  cases k <;> rfl

/-! ### cut -/

theorem cut_none {c : Char} {s a : Str} (h : cut c s = (a, none)) : a = s ∧ c ∉ s := by
  induction s generalizing a with
  | nil => simp [cut] at h; subst h; simp
  | cons x xs ih =>
    simp only [cut] at h
    split at h
    · simp at h
    · rename_i hx
      rcases hc : cut c xs with ⟨a', b'⟩
      rw [hc] at h
      simp only [Prod.mk.injEq] at h
      obtain ⟨rfl, rfl⟩ := h
      have := ih hc
      obtain ⟨rfl, h2⟩ := this
      simp only [List.mem_cons, not_or, true_and]
      exact ⟨fun e => hx e.symm, h2⟩

theorem cut_some {c : Char} {s a b : Str} (h : cut c s = (a, some b)) : s = a ++ c :: b ∧ c ∉ a := by
  induction s generalizing a with
  | nil => simp [cut] at h
  | cons x xs ih =>
    simp only [cut] at h
    split at h
    · rename_i hx
      simp only [Prod.mk.injEq, Option.some.injEq] at h
      obtain ⟨rfl, rfl⟩ := h
      subst hx; simp
    · rename_i hx
      rcases hc : cut c xs with ⟨a', b'⟩
      rw [hc] at h
      simp only [Prod.mk.injEq] at h
      obtain ⟨rfl, rfl⟩ := h
      obtain ⟨rfl, h2⟩ := ih hc
      simp only [List.cons_append, List.mem_cons, not_or, true_and]
      exact ⟨fun e => hx e.symm, h2⟩

theorem cut_of_not_mem {c : Char} {s : Str} (h : c ∉ s) : cut c s = (s, none) := by
  induction s with
  | nil => rfl
  | cons x xs ih =>
    simp only [List.mem_cons, not_or] at h
    simp [cut, ih h.2, Ne.symm h.1]

theorem cut_append {c : Char} {a : Str} (b : Str) (h : c ∉ a) :
    cut c (a ++ c :: b) = (a, some b) := by
  induction a with
  | nil => simp [cut]
  | cons x xs ih =>
    simp only [List.mem_cons, not_or] at h
    simp [cut, ih h.2, Ne.symm h.1]

/-! ### startsWith / endsWith -/

theorem startsWith_iff {s p : Str} : startsWith s p = true ↔ ∃ t, s = p ++ t := by
  simp only [startsWith, List.isPrefixOf_iff_prefix]
  exact ⟨fun ⟨t, h⟩ => ⟨t, h.symm⟩, fun ⟨t, h⟩ => ⟨t, h.symm⟩⟩

theorem endsWith_iff {s p : Str} : endsWith s p = true ↔ ∃ t, s = t ++ p := by
  simp only [endsWith, List.isSuffixOf_iff_suffix]
  exact ⟨fun ⟨t, h⟩ => ⟨t, h.symm⟩, fun ⟨t, h⟩ => ⟨t, h.symm⟩⟩

end Pyopenapi.Str
