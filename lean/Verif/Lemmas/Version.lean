import Verif.Model.Utils
import Verif.Lemmas.Str
import Verif.Lemmas.Sort
import Verif.Lemmas.Pointer

namespace Pyopenapi

theorem charNat_inj {c d : Char} (h : c.toNat = d.toNat) : c = d := by
  apply Char.ext
  exact UInt32.toNat_inj.1 h

/-- The order of `StrictVersion` is a strict weak order. -/
theorem StrictVersion.lt_strictWeak : StrictWeak StrictVersion.lt := by
  constructor
  · rintro ⟨a1, a2, a3, ap⟩ ⟨b1, b2, b3, bp⟩ h
    unfold StrictVersion.lt at *
    simp only at *
    by_cases h1 : a1 = b1
    · subst h1
      by_cases h2 : a2 = b2
      · subst h2
        by_cases h3 : a3 = b3
        · subst h3
          simp only [ne_eq, not_true_eq_false, if_false] at h ⊢
          match ap, bp with
          | none, _ => simp at h
          | some _, none => rfl
          | some (c, n), some (d, m) =>
            simp only at h ⊢
            by_cases hcd : c = d
            · subst hcd; simp at h ⊢; omega
            · have : ¬ d = c := fun e => hcd e.symm
              simp [hcd, this] at h ⊢; omega
        · have : ¬ b3 = a3 := fun e => h3 e.symm
          simp [h3, this] at h ⊢; omega
      · have : ¬ b2 = a2 := fun e => h2 e.symm
        simp [h2, this] at h ⊢; omega
    · have : ¬ b1 = a1 := fun e => h1 e.symm
      simp [h1, this] at h ⊢; omega
  · rintro ⟨a1, a2, a3, ap⟩ ⟨b1, b2, b3, bp⟩ ⟨c1, c2, c3, cp⟩ h h'
    unfold StrictVersion.lt at *
    simp only [ne_eq, ite_not] at *
    by_cases e1 : a1 = b1
    · subst e1
      by_cases f1 : a1 = c1
      · subst f1
        simp only [if_true] at *
        by_cases e2 : a2 = b2
        · subst e2
          by_cases f2 : a2 = c2
          · subst f2
            simp only [if_true] at *
            by_cases e3 : a3 = b3
            · subst e3
              by_cases f3 : a3 = c3
              · subst f3
                simp only [if_true] at *
                match ap, bp, cp with
                | none, _, _ => rfl
                | some _, none, _ => simp at h
                | some _, some _, none => simp at h'
                | some (p, n), some (q, m), some (r, k) =>
                  simp only at h h' ⊢
                  by_cases hpq : p = q
                  · subst hpq
                    by_cases hpr : p = r
                    · subst hpr; simp at *; omega
                    · simp [hpr] at *; omega
                  · by_cases hqr : q = r
                    · subst hqr; simp [hpq] at *; omega
                    · by_cases hpr : p = r
                      · subst hpr
                        simp [hpq, hqr] at h h'
                        exact absurd (charNat_inj (Nat.le_antisymm h' h)) hpq
                      · simp [hpq, hqr, hpr] at *; omega
              · simp only [f3, if_true, if_false, decide_eq_false_iff_not] at *; omega
            · by_cases f3 : b3 = c3
              · subst f3; simp only [e3, if_true, if_false, decide_eq_false_iff_not] at *; omega
              · by_cases g3 : a3 = c3
                · subst g3; simp only [e3, f3, if_true, if_false, decide_eq_false_iff_not] at h h' ⊢; omega
                · simp only [e3, f3, g3, if_false, decide_eq_false_iff_not] at *; omega
          · simp only [f2, if_true, if_false, decide_eq_false_iff_not] at *; omega
        · by_cases f2 : b2 = c2
          · subst f2; simp only [e2, if_true, if_false, decide_eq_false_iff_not] at *; omega
          · by_cases g2 : a2 = c2
            · subst g2; simp only [e2, f2, if_true, if_false, decide_eq_false_iff_not] at h h' ⊢; omega
            · simp only [e2, f2, g2, if_false, decide_eq_false_iff_not] at *; omega
      · simp only [f1, if_true, if_false, decide_eq_false_iff_not] at *; omega
    · by_cases f1 : b1 = c1
      · subst f1; simp only [e1, if_true, if_false, decide_eq_false_iff_not] at *; omega
      · by_cases g1 : a1 = c1
        · subst g1; simp only [e1, f1, if_true, if_false, decide_eq_false_iff_not] at h h' ⊢; omega
        · simp only [e1, f1, g1, if_false, decide_eq_false_iff_not] at *; omega

theorem mem_ofNat_digit {n : Nat} {c : Char} (h : c ∈ Str.ofNat n) : c.isDigit = true :=
  Nat.isDigit_of_mem_toDigits (by decide) (by decide) h

theorem ofNat_ne_nil (n : Nat) : Str.ofNat n ≠ [] := Nat.toDigits_ne_nil

theorem not_mem_ofNat {n : Nat} {c : Char} (hc : c.isDigit = false) : c ∉ Str.ofNat n := by
  intro h
  have := mem_ofNat_digit h
  rw [hc] at this; simp at this

theorem digits?_ofNat (n : Nat) : digits? (Str.ofNat n) = some n := by
  unfold digits?
  rw [if_pos ⟨ofNat_ne_nil n, by rw [List.all_eq_true]; exact fun c h => mem_ofNat_digit h⟩]
  simp [Str.ofNat, Nat.ofDigitChars_ten_toDigits]

theorem dropWhile_all {p : Char → Bool} {l : Str} (h : ∀ c ∈ l, p c = true) : l.dropWhile p = [] := by
  induction l with
  | nil => rfl
  | cons c cs ih =>
    simp only [List.dropWhile_cons, h c (by simp), if_true]
    exact ih (fun x hx => h x (by simp [hx]))

theorem lastComp?_ofNat (n : Nat) : lastComp? (Str.ofNat n) = some (n, none) := by
  unfold lastComp?
  rw [dropWhile_all (fun c h => mem_ofNat_digit h)]
  simp [digits?_ofNat]

end Pyopenapi
