import Verif.Model.Utils
import Verif.Lemmas.Str
import Verif.Lemmas.Dict

namespace Pyopenapi
open Str

theorem splitGo_ne_nil (sep : Str) (k : Nat) (s : Str) : splitGo sep k s ≠ [] := by
  induction s generalizing k with
  | nil => cases k <;> simp [splitGo]
  | cons c cs ih =>
    cases k with
    | succ k => simpa [splitGo] using ih k
    | zero =>
      simp only [splitGo]
      split
      · simp
      · split <;> simp

theorem splitGo_skip (sep : Str) (a b : Str) : splitGo sep a.length (a ++ b) = splitGo sep 0 b := by
  induction a with
  | nil => rfl
  | cons x xs ih => simpa [splitGo] using ih

/-- A prefix without the first separator character, then the separator. -/
theorem splitGo_append {c : Char} {t a b : Str} (ha : c ∉ a) :
    splitGo (c :: t) 0 (a ++ (c :: t) ++ b) = a :: splitGo (c :: t) 0 b := by
  induction a with
  | nil =>
    have hp : (c :: t).isPrefixOf (c :: (t ++ b)) = true := by
      rw [List.isPrefixOf_iff_prefix]; exact ⟨b, by simp⟩
    simp only [List.nil_append, List.cons_append, splitGo, hp, if_true]
    simp only [List.length_cons, Nat.add_sub_cancel]
    rw [splitGo_skip]
  | cons x xs ih =>
    simp only [List.mem_cons, not_or] at ha
    have hp : (c :: t).isPrefixOf (x :: (xs ++ (c :: t) ++ b)) = false := by
      simp [List.isPrefixOf, ha.1]
    simp only [List.cons_append, splitGo] at hp ⊢
    rw [hp]
    simp only [Bool.false_eq_true, if_false]
    have := ih ha.2
    simp only [List.append_assoc, List.cons_append] at this ⊢
    rw [this]

theorem splitGo_of_not_mem {c : Char} {t a : Str} (ha : c ∉ a) :
    splitGo (c :: t) 0 a = [a] := by
  induction a with
  | nil => rfl
  | cons x xs ih =>
    simp only [List.mem_cons, not_or] at ha
    have hp : (c :: t).isPrefixOf (x :: xs) = false := by simp [List.isPrefixOf, ha.1]
    simp [splitGo, hp, ih ha.2]

theorem split_join {c : Char} {t : Str} {ps : List Str} (hne : ps ≠ []) (h : ∀ p ∈ ps, c ∉ p) :
    Str.split (Str.join (c :: t) ps) (c :: t) = ps := by
  unfold Str.split
  induction ps with
  | nil => exact absurd rfl hne
  | cons p ps ih =>
    cases ps with
    | nil => exact splitGo_of_not_mem (h p (by simp))
    | cons q qs =>
      rw [Str.join, splitGo_append (h p (by simp)), ih (by simp) (fun x hx => h x (by simp [hx]))]

theorem lastAfter_none {sep s : Str} (hs : sep ≠ []) (h : lastAfter sep s = none) :
    ¬ ∃ u t, s = u ++ sep ++ t := by
  induction s with
  | nil =>
    rintro ⟨u, t, he⟩
    have := congrArg List.length he
    cases sep with
    | nil => exact hs rfl
    | cons a b => simp at this
  | cons c cs ih =>
    simp only [lastAfter] at h
    split at h
    · simp at h
    · rename_i hn
      split at h
      · simp at h
      · rename_i hp
        rintro ⟨u, t, he⟩
        cases u with
        | nil =>
          apply hp
          rw [List.isPrefixOf_iff_prefix]
          exact ⟨t, by simpa using he.symm⟩
        | cons a u =>
          simp only [List.cons_append, List.cons.injEq] at he
          exact ih hn ⟨u, t, he.2⟩

/-- `rsplit(sep, 1)[-1]` is what follows the last occurrence: nothing later is a separator. -/
theorem lastAfter_some {sep s t : Str} (h : lastAfter sep s = some t) :
    ∃ u, s = u ++ sep ++ t := by
  induction s with
  | nil => simp [lastAfter] at h
  | cons c cs ih =>
    simp only [lastAfter] at h
    split at h
    · rename_i t' ht'
      simp only [Option.some.injEq] at h
      subst h
      obtain ⟨u, hu⟩ := ih ht'
      exact ⟨c :: u, by simp [hu]⟩
    · split at h
      · rename_i hp
        simp only [Option.some.injEq] at h
        rw [List.isPrefixOf_iff_prefix] at hp
        obtain ⟨r, hr⟩ := hp
        refine ⟨[], ?_⟩
        rw [← hr] at h
        simp only [List.drop_left'] at h
        simp [← hr, h]
      · simp at h

end Pyopenapi
