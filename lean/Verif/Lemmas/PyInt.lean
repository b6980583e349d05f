import Verif.Model.PyInt
import Verif.Spec.IntText
import Verif.Lemmas.Version

/-!
# Lemmas about `int(s)`
-/

namespace Pyopenapi
open Spec Obj

theorem zeros_same : decimalZeros = zeroDigits := rfl

theorem blank_white {c : Char} : blank c = true ↔ White c := by
  have : c = ' ' ↔ c.toNat = 32 := ⟨by rintro rfl; rfl, fun h => Char.toNat_inj.1 h⟩
  unfold blank White
  rw [this, decide_eq_true_iff]
  simp only [blanks, List.mem_cons, List.not_mem_nil, or_false]
  omega

theorem zeros_apart : decimalZeros.all (fun z => decimalZeros.all (fun y => decide (z = y ∨ z + 10 ≤ y ∨ y + 10 ≤ z))) = true := by
  decide +kernel

theorem decimal_iff {c : Char} {v : Nat} : decimal? c = some v ↔ DecimalOf c v := by
  unfold decimal? DecimalOf
  rw [← zeros_same]
  constructor
  · intro h
    obtain ⟨z, hz, rfl⟩ := Option.map_eq_some_iff.1 h
    have h1 := List.mem_of_find?_eq_some hz
    have h2 : z ≤ c.toNat ∧ c.toNat < z + 10 := by simpa using List.find?_some hz
    exact ⟨by omega, z, h1, by omega⟩
  · rintro ⟨hv, z, hz, hc⟩
    have hs : (decimalZeros.find? (fun z => decide (z ≤ c.toNat ∧ c.toNat < z + 10))).isSome = true := by
      rw [List.find?_isSome]
      exact ⟨z, hz, decide_eq_true (by omega)⟩
    obtain ⟨y, hy⟩ := Option.isSome_iff_exists.1 hs
    have h1 := List.mem_of_find?_eq_some hy
    have h2 : y ≤ c.toNat ∧ c.toNat < y + 10 := by simpa using List.find?_some hy
    have h3 := of_decide_eq_true (List.all_eq_true.1 (List.all_eq_true.1 zeros_apart z hz) y h1)
    have : y = z := by omega
    rw [hy]
    simp only [Option.map_some, Option.some.injEq]
    omega

theorem decimal_not {c : Char} {v : Nat} (h : DecimalOf c v) : c ≠ '_' ∧ c ≠ '+' ∧ c ≠ '-' ∧ blank c = false := by
  obtain ⟨hv, z, hz, hc⟩ := h
  rw [← zeros_same] at hz
  have key : decimalZeros.all (fun z => (95 :: 43 :: 45 :: blanks).all (fun b => decide (b < z ∨ z + 10 ≤ b))) = true := by
    decide +kernel
  have hk := fun b hb => of_decide_eq_true (List.all_eq_true.1 (List.all_eq_true.1 key z hz) b hb)
  refine ⟨?_, ?_, ?_, ?_⟩
  · rintro rfl
    have := hk 95 (by simp)
    rw [show ('_').toNat = 95 from rfl] at hc
    omega
  · rintro rfl
    have := hk 43 (by simp)
    rw [show ('+').toNat = 43 from rfl] at hc
    omega
  · rintro rfl
    have := hk 45 (by simp)
    rw [show ('-').toNat = 45 from rfl] at hc
    omega
  · unfold blank
    rw [decide_eq_false_iff_not]
    intro hb
    have := hk c.toNat (by simp [hb])
    omega

theorem numeral_sound (s : Str) : ∀ p n m, Numeral p n →
    (numeral n true s = some m → Numeral (p ++ s) m) ∧ (numeral n false s = some m → Numeral (p ++ '_' :: s) m) := by
  induction s with
  | nil =>
    intro p n m hp
    refine ⟨fun h => ?_, fun h => ?_⟩
    · cases h; rw [List.append_nil]; exact hp
    · cases h
  | cons c s ih =>
    intro p n m hp
    refine ⟨fun h => ?_, fun h => ?_⟩
    · rw [numeral] at h
      split at h
      · rename_i hc
        rw [hc.2]
        exact (ih p n m hp).2 h
      · split at h
        · rename_i v hv
          have := (ih (p ++ [c]) _ m (.more hp (decimal_iff.1 hv))).1 h
          rwa [List.append_assoc] at this
        · cases h
    · rw [numeral, if_neg (by simp)] at h
      split at h
      · rename_i v hv
        have := (ih (p ++ ['_', c]) _ m (.under hp (decimal_iff.1 hv))).1 h
        rwa [List.append_assoc] at this
      · cases h

theorem numeral_complete {s : Str} {n : Nat} (h : Numeral s n) : ∀ t, numeral 0 false (s ++ t) = numeral n true t := by
  induction h with
  | one hc =>
    intro t
    rw [List.cons_append, List.nil_append, numeral, if_neg (by simp), decimal_iff.2 hc]
    dsimp only
    rw [Nat.zero_mul, Nat.zero_add]
  | more _ hc ih =>
    intro t
    rw [List.append_assoc, ih, List.cons_append, List.nil_append, numeral, if_neg (fun h => (decimal_not hc).1 h.2), decimal_iff.2 hc]
  | under _ hc ih =>
    intro t
    rw [List.append_assoc, ih, List.cons_append, numeral, if_pos ⟨rfl, rfl⟩, List.cons_append, List.nil_append, numeral,
      if_neg (by simp), decimal_iff.2 hc]

theorem numeral_iff {s : Str} {n : Nat} : numeral 0 false s = some n ↔ Numeral s n := by
  constructor
  · intro h
    cases s with
    | nil => cases h
    | cons c s =>
      rw [numeral, if_neg (by simp)] at h
      split at h
      · rename_i v hv
        rw [Nat.zero_mul, Nat.zero_add] at h
        exact (numeral_sound s [c] v n (.one (decimal_iff.1 hv))).1 h
      · cases h
  · intro h
    have := numeral_complete h []
    rw [List.append_nil] at this
    rw [this]
    rfl

theorem numeral_edges {s : Str} {n : Nat} (h : Numeral s n) :
    (∃ c r v, s = c :: r ∧ DecimalOf c v) ∧ (∃ r c v, s = r ++ [c] ∧ DecimalOf c v) := by
  induction h with
  | @one c v hc => exact ⟨⟨c, [], v, rfl, hc⟩, ⟨[], c, v, rfl, hc⟩⟩
  | @more s n c v _ hc ih =>
    obtain ⟨⟨c', r, v', rfl, h'⟩, _⟩ := ih
    exact ⟨⟨c', r ++ [c], v', rfl, h'⟩, ⟨_, c, v, rfl, hc⟩⟩
  | @under s n c v _ hc ih =>
    obtain ⟨⟨c', r, v', rfl, h'⟩, _⟩ := ih
    exact ⟨⟨c', r ++ ['_', c], v', rfl, h'⟩, ⟨c' :: r ++ ['_'], c, v, by simp, hc⟩⟩

theorem dropWhile_split (p : Char → Bool) (s : Str) : ∃ a, s = a ++ s.dropWhile p ∧ ∀ c ∈ a, p c = true := by
  induction s with
  | nil => exact ⟨[], rfl, by simp⟩
  | cons c s ih =>
    rw [List.dropWhile_cons]
    split
    · rename_i hc
      obtain ⟨a, h1, h2⟩ := ih
      refine ⟨c :: a, by rw [List.cons_append, ← h1], ?_⟩
      intro x hx
      rcases List.mem_cons.1 hx with rfl | hx
      · exact hc
      · exact h2 x hx
    · exact ⟨[], rfl, by simp⟩

theorem dropWhile_front {p : Char → Bool} {a s : Str} (ha : ∀ c ∈ a, p c = true) (hs : ∀ c r, s = c :: r → p c = false) :
    (a ++ s).dropWhile p = s := by
  induction a with
  | nil =>
    cases s with
    | nil => rfl
    | cons c r => rw [List.nil_append, List.dropWhile_cons, if_neg (by rw [hs c r rfl]; simp)]
  | cons c a ih =>
    rw [List.cons_append, List.dropWhile_cons, if_pos (ha c (by simp))]
    exact ih (fun x hx => ha x (by simp [hx]))

theorem stripped_split (s : Str) : ∃ a b, s = a ++ stripped s ++ b ∧ ∀ c ∈ a ++ b, blank c = true := by
  obtain ⟨a, h1, h2⟩ := dropWhile_split blank s
  obtain ⟨b, h3, h4⟩ := dropWhile_split blank (s.dropWhile blank).reverse
  refine ⟨a, b.reverse, ?_, ?_⟩
  · have : s.dropWhile blank = stripped s ++ b.reverse := by
      unfold stripped
      rw [← List.reverse_append, ← h3, List.reverse_reverse]
    rw [List.append_assoc, ← this]
    exact h1
  · intro c hc
    rcases List.mem_append.1 hc with hc | hc
    · exact h2 c hc
    · exact h4 c (List.mem_reverse.1 hc)

theorem stripped_eq {a s b : Str} (hab : ∀ c ∈ a ++ b, blank c = true) {c d : Char} {r q : Str} (h1 : s = c :: r) (h2 : s = q ++ [d])
    (hc : blank c = false) (hd : blank d = false) : stripped (a ++ s ++ b) = s := by
  unfold stripped
  rw [List.append_assoc, dropWhile_front (fun x hx => hab x (List.mem_append.2 (.inl hx)))
    (fun x y h => by rw [h1, List.cons_append] at h; cases h; exact hc), List.reverse_append,
    dropWhile_front (fun x hx => hab x (List.mem_append.2 (.inr (List.mem_reverse.1 hx))))
      (fun x y h => by rw [h2, List.reverse_append] at h; cases h; exact hd), List.reverse_reverse]

theorem signed_plain {s : Str} {c : Char} {r : Str} (h : s = c :: r) (h1 : c ≠ '-') (h2 : c ≠ '+') :
    signed? s = (numeral 0 false s).map (fun n : Nat => (n : Int)) := by
  subst h
  unfold signed?
  split
  · rename_i heq; cases heq; exact absurd rfl h1
  · rename_i heq; cases heq; exact absurd rfl h2
  · rfl

theorem signed_sound {s : Str} {i : Int} (h : signed? s = some i) :
    ∃ q n, Numeral q n ∧ (((s = q ∨ s = '+' :: q) ∧ i = n) ∨ (s = '-' :: q ∧ i = -n)) := by
  unfold signed? at h
  split at h
  · obtain ⟨n, hn, rfl⟩ := Option.map_eq_some_iff.1 h
    exact ⟨_, n, numeral_iff.1 hn, .inr ⟨rfl, rfl⟩⟩
  · obtain ⟨n, hn, rfl⟩ := Option.map_eq_some_iff.1 h
    exact ⟨_, n, numeral_iff.1 hn, .inl ⟨.inr rfl, rfl⟩⟩
  · obtain ⟨n, hn, rfl⟩ := Option.map_eq_some_iff.1 h
    exact ⟨_, n, numeral_iff.1 hn, .inl ⟨.inl rfl, rfl⟩⟩

theorem pyInt_of {a s b : Str} {n : Nat} (hab : ∀ c ∈ a ++ b, blank c = true) (hs : Numeral s n) :
    pyInt (a ++ s ++ b) = .ok (n : Int) ∧ pyInt (a ++ '+' :: s ++ b) = .ok (n : Int) ∧ pyInt (a ++ '-' :: s ++ b) = .ok (-(n : Int)) := by
  obtain ⟨⟨c, r, v, h1, hc⟩, ⟨q, d, w, h2, hd⟩⟩ := numeral_edges hs
  have hn := numeral_iff.2 hs
  refine ⟨?_, ?_, ?_⟩
  · unfold pyInt
    rw [stripped_eq hab h1 h2 (decimal_not hc).2.2.2 (decimal_not hd).2.2.2,
      signed_plain h1 (decimal_not hc).2.2.1 (decimal_not hc).2.1, hn]
    rfl
  · unfold pyInt
    rw [stripped_eq hab (s := '+' :: s) rfl (q := '+' :: q) (by rw [h2]; rfl) (by decide) (decimal_not hd).2.2.2, signed?, hn]
    rfl
  · unfold pyInt
    rw [stripped_eq hab (s := '-' :: s) rfl (q := '-' :: q) (by rw [h2]; rfl) (by decide) (decimal_not hd).2.2.2, signed?, hn]
    rfl

theorem pyInt_iff {t : Str} {i : Int} : pyInt t = .ok i ↔ IntText t i := by
  constructor
  · intro h
    obtain ⟨a, b, hs, hab⟩ := stripped_split t
    have hab' : ∀ c ∈ a ++ b, White c := fun c hc => blank_white.1 (hab c hc)
    unfold pyInt at h
    split at h
    · rename_i j hj
      cases h
      obtain ⟨q, n, hq, h⟩ := signed_sound hj
      refine ⟨a, q, b, n, hab', hq, ?_⟩
      rcases h with ⟨h | h, rfl⟩ | ⟨h, rfl⟩
      · exact .inl ⟨.inl (by rw [← h]; exact hs), rfl⟩
      · exact .inl ⟨.inr (by rw [← h]; exact hs), rfl⟩
      · exact .inr ⟨by rw [← h]; exact hs, rfl⟩
    · cases h
  · rintro ⟨a, s, b, n, hab, hs, h⟩
    have := pyInt_of (fun c hc => blank_white.2 (hab c hc)) hs
    rcases h with ⟨rfl | rfl, rfl⟩ | ⟨rfl, rfl⟩
    · exact this.1
    · exact this.2.1
    · exact this.2.2

theorem pyInt_error {t : Str} (h : ¬ ∃ i, IntText t i) : pyInt t = .error .valueError := by
  have h' : ∀ i, pyInt t ≠ .ok i := fun i hi => h ⟨i, pyInt_iff.1 hi⟩
  unfold pyInt at h' ⊢
  split
  · rename_i i hi; rw [hi] at h'; exact absurd rfl (h' i)
  · rfl

theorem numeral_true {s : Str} (hs : ∀ c ∈ s, c.isDigit = true) : ∀ n, numeral n true s = some (Nat.ofDigitChars 10 s n) := by
  induction s with
  | nil => intro n; rfl
  | cons c s ih =>
    intro n
    have hc : DecimalOf c (c.toNat - 48) := by
      have := hs c (by simp)
      simp only [Char.isDigit, Bool.and_eq_true, decide_eq_true_eq] at this
      have h1 : 48 ≤ c.toNat := this.1
      have h2 : c.toNat ≤ 57 := this.2
      exact ⟨by omega, 48, by decide, by omega⟩
    rw [numeral, if_neg (fun h => (decimal_not hc).1 h.2), decimal_iff.2 hc]
    dsimp only
    rw [ih (fun x hx => hs x (by simp [hx])), Nat.mul_comm n 10]
    rfl

theorem numeral_ofNat (n : Nat) : Numeral (Str.ofNat n) n := by
  have hs : ∀ c ∈ Str.ofNat n, c.isDigit = true := fun c h => mem_ofNat_digit h
  have h1 := numeral_true hs 0
  rw [show Nat.ofDigitChars 10 (Str.ofNat n) 0 = n from by simp [Str.ofNat, Nat.ofDigitChars_ten_toDigits]] at h1
  refine numeral_iff.1 ?_
  revert h1 hs
  cases h : Str.ofNat n with
  | nil => exact absurd h (ofNat_ne_nil n)
  | cons c s =>
    intro hs h1
    have hu : c ≠ '_' := by rintro rfl; exact absurd (hs '_' (by simp)) (by decide)
    rw [numeral, if_neg (fun h => hu h.2)] at h1
    rw [numeral, if_neg (by simp)]
    exact h1

theorem pyInt_signed (n : Nat) : pyInt (Str.ofNat n) = .ok (n : Int) ∧ pyInt ('+' :: Str.ofNat n) = .ok (n : Int) ∧
    pyInt ('-' :: Str.ofNat n) = .ok (-(n : Int)) := by
  have := pyInt_of (a := []) (b := []) (by simp) (numeral_ofNat n)
  simpa using this

end Pyopenapi
