import Verif.Model.Utils
import Verif.Spec.Pointer
import Verif.Lemmas.Str
import Verif.Lemmas.Dict

namespace Pyopenapi
open Str

theorem replaceGo_one (c : Char) (rep : Str) (s : Str) :
    replaceGo [c] rep 0 s = s.flatMap (fun x => if x = c then rep else [x]) := by
  induction s with
  | nil => rfl
  | cons x xs ih =>
    by_cases h : x = c
    · subst h; simp [replaceGo, List.isPrefixOf, ih]
    · have h' : ¬ c = x := fun e => h e.symm
      simp [replaceGo, List.isPrefixOf, ih, h, h']

/-- The encoding of `jp_compose` is RFC 6901 escaping. -/
theorem jpEncode_eq_escape (s : Str) : jpEncode s = Spec.escape s := by
  unfold jpEncode Str.replace
  rw [replaceGo_one, replaceGo_one]
  induction s with
  | nil => rfl
  | cons x xs ih =>
    rw [List.flatMap_cons, List.flatMap_append, ih]
    by_cases h1 : x = '~'
    · subst h1; simp [Spec.escape]
    · by_cases h2 : x = '/'
      · subst h2; simp [Spec.escape]
      · simp [h1, h2, Spec.escape]

/-- After `replace('~1', '/')`. -/
def dec1 (s : Str) : Str := replaceGo ['~', '1'] ['/'] 0 s
def dec0 (s : Str) : Str := replaceGo ['~', '0'] ['~'] 0 s

theorem dec1_esc (r : Str) : dec1 ('~' :: '1' :: r) = '/' :: dec1 r := by
  simp [dec1, replaceGo, List.isPrefixOf]
theorem dec1_tilde {c : Char} (r : Str) (h : c ≠ '1') : dec1 ('~' :: c :: r) = '~' :: dec1 (c :: r) := by
  have : ¬ '1' = c := fun e => h e.symm
  simp [dec1, replaceGo, List.isPrefixOf, this]
theorem dec1_other {c : Char} (r : Str) (h : c ≠ '~') : dec1 (c :: r) = c :: dec1 r := by
  have : ¬ '~' = c := fun e => h e.symm
  simp [dec1, replaceGo, List.isPrefixOf, this]
theorem dec0_esc (r : Str) : dec0 ('~' :: '0' :: r) = '~' :: dec0 r := by
  simp [dec0, replaceGo, List.isPrefixOf]
theorem dec0_tilde {c : Char} (r : Str) (h : c ≠ '0') : dec0 ('~' :: c :: r) = '~' :: dec0 (c :: r) := by
  have : ¬ '0' = c := fun e => h e.symm
  simp [dec0, replaceGo, List.isPrefixOf, this]
theorem dec0_other {c : Char} (r : Str) (h : c ≠ '~') : dec0 (c :: r) = c :: dec0 r := by
  have : ¬ '~' = c := fun e => h e.symm
  simp [dec0, replaceGo, List.isPrefixOf, this]

theorem dec1_head (s : Str) : dec1 s = [] ∨ (∃ t, dec1 s = '/' :: t) ∨
    ∃ c r t, s = c :: r ∧ dec1 s = c :: t := by
  match s with
  | [] => exact Or.inl rfl
  | c :: r =>
    by_cases h : c = '~'
    · subst h
      match r with
      | [] => right; right; exact ⟨'~', [], [], rfl, by simp [dec1, replaceGo, List.isPrefixOf]⟩
      | d :: r =>
        by_cases hd : d = '1'
        · subst hd; right; left; exact ⟨_, dec1_esc r⟩
        · right; right; exact ⟨_, _, _, rfl, dec1_tilde r hd⟩
    · right; right; exact ⟨_, _, _, rfl, dec1_other r h⟩

theorem dec0_dec1 (s : Str) : dec0 (dec1 s) = Spec.unescape s := by
  match s with
  | [] => rfl
  | [c] =>
    by_cases h : c = '~'
    · subst h; simp [dec0, dec1, replaceGo, List.isPrefixOf, Spec.unescape]
    · rw [dec1_other _ h, dec0_other _ h]; simp [dec0, dec1, replaceGo, Spec.unescape]
  | c :: d :: r =>
    by_cases h : c = '~'
    · subst h
      by_cases h1 : d = '1'
      · subst h1
        rw [dec1_esc, dec0_other _ (by decide), dec0_dec1 r, Spec.unescape]
      · by_cases h0 : d = '0'
        · subst h0
          rw [dec1_tilde _ (by decide), dec1_other _ (by decide), dec0_esc, dec0_dec1 r]
          simp [Spec.unescape]
        · have ih := dec0_dec1 (d :: r)
          rw [dec1_tilde _ h1]
          have hu : Spec.unescape ('~' :: d :: r) = '~' :: Spec.unescape (d :: r) := by
            rw [Spec.unescape] <;> simp_all
          rw [hu, ← ih]
          by_cases hd : d = '~'
          · subst hd
            -- the next character after `~` in the intermediate string is never `0`
            match r with
            | [] => simp [dec0, dec1, replaceGo, List.isPrefixOf]
            | e :: r =>
              by_cases he : e = '1'
              · subst he; rw [dec1_esc]; exact dec0_tilde _ (by decide)
              · rw [dec1_tilde _ he]; exact dec0_tilde _ (by decide)
          · rw [dec1_other _ hd]; exact dec0_tilde _ h0
    · rw [dec1_other _ h, dec0_other _ h, dec0_dec1 (d :: r)]
      have : Spec.unescape (c :: d :: r) = c :: Spec.unescape (d :: r) := by
        rw [Spec.unescape] <;> (intro r' he; simp_all)
      rw [this]
termination_by s.length

theorem jpDecode_eq_unescape (s : Str) : jpDecode s = Spec.unescape s := dec0_dec1 s

theorem unescape_escape (s : Str) : Spec.unescape (Spec.escape s) = s := by
  induction s with
  | nil => rfl
  | cons c r ih =>
    by_cases h1 : c = '~'
    · subst h1; simp [Spec.escape, Spec.unescape, ih]
    · by_cases h2 : c = '/'
      · subst h2; simp [Spec.escape, Spec.unescape, ih]
      · have : Spec.escape (c :: r) = c :: Spec.escape r := by
          rw [Spec.escape] <;> (intro he; simp_all)
        rw [this, Spec.unescape, ih] <;> (intro r' he; simp_all)

theorem jpDecode_jpEncode (s : Str) : jpDecode (jpEncode s) = s := by
  rw [jpDecode_eq_unescape, jpEncode_eq_escape, unescape_escape]

theorem jpEncode_injective {a b : Str} (h : jpEncode a = jpEncode b) : a = b := by
  rw [← jpDecode_jpEncode a, h, jpDecode_jpEncode]

theorem slash_not_mem_jpEncode (s : Str) : '/' ∉ jpEncode s := by
  rw [jpEncode_eq_escape]
  induction s with
  | nil => simp [Spec.escape]
  | cons c r ih =>
    by_cases h1 : c = '~'
    · subst h1; simpa [Spec.escape] using ih
    · by_cases h2 : c = '/'
      · subst h2; simpa [Spec.escape] using ih
      · have : Spec.escape (c :: r) = c :: Spec.escape r := by
          rw [Spec.escape] <;> (intro he; simp_all)
        rw [this]
        simp only [List.mem_cons, not_or]
        exact ⟨fun e => h2 e.symm, ih⟩

theorem jpEncode_eq_nil {s : Str} : jpEncode s = [] ↔ s = [] := by
  constructor
  · intro h
    rw [← jpDecode_jpEncode s, h]; rfl
  · rintro rfl; rfl

theorem splitC_join_encoded {ts : List Str} (h : ts ≠ []) :
    splitC '/' (joinC '/' (ts.map jpEncode)) = ts.map jpEncode := by
  refine splitC_joinC (by simpa using h) ?_
  intro p hp
  obtain ⟨t, _, rfl⟩ := List.mem_map.1 hp
  exact slash_not_mem_jpEncode t

theorem map_decode_encode (ts : List Str) : (ts.map jpEncode).map jpDecode = ts := by
  rw [List.map_map]
  conv => rhs; rw [← List.map_id ts]
  apply List.map_congr_left
  intro a _
  exact jpDecode_jpEncode a

theorem jpCompose_base {b : Str} (hb : b ≠ []) (ts : List Str) :
    jpCompose ts (some b) = joinC '/' (b :: ts.map jpEncode) := by
  cases b with
  | nil => exact absurd rfl hb
  | cons c cs => rfl

end Pyopenapi
