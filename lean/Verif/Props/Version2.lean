import Verif.Props.Version
import Verif.Spec.Version
import Verif.Lemmas.Up12

/-! # C15: versions with pre-releases and leading zeros, and the names that are refused -/

namespace Pyopenapi
open Str

theorem digits_ne {s : Str} {n : Nat} (h : Spec.Digits s n) : s ≠ [] ∧ s.all (fun c => c.isDigit) = true ∧
    Nat.ofDigitChars 10 s 0 = n := by
  induction h with
  | one c hc => exact ⟨by simp, by simp [hc], by simp [Nat.ofDigitChars]⟩
  | more s n c _ hc ih =>
    refine ⟨by simp, ?_, ?_⟩
    · rw [List.all_append, ih.2.1]; simp [hc]
    · rw [← ih.2.2]
      simp [Nat.ofDigitChars, List.foldl_append, Nat.mul_comm]

theorem digits_of {s : Str} (hne : s ≠ []) (h : s.all (fun c => c.isDigit) = true) : ∃ n, Spec.Digits s n := by
  generalize hr : s.reverse = r
  have hs : s = r.reverse := by rw [← hr, List.reverse_reverse]
  clear hr
  subst hs
  induction r with
  | nil => exact absurd rfl hne
  | cons c r ih =>
    rw [List.reverse_cons] at h ⊢
    rw [List.all_append] at h
    simp only [Bool.and_eq_true, List.all_cons, List.all_nil, Bool.and_true] at h
    cases r with
    | nil => exact ⟨_, .one c h.2⟩
    | cons x y =>
      obtain ⟨n, hn⟩ := ih (by simp) h.1
      exact ⟨_, .more _ n c hn h.2⟩

theorem digits?_iff {s : Str} {n : Nat} : digits? s = some n ↔ Spec.Digits s n := by
  unfold digits?
  constructor
  · intro h
    split at h
    · rename_i hc
      obtain ⟨m, hm⟩ := digits_of hc.1 hc.2
      cases h
      rwa [(digits_ne hm).2.2]
    · cases h
  · intro h
    obtain ⟨h1, h2, h3⟩ := digits_ne h
    rw [if_pos ⟨h1, h2⟩, h3]

theorem takeWhile_digits {a : Str} (ha : ∀ c ∈ a, c.isDigit = true) {p : Str} (hp : ∀ c r, p = c :: r → c.isDigit = false) :
    (a ++ p).takeWhile (fun c => c.isDigit) = a ∧ (a ++ p).dropWhile (fun c => c.isDigit) = p := by
  induction a with
  | nil =>
    cases p with
    | nil => exact ⟨rfl, rfl⟩
    | cons c r => simp [hp c r rfl]
  | cons x a ih =>
    have := ih (fun c hc => ha c (List.mem_cons_of_mem _ hc))
    simp [ha x List.mem_cons_self, this]

theorem lastComp?_iff {s : Str} {n : Nat} {pre : Option (Char × Nat)} :
    lastComp? s = some (n, pre) ↔ ∃ a p, s = a ++ p ∧ Spec.Digits a n ∧ Spec.PreText p pre := by
  constructor
  · intro h
    unfold lastComp? at h
    split at h
    · cases hd : digits? s with
      | none => rw [hd] at h; cases h
      | some m =>
        rw [hd] at h
        cases h
        exact ⟨s, [], by simp, digits?_iff.1 hd, .none⟩
    · rename_i c rest he
      split at h
      · rename_i hc
        split at h
        · rename_i n' p' h1 h2
          cases h
          refine ⟨_, c :: rest, ?_, digits?_iff.1 h1, .some c rest _ hc (digits?_iff.1 h2)⟩
          rw [← he, List.takeWhile_append_dropWhile]
        · cases h
      · cases h
  · rintro ⟨a, p, rfl, ha, hp⟩
    have had := List.all_eq_true.1 (digits_ne ha).2.1
    unfold lastComp?
    cases hp with
    | none =>
      rw [(takeWhile_digits had (p := []) (by simp)).2]
      simp [digits?_iff.2 ha]
    | some c t m hc ht =>
      have hcd : ∀ x r, c :: t = x :: r → x.isDigit = false := by
        intro x r e
        cases e
        rcases hc with rfl | rfl <;> decide
      rw [(takeWhile_digits had hcd).2, (takeWhile_digits had hcd).1]
      dsimp only
      rw [if_pos hc, digits?_iff.2 ha, digits?_iff.2 ht]

theorem no_dot_digits {s : Str} {n : Nat} (h : Spec.Digits s n) : '.' ∉ s := fun hm =>
  absurd (List.all_eq_true.1 (digits_ne h).2.1 _ hm) (by decide)

theorem no_dot_pre {s : Str} {p : Option (Char × Nat)} (h : Spec.PreText s p) : '.' ∉ s := by
  cases h with
  | none => simp
  | some c s n hc hs =>
    intro hm
    rcases List.mem_cons.1 hm with e | hm
    · rw [← e] at hc
      rcases hc with h | h <;> exact absurd h (by decide)
    · exact no_dot_digits hs hm

theorem parseVersion_iff {s : Str} {v : StrictVersion} :
    parseVersion s = .ok v ↔ Spec.Denotes s ⟨v.major, v.minor, v.patch, v.pre⟩ := by
  constructor
  · intro h
    have hj := joinC_splitC '.' s
    unfold parseVersion at h
    split at h
    · rename_i a b he
      rw [he] at hj
      split at h
      · rename_i x y p h1 h2
        cases h
        obtain ⟨b', q, rfl, hb, hq⟩ := lastComp?_iff.1 h2
        rw [← hj]
        exact .two a b' q x y p (digits?_iff.1 h1) hb hq
      · cases h
    · rename_i a b c he
      rw [he] at hj
      split at h
      · rename_i x y z p h1 h2 h3
        cases h
        obtain ⟨c', q, rfl, hc, hq⟩ := lastComp?_iff.1 h3
        rw [← hj]
        exact .three a b c' q x y z p (digits?_iff.1 h1) (digits?_iff.1 h2) hc hq
      · cases h
    · cases h
  · intro h
    obtain ⟨x, y, z, pre⟩ := v
    dsimp only at h
    unfold parseVersion
    cases h with
    | two a b p _ _ _ ha hb hp =>
      have hn : '.' ∉ b ++ p := fun hm => (List.mem_append.1 hm).elim (no_dot_digits hb) (no_dot_pre hp)
      rw [splitC_append, splitC_of_not_mem (no_dot_digits ha), splitC_of_not_mem hn]
      dsimp only [List.cons_append, List.nil_append]
      rw [digits?_iff.2 ha, lastComp?_iff.2 ⟨b, p, rfl, hb, hp⟩]
    | three a b c p _ _ _ _ ha hb hc hp =>
      have hn : '.' ∉ c ++ p := fun hm => (List.mem_append.1 hm).elim (no_dot_digits hc) (no_dot_pre hp)
      rw [splitC_append, splitC_of_not_mem (no_dot_digits ha), splitC_append, splitC_of_not_mem (no_dot_digits hb),
        splitC_of_not_mem hn]
      dsimp only [List.cons_append, List.nil_append]
      rw [digits?_iff.2 ha, digits?_iff.2 hb, lastComp?_iff.2 ⟨c, p, rfl, hc, hp⟩]

theorem parseVersion_err {s : Str} {e : Err} (h : parseVersion s = .error e) : e = .valueError := by
  unfold parseVersion at h
  split at h
  · split at h <;> cases h; rfl
  · split at h <;> cases h; rfl
  · cases h; rfl

theorem pre_letter {s : Str} {r : Spec.Release} (h : Spec.Denotes s r) : ∀ c n, r.pre = some (c, n) → c = 'a' ∨ c = 'b' := by
  have : ∀ {p : Str} {q : Option (Char × Nat)}, Spec.PreText p q → ∀ c n, q = some (c, n) → c = 'a' ∨ c = 'b' := by
    intro p q hp c n e
    cases hp with
    | none => cases e
    | some d _ _ hd _ => cases e; exact hd
  cases h with
  | two _ _ _ _ _ _ _ _ hp => exact this hp
  | three _ _ _ _ _ _ _ _ _ _ _ hp => exact this hp

theorem lt_iff_before {v w : StrictVersion} (hv : ∀ c n, v.pre = some (c, n) → c = 'a' ∨ c = 'b')
    (hw : ∀ c n, w.pre = some (c, n) → c = 'a' ∨ c = 'b') :
    StrictVersion.lt v w = true ↔ Spec.Before ⟨v.major, v.minor, v.patch, v.pre⟩ ⟨w.major, w.minor, w.patch, w.pre⟩ := by
  obtain ⟨a1, a2, a3, p⟩ := v
  obtain ⟨b1, b2, b3, q⟩ := w
  unfold StrictVersion.lt Spec.Before
  dsimp only at hv hw ⊢
  simp only [ne_eq, ite_not]
  by_cases h1 : a1 = b1
  · subst h1
    rw [if_pos rfl]
    by_cases h2 : a2 = b2
    · subst h2
      rw [if_pos rfl]
      by_cases h3 : a3 = b3
      · subst h3
        rw [if_pos rfl]
        simp only [Nat.lt_irrefl, false_or, true_and]
        match p, q with
        | none, _ => simp
        | some _, none => simp
        | some (c, n), some (d, m) =>
          dsimp only
          have hc := hv c n rfl
          have hd := hw d m rfl
          rcases hc with rfl | rfl <;> rcases hd with rfl | rfl <;> simp <;> decide
      · simp [h3]
    · simp [h2]
  · simp [h1]

/-- The dotted version a package name stands for. -/
def Spec.dotted (name : Str) : Str := name.tail.map (fun c => if c = '_' then '.' else c)

theorem replace_map (s : Str) : Str.replace s ['_'] ['.'] = s.map (fun c => if c = '_' then '.' else c) := by
  unfold Str.replace
  rw [replaceGo_one]
  induction s with
  | nil => rfl
  | cons c s ih =>
    rw [List.flatMap_cons, ih, List.map_cons]
    split <;> rfl

theorem mapM_keyed {vs : List Str} {out : List (StrictVersion × Str)}
    (h : vs.mapM (m := Except Err) (fun v => do let k ← parseVersion v; pure (k, v)) = .ok out) :
    out.map Prod.snd = vs ∧ ∀ kv ∈ out, parseVersion kv.2 = .ok kv.1 := by
  induction vs generalizing out with
  | nil => cases h; exact ⟨rfl, by simp⟩
  | cons v vs ih =>
    rw [List.mapM_cons] at h
    obtain ⟨a, h1, h2⟩ := bindOk h
    obtain ⟨k, h3, h4⟩ := bindOk h1
    obtain ⟨as, h5, h6⟩ := bindOk h2
    cases h4
    cases h6
    obtain ⟨i1, i2⟩ := ih h5
    refine ⟨by simp [i1], ?_⟩
    intro kv hkv
    rcases List.mem_cons.1 hkv with rfl | hm
    · exact h3
    · exact i2 kv hm

theorem mapM_keyed_ok {vs : List Str} (h : ∀ v ∈ vs, ∃ k, parseVersion v = .ok k) :
    ∃ out, vs.mapM (m := Except Err) (fun v => do let k ← parseVersion v; pure (k, v)) = .ok out := by
  induction vs with
  | nil => exact ⟨[], rfl⟩
  | cons v vs ih =>
    obtain ⟨k, hk⟩ := h v List.mem_cons_self
    obtain ⟨out, ho⟩ := ih (fun w hw => h w (List.mem_cons_of_mem _ hw))
    exact ⟨(k, v) :: out, by rw [List.mapM_cons, hk, ho]; rfl⟩

theorem mapM_keyed_err {vs : List Str} (h : ∃ v ∈ vs, ∀ k, parseVersion v ≠ .ok k) :
    vs.mapM (m := Except Err) (fun v => do let k ← parseVersion v; pure (k, v)) = .error .valueError := by
  induction vs with
  | nil => obtain ⟨v, hv, _⟩ := h; cases hv
  | cons v vs ih =>
    rw [List.mapM_cons]
    cases hp : parseVersion v with
    | error e => rw [parseVersion_err hp]; rfl
    | ok k =>
      obtain ⟨w, hw, hb⟩ := h
      rcases List.mem_cons.1 hw with rfl | hm
      · exact absurd hp (hb k)
      · rw [ih ⟨w, hm, hb⟩]; rfl

/-- **C15**: if every package name that starts with `v` stands for a version (pre-releases and leading zeros included), the
result lists the versions of exactly those packages, never one before an earlier version: numbers first, a pre-release
before its release, `a` before `b`. -/
theorem C15_any_version (names : List Str)
    (h : ∀ n ∈ names, n.head? = some 'v' → ∃ r, Spec.Denotes (Spec.dotted n) r) :
    ∃ out, getSupportedVersions names = .ok out ∧
      out.Perm ((names.filter (fun n => n.head? = some 'v')).map Spec.dotted) ∧
      out.Pairwise (fun s t => ∀ v w, Spec.Denotes s v → Spec.Denotes t w → ¬ Spec.Before w v) := by
  have hfil : (names.filter (fun n => Str.startsWith n ['v'])).map (fun v => Str.replace (v.drop 1) ['_'] ['.']) =
      (names.filter (fun n => n.head? = some 'v')).map Spec.dotted := by
    have : names.filter (fun n => Str.startsWith n ['v']) = names.filter (fun n => n.head? = some 'v') := by
      congr 1
      funext n
      cases n with
      | nil => rfl
      | cons c n =>
        by_cases hc : c = 'v'
        · subst hc; simp [Str.startsWith]
        · have : ('v' == c) = false := beq_false_of_ne (fun e => hc e.symm)
          simp [Str.startsWith, List.isPrefixOf, hc, this]
    rw [this]
    refine List.map_congr_left (fun n _ => ?_)
    rw [replace_map]
    unfold Spec.dotted
    rw [List.drop_one]
  unfold getSupportedVersions
  dsimp only
  rw [hfil]
  obtain ⟨keyed, hk⟩ := mapM_keyed_ok (vs := (names.filter (fun n => n.head? = some 'v')).map Spec.dotted) (by
    intro v hv
    obtain ⟨n, hn, rfl⟩ := List.mem_map.1 hv
    obtain ⟨r, hr⟩ := h n (List.mem_filter.1 hn).1 (by simpa using (List.mem_filter.1 hn).2)
    exact ⟨⟨r.major, r.minor, r.patch, r.pre⟩, parseVersion_iff.2 hr⟩)
  rw [hk]
  obtain ⟨k1, k2⟩ := mapM_keyed hk
  refine ⟨_, rfl, ?_, ?_⟩
  · rw [← k1]
    exact (sortBy_perm _ keyed).map _
  · have hsw : StrictWeak (fun a b : StrictVersion × Str => StrictVersion.lt a.1 b.1) :=
      ⟨fun a b => StrictVersion.lt_strictWeak.asymm _ _, fun a b c => StrictVersion.lt_strictWeak.negtrans _ _ _⟩
    have hs := sortBy_sorted hsw keyed
    have hmem : ∀ kv ∈ sortBy (fun a b : StrictVersion × Str => StrictVersion.lt a.1 b.1) keyed,
        parseVersion kv.2 = .ok kv.1 := fun kv hm => k2 kv ((sortBy_perm _ keyed).mem_iff.1 hm)
    rw [List.pairwise_map]
    refine List.Pairwise.imp_of_mem ?_ hs
    intro a b ha hb hlt v w hv hw hbef
    have e1 : parseVersion a.2 = .ok ⟨v.major, v.minor, v.patch, v.pre⟩ := parseVersion_iff.2 hv
    have e2 : parseVersion b.2 = .ok ⟨w.major, w.minor, w.patch, w.pre⟩ := parseVersion_iff.2 hw
    rw [hmem a ha] at e1
    rw [hmem b hb] at e2
    have f1 := Except.ok.inj e1
    have f2 := Except.ok.inj e2
    rw [f1, f2] at hlt
    have := (lt_iff_before (v := ⟨w.major, w.minor, w.patch, w.pre⟩) (w := ⟨v.major, v.minor, v.patch, v.pre⟩)
      (pre_letter hw) (pre_letter hv)).2 hbef
    rw [this] at hlt
    exact absurd hlt (by decide)

/-- **C15**: one package name that starts with `v` and stands for no version makes the call raise ValueError. -/
theorem C15_refused (names : List Str) (n : Str) (hn : n ∈ names) (hv : n.head? = some 'v')
    (h : ∀ r, ¬ Spec.Denotes (Spec.dotted n) r) : getSupportedVersions names = .error .valueError := by
  unfold getSupportedVersions
  dsimp only
  rw [mapM_keyed_err ⟨Spec.dotted n, ?_, fun k hk => h _ (parseVersion_iff.1 hk)⟩]
  · rfl
  · refine List.mem_map.2 ⟨n, List.mem_filter.2 ⟨hn, ?_⟩, ?_⟩
    · cases n with
      | nil => cases hv
      | cons c n => cases hv; simp [Str.startsWith]
    · rw [replace_map]
      unfold Spec.dotted
      rw [List.drop_one]

example : getSupportedVersions [s% "v3_0_0", s% "v3_0_0b2", s% "utils", s% "v3_0_0a10"] =
    .ok [s% "3.0.0a10", s% "3.0.0b2", s% "3.0.0"] := by decide +kernel

example : Spec.Denotes (Spec.dotted (s% "v3_0_0b12")) ⟨3, 0, 0, some ('b', 12)⟩ :=
  .three (s% "3") (s% "0") (s% "0") (s% "b12") 3 0 0 _ (.one '3' rfl) (.one '0' rfl) (.one '0' rfl)
    (.some 'b' (s% "12") 12 (Or.inr rfl) (.more (s% "1") 1 '2' (.one '1' rfl) rfl))

end Pyopenapi
