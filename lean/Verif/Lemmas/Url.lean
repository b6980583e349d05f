import Verif.Model.Url
import Verif.Lemmas.Str

/-! Parsing and writing URLs are inverse on well-formed components. -/

namespace Pyopenapi
namespace Url

/-- The components of a parsed URL. -/
structure Parsed (ok : Str → Bool) (u : Url) : Prop where
  scheme : u.scheme = [] ∨ ∃ c r, u.scheme = c :: r ∧ c.isAlpha = true ∧ (c :: r).all schemeChar = true ∧
    (c :: r).map Char.toLower = c :: r
  netloc : ∀ c ∈ u.netloc, endsNetloc c = false
  okNetloc : ok u.netloc = true
  path : '?' ∉ u.path ∧ '#' ∉ u.path
  params : '?' ∉ u.params ∧ '#' ∉ u.params ∧ '/' ∉ u.params
  query : '#' ∉ u.query
  noParams : usesParams.contains u.scheme = false → u.params = []
  safe : ∀ c, c ∈ u.netloc ∨ c ∈ u.path ∨ c ∈ u.params ∨ c ∈ u.query ∨ c ∈ u.fragment → unsafeChar c = false

/-- The path is empty (and then there are no parameters) or starts with a slash. -/
def AbsPath (u : Url) : Prop := (u.path = [] ∧ u.params = []) ∨ u.path.head? = some '/'

/-- The last segment of the path has no `;` (where parameters are used). -/
def NoSemi (u : Url) : Prop := usesParams.contains u.scheme = true → ';' ∉ Str.afterLast '/' u.path

theorem ascii_cases {P : Char → Bool} (h : ∀ n, n < 128 → P (Char.ofNat n) = true) {c : Char}
    (hc : c.toNat < 128) : P c = true := by
  have := h c.toNat hc
  rwa [Char.ofNat_toNat] at this

theorem isAlpha_ascii {c : Char} (h : c.isAlpha = true) : c.toNat < 128 := by
  simp only [Char.isAlpha, Char.isUpper, Char.isLower, Bool.or_eq_true, Bool.and_eq_true, decide_eq_true_eq, UInt32.le_iff_toNat_le, ge_iff_le] at h
  simp at h
  omega

theorem schemeChar_ascii {c : Char} (h : schemeChar c = true) : c.toNat < 128 := by
  simp only [schemeChar, Bool.or_eq_true, beq_iff_eq] at h
  rcases h with (((h | h) | rfl) | rfl) | rfl
  · exact isAlpha_ascii h
  · simp only [Char.isDigit, Bool.and_eq_true, decide_eq_true_eq, UInt32.le_iff_toNat_le, ge_iff_le] at h
    simp at h
    omega
  · decide
  · decide
  · decide

theorem alpha_facts {c : Char} (h : c.isAlpha = true) : c.toLower.isAlpha = true ∧ ¬ c.toNat ≤ 32 := by
  have := ascii_cases (P := fun c => !c.isAlpha || (c.toLower.isAlpha && decide (¬ c.toNat ≤ 32)))
    (by decide) (isAlpha_ascii h)
  simpa [h] using this

theorem schemeChar_facts {c : Char} (h : schemeChar c = true) :
    schemeChar c.toLower = true ∧ c.toLower.toLower = c.toLower ∧ c ≠ ':' ∧ unsafeChar c = false := by
  have := ascii_cases (P := fun c => !schemeChar c || (schemeChar c.toLower && c.toLower.toLower == c.toLower &&
    c != ':' && !unsafeChar c)) (by decide) (schemeChar_ascii h)
  simpa [h, and_assoc] using this


theorem takeWhile_append_stop {p : Char → Bool} {a b : Str} (ha : ∀ c ∈ a, p c = true)
    (hb : ∀ c r, b = c :: r → p c = false) :
    (a ++ b).takeWhile p = a ∧ (a ++ b).dropWhile p = b := by
  induction a with
  | nil =>
    cases b with
    | nil => simp
    | cons c r => simp [hb c r rfl]
  | cons c a ih =>
    have := ih (fun c hc => ha c (List.mem_cons_of_mem _ hc))
    simp [ha c List.mem_cons_self, this]

theorem takeWhile_dropWhile_spec (p : Char → Bool) (s : Str) :
    s = s.takeWhile p ++ s.dropWhile p ∧ (∀ c ∈ s.takeWhile p, p c = true) ∧
      (∀ c r, s.dropWhile p = c :: r → p c = false) := by
  refine ⟨(List.takeWhile_append_dropWhile).symm, fun c hc => ?_, fun c r h => ?_⟩
  · induction s with
    | nil => simp at hc
    | cons x s ih =>
      rw [List.takeWhile_cons] at hc
      split at hc
      · rename_i hx
        rcases List.mem_cons.1 hc with rfl | hc
        · exact hx
        · exact ih hc
      · simp at hc
  · induction s with
    | nil => simp at h
    | cons x s ih =>
      rw [List.dropWhile_cons] at h
      split at h
      · exact ih h
      · rename_i hx
        cases h
        simpa using hx

/-- The last segment of a path, and what is before it. -/
theorem upto_after (c : Char) (s : Str) : Str.uptoLast c s ++ Str.afterLast c s = s ∧ c ∉ Str.afterLast c s ∧
    (Str.uptoLast c s = [] ∨ ∃ t, Str.uptoLast c s = t ++ [c]) := by
  unfold Str.uptoLast Str.afterLast
  obtain ⟨h1, h2, h3⟩ := takeWhile_dropWhile_spec (fun x => decide (x ≠ c)) s.reverse
  refine ⟨?_, ?_, ?_⟩
  · rw [← List.reverse_append, ← h1, List.reverse_reverse]
  · intro hm
    have := h2 c (List.mem_reverse.1 hm)
    simp at this
  · cases hd : s.reverse.dropWhile (fun x => decide (x ≠ c)) with
    | nil => left; rfl
    | cons x r =>
      right
      have := h3 x r hd
      simp at this
      exact ⟨r.reverse, by simp [this]⟩

theorem after_unique {c : Char} {a b : Str} (hb : c ∉ b) (ha : a = [] ∨ ∃ t, a = t ++ [c]) :
    Str.uptoLast c (a ++ b) = a ∧ Str.afterLast c (a ++ b) = b := by
  unfold Str.uptoLast Str.afterLast
  rw [List.reverse_append]
  have := takeWhile_append_stop (p := fun x => decide (x ≠ c)) (a := b.reverse) (b := a.reverse)
    (by intro x hx; simp only [decide_eq_true_eq]; rintro rfl; exact hb (List.mem_reverse.1 hx))
    (by
      intro x r h
      rcases ha with rfl | ⟨t, rfl⟩
      · simp at h
      · simp at h; simp [h.1])
  rw [this.1, this.2]
  simp

theorem splitParams_join {path params : Str} (hp : '/' ∉ params) (hs : ';' ∉ Str.afterLast '/' path) :
    splitParams (path ++ withMark ';' params) = (path, params) := by
  obtain ⟨h1, h2, h3⟩ := upto_after '/' path
  have hw : '/' ∉ withMark ';' params := by unfold withMark; split <;> simp_all
  have := after_unique (c := '/') (a := Str.uptoLast '/' path) (b := Str.afterLast '/' path ++ withMark ';' params)
    (by simp [h2, hw]) h3
  rw [← List.append_assoc, h1] at this
  unfold splitParams
  rw [this.2, this.1]
  by_cases h : params = []
  · subst h
    simp only [withMark, if_true, List.append_nil]
    rw [Str.cut_of_not_mem hs]
  · simp only [withMark, if_neg h]
    rw [Str.cut_append _ hs]
    simp [h1]

theorem splitParams_spec {path a b : Str} (h : splitParams path = (a, b)) :
    (∀ c, c ∈ a ∨ c ∈ b → c ∈ path) ∧ '/' ∉ b ∧ ';' ∉ Str.afterLast '/' a ∧
    (path = [] ∨ path.head? = some '/' → (a = [] ∧ b = []) ∨ a.head? = some '/') := by
  obtain ⟨h1, h2, h3⟩ := upto_after '/' path
  unfold splitParams at h
  cases hc : Str.cut ';' (Str.afterLast '/' path) with
  | mk x y =>
    rw [hc] at h
    cases y with
    | none =>
      simp only [Prod.mk.injEq] at h
      obtain ⟨rfl, rfl⟩ := h
      refine ⟨by simp, by simp, (Str.cut_none hc).2, ?_⟩
      rintro (rfl | hh)
      · exact .inl ⟨rfl, rfl⟩
      · exact .inr hh
    | some y =>
      simp only [Prod.mk.injEq] at h
      obtain ⟨rfl, rfl⟩ := h
      obtain ⟨e1, e2⟩ := Str.cut_some hc
      have hx : '/' ∉ x := fun hm => h2 (by rw [e1]; simp [hm])
      have hy : '/' ∉ y := fun hm => h2 (by rw [e1]; simp [hm])
      refine ⟨fun c hm => ?_, hy, ?_, ?_⟩
      · rw [← h1, e1]
        rcases hm with hm | hm
        · rcases List.mem_append.1 hm with hm | hm <;> simp [hm]
        · simp [hm]
      · rw [(after_unique hx h3).2]; exact e2
      · rintro (rfl | hh)
        · simp [Str.uptoLast, Str.afterLast] at h1 e1
        · right
          cases hu : Str.uptoLast '/' path with
          | nil =>
            rw [hu, List.nil_append] at h1
            rw [h1] at h2
            cases path with
            | nil => simp at hh
            | cons c r => simp at hh h2; exact absurd hh.symm h2.1
          | cons c r =>
            rw [← h1, hu] at hh
            simpa using hh

theorem clean_spec (s : Str) : (∀ c ∈ clean s, unsafeChar c = false) := by
  intro c hc
  simpa using (List.mem_filter.1 hc).2

theorem clean_id {s : Str} (h1 : ∀ c ∈ s, unsafeChar c = false) (h2 : ∀ c r, s = c :: r → ¬ c.toNat ≤ 32) :
    clean s = s := by
  unfold clean
  have : s.dropWhile (fun c => decide (c.toNat ≤ 32)) = s := by
    cases s with
    | nil => rfl
    | cons c r => rw [List.dropWhile_cons, if_neg (by simpa using h2 c r rfl)]
  rw [this, List.filter_eq_self]
  simpa using h1

/-- What follows the authority. -/
def tail (u : Url) : Str := u.path ++ withMark ';' u.params ++ withMark '?' u.query ++ withMark '#' u.fragment

/-- The authority is written. -/
def hasNetloc (u : Url) : Prop :=
  u.netloc ≠ [] ∨ (u.scheme ≠ [] ∧ usesNetloc.contains u.scheme = true) ∨ (s% "//").isPrefixOf (u.path ++ withMark ';' u.params) = true

instance (u : Url) : Decidable (hasNetloc u) := inferInstanceAs (Decidable (_ ∨ _))

theorem unparse_abs {u : Url} (ha : AbsPath u) : unparse u =
    (if u.scheme = [] then [] else u.scheme ++ [':']) ++
    ((if hasNetloc u then '/' :: '/' :: u.netloc else []) ++ tail u) := by
  have hslash : ¬ (u.path ++ withMark ';' u.params ≠ [] ∧ (u.path ++ withMark ';' u.params).head? ≠ some '/') := by
    rintro ⟨h1, h2⟩
    rcases ha with ⟨hp, hq⟩ | hp
    · simp [hp, hq, withMark] at h1
    · cases hu : u.path with
      | nil => simp [hu] at hp
      | cons c r => rw [hu] at hp h2; simp at hp h2; exact h2 hp
  unfold unparse tail
  simp only [if_neg hslash]
  by_cases hs : u.scheme = []
  · by_cases hn : hasNetloc u
    · rw [if_pos hn]
      simp only [hasNetloc] at hn
      rw [if_pos hn]
      simp [hs]
    · rw [if_neg hn]
      simp only [hasNetloc] at hn
      rw [if_neg hn]
      simp [hs]
  · by_cases hn : hasNetloc u
    · rw [if_pos hn]
      simp only [hasNetloc] at hn
      rw [if_pos hn]
      simp [hs]
    · rw [if_neg hn]
      simp only [hasNetloc] at hn
      rw [if_neg hn]
      simp [hs]

theorem mark_head {c x : Char} {s r : Str} (h : withMark c s = x :: r) : x = c := by
  unfold withMark at h; split at h <;> simp_all

theorem tail_head {u : Url} (ha : AbsPath u) {c : Char} {r : Str} (h : tail u = c :: r) : endsNetloc c = true := by
  unfold tail at h
  rcases ha with ⟨hp, hq⟩ | hp
  · rw [hp, hq] at h
    simp only [withMark, if_true, List.nil_append] at h
    by_cases h1 : u.query = []
    · by_cases h2 : u.fragment = []
      · simp [h1, h2] at h
      · simp [h1, h2] at h; rw [← h.1]; rfl
    · simp [h1] at h; rw [← h.1]; rfl
  · cases hu : u.path with
    | nil => simp [hu] at hp
    | cons x y =>
      rw [hu] at hp h
      simp at hp h
      rw [← h.1, hp]; rfl

theorem schemeSplit_other {s : Str} (h : ∀ c r, s = c :: r → endsNetloc c = true) : schemeSplit s = ([], s) := by
  unfold schemeSplit
  cases hc : Str.cut ':' s with
  | mk a b =>
    cases a with
    | nil => cases b <;> rfl
    | cons c a =>
      cases b with
      | none => rfl
      | some b =>
        obtain ⟨e, _⟩ := Str.cut_some hc
        have := h c _ (by rw [e]; rfl)
        have hna : c.isAlpha = false := by
          simp only [endsNetloc, Bool.or_eq_true, beq_iff_eq] at this
          rcases this with (rfl | rfl) | rfl <;> decide
        simp [hna]

theorem schemeSplit_scheme {c : Char} {a r : Str} (hc : c.isAlpha = true) (ha : (c :: a).all schemeChar = true)
    (hl : (c :: a).map Char.toLower = c :: a) : schemeSplit ((c :: a) ++ ':' :: r) = (c :: a, r) := by
  unfold schemeSplit
  have hn : ':' ∉ c :: a := by
    intro hm
    exact (schemeChar_facts (List.all_eq_true.1 ha _ hm)).2.2.1 rfl
  rw [Str.cut_append _ hn]
  simp only [hc, ha, hl, Bool.and_self, if_true]

/-- What the scheme and the authority need. -/
structure Front (u : Url) : Prop where
  scheme : u.scheme = [] ∨ ∃ c r, u.scheme = c :: r ∧ c.isAlpha = true ∧ (c :: r).all schemeChar = true ∧
    (c :: r).map Char.toLower = c :: r
  netloc : ∀ c ∈ u.netloc, endsNetloc c = false
  safe : ∀ c, c ∈ u.netloc ∨ c ∈ u.path ∨ c ∈ u.params ∨ c ∈ u.query ∨ c ∈ u.fragment → unsafeChar c = false

theorem Parsed.front {ok : Str → Bool} {u : Url} (h : Parsed ok u) : Front u := ⟨h.scheme, h.netloc, h.safe⟩

theorem hmk {c x : Char} {s : Str} (h : x ∈ withMark c s) : x = c ∨ x ∈ s := by
  unfold withMark at h; split at h <;> simp_all

/-- Scheme and authority are found where they were written. -/
theorem parse_front {u : Url} (hu : Front u) (ha : AbsPath u) :
    ∃ r, schemeSplit (clean (unparse u)) = (u.scheme, r) ∧ netlocSplit r = (u.netloc, tail u) := by
  have htail_safe : ∀ c ∈ tail u, unsafeChar c = false := by
    intro c hc
    unfold tail at hc
    simp only [List.mem_append] at hc
    rcases hc with ((hc | hc) | hc) | hc
    · exact hu.safe c (by simp [hc])
    · rcases hmk hc with rfl | hc
      · rfl
      · exact hu.safe c (by simp [hc])
    · rcases hmk hc with rfl | hc
      · rfl
      · exact hu.safe c (by simp [hc])
    · rcases hmk hc with rfl | hc
      · rfl
      · exact hu.safe c (by simp [hc])
  have hrest_safe : ∀ c ∈ (if hasNetloc u then '/' :: '/' :: u.netloc else []) ++ tail u, unsafeChar c = false := by
    intro c hc
    rcases List.mem_append.1 hc with hc | hc
    · split at hc
      · simp only [List.mem_cons] at hc
        rcases hc with rfl | rfl | hc
        · rfl
        · rfl
        · exact hu.safe c (.inl hc)
      · simp at hc
    · exact htail_safe c hc
  have hrest_head : ∀ c r, (if hasNetloc u then '/' :: '/' :: u.netloc else []) ++ tail u = c :: r →
      endsNetloc c = true := by
    intro c r h
    split at h
    · simp at h; rw [← h.1]; rfl
    · exact tail_head ha (by simpa using h)
  have hends : ∀ c, endsNetloc c = true → ¬ c.toNat ≤ 32 := by
    intro c h
    simp only [endsNetloc, Bool.or_eq_true, beq_iff_eq] at h
    rcases h with (rfl | rfl) | rfl <;> decide
  -- the scheme
  have hscheme : schemeSplit (clean (unparse u)) =
      (u.scheme, (if hasNetloc u then '/' :: '/' :: u.netloc else []) ++ tail u) := by
    rw [unparse_abs ha]
    rcases hu.scheme with h | ⟨c, r, h, h1, h2, h3⟩
    · simp only [h, if_true, List.nil_append]
      rw [clean_id hrest_safe (fun c r h => hends c (hrest_head c r h))]
      exact schemeSplit_other hrest_head
    · rw [if_neg (by rw [h]; simp), h]
      rw [clean_id]
      · rw [List.append_assoc]
        exact schemeSplit_scheme h1 h2 h3
      · intro x hx
        simp only [List.mem_append] at hx
        rcases hx with (hx | hx) | hx
        · exact (schemeChar_facts (List.all_eq_true.1 h2 x hx)).2.2.2
        · simp at hx; subst hx; rfl
        · exact hrest_safe x (List.mem_append.2 hx)
      · intro x y hxy
        simp at hxy
        rw [← hxy.1]
        exact (alpha_facts h1).2
  -- the authority
  have hnet : netlocSplit ((if hasNetloc u then '/' :: '/' :: u.netloc else []) ++ tail u) = (u.netloc, tail u) := by
    by_cases hn : hasNetloc u
    · rw [if_pos hn]
      simp only [List.cons_append, netlocSplit]
      have := takeWhile_append_stop (p := fun c => !endsNetloc c) (a := u.netloc) (b := tail u)
        (by intro c hc; simp [hu.netloc c hc]) (by intro c r h; simp [tail_head ha h])
      rw [this.1, this.2]
    · rw [if_neg hn, List.nil_append]
      have h0 : u.netloc = [] := by
        by_cases h : u.netloc = []
        · exact h
        · exact absurd (.inl h) hn
      rw [h0]
      have hnp : ∀ r, tail u ≠ '/' :: '/' :: r := by
        intro r hr
        apply hn
        right; right
        unfold tail at hr
        rcases ha with ⟨hp, hq⟩ | hp
        · exfalso
          rw [hp, hq] at hr
          simp only [withMark, if_true, List.nil_append] at hr
          by_cases h1 : u.query = []
          · by_cases h2 : u.fragment = [] <;> simp [h1, h2] at hr
          · simp [h1] at hr
        · cases hpath : u.path with
          | nil => simp [hpath] at hp
          | cons x y =>
            rw [hpath] at hp hr
            simp at hp
            subst hp
            cases y with
            | cons z y =>
              simp at hr
              simp [hr.1]
            | nil =>
              exfalso
              simp only [List.cons_append, List.nil_append, List.cons.injEq, true_and] at hr
              unfold withMark at hr
              by_cases h3 : u.params = [] <;> by_cases h1 : u.query = [] <;>
                by_cases h2 : u.fragment = [] <;> simp [h1, h2, h3] at hr
      unfold netlocSplit
      split
      · rename_i r hr; exact absurd hr (hnp r)
      · rfl
  exact ⟨_, hscheme, hnet⟩

/-- Parsing what was written gives the components back. -/
theorem parse_unparse {ok : Str → Bool} {u : Url} (hu : Parsed ok u) (ha : AbsPath u) (hs : NoSemi u) :
    parse ok (unparse u) = .ok u := by
  obtain ⟨r, hscheme, hnet⟩ := parse_front hu.front ha
  unfold parse
  simp only [hscheme, hnet, hu.okNetloc]
  simp only [Bool.not_true, Bool.false_eq_true, if_false]
  -- fragment and query
  have hsp : '#' ∉ u.path ++ withMark ';' u.params ++ withMark '?' u.query := by
    simp only [List.mem_append, not_or]
    refine ⟨⟨hu.path.2, fun h => ?_⟩, fun h => ?_⟩
    · rcases hmk h with h | h
      · simp at h
      · exact hu.params.2.1 h
    · rcases hmk h with h | h
      · simp at h
      · exact hu.query h
  have hsq : '?' ∉ u.path ++ withMark ';' u.params := by
    simp only [List.mem_append, not_or]
    refine ⟨hu.path.1, fun h => ?_⟩
    rcases hmk h with h | h
    · simp at h
    · exact hu.params.1 h
  have cutMark : ∀ {c : Char} {a b : Str}, c ∉ a → ∃ o, Str.cut c (a ++ withMark c b) = (a, o) ∧ o.getD [] = b := by
    intro c a b h
    unfold withMark
    split
    · rename_i hb; subst hb; exact ⟨none, by rw [List.append_nil, Str.cut_of_not_mem h], rfl⟩
    · exact ⟨some b, Str.cut_append _ h, rfl⟩
  obtain ⟨o1, h1, h2⟩ := cutMark (b := u.fragment) hsp
  obtain ⟨o2, h3, h4⟩ := cutMark (b := u.query) hsq
  have e1 : Str.cut '#' (tail u) = (u.path ++ withMark ';' u.params ++ withMark '?' u.query, o1) := h1
  simp only [e1, h3, h2, h4]
  by_cases hp : usesParams.contains u.scheme = true
  · simp only [hp, if_true, splitParams_join hu.params.2.2 (hs hp)]
  · have hp' : usesParams.contains u.scheme = false := by simpa using hp
    have := hu.noParams hp'
    simp only [hp', Bool.false_eq_true, if_false]
    cases u
    simp_all [withMark]

/-- What parsing gives. -/
theorem parse_parsed {ok : Str → Bool} {s : Str} {u : Url} (h : parse ok s = .ok u) :
    Parsed ok u ∧ NoSemi u ∧ (u.netloc ≠ [] → AbsPath u) := by
  unfold parse at h
  have hc := clean_spec s
  generalize clean s = t at h hc
  have hss : ∀ a r, schemeSplit t = (a, r) → (∀ c ∈ r, c ∈ t) ∧ (a = [] ∨ ∃ c r, a = c :: r ∧ c.isAlpha = true ∧
      (c :: r).all schemeChar = true ∧ (c :: r).map Char.toLower = c :: r) := by
    intro a r h
    unfold schemeSplit at h
    split at h
    · rename_i c a' r' hcut
      split at h
      · rename_i hcond
        rw [Bool.and_eq_true] at hcond
        simp only [Prod.mk.injEq] at h
        obtain ⟨rfl, rfl⟩ := h
        obtain ⟨e, _⟩ := Str.cut_some hcut
        refine ⟨fun x hx => by rw [e]; simp [hx], .inr ⟨c.toLower, a'.map Char.toLower, rfl, (alpha_facts hcond.1).1, ?_, ?_⟩⟩
        · rw [List.all_eq_true]
          intro x hx
          rw [← List.map_cons] at hx
          obtain ⟨y, hy, rfl⟩ := List.mem_map.1 hx
          exact (schemeChar_facts (List.all_eq_true.1 hcond.2 y hy)).1
        · rw [← List.map_cons, List.map_map]
          apply List.map_congr_left
          intro x hx
          exact (schemeChar_facts (List.all_eq_true.1 hcond.2 x hx)).2.1
      · cases h; exact ⟨fun _ h => h, .inl rfl⟩
    · cases h; exact ⟨fun _ h => h, .inl rfl⟩
  obtain ⟨scheme, r, hsr⟩ : ∃ a r, schemeSplit t = (a, r) := ⟨_, _, rfl⟩
  obtain ⟨hr, hscheme⟩ := hss _ _ hsr
  obtain ⟨netloc, r2, hnr⟩ : ∃ a r', netlocSplit r = (a, r') := ⟨_, _, rfl⟩
  have hnl : (∀ c, c ∈ netloc ∨ c ∈ r2 → c ∈ r) ∧ (∀ c ∈ netloc, endsNetloc c = false) ∧
      (netloc ≠ [] → ∀ c y, r2 = c :: y → endsNetloc c = true) := by
    unfold netlocSplit at hnr
    split at hnr
    · rename_i y
      simp only [Prod.mk.injEq] at hnr
      obtain ⟨rfl, rfl⟩ := hnr
      obtain ⟨h1, h2, h3⟩ := takeWhile_dropWhile_spec (fun c => !endsNetloc c) y
      refine ⟨fun c hc => ?_, fun c hc => by simpa using h2 c hc, fun _ c z hz => by simpa using h3 c z hz⟩
      simp only [List.mem_cons]
      right; right
      rw [h1]; exact List.mem_append.2 hc
    · simp only [Prod.mk.injEq] at hnr
      obtain ⟨rfl, rfl⟩ := hnr
      exact ⟨by simp, by simp, by simp⟩
  simp only [hsr, hnr] at h
  cases hok : ok netloc with
  | false => simp [hok] at h
  | true =>
    simp only [hok, Bool.not_true, Bool.false_eq_true, if_false] at h
    obtain ⟨r3, f, hf⟩ : ∃ a o, Str.cut '#' r2 = (a, o) := ⟨_, _, rfl⟩
    obtain ⟨r4, q, hq⟩ : ∃ a o, Str.cut '?' r3 = (a, o) := ⟨_, _, rfl⟩
    have cutFacts : ∀ {c : Char} {s a : Str} {o : Option Str}, Str.cut c s = (a, o) →
        c ∉ a ∧ (∀ x, x ∈ a ∨ x ∈ o.getD [] → x ∈ s) ∧ (∀ x y, a = x :: y → ∃ z, s = x :: z) ∧
        (a = [] → s = [] ∨ ∃ y, s = c :: y) := by
      intro c s a o h
      cases o with
      | none =>
        obtain ⟨rfl, h2⟩ := Str.cut_none h
        exact ⟨h2, by simp, fun x y h => ⟨y, h⟩, fun h => .inl h⟩
      | some b =>
        obtain ⟨rfl, h2⟩ := Str.cut_some h
        refine ⟨h2, ?_, fun x y h => ⟨y ++ c :: b, by rw [h]; rfl⟩, fun h => .inr ⟨b, by rw [h]; rfl⟩⟩
        intro x hx
        simp at hx ⊢
        rcases hx with h | h <;> simp [h]
    obtain ⟨f1, f2, f3, f4⟩ := cutFacts hf
    obtain ⟨q1, q2, q3, q4⟩ := cutFacts hq
    simp only [hf, hq] at h
    have hsafe : ∀ x, x ∈ netloc ∨ x ∈ r2 → unsafeChar x = false := fun x hx => hc x (hr x (hnl.1 x hx))
    have habs : netloc ≠ [] → r4 = [] ∨ r4.head? = some '/' := by
      intro hn
      cases hr4 : r4 with
      | nil => exact .inl rfl
      | cons c y =>
        right
        obtain ⟨z, hz⟩ := q3 c y hr4
        obtain ⟨w, hw⟩ := f3 c z hz
        have := hnl.2.2 hn c w hw
        simp only [endsNetloc, Bool.or_eq_true, beq_iff_eq] at this
        rcases this with (rfl | rfl) | rfl
        · rfl
        · exact absurd (by rw [hr4]; simp) q1
        · exact absurd (by rw [hz]; simp) f1
    by_cases hp : usesParams.contains scheme = true
    · obtain ⟨path, params, hpp⟩ : ∃ a b, splitParams r4 = (a, b) := ⟨_, _, rfl⟩
      obtain ⟨s1, s2, s3, s4⟩ := splitParams_spec hpp
      simp only [hp, if_true, hpp, Except.ok.injEq] at h
      subst h
      refine ⟨⟨hscheme, hnl.2.1, hok, ⟨fun h => q1 (s1 _ (.inl h)), fun h => f1 (q2 _ (.inl (s1 _ (.inl h))))⟩,
        ⟨fun h => q1 (s1 _ (.inr h)), fun h => f1 (q2 _ (.inl (s1 _ (.inr h)))), s2⟩,
        fun h => f1 (q2 _ (.inr h)), fun h => by simp_all, ?_⟩, fun _ => s3, ?_⟩
      · intro c hc
        apply hsafe c
        rcases hc with h | h | h | h | h
        · exact .inl h
        · exact .inr (f2 _ (.inl (q2 _ (.inl (s1 _ (.inl h))))))
        · exact .inr (f2 _ (.inl (q2 _ (.inl (s1 _ (.inr h))))))
        · exact .inr (f2 _ (.inl (q2 _ (.inr h))))
        · exact .inr (f2 _ (.inr h))
      · intro hn
        exact s4 (habs hn)
    · have hp' : usesParams.contains scheme = false := by simpa using hp
      simp only [hp', Bool.false_eq_true, if_false, Except.ok.injEq] at h
      subst h
      refine ⟨⟨hscheme, hnl.2.1, hok, ⟨q1, fun h => f1 (q2 _ (.inl h))⟩, by simp,
        fun h => f1 (q2 _ (.inr h)), fun _ => rfl, ?_⟩, fun h => by dsimp only at h; rw [hp'] at h; simp at h, ?_⟩
      · intro c hc
        apply hsafe c
        rcases hc with h | h | h | h | h
        · exact .inl h
        · exact .inr (f2 _ (.inl (q2 _ (.inl h))))
        · simp at h
        · exact .inr (f2 _ (.inl (q2 _ (.inr h))))
        · exact .inr (f2 _ (.inr h))
      · intro hn
        rcases habs hn with h | h
        · exact .inl ⟨h, rfl⟩
        · exact .inr h


theorem parse_exists {ok : Str → Bool} {u : Url} (hu : Front u) (hok : ok u.netloc = true) (ha : AbsPath u) :
    ∃ w, parse ok (unparse u) = .ok w ∧ w.scheme = u.scheme ∧ w.netloc = u.netloc := by
  obtain ⟨r, h1, h2⟩ := parse_front hu ha
  unfold parse
  simp only [h1, h2, hok, Bool.not_true, Bool.false_eq_true, if_false]
  exact ⟨_, rfl, rfl, rfl⟩

theorem parse_chars {ok : Str → Bool} {s : Str} {u : Url} (h : parse ok s = .ok u) (hs : '#' ∉ s) : u.fragment = [] := by
  have hc : '#' ∉ clean s := fun hm => hs ((List.dropWhile_suffix _).subset (List.mem_filter.1 hm).1)
  unfold parse at h
  have h1 : '#' ∉ (schemeSplit (clean s)).2 := by
    unfold schemeSplit
    split
    · rename_i c a r hcut
      obtain ⟨e, _⟩ := Str.cut_some hcut
      split
      · intro hm; exact hc (by rw [e]; simp [hm])
      · exact hc
    · exact hc
  have h2 : '#' ∉ (netlocSplit (schemeSplit (clean s)).2).2 := by
    generalize (schemeSplit (clean s)).2 = r at h1
    unfold netlocSplit
    split
    · intro hm
      exact h1 (by simp only [List.mem_cons]; exact .inr (.inr ((List.dropWhile_suffix _).subset hm)))
    · exact h1
  dsimp only at h
  split at h
  · simp at h
  · rw [Str.cut_of_not_mem h2] at h
    simp only [Except.ok.injEq] at h
    rw [← h]
    rfl

theorem hash_not_mem_unparse {u : Url} (hsch : ∀ c ∈ u.scheme, schemeChar c = true) (hn : '#' ∉ u.netloc)
    (hp : '#' ∉ u.path) (hpa : '#' ∉ u.params) (hq : '#' ∉ u.query) (hf : u.fragment = []) (ha : AbsPath u) :
    '#' ∉ unparse u := by
  rw [unparse_abs ha]
  unfold tail
  rw [hf]
  have hs : '#' ∉ u.scheme := fun h => absurd (hsch _ h) (by decide)
  intro hm
  simp only [List.mem_append] at hm
  rcases hm with hm | hm | ((hm | hm) | hm) | hm
  · split at hm
    · simp at hm
    · simp at hm; exact hs hm
  · split at hm
    · simp at hm; exact hn hm
    · simp at hm
  · exact hp hm
  · rcases hmk hm with h | h
    · simp at h
    · exact hpa h
  · rcases hmk hm with h | h
    · simp at h
    · exact hq h
  · simp [withMark] at hm

theorem Parsed.scheme_chars {ok : Str → Bool} {u : Url} (h : Parsed ok u) : ∀ c ∈ u.scheme, schemeChar c = true := by
  rcases h.scheme with h | ⟨c, r, h, _, h2, _⟩
  · simp [h]
  · rw [h]; exact List.all_eq_true.1 h2

end Url
end Pyopenapi
