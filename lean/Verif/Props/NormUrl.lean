import Verif.Props.Url2

/-!
# C92: `normalize_url` — file paths become file urls, urls stay, anything else is refused
-/

namespace Pyopenapi
open Spec Url

/-- `urlparse` from its three first steps. -/
theorem parse_steps (ok : Str → Bool) {url sch r net t : Str} (h1 : schemeSplit (clean url) = (sch, r))
    (h2 : netlocSplit r = (net, t)) (hok : ok net = true) :
    ∃ u, parse ok url = .ok u ∧ u.scheme = sch ∧ u.netloc = net ∧
      u.path = (if usesParams.contains sch then splitParams (Str.cut '?' (Str.cut '#' t).1).1
        else ((Str.cut '?' (Str.cut '#' t).1).1, [])).1 := by
  unfold parse
  rw [h1]
  dsimp only
  rw [h2]
  dsimp only
  rw [hok]
  exact ⟨_, rfl, rfl, rfl, rfl⟩

theorem parse_refused (ok : Str → Bool) {url sch r net t : Str} (h1 : schemeSplit (clean url) = (sch, r))
    (h2 : netlocSplit r = (net, t)) (hok : ok net = false) : parse ok url = .error .valueError := by
  unfold parse
  rw [h1]
  dsimp only
  rw [h2]
  dsimp only
  rw [hok]
  rfl

theorem cut_head {c x : Char} {s : Str} (h : x ≠ c) : ∃ t, (Str.cut c (x :: s)).1 = x :: t := by
  unfold Str.cut
  rw [if_neg h]
  exact ⟨_, rfl⟩

theorem splitParams_head {c : Char} {s : Str} (h : c ≠ ';') : ∃ t, (splitParams (c :: s)).1 = c :: t := by
  unfold splitParams
  split
  · rename_i a b hcut
    obtain ⟨e, _⟩ := Str.cut_some hcut
    have := (upto_after '/' (c :: s)).1
    rw [e] at this
    dsimp only
    cases hu : Str.uptoLast '/' (c :: s) with
    | nil =>
      rw [hu] at this
      cases a with
      | nil =>
        simp at this
        exact absurd this.1.symm h
      | cons x a =>
        simp at this
        exact ⟨a, by simp [this.1]⟩
    | cons x y =>
      rw [hu] at this
      simp at this
      exact ⟨y ++ a, by simp [this.1]⟩
  · exact ⟨s, rfl⟩

theorem usesParams_nil : usesParams.contains ([] : Str) = true := by decide

theorem windows_ne {url : Str} (h : ∀ c r, url ≠ c :: ':' :: '\\' :: r) : isWindowsPath url = false := by
  unfold isWindowsPath
  split
  · exact absurd rfl (h _ _)
  · rfl

/-- **C92**: the empty url is returned. -/
theorem C92_empty (ok : Str → Bool) (path2url abspath : Str → R Str) : normalizeUrl ok path2url abspath [] = .ok [] := rfl

/-- **C92**: a Windows path (`C:\…`) becomes the file url of that path. -/
theorem C92_windows (ok : Str → Bool) (path2url abspath : Str → R Str) (drive : Char) (rest : Str)
    (hd : drive.isAlpha = true) :
    normalizeUrl ok path2url abspath (drive :: ':' :: '\\' :: rest) = path2url (drive :: ':' :: '\\' :: rest) := by
  unfold normalizeUrl
  rw [if_neg (by simp)]
  have : isWindowsPath (drive :: ':' :: '\\' :: rest) = true := hd
  rw [if_pos this]

/-- **C92**: a url `scheme:…` is returned as it is (not a letter followed by `:\`), or refused with ValueError when
its authority is malformed. -/
theorem C92_scheme (ok : Str → Bool) (path2url abspath : Str → R Str) (c : Char) (scheme rest : Str)
    (hc : c.isAlpha = true) (hs : ∀ x ∈ scheme, x.isAlpha = true ∨ x.isDigit = true ∨ x ∈ ['+', '-', '.'])
    (hw : scheme = [] → rest.head? ≠ some '\\') (hr : ∀ x ∈ rest, x ∉ ['\t', '\r', '\n']) :
    let url := c :: scheme ++ ':' :: rest
    (∃ authority tail, (rest = '/' :: '/' :: authority ++ tail ∧ (∀ x ∈ authority, x ∉ ['/', '?', '#']) ∧
        (∀ x, tail.head? = some x → x ∈ ['/', '?', '#']) ∨ authority = [] ∧ ∀ t, rest ≠ '/' :: '/' :: t) ∧
      normalizeUrl ok path2url abspath url = if ok authority then .ok url else .error .valueError) := by
  intro url
  have hs' : (c :: scheme).all schemeChar = true := by
    rw [List.all_eq_true]
    intro x hx
    unfold schemeChar
    rcases List.mem_cons.1 hx with rfl | hx
    · rw [hc]; rfl
    · rcases hs x hx with h | h | h
      · rw [h]; rfl
      · simp [h]
      · simp at h
        simp [or_assoc, h]
  have hwin : isWindowsPath url = false := by
    generalize hu : url = url'
    unfold isWindowsPath
    split
    · have e := hu
      have hcolon : ':' ∉ scheme := fun hm => (schemeChar_facts (List.all_eq_true.1 hs' ':' (List.mem_cons_of_mem _ hm))).2.2.1 rfl
      cases scheme with
      | nil =>
        simp [url] at e
        exact absurd (by rw [e.2]; rfl) (hw rfl)
      | cons x y =>
        simp [url] at e
        exact absurd (by rw [e.2.1]; simp) hcolon
    · rfl
  have hclean : clean url = url := by
    refine clean_id ?_ ?_
    · intro x hx
      rcases List.mem_append.1 hx with h | h
      · exact (schemeChar_facts (List.all_eq_true.1 hs' x h)).2.2.2
      · rcases List.mem_cons.1 h with rfl | h
        · decide
        · have := hr x h
          simp at this
          simp [unsafeChar, this]
    · intro x r e
      simp only [url, List.cons_append, List.cons.injEq] at e
      rw [← e.1]
      exact (alpha_facts hc).2
  have hsplit : schemeSplit (clean url) = ((c :: scheme).map Char.toLower, rest) := by
    rw [hclean]
    unfold schemeSplit
    have hn : ':' ∉ c :: scheme := by
      intro hm
      exact (schemeChar_facts (List.all_eq_true.1 hs' _ hm)).2.2.1 rfl
    rw [Str.cut_append _ hn]
    simp only [hc, hs', Bool.and_self, if_true]
  have hne : url ≠ [] := by simp [url]
  have fin : ∀ {a t : Str}, netlocSplit rest = (a, t) →
      normalizeUrl ok path2url abspath url = if ok a then .ok url else .error .valueError := by
    intro a t hn
    cases hok : ok a with
    | true =>
      obtain ⟨u, hu, hsch, _⟩ := parse_steps ok hsplit hn hok
      exact normalizeUrl_absolute hwin hu (by rw [hsch]; simp)
    | false =>
      unfold normalizeUrl
      rw [if_neg hne, hwin, parse_refused ok hsplit hn hok]
      rfl
  by_cases hsl : ∃ t, rest = '/' :: '/' :: t
  · obtain ⟨t, ht⟩ := hsl
    refine ⟨t.takeWhile (fun c => !endsNetloc c), t.dropWhile (fun c => !endsNetloc c), Or.inl ⟨?_, ?_, ?_⟩, ?_⟩
    · rw [ht, List.cons_append, List.cons_append, List.takeWhile_append_dropWhile]
    · intro x hx
      have := List.all_eq_true.1 (List.all_takeWhile (p := fun c => !endsNetloc c) (l := t)) x hx
      simpa [endsNetloc, or_assoc, not_or, and_assoc] using this
    · intro x hx
      have : endsNetloc x = true := by
        have h := List.head?_dropWhile_not (fun c => !endsNetloc c) t
        rw [hx] at h
        simpa using h
      simpa [endsNetloc, or_assoc] using this
    · exact fin (t := t.dropWhile (fun c => !endsNetloc c)) (by rw [ht]; rfl)
  · refine ⟨[], [], Or.inr ⟨rfl, fun t e => hsl ⟨t, e⟩⟩, ?_⟩
    refine fin (t := rest) ?_
    unfold netlocSplit
    split
    · exact absurd ⟨_, rfl⟩ hsl
    · rfl

/-- **C92**: a text that is no url — it starts with none of `:`, `?`, `#`, `;`, `//` or white space, and has no scheme
(no `:`, or its first character is no letter) — is a file path: the result is the file url of its absolute path.  Three
slashes start a path as well. -/
theorem C92_file (ok : Str → Bool) (path2url abspath : Str → R Str) (c : Char) (rest : Str) (h0 : ok [] = true)
    (hc : c ∉ ['?', '#', ';'] ∧ 32 < c.toNat) (hs : c.isAlpha = true → ':' ∉ rest)
    (hd : c = '/' → rest.head? = some '/' → rest.tail.head? = some '/')
    (hr : ∀ x ∈ rest, x ∉ ['\t', '\r', '\n']) :
    normalizeUrl ok path2url abspath (c :: rest) = abspath (c :: rest) >>= path2url := by
  have hwin : isWindowsPath (c :: rest) = false := by
    unfold isWindowsPath
    split
    · rename_i e
      simp only [List.cons.injEq] at e
      cases ha : c.isAlpha with
      | true => exact absurd (by rw [e.2]; simp) (hs ha)
      | false => rw [← e.1]; exact ha
    · rfl
  have hclean : clean (c :: rest) = c :: rest := by
    refine clean_id ?_ ?_
    · intro x hx
      rcases List.mem_cons.1 hx with rfl | h
      · cases hu : unsafeChar x with
        | false => rfl
        | true =>
          simp only [unsafeChar, Bool.or_eq_true, beq_iff_eq] at hu
          have := hc.2
          rcases hu with (rfl | rfl) | rfl <;> exact absurd this (by decide)
      · have := hr x h
        simp at this
        simp [unsafeChar, this]
    · intro x r e
      simp only [List.cons.injEq] at e
      rw [← e.1]
      omega
  have hsplit : schemeSplit (clean (c :: rest)) = ([], c :: rest) := by
    rw [hclean]
    unfold schemeSplit
    split
    · rename_i x a r hcut
      obtain ⟨e, _⟩ := Str.cut_some hcut
      simp only [List.cons_append, List.cons.injEq] at e
      cases ha : c.isAlpha with
      | true => exact absurd (by rw [e.2]; simp) (hs ha)
      | false => rw [← e.1, ha]; rfl
    · rfl
  have hnet : ∃ d t, netlocSplit (c :: rest) = ([], d :: t) ∧ d ∉ ['?', '#', ';'] := by
    by_cases hsl : c = '/' ∧ rest.head? = some '/'
    · obtain ⟨rfl, h2⟩ := hsl
      have h3 := hd rfl h2
      cases rest with
      | nil => simp at h2
      | cons y z =>
        simp only [List.head?_cons, Option.some.injEq] at h2
        subst h2
        cases z with
        | nil => simp at h3
        | cons w v =>
          simp only [List.tail_cons, List.head?_cons, Option.some.injEq] at h3
          subst h3
          exact ⟨'/', v, rfl, by decide⟩
    · refine ⟨c, rest, ?_, hc.1⟩
      unfold netlocSplit
      split
      · rename_i e
        simp only [List.cons.injEq] at e
        exact absurd ⟨e.1, by rw [e.2]; rfl⟩ hsl
      · rfl
  obtain ⟨d, t, hnet, hdm⟩ := hnet
  obtain ⟨u, hu, hsch, hnl, hp⟩ := parse_steps ok hsplit hnet h0
  simp at hdm
  have hpath : u.path ≠ [] := by
    obtain ⟨t1, e1⟩ := cut_head (c := '#') (x := d) (s := t) (hdm.2.1)
    obtain ⟨t2, e2⟩ := cut_head (c := '?') (x := d) (s := t1) (hdm.1)
    obtain ⟨t3, e3⟩ := splitParams_head (c := d) (s := t2) (hdm.2.2)
    rw [hp, usesParams_nil, if_pos rfl, e1, e2, e3]
    simp
  unfold normalizeUrl
  rw [if_neg (by simp), hwin, hu]
  show (if u.scheme = [] then _ else _) = _
  rw [if_pos hsch]
  show (if u.netloc = [] ∧ u.path ≠ [] then _ else _) = _
  rw [if_pos ⟨hnl, hpath⟩]

/-- **C92**: a text that starts with a query, a fragment or an authority without a scheme is refused. -/
theorem C92_refused (ok : Str → Bool) (path2url abspath : Str → R Str) (url rest : Str)
    (h : url = '?' :: rest ∨ url = '#' :: rest ∨ url = '/' :: '/' :: rest ∧ rest.head? ≠ some '/')
    (hr : ∀ x ∈ rest, x ∉ ['\t', '\r', '\n']) :
    normalizeUrl ok path2url abspath url = .error .valueError := by
  have hends : ∀ c r, url = c :: r → endsNetloc c = true := by
    intro c r e
    rcases h with h | h | h
    · rw [h] at e; cases e; decide
    · rw [h] at e; cases e; decide
    · rw [h.1] at e; cases e; decide
  have hne : url ≠ [] := by rcases h with h | h | h <;> first | (rw [h]; simp; done) | (rw [h.1]; simp)
  have hwin : isWindowsPath url = false := by
    unfold isWindowsPath
    split
    · rename_i c _
      have := hends c _ rfl
      cases ha : c.isAlpha with
      | false => rfl
      | true =>
        simp only [endsNetloc, Bool.or_eq_true, beq_iff_eq] at this
        rcases this with (rfl | rfl) | rfl <;> exact absurd ha (by decide)
    · rfl
  have hclean : clean url = url := by
    refine clean_id ?_ ?_
    · intro x hx
      have hrest : x ∈ rest → unsafeChar x = false := fun hm => by
        have := hr x hm
        simp at this
        simp [unsafeChar, this]
      rcases h with h | h | h
      · rw [h] at hx
        rcases List.mem_cons.1 hx with rfl | hm
        · decide
        · exact hrest hm
      · rw [h] at hx
        rcases List.mem_cons.1 hx with rfl | hm
        · decide
        · exact hrest hm
      · rw [h.1] at hx
        rcases List.mem_cons.1 hx with rfl | hm
        · decide
        · rcases List.mem_cons.1 hm with rfl | hm
          · decide
          · exact hrest hm
    · intro x r e
      have := hends x r e
      simp only [endsNetloc, Bool.or_eq_true, beq_iff_eq] at this
      rcases this with (rfl | rfl) | rfl <;> decide
  have hsplit : schemeSplit (clean url) = ([], url) := by
    rw [hclean]
    exact schemeSplit_other hends
  have fin : ∀ {net t : Str}, netlocSplit url = (net, t) → (net = [] → t = [] ∨ ∃ t', t = '?' :: t' ∨ t = '#' :: t') →
      normalizeUrl ok path2url abspath url = .error .valueError := by
    intro net t hn hnet
    unfold normalizeUrl
    rw [if_neg hne, hwin]
    cases hok : ok net with
    | false => rw [parse_refused ok hsplit hn hok]; rfl
    | true =>
      obtain ⟨u, hu, hsch, hnl, hp⟩ := parse_steps ok hsplit hn hok
      rw [hu]
      show (if u.scheme = [] then _ else _) = _
      rw [if_pos hsch]
      show (if u.netloc = [] ∧ u.path ≠ [] then _ else _) = _
      rw [if_neg]
      rintro ⟨e1, e2⟩
      rw [hnl] at e1
      refine e2 ?_
      rw [hp, usesParams_nil, if_pos rfl]
      rcases hnet e1 with h | ⟨t', h | h⟩ <;> rw [h] <;> rfl
  rcases h with h | h | ⟨h, hh⟩
  · exact fin (net := []) (t := url) (by rw [h]; rfl) (fun _ => Or.inr ⟨rest, Or.inl h⟩)
  · exact fin (net := []) (t := url) (by rw [h]; rfl) (fun _ => Or.inr ⟨rest, Or.inr h⟩)
  · refine fin (net := rest.takeWhile (fun c => !endsNetloc c)) (t := rest.dropWhile (fun c => !endsNetloc c))
      (by rw [h]; rfl) (fun e => ?_)
    cases rest with
    | nil => exact Or.inl rfl
    | cons x y =>
      have hx : endsNetloc x = true := by
        cases he : endsNetloc x with
        | true => rfl
        | false => simp [he] at e
      have : (x :: y).dropWhile (fun c => !endsNetloc c) = x :: y := by simp [hx]
      rw [this]
      refine Or.inr ⟨y, ?_⟩
      simp only [endsNetloc, Bool.or_eq_true, beq_iff_eq] at hx
      rcases hx with (rfl | rfl) | rfl
      · simp at hh
      · exact Or.inl rfl
      · exact Or.inr rfl

/-- A file url written by `path2url` and a path made absolute. -/
def fileUrl (p : Str) : R Str := .ok (s% "file://" ++ p)

/-- Witness: `path2url`, `abspath` of a process working in `/w`. -/
def inW (p : Str) : R Str := .ok (if p.head? = some '/' then p else s% "/w/" ++ p)

example : normalizeUrl (fun _ => true) fileUrl inW (s% "d/swagger.json") = .ok (s% "file:///w/d/swagger.json") := by
  rw [show s% "d/swagger.json" = 'd' :: s% "/swagger.json" from rfl]
  rw [C92_file _ _ _ _ _ rfl (by decide) (by decide) (by decide) (by decide)]
  rfl

example : normalizeUrl (fun _ => true) fileUrl inW (s% "http://h/swagger.json") = .ok (s% "http://h/swagger.json") := by
  obtain ⟨a, t, _, h⟩ := C92_scheme (fun _ => true) fileUrl inW 'h' (s% "ttp") (s% "//h/swagger.json") (by decide) (by decide)
    (by decide) (by decide)
  exact h

example : normalizeUrl (fun _ => true) fileUrl inW (s% "//h/swagger.json") = .error .valueError :=
  C92_refused _ _ _ _ (s% "h/swagger.json") (Or.inr (Or.inr ⟨rfl, by decide⟩)) (by decide)

/-- **C92** (negation): without a scheme a path that starts with a parameter is refused although it names a file. -/
theorem C92_semicolon_violation : normalizeUrl (fun _ => true) fileUrl inW (s% ";a.json") = .error .valueError := by
  decide +kernel

end Pyopenapi
