import Verif.Props.Url

/-!
# C10-C13: splitting references, joining and patching urls
-/

namespace Pyopenapi
open Spec Url

/-! ### C10 -/

theorem clean_hash (s r : Str) : clean (s ++ '#' :: r) = clean s ++ '#' :: r.filter (fun c => !unsafeChar c) := by
  unfold clean
  have : (s ++ '#' :: r).dropWhile (fun c => decide (c.toNat ≤ 32)) =
      s.dropWhile (fun c => decide (c.toNat ≤ 32)) ++ '#' :: r := by
    induction s with
    | nil => simp
    | cons x s ih =>
      rw [List.cons_append, List.dropWhile_cons, List.dropWhile_cons]
      split
      · exact ih
      · rfl
  rw [this, List.filter_append, List.filter_cons, if_pos (by decide)]

theorem schemeSplit_hash {s : Str} (hs : '#' ∉ s) (r : Str) :
    schemeSplit (s ++ '#' :: r) = ((schemeSplit s).1, (schemeSplit s).2 ++ '#' :: r) := by
  obtain ⟨a, b, hc⟩ : ∃ a b, Str.cut ':' s = (a, b) := ⟨_, _, rfl⟩
  cases b with
  | some b =>
    obtain ⟨e, hn⟩ := Str.cut_some hc
    have hc' : Str.cut ':' (s ++ '#' :: r) = (a, some (b ++ '#' :: r)) := by
      rw [e, List.append_assoc]; exact Str.cut_append _ hn
    unfold schemeSplit
    rw [hc, hc']
    cases a with
    | nil => rfl
    | cons c a =>
      dsimp only
      split <;> rfl
  | none =>
    obtain ⟨rfl, hn⟩ := Str.cut_none hc
    have h1 : schemeSplit a = ([], a) := by unfold schemeSplit; rw [hc]; cases a <;> rfl
    rw [h1]
    obtain ⟨a', b', hc'⟩ : ∃ a' b, Str.cut ':' (a ++ '#' :: r) = (a', b) := ⟨_, _, rfl⟩
    unfold schemeSplit
    rw [hc']
    cases b' with
    | none => cases a' <;> rfl
    | some b' =>
      cases a' with
      | nil => rfl
      | cons c t =>
        dsimp only
        rw [if_neg]
        intro h
        rw [Bool.and_eq_true] at h
        obtain ⟨e, hn'⟩ := Str.cut_some hc'
        have : '#' ∈ c :: t := by
          rcases List.append_eq_append_iff.1 e with ⟨m, e1, e2⟩ | ⟨m, e1, e2⟩
          · cases m with
            | nil => simp at e2
            | cons x m =>
              simp only [List.cons_append, List.cons.injEq] at e2
              rw [e1, ← e2.1]; simp
          · cases m with
            | nil => simp at e2
            | cons x m =>
              simp only [List.cons_append, List.cons.injEq] at e2
              exact absurd (by rw [e1, ← e2.1]; simp) hn
        have := List.all_eq_true.1 h.2 _ this
        simp [schemeChar] at this

theorem netlocSplit_hash {s : Str} (hs : '#' ∉ s) (r : Str) :
    netlocSplit (s ++ '#' :: r) = ((netlocSplit s).1, (netlocSplit s).2 ++ '#' :: r) ∧ '#' ∉ (netlocSplit s).2 := by
  have key : ∀ t : Str, (t ++ '#' :: r).takeWhile (fun c => !endsNetloc c) = t.takeWhile (fun c => !endsNetloc c) ∧
      (t ++ '#' :: r).dropWhile (fun c => !endsNetloc c) = t.dropWhile (fun c => !endsNetloc c) ++ '#' :: r := by
    intro t
    induction t with
    | nil => simp [endsNetloc]
    | cons x t ih =>
      simp only [List.cons_append, List.takeWhile_cons, List.dropWhile_cons]
      split
      · exact ⟨by rw [ih.1], ih.2⟩
      · exact ⟨rfl, rfl⟩
  match s, hs with
  | '/' :: '/' :: t, hs =>
    have := key t
    refine ⟨?_, fun h => hs ?_⟩
    · simp only [List.cons_append, netlocSplit, this.1, this.2]
    · simp only [netlocSplit] at h
      simp only [List.mem_cons]
      exact .inr (.inr ((List.dropWhile_suffix _).subset h))
  | [], hs => exact ⟨rfl, by simp [netlocSplit]⟩
  | [x], hs =>
    refine ⟨?_, by simpa [netlocSplit] using hs⟩
    have h1 : ∀ t : Str, '/' ∉ t.head? → netlocSplit (x :: t) = ([], x :: t) := by
      intro t ht
      unfold netlocSplit
      split
      · rename_i heq
        simp only [List.cons.injEq] at heq
        rw [heq.2] at ht
        simp at ht
      · rfl
    rw [List.cons_append, List.nil_append, h1 _ (by simp), h1 _ (by simp)]
    rfl
  | x :: y :: t, hs =>
    by_cases hx : x = '/' ∧ y = '/'
    · obtain ⟨rfl, rfl⟩ := hx
      have := key t
      refine ⟨?_, fun h => hs ?_⟩
      · simp only [List.cons_append, netlocSplit, this.1, this.2]
      · simp only [netlocSplit] at h
        simp only [List.mem_cons]
        exact .inr (.inr ((List.dropWhile_suffix _).subset h))
    · have h1 : ∀ t, netlocSplit (x :: y :: t) = ([], x :: y :: t) := by
        intro t
        unfold netlocSplit
        split
        · rename_i heq
          simp only [List.cons.injEq] at heq
          exact absurd ⟨heq.1, heq.2.1⟩ hx
        · rfl
      rw [List.cons_append, List.cons_append, h1, h1]
      exact ⟨rfl, hs⟩

/-- A fragment does not touch the rest of a url. -/
theorem parse_hash (ok : Str → Bool) {s : Str} {u : Url} (hs : '#' ∉ s) (h : parse ok s = .ok u) (r : Str)
    (hr : ∀ c ∈ r, unsafeChar c = false) : parse ok (s ++ '#' :: r) = .ok { u with fragment := r } := by
  have hr' : r.filter (fun c => !unsafeChar c) = r := List.filter_eq_self.2 (fun c hc => by simp [hr c hc])
  have hc : '#' ∉ clean s := fun hm => hs ((List.dropWhile_suffix _).subset (List.mem_filter.1 hm).1)
  unfold parse at h ⊢
  rw [clean_hash, hr', schemeSplit_hash hc]
  have h1 : '#' ∉ (schemeSplit (clean s)).2 := by
    unfold schemeSplit
    split
    · rename_i c a r hcut
      obtain ⟨e, _⟩ := Str.cut_some hcut
      split
      · intro hm; exact hc (by rw [e]; simp [hm])
      · exact hc
    · exact hc
  obtain ⟨h2, h3⟩ := netlocSplit_hash h1 r
  dsimp only at h ⊢
  rw [h2]
  dsimp only
  split at h
  · simp at h
  · rename_i hok
    rw [if_neg hok]
    rw [Str.cut_of_not_mem h3] at h
    rw [Str.cut_append _ h3]
    dsimp only at h ⊢
    cases h
    rfl

theorem isWindowsPath_empty : isWindowsPath [] = false := rfl

theorem normalizeUrl_absolute {ok : Str → Bool} {p2u ab : Str → R Str} {url : Str} {u : Url}
    (hw : isWindowsPath url = false) (h : parse ok url = .ok u) (hs : u.scheme ≠ []) :
    normalizeUrl ok p2u ab url = .ok url := by
  unfold normalizeUrl
  rw [hw]
  split
  · rfl
  · simp only [Bool.false_eq_true, if_false, h, bind, Except.bind, hs]

/-- **C10**: a document url (with a scheme, no fragment, written the way `urlunparse` writes it) and a JSON
pointer are separated again, whatever the pointer; without pointer the fragment is empty. -/
theorem C10_split (ok : Str → Bool) (p2u ab : Str → R Str) (url jp : Str) (u : Url)
    (hf : '#' ∉ url) (hw : isWindowsPath url = false) (h : parse ok url = .ok u) (hs : u.scheme ≠ [])
    (hcanon : unparse u = url) (hjp : ∀ c ∈ jp, unsafeChar c = false) :
    jrSplit ok p2u ab (url ++ '#' :: jp) = .ok (url, '#' :: jp) ∧
    jrSplit ok p2u ab url = .ok (url, ['#']) := by
  have hfr : u.fragment = [] := parse_chars h hf
  have e : ({ u with fragment := [] } : Url) = u := by cases u; simp_all
  constructor
  · unfold jrSplit
    rw [parse_hash ok hf h jp hjp]
    simp only [bind, Except.bind]
    rw [e, hcanon, normalizeUrl_absolute hw h hs]
  · unfold jrSplit
    rw [h]
    simp only [bind, Except.bind]
    rw [e, hcanon, normalizeUrl_absolute hw h hs, hfr]

/-- **C10**: a pure fragment has the empty url. -/
theorem C10_fragment (ok : Str → Bool) (p2u ab : Str → R Str) (jp : Str) (h0 : ok [] = true)
    (hjp : ∀ c ∈ jp, unsafeChar c = false) :
    jrSplit ok p2u ab ('#' :: jp) = .ok ([], '#' :: jp) := by
  have h : parse ok [] = .ok ⟨[], [], [], [], [], []⟩ := by
    have : parse ok [] = if !ok [] then .error .valueError else .ok ⟨[], [], [], [], [], []⟩ := by
      unfold parse; rfl
    rw [this, h0]; rfl
  unfold jrSplit
  rw [show '#' :: jp = [] ++ '#' :: jp from rfl, parse_hash ok (by simp) h jp hjp]
  rfl

/-- Urls that `urlunparse` writes back unchanged: those it wrote from parsed components with an absolute path
(for instance every `scheme://authority/path` in lower case). -/
theorem canonical {ok : Str → Bool} {u : Url} (hu : Parsed ok u) (ha : AbsPath u) (hs : NoSemi u) :
    ∃ v, parse ok (unparse u) = .ok v ∧ unparse v = unparse u := ⟨u, parse_unparse hu ha hs, rfl⟩

example : jrSplit (fun _ => true) (fun _ => .error .valueError) (fun _ => .error .valueError)
    (s% "http://h/a.json?x=1#/definitions/a~1b#c") = .ok (s% "http://h/a.json?x=1", s% "#/definitions/a~1b#c") := by
  decide +kernel

example : ∃ u, parse (fun _ => true) (s% "http://h/a.json?x=1") = .ok u ∧ u.scheme ≠ [] ∧
    unparse u = s% "http://h/a.json?x=1" ∧ isWindowsPath (s% "http://h/a.json?x=1") = false :=
  ⟨⟨s% "http", s% "h", s% "/a.json", [], s% "x=1", []⟩, by decide +kernel⟩

/-- The side condition on how the url is written cannot be dropped: other urls come back rewritten. -/
theorem C10_rewritten_violation :
    jrSplit (fun _ => true) (fun _ => .error .valueError) (fun _ => .error .valueError) (s% "HTTP://h/a?#/x") =
      .ok (s% "http://h/a", s% "#/x") := by decide +kernel

/-! ### C11 -/

/-- **C11**: one slash between the path of the url and the name: for a path `a` or `a/` (where `a` does not end
in a slash) and a name `b` or `/b` (where `b` does not start with one), the path of the result is `a/b`. -/
theorem C11_text (ok : Str → Bool) (url name a b : Str) (u : Url) (h : parse ok url = .ok u)
    (hp : u.path = a ∨ u.path = a ++ ['/']) (ha : a.getLast? ≠ some '/')
    (hn : name = b ∨ name = '/' :: b) (hb : b.head? ≠ some '/') :
    urlJoin ok url name = .ok (unparse { u with path := a ++ '/' :: b }) := by
  unfold urlJoin
  rw [h]
  simp only [bind, Except.bind]
  congr 3
  rcases hp with hp | hp <;> rcases hn with hn | hn <;> rw [hp, hn]
  · rw [if_neg ha, if_neg hb]
  · rw [if_neg ha, if_pos (by simp)]
  · rw [if_pos (by simp), if_neg hb]; simp
  · rw [if_pos (by simp), if_pos (by simp)]; simp

theorem parsed_path' {ok : Str → Bool} {u : Url} (hu : Parsed ok u) {p : Str}
    (hp : ∀ c ∈ p, c ∈ u.path ∨ (c ≠ '?' ∧ c ≠ '#' ∧ unsafeChar c = false)) : Parsed ok { u with path := p } where
  scheme := hu.scheme
  netloc := hu.netloc
  okNetloc := hu.okNetloc
  path := ⟨fun h => (hp _ h).elim hu.path.1 (fun h => h.1 rfl), fun h => (hp _ h).elim hu.path.2 (fun h => h.2.1 rfl)⟩
  params := hu.params
  query := hu.query
  noParams := hu.noParams
  safe c hc := by
    rcases hc with h | h | h | h | h
    · exact hu.safe c (.inl h)
    · rcases hp _ h with h | h
      · exact hu.safe c (.inr (.inl h))
      · exact h.2.2
    · exact hu.safe c (.inr (.inr (.inl h)))
    · exact hu.safe c (.inr (.inr (.inr (.inl h))))
    · exact hu.safe c (.inr (.inr (.inr (.inr h))))

/-- **C11**: and the result still has the scheme, authority, parameters, query and fragment of the url, for a
name that is a plain path (no `?`, `#` or `;`). -/
theorem C11_join (ok : Str → Bool) (url name a b : Str) (u : Url) (h : parse ok url = .ok u)
    (habs : u.path = [] ∨ u.path.head? = some '/')
    (hp : u.path = a ∨ u.path = a ++ ['/']) (ha : a.getLast? ≠ some '/')
    (hn : name = b ∨ name = '/' :: b) (hb : b.head? ≠ some '/')
    (hplain : ∀ c ∈ b, c ≠ '?' ∧ c ≠ '#' ∧ c ≠ ';' ∧ unsafeChar c = false) :
    ∃ t, urlJoin ok url name = .ok t ∧ parse ok t = .ok { u with path := a ++ '/' :: b } := by
  refine ⟨_, C11_text ok url name a b u h hp ha hn hb, ?_⟩
  obtain ⟨hu, _, _⟩ := parse_parsed h
  have hmem : ∀ c ∈ a, c ∈ u.path := by
    intro c hc
    rcases hp with hp | hp <;> rw [hp] <;> simp [hc]
  apply parse_unparse
  · refine parsed_path' hu (fun c hc => ?_)
    simp only [List.mem_append, List.mem_cons] at hc
    rcases hc with h | rfl | h
    · exact .inl (hmem c h)
    · exact .inr (by decide)
    · exact .inr ⟨(hplain c h).1, (hplain c h).2.1, (hplain c h).2.2.2⟩
  · right
    dsimp only
    cases a with
    | nil => rfl
    | cons x a =>
      rcases hp with hp | hp <;> rw [hp] at habs <;> simpa using habs
  · intro _
    dsimp only
    rw [afterLast_append]
    intro hm
    have : ';' ∈ b := by
      rw [← (upto_after '/' b).1]; exact List.mem_append_right _ hm
    exact (hplain _ this).2.2.1 rfl

example : urlJoin (fun _ => true) (s% "http://h/a/?x=1") (s% "/b/c.json") = .ok (s% "http://h/a/b/c.json?x=1") := by
  decide +kernel

/-- **C11** fails beyond one slash on each side: they are kept. -/
theorem C11_slashes_violation : urlJoin (fun _ => true) (s% "http://h/a//") (s% "b") = .ok (s% "http://h/a//b") ∧
    urlJoin (fun _ => true) (s% "http://h/a") (s% "//b") = .ok (s% "http://h/a//b") := by decide +kernel

/-! ### C12 -/

theorem dirname_snoc {d last : Str} (hd : d ≠ []) (hd2 : d.getLast? ≠ some '/') (hl : '/' ∉ last) :
    dirname (d ++ '/' :: last) = d := by
  have hu : Str.uptoLast '/' (d ++ '/' :: last) = d ++ ['/'] := by
    have := (after_unique (c := '/') (a := d ++ ['/']) hl (.inr ⟨d, rfl⟩)).1
    simpa using this
  unfold dirname
  simp only [hu]
  obtain ⟨e, x, rfl⟩ : ∃ e x, d = e ++ [x] := by
    rcases List.eq_nil_or_concat d with h | ⟨e, x, h⟩
    · exact absurd h hd
    · exact ⟨e, x, by rw [h]; simp⟩
  have hx : x ≠ '/' := by simpa using hd2
  rw [if_neg (by simp [hx])]
  simp [hx]

theorem dirname_root {last : Str} (hl : '/' ∉ last) : dirname ('/' :: last) = ['/'] := by
  have hu : Str.uptoLast '/' ('/' :: last) = ['/'] :=
    (after_unique (c := '/') (a := ['/']) hl (.inr ⟨[], rfl⟩)).1
  unfold dirname
  simp only [hu]
  rfl

/-- **C12**: when the path does not end in `json` or `yaml`, the url is returned as it is. -/
theorem C12_folder (ok : Str → Bool) (url : Str) (u : Url) (h : parse ok url = .ok u)
    (hj : ¬ ∃ t, u.path = t ++ s% "json") (hy : ¬ ∃ t, u.path = t ++ s% "yaml") : urlDirname ok url = .ok url := by
  unfold urlDirname
  rw [h]
  simp only [bind, Except.bind]
  rw [if_neg]
  rw [Bool.or_eq_true, Str.endsWith_iff, Str.endsWith_iff]
  rintro (h | h)
  · exact hj h
  · exact hy h

/-- **C12**: when the path does, exactly the last segment is removed (the root stays `/`), and everything else
of the url is kept.  Partial: the folder must not end in a slash (they are all removed), nor may its last
segment have a `;`. -/
theorem C12_file_partial (ok : Str → Bool) (url d last : Str) (u : Url) (h : parse ok url = .ok u)
    (hpath : u.path = d ++ '/' :: last) (hl : '/' ∉ last) (hd : d.getLast? ≠ some '/') (hd2 : d = [] ∨ d.head? = some '/')
    (hj : (∃ t, u.path = t ++ s% "json") ∨ (∃ t, u.path = t ++ s% "yaml")) (hsemi : ';' ∉ Str.afterLast '/' d) :
    ∃ t, urlDirname ok url = .ok t ∧ parse ok t = .ok { u with path := if d = [] then ['/'] else d } := by
  have hdir : dirname u.path = if d = [] then ['/'] else d := by
    rw [hpath]
    split
    · rename_i h; subst h; exact dirname_root hl
    · rename_i h; exact dirname_snoc h hd hl
  refine ⟨unparse { u with path := if d = [] then ['/'] else d }, ?_, ?_⟩
  · unfold urlDirname
    rw [h]
    simp only [bind, Except.bind]
    rw [if_pos (by rw [Bool.or_eq_true, Str.endsWith_iff, Str.endsWith_iff]; exact hj), hdir]
  · obtain ⟨hu, _, _⟩ := parse_parsed h
    apply parse_unparse
    · refine parsed_path' hu (fun c hc => ?_)
      left
      rw [hpath]
      split at hc
      · simp at hc; simp [hc]
      · simp [hc]
    · right
      dsimp only
      split
      · rfl
      · rename_i h; exact hd2.resolve_left h
    · intro _
      dsimp only
      split
      · decide
      · exact hsemi

example : urlDirname (fun _ => true) (s% "http://h/a/b/swagger.json?x=1") = .ok (s% "http://h/a/b?x=1") := by
  decide +kernel

example : urlDirname (fun _ => true) (s% "http://h/a/b/") = .ok (s% "http://h/a/b/") := by decide +kernel

/-- The name of a folder may look like a file, and a `.yml` file is taken for a folder. -/
theorem C12_extension_violation : urlDirname (fun _ => true) (s% "http://h/a/my-json") = .ok (s% "http://h/a") ∧
    urlDirname (fun _ => true) (s% "http://h/a/b.yml") = .ok (s% "http://h/a/b.yml") := by decide +kernel

/-! ### C13 -/

/-- The extension `patch_path` chooses. -/
def chosenExt (basePath path : Str) : Str :=
  if splitextExt basePath ∈ validFileExt then splitextExt basePath
  else if splitextExt path ∈ validFileExt then splitextExt path
  else s% ".json"

theorem patchPath_eq (basePath path : Str) :
    patchPath basePath path =
      if Str.endsWith path (chosenExt basePath path) then path else path ++ chosenExt basePath path := by
  have hne : ∀ e : Str, e ∈ validFileExt → e ≠ [] := by
    intro e he; simp [validFileExt] at he; rcases he with rfl | rfl | rfl <;> simp
  unfold patchPath chosenExt
  simp only [List.contains_iff_mem]
  by_cases h1 : splitextExt basePath ∈ validFileExt
  · simp only [if_pos h1, if_neg (hne _ h1)]
  · simp only [if_neg h1, if_true]
    by_cases h2 : splitextExt path ∈ validFileExt
    · simp only [if_pos h2, if_neg (hne _ h2)]
    · simp only [if_neg h2, if_true]

theorem chosenExt_valid (basePath path : Str) : chosenExt basePath path ∈ validFileExt := by
  unfold chosenExt
  split
  · assumption
  · split
    · assumption
    · decide

theorem splitextExt_suffix (p : Str) : ∃ t, p = t ++ splitextExt p := by
  obtain ⟨h1, _, _⟩ := upto_after '/' p
  unfold splitextExt
  dsimp only
  split
  · rename_i hdot
    split
    · exact ⟨p, by simp⟩
    · obtain ⟨g1, g2, g3⟩ := upto_after '.' (Str.afterLast '/' p)
      rcases g3 with g3 | ⟨t, g3⟩
      · rw [g3, List.nil_append] at g1
        rw [g1] at g2
        simp at hdot
        exact absurd hdot g2
      · refine ⟨Str.uptoLast '/' p ++ t, ?_⟩
        rw [List.append_assoc, show t ++ '.' :: Str.afterLast '.' (Str.afterLast '/' p) =
          (t ++ ['.']) ++ Str.afterLast '.' (Str.afterLast '/' p) by simp, ← g3, g1, h1]
  · exact ⟨p, by simp⟩

/-- **C13**: the result ends in `.json`, `.yaml` or `.yml` and starts with the given path. -/
theorem C13_loadable (basePath path : Str) :
    (∃ ext ∈ [s% ".json", s% ".yaml", s% ".yml"], ∃ t, patchPath basePath path = t ++ ext) ∧
    ∃ t, patchPath basePath path = path ++ t := by
  rw [patchPath_eq]
  split
  · rename_i h
    exact ⟨⟨_, chosenExt_valid basePath path, Str.endsWith_iff.1 h⟩, [], by simp⟩
  · exact ⟨⟨_, chosenExt_valid basePath path, path, rfl⟩, _, rfl⟩

/-- **C13**: a base path with one of these extensions decides: the path gets it unless it has it. -/
theorem C13_base_decides (basePath path ext : Str) (he : ext ∈ [s% ".json", s% ".yaml", s% ".yml"])
    (hb : splitextExt basePath = ext) :
    ((∃ t, path = t ++ ext) → patchPath basePath path = path) ∧
    ((¬ ∃ t, path = t ++ ext) → patchPath basePath path = path ++ ext) := by
  change ext ∈ validFileExt at he
  have hc : chosenExt basePath path = ext := by
    unfold chosenExt; rw [hb, if_pos he]
  rw [patchPath_eq, hc, ← Str.endsWith_iff]
  exact ⟨fun h => if_pos h, fun h => if_neg h⟩

/-- **C13**: with any other base path, a path that has one of these extensions stays, and one that has none
gets `.json`, unless its text already ends that way. -/
theorem C13_path_decides (basePath path : Str)
    (hb : splitextExt basePath ∉ [s% ".json", s% ".yaml", s% ".yml"]) :
    (splitextExt path ∈ [s% ".json", s% ".yaml", s% ".yml"] → patchPath basePath path = path) ∧
    (splitextExt path ∉ [s% ".json", s% ".yaml", s% ".yml"] →
      patchPath basePath path = if Str.endsWith path (s% ".json") then path else path ++ s% ".json") := by
  change splitextExt basePath ∉ validFileExt at hb
  change (splitextExt path ∈ validFileExt → _) ∧ (splitextExt path ∉ validFileExt → _)
  rw [patchPath_eq]
  unfold chosenExt
  rw [if_neg hb]
  refine ⟨fun h => ?_, fun h => ?_⟩
  · rw [if_pos h, if_pos]
    exact Str.endsWith_iff.2 (splitextExt_suffix path)
  · rw [if_neg h]

theorem splitextExt_long {t ext : Str} (he : ext ∈ validFileExt)
    (h : Str.afterLast '/' t ≠ [] ∧ ¬ ∀ c ∈ Str.afterLast '/' t, c = '.') : splitextExt (t ++ ext) = ext := by
  obtain ⟨e1, he1, he2, he3⟩ : ∃ e, ext = '.' :: e ∧ '.' ∉ e ∧ '/' ∉ e := by
    simp [validFileExt] at he
    rcases he with rfl | rfl | rfl
    · exact ⟨_, rfl, by decide⟩
    · exact ⟨_, rfl, by decide⟩
    · exact ⟨_, rfl, by decide⟩
  have hal : Str.afterLast '/' (t ++ ext) = Str.afterLast '/' t ++ ext := by
    obtain ⟨h1, h2, h3⟩ := upto_after '/' t
    have := (after_unique (c := '/') (a := Str.uptoLast '/' t) (b := Str.afterLast '/' t ++ ext)
      (by rw [List.mem_append]; rintro (h | h); exact h2 h; rw [he1] at h; simp [he3] at h) h3).2
    rwa [← List.append_assoc, h1] at this
  unfold splitextExt
  rw [hal]
  generalize Str.afterLast '/' t = n at h
  have hd := after_unique (c := '.') (a := n ++ ['.']) he2 (.inr ⟨n, rfl⟩)
  rw [List.append_assoc, show ['.'] ++ e1 = ext by rw [he1]; rfl] at hd
  simp only [hd.1, hd.2]
  rw [if_pos (by rw [he1]; simp), if_neg]
  · exact he1.symm
  · rw [List.dropLast_concat, List.all_eq_true]
    intro hall
    exact h.2 (fun c hc => by simpa using hall c hc)

/-- **C13**: patching twice is patching once. -/
theorem C13_idempotent (basePath path : Str) :
    patchPath basePath (patchPath basePath path) = patchPath basePath path := by
  by_cases hb : splitextExt basePath ∈ validFileExt
  · have hc : ∀ p, chosenExt basePath p = splitextExt basePath := fun p => by unfold chosenExt; rw [if_pos hb]
    rw [patchPath_eq basePath (patchPath basePath path), if_pos]
    rw [hc, Str.endsWith_iff, patchPath_eq, hc]
    split
    · rename_i h; exact Str.endsWith_iff.1 h
    · exact ⟨path, rfl⟩
  · by_cases hp : splitextExt path ∈ validFileExt
    · rw [(C13_path_decides basePath path hb).1 hp, (C13_path_decides basePath path hb).1 hp]
    · rw [(C13_path_decides basePath path hb).2 hp]
      by_cases hj : Str.endsWith path (s% ".json") = true
      · rw [if_pos hj, (C13_path_decides basePath path hb).2 hp, if_pos hj]
      · rw [if_neg hj]
        by_cases h2 : splitextExt (path ++ s% ".json") ∈ validFileExt
        · exact (C13_path_decides basePath _ hb).1 h2
        · rw [(C13_path_decides basePath _ hb).2 h2, if_pos]
          exact Str.endsWith_iff.2 ⟨path, rfl⟩

example : patchPath (s% "/x/a.yaml") (s% "/y/b") = s% "/y/b.yaml" ∧ patchPath (s% "/x") (s% "/y/b.yml") = s% "/y/b.yml" ∧
    patchPath (s% "/x/a.json") (s% "/y/b.yml") = s% "/y/b.yml.json" := by decide +kernel

end Pyopenapi
