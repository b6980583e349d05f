import Verif.Lemmas.Url
import Verif.Spec.Url

/-!
# C07-C13: URLs and references
-/

namespace Pyopenapi
open Spec Url

/-! ### C07 -/

theorem isDots_iff (s : Str) : isDots s = true ↔ Dotty s := by
  unfold isDots Dotty Parent
  rw [Bool.and_eq_true, List.all_eq_true]
  simp only [ne_eq, decide_eq_true_eq, beq_iff_eq]
  constructor
  · rintro ⟨h1, h2⟩
    cases s with
    | nil => exact absurd rfl h1
    | cons c s =>
      have hc := h2 c List.mem_cons_self
      subst hc
      cases s with
      | nil => exact .inl rfl
      | cons d s => exact .inr ⟨by simp, h2⟩
  · rintro (rfl | ⟨h1, h2⟩)
    · simp
    · exact ⟨by rintro rfl; simp at h1, h2⟩

theorem survive_not_dotty (segs : List Str) : ∀ s ∈ (survive segs).1, ¬ Dotty s ∧ s ∈ segs := by
  induction segs with
  | nil => simp [survive]
  | cons seg rest ih =>
    intro s hs
    simp only [survive] at hs
    split at hs
    · exact ⟨(ih s hs).1, List.mem_cons_of_mem _ (ih s hs).2⟩
    · rename_i h1
      split at hs
      · exact ⟨(ih s hs).1, List.mem_cons_of_mem _ (ih s hs).2⟩
      · rename_i h2
        split at hs
        · rcases List.mem_cons.1 hs with rfl | hs
          · exact ⟨fun h => h.elim h1 h2, List.mem_cons_self⟩
          · exact ⟨(ih s hs).1, List.mem_cons_of_mem _ (ih s hs).2⟩
        · exact ⟨(ih s hs).1, List.mem_cons_of_mem _ (ih s hs).2⟩

theorem survive_plain {segs : List Str} (h : ∀ s ∈ segs, ¬ Dotty s) : survive segs = (segs, 0) := by
  induction segs with
  | nil => rfl
  | cons seg rest ih =>
    have h1 := h seg List.mem_cons_self
    rw [survive, ih (fun s hs => h s (List.mem_cons_of_mem _ hs))]
    have h2 : seg ≠ ['.'] := fun e => h1 (.inl e)
    have h3 : ¬ Parent seg := fun e => h1 (.inr e)
    simp [h2, h3]

/-- The loop of the code, from left to right, computes the same. -/
theorem dotLoop_survive (segs : List Str) : ∀ acc,
    dotLoop acc segs = acc.take (acc.length - (survive segs).2) ++ (survive segs).1 := by
  induction segs with
  | nil => simp [dotLoop, survive]
  | cons seg rest ih =>
    intro acc
    by_cases h1 : seg = ['.']
    · simp only [dotLoop, survive, if_pos h1]; exact ih acc
    · by_cases h2 : Parent seg
      · have : dotLoop acc (seg :: rest) = dotLoop acc.dropLast rest := by
          rw [dotLoop, if_neg h1]
          split
          · rfl
          · rw [if_pos ((isDots_iff seg).2 (.inr h2))]
        rw [this, ih]
        simp only [survive, if_neg h1, if_pos h2]
        rw [List.length_dropLast, List.dropLast_eq_take, List.take_take]
        congr 2
        omega
      · have h3 : isDots seg = false := by
          cases h : isDots seg with
          | false => rfl
          | true => exact absurd ((isDots_iff seg).1 h) (by simp [Dotty, h1, h2])
        have h4 : ¬ seg = s% ".." := by
          rintro rfl; exact h2 (by decide)
        rw [dotLoop, if_neg h1, if_neg h4, h3, if_neg (by simp), ih]
        simp only [survive, if_neg h1, if_neg h2]
        split
        · rename_i hk
          rw [hk, Nat.sub_zero, Nat.sub_zero, List.take_length, List.take_length]
          simp
        · rename_i hk
          rw [List.length_append, List.length_singleton]
          have : acc.length + 1 - (survive rest).2 = acc.length - ((survive rest).2 - 1) := by omega
          rw [this, List.take_append_of_le_length (by omega)]

theorem dotLoop_nil (segs : List Str) : dotLoop [] segs = (survive segs).1 := by
  rw [dotLoop_survive]; simp

theorem splitC_joinC_nil (ps : List Str) (h : ∀ p ∈ ps, '/' ∉ p) :
    Str.splitC '/' (Str.joinC '/' ps) = if ps = [] then [[]] else ps := by
  split
  · rename_i h; subst h; rfl
  · exact Str.splitC_joinC (by assumption) h

theorem afterLast_join (ps : List Str) (h : ∀ p ∈ ps, '/' ∉ p) :
    Str.afterLast '/' ('/' :: Str.joinC '/' ps) = (ps.getLast?).getD [] := by
  rcases List.eq_nil_or_concat ps with rfl | ⟨qs, q, rfl⟩
  · rfl
  · rw [List.concat_eq_append] at h ⊢
    have hq : '/' ∉ q := h q (by simp)
    have e : ∃ t, '/' :: Str.joinC '/' (qs ++ [q]) = (t ++ ['/']) ++ q := by
      by_cases hqs : qs = []
      · subst hqs; exact ⟨[], rfl⟩
      · rw [Str.joinC_append hqs (by simp)]
        exact ⟨'/' :: Str.joinC '/' qs, by simp [Str.joinC]⟩
    obtain ⟨t, e⟩ := e
    rw [e, (after_unique hq (.inr ⟨t, rfl⟩)).2]
    simp

theorem joinC_mem {c x : Char} {ps : List Str} (h : x ∈ Str.joinC c ps) : x = c ∨ ∃ p ∈ ps, x ∈ p := by
  induction ps with
  | nil => simp [Str.joinC] at h
  | cons p ps ih =>
    cases ps with
    | nil => exact .inr ⟨p, List.mem_cons_self, h⟩
    | cons q ps =>
      simp only [Str.joinC, List.mem_append, List.mem_cons] at h
      rcases h with h | h | h
      · exact .inr ⟨p, List.mem_cons_self, h⟩
      · exact .inl h
      · rcases ih h with h | ⟨r, hr, hx⟩
        · exact .inl h
        · exact .inr ⟨r, List.mem_cons_of_mem _ hr, hx⟩

theorem splitC_mem {c x : Char} {s p : Str} (hp : p ∈ Str.splitC c s) (hx : x ∈ p) : x ∈ s := by
  induction s generalizing p with
  | nil => simp [Str.splitC] at hp; subst hp; simp at hx
  | cons y s ih =>
    rw [Str.splitC] at hp
    split at hp
    · rcases List.mem_cons.1 hp with rfl | hp
      · simp at hx
      · exact List.mem_cons_of_mem _ (ih hp hx)
    · split at hp
      · rename_i h; exact absurd h (Str.splitC_ne_nil _ _)
      · rename_i q qs hq
        rcases List.mem_cons.1 hp with rfl | hp
        · rcases List.mem_cons.1 hx with rfl | hx
          · exact List.mem_cons_self
          · exact List.mem_cons_of_mem _ (ih (by rw [hq]; exact List.mem_cons_self) hx)
        · exact List.mem_cons_of_mem _ (ih (by rw [hq]; exact List.mem_cons_of_mem _ hp) hx)

/-- The URL with another path. -/
def setPath (u : Url) (p : Str) : Url := { u with path := p }

/-- The segments of an absolute path. -/
def segments (path : Str) : List Str := Str.splitC '/' path.tail

/-- The path of surviving segments. -/
def cleanPath (path : Str) : Str := '/' :: Str.joinC '/' (survive (segments path)).1

theorem cleanPath_segs (path : Str) : (∀ p ∈ (survive (segments path)).1, '/' ∉ p) := fun p hp =>
  Str.not_mem_of_mem_splitC (survive_not_dotty _ p hp).2

theorem cleanPath_mem {path : Str} {c : Char} (h : c ∈ cleanPath path) : c = '/' ∨ c ∈ path := by
  rcases List.mem_cons.1 h with h | h
  · exact .inl h
  · rcases joinC_mem h with h | ⟨p, hp, hc⟩
    · exact .inl h
    · exact .inr (List.mem_of_mem_tail (splitC_mem (survive_not_dotty _ p hp).2 hc))

theorem derel_eq {ok : Str → Bool} {s : Str} {u : Url} (h : parse ok s = .ok u) :
    derelativiseUrl ok s = .ok (unparse { u with path := cleanPath u.path }) := by
  unfold derelativiseUrl
  rw [h]
  simp only [bind, Except.bind, dotLoop_nil]
  rfl

theorem parsed_path {ok : Str → Bool} {u : Url} (hu : Parsed ok u) {p : Str}
    (hp : ∀ c ∈ p, c = '/' ∨ c ∈ u.path) : Parsed ok { u with path := p } where
  scheme := hu.scheme
  netloc := hu.netloc
  okNetloc := hu.okNetloc
  path := ⟨fun h => (hp _ h).elim (by simp) hu.path.1, fun h => (hp _ h).elim (by simp) hu.path.2⟩
  params := hu.params
  query := hu.query
  noParams := hu.noParams
  safe c hc := by
    rcases hc with h | h | h | h | h
    · exact hu.safe c (.inl h)
    · rcases hp _ h with rfl | h
      · rfl
      · exact hu.safe c (.inr (.inl h))
    · exact hu.safe c (.inr (.inr (.inl h)))
    · exact hu.safe c (.inr (.inr (.inr (.inl h))))
    · exact hu.safe c (.inr (.inr (.inr (.inr h))))

/-- **C07**: the result parses to the same scheme, authority, parameters, query and fragment; its path has
exactly the surviving segments (none of them a dot segment), and the function changes nothing when applied
again.  Partial: not when the last surviving segment has a `;` (then the parameters change, see
`C07_params_violation`), and not for relative paths (see `C07_relative_violation`): a parsed path without
leading slash has no authority before it. -/
theorem C07_derelativise_partial (ok : Str → Bool) (s : Str) (u : Url) (p : Str) (h : parse ok s = .ok u)
    (habs : u.path = '/' :: p ∨ (u.path = [] ∧ p = []))
    (hsemi : ∀ seg, (survive (Str.splitC '/' p)).1.getLast? = some seg → ';' ∉ seg) :
    ∃ t, derelativiseUrl ok s = .ok t ∧
      parse ok t = .ok { u with path := '/' :: Str.joinC '/' (survive (Str.splitC '/' p)).1 } ∧
      (∀ seg ∈ Str.splitC '/' (Str.joinC '/' (survive (Str.splitC '/' p)).1), ¬ Dotty seg) ∧
      derelativiseUrl ok t = .ok t := by
  have hp : p = u.path.tail := by rcases habs with h | ⟨h, h2⟩ <;> simp [h]; exact h2
  subst hp
  obtain ⟨hu, _, _⟩ := parse_parsed h
  have hsegs := cleanPath_segs u.path
  have hpar : Parsed ok { u with path := cleanPath u.path } := parsed_path hu (fun c hc => cleanPath_mem hc)
  have hreparse : parse ok (unparse { u with path := cleanPath u.path }) = .ok { u with path := cleanPath u.path } := by
    apply parse_unparse hpar (.inr rfl)
    intro _
    dsimp only [cleanPath]
    rw [afterLast_join _ hsegs]
    cases hl : (survive (segments u.path)).1.getLast? with
    | none => simp
    | some seg => exact hsemi seg hl
  have hnd : ∀ seg ∈ Str.splitC '/' (Str.joinC '/' (survive (segments u.path)).1), ¬ Dotty seg := by
    rw [splitC_joinC_nil _ hsegs]
    split
    · intro seg hs; simp at hs; subst hs; decide
    · exact fun seg hs => (survive_not_dotty _ seg hs).1
  refine ⟨_, derel_eq h, hreparse, hnd, ?_⟩
  rw [derel_eq hreparse]
  congr 3
  unfold cleanPath
  congr 1
  have : segments ('/' :: Str.joinC '/' (survive (segments u.path)).1) =
      Str.splitC '/' (Str.joinC '/' (survive (segments u.path)).1) := rfl
  rw [this, survive_plain hnd]
  exact Str.joinC_splitC _ _

/-- For http and file URLs written with an authority, the result is the same text with the path replaced. -/
theorem C07_text (scheme netloc path : Str) (u : Url) (h : u.scheme = scheme) (hs : scheme ≠ [])
    (hn : u.netloc = netloc) (hn2 : netloc ≠ []) (hp : u.path = path) (hp2 : path.head? = some '/') :
    unparse u = scheme ++ s% "://" ++ netloc ++ path ++ withMark ';' u.params ++ withMark '?' u.query ++
      withMark '#' u.fragment := by
  subst h hn hp
  rw [unparse_abs (.inr hp2), if_neg hs, if_pos (.inl hn2)]
  simp [tail]

example : derelativiseUrl (fun _ => true) (s% "http://h/a/../../b/./c/.../d?x=..#/../y") =
    .ok (s% "http://h/b/d?x=..#/../y") := by decide +kernel

/-- **C07** fails when the last segment is removed and the one before it has a `;`: it turns into
parameters. -/
theorem C07_params_violation :
    parse (fun _ => true) (s% "http://h/b;x/c/..") = .ok ⟨s% "http", s% "h", s% "/b;x/c/..", [], [], []⟩ ∧
    derelativiseUrl (fun _ => true) (s% "http://h/b;x/c/..") = .ok (s% "http://h/b;x") ∧
    parse (fun _ => true) (s% "http://h/b;x") = .ok ⟨s% "http", s% "h", s% "/b", s% "x", [], []⟩ := by decide +kernel

/-- **C07** fails for relative paths: the first character is lost. -/
theorem C07_relative_violation : derelativiseUrl (fun _ => true) (s% "dir/b.json") = .ok (s% "/ir/b.json") := by
  decide +kernel

/-! ### C08 -/

/-- **C08**: `None` stays `None`. -/
theorem C08_none (ok : Str → Bool) (url : Option Str) : normalizeJr ok none url = .ok none := rfl

/-- **C08**: without url part and base url, a fragment stays; the empty reference raises TypeError. -/
theorem C08_no_base (ok : Str → Bool) (url : Option Str) (hu : url = none ∨ url = some []) (jp : Str) :
    normalizeJr ok (some ('#' :: jp)) url = .ok (some ('#' :: jp)) ∧
    normalizeJr ok (some []) url = .error .typeError := by
  rcases hu with rfl | rfl <;> exact ⟨rfl, rfl⟩

theorem joinRef_ne {p : Str} (hp : p ≠ []) (jp : Option Str) :
    joinRef p jp = .ok (some (p ++ withMark '#' (jp.getD []))) := by
  unfold joinRef
  rw [if_pos hp]
  cases jp with
  | none => simp [withMark]
  | some jp => cases jp <;> simp [withMark]

/-- **C08**: a pure fragment is appended to the base url. -/
theorem C08_fragment (ok : Str → Bool) (base : Str) (hb : base ≠ []) (jp : Str) :
    normalizeJr ok (some ('#' :: jp)) (some base) = .ok (some (base ++ withMark '#' jp)) ∧
    normalizeJr ok (some []) (some base) = .ok (some base) := by
  constructor
  · exact joinRef_ne hb (some jp)
  · show joinRef base none = _
    rw [joinRef_ne hb]
    simp [withMark]

/-- A reference: a url part, and maybe a fragment. -/
def refOf (part : Str) (jp : Option Str) : Str := part ++ match jp with
  | none => []
  | some jp => '#' :: jp

theorem cut_ref {part : Str} (hp : '#' ∉ part) (jp : Option Str) : Str.cut '#' (refOf part jp) = (part, jp) := by
  cases jp with
  | none => simp only [refOf, List.append_nil]; exact Str.cut_of_not_mem hp
  | some jp => exact Str.cut_append _ hp

/-- **C08**: a reference with a scheme is returned as it is, without an empty fragment. -/
theorem C08_absolute (ok : Str → Bool) (part : Str) (hp : '#' ∉ part) (jp : Option Str) (url : Option Str) (u : Url)
    (h : parse ok part = .ok u) (hs : u.scheme ≠ []) :
    normalizeJr ok (some (refOf part jp)) url = .ok (some (part ++ withMark '#' (jp.getD []))) := by
  have hne : part ≠ [] := by
    rintro rfl
    have : parse ok [] = if !ok [] then .error .valueError else .ok ⟨[], [], [], [], [], []⟩ := by
      unfold parse; rfl
    rw [this] at h
    split at h
    · simp at h
    · simp at h; subst h; exact hs rfl
  have hr : refUrl ok part url = .ok part := by
    unfold refUrl
    rw [if_neg hne, h]
    simp only [bind, Except.bind, hs, false_and, if_false]
  unfold normalizeJr
  simp only [cut_ref hp, hr]
  exact joinRef_ne hne jp

theorem dirname_head {p : Str} (h : p = [] ∨ p.head? = some '/') : dirname p = [] ∧ p = [] ∨ (dirname p).head? = some '/' := by
  rcases h with rfl | h
  · exact .inl ⟨rfl, rfl⟩
  · right
    cases p with
    | nil => simp at h
    | cons c r =>
      simp at h
      subst h
      obtain ⟨h1, h2, h3⟩ := upto_after '/' ('/' :: r)
      have hu : ∃ t, Str.uptoLast '/' ('/' :: r) = '/' :: t := by
        cases hup : Str.uptoLast '/' ('/' :: r) with
        | nil => rw [hup, List.nil_append] at h1; rw [h1] at h2; simp at h2
        | cons c t => rw [hup] at h1; simp at h1; exact ⟨t, by rw [h1.1]⟩
      obtain ⟨t, ht⟩ := hu
      unfold dirname
      simp only [ht]
      split
      · rfl
      · rename_i hall
        have : ∃ a, '/' :: t = ('/' :: a) ++ (('/' :: t).reverse.takeWhile (· == '/')).reverse ∧
            (('/' :: t).reverse.dropWhile (· == '/')).reverse = '/' :: a := by
          have e := List.takeWhile_append_dropWhile (p := fun x : Char => x == '/') (l := ('/' :: t).reverse)
          have e2 := congrArg List.reverse e
          rw [List.reverse_append, List.reverse_reverse] at e2
          cases hd : (('/' :: t).reverse.dropWhile (· == '/')).reverse with
          | nil =>
            exfalso
            rw [hd, List.nil_append] at e2
            apply hall
            rw [← e2]
            rw [List.all_eq_true]
            intro x hx
            exact (takeWhile_dropWhile_spec _ _).2.1 x (List.mem_reverse.1 hx)
          | cons c a =>
            rw [hd] at e2
            simp only [List.cons_append, List.cons.injEq] at e2
            refine ⟨a, ?_, by rw [e2.1]⟩
            rw [List.cons_append, e2.2]
        obtain ⟨a, _, ha⟩ := this
        rw [ha]
        rfl

theorem dirname_mem {p : Str} {c : Char} (h : c ∈ dirname p) : c ∈ p := by
  obtain ⟨h1, _⟩ := upto_after '/' p
  rw [← h1]
  apply List.mem_append_left
  unfold dirname at h
  dsimp only at h
  split at h
  · exact h
  · exact List.mem_reverse.1 ((List.dropWhile_suffix _).subset (List.mem_reverse.1 h))

theorem afterLast_append {c : Char} (a r : Str) : Str.afterLast c (a ++ c :: r) = Str.afterLast c r := by
  obtain ⟨h1, h2, h3⟩ := upto_after c r
  have : a ++ c :: r = (a ++ c :: Str.uptoLast c r) ++ Str.afterLast c r := by
    rw [List.append_assoc, List.cons_append, h1]
  rw [this]
  refine (after_unique h2 (.inr ?_)).2
  rcases h3 with h3 | ⟨t, h3⟩
  · exact ⟨a, by rw [h3]⟩
  · exact ⟨a ++ c :: t, by rw [h3]; simp⟩

/-- **C08**: a relative file reference is resolved against the folder of the base url: the segments of the
folder, then those of the reference, without dot segments; everything else of the base url is kept, and so
is the JSON pointer. -/
theorem C08_relative (ok : Str → Bool) (part base : Str) (hne : part ≠ []) (jp : Option Str) (u v : Url)
    (hpart : parse ok part = .ok v) (hv : v.scheme = [])
    (hplain : ∀ c ∈ part, c ≠ '?' ∧ c ≠ '#' ∧ c ≠ ';' ∧ unsafeChar c = false)
    (hb : base ≠ []) (hbase : parse ok base = .ok u) (habs : u.path = [] ∨ u.path.head? = some '/') :
    normalizeJr ok (some (refOf part jp)) (some base) = .ok (some (unparse (setPath u
      ('/' :: Str.joinC '/' (survive ((if dirname u.path = [] then [] else Str.splitC '/' (dirname u.path).tail) ++
        Str.splitC '/' part)).1)) ++ withMark '#' (jp.getD []))) := by
  obtain ⟨hu, _, _⟩ := parse_parsed hbase
  have hp : '#' ∉ part := fun h => (hplain _ h).2.1 rfl
  have hdh := dirname_head habs
  -- the joined url parses
  have hjoin : Str.joinC '/' [dirname u.path, part] = dirname u.path ++ '/' :: part := rfl
  have hmem : ∀ c ∈ dirname u.path ++ '/' :: part, c ∈ u.path ∨ c = '/' ∨ c ∈ part := by
    intro c hc
    simp only [List.mem_append, List.mem_cons] at hc
    rcases hc with h | h | h
    · exact .inl (dirname_mem h)
    · exact .inr (.inl h)
    · exact .inr (.inr h)
  have hpar : Parsed ok { u with path := dirname u.path ++ '/' :: part } :=
    { scheme := hu.scheme, netloc := hu.netloc, okNetloc := hu.okNetloc
      path := ⟨fun h => by
          rcases hmem _ h with h | h | h
          · exact hu.path.1 h
          · simp at h
          · exact (hplain _ h).1 rfl, fun h => by
          rcases hmem _ h with h | h | h
          · exact hu.path.2 h
          · simp at h
          · exact (hplain _ h).2.1 rfl⟩
      params := hu.params, query := hu.query, noParams := hu.noParams
      safe := by
        intro c hc
        rcases hc with h | h | h | h | h
        · exact hu.safe c (.inl h)
        · rcases hmem _ h with h | rfl | h
          · exact hu.safe c (.inr (.inl h))
          · rfl
          · exact (hplain _ h).2.2.2
        · exact hu.safe c (.inr (.inr (.inl h)))
        · exact hu.safe c (.inr (.inr (.inr (.inl h))))
        · exact hu.safe c (.inr (.inr (.inr (.inr h)))) }
  have hparse : parse ok (unparse { u with path := dirname u.path ++ '/' :: part }) =
      .ok { u with path := dirname u.path ++ '/' :: part } := by
    refine parse_unparse hpar (.inr ?_) (fun _ => ?_)
    · rcases hdh with ⟨h, _⟩ | h
      · rw [h]; rfl
      · cases hd : dirname u.path with
        | nil => rw [hd] at h; simp at h
        | cons c r => rw [hd] at h; simpa using h
    · dsimp only
      rw [afterLast_append]
      intro hm
      obtain ⟨h1, _⟩ := upto_after '/' part
      exact (hplain ';' (by rw [← h1]; exact List.mem_append_right _ hm)).2.2.1 rfl
  have hsegs : segments (dirname u.path ++ '/' :: part) =
      (if dirname u.path = [] then [] else Str.splitC '/' (dirname u.path).tail) ++ Str.splitC '/' part := by
    unfold segments
    cases hd : dirname u.path with
    | nil => simp
    | cons c r =>
      simp only [List.cons_append, List.tail_cons, reduceCtorEq, if_false]
      exact Str.splitC_append _ _ _
  have e : cleanPath (dirname u.path ++ '/' :: part) = '/' :: Str.joinC '/'
      (survive ((if dirname u.path = [] then [] else Str.splitC '/' (dirname u.path).tail) ++ Str.splitC '/' part)).1 := by
    unfold cleanPath; rw [hsegs]
  rw [← e]
  have hr : refUrl ok part (some base) = .ok (unparse (setPath u (cleanPath (dirname u.path ++ '/' :: part)))) := by
    unfold refUrl
    rw [if_neg hne, hpart]
    simp only [bind, Except.bind]
    rw [if_pos ⟨hv, hb⟩]
    simp only [Option.getD_some, hbase, hjoin]
    exact derel_eq hparse
  have hne2 : unparse (setPath u (cleanPath (dirname u.path ++ '/' :: part))) ≠ [] := by
    rw [unparse_abs (.inr rfl)]
    intro he
    simp [tail, cleanPath, setPath] at he
  unfold normalizeJr
  simp only [cut_ref hp, hr]
  exact joinRef_ne hne2 jp

example : normalizeJr (fun _ => true) (some (s% "../x/User.json#/definitions/User"))
    (some (s% "http://test.com/api/v1/swagger.json")) =
    .ok (some (s% "http://test.com/api/x/User.json#/definitions/User")) := by decide +kernel

/-- **C08**, deviation: when the base document lies at the root, the result has a double slash (the
documentation of the function promises `http://test.com/some_folder/User.json`). -/
theorem C08_root_double_slash : normalizeJr (fun _ => true) (some (s% "some_folder/User.json"))
    (some (s% "http://test.com/swagger.json")) = .ok (some (s% "http://test.com//some_folder/User.json")) := by
  decide +kernel

/-- **C08**, deviation: a reference to an absolute path is appended to the folder of the base url, too. -/
theorem C08_absolute_path_appended : normalizeJr (fun _ => true) (some (s% "/a/b.json"))
    (some (s% "http://h/x/y.json")) = .ok (some (s% "http://h/x//a/b.json")) := by decide +kernel

/-! ### C09 -/

theorem normalizeJr_cases {ok : Str → Bool} {ref base t : Str} (hb : base ≠ [])
    (h : normalizeJr ok (some ref) (some base) = .ok (some t)) :
    ∃ part jp, t = part ++ withMark '#' jp ∧
      (part = base ∨
       ((Str.cut '#' ref).1 = part ∧ ∃ v, parse ok part = .ok v ∧ v.scheme ≠ []) ∨
       ∃ u, parse ok base = .ok u ∧ derelativiseUrl ok (unparse (setPath u
          (dirname u.path ++ '/' :: (Str.cut '#' ref).1))) = .ok part) := by
  unfold normalizeJr at h
  obtain ⟨part, jp, hc⟩ : ∃ a b, Str.cut '#' ref = (a, b) := ⟨_, _, rfl⟩
  simp only [hc] at h ⊢
  unfold refUrl at h
  by_cases hp : part = []
  · subst hp
    simp only [if_true, Option.getD_some] at h
    rw [joinRef_ne hb] at h
    cases h
    exact ⟨base, _, rfl, .inl rfl⟩
  · rw [if_neg hp] at h
    cases hv : parse ok part with
    | error e => rw [hv] at h; simp [bind, Except.bind] at h
    | ok v =>
      rw [hv] at h
      simp only [bind, Except.bind, Option.getD_some] at h
      by_cases hcond : v.scheme = [] ∧ base ≠ []
      · rw [if_pos hcond] at h
        cases hu : parse ok base with
        | error e => rw [hu] at h; simp at h
        | ok u =>
          rw [hu] at h
          dsimp only at h
          cases hd : derelativiseUrl ok (unparse (setPath u (dirname u.path ++ '/' :: part))) with
          | error e =>
            have hd' : derelativiseUrl ok (unparse { u with path := Str.joinC '/' [dirname u.path, part] }) = .error e := hd
            rw [hd'] at h; simp at h
          | ok p =>
            have hd' : derelativiseUrl ok (unparse { u with path := Str.joinC '/' [dirname u.path, part] }) = .ok p := hd
            rw [hd'] at h
            dsimp only at h
            have hp : p ≠ [] := by
              rintro rfl
              cases hw : parse ok (unparse (setPath u (dirname u.path ++ '/' :: part))) with
              | error e => unfold derelativiseUrl at hd; rw [hw] at hd; simp [bind, Except.bind] at hd
              | ok w =>
                rw [derel_eq hw, unparse_abs (.inr rfl)] at hd
                simp [tail, cleanPath] at hd
            rw [joinRef_ne hp] at h
            cases h
            exact ⟨p, _, rfl, .inr (.inr ⟨u, rfl, hd⟩)⟩
      · rw [if_neg hcond] at h
        dsimp only at h
        rw [joinRef_ne hp] at h
        cases h
        exact ⟨part, _, rfl, .inr (.inl ⟨rfl, v, hv, fun hs => hcond ⟨hs, hb⟩⟩)⟩

/-- **C09**: normalizing again, against the same absolute base url (without fragment), changes nothing. -/
theorem C09_idempotent (ok : Str → Bool) (ref base t : Str) (u : Url) (hbase : parse ok base = .ok u)
    (hs : u.scheme ≠ []) (hf : '#' ∉ base) (habs : u.path = [] ∨ u.path.head? = some '/')
    (hsafe : ∀ c ∈ ref, unsafeChar c = false)
    (h : normalizeJr ok (some ref) (some base) = .ok (some t)) :
    normalizeJr ok (some t) (some base) = .ok (some t) := by
  have hbne : base ≠ [] := by
    rintro rfl
    have : parse ok [] = if !ok [] then .error .valueError else .ok ⟨[], [], [], [], [], []⟩ := by
      unfold parse; rfl
    rw [this] at hbase
    split at hbase
    · simp at hbase
    · simp at hbase; subst hbase; exact hs rfl
  have again : ∀ part jp v, t = part ++ withMark '#' jp → '#' ∉ part → parse ok part = .ok v → v.scheme ≠ [] →
      normalizeJr ok (some t) (some base) = .ok (some t) := by
    intro part jp v ht hp hv hvs
    subst ht
    have := C08_absolute ok part hp (if jp = [] then none else some jp) (some base) v hv hvs
    unfold refOf at this
    by_cases hj : jp = []
    · subst hj; simpa [withMark] using this
    · simpa [withMark, hj] using this
  have hcut : '#' ∉ (Str.cut '#' ref).1 := by
    obtain ⟨a, b, hc⟩ : ∃ a b, Str.cut '#' ref = (a, b) := ⟨_, _, rfl⟩
    rw [hc]
    cases b with
    | none => have := Str.cut_none hc; rw [this.1]; exact this.2
    | some b => exact (Str.cut_some hc).2
  have hcutm : ∀ c ∈ (Str.cut '#' ref).1, c ∈ ref := by
    intro c hm
    obtain ⟨a, b, hc⟩ : ∃ a b, Str.cut '#' ref = (a, b) := ⟨_, _, rfl⟩
    rw [hc] at hm
    cases b with
    | none => have := Str.cut_none hc; rw [← this.1]; exact hm
    | some b => rw [(Str.cut_some hc).1]; exact List.mem_append_left _ hm
  obtain ⟨part, jp, ht, hcases⟩ := normalizeJr_cases hbne h
  · rcases hcases with rfl | ⟨hpart, v, hv, hvs⟩ | ⟨u', hu', hd⟩
    · exact again _ jp u ht hf hbase hs
    · exact again _ jp v ht (hpart ▸ hcut) hv hvs
    · rw [hbase] at hu'
      cases hu'
      generalize (Str.cut '#' ref).1 = r at hd hcut hcutm
      obtain ⟨hu, _, _⟩ := parse_parsed hbase
      have hdh := dirname_head habs
      have hfr : u.fragment = [] := parse_chars hbase hf
      have hAbs : AbsPath { u with path := dirname u.path ++ '/' :: r } := by
        right
        rcases hdh with ⟨h, _⟩ | h
        · rw [h]; rfl
        · cases hd : dirname u.path with
          | nil => rw [hd] at h; simp at h
          | cons c r => rw [hd] at h; simpa using h
      have hFront : Front { u with path := dirname u.path ++ '/' :: r } :=
        ⟨hu.scheme, hu.netloc, by
          intro c hc
          rcases hc with h | h | h | h | h
          · exact hu.safe c (.inl h)
          · simp only [List.mem_append, List.mem_cons] at h
            rcases h with h | rfl | h
            · exact hu.safe c (.inr (.inl (dirname_mem h)))
            · rfl
            · exact hsafe c (hcutm c h)
          · exact hu.safe c (.inr (.inr (.inl h)))
          · exact hu.safe c (.inr (.inr (.inr (.inl h))))
          · exact hu.safe c (.inr (.inr (.inr (.inr h))))⟩
      obtain ⟨w, hw, hw1, hw2⟩ := parse_exists (ok := ok) hFront hu.okNetloc hAbs
      have hnothash : '#' ∉ unparse { u with path := dirname u.path ++ '/' :: r } := by
        refine hash_not_mem_unparse hu.scheme_chars (fun h => ?_) (fun h => ?_) hu.params.2.1 hu.query hfr hAbs
        · have := hu.netloc _ h; simp [endsNetloc] at this
        · simp only [List.mem_append, List.mem_cons] at h
          rcases h with h | h | h
          · exact hu.path.2 (dirname_mem h)
          · simp at h
          · exact hcut h
      have hwf : w.fragment = [] := parse_chars hw hnothash
      obtain ⟨hwp, _, _⟩ := parse_parsed hw
      simp only [setPath] at hd
      rw [derel_eq hw] at hd
      cases hd
      have hwpar : Parsed ok { w with path := cleanPath w.path } := parsed_path hwp (fun c hc => cleanPath_mem hc)
      obtain ⟨x, hx, hx1, _⟩ := parse_exists (ok := ok) hwpar.front hwpar.okNetloc (.inr rfl)
      refine again _ jp x ht ?_ hx ?_
      · refine hash_not_mem_unparse hwpar.scheme_chars (fun h => ?_) hwpar.path.2 hwpar.params.2.1 hwpar.query hwf (.inr rfl)
        have := hwpar.netloc _ h; simp [endsNetloc] at this
      · rw [hx1]
        dsimp only
        rw [hw1]
        exact hs

example : (do
    let t ← normalizeJr (fun _ => true) (some (s% "../b.json?x=1#/d")) (some (s% "file:///a/c/x.json"))
    normalizeJr (fun _ => true) t (some (s% "file:///a/c/x.json"))) =
    normalizeJr (fun _ => true) (some (s% "../b.json?x=1#/d")) (some (s% "file:///a/c/x.json")) := by decide +kernel

end Pyopenapi
