import Verif.Spec.Stack
import Verif.Props.Resolver
import Verif.Props.Pieces
import Verif.Props.Native
import Verif.Props.PiecesUp

/-!
# C112: an application reads each document once
-/

namespace Pyopenapi.Main
open _root_.Pyopenapi.Spec _root_.Pyopenapi.Refs.Spec Obj

variable {W : Type} {docs : Str → Option Json}

theorem cached_of (s : Reading docs) {url : Str} {j : Json} (h : Resolver.cached s.1 url = some j) :
    Dict.get? s.1.cache url = some (some j) := by
  unfold Resolver.cached at h
  split at h
  · rename_i j' hj
    split at h
    · cases h; exact hj
    · cases h
  · cases h

/-- What fetching a piece gives and what is read for it. -/
theorem fetch_piece {out : Outer W} {p : Piece} (hs : jrSplit out.ok out.path2url out.abspath p.ref = .ok (p.url, pointer p.place))
    (hd : p.InDocument docs) (s : Reading docs) :
    ((stacked out docs).fetch p.ref s).1 = .ok p.json ∧
      (((Resolver.cached s.1 p.url).isSome = true ∧ ((stacked out docs).fetch p.ref s).2 = s) ∨
        (Resolver.cached s.1 p.url = none ∧ ((stacked out docs).fetch p.ref s).2.log = s.log ++ [p.url] ∧
          ∀ u, (Resolver.cached ((stacked out docs).fetch p.ref s).2.1 u).isSome =
            (decide (u = p.url) || (Resolver.cached s.1 u).isSome))) := by
  obtain ⟨d, h1, h2, h3⟩ := hd
  have hw : Resolver.walk ((jpSplit (pointer p.place)).drop 1) d = .ok p.json := by
    rw [split_back]; exact C44_pointer _ _ _ h3
  cases hc : Resolver.cached s.1 p.url with
  | some j =>
    have hj := s.2 _ _ (cached_of s hc)
    rw [h1] at hj
    cases hj
    have e : Resolver.resolve (jrSplit out.ok out.path2url out.abspath) (reading docs) s.1 p.ref = (.ok p.json, s.1) := by
      unfold Resolver.resolve
      rw [hs]
      dsimp only
      rw [hc]
      dsimp only
      rw [hw]
    refine ⟨?_, .inl ⟨rfl, ?_⟩⟩
    · show (Resolver.resolve _ _ _ _).1 = _
      rw [e]
    · apply Subtype.ext
      show (Resolver.resolve _ _ _ _).2 = _
      rw [e]
  | none =>
    have e : Resolver.resolve (jrSplit out.ok out.path2url out.abspath) (reading docs) s.1 p.ref =
        (.ok p.json, ⟨Dict.set s.1.cache p.url (some d), s.1.world ++ [p.url]⟩) := by
      unfold Resolver.resolve
      rw [hs]
      dsimp only
      rw [hc]
      unfold reading
      rw [h1]
      dsimp only
      rw [if_pos h2, if_pos h2, hw]
    refine ⟨?_, .inr ⟨rfl, ?_, fun u => ?_⟩⟩
    · show (Resolver.resolve _ _ _ _).1 = _
      rw [e]
    · show (Resolver.resolve _ _ _ _).2.world = _
      rw [e]
      rfl
    · show (Resolver.cached (Resolver.resolve _ _ _ _).2 u).isSome = _
      rw [e]
      unfold Resolver.cached
      dsimp only
      by_cases eu : u = p.url
      · subst eu
        rw [Dict.get?_set_self]
        dsimp only
        rw [if_pos h2]
        simp
      · rw [Dict.get?_set_ne _ _ (Ne.symm eu)]
        simp [eu]

/-- What has been read is exactly what the resolver has, and nothing was read twice. -/
structure Once (s : Reading docs) : Prop where
  nodup : s.log.Nodup
  has : ∀ u, u ∈ s.log ↔ (Resolver.cached s.1 u).isSome = true

theorem once_fold {out : Outer W} (l : List Piece) (hs : ∀ p ∈ l, jrSplit out.ok out.path2url out.abspath p.ref = .ok (p.url, pointer p.place))
    (hd : ∀ p ∈ l, p.InDocument docs) : ∀ s : Reading docs, Once s →
      Once (l.foldl (fun s p => ((stacked out docs).fetch p.ref s).2) s) ∧
        ∀ u, u ∈ (l.foldl (fun s p => ((stacked out docs).fetch p.ref s).2) s).log ↔ u ∈ s.log ∨ ∃ p ∈ l, p.url = u := by
  induction l with
  | nil => intro s h; exact ⟨h, fun u => by simp⟩
  | cons p l ih =>
    intro s h
    have step : Once ((stacked out docs).fetch p.ref s).2 ∧ ∀ u, u ∈ ((stacked out docs).fetch p.ref s).2.log ↔ u ∈ s.log ∨ p.url = u := by
      obtain ⟨_, ⟨h1, h2⟩ | ⟨h1, h2, h3⟩⟩ := fetch_piece (hs p (List.mem_cons_self ..)) (hd p (List.mem_cons_self ..)) s
      · rw [h2]
        refine ⟨h, fun u => ⟨.inl, ?_⟩⟩
        rintro (h' | rfl)
        · exact h'
        · exact (h.has _).2 h1
      · have hn : p.url ∉ s.log := fun hm => by
          have := (h.has _).1 hm
          rw [h1] at this
          cases this
        have hm : ∀ u, u ∈ ((stacked out docs).fetch p.ref s).2.log ↔ u ∈ s.log ∨ p.url = u := by
          intro u
          rw [h2]
          constructor
          · intro h'
            rcases List.mem_append.1 h' with h' | h'
            · exact .inl h'
            · exact .inr (List.mem_singleton.1 h').symm
          · rintro (h' | rfl)
            · exact List.mem_append.2 (.inl h')
            · exact List.mem_append.2 (.inr (List.mem_singleton.2 rfl))
        refine ⟨⟨?_, fun u => ?_⟩, hm⟩
        · rw [h2]
          refine List.nodup_append.2 ⟨h.nodup, List.nodup_cons.2 ⟨by simp, List.nodup_nil⟩, ?_⟩
          intro a ha b hb e
          exact hn (List.mem_singleton.1 hb ▸ e ▸ ha)
        · rw [hm, h3, h.has]
          constructor
          · rintro (h' | rfl)
            · rw [h']; simp
            · simp
          · intro h'
            rcases Bool.or_eq_true_iff.1 h' with h' | h'
            · exact .inr (of_decide_eq_true h').symm
            · exact .inl h'
    obtain ⟨i1, i2⟩ := ih (fun q hq => hs q (List.mem_cons_of_mem _ hq)) (fun q hq => hd q (List.mem_cons_of_mem _ hq)) _ step.1
    refine ⟨i1, fun u => ?_⟩
    rw [List.foldl_cons, i2, step.2]
    constructor
    · rintro ((h' | h') | ⟨q, hq, h'⟩)
      · exact .inl h'
      · exact .inr ⟨p, List.mem_cons_self .., h'⟩
      · exact .inr ⟨q, List.mem_cons_of_mem _ hq, h'⟩
    · rintro (h' | ⟨q, hq, h'⟩)
      · exact .inl (.inl h')
      · rcases List.mem_cons.1 hq with rfl | hq
        · exact .inl (.inr h')
        · exact .inr ⟨q, hq, h'⟩

theorem once_start : Once (Reading.start docs) := ⟨List.nodup_nil, fun u => by simp [Reading.log, Reading.start, Resolver.cached]⟩

/-- C112: whoever fetches a piece by its reference, gets what is at its place in its document, whatever has been fetched
before: what the applications of C88, C96 and C97 ask of their surroundings, the resolver gives. -/
theorem C112_served (out : Outer W) (p : Piece) (hu : DocUrl out.ok p.url) (hs : Safe p.place)
    (hr : p.ref = p.url ++ pointer p.place ∨ (p.place = [] ∧ p.ref = p.url)) (hd : p.InDocument docs) (s : Reading docs) :
    ((stacked out docs).fetch p.ref s).1 = .ok p.json := by
  refine (fetch_piece (out := out) ?_ hd s).1
  rcases hr with e | ⟨e1, e2⟩
  · rw [e]; exact split_pointer hu hs
  · rw [e2, e1]; exact split_url hu

/-- C112: when an application of 2.0 is loaded and migrated to 2.0, exactly the documents of the pieces that can be reached are
read, each once, however many references there are into it. -/
theorem C112_reads (out : Outer W) (main : Piece) (pieces : List Piece) (hA : Application (stacked out docs) main pieces)
    (hd : ∀ p, p = main ∨ p ∈ pieces → p.InDocument docs) (hver : SaysVersion main.json (some (s% "2.0"))) (n : Nat)
    (hn : pieces.length ≤ n) (hrounds : size main pieces ≤ out.rounds) :
    ∃ a a', App.loadObj (application (stacked out docs) (n + 1)) main.url none false (opened (Reading.start docs)) = (.ok main.obj, a) ∧
      App.migrateObj (application (stacked out docs) (n + 1)) main.obj main.url (s% "2.0") a = (.ok main.obj, a') ∧
      a'.world.rest.log.Nodup ∧ ∀ u, u ∈ a'.world.rest.log ↔ ∃ p, Reached (stacked out docs) main pieces p ∧ p.url = u := by
  have hsp : ∀ p, p = main ∨ p ∈ pieces → jrSplit out.ok out.path2url out.abspath p.ref = .ok (p.url, pointer p.place) :=
    fun p hp => split_ref (out := stacked out docs) (hA.good p hp)
  have hfetch := (fetch_piece (hsp main (.inl rfl)) (hd main (.inl rfl)) (Reading.start docs)).1
  rw [hA.root.2.1] at hfetch
  obtain ⟨a, a', h1, h2, _, _, _, l, l1, l2, l3⟩ := C88_pieces _ main pieces hA (Reading.start docs) hfetch hver n hn hrounds
  have hin : ∀ p ∈ l, p = main ∨ p ∈ pieces := by
    intro p hp
    cases (l2 p).1 hp with
    | main => exact .inl rfl
    | next _ _ hq => exact .inr hq
  obtain ⟨k1, k2⟩ := once_fold (out := out) l (fun p hp => hsp p (hin p hp)) (fun p hp => hd p (hin p hp)) _ (once_start (docs := docs))
  refine ⟨a, a', h1, h2, ?_, fun u => ?_⟩
  · rw [l3]; exact k1.nodup
  · rw [l3, k2]
    constructor
    · rintro (h | ⟨p, hp, e⟩)
      · cases h
      · exact ⟨p, (l2 p).1 hp, e⟩
    · rintro ⟨p, hp, e⟩
      exact .inr ⟨p, (l2 p).2 hp, e⟩

/-- C112, for applications of 3.0.0. -/
theorem C112_reads_native (out : Outer W) (main : Piece) (pieces : List Piece) (hA : Native.Application (stacked out docs) main pieces)
    (hd : ∀ p, p = main ∨ p ∈ pieces → p.InDocument docs) (hver : SaysVersion main.json (some (s% "3.0.0"))) (n : Nat)
    (hn : pieces.length ≤ n) (hrounds : size main pieces ≤ out.rounds) :
    ∃ a a', App.loadObj (application (stacked out docs) (n + 1)) main.url none false (opened (Reading.start docs)) = (.ok main.obj, a) ∧
      App.migrateObj (application (stacked out docs) (n + 1)) main.obj main.url (s% "3.0.0") a = (.ok main.obj, a') ∧
      a'.world.rest.log.Nodup ∧ ∀ u, u ∈ a'.world.rest.log ↔ ∃ p, Native.Reached (stacked out docs) main pieces p ∧ p.url = u := by
  have hsp : ∀ p, p = main ∨ p ∈ pieces → jrSplit out.ok out.path2url out.abspath p.ref = .ok (p.url, pointer p.place) :=
    fun p hp => Native.split_ref (out := stacked out docs) (hA.good p hp)
  have hfetch := (fetch_piece (hsp main (.inl rfl)) (hd main (.inl rfl)) (Reading.start docs)).1
  rw [hA.root.2.1] at hfetch
  obtain ⟨a, a', h1, h2, _, _, _, l, l1, l2, l3⟩ := Native.C97_pieces_partial _ main pieces hA (Reading.start docs) hfetch hver n hn hrounds
  have hin : ∀ p ∈ l, p = main ∨ p ∈ pieces := by
    intro p hp
    cases (l2 p).1 hp with
    | main => exact .inl rfl
    | next _ _ hq => exact .inr hq
  obtain ⟨k1, k2⟩ := once_fold (out := out) l (fun p hp => hsp p (hin p hp)) (fun p hp => hd p (hin p hp)) _ (once_start (docs := docs))
  refine ⟨a, a', h1, h2, ?_, fun u => ?_⟩
  · rw [l3]; exact k1.nodup
  · rw [l3, k2]
    constructor
    · rintro (h | ⟨p, hp, e⟩)
      · cases h
      · exact ⟨p, (l2 p).1 hp, e⟩
    · rintro ⟨p, hp, e⟩
      exact .inr ⟨p, (l2 p).2 hp, e⟩

/-- C112, for applications of 2.0 that are migrated to 3.0.0: nothing is read again for that. -/
theorem C112_reads_upgraded (out : Outer W) (main : Piece) (pieces : List Piece) (d : Dict Json) (hU : Upgradable (stacked out docs) main pieces d)
    (hd : ∀ p, p = main ∨ p ∈ pieces → p.InDocument docs) (hver : SaysVersion main.json (some (s% "2.0"))) (n : Nat)
    (hn : pieces.length ≤ n) (hrounds : size main pieces ≤ out.rounds) :
    ∃ a a' o3, App.loadObj (application (stacked out docs) (n + 1)) main.url none false (opened (Reading.start docs)) = (.ok main.obj, a) ∧
      App.migrateObj (application (stacked out docs) (n + 1)) main.obj main.url (s% "3.0.0") a = (.ok o3, a') ∧
      a'.world.rest.log.Nodup ∧ ∀ u, u ∈ a'.world.rest.log ↔ ∃ p, Reached (stacked out docs) main pieces p ∧ p.url = u := by
  have hA := hU.app
  have hsp : ∀ p, p = main ∨ p ∈ pieces → jrSplit out.ok out.path2url out.abspath p.ref = .ok (p.url, pointer p.place) :=
    fun p hp => split_ref (out := stacked out docs) (hA.good p hp)
  have hfetch := (fetch_piece (hsp main (.inl rfl)) (hd main (.inl rfl)) (Reading.start docs)).1
  rw [hA.root.2.1] at hfetch
  obtain ⟨a, a', _, o3, _, h1, h2, _, _, _, _, _, _, _, _, _, l, l1, l2, l3⟩ :=
    C96_documents_partial _ main pieces d hU (Reading.start docs) hfetch hver n hn hrounds
  have hin : ∀ p ∈ l, p = main ∨ p ∈ pieces := by
    intro p hp
    cases (l2 p).1 hp with
    | main => exact .inl rfl
    | next _ _ hq => exact .inr hq
  obtain ⟨k1, k2⟩ := once_fold (out := out) l (fun p hp => hsp p (hin p hp)) (fun p hp => hd p (hin p hp)) _ (once_start (docs := docs))
  refine ⟨a, a', o3, h1, h2, ?_, fun u => ?_⟩
  · rw [l3]; exact k1.nodup
  · rw [l3, k2]
    constructor
    · rintro (h | ⟨p, hp, e⟩)
      · cases h
      · exact ⟨p, (l2 p).1 hp, e⟩
    · rintro ⟨p, hp, e⟩
      exact .inr ⟨p, (l2 p).2 hp, e⟩

end Pyopenapi.Main
