import Verif.Lemmas.Says
import Verif.Lemmas.PiecesUp

/-!
# C88: applications made of many documents
-/

namespace Pyopenapi.Main
open _root_.Pyopenapi.Spec _root_.Pyopenapi.Refs.Spec Obj

variable {W : Type}

theorem loaded_holds {out : Outer W} {main : Piece} {pieces : List Piece} (hA : Application out main pieces) (w' : W) :
    Holds main pieces pieces (loaded w' main.obj main.url (s% "2.0")) := by
  have hobjs : (loaded w' main.obj main.url (s% "2.0")).store.objs = [(main.url, [(['#'], [(s% "2.0", main.obj)])])] := rfl
  have hplace : pointer main.place = ['#'] := by rw [hA.root.1]; rfl
  refine ⟨rfl, rfl, ?_, ?_, fun u _ => .inl rfl, fun q _ ts x _ => rfl⟩
  · intro u uc _ h jp cache hm
    rw [hobjs, Dict.get?_cons] at h
    split at h
    · rename_i e
      cases h
      simp only [List.mem_singleton, Prod.mk.injEq] at hm
      exact ⟨main, .inl rfl, main_out hA, e, by rw [hm.1, hplace], hm.2⟩
    · cases h
  · intro q hq hn
    rcases hq with rfl | hq
    · refine ⟨_, by rw [hobjs, Dict.get?_cons, if_pos rfl], ?_⟩
      rw [hplace]
      rfl
    · exact absurd hq hn

theorem leads_split {out : Outer W} {main : Piece} {pieces : List Piece} (hA : Application out main pieces) {p q : Piece} {n : Str} {y : Obj}
    (hq : q = main ∨ q ∈ pieces) (h : LeadsTo main p n q y) :
    ∃ us, jrSplit out.ok out.path2url out.abspath n = .ok (q.url, pointer (q.place ++ us)) := by
  have hg := hA.good q hq
  rcases h with ⟨rfl, _⟩ | ⟨_, us, rfl, hs, _⟩
  · exact ⟨[], by rw [List.append_nil]; exact split_ref hg⟩
  · exact ⟨us, split_pointer hg.url hs⟩

/-- A reference leads into one piece only. -/
theorem leads_one {out : Outer W} {main : Piece} {pieces : List Piece} (hA : Application out main pieces) {p q q' : Piece} {n : Str} {y y' : Obj}
    (hq : q = main ∨ q ∈ pieces) (hq' : q' = main ∨ q' ∈ pieces) (h : LeadsTo main p n q y) (h' : LeadsTo main p n q' y') : q = q' := by
  obtain ⟨us, e⟩ := leads_split hA hq h
  obtain ⟨us', e'⟩ := leads_split hA hq' h'
  rw [e] at e'
  injection e' with e'
  injection e' with e1 e2
  exact apart_below hA hq hq' e1 (us := us') (by rw [← e2, pointer_append]; exact List.prefix_append _ _)

/-- C88: an application of a 2.0 document and pieces that refer to one another in any way, is loaded and migrated to 2.0:
exactly the pieces that can be reached are fetched, each once; their objects know what they refer to, their path items are
merged with those they refer to, and everything in them is found again without loading anything. -/
theorem C88_pieces (out : Outer W) (main : Piece) (pieces : List Piece) (hA : Application out main pieces) (w : W)
    (hfetch : (out.fetch main.url w).1 = .ok main.json) (hver : SaysVersion main.json (some (s% "2.0"))) (n : Nat)
    (hn : pieces.length ≤ n) (hrounds : size main pieces ≤ out.rounds) :
    ∃ a a', App.loadObj (application out (n + 1)) main.url none false (opened w) = (.ok main.obj, a) ∧
      App.migrateObj (application out (n + 1)) main.obj main.url (s% "2.0") a = (.ok main.obj, a') ∧
      a'.original = s% "2.0" ∧ a'.current = some (s% "2.0") ∧
      (∀ p, Reached out main pieces p → p.Known out main pieces a'.world ∧ p.Merged out main pieces a'.world ∧ ∀ m, p.Found (application out m) a') ∧
      ∃ l : List Piece, l.Nodup ∧ (∀ p, p ∈ l ↔ Reached out main pieces p) ∧
        a'.world.rest = l.foldl (fun w p => (out.fetch p.ref w).2) w := by
  replace hver := specVersion_says hver
  have hg := hA.good main (.inl rfl)
  obtain ⟨hplace, href, hcls⟩ := hA.root
  have hload := load_first (out := out) (n := n + 1) hg.url (w := w) (w' := (out.fetch main.url w).2) (j := main.json)
    (by rw [← hfetch]) hver (.inl ⟨rfl, rfl⟩) (o := main.obj) (by
      have := hg.built
      rwa [hcls, href] at this)
  have h0 := loaded_holds hA (out.fetch main.url w).2
  obtain ⟨rest', a', e, hw, hdone, hrel, _⟩ := migrate_piece hA (resolves hA hrounds n) hrounds h0 (fun _ h => h) hn (.inl rfl) (main_out hA)
    .main (fun ts x _ => rfl) (fun q hq hn hne => absurd (hq.resolve_left hne) hn)
  have hroot : (application out (n + 1)).isRoot main.obj = true := isRoot_of hg.built (by rw [hcls]; decide)
  have hknown : ∀ p, (p = main ∨ p ∈ pieces) → p ∉ rest' → Done out main pieces rest' a'.world p := by
    intro p hp hn
    by_cases hpm : p = main
    · subst hpm; exact hdone
    · exact hw.done p (hp.resolve_left hpm) hn
  have hin : ∀ p, Reached out main pieces p → (p = main ∨ p ∈ pieces) ∧ p ∉ rest' := by
    intro p hr
    induction hr with
    | main => exact ⟨.inl rfl, fun hm => main_out hA (hw.sub _ hm)⟩
    | @next p q hp hpq hq ih =>
      refine ⟨.inr hq, ?_⟩
      obtain ⟨ts, x, r, n, y, g1, g2, g3, g4⟩ := hpq
      obtain ⟨n', q', y', k1, k2, k3, k4, _⟩ := ((hknown p ih.1 ih.2).1 ts x g1).1 r g2
      rw [g3] at k1
      cases k1
      rwa [leads_one hA (.inr hq) k2 g4 k4]
  refine ⟨_, { a' with current := some (s% "2.0") }, hload, ?_, hw.holds.original, rfl, fun p hr => ⟨fun ts x hv => ?_, ?_, fun m => ?_⟩, ?_⟩
  · unfold App.migrateObj
    rw [h0.versions, if_neg (by decide)]
    have hv : (application out (n + 1)).versionOf main.obj = .ok (s% "2.0") := by
      show versionOf main.obj = _
      rw [(version_of hg.built).2, hg.version]
    rw [hv]
    dsimp only
    rw [plan2]
    dsimp only
    rw [show (application out (n + 1)).split main.url = .ok (main.url, ['#']) from split_url hg.url]
    dsimp only
    rw [hplace, href] at e
    rw [show pointer [] = ['#'] from rfl] at e
    rw [e, App.migrateLoop]
    dsimp only
    rw [hroot]
    rfl
  · obtain ⟨h1, h2⟩ := hin p hr
    obtain ⟨k1, k2⟩ := (hknown p h1 h2).1 ts x hv
    refine ⟨fun r hr' => ?_, k2⟩
    obtain ⟨n', q', y', g1, g2, _, g4, g5⟩ := k1 r hr'
    exact ⟨n', q', y', g1, g2, g4, g5⟩
  · obtain ⟨h1, h2⟩ := hin p hr
    exact (hknown p h1 h2).2
  · obtain ⟨h1, h2⟩ := hin p hr
    obtain ⟨up, eup⟩ := application_with out m
    rw [eup]
    have hh : Holds main pieces rest' { a' with current := some (s% "2.0") } :=
      ⟨hw.holds.versions, hw.holds.original, hw.holds.only, hw.holds.stored, hw.holds.routes, hw.holds.fresh⟩
    exact stored_found hA hh h1 h2 up
  · obtain ⟨l, g1, g2, g3, g4⟩ := hw.got
    refine ⟨main :: l, List.nodup_cons.2 ⟨fun hm => main_out hA ((g2 _).1 hm).1, g1⟩, fun p => ?_, ?_⟩
    · rw [List.mem_cons]
      constructor
      · rintro (rfl | hp)
        · exact .main
        · exact g3 p hp
      · intro hr
        obtain ⟨h1, h2⟩ := hin p hr
        rcases h1 with h1 | h1
        · exact .inl h1
        · exact .inr ((g2 p).2 ⟨h1, h2⟩)
    · rw [List.foldl_cons, href]
      show a'.world.rest = _
      rw [g4]
      rfl

end Pyopenapi.Main
