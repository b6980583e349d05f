import Verif.Lemmas.Says
import Verif.Lemmas.Pieces3Up
import Verif.Lemmas.Pieces3Stage
import Verif.Props.Pieces

/-!
# C96: applications made of many documents, migrated from 2.0 to 3.0.0
-/

namespace Pyopenapi.Main
open _root_.Pyopenapi.Spec _root_.Pyopenapi.Refs.Spec Obj Conv

variable {W : Type}

theorem pieces_length {L M : List Piece} (hL : L.Nodup) (h : ∀ x ∈ L, x ∈ M) : L.length ≤ M.length := by
  induction L generalizing M with
  | nil => exact Nat.zero_le _
  | cons x L ih =>
    rw [List.nodup_cons] at hL
    have := ih (M := without M x) hL.2 (fun y hy => mem_without.2 ⟨h y (List.mem_cons_of_mem _ hy), fun e => hL.1 (e ▸ hy)⟩)
    have := length_without (h x List.mem_cons_self)
    simp only [List.length_cons]
    omega

/-- What the store has is found by its reference. -/
theorem found_get {out : Outer W} {up : Str → Obj → Str → App Obj (World W) → R (Obj × Routes) × App Obj (World W)} {a : App Obj (World W)}
    {url ver : Str} {ts : List Str} {x : Obj} (hu : DocUrl out.ok url) (hv : ver ≠ []) (hs : Safe ts) (hx : x.isBase = true)
    (hg : a.store.get ((appWith out up).ops a.world) url (pointer ts) ver = .ok (some x)) (parser : Option (Json → Str → World W → R Obj × World W))
    (to : Option Str) (hto : to = none ∨ to = some ver) (dummy : Bool) :
    App.resolveObj (appWith out up) (url ++ pointer ts) ver parser to dummy a = (.ok (x, url ++ pointer ts), a) := by
  have hne : url ++ pointer ts ≠ [] := by simp [hu.ne]
  obtain ⟨ht, hp⟩ := truthy_base hx
  have hp : (appWith out up).isPrim x = false := hp
  rcases hto with rfl | rfl
  · unfold App.resolveObj
    rw [if_neg hne]
    simp only [show (appWith out up).split (url ++ pointer ts) = .ok (url, pointer ts) from split_pointer hu hs,
      hu.ne, if_false, ne_eq, not_true_eq_false, hg, hp]
    rfl
  · rw [C66_cached (appWith out up) _ ver parser ver dummy a url _ (pointer ts) x hne hv (split_pointer hu hs) hu.ne (.inr ⟨rfl, rfl⟩) hg, hp]
    rfl

section
variable {out : Outer W} {main : Piece} {pieces live todo : List Piece} {cv : Piece → Obj} {rl : Routes} {at2 : Obj → Refs.Attrs Obj}

theorem Stage.known3 (hS : Stage out main pieces live cv rl at2) (hcp : ∀ p ∈ pieces, p.Converted (cv p)) {w : World W} {p : Piece}
    (h : Knows3 out main live cv rl todo w p) :
    Known3 out main pieces (fun j => patchJp j [(['#'], .nested rl)]) (cv main) w p.url (cv p) := by
  intro ts x hv
  refine ⟨fun r hr => ?_, (h ts x hv).2⟩
  obtain ⟨n, t, us, y, g1, g2, _, g4, g5⟩ := (h ts x hv).1 r hr
  refine ⟨n, y, t.url, us, g1, ?_, g5⟩
  rcases g4 with ⟨hne, rfl, rfl, rfl⟩ | ⟨rfl, ts', rfl, k1, k2, k3⟩
  · have := (hS.sub t g2).resolve_left hne
    exact .inl ⟨t, this, rfl, hcp t this, rfl, rfl⟩
  · exact .inr ⟨ts', rfl, k1, rfl, k2, k3⟩

/-- What is reached along the references of 3.0.0 has been converted. -/
theorem Stage.reached3 (hS : Stage out main pieces live cv rl at2) (hcp : ∀ p ∈ pieces, p.Converted (cv p)) {w : World W}
    (h : ∀ p ∈ live, p ∉ todo → Knows3 out main live cv rl todo w p) (hm : main ∉ todo) {p : Piece} {o : Obj}
    (hr : Reached3 out main pieces (cv main) p o) : p ∈ live ∧ p ∉ todo ∧ o = cv p := by
  induction hr with
  | main => exact ⟨hS.root, hm, rfl⟩
  | @next p q o o' ts x r _ hv hr hn hq hc ih =>
    obtain ⟨h1, h2, rfl⟩ := ih
    obtain ⟨n, t, us, y, g1, g2, g3, g4, _⟩ := (h p h1 h2 ts x hv).1 r hr
    rw [hn] at g1
    cases g1
    have hgq := hS.app.good q (.inr hq)
    have key : t = q := by
      have hgt := hS.good g2
      rcases g4 with ⟨_, e, _, _⟩ | ⟨rfl, ts', e, k1, _⟩
      · have e1 := split_ref hgq
        rw [e, split_ref hgt] at e1
        injection e1 with e1
        injection e1 with e1 e2
        exact apart_self hS.app (hS.sub _ g2) (.inr hq) e1 (by rw [e2]; exact List.prefix_refl _)
      · have e1 := split_ref hgq
        rw [e, split_pointer hgt.url k1] at e1
        injection e1 with e1
        injection e1 with e1 e2
        exact absurd e1.symm (url_ne hS.app hq (fun e => main_out hS.app (e ▸ hq)))
    subst key
    exact ⟨g2, g3, converted_inj hc (hcp t hq)⟩

end

/-- C96: an application of a 2.0 document and schemas elsewhere that refer to one another in any way, is loaded and migrated
to 3.0.0: exactly the documents that can be reached in 2.0 are fetched, each once; the main document becomes one of 3.0.0 that
says the same, its definitions, parameters and responses move; whatever the references of the 3.0.0 objects lead to is
migrated too, its references are known and rewritten; path items that refer to others of the document still do (their
references have become absolute) and are merged with them; any other piece is migrated when it is asked for, and nothing is fetched
for that. -/
theorem C96_documents_partial (out : Outer W) (main : Piece) (pieces : List Piece) (d : Dict Json) (hU : Upgradable out main pieces d) (w : W)
    (hfetch : (out.fetch main.url w).1 = .ok main.json) (hver : SaysVersion main.json (some (s% "2.0"))) (n : Nat)
    (hn : pieces.length ≤ n) (hrounds : size main pieces ≤ out.rounds) :
    ∃ a a' r o3 move, App.loadObj (application out (n + 1)) main.url none false (opened w) = (.ok main.obj, a) ∧
      App.migrateObj (application out (n + 1)) main.obj main.url (s% "3.0.0") a = (.ok o3, a') ∧
      a'.original = s% "2.0" ∧ a'.current = some (s% "3.0.0") ∧
      DocTo (docRefs d) d r ∧ build pkg (.cls (s% "v3_0_0.OpenApi")) (.obj r) (some ['#']) [] = .ok o3 ∧
      Moved move (application out (n + 1)) a' main.url d o3 ∧
      PathsKept main.url d o3 ∧ Merged3 main.url o3 a'.world ∧
      (∀ p o, Reached3 out main pieces o3 p o → Reached out main pieces p ∧ Known3 out main pieces move o3 a'.world p.url o ∧
        (∀ m, p.All3 (application out m) a' o) ∧ (p ∈ pieces → p.Became o ∧ ∀ m, p.Found3 (application out m) a' o)) ∧
      (∀ p, Reached out main pieces p → p.Known out main pieces a'.world ∧ (∀ m, p.Found (application out m) a') ∧
        (p ∈ pieces → ∀ parser dummy, ∃ o a'', App.resolveObj (application out (n + 1)) p.ref (s% "2.0") parser (some (s% "3.0.0")) dummy a' =
          (.ok (o, p.url ++ pointer p.place), a'') ∧ p.Became o ∧ Known3 out main pieces move o3 a''.world p.url o ∧
          a''.world.rest = a'.world.rest)) ∧
      ∃ l : List Piece, l.Nodup ∧ (∀ p, p ∈ l ↔ Reached out main pieces p) ∧
        a'.world.rest = l.foldl (fun w p => (out.fetch p.ref w).2) w := by
  replace hver := specVersion_says hver
  have hA := hU.app
  have hg := hA.good main (.inl rfl)
  obtain ⟨hplace, href, hcls⟩ := hA.root
  have hpt : pointer main.place = ['#'] := by rw [hplace]; rfl
  have hload := load_first (out := out) (n := n + 1) hg.url (w := w) (w' := (out.fetch main.url w).2) (j := main.json)
    (by rw [← hfetch]) hver (.inl ⟨rfl, rfl⟩) (o := main.obj) (by
      have := hg.built
      rwa [hcls, href] at this)
  have h0 := loaded_holds hA (out.fetch main.url w).2
  obtain ⟨rest', a2, e, hw, hdone, _, r2, hroutes⟩ := migrate_piece hA (resolves hA hrounds n) hrounds h0 (fun _ h => h) hn (.inl rfl) (main_out hA)
    .main (fun ts x _ => rfl) (fun q hq hn hne => absurd (hq.resolve_left hne) hn)
  have hknown : ∀ p, (p = main ∨ p ∈ pieces) → p ∉ rest' → Done out main pieces rest' a2.world p := by
    intro p hp hn
    by_cases hpm : p = main
    · subst hpm; exact hdone
    · exact hw.done p (hp.resolve_left hpm) hn
  have hin : ∀ p, Reached out main pieces p → (p = main ∨ p ∈ pieces) ∧ p ∉ rest' := by
    intro p hr
    induction hr with
    | main => exact ⟨.inl rfl, fun hm => main_out hA (hw.sub _ hm)⟩
    | @next p q hp hpq hq ih =>
      refine ⟨.inr hq, ?_⟩
      obtain ⟨ts, x, r, n, y, g1, g2, g3, g4⟩ := hpq
      obtain ⟨n', q', y', k1, k2, k3, k4, _⟩ := ((hknown p ih.1 ih.2).1 ts x g1).1 r g2
      rw [g3] at k1
      cases k1
      rwa [leads_one hA (.inr hq) k2 g4 k4]
  have hk : AllKnown out main pieces a2.world := by
    intro p hr ts x hv
    obtain ⟨h1, h2⟩ := hin p hr
    obtain ⟨k1, k2⟩ := (hknown p h1 h2).1 ts x hv
    refine ⟨fun r hr' => ?_, k2⟩
    obtain ⟨n', q', y', g1, g2, _, g4, g5⟩ := k1 r hr'
    exact ⟨n', q', y', g1, g2, g4, g5⟩
  obtain ⟨l, g1, g2, g3, g4⟩ := hw.got
  have hlive : ∀ p, p ∈ main :: l ↔ Reached out main pieces p := by
    intro p
    rw [List.mem_cons]
    constructor
    · rintro (rfl | hp)
      · exact .main
      · exact g3 p hp
    · intro hr
      obtain ⟨h1, h2⟩ := hin p hr
      exact h1.imp_right (fun h1 => (g2 p).2 ⟨h1, h2⟩)
  have hmem : ∀ q, (q = main ∨ q ∈ pieces) → q ∉ rest' → q ∈ main :: l := by
    intro q hq hn
    rcases hq with rfl | hq
    · exact List.mem_cons_self
    · exact List.mem_cons_of_mem _ ((g2 q).2 ⟨hq, hn⟩)
  have hlm : main ∉ l := fun hm => main_out hA ((g2 _).1 hm).1
  have hout : ∀ q ∈ main :: l, (q = main ∨ q ∈ pieces) ∧ q ∉ rest' := fun q hq => hin q ((hlive q).1 hq)
  obtain ⟨r, rl, cv, _, hdoc, hb3, hcv, hentries, hpaths, hS⟩ := stage_of hU hk hlive hrounds
  have hcp : ∀ p ∈ pieces, p.Converted (cv p) := fun p hp => (hcv p hp).1
  have hH : Holds3 main (main :: l) cv rl (attrsOf a2.world) (main :: l) a2 := by
    refine ⟨⟨hw.holds.versions, ?_, ?_, ⟨r2, fun _ => hroutes, fun hm => absurd List.mem_cons_self hm⟩, ?_⟩, ⟨fun _ _ _ _ _ => rfl, ?_⟩, hw.holds.original⟩
    · intro u uc ⟨p, hp, hu⟩ hget jp cache hm
      obtain ⟨q, k1, k2, k3, k4, k5⟩ := hw.holds.only u uc ⟨p, (hout p hp).1, hu⟩ hget jp cache hm
      exact ⟨q, hmem q k1 k2, k3, k4, .inl k5⟩
    · intro q hq
      obtain ⟨uc, k1, k2⟩ := hw.holds.stored q (hout q hq).1 (hout q hq).2
      exact ⟨uc, k1, _, k2, fun _ => rfl, fun hm => absurd hq hm⟩
    · intro p hp hne
      rcases hw.holds.routes p.url ⟨p, (hout p hp).1, rfl⟩ with h | ⟨r, h⟩
      · exact .inl h
      · exact .inr ⟨r, [], h, fun e he => by cases he⟩
    · intro q hq ts x hv
      refine (hw.same x (fun p hp us hu => ?_)).1
      refine hS.new q hq p ?_ ts us x hv hu
      rcases hp with hp | ⟨hp, hp'⟩
      · rw [List.mem_singleton.1 hp]; exact List.mem_cons_self
      · exact hmem p (.inr hp) hp'
  have hlen : (without (main :: l) main).length ≤ n := by
    have := length_without (rest := main :: l) (q := main) List.mem_cons_self
    have := pieces_length g1 (fun p hp => ((g2 p).1 hp).1)
    simp only [List.length_cons] at *
    omega
  obtain ⟨todo', a3, e3, hw3, hm3, hmerged⟩ := migrate3 hS (resolves3 hS n) hH (fun _ h => h) List.mem_cons_self hlen
    (fun hm => (mem_without.1 hm).2 rfl) (jref := main.url) (by rw [hpt]; exact split_url hg.url)
  have hroot : (application out (n + 1)).isRoot (cv main) = true := isRoot_of hb3 (by decide)
  generalize ha' : ({ a3 with current := some (s% "3.0.0") } : App Obj (World W)) = a'
  have hh : Holds3 main (main :: l) cv rl (attrsOf a2.world) todo' a' := by
    subst ha'; exact ⟨hw3.holds.keeps, hw3.holds.marks, hw3.holds.original⟩
  have hworld : a'.world = a3.world := by subst ha'; rfl
  have hknows : ∀ p ∈ main :: l, p ∉ todo' → Knows3 out main (main :: l) cv rl todo' a'.world p := by
    rw [hworld]; exact hw3.done
  refine ⟨_, a', r, cv main, fun j => patchJp j [(['#'], .nested rl)], hload, ?_, hh.original, by subst ha'; rfl, hdoc, hb3, ?_, ?_, by rw [hworld]; exact hmerged rfl, ?_, ?_, main :: l,
    List.nodup_cons.2 ⟨hlm, g1⟩, hlive, ?_⟩
  · unfold App.migrateObj
    rw [h0.versions, if_neg (by decide)]
    have hv : (application out (n + 1)).versionOf main.obj = .ok (s% "2.0") := by
      show versionOf main.obj = _
      rw [(version_of hg.built).2, hg.version]
    rw [hv]
    dsimp only
    rw [plan3]
    dsimp only
    rw [show (application out (n + 1)).split main.url = .ok (main.url, ['#']) from split_url hg.url]
    dsimp only
    rw [hpt, href] at e
    rw [hpt] at e3
    rw [e, e3]
    dsimp only
    rw [hroot, ← ha']
    rfl
  · intro sec m v hsec hv hsafe
    obtain ⟨x, v', p, y, _, k2, k3, k4, k5⟩ := hentries sec m v hsec hv
    refine ⟨x, v', p, y, k2, k3, k4, k5, fun parser dummy => ?_⟩
    obtain ⟨up, eup⟩ := application_with out (n + 1)
    rw [eup]
    exact hit_main hS hh hm3 up dummy hsafe k5 k4
  · intro k e hk
    obtain ⟨y, h1, h2, h3, _, h5⟩ := hpaths k _ hk
    exact ⟨y, h1, h2, h3, fun r => h5 e r rfl⟩
  · intro p o hr
    obtain ⟨h1, h2, rfl⟩ := hS.reached3 hcp hknows hm3 hr
    refine ⟨(hlive p).1 h1, hS.known3 hcp (hknows p h1 h2), (fun m us x parser to dummy hs hx hto => by
      obtain ⟨up, eup⟩ := application_with out m
      rw [eup]
      exact found_get (hS.good h1).url (by decide) hs hx.2 ((hh.keeps.get3 hS h1 h2 _ us).trans (resolveObject_at hx)) parser to hto dummy), fun hp => ⟨(hcv p hp).2, fun m parser dummy => ?_⟩⟩
    obtain ⟨up, eup⟩ := application_with out m
    rw [eup]
    exact hit_piece hS hh h1 (fun e => main_out hA (e ▸ hp)) h2 up dummy
  · intro p hr
    have hpl := (hlive p).2 hr
    refine ⟨fun ts x hv => ?_, (fun m us x parser to dummy hs hx hto => by
      obtain ⟨up, eup⟩ := application_with out m
      rw [eup]
      exact found_get (hS.good hpl).url (by decide) hs hx.2 ((hh.keeps.get2 hS hpl _ us).trans (resolveObject_at hx)) parser to hto dummy), fun hp parser dummy => ?_⟩
    · rw [hh.marks.old p hpl ts x hv]
      exact hk p hr ts x hv
    · have hne : p ≠ main := fun e => main_out hA (e ▸ hp)
      by_cases ht : p ∈ todo'
      · obtain ⟨todo4, a4, k1, k2, k3⟩ := resolves3 hS (n + 1) todo' a' p parser dummy hh hw3.sub (by
          have := hw3.len
          have := pieces_length g1 (fun p hp => ((g2 p).1 hp).1)
          simp only [List.length_cons] at *
          omega) hm3 ht
        exact ⟨_, a4, k1, (hcv p hp).2, hS.known3 hcp (k2.done p ht k3), k2.rest⟩
      · obtain ⟨up, eup⟩ := application_with out (n + 1)
        rw [eup]
        exact ⟨_, a', hit_piece hS hh hpl hne ht up dummy, (hcv p hp).2, hS.known3 hcp (hknows p hpl ht), rfl⟩
  · rw [List.foldl_cons, href, hworld, hw3.rest, g4]
    rfl

end Pyopenapi.Main
