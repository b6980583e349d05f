import Verif.Lemmas.Pieces3Run

/-!
# Pieces are migrated from 2.0 to 3.0.0, and those they refer to
-/

namespace Pyopenapi.Main
open _root_.Pyopenapi.Spec _root_.Pyopenapi.Refs.Spec Obj

variable {W : Type} {out : Outer W} {main : Piece} {pieces live todo : List Piece} {cv : Piece → Obj} {rl : Routes} {at2 : Obj → Refs.Attrs Obj}

theorem Keeps.stay (hS : Stage out main pieces live cv rl at2) {st : Store Obj} (h : Keeps main live cv rl todo st) {p : Piece} (hp : p ∈ live)
    (hr : p ∉ todo) : st.relocate p.url (pointer p.place) (s% "2.0") (s% "3.0.0") = .ok (pointer p.place) := by
  by_cases e : p = main
  · subst e
    rw [h.relocateMain hr, hS.app.root.1]
    exact congrArg _ (patch_root rl hS.keys)
  · exact (h.relocate hp e _).2

theorem Holds3.store {a : App Obj (World W)} (h : Holds3 main live cv rl at2 todo a) {st : Store Obj} (hst : Keeps main live cv rl todo st) :
    Holds3 main live cv rl at2 todo { a with store := st } := ⟨hst, h.marks, h.original⟩

/-- The step from 2.0 to 3.0.0 of a piece. -/
theorem migrate3 (hS : Stage out main pieces live cv rl at2) {k : Nat} (hR : Resolves3 out main live cv rl at2 k) {a : App Obj (World W)}
    (h : Holds3 main live cv rl at2 todo a) (hsub : ∀ q ∈ todo, q ∈ live) {p : Piece} (hp : p ∈ todo) (hk : (without todo p).length ≤ k)
    (hm : main ∉ without todo p) {jref : Str} (hs : jrSplit out.ok out.path2url out.abspath jref = .ok (p.url, pointer p.place)) :
    ∃ todo' a', App.migrateLoop (application out (k + 1)) jref p.url [s% "3.0.0"] (pointer p.place) (s% "2.0") p.obj a = (.ok (cv p), a') ∧
      Went3 out main live cv rl at2 todo a todo' a' ∧ p ∉ todo' ∧ (p = main → Merged3 main.url (cv main) a'.world) := by
  have hpl := hsub p hp
  have hg := hS.good hpl
  obtain ⟨r, hconv, hr1, hr2⟩ := hS.convert p hpl a.world h.marks.old
  obtain ⟨todo', a1, h1, hw, hout, hmerged⟩ := finish3 hS hR h hsub hp hk hm hr1 hr2
  obtain ⟨st, h2, hst⟩ := hw.holds.keeps.again hS hpl hout hr1 hr2
  refine ⟨todo', { a1 with store := st }, ?_, ⟨hw.holds.store hst, hw.sub, hw.len, hw.done, hw.same, hw.rest, hw.current⟩, hout, hmerged⟩
  rw [App.migrateLoop]
  have : (application out (k + 1)).upgrade (s% "3.0.0") p.obj jref a = (.ok (cv p, r), a1) := by
    show upgrade out (application out k) (s% "3.0.0") p.obj jref a = _
    unfold upgrade
    rw [if_neg (by decide), if_neg (by decide), if_pos rfl]
    unfold upgrade30
    rw [hs]
    dsimp only
    rw [(version_of hg.built).2, hg.version]
    dsimp only
    rw [if_pos rfl, h.keeps.override hS hpl hp]
    dsimp only
    rw [hconv]
    exact h1
  rw [this]
  dsimp only
  rw [h2]
  dsimp only
  rw [hst.stay hS hpl hout]
  show App.migrateLoop _ _ _ [] _ _ _ _ = _
  rw [App.migrateLoop]
  show (Except.ok (cv p), { a1 with store := st.set (cv p) p.url (pointer p.place) (s% "3.0.0") }) = _
  rw [hst.set3 hpl hout]

/-- The step to 2.0 of a piece that has been there before. -/
theorem migrate2 (hS : Stage out main pieces live cv rl at2) {k : Nat} {a : App Obj (World W)}
    (h : Holds3 main live cv rl at2 todo a) {p : Piece} (hp : p ∈ live) (hne : p ≠ main)
    {jref : Str} (hs : jrSplit out.ok out.path2url out.abspath jref = .ok (p.url, pointer p.place)) :
    ∃ a', (∀ vs, App.migrateLoop (application out (k + 1)) jref p.url (s% "2.0" :: vs) (pointer p.place) (s% "2.0") p.obj a =
        App.migrateLoop (application out (k + 1)) jref p.url vs (pointer p.place) (s% "2.0") p.obj a') ∧
      Went3 out main live cv rl at2 todo a todo a' := by
  have hg := hS.good hp
  have hknew : p.Knew out a.world := by
    intro ts x hv
    rw [h.marks.old p hp ts x hv]
    exact hS.knew p hp ts x hv
  obtain ⟨w', h1, hw, _, _, hrest⟩ := finish20_again (app := application out k) hg (hS.app.linked p (hS.sub p hp)) (hS.noPath p hp hne) hs (h.keeps.set2 hp) hknew
  obtain ⟨st, h2, hst⟩ := h.keeps.again2 hS hp hne
  refine ⟨{ a with store := st, world := w' }, fun vs => ?_, ⟨⟨hst, ⟨?_, ?_⟩, h.original⟩, fun _ h => h, Nat.le_refl _, fun _ h h' => absurd h h',
    fun x _ => hw x, hrest, rfl⟩⟩
  · conv => lhs; rw [App.migrateLoop]
    have : (application out (k + 1)).upgrade (s% "2.0") p.obj jref a = (.ok (p.obj, []), { a with world := w' }) := by
      show upgrade out (application out k) (s% "2.0") p.obj jref a = _
      unfold upgrade
      rw [if_neg (by decide), if_pos rfl]
      unfold upgrade20
      rw [(version_of hg.built).2, hg.version]
      dsimp only
      rw [if_neg (by decide), if_pos rfl, h1]
    rw [this]
    dsimp only
    rw [h2]
    dsimp only
    rw [(hst.relocate hp hne _).1]
    show App.migrateLoop _ _ _ vs _ _ _ { a with store := st.set p.obj p.url (pointer p.place) (s% "2.0"), world := w' } = _
    rw [hst.set2 hp]
  · intro q hq ts x hv
    show attrsOf w' x = _
    rw [hw x]
    exact h.marks.old q hq ts x hv
  · intro q hq ts x hv
    show attrsOf w' x = _
    rw [hw x]
    exact h.marks.fresh q hq ts x hv

theorem Stage.notRoot (hS : Stage out main pieces live cv rl at2) {q : Piece} (hq : q ∈ live) (hne : q ≠ main) {n : Nat} :
    (application out n).isRoot (cv q) = false := by
  obtain ⟨c, j, _, hc, hv, _, hb⟩ := hS.built q hq
  obtain ⟨up, e⟩ := application_with out n
  rw [e]
  show (match (cv q).className? with | some c => _ | none => false) = false
  rw [(version_of hb).1]
  have h1 : c ≠ s% "v1_2.ResourceListing" := by rintro rfl; revert hv; decide
  have h2 : c ≠ s% "v2_0.Swagger" := by rintro rfl; revert hv; decide
  have h3 : c ≠ s% "v3_0_0.OpenApi" := fun e => hne (hc.1 e)
  simp [h1, h2, h3]

/-- References to pieces that have not been converted yet are followed. -/
theorem resolves3 (hS : Stage out main pieces live cv rl at2) : ∀ k, Resolves3 out main live cv rl at2 k := by
  intro k
  induction k with
  | zero =>
    intro todo a q parser dummy _ _ hk _ hq
    have := List.length_pos_of_mem hq
    omega
  | succ k ih =>
    intro todo a q parser dummy h hsub hk hm hq
    have hql := hsub q hq
    have hne : q ≠ main := fun e => hm (e ▸ hq)
    have hg := hS.good hql
    have hs : jrSplit out.ok out.path2url out.abspath (q.url ++ pointer q.place) = .ok (q.url, pointer q.place) := split_pointer hg.url hg.safe
    obtain ⟨a1, h1, hw1⟩ := migrate2 (k := k) hS h hql hne hs
    obtain ⟨todo', a2, h2, hw2, hout, _⟩ := migrate3 hS ih hw1.holds hsub hq (by have := length_without hq; omega)
      (fun hh => hm (mem_without.1 hh).1) hs
    refine ⟨todo', a2, ?_, hw1.trans hS hsub hw2, hout⟩
    have hb := hS.base hql
    obtain ⟨ht, hpr⟩ := truthy_base hb
    have hb2 : q.obj.isBase = true := base_of hg
    have hget := h.keeps.get3_none hS hql hq ((application out (k + 1)).ops a.world)
    have hget2 : a.store.get ((application out (k + 1)).ops a.world) q.url (pointer q.place) (s% "2.0") = .ok (some q.obj) := by
      have := (h.keeps.get2 hS hql ((application out (k + 1)).ops a.world) []).trans (resolveObject_at ⟨rfl, hb2⟩)
      rwa [List.append_nil] at this
    have hun : Store.getUntil ((application out (k + 1)).ops a.world) a.store q.url (pointer q.place) (s% "2.0") (some (s% "3.0.0")) =
        .ok (some (q.obj, pointer q.place, s% "2.0")) := by
      unfold Store.getUntil
      rw [h.keeps.versions]
      show (do let chain ← Store.untilChain a.store q.url [s% "3.0.0"] (s% "2.0") (pointer q.place) [(s% "2.0", pointer q.place)]
               Store.untilSeek _ _ _ chain.reverse) = _
      unfold Store.untilChain
      rw [(h.keeps.relocate hql hne _).2]
      unfold Store.untilChain
      show Store.untilSeek _ _ _ [(s% "3.0.0", pointer q.place), (s% "2.0", pointer q.place)] = _
      unfold Store.untilSeek
      rw [hget]
      dsimp only [bind, Except.bind]
      unfold Store.untilSeek
      rw [hget2]
      have : ((application out (k + 1)).ops a.world).truthy q.obj = true := (truthy_base hb2).1
      simp only [bind, Except.bind, this, if_true]
      rfl
    have hmig : App.migrateObj (application out (k + 1)) q.obj (q.url ++ pointer q.place) (s% "3.0.0") a = (.ok (cv q), a2) := by
      unfold App.migrateObj
      rw [h.keeps.versions, if_neg (by decide)]
      have hv : (application out (k + 1)).versionOf q.obj = .ok (s% "2.0") := by
        show versionOf q.obj = _
        rw [(version_of hg.built).2, hg.version]
      rw [hv]
      dsimp only
      rw [plan3]
      dsimp only
      rw [show (application out (k + 1)).split (q.url ++ pointer q.place) = .ok (q.url, pointer q.place) from hs]
      dsimp only
      rw [h1, h2]
      dsimp only
      rw [hS.notRoot hql hne]
      rfl
    unfold App.resolveObj
    rw [if_neg (ref_ne hg)]
    have e0 : (if (s% "3.0.0") = [] then s% "2.0" else s% "3.0.0") = s% "3.0.0" := rfl
    simp only [show (application out (k + 1)).split q.ref = .ok (q.url, pointer q.place) from split_ref hg, hg.url.ne, if_false]
    rw [if_pos (by decide), e0, (h.keeps.relocate hql hne _).2]
    dsimp only
    rw [hget]
    dsimp only
    unfold App.resolveMiss
    rw [hun]
    dsimp only
    rw [if_pos (show ((application out (k + 1)).ops _).truthy q.obj = true from (truthy_base hb2).1), hmig]
    dsimp only
    rw [show ((application out (k + 1)).ops a2.world).truthy (cv q) = true from ht, if_pos rfl]
    have hprep : (application out (k + 1)).prepare (cv q) (q.url ++ pointer q.place) a2 = (.ok (cv q), a2) := rfl
    rw [hprep]
    dsimp only
    rw [(hw2.holds.keeps.relocate hql hne _).2]
    dsimp only
    have hprim : (application out (k + 1)).isPrim (cv q) = false := hpr
    rw [hprim]
    rfl

end Pyopenapi.Main
