import Verif.Lemmas.NativeMerge
import Verif.Lemmas.PiecesUp
import Verif.Lemmas.RefSteady

/-!
# Loading and migrating pieces of 3.0.0, and those they refer to
-/

namespace Pyopenapi.Main.Native
open _root_.Pyopenapi.Spec _root_.Pyopenapi.Refs.Spec Obj

variable {W : Type}

/-- After a scan of a piece. -/
theorem remember_went {out : Outer W} {main : Piece} {pieces rest : List Piece} (hA : Application out main pieces) {a : App Obj (World W)}
    (h : Holds main pieces rest a) (hrest : ∀ p ∈ rest, p ∈ pieces) {p : Piece} (hp : p = main ∨ p ∈ pieces) (hpr : p ∉ rest)
    (attrs : List Str → Refs.Attrs Obj) (ho : ∀ q, (q = main ∨ q ∈ pieces) → q ∉ rest → q ≠ p → NormAt out main pieces rest a.world q)
    (hn : NormAt out main pieces rest (remember a.world (visits p.obj) attrs) p) :
    Went out main pieces [p] rest a rest { a with world := remember a.world (visits p.obj) attrs } := by
  have hg := hA.good p hp
  have hkeep : ∀ x, (∀ ts, ¬ Visited [] p.obj ts x) → attrsOf (remember a.world (visits p.obj) attrs) x = attrsOf a.world x :=
    fun x hx => attrs_keep (fun ts hm => hx ts ((hg.scan.2.2 _ _).1 hm))
  refine ⟨⟨h.versions, h.original, h.only, h.stored, h.routes, fun q hq ts x hv => ?_⟩, fun q hq hqr => ?_, fun _ h => h, Nat.le_refl _,
    fun q hq hn => absurd hq hn, fun x hx => ⟨hkeep x (hx p (.inl (by simp))), rfl⟩, ⟨[], List.nodup_nil, by simp, by simp, rfl⟩, rfl⟩
  · rw [hkeep x (fun us hu => (hA.apart q p (.inr (hrest q hq)) hp (fun e => hpr (e ▸ hq))).1 ts us x hv hu)]
    exact h.fresh q hq ts x hv
  · by_cases e : q = p
    · rw [e]; exact hn
    · exact (ho q hq hqr e).mono (fun _ h => h) (fun ts x hv => hkeep x (fun us hu => (hA.apart q p hq hp e).1 ts us x hv hu))

theorem routes_more {st : Store Obj} {url : Str} (hv : st.versions = [s% "1.2", s% "2.0", s% "3.0.0"])
    (h : Dict.get? st.routes url = none ∨ ∃ r, Dict.get? st.routes url = some [(s% "1.2", []), (s% "2.0", []), (s% "3.0.0", r)]) (new : Routes) :
    ∃ r, st.updateRoutes url (s% "3.0.0") new =
      ({ st with routes := Dict.set st.routes url [(s% "1.2", []), (s% "2.0", []), (s% "3.0.0", r)] }, .ok ()) := by
  unfold Store.updateRoutes Store.tableFor
  rcases h with h | ⟨r, h⟩
  · rw [h, hv]
    exact ⟨_, rfl⟩
  · rw [h]
    exact ⟨_, rfl⟩

theorem routed_went {out : Outer W} {main : Piece} {pieces rest : List Piece} {a : App Obj (World W)} (h : Holds main pieces rest a)
    (hn : Normed out main pieces rest a.world) (url : Str) (r : Routes) : Went out main pieces [] rest a rest
      { a with store := { a.store with routes := Dict.set a.store.routes url [(s% "1.2", []), (s% "2.0", []), (s% "3.0.0", r)] } } := by
  refine ⟨⟨h.versions, h.original, h.only, h.stored, fun u hu => ?_, h.fresh⟩, hn, fun _ h => h, Nat.le_refl _, fun _ h h' => absurd h h',
    fun _ _ => ⟨rfl, rfl⟩, ⟨[], List.nodup_nil, by simp, by simp, rfl⟩, rfl⟩
  show Dict.get? (Dict.set a.store.routes url _) u = none ∨ _
  rw [Dict.get?_set]
  split
  · exact .inr ⟨r, rfl⟩
  · exact h.routes u hu

/-- The scans of a piece the application has, with references to others. -/
theorem scan_piece {out : Outer W} {main : Piece} {pieces rest : List Piece} (hA : Application out main pieces) {k : Nat}
    (hR : Resolves out main pieces k) (hrounds : size main pieces ≤ out.rounds) {a : App Obj (World W)} (h : Holds main pieces rest a)
    (hrest : ∀ p ∈ rest, p ∈ pieces) (hk : rest.length ≤ k) {p : Piece} (hp : p = main ∨ p ∈ pieces) (hpr : p ∉ rest)
    (hreach : Reached out main pieces p) (hfresh : ∀ ts x, Visited [] p.obj ts x → attrsOf a.world x = {})
    (ho : ∀ q, (q = main ∨ q ∈ pieces) → q ∉ rest → q ≠ p → NormAt out main pieces rest a.world q) :
    ∃ rest' a', finish30 out (application out k) p.obj [] p.url (pointer p.place) a = (.ok (p.obj, []), a') ∧
      Went out main pieces [p] rest a rest' a' ∧ Done out main pieces rest' a'.world p := by
  have hg := hA.good p hp
  have hl := hA.linked p hp
  obtain ⟨uc, hs1, hs2⟩ := h.stored p hp hpr
  have hset : a.store.set p.obj p.url (pointer p.place) (s% "3.0.0") = a.store := set_again hs1 hs2 rfl
  obtain ⟨s1, hn1⟩ := Refs.normalizeAll_total (env := refsEnv out (application out k) p.url (s% "2.0") none) (fun c hc => Refs.refField3 hc)
    (linked_ok hl) Refs.reqs3 hg.scan (fresh a)
  obtain ⟨m1, m2, _⟩ := Refs.normalized_fresh (fun c hc => Refs.refField3 hc) hg.scan hn1
  have hplace : ∀ {ts us x}, Visited [] p.obj ts x → (us, x) ∈ visits p.obj → us = ts := fun hv hm =>
    visited_place (ref_ne hg) hg.built ((hg.scan.2.2 _ _).1 hm) hv
  have hnorm1 : NormAt out main pieces rest (remember a.world (visits p.obj) s1.attrs) p := by
    intro ts x hv
    refine ⟨fun r hr => ?_, fun hr => ?_⟩
    · obtain ⟨c, q, d, kids, rfl, hc, hd, hne⟩ := id hr
      obtain ⟨d', e, hh⟩ := hl ts c q _ kids hv hc
      cases e
      rcases hh with ⟨hh, _⟩ | ⟨r', n', t, us0, y, h1, h2, h3, _⟩
      · rw [hd] at hh; cases hh
      · rw [hd] at h1
        cases h1
        refine ⟨n', h3, .inl ?_⟩
        rw [attrs_find (A := { normalized := some n' }) ⟨ts, (hg.scan.2.2 _ _).2 hv⟩ (fun us hm => ?_)]
        obtain ⟨n, g1, g2⟩ := m1 ts _ r hv hr
        have g1 : normalizeJr out.ok (some r) (some p.url) = .ok n := g1
        rw [h3] at g1
        cases g1
        rw [hplace hv hm, g2]
    · rw [attrs_find (A := {}) ⟨ts, (hg.scan.2.2 _ _).2 hv⟩ (fun us hm => ?_)]
      rw [hplace hv hm]
      refine m2 ts (fun y r hy hr' => ?_)
      have := Refs.scanned_unique hg.scan hv hy
      subst this
      exact hr r hr'
  have hw0 := remember_went hA h hrest hp hpr s1.attrs ho hnorm1
  obtain ⟨r0, hrt⟩ := routes_more h.versions (h.routes p.url ⟨p, hp, rfl⟩) [(pointer p.place, .nested [])]
  have hown : ∀ q ∈ [p], (q = main ∨ q ∈ pieces) ∧ q ∉ rest := by
    intro q hq
    rw [List.mem_singleton.1 hq]
    exact ⟨hp, hpr⟩
  have hw1 := hw0.trans hA hrest hown ((routed_went (out := out) hw0.holds hw0.normed p.url r0).mono (by simp))
  unfold finish30
  have hby : byPlace a.world (visits p.obj) = fun _ => {} := byPlace_fresh (fun v hv => hfresh v.1 v.2 ((hg.scan.2.2 _ _).1 hv))
  rw [hby]
  have hn1' : Refs.normalizeAll (refsEnv out (application out k) p.url (s% "2.0") none) Refs.normClasses3 (visits p.obj) ⟨fun _ => {}, a⟩ = .ok s1 := hn1
  rw [hn1']
  dsimp only
  rw [hset, hrt]
  dsimp only
  rw [if_pos h.original]
  dsimp only at hw1
  generalize ha1 : ({ a with
    store := { a.store with routes := Dict.set a.store.routes p.url [(s% "1.2", []), (s% "2.0", []), (s% "3.0.0", r0)] }
    world := remember a.world (visits p.obj) s1.attrs } : App Obj (World W)) = a1 at *
  obtain ⟨s', h1, ⟨rest1, hw'⟩, h3, h4⟩ := Refs.resolve3_follows (refsEnv out (application out k) p.url (s% "2.0") none)
    (refsEnv out (application out k) p.url (s% "3.0.0") (some (s% "3.0.0"))) p.cls hg.class_ p.json hg.wf (some p.ref) p.obj hg.built (visits p.obj)
    hg.scan a a1 rfl rfl hg.noExamples (linked_ok hl) (fun a' => ∃ rest', Went out main pieces [] rest a1 rest' a')
    (fun n y new a' => ∃ q us, (q = main ∨ q ∈ pieces) ∧ LeadsTo main p n q us y ∧ new = q.url ++ pointer (q.place ++ us) ∧ Stored a' q) (by
      rintro ts x r n hv hr hn b a2 hexp ⟨rest2, hw2⟩
      obtain ⟨t, us, y, rest3, a3, ht, hlead, e, hw3, htr, _, _⟩ := answers hA hR hw2.holds hw2.normed (fun q hq => hrest q (hw2.sub q hq))
        (Nat.le_trans hw2.len hk) hp (fun hm => hpr (hw2.sub _ hm)) hreach hv hr hn b true (some (s% "3.0.0")) (.inr rfl) hexp
      exact ⟨y, _, a3, e, ⟨rest3, hw2.trans hA hrest (by simp) hw3⟩, ⟨t, us, ht, hlead, rfl, hw3.holds.stored t ht htr⟩,
        ⟨_, _, split_pointer (hA.good t ht).url (leads_at (hA.good t ht) hlead).1⟩,
        fun m y0 new0 ⟨q, us, g1, g2, g3, g4⟩ => ⟨q, us, g1, g2, g3, hw3.holds.stored q g1 (fun hm => stored_not hA hw2.holds g1 g4 (hw3.sub _ hm))⟩⟩)
    ⟨rest, Went.refl _ hw1.holds hw1.normed⟩ hn1
  rw [h1]
  dsimp only
  have hp1 : p ∉ rest1 := fun hm => hpr (hw'.sub _ hm)
  have hrest1 : ∀ q ∈ rest1, q ∈ pieces := fun q hq => hrest q (hw'.sub q hq)
  have hk1 : KnownIn out main pieces rest1 (remember s'.world.world (visits p.obj) s'.attrs) p := by
    intro ts x hv
    refine ⟨fun r hr => ?_, fun hr => ?_⟩
    · obtain ⟨n, y, new, r', g1, ⟨q, us, g2, g3, rfl, g4⟩, g5, e⟩ := h3 ts x r hv hr
      refine ⟨n, q, us, y, g1, g2, stored_not hA hw'.holds g2 g4, g3, attrs_find ⟨ts, (hg.scan.2.2 _ _).2 hv⟩ (fun us' hm => ?_)⟩
      rw [hplace hv hm, e]
      congr 1
      have hsp := split_pointer (out := out) (hA.good q g2).url (leads_at (hA.good q g2) g3).1
      unfold Refs.rewrite at g5
      simp only at g5
      unfold Rewritten
      split at g5
      · rename_i hst
        rw [show (refsEnv out (application out k) p.url (s% "3.0.0") (some (s% "3.0.0"))).split (q.url ++ pointer (q.place ++ us)) = _ from hsp] at g5
        rw [if_pos hst]
        simp only [bind, Except.bind, Except.ok.injEq] at g5
        rw [g5]
      · rename_i hst
        rw [if_neg hst]
        simp only [Except.ok.injEq] at g5
        rw [g5]
    · refine attrs_find ⟨ts, (hg.scan.2.2 _ _).2 hv⟩ (fun us hm => ?_)
      rw [hplace hv hm]
      refine h4 ts (fun y r hy hr' => ?_)
      have := Refs.scanned_unique hg.scan hv hy
      subst this
      exact hr r hr'
  have hw2 := remember_went hA hw'.holds hrest1 hp hp1 s'.attrs (fun q hq hqr _ => hw'.normed q hq hqr) (by
    intro ts x hv
    obtain ⟨k1, k2⟩ := hk1 ts x hv
    refine ⟨fun r hr => ?_, fun hr => by rw [k2 hr]⟩
    obtain ⟨n, q, us, y, g1, g2, g3, g4, e⟩ := k1 r hr
    exact ⟨n, g1, .inr ⟨q, us, y, g2, g3, g4, by rw [e]⟩⟩)
  obtain ⟨rest2, a4, e4, hw4, g1, g2⟩ := merge_all hA hR hrounds hp hreach (visits p.obj) (fun v hv => (hg.scan.2.2 _ _).1 hv) hw2.holds hw2.normed
    hrest1 (Nat.le_trans hw'.len hk) hp1
  rw [e4]
  dsimp only
  refine ⟨rest2, a4, rfl, ?_, ?_, ?_⟩
  · exact hw1.trans hA hrest hown ((hw'.mono (by simp)).trans hA hrest hown (hw2.trans hA hrest1
      (fun q hq => ⟨(hown q hq).1, fun hm => (hown q hq).2 (hw'.sub q hm)⟩) hw4))
  · intro ts x hv
    rw [(g2 ts x hv).1]
    obtain ⟨k1, k2⟩ := hk1 ts x hv
    refine ⟨fun r hr => ?_, k2⟩
    obtain ⟨n, q, us, y, l1, l2, l3, l4, l5⟩ := k1 r hr
    exact ⟨n, q, us, y, l1, l2, fun hm => l3 (hw4.sub q hm), l4, l5⟩
  · intro ts x r hv hc hr
    exact g1 ts x r ((hg.scan.2.2 _ _).2 hv) hc hr

/-- The migration of a piece the application has, to 3.0.0. -/
theorem migrate_piece {out : Outer W} {main : Piece} {pieces rest : List Piece} (hA : Application out main pieces) {k : Nat}
    (hR : Resolves out main pieces k) (hrounds : size main pieces ≤ out.rounds) {a : App Obj (World W)} (h : Holds main pieces rest a)
    (hrest : ∀ p ∈ rest, p ∈ pieces) (hk : rest.length ≤ k) {p : Piece} (hp : p = main ∨ p ∈ pieces) (hpr : p ∉ rest)
    (hreach : Reached out main pieces p) (hfresh : ∀ ts x, Visited [] p.obj ts x → attrsOf a.world x = {})
    (ho : ∀ q, (q = main ∨ q ∈ pieces) → q ∉ rest → q ≠ p → NormAt out main pieces rest a.world q) :
    ∃ rest' a', (∀ vs, App.migrateLoop (application out (k + 1)) p.ref p.url (s% "3.0.0" :: vs) (pointer p.place) (s% "3.0.0") p.obj a =
        App.migrateLoop (application out (k + 1)) p.ref p.url vs (pointer p.place) (s% "3.0.0") p.obj a') ∧
      Went out main pieces [p] rest a rest' a' ∧ Done out main pieces rest' a'.world p ∧
      (∀ jp, a'.store.relocate p.url jp (s% "3.0.0") (s% "3.0.0") = .ok jp) ∧
      ∃ r, Dict.get? a'.store.routes p.url = some [(s% "1.2", []), (s% "2.0", []), (s% "3.0.0", r)] := by
  have hg := hA.good p hp
  obtain ⟨rest', a0, h1, h2, h3⟩ := scan_piece hA hR hrounds h hrest hk hp hpr hreach hfresh ho
  have hp' : p ∉ rest' := fun hm => hpr (h2.sub _ hm)
  obtain ⟨uc, hs1, hs2⟩ := h2.holds.stored p hp hp'
  obtain ⟨r, hrt⟩ := routes_more h2.holds.versions (h2.holds.routes p.url ⟨p, hp, rfl⟩) [(pointer p.place, .nested [])]
  have hupg : upgrade out (application out k) (s% "3.0.0") p.obj p.ref a = (.ok (p.obj, []), a0) := by
    unfold upgrade
    rw [if_neg (by decide), if_neg (by decide), if_pos rfl]
    unfold upgrade30
    rw [split_ref hg]
    dsimp only
    rw [(version_of hg.built).2, hg.version]
    dsimp only
    rw [if_neg (by decide), if_pos rfl, h1]
  have hrel : ∀ jp, ({ a0.store with routes := Dict.set a0.store.routes p.url [(s% "1.2", []), (s% "2.0", []), (s% "3.0.0", r)] } : Store Obj).relocate
      p.url jp (s% "3.0.0") (s% "3.0.0") = .ok jp := fun jp => (relocate_at (by rw [Dict.get?_set_self]) jp).2.2
  have hset : ({ a0.store with routes := Dict.set a0.store.routes p.url [(s% "1.2", []), (s% "2.0", []), (s% "3.0.0", r)] } : Store Obj).set
      p.obj p.url (pointer p.place) (s% "3.0.0") = _ := set_again hs1 hs2 rfl
  refine ⟨rest', { a0 with
    store := { a0.store with routes := Dict.set a0.store.routes p.url [(s% "1.2", []), (s% "2.0", []), (s% "3.0.0", r)] } },
    ?_, ⟨⟨h2.holds.versions, h2.holds.original, h2.holds.only, h2.holds.stored, ?_, h2.holds.fresh⟩, h2.normed, h2.sub, h2.len, h2.done, h2.same,
      h2.got, h2.current⟩, h3, hrel, r, Dict.get?_set_self _ _ _⟩
  · intro vs
    conv => lhs; rw [App.migrateLoop]
    have : (application out (k + 1)).upgrade (s% "3.0.0") p.obj p.ref a = (.ok (p.obj, []), a0) := hupg
    rw [this]
    dsimp only
    rw [hrt]
    dsimp only
    rw [hrel]
    show App.migrateLoop _ _ _ vs _ _ _ _ = _
    rw [hset]
  · intro u hu
    show Dict.get? (Dict.set a0.store.routes p.url _) u = none ∨ _
    rw [Dict.get?_set]
    split
    · exact .inr ⟨r, rfl⟩
    · exact h2.holds.routes u hu

/-- References to pieces the application does not have yet are followed. -/
theorem resolves {out : Outer W} {main : Piece} {pieces : List Piece} (hA : Application out main pieces)
    (hrounds : size main pieces ≤ out.rounds) : ∀ k, Resolves out main pieces k := by
  intro k
  induction k with
  | zero =>
    intro rest a q b _ _ hk hq
    have := List.length_pos_of_mem hq
    omega
  | succ k ih =>
    intro rest a q b h hrest hk hq hnorm hreach hb dummy to hto
    have hqp := hrest q hq
    have hg := hA.good q (.inr hqp)
    have h1 := put_holds hA h hqp hq
    have hout : q ∉ without rest q := fun hm => (mem_without.1 hm).2 rfl
    obtain ⟨rest', a', e, hw, hdone, hrel, _⟩ := migrate_piece hA ih hrounds h1 (fun p hp => hrest p (mem_without.1 hp).1)
      (by have := length_without hq; omega) (.inr hqp) hout hreach (fun ts x hv => h.fresh q hq ts x hv)
      (fun p hp hn hpq => (hnorm p hp (fun hm => hn (mem_without.2 ⟨hm, hpq⟩))).mono (fun p hp => (mem_without.1 hp).1) (fun _ _ _ => rfl))
    have hq' : q ∉ rest' := fun hm => hout (hw.sub _ hm)
    refine ⟨rest', a', ?_, ⟨hw.holds, hw.normed, fun p hp => (mem_without.1 (hw.sub p hp)).1, ?_, ?_, ?_, ?_, hw.current⟩, hq'⟩
    · obtain ⟨ht, hpr⟩ := truthy_base (base_of hg)
      have hget := get_missing hA h (.inr hqp) hq ((application out (k + 1)).ops a.world) (s% "3.0.0")
      have hun : Store.getUntil ((application out (k + 1)).ops a.world) a.store q.url (pointer q.place) (s% "3.0.0") (some (s% "3.0.0")) = .ok none := by
        unfold Store.getUntil
        rw [h.versions]
        show Store.untilSeek _ _ _ _ = _
        simp only [List.reverse_cons, List.reverse_nil, List.nil_append]
        unfold Store.untilSeek
        rw [hget]
        rfl
      have hload : App.loadObj (application out (k + 1)) q.ref (some (fun j path w => (build pkg b j (some path) [], w))) dummy a = (.ok q.obj, put out a q) :=
        load_piece hA h hqp hq _ hb dummy
      have hmig : App.migrateObj (application out (k + 1)) q.obj q.ref (s% "3.0.0") (put out a q) = (.ok q.obj, a') := by
        unfold App.migrateObj
        rw [h1.versions, if_neg (by decide)]
        have hv : (application out (k + 1)).versionOf q.obj = .ok (s% "3.0.0") := by
          show versionOf q.obj = _
          rw [(version_of hg.built).2, hg.version]
        rw [hv]
        dsimp only
        rw [plan33]
        dsimp only
        rw [show (application out (k + 1)).split q.ref = .ok (q.url, pointer q.place) from split_ref hg]
        dsimp only
        rw [e, App.migrateLoop]
        dsimp only
        rw [notRoot_of hA hqp]
        rfl
      have hto' : resolveIn (application out (k + 1)) dummy (s% "3.0.0") to q.ref b a = resolveIn (application out (k + 1)) dummy (s% "3.0.0") none q.ref b a := by
        rcases hto with rfl | rfl <;> rfl
      rw [hto']
      unfold resolveIn App.resolveObj
      rw [if_neg (ref_ne hg)]
      simp only [show (application out (k + 1)).split q.ref = .ok (q.url, pointer q.place) from split_ref hg, hg.url.ne, if_false, ne_eq,
        not_true_eq_false, hget]
      unfold App.resolveMiss
      rw [hun]
      dsimp only
      rw [h.original, if_neg (by simp), hload]
      dsimp only
      rw [if_pos (show ((application out (k + 1)).ops _).truthy q.obj = true from ht), hmig]
      dsimp only
      rw [show ((application out (k + 1)).ops a'.world).truthy q.obj = true from ht, if_pos rfl]
      have hprep : (application out (k + 1)).prepare q.obj q.ref a' = (.ok q.obj, a') := rfl
      rw [hprep]
      dsimp only
      rw [hrel]
      dsimp only
      have hprim : (application out (k + 1)).isPrim q.obj = false := hpr
      rw [hprim, ht]
      rfl
    · have := hw.len
      have := length_without hq
      omega
    · intro p hp hn
      by_cases hpq : p = q
      · subst hpq; exact hdone
      · exact hw.done p (mem_without.2 ⟨hp, hpq⟩) hn
    · intro x hx
      refine hw.same x (fun p hp => ?_)
      rcases hp with hp | ⟨hp, hn⟩
      · rw [List.mem_singleton.1 hp]
        exact hx q (.inr ⟨hq, hq'⟩)
      · exact hx p (.inr ⟨(mem_without.1 hp).1, hn⟩)
    · obtain ⟨l, g1, g2, g3, g4⟩ := hw.got
      refine ⟨q :: l, List.nodup_cons.2 ⟨fun hm => hout ((g2 q).1 hm).1, g1⟩, fun p => ?_, fun p hp => ?_, ?_⟩
      · rw [List.mem_cons, g2, mem_without]
        constructor
        · rintro (rfl | ⟨⟨k1, _⟩, k3⟩)
          · exact ⟨hq, hq'⟩
          · exact ⟨k1, k3⟩
        · rintro ⟨k1, k2⟩
          by_cases e : p = q
          · exact .inl e
          · exact .inr ⟨⟨k1, e⟩, k2⟩
      · rcases List.mem_cons.1 hp with rfl | hp
        · exact hreach
        · exact g3 p hp
      · rw [g4]
        rfl

end Pyopenapi.Main.Native
