import Verif.Lemmas.Main20

/-!
# v3_0_0/main.py: the upgrade of a 3.0.0 document that refers to nothing but itself
-/

namespace Pyopenapi.Main
open _root_.Pyopenapi.Spec _root_.Pyopenapi.Refs.Spec Obj

variable {W : Type}

/-- The answer to a reference into the document, of which parts have moved. -/
def answerVia (move : Str → Str) (root : Obj) (url n : Str) : Obj × Str :=
  match Obj.resolve pkg ((jpSplit (move (n.drop url.length))).drop 1) root with
  | .ok x => (x, url ++ move (n.drop url.length))
  | .error _ => (root, n)

theorem answerVia_at {move : Str → Str} {root x : Obj} {url : Str} {ts us : List Str} (hm : move (pointer ts) = pointer us) (h : At root us x) :
    answerVia move root url (url ++ pointer ts) = (x, url ++ pointer us) := by
  unfold answerVia
  rw [List.drop_left, hm, split_back, h.1]

theorem via_ref {move : Str → Str} {root : Obj} {classes needed : List Str} (h : LinkedVia move root classes needed) {ts : List Str} {x : Obj}
    {r : Str} (hv : Visited [] root ts x) (hr : Refers classes x r) :
    ∃ t us vs y, r = pointer (t :: us) ∧ Safe (t :: us) ∧ move r = pointer vs ∧ Safe vs ∧ At root vs y := by
  obtain ⟨c, q, d, kids, rfl, hc, hd, hne⟩ := hr
  obtain ⟨d', e, h⟩ := h ts c q _ kids hv hc
  cases e
  rcases h with ⟨h, _⟩ | ⟨t, us, vs, y, h, h1, h2, h3, h4⟩
  · rw [hd] at h; cases h
  · rw [hd] at h
    cases h
    exact ⟨t, us, vs, y, rfl, h1, h2, h3, h4⟩

theorem via_refsOk {move : Str → Str} {root : Obj} {classes needed : List Str} (h : LinkedVia move root classes needed) {out : Outer W}
    {app : AppEnv Obj (World W)} {url from_ : Str} {to : Option Str} (hu : url ≠ []) :
    Refs.Spec.RefsOk (refsEnv out app url from_ to) root classes needed := by
  intro ts c q spec kids hv hc
  obtain ⟨d, e, h⟩ := h ts c q spec kids hv hc
  refine ⟨d, e, ?_⟩
  rcases h with h | ⟨t, us, vs, y, h, _⟩
  · exact .inl h
  · exact .inr ⟨_, _, h, by simp [pointer], norm_pointer hu⟩

theorem via_merge {move : Str → Str} {root : Obj} {L : List (List Str × Obj)} (hL : Scanned root L) {cls : Str} {classes needed : List Str}
    (hc : cls ∈ classes) (hf : Refs.refField cls = true) (hr : Refs.refLoose cls = true) (hl : LinkedVia move root classes needed)
    (hn : NoPathRef root cls) :
    ∀ ts x, (ts, x) ∈ L → x.className? = some cls → ∃ v, Refs.refOf x = .ok v ∧ v.truthy = false := by
  intro ts x hm hx
  have hv := (hL.2.2 _ _).1 hm
  cases x with
  | base c q spec kids =>
    simp only [className?, Option.some.injEq] at hx
    subst hx
    obtain ⟨d, rfl, _⟩ := hl ts c q spec kids hv hc
    exact ⟨.null, Refs.refOf_none (q := q) hf hr (hn ts q d kids hv), rfl⟩
  | _ => cases hx

theorem finish30_local {out : Outer W} {up : Str → Obj → Str → App Obj (World W) → R (Obj × Routes) × App Obj (World W)}
    {a : App Obj (World W)} {url c : Str} {j : Json} {p : Option Str} {o : Obj} {reloc : Routes} {move : Str → Str} {st : Store Obj}
    (hu : DocUrl out.ok url) (hc : c ≠ s% "v3_0_0.Reference")
    (hj : j.wf = true) (hb : build pkg (.cls c) j p [] = .ok o) (hL : Scanned o (visits o)) (hclean : Clean a url)
    (hex : NoExamples o) (hlink : LinkedVia move o Refs.normClasses3 [s% "v3_0_0.Reference"])
    (hpath : NoPathRef o (s% "v3_0_0.PathItem")) (hfresh : ∀ v ∈ visits o, attrsOf a.world v.2 = {})
    (hst : (a.store.set o url ['#'] (s% "3.0.0")).updateRoutes url (s% "3.0.0") [(['#'], .nested reloc)] = (st, .ok ()))
    (hmove : ∀ ts, (a.original = s% "3.0.0" ∧ move (pointer ts) = pointer ts) ∨
      (a.original ≠ s% "3.0.0" ∧ st.relocate url (pointer ts) (s% "2.0") (s% "3.0.0") = .ok (move (pointer ts)))) :
    ∃ w', finish30 out (appWith out up) o reloc url ['#'] a = (.ok (o, reloc), { a with store := st, world := w' }) ∧
      KnowsVia move w' o Refs.normClasses3 url ∧ (∀ x, (∀ ts, ¬ Visited [] o ts x) → attrsOf w' x = attrsOf a.world x) ∧
      w'.rest = a.world.rest := by
  obtain ⟨s0, hs0⟩ := Refs.normalizeAll_total (env := refsEnv out (appWith out up) url (s% "2.0") none) (fun c hc => Refs.refField3 hc)
    (via_refsOk hlink hu.ne) Refs.reqs3 hL (fresh a)
  have hHas : Has { a with store := st, world := remember a.world (visits o) s0.attrs } url (s% "3.0.0") o := by
    obtain ⟨cache, h1, h2⟩ := has_set hclean o (s% "3.0.0")
    refine ⟨cache, ?_, h2⟩
    rw [← h1]
    unfold Store.updateRoutes at hst
    dsimp only at hst
    split at hst
    · cases hst
    · cases hst; rfl
  unfold finish30
  rw [byPlace_fresh hfresh]
  have hsteady : Refs.Steady (refsEnv out (appWith out up) url (if a.original = s% "3.0.0" then s% "3.0.0" else s% "2.0") (some (s% "3.0.0")))
      o Refs.normClasses3 { a with store := st, world := remember a.world (visits o) s0.attrs } (answerVia move o url) := by
    intro ts x r n hv hr hn q
    obtain ⟨t, us, vs, y, rfl, h1, h2, h3, h4⟩ := via_ref hlink hv hr
    rw [norm_only hu.ne hn]
    show resolveIn _ _ _ _ _ _ _ = _
    rw [answerVia_at h2 h4]
    rcases hmove (t :: us) with ⟨h5, h6⟩ | ⟨h5, h6⟩
    · rw [if_pos h5]
      rw [h2] at h6
      have e : vs = t :: us := by
        have := congrArg (fun s => (jpSplit s).drop 1) h6
        simpa only [split_back] using this
      subst e
      exact hit_same hu (by decide) h1 hHas h4 _ (.inr rfl) true q
    · rw [if_neg h5]
      rw [h2] at h6
      exact hit_moved hu (by decide) (by decide) h1 hHas h6 h4 true q
  obtain ⟨s1, h1, s', h2, h3, h4, h5⟩ := Refs.resolve3_steady (refsEnv out (appWith out up) url (s% "2.0") none)
    (refsEnv out (appWith out up) url (if a.original = s% "3.0.0" then s% "3.0.0" else s% "2.0") (some (s% "3.0.0")))
    c hc j hj p o hb (visits o) hL a { a with store := st, world := remember a.world (visits o) s0.attrs } rfl rfl hex (via_refsOk hlink hu.ne) _ hsteady
    (fun ts x r n hv hr hn => by
      obtain ⟨t, us, vs, y, rfl, h1, h2, h3, h4⟩ := via_ref hlink hv hr
      rw [norm_only hu.ne hn, answerVia_at h2 h4]
      exact ⟨_, _, split_pointer hu h3⟩)
  have h1' : Refs.normalizeAll (refsEnv out (appWith out up) url (s% "2.0") none) Refs.normClasses3 (visits o) ⟨fun _ => {}, a⟩ = .ok s1 := h1
  rw [hs0] at h1
  cases h1
  rw [h1']
  dsimp only
  rw [hst]
  dsimp only
  rw [h2]
  dsimp only
  rw [mergeAll_nothing (via_merge hL (by decide) (by decide +kernel) (by decide +kernel) hlink hpath), h3]
  refine ⟨_, rfl, ?_, ?_, rfl⟩
  · intro ts x hv
    refine ⟨fun r hr => ?_, fun hr => ?_⟩
    · obtain ⟨t, us, vs, y, rfl, hs, hm, hvs, hy⟩ := via_ref hlink hv hr
      refine ⟨vs, y, hm, hy, attrs_find ⟨ts, (hL.2.2 _ _).2 hv⟩ (fun ts' hm' => ?_)⟩
      obtain ⟨n, r', hn, hrw, e⟩ := h4 ts' x _ ((hL.2.2 _ _).1 hm') hr
      rw [e, norm_only hu.ne hn, answerVia_at hm hy]
      rw [norm_only hu.ne hn, answerVia_at hm hy] at hrw
      unfold Refs.rewrite at hrw
      dsimp only at hrw
      rw [show Str.startsWith (pointer (t :: us)) (s% "#") = true from rfl] at hrw
      simp only [if_true] at hrw
      rw [show (refsEnv out (appWith out up) url _ _).split _ = _ from split_pointer hu hvs] at hrw
      cases hrw
      rfl
    · refine attrs_find ⟨ts, (hL.2.2 _ _).2 hv⟩ (fun ts' hm => h5 ts' (fun y r hy hr' => ?_))
      have := Refs.scanned_unique hL ((hL.2.2 _ _).1 hm) hy
      subst this
      exact hr r hr'
  · intro x hx
    rw [attrs_keep (fun ts hm => hx ts ((hL.2.2 _ _).1 hm))]
    exact attrs_keep (fun ts hm => hx ts ((hL.2.2 _ _).1 hm))

end Pyopenapi.Main
