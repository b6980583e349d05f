import Verif.Lemmas.MainHit

/-!
# v2_0/main.py: the upgrade of a 2.0 document that refers to nothing but itself
-/

namespace Pyopenapi.Main
open _root_.Pyopenapi.Spec _root_.Pyopenapi.Refs.Spec Obj

variable {W : Type}

theorem split_back (ts : List Str) : (jpSplit (pointer ts)).drop 1 = ts := by
  rw [pointer_compose]
  have := C01_jp_roundtrip_base ts ['#'] (by simp)
  rw [this]
  rfl

/-- The answer to a reference into the document. -/
def answer (root : Obj) (url n : Str) : Obj × Str :=
  match Obj.resolve pkg ((jpSplit (n.drop url.length)).drop 1) root with
  | .ok x => (x, n)
  | .error _ => (root, n)

theorem answer_at {root x : Obj} {url : Str} {ts : List Str} (h : At root ts x) :
    answer root url (url ++ pointer ts) = (x, url ++ pointer ts) := by
  unfold answer
  rw [List.drop_left, split_back, h.1]

theorem norm_only {out : Outer W} {app : AppEnv Obj (World W)} {url from_ : Str} {to : Option Str} {t n : Str} {ts : List Str} (h : url ≠ [])
    (hn : normalizeJr (refsEnv out app url from_ to).ok (some (pointer (t :: ts))) (some (refsEnv out app url from_ to).url) = .ok (some n)) :
    n = url ++ pointer (t :: ts) := by
  have e : normalizeJr (refsEnv out app url from_ to).ok (some (pointer (t :: ts))) (some (refsEnv out app url from_ to).url) =
      .ok (some (url ++ pointer (t :: ts))) := norm_pointer h
  rw [e] at hn
  cases hn
  rfl

theorem linked_ref {root : Obj} {classes needed : List Str} (h : Linked root classes needed) {ts : List Str} {x : Obj} {r : Str}
    (hv : Visited [] root ts x) (hr : Refers classes x r) : ∃ t us y, r = pointer (t :: us) ∧ Safe (t :: us) ∧ At root (t :: us) y := by
  obtain ⟨c, q, d, kids, rfl, hc, hd, hne⟩ := hr
  obtain ⟨d', e, h⟩ := h ts c q _ kids hv hc
  cases e
  rcases h with ⟨h, _⟩ | ⟨t, us, y, h, hs, ha⟩
  · rw [hd] at h; cases h
  · rw [hd] at h
    cases h
    exact ⟨t, us, y, rfl, hs, ha⟩

theorem linked_refsOk {root : Obj} {classes needed : List Str} (h : Linked root classes needed) {out : Outer W}
    {app : AppEnv Obj (World W)} {url from_ : Str} {to : Option Str} (hu : url ≠ []) :
    Refs.Spec.RefsOk (refsEnv out app url from_ to) root classes needed := by
  intro ts c q spec kids hv hc
  obtain ⟨d, e, h⟩ := h ts c q spec kids hv hc
  refine ⟨d, e, ?_⟩
  rcases h with h | ⟨t, us, y, h, _, _⟩
  · exact .inl h
  · exact .inr ⟨_, _, h, by simp [pointer], norm_pointer hu⟩

theorem attrs_find {L : List (List Str × Obj)} {attrs : List Str → Refs.Attrs Obj} {w : World W} {x : Obj} {A : Refs.Attrs Obj}
    (h1 : ∃ ts, (ts, x) ∈ L) (h2 : ∀ ts, (ts, x) ∈ L → attrs ts = A) : attrsOf (remember w L attrs) x = A := by
  unfold attrsOf remember
  have : ((L.map (fun v => (v.2, attrs v.1)) ++ w.attrs).find? (fun p => decide (p.1 = x))) = some (x, A) := by
    induction L with
    | nil => obtain ⟨_, h⟩ := h1; cases h
    | cons v L ih =>
      obtain ⟨us, y⟩ := v
      rw [List.map_cons, List.cons_append, List.find?_cons]
      by_cases hy : y = x
      · subst hy
        simp only [decide_true]
        rw [h2 us (by simp)]
      · simp only [hy, decide_false]
        refine ih ?_ (fun ts h => h2 ts (List.mem_cons_of_mem _ h))
        obtain ⟨ts, h⟩ := h1
        rcases List.mem_cons.1 h with h | h
        · cases h; exact absurd rfl hy
        · exact ⟨ts, h⟩
  rw [this]

theorem attrs_keep {L : List (List Str × Obj)} {attrs : List Str → Refs.Attrs Obj} {w : World W} {x : Obj}
    (h : ∀ ts, (ts, x) ∉ L) : attrsOf (remember w L attrs) x = attrsOf w x := by
  unfold attrsOf remember
  have : ((L.map (fun v => (v.2, attrs v.1)) ++ w.attrs).find? (fun p => decide (p.1 = x))) =
      w.attrs.find? (fun p => decide (p.1 = x)) := by
    induction L with
    | nil => rfl
    | cons v L ih =>
      obtain ⟨us, y⟩ := v
      rw [List.map_cons, List.cons_append, List.find?_cons]
      have hy : y ≠ x := fun e => h us (by simp [e])
      simp only [hy, decide_false]
      exact ih (fun ts hm => h ts (List.mem_cons_of_mem _ hm))
  rw [this]

theorem byPlace_fresh {w : World W} {L : List (List Str × Obj)} (h : ∀ v ∈ L, attrsOf w v.2 = {}) :
    byPlace w L = fun _ => {} := by
  funext ts
  unfold byPlace
  cases hf : L.find? (fun v => decide (v.1 = ts)) with
  | none => rfl
  | some v => exact h v (List.mem_of_find?_eq_some hf)

theorem mergeAll_nothing {out : Outer W} {app : AppEnv Obj (World W)} {cls f t : Str} {a : App Obj (World W)} : ∀ {L : List (List Str × Obj)},
    (∀ ts x, (ts, x) ∈ L → x.className? = some cls → ∃ v, Refs.refOf x = .ok v ∧ v.truthy = false) →
    mergeAll out app cls f t L a = (.ok (), a)
  | [], _ => rfl
  | (ts, x) :: L, h => by
    unfold mergeAll
    have ih := mergeAll_nothing (out := out) (app := app) (cls := cls) (f := f) (t := t) (a := a) (L := L)
      (fun ts x hm => h ts x (List.mem_cons_of_mem _ hm))
    split
    · rename_i hc
      obtain ⟨v, hv, ht⟩ := h ts x List.mem_cons_self hc
      rw [hv]
      simp only [ht]
      exact ih
    · exact ih

theorem merge_none {root : Obj} {L : List (List Str × Obj)} (hL : Scanned root L) {cls : Str} {classes needed : List Str}
    (hc : cls ∈ classes) (hf : Refs.refField cls = true) (hr : Refs.refLoose cls = true) (hl : Linked root classes needed) (hn : NoPathRef root cls) :
    ∀ ts x, (ts, x) ∈ L → x.className? = some cls → ∃ v, Refs.refOf x = .ok v ∧ v.truthy = false := by
  intro ts x hm hx
  have hv := (hL.2.2 _ _).1 hm
  cases x with
  | base c q spec kids =>
    simp only [className?, Option.some.injEq] at hx
    subst hx
    obtain ⟨d, rfl, _⟩ := hl ts c q spec kids hv hc
    exact ⟨.null, Refs.refOf_none (q := q) hf hr (hn ts q d kids hv), rfl⟩
  | _ => cases hx

/-- The upgrade, once the references have been made absolute. -/
theorem finish20_scan {out : Outer W} {app : AppEnv Obj (World W)} {o : Obj} {jref url jp : Str} {a : App Obj (World W)}
    {s1 : Refs.St Obj (App Obj (World W))} (hs : jrSplit out.ok out.path2url out.abspath jref = .ok (url, jp))
    (hfresh : ∀ v ∈ visits o, attrsOf a.world v.2 = {})
    (h : Refs.normalizeAll (refsEnv out app url (s% "2.0") none) Refs.normClasses2 (visits o)
      (fresh { a with store := a.store.set o url jp (s% "2.0") }) = .ok s1) :
    finish20 out app o jref a = match Refs.upgrade2 (refsEnv out app url (s% "2.0") none) (visits o)
        (fresh { a with store := a.store.set o url jp (s% "2.0"), world := remember a.world (visits o) s1.attrs }) with
      | .error e => (.error e, { a with store := a.store.set o url jp (s% "2.0"), world := remember a.world (visits o) s1.attrs })
      | .ok s => match mergeAll out app (s% "v2_0.PathItem") (s% "2.0") (s% "2.0") (visits o)
          { s.world with world := remember s.world.world (visits o) s.attrs } with
        | (.error e, a) => (.error e, a)
        | (.ok _, a) => (.ok (o, []), a) := by
  unfold finish20
  rw [hs]
  dsimp only
  rw [byPlace_fresh hfresh]
  have h' : Refs.normalizeAll (refsEnv out app url (s% "2.0") none) Refs.normClasses2 (visits o)
      ⟨fun _ => {}, { a with store := a.store.set o url jp (s% "2.0") }⟩ = .ok s1 := h
  rw [h']
  dsimp only
  unfold Refs.upgrade2
  have := Refs.normalizeAll_world h { a with store := a.store.set o url jp (s% "2.0"), world := remember a.world (visits o) s1.attrs }
  have e : ({ fresh { a with store := a.store.set o url jp (s% "2.0") } with
      world := { a with store := a.store.set o url jp (s% "2.0"), world := remember a.world (visits o) s1.attrs } } : Refs.St Obj (App Obj (World W))) =
    fresh { a with store := a.store.set o url jp (s% "2.0"), world := remember a.world (visits o) s1.attrs } := rfl
  rw [e] at this
  rw [this]
  rfl

/-- The upgrade of such a document succeeds, keeps the document, and tells its objects what they refer to. -/
theorem finish20_local {out : Outer W} {up : Str → Obj → Str → App Obj (World W) → R (Obj × Routes) × App Obj (World W)}
    {a : App Obj (World W)} {url c : Str} {j : Json} {p : Option Str} {o : Obj} (hu : DocUrl out.ok url) (hc : c ≠ s% "v2_0.Reference")
    (hj : j.wf = true) (hb : build pkg (.cls c) j p [] = .ok o) (hL : Scanned o (visits o)) (hclean : Clean a url)
    (hlink : Linked o Refs.normClasses2 []) (hpath : NoPathRef o (s% "v2_0.PathItem")) (hfresh : ∀ v ∈ visits o, attrsOf a.world v.2 = {}) :
    ∃ w', finish20 out (appWith out up) o url a =
        (.ok (o, []), { a with store := a.store.set o url ['#'] (s% "2.0"), world := w' }) ∧
      Knows w' o Refs.normClasses2 url ∧
      (∀ x, (∀ ts, ¬ Visited [] o ts x) → attrsOf w' x = attrsOf a.world x) ∧ w'.rest = a.world.rest := by
  obtain ⟨s1, hs1⟩ := Refs.normalizeAll_total (env := refsEnv out (appWith out up) url (s% "2.0") none) (fun c hc => Refs.refField2 hc)
    (linked_refsOk hlink hu.ne) Refs.reqs2 hL (fresh { a with store := a.store.set o url ['#'] (s% "2.0") })
  rw [finish20_scan (split_url hu) hfresh hs1]
  have hHas : Has { a with store := a.store.set o url ['#'] (s% "2.0"), world := remember a.world (visits o) s1.attrs } url (s% "2.0") o :=
    has_set hclean o (s% "2.0")
  have hsteady : Refs.Steady (refsEnv out (appWith out up) url (s% "2.0") none) o Refs.normClasses2
      { a with store := a.store.set o url ['#'] (s% "2.0"), world := remember a.world (visits o) s1.attrs } (answer o url) := by
    intro ts x r n hv hr hn q
    obtain ⟨t, us, y, rfl, hs, hy⟩ := linked_ref hlink hv hr
    rw [norm_only hu.ne hn]
    show resolveIn _ _ _ _ _ _ _ = _
    rw [hit_same hu (by decide) hs hHas hy none (.inl rfl) true]
    show _ = (Except.ok (some (answer o url (url ++ pointer (t :: us)))), _)
    rw [answer_at hy]
  obtain ⟨s', h1, h2, h3, h4⟩ := Refs.upgrade2_steady _ c hc j hj p o hb (visits o) hL _ (linked_refsOk hlink hu.ne) _ hsteady
  rw [h1]
  dsimp only
  rw [mergeAll_nothing (merge_none hL (by decide) (by decide +kernel) (by decide +kernel) hlink hpath), h2]
  refine ⟨_, rfl, ?_, ?_, rfl⟩
  · intro ts x hv
    refine ⟨fun r hr => ?_, fun hr => ?_⟩
    · obtain ⟨t, us, y, rfl, hs, hy⟩ := linked_ref hlink hv hr
      refine ⟨t :: us, y, rfl, hy, attrs_find ⟨ts, (hL.2.2 _ _).2 hv⟩ (fun ts' hm => ?_)⟩
      obtain ⟨n, hn, e⟩ := h3 ts' x _ ((hL.2.2 _ _).1 hm) hr
      rw [e, norm_only hu.ne hn, answer_at hy]
    · refine attrs_find ⟨ts, (hL.2.2 _ _).2 hv⟩ (fun ts' hm => h4 ts' (fun y r hy hr' => ?_))
      have := Refs.scanned_unique hL ((hL.2.2 _ _).1 hm) hy
      subst this
      exact hr r hr'
  · intro x hx
    rw [attrs_keep (fun ts hm => hx ts ((hL.2.2 _ _).1 hm))]
    exact attrs_keep (fun ts hm => hx ts ((hL.2.2 _ _).1 hm))

end Pyopenapi.Main
