import Verif.Spec.Alone
import Verif.Lemmas.Pieces
import Verif.Lemmas.FineObj
import Verif.Lemmas.ConvCongr
import Verif.Props.ConvTotal

/-!
# C87: the upgrade of an object without references
-/

namespace Pyopenapi.Main
open _root_.Pyopenapi.Spec _root_.Pyopenapi.Refs.Spec Obj

variable {W : Type}


theorem free_ok {root : Obj} {classes needed : List Str} (h : ∀ ts c q spec kids, Visited [] root ts (.base c q spec kids) → c ∈ classes →
      ∃ d, spec = .obj d ∧ Dict.get? d (s% "$ref") = none ∧ c ∉ needed) {out : Outer W}
    {app : AppEnv Obj (World W)} {url from_ : Str} {to : Option Str} :
    Refs.Spec.RefsOk (refsEnv out app url from_ to) root classes needed := by
  intro ts c q spec kids hv hc
  obtain ⟨d, e, h1, h2⟩ := h ts c q spec kids hv hc
  exact ⟨d, e, .inl ⟨h1, h2⟩⟩

theorem free_not {root : Obj} {classes needed : List Str} (h : ∀ ts c q spec kids, Visited [] root ts (.base c q spec kids) → c ∈ classes →
      ∃ d, spec = .obj d ∧ Dict.get? d (s% "$ref") = none ∧ c ∉ needed) {ts : List Str} {x : Obj} (hv : Visited [] root ts x) (r : Str) :
    ¬ Refers classes x r := by
  rintro ⟨c, q, d, kids, rfl, hc, hg, _⟩
  obtain ⟨_, e, h1, _⟩ := h _ _ _ _ _ hv hc
  cases e
  rw [h1] at hg
  cases hg

theorem free_merge {root : Obj} {L : List (List Str × Obj)} (hL : Scanned root L) {cls : Str} {classes needed : List Str}
    (hc : cls ∈ classes) (hf : Refs.refField cls = true) (hr : Refs.refLoose cls = true)
    (h : ∀ ts c q spec kids, Visited [] root ts (.base c q spec kids) → c ∈ classes →
      ∃ d, spec = .obj d ∧ Dict.get? d (s% "$ref") = none ∧ c ∉ needed) :
    ∀ ts x, (ts, x) ∈ L → x.className? = some cls → ∃ v, Refs.refOf x = .ok v ∧ v.truthy = false := by
  intro ts x hm hx
  have hv := (hL.2.2 _ _).1 hm
  cases x with
  | base c q spec kids =>
    simp only [className?, Option.some.injEq] at hx
    subst hx
    obtain ⟨d, rfl, h1, _⟩ := h ts c q spec kids hv hc
    exact ⟨.null, Refs.refOf_none (q := q) hf hr h1, rfl⟩
  | _ => cases hx

/-- The step to 2.0 of such an object, at any place. -/
theorem finish20_free {out : Outer W} {app : AppEnv Obj (World W)} {a : App Obj (World W)} {jref url jp c : Str} {j : Json} {p : Option Str} {o : Obj}
    (hs : jrSplit out.ok out.path2url out.abspath jref = .ok (url, jp)) (hc : c ≠ s% "v2_0.Reference")
    (hj : j.wf = true) (hb : build pkg (.cls c) j p [] = .ok o) (hL : Scanned o (visits o))
    (hfree : ∀ ts c q spec kids, Visited [] o ts (.base c q spec kids) → c ∈ Refs.normClasses2 →
      ∃ d, spec = .obj d ∧ Dict.get? d (s% "$ref") = none ∧ c ∉ ([] : List Str)) (hfresh : ∀ ts x, Visited [] o ts x → attrsOf a.world x = {}) :
    ∃ w', finish20 out app o jref a = (.ok (o, []), { a with store := a.store.set o url jp (s% "2.0"), world := w' }) ∧
      (∀ x, attrsOf w' x = attrsOf a.world x) ∧ w'.rest = a.world.rest := by
  have hfr : ∀ v ∈ visits o, attrsOf a.world v.2 = {} := fun v hv => hfresh v.1 v.2 ((hL.2.2 _ _).1 hv)
  obtain ⟨s1, hs1⟩ := Refs.normalizeAll_total (env := refsEnv out app url (s% "2.0") none) (fun c hc => Refs.refField2 hc)
    (free_ok hfree) Refs.reqs2 hL (fresh { a with store := a.store.set o url jp (s% "2.0") })
  rw [finish20_scan hs hfr hs1]
  obtain ⟨s', h1, h2, h3, h4⟩ := Refs.upgrade2_steady (refsEnv out app url (s% "2.0") none) c hc j hj p o hb (visits o) hL
    { a with store := a.store.set o url jp (s% "2.0"), world := remember a.world (visits o) s1.attrs } (free_ok hfree) (fun _ => (o, []))
    (fun ts x r n hv hr => absurd hr (free_not hfree hv r))
  rw [h1]
  dsimp only
  rw [mergeAll_nothing (free_merge hL (by decide) (by decide +kernel) (by decide +kernel) hfree), h2]
  refine ⟨_, rfl, fun x => ?_, rfl⟩
  by_cases hx : ∃ ts, Visited [] o ts x
  · obtain ⟨ts, hv⟩ := hx
    rw [hfresh ts x hv]
    exact attrs_find ⟨ts, (hL.2.2 _ _).2 hv⟩ (fun ts' _ => h4 ts' (fun y r hy => free_not hfree hy r))
  · have hx : ∀ ts, (ts, x) ∉ visits o := fun ts hm => hx ⟨ts, (hL.2.2 _ _).1 hm⟩
    rw [attrs_keep hx]
    exact attrs_keep hx

/-- The step to 3.0.0 of such an object, at any place. -/
theorem finish30_free {out : Outer W} {app : AppEnv Obj (World W)} {a : App Obj (World W)} {url jp c : Str} {j : Json} {p : Option Str} {o : Obj}
    {reloc : Routes} {st : Store Obj} (hc : c ≠ s% "v3_0_0.Reference")
    (hj : j.wf = true) (hb : build pkg (.cls c) j p [] = .ok o) (hL : Scanned o (visits o)) (hex : NoExamples o)
    (hfree : ∀ ts c q spec kids, Visited [] o ts (.base c q spec kids) → c ∈ Refs.normClasses3 →
      ∃ d, spec = .obj d ∧ Dict.get? d (s% "$ref") = none ∧ c ∉ [s% "v3_0_0.Reference"]) (hfresh : ∀ ts x, Visited [] o ts x → attrsOf a.world x = {})
    (hst : (a.store.set o url jp (s% "3.0.0")).updateRoutes url (s% "3.0.0") [(jp, .nested reloc)] = (st, .ok ())) :
    ∃ w', finish30 out app o reloc url jp a = (.ok (o, reloc), { a with store := st, world := w' }) ∧
      (∀ x, attrsOf w' x = attrsOf a.world x) ∧ w'.rest = a.world.rest := by
  have hfr : ∀ v ∈ visits o, attrsOf a.world v.2 = {} := fun v hv => hfresh v.1 v.2 ((hL.2.2 _ _).1 hv)
  obtain ⟨s0, hs0⟩ := Refs.normalizeAll_total (env := refsEnv out app url (s% "2.0") none) (fun c hc => Refs.refField3 hc)
    (free_ok hfree) Refs.reqs3 hL (fresh a)
  unfold finish30
  rw [byPlace_fresh hfr]
  obtain ⟨s1, h1, s', h2, h3, h4, h5⟩ := Refs.resolve3_steady (refsEnv out app url (s% "2.0") none)
    (refsEnv out app url (if a.original = s% "3.0.0" then s% "3.0.0" else s% "2.0") (some (s% "3.0.0")))
    c hc j hj p o hb (visits o) hL a { a with store := st, world := remember a.world (visits o) s0.attrs } rfl rfl hex (free_ok hfree) (fun _ => (o, []))
    (fun ts x r n hv hr => absurd hr (free_not hfree hv r)) (fun ts x r n hv hr => absurd hr (free_not hfree hv r))
  have h1' : Refs.normalizeAll (refsEnv out app url (s% "2.0") none) Refs.normClasses3 (visits o) ⟨fun _ => {}, a⟩ = .ok s1 := h1
  rw [hs0] at h1
  cases h1
  rw [h1']
  dsimp only
  rw [hst]
  dsimp only
  rw [h2]
  dsimp only
  rw [mergeAll_nothing (free_merge hL (by decide) (by decide +kernel) (by decide +kernel) hfree), h3]
  refine ⟨_, rfl, fun x => ?_, rfl⟩
  by_cases hx : ∃ ts, Visited [] o ts x
  · obtain ⟨ts, hv⟩ := hx
    rw [hfresh ts x hv]
    exact attrs_find ⟨ts, (hL.2.2 _ _).2 hv⟩ (fun ts' _ => h5 ts' (fun y r hy => free_not hfree hy r))
  · have hx : ∀ ts, (ts, x) ∉ visits o := fun ts hm => hx ⟨ts, (hL.2.2 _ _).1 hm⟩
    rw [attrs_keep hx]
    exact attrs_keep hx

end Pyopenapi.Main
