import Verif.Lemmas.Says
import Verif.Lemmas.MainMoved
import Verif.Props.Main
import Verif.Props.ConvTotal
import Verif.Lemmas.MainDocCheck

/-!
# C86 for documents of 2.0 migrated to 3.0.0
-/

namespace Pyopenapi.Main
open _root_.Pyopenapi.Spec _root_.Pyopenapi.Refs.Spec Obj Conv

variable {W : Type}

theorem linked_of {d : Dict Json} {root : Obj} {K : Nat} (h : Std d root K) : Linked root Refs.normClasses2 [] := by
  intro ts c q spec kids hv hc
  obtain ⟨e, rfl, he⟩ := h.conv ts c q spec kids hv hc
  refine ⟨e, rfl, ?_⟩
  rcases he with he | ⟨v, he, sec, n, w, rfl, hs, hw, hf⟩
  · exact .inl ⟨he, by simp⟩
  · obtain ⟨C, hC, _⟩ := sec_class hf
    obtain ⟨y, _, hy, _⟩ := target h.built hC hw
    exact .inr ⟨sec, [n], y, he, hs, hy⟩

theorem noPathRef_of {d : Dict Json} {root : Obj} {K : Nat} (h : Std d root K) : NoPathRef root (s% "v2_0.PathItem") := by
  intro ts q e kids hv
  obtain ⟨e', he, h2⟩ := h.conv ts _ q _ kids hv (by decide)
  cases he
  rcases h2 with h2 | ⟨v, _, _, _, _, _, _, _, hf⟩
  · exact h2
  · rcases hf with ⟨hc, _⟩ | ⟨hc, _⟩ <;> exact absurd hc (by decide)

theorem resolve_moved {out : Outer W} {n : Nat} {a : App Obj (World W)} {url from_ to : Str} {root x : Obj} {ts us : List Str}
    (hu : DocUrl out.ok url) (hv : to ≠ []) (hft : from_ ≠ to) (hs : Safe ts) (h : Has a url to root)
    (hr : a.store.relocate url (pointer ts) from_ to = .ok (pointer us)) (hx : At root us x) (parser) (dummy : Bool) :
    App.resolveObj (application out n) (url ++ pointer ts) from_ parser (some to) dummy a = (.ok (x, url ++ pointer us), a) := by
  obtain ⟨up, e⟩ := application_with out n
  rw [e]
  have hg : a.store.get ((appWith out up).ops a.world) url (pointer us) to = .ok (some x) :=
    (has_get h _ us).trans (resolveObject_at hx)
  have hne : url ++ pointer ts ≠ [] := by simp [hu.ne]
  have hp : (appWith out up).isPrim x = false := by
    obtain ⟨_, h2⟩ := hx
    cases x <;> first | rfl | cases h2
  rw [C66_cached (appWith out up) _ from_ parser to dummy a url (pointer ts) (pointer us) x hne hv (split_pointer hu hs) hu.ne
    (.inl ⟨hft, hr⟩) hg, hp]
  rfl

theorem entry_sec {c sec : Str} (h : Fits c sec) : sec ∈ [s% "definitions", s% "parameters", s% "responses"] := by
  rcases h with ⟨_, rfl⟩ | ⟨_, rfl | rfl⟩ <;> simp

theorem version_apart {c : Str} (h2 : ofVersion (s% "v2_0.") c = true) (h3 : v3 c = true) : False := by
  cases c with
  | nil => cases h2
  | cons a c =>
    cases c with
    | nil => simp [ofVersion, List.isPrefixOf] at h2
    | cons b c =>
      simp only [v3, ofVersion, List.isPrefixOf, Bool.and_eq_true, beq_iff_eq] at h2 h3
      have := h2.2.1.trans h3.2.1.symm
      exact absurd this (by decide)

theorem named_valid {e : Dict Json} (h : ParamsFit [] [⟨e, none⟩]) : ValidParam ⟨e, none⟩ := by
  obtain ⟨_, ⟨h, _⟩ | ⟨l1, f, l2, h1, _, h2, _⟩⟩ := h
  · rcases h _ (List.mem_singleton.2 rfl) with h | h
    · have hp : placeOf e = .plain := by simpa [Part.isPlain] using h
      refine ⟨fun h' => ?_, fun h' => by rw [show placeOf _ = _ from hp] at h'; cases h'⟩
      simp only [Part.isPart, hp, decide_eq_true_eq] at h'
      exact absurd rfl h'.1
    · refine ⟨fun _ => h.2, fun h' => ?_⟩
      have := h.1
      simp only [Part.isPart, decide_eq_true_eq] at this
      exact absurd h' this.2
  · cases l1 with
    | nil => cases h1; exact h2
    | cons g l1 => exact absurd (congrArg List.length h1) (by simp)

/-- A document of 2.0 whose references stay in it has a 3.0.0 version, whatever else the application knows. -/
structure Ready (out : Outer W) (url : Str) (d : Dict Json) (o : Obj) (r : Dict Json) (rl : Routes) (o3 : Obj) : Prop where
  conv : ∀ w : World W, Knows w o Refs.normClasses2 url → Conv.toOpenapi (convEnv out w) o = .ok (r, rl)
  keys : ∀ k ∈ Dict.keys rl, k ≠ []
  wf : (Json.obj r).wf = true
  built : build pkg (.cls (s% "v3_0_0.OpenApi")) (.obj r) (some ['#']) [] = .ok o3
  scanned : Scanned o3 (visits o3)
  noExamples : NoExamples o3
  noMix : NoMix o3
  linked : LinkedVia (fun p => patchJp p [(['#'], .nested rl)]) o3 Refs.normClasses3 [s% "v3_0_0.Reference"]
  noPath : NoPathRef o3 (s% "v3_0_0.PathItem")
  fresh : ∀ ts us x, Visited [] o3 ts x → ¬ Visited [] o us x
  docTo : DocTo (docRefs d) d r
  refersTo : RefersTo o3 d
  moved : ∀ sec m w, sec ∈ [s% "definitions", s% "parameters", s% "responses"] → Dict.get? (objAt d sec) m = some w →
    ∃ x w' p y, EntryTo d sec x w w' ∧ build pkg (.ifNotRef (s% "v3_0_0.Reference") (.cls (sectionClass x))) w' p [] = .ok y ∧
      At o3 [s% "components", x, m] y ∧ patchJp (pointer [sec, m]) [(['#'], .nested rl)] = pointer [s% "components", x, m]
  server : ∀ host b, StringAt d (s% "host") host → StringAt d (s% "basePath") b → (∀ s ∈ strsAt d (s% "schemes"), s ∈ schemes2) →
    ∃ u, Dict.get? r (s% "servers") = some (.arr [.obj [(s% "url", .str u)]]) ∧ ServerUrl host b (strsAt d (s% "schemes")) u

theorem ready_of {out : Outer W} {url : Str} {d : Dict Json} {o : Obj} {K : Nat} (hset : SetOrdered out)
    (hB : Built (.cls (s% "v2_0.Swagger")) (.obj d) o)
    (hconv : Conventional o d) (hground : Grounded o K) (hfiles : NoFiles d) (hnames : NamesOk d)
    (hres : DocResolves (docRefs d) d) (hable : Convertible (docRefs d) out.ok d)
    (hscopes : ∀ k e, (k, .obj e) ∈ objAt d (s% "securityDefinitions") → ScopesGiven e) : ∃ r rl o3, Ready out url d o r rl o3 := by
  have hj := hB.wf
  obtain ⟨p0, hb⟩ := hB.path
  have std : Std d o (K + 1) := ⟨hB, hconv, grounded_mono hground (Nat.le_succ K), hfiles⟩
  have hE := docEnv_ok (out := out) (K := K) ⟨hB, hconv, hground, hfiles⟩ hset url
  have hval : NamedValid d := fun k e hk => named_valid (hable.parameters k e hk)
  obtain ⟨r, rl, hr⟩ := C53_total hE d o hB hres hable
  obtain ⟨hd, _, url', B, pr, _, _, hBo, hrl, _⟩ := toOpenapi_built hE hB hres hval hr
  haveI : Source (Inside o) (Refd d) := docSource std
  have hl := toOpenapi_loads (docLoads std url) ⟨.here o, _, _, hj, hb⟩ (fun x hx k y hy => by
    obtain ⟨h1, _⟩ := kid_objAt (b := .cls (s% "v2_0.SecurityScheme")) (k := s% "securityDefinitions") hB (by decide +kernel)
    rw [(kidT_kid hx).1] at h1
    obtain ⟨⟨k', j⟩, hm, hk, hb⟩ := forall₂_mem h1 hy
    obtain ⟨e, he⟩ := built_obj hb
    dsimp only at he hk
    subst he hk
    exact scopesGiven_ok hb (hscopes _ _ hm)) hr
  obtain ⟨o3, hb3, _⟩ := built_exists hl.1.regular hl.2 (some ['#'])
  obtain ⟨hfine, hL3⟩ := fine_scanned (by decide) hl.1 hl.2 hb3
  have hbase : o3.isBase = true := by obtain ⟨_, rfl⟩ := Refs.build_class hb3; rfl
  have hkeys : ∀ {ts x r}, Visited [] o3 ts x → Refers Refs.normClasses3 x r → ∃ c, Entry d c (.str r) := by
    intro ts x r hv hr
    obtain ⟨c, q, e, kids, rfl, hc, hg, _⟩ := hr
    obtain ⟨c', q', e', kids', heq, _, hk, _⟩ := fine_visited hfine hbase hv
    cases heq
    rcases hk _ _ hg with h | ⟨_, h⟩ | h
    · exact absurd h (by decide)
    · exact h.2
    · subst h; exact absurd hc (by decide)
  have hvia : LinkedVia (fun p => patchJp p [(['#'], .nested rl)]) o3 Refs.normClasses3 [s% "v3_0_0.Reference"] := by
    intro ts c q spec kids hv hc
    obtain ⟨c', q', e, kids', heq, _, hk, _⟩ := fine_visited hfine hbase hv
    cases heq
    refine ⟨e, rfl, ?_⟩
    cases hg : Dict.get? e (s% "$ref") with
    | none =>
      refine .inl ⟨rfl, fun hcr => ?_⟩
      have := List.mem_singleton.1 hcr
      subst this
      obtain ⟨v, hv⟩ := refs_have (by decide) hb3 (visited_inside hv _ (.here _))
      rw [hg] at hv; cases hv
    | some v =>
      have hE : ∃ c', Entry d c' v := by
        rcases hk _ _ hg with h | ⟨_, h⟩ | h
        · exact absurd h (by decide)
        · exact h.2
        · subst h; exact absurd hc (by decide)
      obtain ⟨c', sec, n, w, rfl, hs, hw, hf⟩ := hE
      obtain ⟨x, w', p, y, hx, _, _, hy, hm⟩ := entry_moved hE hB hres hval hnames hr hb3 (entry_sec hf) hw
      exact .inr ⟨sec, [n], _, y, rfl, hs, hm, safe_moved hs hx, hy⟩
  have hpath3 : NoPathRef o3 (s% "v3_0_0.PathItem") := by
    intro ts q e kids hv
    obtain ⟨c', q', e', kids', heq, _, hk, _⟩ := fine_visited hfine hbase hv
    cases heq
    cases hg : Dict.get? e (s% "$ref") with
    | none => rfl
    | some v =>
      rcases hk _ _ hg with h | ⟨_, h⟩ | h
      · exact absurd h (by decide)
      · exact absurd h.1 (by decide)
      · exact absurd h (by decide)
  have hnew : ∀ ts us x, Visited [] o3 ts x → ¬ Visited [] o us x := by
    intro ts us x h3 h2
    obtain ⟨c', q', e', kids', rfl, hv3, _⟩ := fine_visited hfine hbase h3
    exact version_apart (visited_v2 hB h2) hv3
  have hks : ∀ k ∈ Dict.keys rl, k ≠ [] := by
    intro k hk
    rw [hrl] at hk
    have := docRoutes_keys _ _ _ k hk
    rintro rfl
    exact absurd this (by decide)
  refine ⟨r, rl, o3, fun w hk => (toOpenapi_congr (docAgree std hk) (.here o)).trans hr, hks, hl.2, hb3, hL3, fine_noExamples hfine hbase, fine_noMix hfine, hvia,
    hpath3, hnew, hd, fun ts x r hv hr => hkeys hv hr, ?_, fun host b h1 h2 h3 => C56_server hE d o hB hres hval r rl hr host b h1 h2 h3⟩
  intro sec m w hsec hw
  obtain ⟨x, w', p, y, _, hto, hby, hy, hm⟩ := entry_moved hE hB hres hval hnames hr hb3 hsec hw
  exact ⟨x, w', p, y, hto, hby, hy, hm⟩

/-- What is found under the old references. -/
theorem Ready.found {out : Outer W} {n : Nat} {url : Str} {d : Dict Json} {o : Obj} {r : Dict Json} {rl : Routes} {o3 : Obj}
    (h : Ready out url d o r rl o3) (hu : DocUrl out.ok url) {a' : App Obj (World W)} {r1 r2 : Routes} (h5 : Has a' url (s% "3.0.0") o3)
    (h7 : Dict.get? a'.store.routes url = some [(s% "1.2", r1), (s% "2.0", r2), (s% "3.0.0", [(['#'], .nested rl)])]) :
    Moved (fun p => patchJp p [(['#'], .nested rl)]) (application out n) a' url d o3 := by
  intro sec m w hsec hw hs
  obtain ⟨x, w', p, y, hto, hby, hy, hm⟩ := h.moved sec m w hsec hw
  refine ⟨x, w', p, y, hto, hby, hy, hm, fun parser dummy => ?_⟩
  exact resolve_moved hu (by decide) (by decide) hs h5 ((relocate_at h7 _).2.1.trans (by rw [hm])) hy parser dummy

/-- **C86** for documents of 2.0 migrated to 3.0.0. -/
theorem C86_up {out : Outer W} {n : Nat} {w w' : W} {url : Str} {d : Dict Json} {o : Obj} {K : Nat} (hu : DocUrl out.ok url)
    (hset : SetOrdered out) (hf : out.fetch url w = (.ok (.obj d), w')) (hv : SaysVersion (.obj d) (some (s% "2.0")))
    (hreg : Regular pkg (.cls (s% "v2_0.Swagger")) (.obj d)) (hj : (Json.obj d).wf = true)
    (hb : build pkg (.cls (s% "v2_0.Swagger")) (.obj d) (some url) [] = .ok o)
    (hconv : Conventional o d) (hground : Grounded o K) (hfiles : NoFiles d) (hnames : NamesOk d)
    (hres : DocResolves (docRefs d) d) (hable : Convertible (docRefs d) out.ok d)
    (hscopes : ∀ k e, (k, .obj e) ∈ objAt d (s% "securityDefinitions") → ScopesGiven e) :
    ∃ a a' r o3 move, App.loadObj (application out (n + 1)) url none false (opened w) = (.ok o, a) ∧
      App.migrateObj (application out (n + 1)) o url (s% "3.0.0") a = (.ok o3, a') ∧
      a'.original = s% "2.0" ∧ a'.current = some (s% "3.0.0") ∧
      build pkg (.cls (s% "v3_0_0.OpenApi")) (.obj r) (some ['#']) [] = .ok o3 ∧ DocTo (docRefs d) d r ∧
      RefersTo o3 d ∧ Moved move (application out (n + 1)) a' url d o3 ∧ KnowsVia move a'.world o3 Refs.normClasses3 url ∧
      Found (application out (n + 1)) a' url (s% "2.0") o ∧ Found (application out (n + 1)) a' url (s% "3.0.0") o3 ∧
      a'.world.rest = w' := by
  replace hv := specVersion_says hv
  have hB : Built (.cls (s% "v2_0.Swagger")) (.obj d) o := ⟨hreg, hj, _, hb⟩
  obtain ⟨r, rl, o3, hr⟩ := ready_of (out := out) (url := url) hset hB hconv hground hfiles hnames hres hable hscopes
  have std : Std d o K := ⟨hB, hconv, hground, hfiles⟩
  obtain ⟨a', h1, h2, h3, h4, h5, h6, h7, h8⟩ := runUp (n := n) (a := loaded w' o url (s% "2.0")) hu hj hb (scanned_of (by decide) hj hb)
    (loaded_start w' o url) (linked_of std) (noPathRef_of std) (loaded_fresh _ _ _ _) (show s% "2.0" ≠ s% "3.0.0" by decide)
    hr.conv hr.keys hr.wf hr.built hr.scanned hr.noExamples hr.linked hr.noPath hr.fresh
  exact ⟨_, a', r, o3, _, load_first hu hf hv (.inl ⟨rfl, rfl⟩) hb, h1, h3, h2, hr.built, hr.docTo, hr.refersTo, hr.found hu h5 h7, h6,
    found_of hu (by decide) h4, found_of hu (by decide) h5, h8⟩

end Pyopenapi.Main
