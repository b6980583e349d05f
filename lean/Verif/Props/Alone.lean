import Verif.Lemmas.Says
import Verif.Lemmas.AloneConv
import Verif.Lemmas.RefHas

/-!
# C87: objects of 2.0 that are loaded and migrated on their own
-/

namespace Pyopenapi.Main
open _root_.Pyopenapi.Spec _root_.Pyopenapi.Refs.Spec Obj

variable {W : Type}

theorem loop_at {out : Outer W} {up : Str → Obj → Str → App Obj (World W) → R (Obj × Routes) × App Obj (World W)}
    {jref url jp v from_ : Str} {vs : List Str} {o o' : Obj} {r : Routes} {a a1 : App Obj (World W)} {st : Store Obj}
    (h1 : up v o jref a = (.ok (o', r), a1))
    (h2 : a1.store.updateRoutes url v [(jp, .nested r)] = (st, .ok ())) (h3 : st.relocate url jp from_ v = .ok jp) :
    App.migrateLoop (appWith out up) jref url (v :: vs) jp from_ o a =
      App.migrateLoop (appWith out up) jref url vs jp v o' { a1 with store := st.set o' url jp v } := by
  rw [App.migrateLoop]
  have : (appWith out up).upgrade v o jref a = (.ok (o', r), a1) := h1
  rw [this]
  dsimp only
  rw [h2]
  dsimp only
  rw [h3]
  rfl

theorem patch_self {jp : Str} (r : Routes) (h : ∀ k ∈ Dict.keys r, k ≠ []) : patchJp jp [(jp, .nested r)] = jp := by
  unfold patchJp
  have : patchLoop [(jp, .nested r)] [] jp = none := by
    rw [patchLoop_unfold]
    have : pickRoute jp [(jp, Route.nested r)] none = some (jp, .nested r) := by
      simp [pickRoute, Str.startsWith]
    rw [this]
    dsimp only
    split
    · rfl
    · rw [patchLoop_unfold]
      have : pickRoute [] r none = none := pickRoute_of_none (fun f t hm ⟨x, hx⟩ => by
        exact h f (List.mem_map_of_mem (f := Prod.fst) hm) (List.append_eq_nil_iff.1 hx.symm).1)
      simp [Str.startsWith, this]
  rw [this]

theorem routes_at {st : Store Obj} {url : Str} (jp : Str) (hv : st.versions = [s% "1.2", s% "2.0", s% "3.0.0"])
    (h : Dict.get? st.routes url = none) (r : Routes) :
    st.updateRoutes url (s% "2.0") [(jp, .nested r)] =
      ({ st with routes := Dict.set st.routes url [(s% "1.2", []), (s% "2.0", [(jp, .nested r)]), (s% "3.0.0", [])] }, .ok ()) := by
  unfold Store.updateRoutes Store.tableFor
  rw [h, hv]
  rfl

theorem routes_on {st : Store Obj} {url jp : Str} {r1 r2 : Routes} (r : Routes)
    (h : Dict.get? st.routes url = some [(s% "1.2", r1), (s% "2.0", r2), (s% "3.0.0", [])] ∨
      Dict.get? st.routes url = some [(s% "1.2", r1), (s% "2.0", r2), (s% "3.0.0", [(jp, .nested r)])]) :
    st.updateRoutes url (s% "3.0.0") [(jp, .nested r)] =
      ({ st with routes := Dict.set st.routes url [(s% "1.2", r1), (s% "2.0", r2), (s% "3.0.0", [(jp, .nested r)])] }, .ok ()) := by
  unfold Store.updateRoutes Store.tableFor
  rcases h with h | h
  · rw [h]; rfl
  · rw [h]
    simp [Dict.get?, Dict.set, Dict.update]

theorem free_loose {o : Obj} {classes : List Str} (h : RefFree classes o) {ts : List Str} {x : Obj} (hv : Visited [] o ts x) (r : Str) :
    ¬ Refers classes x r := by
  rintro ⟨c, q, d, kids, rfl, hc, hg, _⟩
  obtain ⟨_, e, h1⟩ := h _ _ _ _ _ hv hc
  cases e
  rw [h1] at hg
  cases hg

theorem fresh_of {out : Outer W} {p : Piece} (hg : p.Good out) (hfree : RefFree Refs.normClasses2 p.obj) {w : World W} (hw : Tidy w)
    {ts : List Str} {x : Obj} (hv : Visited [] p.obj ts x) : attrsOf w x = {} := by
  refine hw x (free_loose hfree hv) (fun r hr => ?_)
  obtain ⟨c, q, d, kids, rfl, hc, _⟩ := hr
  have := class_v2 hg hv
  have key : ∀ c ∈ Refs.normClasses3, ofVersion (s% "v2_0.") c = false := by decide
  rw [key c hc] at this
  cases this

theorem fresh_fine {o : Obj} {c0 : Str} {j : Json} {p0 : Option Str} (hc0 : c0 ≠ s% "v3_0_0.Reference") (hbd0 : build pkg (.cls c0) j p0 [] = .ok o) (hf : FineObj (fun _ _ => False) o) (hb : o.isBase = true) :
    (∀ ts c q spec kids, Visited [] o ts (.base c q spec kids) → c ∈ Refs.normClasses3 →
      ∃ d, spec = .obj d ∧ Dict.get? d (s% "$ref") = none ∧ c ∉ [s% "v3_0_0.Reference"]) ∧
    ∀ {w : World W}, Tidy w → ∀ ts x, Visited [] o ts x → attrsOf w x = {} := by
  have h1 : ∀ ts c q spec kids, Visited [] o ts (.base c q spec kids) → c ∈ Refs.normClasses3 →
      ∃ d, spec = .obj d ∧ Dict.get? d (s% "$ref") = none ∧ c ∉ [s% "v3_0_0.Reference"] := by
    intro ts c q spec kids hv hc
    obtain ⟨c', q', d, kids', e, _, hk, hbd⟩ := fine_visited hf hb hv
    cases e
    have hno : Dict.get? d (s% "$ref") = none := by
      cases hg : Dict.get? d (s% "$ref") with
      | none => rfl
      | some v =>
        rcases hk _ v hg with h | ⟨_, h⟩ | h
        · exact absurd h (by decide)
        · exact absurd h id
        · rw [h] at hc; exact absurd hc (by decide)
    refine ⟨d, rfl, hno, ?_⟩
    intro hm
    have hm : c = s% "v3_0_0.Reference" := by simpa using hm
    subst hm
    obtain ⟨v, hv'⟩ := refs_have hc0 hbd0 (visited_inside hv _ (.here _))
    rw [hno] at hv'
    cases hv'
  refine ⟨h1, fun {w} hw ts x hv => hw x (fun r hr => ?_) (fun r hr => ?_)⟩
  · obtain ⟨c, q, d, kids, rfl, hc, _⟩ := hr
    obtain ⟨c', _, _, _, e, hv3, _⟩ := fine_visited hf hb hv
    cases e
    have key : ∀ c ∈ Refs.normClasses2, v3 c = false := by decide
    rw [key c hc] at hv3
    cases hv3
  · obtain ⟨c, q, d, kids, rfl, hc, hg, _⟩ := hr
    obtain ⟨_, e, h2, _⟩ := h1 ts c q _ kids hv hc
    cases e
    rw [h2] at hg
    cases hg

/-- What the store has of the url: one object, in these versions. -/
def OneAt (st : Store Obj) (url jp : Str) (cache : Dict Obj) : Prop := Dict.get? st.objs url = some [(jp, cache)]

theorem one_set {st : Store Obj} {url jp : Str} {cache : Dict Obj} (h : OneAt st url jp cache) (o : Obj) (v : Str) :
    OneAt (st.set o url jp v) url jp (Dict.set cache v o) := by
  unfold OneAt Store.set at *
  simp only [h, Option.getD_some, Dict.get?, if_true, Dict.get?_set_self, Dict.set]

theorem one_first {st : Store Obj} {url jp : Str} (h : Dict.get? st.objs url = none) (o : Obj) (v : Str) :
    OneAt (st.set o url jp v) url jp [(v, o)] := by
  unfold OneAt Store.set at *
  simp only [h, Option.getD_none, Dict.get?_nil, Dict.get?_set_self]
  rfl

theorem one_under {a : App Obj (World W)} {url jp : Str} {cache : Dict Obj} (h : OneAt a.store url jp cache)
    (hc : Dict.get? cache (s% "3.0.0") = none) (o : Obj) : overrideFor o url jp a = .ok [] := by
  unfold overrideFor
  split
  · split
    · unfold Store.getUnder
      simp only [Bool.false_and, Bool.false_eq_true, if_false]
      unfold OneAt at h
      rw [h]
      have : Store.underOf jp (s% "3.0.0") [(jp, cache)] [] = [] := by
        unfold Store.underOf
        rw [hc]
        simp [Store.underOf]
      simp [this]
    · rfl
  · rfl

theorem one_get {st : Store Obj} {url v : Str} {place ts : List Str} {cache : Dict Obj} {o x : Obj} (h : OneAt st url (pointer place) cache)
    (hv : Dict.get? cache v = some o) (hx : At o ts x) (out : Outer W) (up : Str → Obj → Str → App Obj (World W) → R (Obj × Routes) × App Obj (World W))
    (w : World W) : st.get ((appWith out up).ops w) url (pointer (place ++ ts)) v = .ok (some x) := by
  unfold Store.get
  unfold OneAt at h
  rw [h]
  dsimp only
  rw [get_one (path := pointer place) (cache := cache) (o := o) _ (fun q c hm _ => by
      have : (q, c) = (pointer place, cache) := by simpa using hm
      exact congrArg Prod.fst this) (by rw [Dict.get?_cons, if_pos rfl]) hv (by rw [pointer_append]; exact ⟨_, rfl⟩), tokens_tail]
  exact resolveObject_at hx

theorem found_one {out : Outer W} {up : Str → Obj → Str → App Obj (World W) → R (Obj × Routes) × App Obj (World W)} {a : App Obj (World W)}
    {url v : Str} {place : List Str} {cache : Dict Obj} {o : Obj} (hu : DocUrl out.ok url) (h : OneAt a.store url (pointer place) cache)
    (hv : Dict.get? cache v = some o) (hne : v ≠ []) : FoundAt (appWith out up) a url place v v o := by
  intro ts x parser dummy hs hx
  have hg := one_get h hv hx out up a.world
  rw [C66_cached (appWith out up) _ v parser v dummy a url _ _ x (by simp [hu.ne]) hne (split_pointer (out := out) hu hs) hu.ne (.inr ⟨rfl, rfl⟩) hg]
  have : (appWith out up).isPrim x = false := (truthy_base hx.2).2
  rw [this]
  rfl

theorem alone_migrate {out : Outer W} {n : Nat} {p : Piece} {d : Dict Json} {a : App Obj (World W)} (hg : p.Good out)
    (hroot : p.cls ≠ s% "v2_0.Swagger") (hreg : Regular pkg (.cls p.cls) p.json) (hd : p.json = .obj d)
    (hfree : RefFree Refs.normClasses2 p.obj) (hable : Able out.ok p.url p.cls d) (hset : SetOrdered out) (hw : Tidy a.world)
    (hv : a.store.versions = [s% "1.2", s% "2.0", s% "3.0.0"]) (hr : Dict.get? a.store.routes p.url = none)
    (ho : OneAt a.store p.url (pointer p.place) [(s% "2.0", p.obj)]) :
    ∃ c3 r o3 rl a', BecomesAlone out.ok p.url p.cls d c3 r ∧ (Json.obj r).wf = true ∧
      build pkg (.cls c3) (.obj r) (some (pointer p.place)) [] = .ok o3 ∧
      App.migrateObj (application out (n + 1)) p.obj p.ref (s% "3.0.0") a = (.ok o3, a') ∧
      OneAt a'.store p.url (pointer p.place) [(s% "2.0", p.obj), (s% "3.0.0", o3)] ∧
      Dict.get? a'.store.routes p.url = some [(s% "1.2", []), (s% "2.0", [(pointer p.place, .nested [])]), (s% "3.0.0", [(pointer p.place, .nested rl)])] ∧
      (∀ k ∈ Dict.keys rl, k ≠ []) ∧ a'.original = a.original ∧ a'.current = a.current ∧ (∀ x, attrsOf a'.world x = attrsOf a.world x) ∧
      a'.world.rest = a.world.rest := by
  obtain ⟨up, hup⟩ := application_with out n
  have hs := split_ref hg
  have hL := hg.scan
  -- the step to 2.0
  obtain ⟨w1, h1, h2, h3⟩ := finish20_free (app := appWith out up) (a := a) hs hg.class_ hg.wf hg.built hL
    (fun ts c q spec kids hvis hc => by
      obtain ⟨d, e, hd⟩ := hfree ts c q spec kids hvis hc
      exact ⟨d, e, hd, by simp⟩) (fun ts x hx => fresh_of hg hfree hw hx)
  rw [set_again ho (by rw [Dict.get?_cons, if_pos rfl]) (by rw [Dict.get?_cons, if_pos rfl])] at h1
  have hup20 : upgrade out (application out n) (s% "2.0") p.obj p.ref a = (.ok (p.obj, []), { a with store := a.store, world := w1 }) := by
    unfold upgrade
    rw [if_neg (by decide), if_pos rfl]
    unfold upgrade20
    rw [(version_of hg.built).2, hg.version]
    dsimp only
    rw [if_neg (by decide), if_pos rfl, hup, h1]
  have hr20 := routes_at (pointer p.place) hv hr []
  have step1 := fun vs => loop_at (vs := vs) (out := out) (up := upgrade out (application out n)) hup20 hr20
    ((relocate_at (url := p.url) (r1 := []) (r2 := [(pointer p.place, .nested [])]) (r3 := []) (by rw [Dict.get?_set_self]) _).1)
  -- the step to 3.0.0
  have hw1 : Tidy w1 := fun x g1 g2 => (h2 x).trans (hw x g1 g2)
  obtain ⟨c3, r, o3, rl, b1, b2, b3, b4, b5, b6⟩ := alone_convert hg hreg hd hfree hable hset (w := w1)
    (fun ts x hx => fresh_of hg hfree hw1 hx)
  have hc3 : v3 c3 = true ∧ c3 ≠ s% "v3_0_0.Reference" ∧ c3 ≠ s% "v3_0_0.OpenApi" ∧ c3 ≠ s% "v1_2.ResourceListing" ∧ c3 ≠ s% "v2_0.Swagger" := by
    rcases b1 with ⟨_, rfl, _⟩ | ⟨_, rfl, _⟩ | ⟨_, rfl, _⟩ | ⟨_, rfl, _⟩ <;> decide
  obtain ⟨hfine, hL3⟩ := fine_scanned hc3.1 b6 b2 b3
  have hbase : o3.isBase = true := by
    obtain ⟨_, e⟩ := Refs.build_class b3
    rw [e]; rfl
  obtain ⟨hno, hfr⟩ := fresh_fine (W := W) hc3.2.1 b3 hfine hbase
  let st1 : Store Obj := { a.store with routes := Dict.set a.store.routes p.url [(s% "1.2", []), (s% "2.0", [(pointer p.place, .nested [])]), (s% "3.0.0", [])] }
  have ho1 : OneAt st1 p.url (pointer p.place) [(s% "2.0", p.obj)] := ho
  have hsame : st1.set p.obj p.url (pointer p.place) (s% "2.0") = st1 :=
    set_again ho1 (by rw [Dict.get?_cons, if_pos rfl]) (by rw [Dict.get?_cons, if_pos rfl])
  let a1 : App Obj (World W) := { a with store := st1, world := w1 }
  have step1' : ∀ vs, App.migrateLoop (application out (n + 1)) p.ref p.url (s% "2.0" :: vs) (pointer p.place) (s% "2.0") p.obj a =
      App.migrateLoop (application out (n + 1)) p.ref p.url vs (pointer p.place) (s% "2.0") p.obj a1 := by
    intro vs
    have := step1 vs
    rw [hsame] at this
    exact this
  have hr1 : Dict.get? (st1.set o3 p.url (pointer p.place) (s% "3.0.0")).routes p.url =
      some [(s% "1.2", []), (s% "2.0", [(pointer p.place, .nested [])]), (s% "3.0.0", [])] := Dict.get?_set_self _ _ _
  have hr30 := routes_on (jp := pointer p.place) (st := st1.set o3 p.url (pointer p.place) (s% "3.0.0")) rl (.inl hr1)
  obtain ⟨w2, f1, f2, f3⟩ := finish30_free (out := out) (app := appWith out up) (a := a1) (reloc := rl) hc3.2.1 b2 b3 hL3 (fine_noExamples hfine hbase) hno
    (hfr hw1) hr30
  let st2 : Store Obj := { st1.set o3 p.url (pointer p.place) (s% "3.0.0") with routes := Dict.set (st1.set o3 p.url (pointer p.place) (s% "3.0.0")).routes p.url [(s% "1.2", []), (s% "2.0", [(pointer p.place, .nested [])]), (s% "3.0.0", [(pointer p.place, .nested rl)])] }
  have hup30 : upgrade out (application out n) (s% "3.0.0") p.obj p.ref a1 = (.ok (o3, rl), { a1 with store := st2, world := w2 }) := by
    unfold upgrade
    rw [if_neg (by decide), if_neg (by decide), if_pos rfl]
    unfold upgrade30
    rw [hs, (version_of hg.built).2, hg.version]
    dsimp only
    rw [if_pos rfl, one_under (a := a1) ho1 rfl]
    dsimp only
    rw [show convert (convEnv out a1.world) p.obj p.url (pointer p.place) [] = .ok (o3, rl) from b4]
    dsimp only
    rw [hup]
    exact f1
  have ho2 : OneAt st2 p.url (pointer p.place) [(s% "2.0", p.obj), (s% "3.0.0", o3)] := one_set ho1 o3 _
  have hst2 : Dict.get? st2.routes p.url = some [(s% "1.2", []), (s% "2.0", [(pointer p.place, .nested [])]), (s% "3.0.0", [(pointer p.place, .nested rl)])] :=
    Dict.get?_set_self _ _ _
  have hr2 : st2.updateRoutes p.url (s% "3.0.0") [(pointer p.place, .nested rl)] = (st2, .ok ()) := by
    rw [routes_on rl (.inr hst2), Dict.set_same hst2]
  have hloc : st2.relocate p.url (pointer p.place) (s% "2.0") (s% "3.0.0") = .ok (pointer p.place) := by
    rw [(relocate_at hst2 _).2.1, patch_self rl b5]
  have step2 := loop_at (vs := []) (out := out) (up := upgrade out (application out n)) hup30 hr2 hloc
  rw [set_again ho2 (by rw [Dict.get?_cons, if_pos rfl]) (by rw [Dict.get?_cons, if_neg (by decide), Dict.get?_cons, if_pos rfl])] at step2
  refine ⟨c3, r, o3, rl, { a1 with store := st2, world := w2 }, b1, b2, b3, ?_, ho2, hst2, b5, rfl, rfl, fun x => (f2 x).trans (h2 x), f3.trans h3⟩
  unfold App.migrateObj
  rw [hv, if_neg (by decide)]
  have hver : (application out (n + 1)).versionOf p.obj = .ok (s% "2.0") := by
    show versionOf p.obj = _
    rw [(version_of hg.built).2, hg.version]
  rw [hver]
  dsimp only
  rw [plan3]
  dsimp only
  rw [show (application out (n + 1)).split p.ref = .ok (p.url, pointer p.place) from hs]
  dsimp only
  rw [step1']
  rw [show App.migrateLoop (application out (n + 1)) p.ref p.url [s% "3.0.0"] (pointer p.place) (s% "2.0") p.obj a1 = _ from step2, App.migrateLoop]
  have hnr : (application out (n + 1)).isRoot o3 = false := by
    show (match o3.className? with | some c => _ | none => false) = false
    rw [(version_of b3).1]
    simp [hc3.2.2.1, hc3.2.2.2.1, hc3.2.2.2.2]
  dsimp only
  rw [hnr]
  rfl

theorem alone_load {out : Outer W} {p : Piece} {a : App Obj (World W)} (hg : p.Good out) (hs : p.Served out) (hu : Unknown a p.url)
    (up : Str → Obj → Str → App Obj (World W) → R (Obj × Routes) × App Obj (World W)) {b : Builder} (hb : Parses b p) (dummy : Bool) :
    App.loadObj (appWith out up) p.ref (some (fun j path w => (build pkg b j (some path) [], w))) dummy a = (.ok p.obj, put out a p) := by
  unfold App.loadObj
  have hf : (appWith out up).fetch p.ref a.world = (.ok p.json, { a.world with rest := (out.fetch p.ref a.world.rest).2 }) := by
    show ((out.fetch p.ref a.world.rest).1, _) = _
    rw [hs.fetch]
  rw [hf]
  dsimp only
  rw [specVersion_says hs.part]
  dsimp only
  rw [show (appWith out up).split p.ref = .ok (p.url, pointer p.place) from split_ref hg]
  dsimp only [Option.getD_none]
  have hget : a.store.get ((appWith out up).ops { a.world with rest := (out.fetch p.ref a.world.rest).2 }) p.url (pointer p.place) [] = .ok none := by
    unfold Store.get; rw [hu.objs]
  have hund : a.store.getUnder p.url (pointer p.place) [] dummy = .ok (none, a.store) := by
    unfold Store.getUnder
    rw [if_neg (by simp [pointer_nonempty]), hu.objs]
  rw [hget, hund]
  dsimp only [Option.filter]
  have hv : (appWith out up).versionOf p.obj = .ok (s% "2.0") := by
    show versionOf p.obj = _
    rw [(version_of hg.built).2, hg.version]
  have hroot : (appWith out up).isRoot p.obj = false := by
    show (match p.obj.className? with | some c => _ | none => false) = false
    rw [(version_of hg.built).1]
    have h1 : p.cls ≠ s% "v1_2.ResourceListing" := by
      intro e; have := hg.version; rw [e] at this; exact absurd this (by decide)
    have h2 : p.cls ≠ s% "v3_0_0.OpenApi" := by
      intro e; have := hg.version; rw [e] at this; exact absurd this (by decide)
    simp [h1, h2, hs.notRoot]
  unfold App.build
  dsimp only
  rw [suits_built hg hb]
  dsimp only
  rw [hv]
  dsimp only
  have ht := (truthy_base (base_of hg)).1
  rw [if_neg (by show ¬ (p.obj.truthy = false); rw [ht]; decide), hroot]
  rfl

/-- **C87**, for the objects that can be migrated: an object of 2.0 without references (a license, an info, a schema, a path item),
of a document the application knows nothing of, is loaded; migrated to 3.0.0, it becomes an object that says the same
(`BecomesAlone`: C53, C89, C90); both versions stay available, together with everything in them; nothing but the object is fetched. -/
theorem C87_alone_partial {out : Outer W} {n : Nat} {p : Piece} {d : Dict Json} {a : App Obj (World W)} (hg : p.Good out) (hs : p.Served out)
    (hreg : Regular pkg (.cls p.cls) p.json) (hd : p.json = .obj d) (hfree : RefFree Refs.normClasses2 p.obj) (hable : Able out.ok p.url p.cls d)
    (hset : SetOrdered out) (hw : Tidy a.world) (hu : Unknown a p.url) (dummy : Bool) :
    ∃ a1 c3 r o3 a2,
      App.loadObj (application out (n + 1)) p.ref (some (fun j path w => (build pkg (.cls p.cls) j (some path) [], w))) dummy a = (.ok p.obj, a1) ∧
      App.migrateObj (application out (n + 1)) p.obj p.ref (s% "3.0.0") a1 = (.ok o3, a2) ∧
      BecomesAlone out.ok p.url p.cls d c3 r ∧ build pkg (.cls c3) (.obj r) (some (pointer p.place)) [] = .ok o3 ∧
      FoundAt (application out (n + 1)) a2 p.url p.place (s% "2.0") (s% "2.0") p.obj ∧
      FoundAt (application out (n + 1)) a2 p.url p.place (s% "3.0.0") (s% "3.0.0") o3 ∧
      (∀ parser dummy, App.resolveObj (application out (n + 1)) p.ref (s% "2.0") parser (some (s% "3.0.0")) dummy a2 =
        (.ok (o3, p.url ++ pointer p.place), a2)) ∧
      a2.original = a.original ∧ a2.current = a.current ∧ Tidy a2.world ∧ a2.world.rest = (out.fetch p.ref a.world.rest).2 := by
  have hl := alone_load hg hs hu (upgrade out (application out n)) (.inl rfl) dummy
  obtain ⟨c3, r, o3, rl, a2, h1, h2, h3, h4, h5, h6, h7, h8, h9, h10, h11⟩ := alone_migrate (n := n) (a := put out a p) hg hs.notRoot hreg hd hfree hable hset
    (fun x g1 g2 => hw x g1 g2) hu.versions hu.routes (one_first hu.objs _ _)
  refine ⟨put out a p, c3, r, o3, a2, hl, h4, h1, h3, found_one (up := upgrade out (application out n)) hg.url h5 rfl (by decide),
    found_one (up := upgrade out (application out n)) hg.url h5 rfl (by decide), fun parser dummy => ?_, h8, h9, fun x g1 g2 => (h10 x).trans (hw x g1 g2), h11⟩
  have hbase : o3.isBase = true := by
    obtain ⟨_, e⟩ := Refs.build_class h3
    rw [e]; rfl
  have hget := one_get (ts := []) h5 (v := s% "3.0.0") (o := o3) (x := o3) rfl ⟨rfl, hbase⟩ out (upgrade out (application out n)) a2.world
  rw [List.append_nil] at hget
  rw [C66_cached (application out (n + 1)) p.ref (s% "2.0") parser (s% "3.0.0") dummy a2 p.url (pointer p.place) (pointer p.place) o3 (ref_ne hg) (by decide)
    (split_ref hg) hg.url.ne (.inl ⟨by decide, by rw [(relocate_at h6 _).2.1, patch_self rl h7]⟩) hget]
  have : (application out (n + 1)).isPrim o3 = false := (truthy_base hbase).2
  rw [this]
  rfl

/-- **C87**, asked for directly: when such an object is asked for in the version 3.0.0 by its reference, in an application of a 2.0
document, it is loaded, migrated and handed over. -/
theorem C87_asked_partial {out : Outer W} {n : Nat} {p : Piece} {d : Dict Json} {a : App Obj (World W)} (hg : p.Good out) (hs : p.Served out)
    (hreg : Regular pkg (.cls p.cls) p.json) (hd : p.json = .obj d) (hfree : RefFree Refs.normClasses2 p.obj) (hable : Able out.ok p.url p.cls d)
    (hset : SetOrdered out) (hw : Tidy a.world) (hu : Unknown a p.url) (hor : a.original = s% "2.0") (dummy : Bool) :
    ∃ c3 r o3 a2,
      App.resolveObj (application out (n + 1)) p.ref (s% "2.0") (some (fun j path w => (build pkg (.cls p.cls) j (some path) [], w)))
        (some (s% "3.0.0")) dummy a = (.ok (o3, p.url ++ pointer p.place), a2) ∧
      BecomesAlone out.ok p.url p.cls d c3 r ∧ build pkg (.cls c3) (.obj r) (some (pointer p.place)) [] = .ok o3 ∧
      a2.world.rest = (out.fetch p.ref a.world.rest).2 := by
  have hl := alone_load hg hs hu (upgrade out (application out n)) (.inl rfl) dummy
  obtain ⟨c3, r, o3, rl, a2, h1, h2, h3, h4, h5, h6, h7, h8, h9, h10, h11⟩ := alone_migrate (n := n) (a := put out a p) hg hs.notRoot hreg hd hfree hable hset
    (fun x g1 g2 => hw x g1 g2) hu.versions hu.routes (one_first hu.objs _ _)
  refine ⟨c3, r, o3, a2, ?_, h1, h3, h11⟩
  have hbase : o3.isBase = true := by
    obtain ⟨_, e⟩ := Refs.build_class h3
    rw [e]; rfl
  have hrel : ∀ q f t, a.store.relocate p.url q f t = .ok q := fun q f t => by unfold Store.relocate; rw [hu.routes]
  have hget : ∀ q v, a.store.get ((application out (n + 1)).ops a.world) p.url q v = .ok none := fun q v => by unfold Store.get; rw [hu.objs]
  unfold App.resolveObj
  rw [if_neg (ref_ne hg)]
  dsimp only
  rw [if_neg (by decide), show (application out (n + 1)).split p.ref = .ok (p.url, pointer p.place) from split_ref hg]
  dsimp only
  rw [if_neg hg.url.ne, if_neg hg.url.ne, if_pos (by decide), hrel]
  dsimp only
  rw [hget]
  dsimp only
  unfold App.resolveMiss
  have hun : a.store.getUntil ((application out (n + 1)).ops a.world) p.url (pointer p.place) (s% "2.0") (some (s% "3.0.0")) = .ok none := by
    unfold Store.getUntil
    rw [hu.versions]
    have hi : Store.indexOf [s% "1.2", s% "2.0", s% "3.0.0"] (s% "2.0") = .ok 1 := rfl
    have hj : Store.untilEnd [s% "1.2", s% "2.0", s% "3.0.0"] (some (s% "3.0.0")) = .ok 3 := rfl
    rw [hi, hj]
    have hl : (List.take 3 [s% "1.2", s% "2.0", s% "3.0.0"]).drop (1 + 1) = [s% "3.0.0"] := rfl
    simp only [bind, Except.bind, hl, Store.untilChain, hrel, List.reverse_append, List.reverse_cons, List.reverse_nil, List.nil_append, List.cons_append,
      Store.untilSeek, hget]
  rw [hun]
  dsimp only
  rw [if_neg (by rw [hor]; simp)]
  rw [show App.loadObj (application out (n + 1)) p.ref _ dummy a = _ from hl]
  dsimp only
  rw [if_pos (show ((application out (n + 1)).ops _).truthy p.obj = true from (truthy_base (base_of hg)).1), h4]
  dsimp only
  have ht := (truthy_base hbase).1
  have : ((application out (n + 1)).ops a2.world).truthy o3 = true := ht
  rw [if_pos this]
  have hprep : (application out (n + 1)).prepare o3 p.ref a2 = (.ok o3, a2) := rfl
  rw [hprep]
  dsimp only
  rw [(relocate_at h6 _).2.1, patch_self rl h7]
  dsimp only
  rw [show (application out (n + 1)).isPrim o3 = false from (truthy_base hbase).2]
  rfl

end Pyopenapi.Main
