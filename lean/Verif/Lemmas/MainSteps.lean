import Verif.Lemmas.MainRun

/-!
# The loop of `migrate_obj` over a document that refers to nothing but itself
-/

namespace Pyopenapi.Main
open _root_.Pyopenapi.Spec _root_.Pyopenapi.Refs.Spec Obj

variable {W : Type}

theorem application_with (out : Outer W) (n : Nat) : ∃ up, application out n = appWith out up := by
  cases n with
  | zero => exact ⟨_, rfl⟩
  | succ n => exact ⟨_, rfl⟩

theorem loop_step {out : Outer W} {up : Str → Obj → Str → App Obj (World W) → R (Obj × Routes) × App Obj (World W)}
    {url v from_ : Str} {vs : List Str} {o o' : Obj} {r : Routes} {a a1 : App Obj (World W)} {st : Store Obj}
    (h1 : up v o url a = (.ok (o', r), a1))
    (h2 : a1.store.updateRoutes url v [(['#'], .nested r)] = (st, .ok ())) (h3 : st.relocate url ['#'] from_ v = .ok ['#']) :
    App.migrateLoop (appWith out up) url url (v :: vs) ['#'] from_ o a =
      App.migrateLoop (appWith out up) url url vs ['#'] v o' { a1 with store := st.set o' url ['#'] v } := by
  rw [App.migrateLoop]
  have : (appWith out up).upgrade v o url a = (.ok (o', r), a1) := h1
  rw [this]
  dsimp only
  rw [h2]
  dsimp only
  rw [h3]
  rfl

theorem patch_root (r : Routes) (h : ∀ k ∈ Dict.keys r, k ≠ []) : patchJp ['#'] [(['#'], .nested r)] = ['#'] := by
  unfold patchJp
  have : patchLoop [(['#'], .nested r)] [] ['#'] = none := by
    rw [patchLoop_unfold]
    have : pickRoute ['#'] [(['#'], Route.nested r)] none = some (['#'], .nested r) := rfl
    rw [this]
    dsimp only
    split
    · rfl
    · rw [patchLoop_unfold]
      have : pickRoute [] r none = none := pickRoute_of_none (fun f t hm ⟨x, hx⟩ => by
        exact h f (List.mem_map_of_mem (f := Prod.fst) hm) (List.append_eq_nil_iff.1 hx.symm).1)
      simp [Str.startsWith, this]
  rw [this]

/-- The application has nothing of this url, or the document as loaded; no reference into it has moved. -/
structure Start (a : App Obj (World W)) (url : Str) : Prop where
  versions : a.store.versions = [s% "1.2", s% "2.0", s% "3.0.0"]
  routes : Dict.get? a.store.routes url = none
  objs : Dict.get? a.store.objs url = none ∨ ∃ cache, Dict.get? a.store.objs url = some [(['#'], cache)] ∧ Dict.get? cache (s% "3.0.0") = none

theorem Start.clean {a : App Obj (World W)} {url : Str} (h : Start a url) : Clean a url := by
  rcases h.objs with h | ⟨cache, h, _⟩
  · exact .inl h
  · exact .inr ⟨cache, h⟩

theorem set_routes (st : Store Obj) (o : Obj) (url jp v : Str) : (st.set o url jp v).routes = st.routes := rfl

theorem set_versions (st : Store Obj) (o : Obj) (url jp v : Str) : (st.set o url jp v).versions = st.versions := rfl

theorem set_objs {st : Store Obj} {url : Str} (h : Dict.get? st.objs url = none ∨ ∃ cache, Dict.get? st.objs url = some [(['#'], cache)] ∧
    Dict.get? cache (s% "3.0.0") = none) (o : Obj) :
    ∃ cache, Dict.get? (st.set o url ['#'] (s% "2.0")).objs url = some [(['#'], cache)] ∧ Dict.get? cache (s% "3.0.0") = none ∧
      Dict.get? cache (s% "2.0") = some o := by
  unfold Store.set
  rcases h with h | ⟨cache, h, hc⟩
  · simp only [h, Option.getD_none, Dict.get?_nil, Dict.get?_set_self]
    exact ⟨_, rfl, rfl, rfl⟩
  · simp only [h, Option.getD_some, Dict.get?, Dict.set, if_true, Dict.get?_set_self]
    exact ⟨_, rfl, by rw [Dict.get?_set_ne _ _ (by decide)]; exact hc, by rw [Dict.get?_set_self]⟩

theorem version_of {c : Str} {j : Json} {p : Option Str} {o : Obj} (h : build pkg (.cls c) j p [] = .ok o) :
    o.className? = some c ∧ versionOf o = .ok (pkg c).version := by
  rw [build_cls] at h
  split at h
  · simp at h
  · simp only [Except.ok.injEq] at h; subst h; exact ⟨rfl, rfl⟩

/-- The step to 2.0. -/
theorem step20_local {out : Outer W} {n : Nat} {a : App Obj (World W)} {url c : Str} {j : Json} {p : Option Str} {o : Obj} {vs : List Str}
    (hu : DocUrl out.ok url) (hc : c ≠ s% "v2_0.Reference") (hcv : (pkg c).version = s% "2.0")
    (hj : j.wf = true) (hb : build pkg (.cls c) j p [] = .ok o) (hL : Scanned o (visits o)) (hs : Start a url)
    (hlink : Linked o Refs.normClasses2 []) (hpath : NoPathRef o (s% "v2_0.PathItem")) (hfresh : ∀ v ∈ visits o, attrsOf a.world v.2 = {}) :
    ∃ a2, App.migrateLoop (application out (n + 1)) url url (s% "2.0" :: vs) ['#'] (s% "2.0") o a =
        App.migrateLoop (application out (n + 1)) url url vs ['#'] (s% "2.0") o a2 ∧
      Dict.get? a2.store.routes url = some [(s% "1.2", []), (s% "2.0", [(['#'], .nested [])]), (s% "3.0.0", [])] ∧
      (∃ cache, Dict.get? a2.store.objs url = some [(['#'], cache)] ∧ Dict.get? cache (s% "3.0.0") = none ∧
        Dict.get? cache (s% "2.0") = some o) ∧
      a2.original = a.original ∧ a2.current = a.current ∧ Knows a2.world o Refs.normClasses2 url ∧
      (∀ x, (∀ ts, ¬ Visited [] o ts x) → attrsOf a2.world x = attrsOf a.world x) ∧ a2.store.versions = a.store.versions ∧
      a2.world.rest = a.world.rest := by
  obtain ⟨up, hup⟩ := application_with out n
  obtain ⟨attrs, h1, h2, h3, h3r⟩ := finish20_local (up := up) hu hc hj hb hL hs.clean hlink hpath hfresh
  have hupg : upgrade out (application out n) (s% "2.0") o url a = (.ok (o, []), { a with
      store := a.store.set o url ['#'] (s% "2.0"), world := attrs }) := by
    unfold upgrade
    rw [if_neg (by decide), if_pos rfl]
    unfold upgrade20
    rw [(version_of hb).2, hcv]
    dsimp only
    rw [if_neg (by decide), if_pos rfl, hup, h1]
  have hr := (routes_first (st := a.store.set o url ['#'] (s% "2.0")) hs.versions hs.routes []).1
  refine ⟨_, loop_step (out := out) (up := upgrade out (application out n)) hupg hr
    ((relocate_at (url := url) (r1 := []) (r2 := [(['#'], .nested [])]) (r3 := []) (by rw [Dict.get?_set_self]) _).1), ?_, ?_, rfl, rfl, h2, h3, rfl, h3r⟩
  · rw [set_routes]; exact Dict.get?_set_self _ _ _
  · have h0 := set_objs hs.objs o
    obtain ⟨cache, g1, g2, _⟩ := h0
    exact set_objs (st := { a.store.set o url ['#'] (s% "2.0") with routes := _ }) (.inr ⟨cache, g1, g2⟩) o

/-- A document of 2.0 is migrated to 2.0. -/
theorem run20 {out : Outer W} {n : Nat} {a : App Obj (World W)} {url : Str} {j : Json} {p : Option Str} {o : Obj}
    (hu : DocUrl out.ok url) (hj : j.wf = true) (hb : build pkg (.cls (s% "v2_0.Swagger")) j p [] = .ok o)
    (hL : Scanned o (visits o)) (hs : Start a url) (hlink : Linked o Refs.normClasses2 []) (hpath : NoPathRef o (s% "v2_0.PathItem"))
    (hfresh : ∀ v ∈ visits o, attrsOf a.world v.2 = {}) :
    ∃ a', App.migrateObj (application out (n + 1)) o url (s% "2.0") a = (.ok o, a') ∧ a'.current = some (s% "2.0") ∧
      a'.original = a.original ∧ Has a' url (s% "2.0") o ∧ Knows a'.world o Refs.normClasses2 url ∧
      a'.world.rest = a.world.rest := by
  obtain ⟨a2, h1, h2, ⟨cache, h3, h4, h5⟩, h6, h7, h8, h9, h10, h11⟩ :=
    step20_local (n := n) (vs := []) hu (by decide) rfl hj hb hL hs hlink hpath hfresh
  refine ⟨{ a2 with current := some (s% "2.0") }, ?_, rfl, h6, ⟨cache, h3, h5⟩, h8, h11⟩
  unfold App.migrateObj
  rw [hs.versions, if_neg (by decide)]
  have hv : (application out (n + 1)).versionOf o = .ok (s% "2.0") := (version_of hb).2
  rw [hv]
  dsimp only
  rw [plan2]
  have hsp : (application out (n + 1)).split url = .ok (url, ['#']) := split_url hu
  dsimp only
  rw [hsp]
  dsimp only
  rw [h1, App.migrateLoop]
  have : (application out (n + 1)).isRoot o = true := by
    show (match o.className? with | some c => _ | none => false) = true
    rw [(version_of hb).1]
    rfl
  dsimp only
  rw [this]
  rfl

/-- The step to 3.0.0 of a document of which the application has no 3.0.0 version. -/
theorem step30_local {out : Outer W} {n : Nat} {a : App Obj (World W)} {url from_ c : Str} {j : Json} {p : Option Str} {o0 o : Obj} {vs : List Str}
    {reloc r1 r2 : Routes} {move : Str → Str}
    (hu : DocUrl out.ok url) (hc : c ≠ s% "v3_0_0.Reference")
    (hj : j.wf = true) (hb : build pkg (.cls c) j p [] = .ok o) (hL : Scanned o (visits o)) (hclean : Clean a url)
    (hex : NoExamples o) (hlink : LinkedVia move o Refs.normClasses3 [s% "v3_0_0.Reference"])
    (hpath : NoPathRef o (s% "v3_0_0.PathItem")) (hfresh : ∀ v ∈ visits o, attrsOf a.world v.2 = {})
    (hset : ∀ st : Store Obj, st.routes = a.store.routes → st.versions = a.store.versions →
      st.updateRoutes url (s% "3.0.0") [(['#'], .nested reloc)] =
      ({ st with routes := Dict.set st.routes url [(s% "1.2", r1), (s% "2.0", r2), (s% "3.0.0", [(['#'], .nested reloc)])] }, .ok ()))
    (hmove : ∀ ts, (a.original = s% "3.0.0" ∧ move (pointer ts) = pointer ts) ∨
      (a.original ≠ s% "3.0.0" ∧ move (pointer ts) = patchJp (pointer ts) [(['#'], .nested reloc)]))
    (hfrom : from_ = s% "3.0.0" ∨ (from_ = s% "2.0" ∧ ∀ k ∈ Dict.keys reloc, k ≠ []))
    (hup : ∀ up, upgrade30 out (appWith out up) o0 url a = finish30 out (appWith out up) o reloc url ['#'] a) :
    ∃ a2, App.migrateLoop (application out (n + 1)) url url (s% "3.0.0" :: vs) ['#'] from_ o0 a =
        App.migrateLoop (application out (n + 1)) url url vs ['#'] (s% "3.0.0") o a2 ∧
      Dict.get? a2.store.routes url = some [(s% "1.2", r1), (s% "2.0", r2), (s% "3.0.0", [(['#'], .nested reloc)])] ∧
      Has a2 url (s% "3.0.0") o ∧ (∀ v o, v ≠ s% "3.0.0" → Has a url v o → Has a2 url v o) ∧
      a2.original = a.original ∧ a2.current = a.current ∧ KnowsVia move a2.world o Refs.normClasses3 url ∧
      (∀ x, (∀ ts, ¬ Visited [] o ts x) → attrsOf a2.world x = attrsOf a.world x) ∧ a2.world.rest = a.world.rest := by
  obtain ⟨up, hupw⟩ := application_with out n
  have hst := hset (a.store.set o url ['#'] (s% "3.0.0")) rfl rfl
  obtain ⟨attrs, h1, h2, h3, h3r⟩ := finish30_local (up := up) (move := move) hu hc hj hb hL hclean hex hlink hpath hfresh hst (fun ts => by
    rcases hmove ts with ⟨g1, g2⟩ | ⟨g1, g2⟩
    · exact .inl ⟨g1, g2⟩
    · refine .inr ⟨g1, ?_⟩
      rw [g2]
      exact (relocate_at (by rw [Dict.get?_set_self]) _).2.1)
  have hupg : upgrade out (application out n) (s% "3.0.0") o0 url a = finish30 out (appWith out up) o reloc url ['#'] a := by
    unfold upgrade
    rw [if_neg (by decide), if_neg (by decide), if_pos rfl, hupw, hup up]
  have hupg := hupg.trans h1
  have hst2 := routes_again (st := { a.store.set o url ['#'] (s% "3.0.0") with
    routes := Dict.set a.store.routes url [(s% "1.2", r1), (s% "2.0", r2), (s% "3.0.0", [(['#'], .nested reloc)])] }) (url := url) reloc
    (by rw [Dict.get?_set_self])
  have hHas0 := has_set hclean o (s% "3.0.0")
  refine ⟨_, loop_step (out := out) (up := upgrade out (application out n)) hupg hst2 ?_, ?_, ?_, ?_, rfl, rfl, h2, h3, h3r⟩
  · have := relocate_at (st := { a.store.set o url ['#'] (s% "3.0.0") with routes := Dict.set (Dict.set a.store.routes url [(s% "1.2", r1), (s% "2.0", r2), (s% "3.0.0", [(['#'], .nested reloc)])]) url [(s% "1.2", r1), (s% "2.0", r2), (s% "3.0.0", [(['#'], .nested reloc)])] }) (url := url) (r1 := r1) (r2 := r2) (r3 := [(['#'], .nested reloc)]) (by rw [Dict.get?_set_self]) ['#']
    rcases hfrom with rfl | ⟨rfl, hk⟩
    · exact this.2.2
    · rw [patch_root _ hk] at this
      exact this.2.1
  · rw [set_routes]; exact Dict.get?_set_self _ _ _
  · exact has_set (a := { a with store := { a.store.set o url ['#'] (s% "3.0.0") with routes := _ } }) hHas0.clean o (s% "3.0.0")
  · intro v o' hv hh
    exact has_set_keep (a := { a with store := { a.store.set o url ['#'] (s% "3.0.0") with routes := _ } })
      (has_set_keep hh o hv.symm) o hv.symm

theorem isRoot_of {out : Outer W} {n : Nat} {c : Str} {j : Json} {p : Option Str} {o : Obj} (h : build pkg (.cls c) j p [] = .ok o)
    (hc : c ∈ [s% "v1_2.ResourceListing", s% "v2_0.Swagger", s% "v3_0_0.OpenApi"]) : (application out n).isRoot o = true := by
  obtain ⟨up, e⟩ := application_with out n
  rw [e]
  show (match o.className? with | some c => _ | none => false) = true
  rw [(version_of h).1]
  simpa using hc

/-- A document of 3.0.0 is migrated to 3.0.0. -/
theorem run30 {out : Outer W} {n : Nat} {a : App Obj (World W)} {url : Str} {j : Json} {p : Option Str} {o : Obj}
    (hu : DocUrl out.ok url) (hj : j.wf = true) (hb : build pkg (.cls (s% "v3_0_0.OpenApi")) j p [] = .ok o)
    (hL : Scanned o (visits o)) (hvers : a.store.versions = [s% "1.2", s% "2.0", s% "3.0.0"])
    (hroutes : Dict.get? a.store.routes url = none) (hclean : Clean a url) (hex : NoExamples o)
    (hlink : Linked o Refs.normClasses3 [s% "v3_0_0.Reference"]) (hpath : NoPathRef o (s% "v3_0_0.PathItem"))
    (hor : a.original = s% "3.0.0") (hfresh : ∀ v ∈ visits o, attrsOf a.world v.2 = {}) :
    ∃ a', App.migrateObj (application out (n + 1)) o url (s% "3.0.0") a = (.ok o, a') ∧ a'.current = some (s% "3.0.0") ∧
      a'.original = a.original ∧ Has a' url (s% "3.0.0") o ∧ KnowsVia (fun p => p) a'.world o Refs.normClasses3 url ∧
      a'.world.rest = a.world.rest := by
  have hvia : LinkedVia (fun p => p) o Refs.normClasses3 [s% "v3_0_0.Reference"] := by
    intro ts c q spec kids hv hc
    obtain ⟨d, e, h⟩ := hlink ts c q spec kids hv hc
    refine ⟨d, e, ?_⟩
    rcases h with h | ⟨t, us, y, h, g1, g2⟩
    · exact .inl h
    · exact .inr ⟨t, us, t :: us, y, h, g1, rfl, g1, g2⟩
  obtain ⟨a2, h1, h2, h3, h4, h5, h6, h7, h8, h9⟩ := step30_local (n := n) (vs := []) (o0 := o) (from_ := s% "3.0.0") (reloc := [])
    (r1 := []) (r2 := []) hu (by decide) hj hb hL hclean hex hvia hpath hfresh
    (fun st e1 e2 => (routes_first (st := st) (by rw [e2]; exact hvers) (by rw [e1]; exact hroutes) []).2)
    (fun ts => .inl ⟨hor, rfl⟩) (.inl rfl)
    (fun up => by
      unfold upgrade30
      rw [split_url hu, (version_of hb).2]
      dsimp only
      rw [if_neg (by decide), if_pos (by decide)])
  refine ⟨{ a2 with current := some (s% "3.0.0") }, ?_, rfl, h5, h3, h7, h9⟩
  unfold App.migrateObj
  rw [hvers, if_neg (by decide)]
  have hv : (application out (n + 1)).versionOf o = .ok (s% "3.0.0") := (version_of hb).2
  rw [hv]
  dsimp only
  rw [plan33]
  have hsp : (application out (n + 1)).split url = .ok (url, ['#']) := split_url hu
  dsimp only
  rw [hsp]
  dsimp only
  rw [h1, App.migrateLoop]
  dsimp only
  rw [isRoot_of hb (by decide)]
  rfl

/-- A document of 2.0 is migrated to 3.0.0, when its conversion makes a document of 3.0.0 whose references stay in it. -/
theorem runUp {out : Outer W} {n : Nat} {a : App Obj (World W)} {url : Str} {j : Json} {p : Option Str} {o : Obj}
    (hu : DocUrl out.ok url) (hj : j.wf = true) (hb : build pkg (.cls (s% "v2_0.Swagger")) j p [] = .ok o)
    (hL : Scanned o (visits o)) (hs : Start a url) (hlink : Linked o Refs.normClasses2 []) (hpath : NoPathRef o (s% "v2_0.PathItem"))
    (hfresh : ∀ x, attrsOf a.world x = {}) (hor : a.original ≠ s% "3.0.0") {r : Dict Json} {rl : Routes} {o3 : Obj}
    (hconv : ∀ w : World W, Knows w o Refs.normClasses2 url → Conv.toOpenapi (convEnv out w) o = .ok (r, rl))
    (hk : ∀ k ∈ Dict.keys rl, k ≠ []) (hj3 : (Json.obj r).wf = true)
    (hb3 : build pkg (.cls (s% "v3_0_0.OpenApi")) (.obj r) (some ['#']) [] = .ok o3) (hL3 : Scanned o3 (visits o3)) (hex : NoExamples o3)
    (hlink3 : LinkedVia (fun p => patchJp p [(['#'], .nested rl)]) o3 Refs.normClasses3 [s% "v3_0_0.Reference"])
    (hpath3 : NoPathRef o3 (s% "v3_0_0.PathItem")) (hnew : ∀ ts us x, Visited [] o3 ts x → ¬ Visited [] o us x) :
    ∃ a', App.migrateObj (application out (n + 1)) o url (s% "3.0.0") a = (.ok o3, a') ∧ a'.current = some (s% "3.0.0") ∧
      a'.original = a.original ∧ Has a' url (s% "2.0") o ∧ Has a' url (s% "3.0.0") o3 ∧
      KnowsVia (fun p => patchJp p [(['#'], .nested rl)]) a'.world o3 Refs.normClasses3 url ∧
      Dict.get? a'.store.routes url = some [(s% "1.2", []), (s% "2.0", [(['#'], .nested [])]), (s% "3.0.0", [(['#'], .nested rl)])] ∧
      a'.world.rest = a.world.rest := by
  obtain ⟨a2, h1, h2, ⟨cache, h3, h4, h5⟩, h6, h7, h8, h9, h10, h11⟩ :=
    step20_local (n := n) (vs := [s% "3.0.0"]) hu (by decide) rfl hj hb hL hs hlink hpath (fun v _ => hfresh v.2)
  obtain ⟨a3, g1, g2, g3, g4, g5, g6, g7, g8, g9⟩ := step30_local (n := n) (vs := []) (o0 := o) (from_ := s% "2.0") (reloc := rl) (a := a2)
    (r1 := []) (r2 := [(['#'], .nested [])]) hu (by decide) hj3 hb3 hL3 (.inr ⟨cache, h3⟩) hex hlink3 hpath3
    (fun v hv => by
      rw [h9 v.2 (fun us hus => hnew v.1 us v.2 ((hL3.2.2 _ _).1 hv) hus)]
      exact hfresh v.2)
    (fun st e1 _ => routes_next (st := st) rl (by rw [e1]; exact h2))
    (fun ts => .inr ⟨by rw [h6]; exact hor, rfl⟩) (.inr ⟨rfl, hk⟩)
    (fun up => by
      unfold upgrade30
      rw [split_url hu, (version_of hb).2]
      dsimp only
      rw [if_pos (by decide), under_none (.inr ⟨cache, h3, h4⟩)]
      dsimp only
      have : convert (convEnv out a2.world) o url ['#'] [] = .ok (o3, rl) := by
        unfold convert
        rw [(version_of hb).1]
        dsimp only
        rw [if_pos rfl, hconv _ h8]
        simp only [bind, Except.bind]
        rw [hb3]
      rw [this])
  refine ⟨{ a3 with current := some (s% "3.0.0") }, ?_, rfl, g5.trans h6, g4 _ _ (by decide) ⟨cache, h3, h5⟩, g3, g7, g2, g9.trans h11⟩
  unfold App.migrateObj
  rw [hs.versions, if_neg (by decide)]
  have hv : (application out (n + 1)).versionOf o = .ok (s% "2.0") := (version_of hb).2
  rw [hv]
  dsimp only
  rw [plan3]
  have hsp : (application out (n + 1)).split url = .ok (url, ['#']) := split_url hu
  dsimp only
  rw [hsp]
  dsimp only
  rw [h1, g1, App.migrateLoop]
  dsimp only
  rw [isRoot_of hb3 (by decide)]
  rfl

end Pyopenapi.Main
