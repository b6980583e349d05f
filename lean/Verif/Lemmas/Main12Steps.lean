import Verif.Lemmas.Main12

/-!
# A resource listing goes through the steps to 1.2, 2.0 and 3.0.0
-/

namespace Pyopenapi.Main
open _root_.Pyopenapi.Spec _root_.Pyopenapi.Refs.Spec Obj

variable {W : Type}

theorem plan12_2 : App.plan [s% "1.2", s% "2.0", s% "3.0.0"] (s% "1.2") (s% "2.0") = .ok [s% "1.2", s% "2.0"] := by rfl
theorem plan12_3 : App.plan [s% "1.2", s% "2.0", s% "3.0.0"] (s% "1.2") (s% "3.0.0") = .ok [s% "1.2", s% "2.0", s% "3.0.0"] := by rfl

theorem routes_first12 {st : Store Obj} {url : Str} (hv : st.versions = [s% "1.2", s% "2.0", s% "3.0.0"])
    (h : Dict.get? st.routes url = none) (r : Routes) :
    st.updateRoutes url (s% "1.2") [(['#'], .nested r)] =
      ({ st with routes := Dict.set st.routes url [(s% "1.2", [(['#'], .nested r)]), (s% "2.0", []), (s% "3.0.0", [])] }, .ok ()) := by
  unfold Store.updateRoutes Store.tableFor
  rw [h, hv]
  rfl

theorem routes_next12 {st : Store Obj} {url : Str} {r1 : Routes} (r : Routes)
    (h : Dict.get? st.routes url = some [(s% "1.2", r1), (s% "2.0", []), (s% "3.0.0", [])]) :
    st.updateRoutes url (s% "2.0") [(['#'], .nested r)] =
      ({ st with routes := Dict.set st.routes url [(s% "1.2", r1), (s% "2.0", [(['#'], .nested r)]), (s% "3.0.0", [])] }, .ok ()) := by
  unfold Store.updateRoutes Store.tableFor
  rw [h]
  rfl

theorem relocate_at12 {st : Store Obj} {url : Str} {r1 r2 r3 : Routes}
    (h : Dict.get? st.routes url = some [(s% "1.2", r1), (s% "2.0", r2), (s% "3.0.0", r3)]) (p : Str) :
    st.relocate url p (s% "1.2") (s% "1.2") = .ok p ∧
    st.relocate url p (s% "1.2") (s% "2.0") = .ok (patchJp p r2) := by
  unfold Store.relocate
  rw [h]
  exact ⟨rfl, rfl⟩

theorem set_objs_any {st : Store Obj} {url v : Str} (hv : v ≠ s% "3.0.0")
    (h : Dict.get? st.objs url = none ∨ ∃ cache, Dict.get? st.objs url = some [(['#'], cache)] ∧
      Dict.get? cache (s% "3.0.0") = none) (o : Obj) :
    ∃ cache, Dict.get? (st.set o url ['#'] v).objs url = some [(['#'], cache)] ∧ Dict.get? cache (s% "3.0.0") = none ∧
      Dict.get? cache v = some o ∧
      ∀ v' o', v' ≠ v → (∃ cache, Dict.get? st.objs url = some [(['#'], cache)] ∧ Dict.get? cache v' = some o') → Dict.get? cache v' = some o' := by
  unfold Store.set
  rcases h with h | ⟨cache, h, hc⟩
  · simp only [h, Option.getD_none, Dict.get?_nil, Dict.get?_set_self]
    refine ⟨_, rfl, ?_, ?_, ?_⟩
    · rw [Dict.get?_set_ne _ _ hv]; rfl
    · rw [Dict.get?_set_self]
    · rintro v' o' _ ⟨_, g, _⟩; cases g
  · simp only [h, Option.getD_some, Dict.get?, Dict.set, if_true, Dict.get?_set_self]
    refine ⟨_, rfl, by rw [Dict.get?_set_ne _ _ hv]; exact hc, by rw [Dict.get?_set_self], ?_⟩
    rintro v' o' hne ⟨c, g, g'⟩
    cases g
    rw [Dict.get?_set_ne _ _ (Ne.symm hne)]
    exact g'

/-- What is known of the application after the steps to 1.2 or 2.0. -/
structure Stepped (a : App Obj (World W)) (url : Str) (r1 r2 : Routes) (has : List (Str × Obj)) : Prop where
  versions : a.store.versions = [s% "1.2", s% "2.0", s% "3.0.0"]
  routes : Dict.get? a.store.routes url = some [(s% "1.2", r1), (s% "2.0", r2), (s% "3.0.0", [])]
  objs : ∃ cache, Dict.get? a.store.objs url = some [(['#'], cache)] ∧ Dict.get? cache (s% "3.0.0") = none ∧
    ∀ p ∈ has, Dict.get? cache p.1 = some p.2

/-- The step to 1.2. -/
theorem step12_local {out : Outer W} {n : Nat} {a : App Obj (World W)} {url : Str} {o : Obj} {vs : List Str} (hs : Start a url) :
    ∃ a1, App.migrateLoop (application out (n + 1)) url url (s% "1.2" :: vs) ['#'] (s% "1.2") o a =
        App.migrateLoop (application out (n + 1)) url url vs ['#'] (s% "1.2") o a1 ∧
      Stepped a1 url [(['#'], .nested [])] [] [(s% "1.2", o)] ∧
      a1.original = a.original ∧ a1.current = a.current ∧ a1.world = a.world := by
  have hupg : upgrade out (application out n) (s% "1.2") o url a = (.ok (o, []), a) := by
    unfold upgrade
    rw [if_pos rfl]
    rfl
  refine ⟨_, loop_step (out := out) (up := upgrade out (application out n)) hupg (routes_first12 hs.versions hs.routes [])
    ((relocate_at12 (url := url) (r1 := [(['#'], .nested [])]) (r2 := []) (r3 := []) (by rw [Dict.get?_set_self]) _).1), ⟨hs.versions, ?_, ?_⟩, rfl, rfl, rfl⟩
  · rw [set_routes]; exact Dict.get?_set_self _ _ _
  · obtain ⟨cache, h1, h2, h3, _⟩ := set_objs_any (st := { a.store with routes := Dict.set a.store.routes url [(s% "1.2", [(['#'], .nested [])]), (s% "2.0", []), (s% "3.0.0", [])] })
      (url := url) (v := s% "1.2") (by decide) hs.objs o
    exact ⟨cache, h1, h2, fun p hp => by rw [List.mem_singleton.1 hp]; exact h3⟩

/-- The step from 1.2 to 2.0. -/
theorem step20_from12 {out : Outer W} {n : Nat} {a : App Obj (World W)} {url : Str} {listing : Obj} {rs : List (Str × Obj)} {doc : Dict Json}
    {o : Obj} {vs : List Str} {r1 : Routes} (hu : DocUrl out.ok url) (hl : versionOf listing = .ok (s% "1.2"))
    (hcached : a.world.cached.find? (fun p => decide (p.1 = listing)) = some (listing, rs))
    (hup : Up12.upgrade12 out.up12 listing rs = .ok (doc, o))
    (hj : (Json.obj doc).wf = true) (hb : build pkg (.cls (s% "v2_0.Swagger")) (.obj doc) (some (s% "#")) [] = .ok o)
    (hs : Stepped a url r1 [] [(s% "1.2", listing)]) (hlink : Linked o Refs.normClasses2 []) (hpath : NoPathRef o (s% "v2_0.PathItem"))
    (hfresh : ∀ v ∈ visits o, attrsOf a.world v.2 = {}) :
    ∃ a2, App.migrateLoop (application out (n + 1)) url url (s% "2.0" :: vs) ['#'] (s% "1.2") listing a =
        App.migrateLoop (application out (n + 1)) url url vs ['#'] (s% "2.0") o a2 ∧
      Stepped a2 url r1 [(['#'], .nested [])] [(s% "1.2", listing), (s% "2.0", o)] ∧
      a2.original = a.original ∧ a2.current = a.current ∧ Knows a2.world o Refs.normClasses2 url ∧
      (∀ x, (∀ ts, ¬ Visited [] o ts x) → attrsOf a2.world x = attrsOf a.world x) ∧ a2.world.rest = a.world.rest := by
  obtain ⟨up, hupw⟩ := application_with out n
  obtain ⟨cache, hc1, hc2, hc3⟩ := hs.objs
  obtain ⟨attrs, h1, h2, h3, h3r⟩ := finish20_local (up := up) hu (by decide) hj hb (scanned_of (by decide) hj hb) (.inr ⟨cache, hc1⟩) hlink hpath hfresh
  have hupg : upgrade out (application out n) (s% "2.0") listing url a = (.ok (o, []), { a with
      store := a.store.set o url ['#'] (s% "2.0"), world := attrs }) := by
    unfold upgrade
    rw [if_neg (by decide), if_pos rfl]
    unfold upgrade20
    rw [hl]
    dsimp only
    rw [if_pos rfl]
    have : from12 out listing a.world = .ok o := by
      unfold from12
      rw [hcached]
      dsimp only
      rw [hup]
      rfl
    rw [this]
    dsimp only
    rw [hupw, h1]
  have hr := routes_next12 (st := a.store.set o url ['#'] (s% "2.0")) [] hs.routes
  have hp : patchJp ['#'] [(['#'], .nested [])] = ['#'] := patch_root [] (fun k hk => by cases hk)
  refine ⟨_, loop_step (out := out) (up := upgrade out (application out n)) hupg hr
    (((relocate_at12 (url := url) (r1 := r1) (r2 := [(['#'], .nested [])]) (r3 := []) (by rw [Dict.get?_set_self]) _).2).trans (by rw [hp])),
    ⟨hs.versions, ?_, ?_⟩, rfl, rfl, h2, h3, h3r⟩
  · rw [set_routes]; exact Dict.get?_set_self _ _ _
  · obtain ⟨c1, g1, g2, g3, g4⟩ := set_objs_any (st := a.store) (url := url) (v := s% "2.0") (by decide) (.inr ⟨cache, hc1, hc2⟩) o
    obtain ⟨c2, k1, k2, k3, k4⟩ := set_objs_any (st := { a.store.set o url ['#'] (s% "2.0") with routes := Dict.set (a.store.set o url ['#'] (s% "2.0")).routes url [(s% "1.2", r1), (s% "2.0", [(['#'], .nested [])]), (s% "3.0.0", [])] }) (url := url) (v := s% "2.0") (by decide) (.inr ⟨c1, g1, g2⟩) o
    refine ⟨c2, k1, k2, fun p hp => ?_⟩
    rcases List.mem_cons.1 hp with rfl | hp
    · exact k4 _ _ (show s% "1.2" ≠ s% "2.0" by decide) ⟨c1, g1, g4 _ _ (show s% "1.2" ≠ s% "2.0" by decide) ⟨cache, hc1, hc3 _ (List.mem_singleton.2 rfl)⟩⟩
    · rw [List.mem_singleton.1 hp]; exact k3

theorem loaded12_start (w' : W) (listing : Obj) (last url : Str) (rs : List Resource) : Start (loaded12 w' listing last rs) url := by
  refine ⟨rfl, rfl, ?_⟩
  unfold loaded12
  dsimp only
  unfold Store.set
  simp only [Store.init, Dict.get?_nil, Option.getD_none]
  by_cases h : last = url
  · subst h
    refine .inr ⟨_, Dict.get?_set_self _ _ _, ?_⟩
    rfl
  · exact .inl (by rw [Dict.get?_set_ne _ _ h]; rfl)

theorem loaded12_cached (w' : W) (listing : Obj) (last : Str) (rs : List Resource) :
    (loaded12 w' listing last rs).world.cached.find? (fun p => decide (p.1 = listing)) = some (listing, rs.map (fun r => (r.name, r.obj))) := by
  unfold loaded12
  simp

end Pyopenapi.Main
