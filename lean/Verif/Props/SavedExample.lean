import Verif.Props.Saved
import Verif.Props.SavedTwo
import Verif.Props.MainUpExample

/-!
# Instances of C113
-/

namespace Pyopenapi.Main
open _root_.Pyopenapi.Spec _root_.Pyopenapi.Refs.Spec Obj Conv

/-- `Whole`, for one object. -/
def wholeB (x : Obj) : Bool :=
  match x with
  | .base c _ (.obj d) kids =>
    (pkg c).children.all (fun q => !q.2.required || (match Dict.get? kids q.1 with | some y => y.truthy | none => false)) &&
    kids.all (fun q => match q.2 with | .prim j => !j.truthy | _ => true) &&
    (pkg c).fields.all (fun q => !q.2.restricted || (Dict.get? d q.1).isNone)
  | .base _ _ _ _ => false
  | _ => true

theorem whole_check {root : Obj} (hbase : root.isBase = true) (hL : Scanned root (visits root))
    (h : (visits root).all (fun v => wholeB v.2) = true) : Whole root := by
  intro c p s kids hi
  obtain ⟨ts, hv⟩ := inside_visited hbase hi rfl
  have := List.all_eq_true.1 h _ ((hL.2.2 _ _).2 hv)
  unfold wholeB at this
  split at this
  · rename_i c0 p0 d kids0 he
    dsimp only at he
    cases he
    simp only [Bool.and_eq_true] at this
    obtain ⟨⟨h1, h2⟩, h3⟩ := this
    refine ⟨d, rfl, ?_, ?_, ?_⟩
    · intro k cd hm hr
      have := List.all_eq_true.1 h1 _ hm
      simp only [hr, Bool.not_true, Bool.false_or] at this
      split at this
      · rename_i y hy; exact ⟨y, hy, this⟩
      · cases this
    · intro k j hm
      have := List.all_eq_true.1 h2 _ hm
      simpa using this
    · intro k fd hm hr
      have := List.all_eq_true.1 h3 _ hm
      simpa [hr] using this
  · cases this
  · rename_i h1 h2
    exact absurd rfl (h2 _ _ _ _)

theorem petObj3_whole : Whole petObj3 :=
  have hL : Scanned petObj3 (visits petObj3) :=
    Refs.scanned_walk (loaded_keyed okTable_pkg closed_all ⟨_, petDoc3, _, trivial, by decide +kernel, petObj3_built⟩)
      (noMix_check (n := 30) (by decide +kernel))
  whole_check rfl hL (by decide +kernel)

theorem docUrl_other : DocUrl (fun _ => true) (s% "file:///c.json") :=
  ⟨by decide, by decide, ⟨s% "file", [], s% "/c.json", [], [], []⟩, by decide +kernel⟩

/-- `petDoc3` is loaded, prepared and saved, and what has been saved is loaded from another place: it says the same. -/
theorem C113_native_example : ∃ a' j' o' b b', (∃ a, App.loadObj (application (serving petDoc3) 1) (s% "file:///a/b.json") none false (opened ()) = (.ok petObj3, a) ∧
      App.migrateObj (application (serving petDoc3) 1) petObj3 (s% "file:///a/b.json") (s% "3.0.0") a = (.ok petObj3, a')) ∧
    Obj.dump pkg (rewritten (written a'.world) petObj3) = .ok j' ∧
    App.loadObj (application (serving j') 1) (s% "file:///c.json") none false (opened ()) = (.ok o', b) ∧
    App.migrateObj (application (serving j') 1) o' (s% "file:///c.json") (s% "3.0.0") b = (.ok o', b') ∧
    SavedAs (written a'.world) petObj3 o' ∧ Found (application (serving j') 1) b' (s% "file:///c.json") (s% "3.0.0") o' := by
  have hm : NoMix petObj3 := noMix_check (n := 30) (by decide +kernel)
  have hL : Scanned petObj3 (visits petObj3) :=
    Refs.scanned_walk (loaded_keyed okTable_pkg closed_all ⟨_, petDoc3, _, trivial, by decide +kernel, petObj3_built⟩) hm
  obtain ⟨a, a', h1, h2, hs, hall⟩ := C113_native_partial (n := 0) (out := serving petDoc3) (w := ()) docUrl_example rfl (by decide +kernel) (by decide +kernel) (by decide +kernel)
    petObj3_built hm (noEx_check hL (by decide +kernel)) (linked_check hL (by decide +kernel)) (noRef_check hL (by decide +kernel))
  obtain ⟨j', hj', hbuild⟩ := hs petObj3_whole
  obtain ⟨o', ho'⟩ := hbuild (s% "file:///c.json")
  obtain ⟨b, b', h3, h4, _, _, h5, h6, _⟩ := hall j' hj' Unit (serving j') 0 () () (s% "file:///c.json") o'
    docUrl_other rfl ho'
  exact ⟨a', j', o', b, b', ⟨a, h1, h2⟩, hj', h3, h4, h6, h5⟩

theorem petObj_whole : Whole petObj :=
  whole_check rfl (scanned_of (by decide) (by decide +kernel) petObj_built) (by decide +kernel)

/-- `petDoc` stays a document of 2.0, is saved, and loaded from another place: it says the same. -/
theorem C113_two_example : ∃ a' j' o' b b', (∃ a, App.loadObj (application (serving petDoc) 1) (s% "file:///a/b.json") none false (opened ()) = (.ok petObj, a) ∧
      App.migrateObj (application (serving petDoc) 1) petObj (s% "file:///a/b.json") (s% "2.0") a = (.ok petObj, a')) ∧
    Obj.dump pkg petObj = .ok j' ∧
    App.loadObj (application (serving j') 1) (s% "file:///c.json") none false (opened ()) = (.ok o', b) ∧
    App.migrateObj (application (serving j') 1) o' (s% "file:///c.json") (s% "2.0") b = (.ok o', b') ∧
    SavedAs asIs petObj o' ∧ Found (application (serving j') 1) b' (s% "file:///c.json") (s% "2.0") o' := by
  have hL := scanned_of (by decide) (by decide +kernel) petObj_built
  obtain ⟨a, a', h1, h2, hs, hall⟩ := C113_two (n := 0) (out := serving petDoc) (w := ()) docUrl_example rfl (by decide +kernel) (by decide +kernel)
    (by decide +kernel) petObj_built (linked_check hL (by decide +kernel)) (noRef_check hL (by decide +kernel))
  obtain ⟨j', hj', hbuild⟩ := hs petObj_whole
  obtain ⟨o', ho'⟩ := hbuild (s% "file:///c.json")
  obtain ⟨b, b', h3, h4, _, _, h5, h6, _⟩ := hall j' hj' Unit (serving j') 0 () () (s% "file:///c.json") o' docUrl_other rfl ho'
  exact ⟨a', j', o', b, b', ⟨a, h1, h2⟩, hj', h3, h4, h6, h5⟩

/-- `shopDoc` is converted, and can be saved. -/
theorem C113_converted_example : ∃ a a' r o3,
    App.loadObj (application shopOut 1) (s% "file:///a/b.json") none false (opened ()) = (.ok shopObj, a) ∧
      App.migrateObj (application shopOut 1) shopObj (s% "file:///a/b.json") (s% "3.0.0") a = (.ok o3, a') ∧
      build pkg (.cls (s% "v3_0_0.OpenApi")) (.obj r) (some ['#']) [] = .ok o3 ∧ DocTo (docRefs shopDoc) shopDoc r ∧
      RefersTo o3 shopDoc ∧ Savable a'.world o3 :=
  have hL := scanned_of (by decide) (by decide +kernel) shopObj_built
  C113_converted (K := 2) docUrl_example plainEnv_set rfl (by decide +kernel)
    (regularB_sound 12 _ _ (by decide +kernel)) (by decide +kernel) shopObj_built (conventional_check hL (by decide +kernel))
    (grounded_check hL (by decide +kernel)) shop_files shop_names shop_resolves shop_convertible
    (fun k e h => by rw [shop_scheme h]; exact fun _ => .inl (by decide))

end Pyopenapi.Main
