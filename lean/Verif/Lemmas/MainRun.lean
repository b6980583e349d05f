import Verif.Lemmas.Main30

/-!
# The migration of a document of which the application has nothing yet, or just the document
-/

namespace Pyopenapi.Main
open _root_.Pyopenapi.Spec _root_.Pyopenapi.Refs.Spec Obj

variable {W : Type}

theorem relocate_at {st : Store Obj} {url : Str} {r1 r2 r3 : Routes}
    (h : Dict.get? st.routes url = some [(s% "1.2", r1), (s% "2.0", r2), (s% "3.0.0", r3)]) (p : Str) :
    st.relocate url p (s% "2.0") (s% "2.0") = .ok p ∧
    st.relocate url p (s% "2.0") (s% "3.0.0") = .ok (patchJp p r3) ∧
    st.relocate url p (s% "3.0.0") (s% "3.0.0") = .ok p := by
  unfold Store.relocate
  rw [h]
  exact ⟨rfl, rfl, rfl⟩

theorem routes_first {st : Store Obj} {url : Str} (hv : st.versions = [s% "1.2", s% "2.0", s% "3.0.0"])
    (h : Dict.get? st.routes url = none) (r : Routes) :
    st.updateRoutes url (s% "2.0") [(['#'], .nested r)] =
      ({ st with routes := Dict.set st.routes url [(s% "1.2", []), (s% "2.0", [(['#'], .nested r)]), (s% "3.0.0", [])] }, .ok ()) ∧
    st.updateRoutes url (s% "3.0.0") [(['#'], .nested r)] =
      ({ st with routes := Dict.set st.routes url [(s% "1.2", []), (s% "2.0", []), (s% "3.0.0", [(['#'], .nested r)])] }, .ok ()) := by
  unfold Store.updateRoutes Store.tableFor
  rw [h, hv]
  exact ⟨rfl, rfl⟩

theorem routes_next {st : Store Obj} {url : Str} {r1 r2 : Routes} (r : Routes)
    (h : Dict.get? st.routes url = some [(s% "1.2", r1), (s% "2.0", r2), (s% "3.0.0", [])]) :
    st.updateRoutes url (s% "3.0.0") [(['#'], .nested r)] =
      ({ st with routes := Dict.set st.routes url [(s% "1.2", r1), (s% "2.0", r2), (s% "3.0.0", [(['#'], .nested r)])] }, .ok ()) := by
  unfold Store.updateRoutes Store.tableFor
  rw [h]
  rfl

theorem routes_again {st : Store Obj} {url : Str} {r1 r2 : Routes} (r : Routes)
    (h : Dict.get? st.routes url = some [(s% "1.2", r1), (s% "2.0", r2), (s% "3.0.0", [(['#'], .nested r)])]) :
    st.updateRoutes url (s% "3.0.0") [(['#'], .nested r)] =
      ({ st with routes := Dict.set st.routes url [(s% "1.2", r1), (s% "2.0", r2), (s% "3.0.0", [(['#'], .nested r)])] }, .ok ()) := by
  unfold Store.updateRoutes Store.tableFor
  rw [h]
  rfl

theorem under_none {a : App Obj (World W)} {url : Str}
    (h : Dict.get? a.store.objs url = none ∨ ∃ cache, Dict.get? a.store.objs url = some [(['#'], cache)] ∧ Dict.get? cache (s% "3.0.0") = none)
    (o : Obj) : overrideFor o url ['#'] a = .ok [] := by
  unfold overrideFor
  split
  · split
    · unfold Store.getUnder
      simp only [Bool.false_and, Bool.false_eq_true, if_false]
      rcases h with h | ⟨cache, h, hc⟩
      · rw [h]; rfl
      · rw [h]
        have : Store.underOf ['#'] (s% "3.0.0") [(['#'], cache)] [] = [] := by
          unfold Store.underOf
          rw [hc]
          simp [Store.underOf]
        simp [this]
    · rfl
  · rfl

theorem plan2 : App.plan [s% "1.2", s% "2.0", s% "3.0.0"] (s% "2.0") (s% "2.0") = .ok [s% "2.0"] := by rfl
theorem plan3 : App.plan [s% "1.2", s% "2.0", s% "3.0.0"] (s% "2.0") (s% "3.0.0") = .ok [s% "2.0", s% "3.0.0"] := by rfl
theorem plan33 : App.plan [s% "1.2", s% "2.0", s% "3.0.0"] (s% "3.0.0") (s% "3.0.0") = .ok [s% "3.0.0"] := by rfl

end Pyopenapi.Main
