import Verif.Props.PathItem
import Verif.Props.Yaml
import Verif.Props.Refs
import Verif.Props.Getter
import Verif.Props.Attr
import Verif.Props.Access
import Verif.Props.Scanner

/-!
# Instances: hypotheses of C59, C60, C78, C79, C81, C83-C85, C94, C101 and C102 are met by concrete cases
-/
namespace Pyopenapi

namespace PathItem
open Heap _root_.Pyopenapi.PathItem.Spec

/-- C59: whatever the fuel from 3 on, the demo ends, without an error, and changes nothing but its result. -/
example (fuel : Nat) (hf : 3 ≤ fuel) : ∃ h', mergePathItem demoEnv demoNames (s% "P") 0 1 fuel demoStore () = some (.ok (), h', ()) ∧
    ∀ a, a ≠ 0 → (h' a).body = (demoStore a).body := by
  have hend := C59_terminates demoEnv demoNames (s% "P") 0 1 demoStore () [1, 2, 3] (by decide) (fun r h w b hb => by
    have : demoTarget r = some b := Except.ok.inj hb
    unfold demoTarget at this
    split at this <;> cases this <;> decide) fuel hf
  cases hm : mergePathItem demoEnv demoNames (s% "P") 0 1 fuel demoStore () with
  | none => exact absurd hm hend
  | some x =>
    obtain ⟨res, h', w'⟩ := x
    have hr : res = .ok () := C59_succeeds demo_steady trivial (fun r h w _ => by
      show ∃ b, (Except.ok (demoTarget r) : R (Option Nat)) = .ok (some b)
      unfold demoTarget
      split
      · exact ⟨_, rfl⟩
      · exact ⟨_, rfl⟩) ⟨by decide, demo_parsed.1⟩ demo_target hm
    subst hr
    exact ⟨h', rfl, C59_original demo_steady trivial hm⟩

/-- C59: nothing answers. -/
def silent : Env Unit where
  resolve _ h w := (.ok none, h, w)
  ref _ := demoRef

example : ∃ h' w', mergePathItem silent demoNames (s% "P") 0 1 9 demoStore () = some (.error .generic, h', w') :=
  C59_unresolved (q := '#') (r := s% "/two") ⟨by decide, demo_parsed.1⟩ rfl (fun _ => rfl)

end PathItem

namespace Yaml
open _root_.Pyopenapi.Yaml.Spec

/-- C60 and C78: responses with numbers, with texts only, and in an order that does no harm. -/
example : Dict.get? (fixResponses [(.int 200, 1), (.str (s% "default"), 2), (.int 404, 3)]) (.str (s% "404")) = some 3 := by
  refine (C60_kept [(.int 200, 1), (.str (s% "default"), 2), (.int 404, 3)] (by decide) (fun k hk k' hk' s h h' => ?_)).1 (.int 404) (s% "404") 3 ?_ rfl
  · have e : newKey k = newKey k' := by rw [text_newKey h, text_newKey h']
    simp [Dict.keys] at hk hk'
    rcases hk with rfl | rfl | rfl <;> rcases hk' with rfl | rfl | rfl <;> first | rfl | (exfalso; revert e; decide)
  · first | rfl | exact ⟨rfl⟩ | constructor

example : upgradeResponses [(.str (s% "default"), 1), (.str (s% "200"), 2)] = .ok [(.str (s% "default"), 1), (.str (s% "200"), 2)] :=
  C78_strings _ (by decide) (by
    intro k hk
    simp [Dict.keys] at hk
    rcases hk with rfl | rfl
    · exact ⟨_, rfl⟩
    · exact ⟨_, rfl⟩)

end Yaml

namespace Refs
open _root_.Pyopenapi.Spec _root_.Pyopenapi.Refs.Spec Obj

/-- C79 and C81: a 2.0 schema whose items are a reference. -/
def listDoc : Json := .obj [(s% "type", .str (s% "array")), (s% "items", .obj [(s% "$ref", .str (s% "#/definitions/A"))])]

def listRoot : Obj := .base (s% "v2_0.Schema") none listDoc
  [(s% "items", .base (s% "v2_0.Schema") (some (s% "items")) (.obj [(s% "$ref", .str (s% "#/definitions/A"))]) [])]

theorem listRoot_built : build pkg (.cls (s% "v2_0.Schema")) listDoc none [] = .ok listRoot := by decide +kernel

theorem listRoot_visited : Visited [] listRoot [s% "items"]
    (.base (s% "v2_0.Schema") (some (s% "items")) (.obj [(s% "$ref", .str (s% "#/definitions/A"))]) []) :=
  .child (ts := []) (us := [_]) .root (by simp) (.direct (.child List.mem_cons_self) rfl)

theorem listRoot_refers : Refers [s% "v2_0.Reference", s% "v2_0.Schema", s% "v2_0.PathItem"]
    (.base (s% "v2_0.Schema") (some (s% "items")) (.obj [(s% "$ref", .str (s% "#/definitions/A"))]) []) (s% "#/definitions/A") :=
  ⟨_, _, _, _, rfl, by simp, rfl, by decide⟩

theorem listRoot_refsOk (L : List (List Str × Obj)) (hL : Scanned listRoot L) :
    RefsOk answering listRoot [s% "v2_0.Schema", s% "v2_0.Reference", s% "v2_0.PathItem"] [] := by
  have hvis : ∀ ts x, Visited [] listRoot ts x → (ts, x) ∈ [([], listRoot), ([s% "items"],
      .base (s% "v2_0.Schema") (some (s% "items")) (.obj [(s% "$ref", .str (s% "#/definitions/A"))]) [])] := by
    intro ts x hv
    rw [← walk_visited (nodes listRoot) _ (Nat.le_refl _)] at hv
    exact hv
  intro ts c q spec kids hv hc
  have hm := hvis _ _ hv
  simp only [listRoot, List.mem_cons, Prod.mk.injEq, Obj.base.injEq, List.not_mem_nil, or_false] at hm
  rcases hm with ⟨_, rfl, _, rfl, _⟩ | ⟨_, rfl, _, rfl, _⟩
  · exact ⟨_, rfl, .inl ⟨rfl, by decide⟩⟩
  · exact ⟨_, rfl, .inr ⟨_, _, rfl, by decide, rfl⟩⟩

example : ∃ L s' a new, Scanned listRoot L ∧ upgrade2 answering L (fresh ()) = .ok s' ∧ (s'.attrs [s% "items"]).refObj = some a ∧
    Answer answering listRoot [s% "items"] (s% "#/definitions/A") a new := by
  obtain ⟨L, hL⟩ := scanned_loaded (by decide) (by decide) listRoot_built
  obtain ⟨s', h⟩ := C79_succeeds answering _ _ (by decide) none listRoot listRoot_built L hL () (listRoot_refsOk L hL)
    (fun n p w hn => ⟨7, n, w, rfl, hn, _, _, rfl⟩)
  obtain ⟨a, new, h1, h2⟩ := (C79_resolved answering _ (by decide) _ (by decide) none listRoot listRoot_built L hL () s' h).1 _ _ _
    listRoot_visited listRoot_refers
  exact ⟨L, s', a, new, hL, h, h1, h2⟩

example : ∃ L e, Scanned listRoot L ∧ upgrade2 empty L (fresh ()) = .error e := by
  obtain ⟨L, hL⟩ := scanned_loaded (by decide) (by decide) listRoot_built
  obtain ⟨e, he⟩ := C81_dangling empty _ (by decide) _ (by decide) none listRoot listRoot_built L hL () _ _ _ listRoot_visited
    listRoot_refers (fun n p w _ a new h => (by cases h))
  exact ⟨L, e, hL, he⟩

end Refs

namespace Getter
open _root_.Pyopenapi.Getter.Spec Url Resolver

/-- C83: a folder without a document. -/
example : localOpens (disk [s% "/d/readme.txt"]) (s% "/d") = .error .valueError :=
  C83_nothing_partial _ _ ⟨⟨by decide +kernel, Getter.noDrive_plain (by decide +kernel)⟩, ⟨'d', by decide +kernel, by decide⟩, by decide +kernel,
    by decide +kernel, by decide +kernel⟩ ⟨by decide +kernel, by decide +kernel, by decide +kernel⟩

/-- C84: one document is loaded already. -/
example : answers splitHash (dictLoad (disk []) twoDocs) [s% "b#/y", s% "a#/x"] ⟨[(s% "a", some (.obj [(s% "x", .int 1)]))], [s% "b", s% "c"]⟩ =
    [.ok (.int 2), .ok (.int 1)] :=
  (C84_in_order (out := disk []) (split := splitHash) (docs := twoDocs) [(s% "b#/y", s% "b", s% "#/y"), (s% "a#/x", s% "a", s% "#/x")]
    [s% "b", s% "c"] [s% "c"] [s% "a"] [(s% "a", some (.obj [(s% "x", .int 1)]))] (by decide +kernel)
    (fun r hr => by
      simp only [List.mem_cons, List.not_mem_nil, or_false] at hr
      rcases hr with rfl | rfl
      · exact ⟨_, rfl, by simp⟩
      · exact ⟨_, rfl, by simp⟩)
    (fun u => by
      rw [List.mem_singleton]
      constructor
      · rintro rfl
        exact ⟨_, rfl, by simp, rfl⟩
      · rintro ⟨d, _, _, h⟩
        by_cases hu : s% "a" = u
        · exact hu.symm
        · rw [Dict.get?_cons, if_neg hu] at h
          cases h)
    (fun u hu => by
      rw [List.mem_singleton] at hu
      rw [Dict.get?_cons, if_neg (Ne.symm hu)]
      rfl)
    (by decide +kernel)).trans (by decide +kernel)

/-- C85: the callback raises. -/
example : fetch (disk []) none (sameText (s% "{}")) (some (.simple (fun _ w => (.error .keyError, w)))) () (s% "http://g/a.json") =
    (.error .keyError, ()) :=
  C85_error (disk []) none _ _ () () (s% "http://g/a.json") (s% "http://g/a.json") .keyError (.inr ⟨rfl, rfl⟩) rfl

end Getter

namespace Access
open Obj

/-- C101: a map, a list in it, and what is put into the map. -/
example : ∃ m' new, putAll needObj [(s% "z", .prim .null), (s% "o", .prim (.int 1))] = .ok m' ∧ keys m' = .ok ([s% "o", s% "k"] ++ new) ∧
    item m' (s% "o") = .ok (.prim (.int 1)) := by
  obtain ⟨m', new, h1, h2, h3, _⟩ := C101_put (m := needObj) (ks := [s% "o", s% "k"]) (by decide +kernel) [(s% "z", .prim .null), (s% "o", .prim (.int 1))]
  exact ⟨m', new, h1, h3, h2 (s% "o")⟩

end Access

namespace Scanner
open Meta _root_.Pyopenapi.Spec Obj

/-- C102: the lineage of a class of the package. -/
example : ∃ l, Lineage package (s% "v2_0.Schema") l := C102_package (s% "v2_0.Schema") (by decide +kernel)

example : ∃ l, Lineage package (s% "v2_0.Schema") l ∧ l.head? = some (s% "v2_0.Schema") ∧ l.Nodup := by
  have : ∃ bs own, Statement.class_ (s% "v2_0.Schema") bs own ∈ package := by
    obtain ⟨l, hl⟩ := C102_package (s% "v2_0.Schema") (by decide +kernel)
    cases hl <;> exact ⟨_, _, by assumption⟩
  obtain ⟨bs, own, hc⟩ := this
  obtain ⟨l, h1, _, h2, h3, _⟩ := C102_lineage package package_modular _ bs own hc
  exact ⟨l, h1, h2, h3⟩

end Scanner
end Pyopenapi
