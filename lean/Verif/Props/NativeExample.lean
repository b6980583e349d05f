import Verif.Props.Native
import Verif.Props.PiecesExample
import Verif.Lemmas.NativeCheck

/-!
# An instance of C97: three documents of 3.0.0 that refer to one another
-/

namespace Pyopenapi.Main.Native
open _root_.Pyopenapi.Spec _root_.Pyopenapi.Refs.Spec Obj

def ref (r : Str) : Json := .obj [(s% "$ref", .str r)]

def coastMain : Json := .obj [
  (s% "openapi", .str (s% "3.0.0")),
  (s% "info", .obj [(s% "title", .str (s% "t")), (s% "version", .str (s% "1"))]),
  (s% "paths", .obj [
    (s% "/a", .obj [(s% "$ref", .str (s% "b.json#/items/q")), (s% "put", .obj [
      (s% "parameters", .arr [ref (s% "b.json#/parameters/p")]),
      (s% "responses", .obj [(s% "200", .obj [(s% "description", .str (s% "ok")), (s% "content", .obj [(s% "a/b", .obj [
        (s% "schema", ref (s% "c.json"))])])])])])]),
    (s% "/c", .obj [(s% "post", .obj [(s% "responses", .obj [])])])]),
  (s% "components", .obj [(s% "schemas", .obj [
    (s% "C", .obj [(s% "allOf", .arr [ref (s% "b.json#/schemas/A")])]),
    (s% "D", .obj [(s% "items", ref (s% "#/components/schemas/C"))])])])]

def coastParam : Json := .obj [(s% "name", .str (s% "p")), (s% "in", .str (s% "query"))]
def coastItem : Json := .obj [(s% "$ref", .str (s% "a.json#/paths/~1c")), (s% "get", .obj [(s% "responses", .obj [])])]
def coastA : Json := .obj [(s% "properties", .obj [(s% "b", ref (s% "c.json")), (s% "self", ref (s% "#/schemas/A"))])]
def coastC : Json := .obj [(s% "not", ref (s% "b.json#/schemas/A")), (s% "items", ref (s% "a.json#/components/schemas/D"))]

def coastOut : Outer (List Str) where
  url := s% "http://h/d/a.json"
  ok := fun _ => true
  path2url := .ok
  abspath := .ok
  fetch := fun r w => (if r = s% "http://h/d/a.json" then .ok coastMain
    else if r = s% "http://h/d/b.json#/parameters/p" then .ok coastParam
    else if r = s% "http://h/d/b.json#/items/q" then .ok coastItem
    else if r = s% "http://h/d/b.json#/schemas/A" then .ok coastA
    else if r = s% "http://h/d/c.json" then .ok coastC
    else .error .generic, w ++ [r])
  setOrder := fun l => l
  up12 := { sep := s% "!##!", lower := fun s => s, float := .ok, trunc := .ok, urlOk := fun _ => true }
  rounds := 1000

def coast : Piece := pieceOf (s% "http://h/d/a.json") [] (s% "http://h/d/a.json") (s% "v3_0_0.OpenApi") coastMain
def coastPieces : List Piece := [
  pieceOf (s% "http://h/d/b.json") [s% "parameters", s% "p"] (s% "http://h/d/b.json#/parameters/p") (s% "v3_0_0.Parameter") coastParam,
  pieceOf (s% "http://h/d/b.json") [s% "items", s% "q"] (s% "http://h/d/b.json#/items/q") (s% "v3_0_0.PathItem") coastItem,
  pieceOf (s% "http://h/d/b.json") [s% "schemas", s% "A"] (s% "http://h/d/b.json#/schemas/A") (s% "v3_0_0.Schema") coastA,
  pieceOf (s% "http://h/d/c.json") [] (s% "http://h/d/c.json") (s% "v3_0_0.Schema") coastC]

theorem coast_urls : DocUrl coastOut.ok (s% "http://h/d/a.json") ∧ DocUrl coastOut.ok (s% "http://h/d/b.json") ∧ DocUrl coastOut.ok (s% "http://h/d/c.json") :=
  ⟨⟨by decide, by decide, ⟨s% "http", s% "h", s% "/d/a.json", [], [], []⟩, by decide +kernel⟩,
    ⟨by decide, by decide, ⟨s% "http", s% "h", s% "/d/b.json", [], [], []⟩, by decide +kernel⟩,
    ⟨by decide, by decide, ⟨s% "http", s% "h", s% "/d/c.json", [], [], []⟩, by decide +kernel⟩⟩

theorem coast_good : ∀ p ∈ coast :: coastPieces, Good coastOut p := by
  intro p hp
  obtain ⟨ua, ub, uc⟩ := coast_urls
  simp only [coastPieces, List.mem_cons, List.not_mem_nil, or_false] at hp
  rcases hp with rfl | rfl | rfl | rfl | rfl
  · exact good_check ua (by decide +kernel) (by decide) (by decide) (by decide +kernel) (by decide +kernel) (by decide +kernel) (by decide +kernel) (by decide +kernel)
  · exact good_check ub (by decide +kernel) (by decide) (by decide) (by decide +kernel) (by decide +kernel) (by decide +kernel) (by decide +kernel) (by decide +kernel)
  · exact good_check ub (by decide +kernel) (by decide) (by decide) (by decide +kernel) (by decide +kernel) (by decide +kernel) (by decide +kernel) (by decide +kernel)
  · exact good_check ub (by decide +kernel) (by decide) (by decide) (by decide +kernel) (by decide +kernel) (by decide +kernel) (by decide +kernel) (by decide +kernel)
  · exact good_check uc (by decide +kernel) (by decide) (by decide) (by decide +kernel) (by decide +kernel) (by decide +kernel) (by decide +kernel) (by decide +kernel)

theorem coast_served : ∀ p ∈ coastPieces, Served coastOut p := by
  intro p hp
  simp only [coastPieces, List.mem_cons, List.not_mem_nil, or_false] at hp
  rcases hp with rfl | rfl | rfl | rfl <;> exact ⟨fun w => rfl, by decide, by decide⟩

theorem coast_application : Application coastOut coast coastPieces :=
  application_check coast_good coast_served (by decide +kernel) (by decide +kernel) ⟨rfl, rfl, rfl⟩

example : ∃ a a', App.loadObj (application coastOut 5) coast.url none false (opened []) = (.ok coast.obj, a) ∧
    App.migrateObj (application coastOut 5) coast.obj coast.url (s% "3.0.0") a = (.ok coast.obj, a') ∧
    a'.original = s% "3.0.0" ∧ a'.current = some (s% "3.0.0") ∧
    (∀ p, Reached coastOut coast coastPieces p → Known p coastOut coast coastPieces a'.world ∧ Merged p coastOut coast coastPieces a'.world ∧
      ∀ m, Found p (application coastOut m) a') ∧
    ∃ l : List Piece, l.Nodup ∧ (∀ p, p ∈ l ↔ Reached coastOut coast coastPieces p) ∧
      a'.world.rest = l.foldl (fun w p => (coastOut.fetch p.ref w).2) [] :=
  C97_pieces_partial coastOut coast coastPieces coast_application [] rfl (by decide +kernel) 4 (by decide) (by decide +kernel)

end Pyopenapi.Main.Native
