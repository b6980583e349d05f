import Verif.Props.Pieces
import Verif.Props.Main
import Verif.Lemmas.PiecesCheck

/-!
# An instance of C88: two documents that refer to each other
-/

namespace Pyopenapi.Main
open _root_.Pyopenapi.Spec _root_.Pyopenapi.Refs.Spec Obj

def isleMain : Json := .obj [
  (s% "swagger", .str (s% "2.0")),
  (s% "info", .obj [(s% "title", .str (s% "t")), (s% "version", .str (s% "1"))]),
  (s% "paths", .obj [
    (s% "/a", .obj [(s% "$ref", .str (s% "b.json#/items/q")), (s% "put", .obj [
      (s% "parameters", .arr [.obj [(s% "$ref", .str (s% "b.json#/parameters/p"))]]),
      (s% "responses", .obj [(s% "200", .obj [(s% "description", .str (s% "ok"))])])])]),
    (s% "/c", .obj [(s% "post", .obj [(s% "responses", .obj [])])])]),
  (s% "definitions", .obj [
    (s% "C", .obj [(s% "$ref", .str (s% "b.json#/definitions/A"))]),
    (s% "D", .obj [(s% "$ref", .str (s% "#/definitions/C"))])])]

def isleParam : Json := .obj [(s% "name", .str (s% "p")), (s% "in", .str (s% "query")), (s% "type", .str (s% "string"))]
def isleItem : Json := .obj [(s% "$ref", .str (s% "a.json#/paths/~1c")), (s% "get", .obj [(s% "responses", .obj [])])]
def isleA : Json := .obj [(s% "properties", .obj [(s% "b", .obj [(s% "$ref", .str (s% "#/definitions/B"))])])]
def isleB : Json := .obj [(s% "properties", .obj [(s% "a", .obj [(s% "$ref", .str (s% "#/definitions/A"))]),
  (s% "d", .obj [(s% "$ref", .str (s% "a.json#/definitions/D"))])])]

def isleOut : Outer (List Str) where
  url := s% "http://h/d/a.json"
  ok := fun _ => true
  path2url := .ok
  abspath := .ok
  fetch := fun r w => (if r = s% "http://h/d/a.json" then .ok isleMain
    else if r = s% "http://h/d/b.json#/parameters/p" then .ok isleParam
    else if r = s% "http://h/d/b.json#/items/q" then .ok isleItem
    else if r = s% "http://h/d/b.json#/definitions/A" then .ok isleA
    else if r = s% "http://h/d/b.json#/definitions/B" then .ok isleB
    else .error .generic, w ++ [r])
  setOrder := fun l => l
  up12 := { sep := s% "!##!", lower := fun s => s, float := .ok, trunc := .ok, urlOk := fun _ => true }
  rounds := 1000

def pieceOf (url : Str) (place : List Str) (ref cls : Str) (j : Json) : Piece where
  url := url
  place := place
  ref := ref
  cls := cls
  json := j
  obj := match buildF pkg 30 (.cls cls) j (some ref) with
    | .ok o => o
    | .error _ => .prim .null

def isle : Piece := pieceOf (s% "http://h/d/a.json") [] (s% "http://h/d/a.json") (s% "v2_0.Swagger") isleMain
def islePieces : List Piece := [
  pieceOf (s% "http://h/d/b.json") [s% "parameters", s% "p"] (s% "http://h/d/b.json#/parameters/p") (s% "v2_0.Parameter") isleParam,
  pieceOf (s% "http://h/d/b.json") [s% "items", s% "q"] (s% "http://h/d/b.json#/items/q") (s% "v2_0.PathItem") isleItem,
  pieceOf (s% "http://h/d/b.json") [s% "definitions", s% "A"] (s% "http://h/d/b.json#/definitions/A") (s% "v2_0.Schema") isleA,
  pieceOf (s% "http://h/d/b.json") [s% "definitions", s% "B"] (s% "http://h/d/b.json#/definitions/B") (s% "v2_0.Schema") isleB]

theorem isle_urls : DocUrl isleOut.ok (s% "http://h/d/a.json") ∧ DocUrl isleOut.ok (s% "http://h/d/b.json") :=
  ⟨⟨by decide, by decide, ⟨s% "http", s% "h", s% "/d/a.json", [], [], []⟩, by decide +kernel⟩,
    ⟨by decide, by decide, ⟨s% "http", s% "h", s% "/d/b.json", [], [], []⟩, by decide +kernel⟩⟩

theorem isle_good : ∀ p ∈ isle :: islePieces, p.Good isleOut := by
  intro p hp
  obtain ⟨ua, ub⟩ := isle_urls
  simp only [islePieces, List.mem_cons, List.not_mem_nil, or_false] at hp
  rcases hp with rfl | rfl | rfl | rfl | rfl
  · exact ⟨ua, by unfold Safe; decide +kernel, by decide, by decide, by decide +kernel, by decide +kernel, buildF_sound 30 _ _ _ _ (by decide +kernel)⟩
  all_goals
    exact ⟨ub, by unfold Safe; decide +kernel, by decide, by decide, by decide +kernel, by decide +kernel, buildF_sound 30 _ _ _ _ (by decide +kernel)⟩

theorem isle_served : ∀ p ∈ islePieces, p.Served isleOut := by
  intro p hp
  simp only [islePieces, List.mem_cons, List.not_mem_nil, or_false] at hp
  rcases hp with rfl | rfl | rfl | rfl <;> exact ⟨fun w => rfl, by decide, by decide⟩

theorem isle_application : Application isleOut isle islePieces :=
  application_check isle_good isle_served (by decide +kernel) (by decide +kernel) ⟨rfl, rfl, rfl⟩

example : ∃ a a', App.loadObj (application isleOut 5) isle.url none false (opened []) = (.ok isle.obj, a) ∧
    App.migrateObj (application isleOut 5) isle.obj isle.url (s% "2.0") a = (.ok isle.obj, a') ∧
    a'.original = s% "2.0" ∧ a'.current = some (s% "2.0") ∧
    (∀ p, Reached isleOut isle islePieces p → p.Known isleOut isle islePieces a'.world ∧ p.Merged isleOut isle islePieces a'.world ∧
      ∀ m, p.Found (application isleOut m) a') ∧
    ∃ l : List Piece, l.Nodup ∧ (∀ p, p ∈ l ↔ Reached isleOut isle islePieces p) ∧
      a'.world.rest = l.foldl (fun w p => (isleOut.fetch p.ref w).2) [] :=
  C88_pieces isleOut isle islePieces isle_application [] rfl (by decide +kernel) 4 (by decide) (by decide +kernel)

end Pyopenapi.Main
