import Verif.Lemmas.Says
import Verif.Lemmas.MainCheck
import Verif.Lemmas.Eval

/-!
# C86: documents that refer to nothing but themselves are loaded and migrated
-/

namespace Pyopenapi.Main
open _root_.Pyopenapi.Spec _root_.Pyopenapi.Refs.Spec Obj

variable {W : Type}

theorem found_of {out : Outer W} {n : Nat} {a : App Obj (World W)} {url ver : Str} {root : Obj} (hu : DocUrl out.ok url) (hv : ver ≠ [])
    (h : Has a url ver root) : Found (application out n) a url ver root := by
  intro ts x parser dummy hs hx
  obtain ⟨up, e⟩ := application_with out n
  rw [e]
  have hg : a.store.get ((appWith out up).ops a.world) url (pointer ts) ver = .ok (some x) :=
    (has_get h _ ts).trans (resolveObject_at hx)
  have hne : url ++ pointer ts ≠ [] := by simp [hu.ne]
  have hp : (appWith out up).isPrim x = false := by
    obtain ⟨_, h2⟩ := hx
    cases x <;> first | rfl | cases h2
  rw [C66_cached (appWith out up) _ ver parser ver dummy a url (pointer ts) (pointer ts) x hne hv (split_pointer hu hs) hu.ne
    (.inr ⟨rfl, rfl⟩) hg, hp]
  rfl

/-- **C86** for documents of 2.0 migrated to 2.0: a document all of whose references point into itself is loaded and
migrated; afterwards every object with a `$ref` knows the absolute reference and the object it leads to, and everything in
the document is found under its reference; nothing but the document is fetched.  (Path items have no `$ref`: those are C59.) -/
theorem C86_two {out : Outer W} {n : Nat} {w w' : W} {url : Str} {j : Json} {o : Obj} (hu : DocUrl out.ok url)
    (hf : out.fetch url w = (.ok j, w')) (hv : SaysVersion j (some (s% "2.0"))) (hj : j.wf = true)
    (hb : build pkg (.cls (s% "v2_0.Swagger")) j (some url) [] = .ok o) (hlink : Linked o Refs.normClasses2 [])
    (hpath : NoPathRef o (s% "v2_0.PathItem")) :
    ∃ a a', App.loadObj (application out (n + 1)) url none false (opened w) = (.ok o, a) ∧
      App.migrateObj (application out (n + 1)) o url (s% "2.0") a = (.ok o, a') ∧
      a'.original = s% "2.0" ∧ a'.current = some (s% "2.0") ∧ Knows a'.world o Refs.normClasses2 url ∧
      Found (application out (n + 1)) a' url (s% "2.0") o ∧ a'.world.rest = w' := by
  replace hv := specVersion_says hv
  obtain ⟨a', h1, h2, h3, h4, h5, h6⟩ := run20 (n := n) (a := loaded w' o url (s% "2.0")) hu hj hb (scanned_of (by decide) hj hb)
    (loaded_start w' o url) hlink hpath (fun v _ => loaded_fresh _ _ _ _ _)
  exact ⟨_, a', load_first hu hf hv (.inl ⟨rfl, rfl⟩) hb, h1, h3, h2, h5, found_of hu (by decide) h4, h6⟩

/-- **C86** for documents of 3.0.0.  The document may not have `callbacks` in which `C32_lost_violation` hides a reference
(`NoMix`), nor `examples` of media types (C82). -/
theorem C86_native_partial {out : Outer W} {n : Nat} {w w' : W} {url : Str} {j : Json} {o : Obj} (hu : DocUrl out.ok url)
    (hf : out.fetch url w = (.ok j, w')) (hv : SaysVersion j (some (s% "3.0.0"))) (hj : j.wf = true)
    (hb : build pkg (.cls (s% "v3_0_0.OpenApi")) j (some url) [] = .ok o) (hm : NoMix o) (hex : NoExamples o)
    (hlink : Linked o Refs.normClasses3 [s% "v3_0_0.Reference"]) (hpath : NoPathRef o (s% "v3_0_0.PathItem")) :
    ∃ a a', App.loadObj (application out (n + 1)) url none false (opened w) = (.ok o, a) ∧
      App.migrateObj (application out (n + 1)) o url (s% "3.0.0") a = (.ok o, a') ∧
      a'.original = s% "3.0.0" ∧ a'.current = some (s% "3.0.0") ∧ KnowsVia (fun p => p) a'.world o Refs.normClasses3 url ∧
      Found (application out (n + 1)) a' url (s% "3.0.0") o ∧ a'.world.rest = w' := by
  replace hv := specVersion_says hv
  have hk : Keyed o := loaded_keyed okTable_pkg closed_all ⟨_, j, _, trivial, hj, hb⟩
  obtain ⟨a', h1, h2, h3, h4, h5, h6⟩ := run30 (n := n) (a := loaded w' o url (s% "3.0.0")) hu hj hb (Refs.scanned_walk hk hm)
    rfl rfl (loaded_clean _ _ _ _) hex hlink hpath rfl (fun v _ => loaded_fresh _ _ _ _ _)
  exact ⟨_, a', load_first hu hf hv (.inr ⟨rfl, rfl⟩) hb, h1, h3, h2, h5, found_of hu (by decide) h4, h6⟩

/-! ### Instances -/

/-- An application whose documents are all `j`. -/
def serving (j : Json) : Outer Unit where
  url := s% "file:///a/b.json"
  ok := fun _ => true
  path2url := .ok
  abspath := .ok
  fetch := fun _ w => (.ok j, w)
  setOrder := fun l => l
  up12 := { sep := s% "!##!", lower := fun s => s, float := .ok, trunc := .ok, urlOk := fun _ => true }
  rounds := 1000

theorem docUrl_example : DocUrl (fun _ => true) (s% "file:///a/b.json") :=
  ⟨by decide, by decide, ⟨s% "file", [], s% "/a/b.json", [], [], []⟩, by decide +kernel⟩

/-- A 2.0 document: schemas that refer to each other, and a shared parameter and response. -/
def petDoc : Json := .obj [
  (s% "swagger", .str (s% "2.0")),
  (s% "info", .obj [(s% "title", .str (s% "t")), (s% "version", .str (s% "1"))]),
  (s% "paths", .obj [(s% "/a", .obj [(s% "get", .obj [
    (s% "parameters", .arr [.obj [(s% "$ref", .str (s% "#/parameters/q"))]]),
    (s% "responses", .obj [(s% "200", .obj [(s% "$ref", .str (s% "#/responses/ok"))])])])])]),
  (s% "parameters", .obj [(s% "q", .obj [(s% "name", .str (s% "q")), (s% "in", .str (s% "query")), (s% "type", .str (s% "string"))])]),
  (s% "responses", .obj [(s% "ok", .obj [(s% "description", .str (s% "ok")), (s% "schema", .obj [(s% "$ref", .str (s% "#/definitions/A"))])])]),
  (s% "definitions", .obj [
    (s% "A", .obj [(s% "properties", .obj [(s% "x", .obj [(s% "$ref", .str (s% "#/definitions/B"))])])]),
    (s% "B", .obj [(s% "items", .obj [(s% "$ref", .str (s% "#/definitions/A"))])])])]

def petObj : Obj := match buildF pkg 30 (.cls (s% "v2_0.Swagger")) petDoc (some (s% "file:///a/b.json")) with
  | .ok o => o
  | .error _ => .prim .null

theorem petObj_built : build pkg (.cls (s% "v2_0.Swagger")) petDoc (some (s% "file:///a/b.json")) [] = .ok petObj :=
  buildF_sound 30 _ _ _ _ (by decide +kernel)

example : ∃ a a', App.loadObj (application (serving petDoc) 1) (s% "file:///a/b.json") none false (opened ()) = (.ok petObj, a) ∧
    App.migrateObj (application (serving petDoc) 1) petObj (s% "file:///a/b.json") (s% "2.0") a = (.ok petObj, a') ∧
    a'.original = s% "2.0" ∧ a'.current = some (s% "2.0") ∧ Knows a'.world petObj Refs.normClasses2 (s% "file:///a/b.json") ∧
    Found (application (serving petDoc) 1) a' (s% "file:///a/b.json") (s% "2.0") petObj ∧ a'.world.rest = () :=
  have hL := scanned_of (by decide) (by decide +kernel) petObj_built
  C86_two docUrl_example rfl (by decide +kernel) (by decide +kernel) petObj_built (linked_check hL (by decide +kernel))
    (noRef_check hL (by decide +kernel))

/-- A 3.0.0 document: schemas that refer to each other, a shared parameter. -/
def petDoc3 : Json := .obj [
  (s% "openapi", .str (s% "3.0.0")),
  (s% "info", .obj [(s% "title", .str (s% "t")), (s% "version", .str (s% "1"))]),
  (s% "paths", .obj [(s% "/a", .obj [(s% "get", .obj [
    (s% "parameters", .arr [.obj [(s% "$ref", .str (s% "#/components/parameters/q"))]]),
    (s% "responses", .obj [(s% "200", .obj [(s% "description", .str (s% "ok")), (s% "content", .obj [(s% "a/b", .obj [
      (s% "schema", .obj [(s% "$ref", .str (s% "#/components/schemas/A"))])])])])])])])]),
  (s% "components", .obj [
    (s% "parameters", .obj [(s% "q", .obj [(s% "name", .str (s% "q")), (s% "in", .str (s% "query"))])]),
    (s% "schemas", .obj [(s% "A", .obj [(s% "properties", .obj [(s% "x", .obj [(s% "$ref", .str (s% "#/components/schemas/A"))])])])])])]

def petObj3 : Obj := match buildF pkg 30 (.cls (s% "v3_0_0.OpenApi")) petDoc3 (some (s% "file:///a/b.json")) with
  | .ok o => o
  | .error _ => .prim .null

theorem petObj3_built : build pkg (.cls (s% "v3_0_0.OpenApi")) petDoc3 (some (s% "file:///a/b.json")) [] = .ok petObj3 :=
  buildF_sound 30 _ _ _ _ (by decide +kernel)

example : ∃ a a', App.loadObj (application (serving petDoc3) 1) (s% "file:///a/b.json") none false (opened ()) = (.ok petObj3, a) ∧
    App.migrateObj (application (serving petDoc3) 1) petObj3 (s% "file:///a/b.json") (s% "3.0.0") a = (.ok petObj3, a') ∧
    a'.original = s% "3.0.0" ∧ a'.current = some (s% "3.0.0") ∧
    KnowsVia (fun p => p) a'.world petObj3 Refs.normClasses3 (s% "file:///a/b.json") ∧
    Found (application (serving petDoc3) 1) a' (s% "file:///a/b.json") (s% "3.0.0") petObj3 ∧ a'.world.rest = () :=
  have hm : NoMix petObj3 := noMix_check (n := 30) (by decide +kernel)
  have hL : Scanned petObj3 (visits petObj3) :=
    Refs.scanned_walk (loaded_keyed okTable_pkg closed_all ⟨_, petDoc3, _, trivial, by decide +kernel, petObj3_built⟩) hm
  C86_native_partial docUrl_example rfl (by decide +kernel) (by decide +kernel) petObj3_built hm (noEx_check hL (by decide +kernel))
    (linked_check hL (by decide +kernel)) (noRef_check hL (by decide +kernel))

end Pyopenapi.Main
