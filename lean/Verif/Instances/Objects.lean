import Verif.Props.Load
import Verif.Props.Dump
import Verif.Props.Resolve
import Verif.Props.Merge
import Verif.Props.Children
import Verif.Props.Scan
import Verif.Props.CompareExample

/-!
# Instances: every hypothesis of C20-C33 is met by a concrete case
-/
namespace Pyopenapi

open Obj Spec

namespace Inst

/-- A 2.0 document: a path with an operation, a definition whose additional properties are an object,
one where they are false and one where they are true. -/
def doc : Json :=
  .obj [(s% "swagger", .str (s% "2.0")),
    (s% "info", .obj [(s% "title", .str (s% "T")), (s% "version", .str (s% "1"))]),
    (s% "paths", .obj [(s% "/a/{b}", .obj [(s% "get", .obj [(s% "summary", .str (s% "s")), (s% "tags", .arr [.str (s% "t"), .str (s% "u")]),
      (s% "parameters", .arr [.obj [(s% "name", .str (s% "n")), (s% "in", .str (s% "query"))],
        .obj [(s% "name", .str (s% "m")), (s% "in", .str (s% "query"))]]),
      (s% "responses", .obj [(s% "200", .obj [(s% "description", .str (s% "d"))])])])])]),
    (s% "definitions", .obj [(s% "A", .obj [(s% "type", .str (s% "object")),
      (s% "additionalProperties", .obj [(s% "type", .str (s% "string"))])])])]

/-- The object loaded from a document. -/
def load (c : Str) (j : Json) (p : Option Str) : Obj :=
  match buildF pkg 30 (.cls c) j p with
  | .ok o => o
  | .error _ => .prim .null

def obj : Obj := load (s% "v2_0.Swagger") doc (some (s% "#"))

theorem obj_loaded : build pkg (.cls (s% "v2_0.Swagger")) doc (some (s% "#")) [] = .ok obj :=
  buildF_sound 30 _ _ _ _ (by decide +kernel)

def schema (v : Json) : Json := .obj [(s% "type", .str (s% "object")), (s% "additionalProperties", v)]

/-- C20, a field given, a required one missing and one with a default. -/
def info : Json := .obj [(s% "title", .str (s% "T"))]
theorem info_loaded : build pkg (.cls (s% "v3_0_0.Info")) info none [] = .ok (load (s% "v3_0_0.Info") info none) :=
  buildF_sound 30 _ _ _ _ (by decide +kernel)

example : Obj.resolve pkg [s% "title"] (load (s% "v3_0_0.Info") info none) = .ok (.prim (.str (s% "T"))) :=
  (C20_field_contract (T := pkg) (s% "v3_0_0.Info") [(s% "title", .str (s% "T"))] none _ (s% "title") _ rfl rfl
    (load (s% "v3_0_0.Info") info none) rfl info_loaded).1 _ rfl rfl

example : Obj.resolve pkg [s% "version"] (load (s% "v3_0_0.Info") info none) = .error .generic :=
  (C20_field_contract (T := pkg) (s% "v3_0_0.Info") [(s% "title", .str (s% "T"))] none _ (s% "version") _ rfl rfl
    (load (s% "v3_0_0.Info") info none) rfl info_loaded).2.2.1 rfl rfl

example : Obj.resolve pkg [s% "description"] (load (s% "v3_0_0.Info") info none) = .ok (.prim .null) :=
  (C20_field_contract (T := pkg) (s% "v3_0_0.Info") [(s% "title", .str (s% "T"))] none _ (s% "description") _ rfl rfl
    (load (s% "v3_0_0.Info") info none) rfl info_loaded).2.2.2 rfl rfl

/-- C24: the three cases of additionalProperties. -/
example : ∃ v' oc, Dict.get? [(s% "additionalProperties", .obj [(s% "type", .str (s% "string"))]), (s% "type", .str (s% "object"))]
      (s% "additionalProperties") = some v' ∧
    build pkg (.cls (s% "v2_0.Schema")) (.obj [(s% "type", .str (s% "string"))]) (some (s% "additionalProperties")) [] = .ok oc ∧
    Obj.dump pkg oc = .ok v' :=
  C24_object_kept_partial okTable_pkg (c := s% "v2_0.Schema") (p := none)
    (d := [(s% "type", .str (s% "object")), (s% "additionalProperties", .obj [(s% "type", .str (s% "string"))])])
    (o := load (s% "v2_0.Schema") (schema (.obj [(s% "type", .str (s% "string"))])) none) (k := s% "additionalProperties")
    (buildF_sound 30 _ _ _ _ (by decide +kernel)) (by decide +kernel) rfl rfl rfl

example : Dict.get? [(s% "type", Json.str (s% "object"))] (s% "additionalProperties") = none :=
  C24_false_dropped okTable_pkg (c := s% "v2_0.Schema") (p := none)
    (d := [(s% "type", .str (s% "object")), (s% "additionalProperties", .bool false)])
    (o := load (s% "v2_0.Schema") (schema (.bool false)) none) (k := s% "additionalProperties")
    (buildF_sound 30 _ _ _ _ (by decide +kernel)) (by decide +kernel) rfl rfl rfl

example (j' : Json) : Obj.dump pkg (load (s% "v2_0.Schema") (schema (.bool true)) none) ≠ .ok j' :=
  C24_true_raises okTable_pkg (c := s% "v2_0.Schema") (p := none)
    (d := [(s% "type", .str (s% "object")), (s% "additionalProperties", .bool true)]) (k := s% "additionalProperties")
    (buildF_sound 30 _ _ _ _ (by decide +kernel)) rfl rfl rfl j'

/-- C25, C26: the second parameter of an operation. -/
theorem reach : Reach pkg (.cls (s% "v2_0.Swagger")) doc
    [s% "paths", s% "/a/{b}", s% "get", s% "parameters", Str.ofNat 1]
    (.ifNotRef (s% "v2_0.Reference") (.cls (s% "v2_0.Parameter"))) (.obj [(s% "name", .str (s% "m")), (s% "in", .str (s% "query"))]) :=
  .child (cd := ⟨.mapOf (.cls (s% "v2_0.PathItem")), false⟩) (by decide +kernel) rfl (by simp)
    (.item rfl (.child (cd := ⟨.cls (s% "v2_0.Operation"), false⟩) (by decide +kernel) rfl (by simp)
      (.child (cd := ⟨.listOf (.ifNotRef (s% "v2_0.Reference") (.cls (s% "v2_0.Parameter"))), false⟩)
        (by decide +kernel) rfl (by simp) (.elem (n := 1) rfl .here))))

example : ∃ o', Obj.resolve pkg [s% "paths", s% "/a/{b}", s% "get", s% "parameters", Str.ofNat 1] obj = .ok o' ∧
    build pkg (.ifNotRef (s% "v2_0.Reference") (.cls (s% "v2_0.Parameter"))) (.obj [(s% "name", .str (s% "m")), (s% "in", .str (s% "query"))])
      (pathTo (some (s% "#")) [s% "paths", s% "/a/{b}", s% "get", s% "parameters", Str.ofNat 1]) [] = .ok o' :=
  C25_resolve okTable_pkg reach rfl (by decide +kernel) _ _ obj_loaded

example : RawAt doc [s% "paths", s% "/a/{b}", s% "get", s% "parameters", Str.ofNat 1]
    (.obj [(s% "name", .str (s% "m")), (s% "in", .str (s% "query"))]) := C25_reach_is_raw reach

example : ∃ o', Obj.resolve pkg [s% "paths", s% "/a/{b}", s% "get", s% "parameters", Str.ofNat 1] obj = .ok o' ∧
    (o'.isPrim = false → o'.path? = some (jpCompose [s% "paths", s% "/a/{b}", s% "get", s% "parameters", Str.ofNat 1] (some (s% "#"))) ∧
      ∃ path, o'.path? = some path ∧ jpSplit path = jpSplit (s% "#") ++ [s% "paths", s% "/a/{b}", s% "get", s% "parameters", Str.ofNat 1]) :=
  C26_path okTable_pkg (by decide +kernel) reach rfl (by decide) obj_loaded

example : Obj.resolve pkg [s% "contact", s% "x"] (load (s% "v2_0.Reference") (.obj []) none) = .error .attributeError :=
  C25_undeclared_raises (T := pkg) (c := s% "v2_0.Reference") (j := .obj []) (p := none)
    (buildF_sound 30 _ _ _ _ (by decide +kernel)) (by decide +kernel) (by decide +kernel)

/-- C25: into the value of a field (an enum). -/
example : Obj.resolve pkg [s% "enum", Str.ofNat 1] (load (s% "v2_0.Schema") (.obj [(s% "enum", .arr [.int 1, .int 2])]) none) =
    .ok (.prim (.int 2)) :=
  C25_resolve_field (T := pkg) (c := s% "v2_0.Schema") (p := none) (d := [(s% "enum", .arr [.int 1, .int 2])]) (buildF_sound 30 _ _ _ _ (by decide +kernel)) rfl rfl rfl rfl
    (.idx (n := 1) rfl (.here _))

/-- C25: the tags of the operation. -/
example : ∀ o, build pkg (.listOf .isStr) (.arr [.str (s% "t"), .str (s% "u")]) none [] = .ok o →
    Obj.resolve pkg [Str.ofNat 1] o = .error .attributeError :=
  fun _ h => (C25_string_element (T := pkg) (b := .isStr) rfl).1 _ 1 _ rfl h

/-- C28: a path item with `get`, merged with one that has `get` and `put`. -/
def item (v : Json) : Obj := load (s% "v2_0.PathItem") v none

def bothDoc : Json := .obj [(s% "get", .obj [(s% "summary", .str (s% "theirs"))]), (s% "put", .obj [(s% "summary", .str (s% "theirs"))])]
def mineDoc : Json := .obj [(s% "get", .obj [(s% "summary", .str (s% "mine"))])]
def both : Obj := item bothDoc
def mine : Obj := item mineDoc

/-- Children of an object. -/
def kids : Obj → Dict Obj
  | .base _ _ _ k => k
  | _ => []

def merged : Obj := match Obj.mergeChildren pkg mine both with
  | .ok o => o
  | .error _ => mine

example : Spec.childOf merged (s% "get") = some (load (s% "v2_0.Operation") (.obj [(s% "summary", .str (s% "mine"))]) (some (s% "get"))) ∧
    Spec.childOf merged (s% "put") = some (load (s% "v2_0.Operation") (.obj [(s% "summary", .str (s% "theirs"))]) (some (s% "put"))) := by
  have h : Obj.mergeChildren pkg mine both = .ok merged := by decide +kernel
  exact ⟨(C28_keeps_and_fills (T := pkg) okTable_pkg (c := s% "v2_0.PathItem") (p := none) (p' := none) (s := mineDoc) (s' := bothDoc) (kids := kids mine) (kids' := kids both) h (k := s% "get") (by decide +kernel)).1 _
      (by decide +kernel) (by decide +kernel),
    (C28_keeps_and_fills (T := pkg) okTable_pkg (c := s% "v2_0.PathItem") (p := none) (p' := none) (s := mineDoc) (s' := bothDoc) (kids := kids mine) (kids' := kids both) h (k := s% "put") (by decide +kernel)).2 _
      (by decide +kernel) (by decide +kernel) (by decide +kernel)⟩

example : Obj.mergeChildren pkg merged both = .ok merged :=
  C28_idempotent (T := pkg) okTable_pkg (c := s% "v2_0.PathItem") (p := none) (p' := none) (s := mineDoc) (s' := bothDoc) (kids := kids mine) (kids' := kids both) (a' := merged) (by decide +kernel)

/-- C29: also where a required field is missing. -/
example : ¬ No (compare pkg (load (s% "v3_0_0.Info") (.obj []) none) (load (s% "v3_0_0.Info") (.obj []) none) none) :=
  C29_never_different okTable_pkg defaultsWf_pkg (b := .cls (s% "v3_0_0.Info")) (j := .obj []) (p := none) (by decide +kernel) (by decide +kernel)
    (buildF_sound 30 _ _ _ _ (by decide +kernel)) none

/-- C32, C33 for the document. -/
example : ∃ L : List (List Str × Obj), (traverse [] obj).map Prod.snd = L.map Prod.snd ∧
    (L.map Prod.fst).Nodup ∧ ∀ ts o, (ts, o) ∈ L ↔ Visited [] obj ts o :=
  C32_loaded_partial [] (s% "v2_0.Swagger") (by decide +kernel) doc (by decide +kernel) _ obj obj_loaded

example : ∀ p o, (p, o) ∈ traverse [] obj → ∃ ts, jpSplit p = s% "#" :: ts ∧ resolve pkg ts obj = .ok o :=
  C33_loaded_partial [] (s% "v2_0.Swagger") (by decide +kernel) doc (by decide +kernel) _ obj obj_loaded

end Inst
end Pyopenapi
