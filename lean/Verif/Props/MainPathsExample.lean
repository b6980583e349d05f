import Verif.Props.MainPaths
import Verif.Props.PiecesUpExample

/-!
# Instances of C86 for documents whose path items refer to one another
-/

namespace Pyopenapi.Main
open _root_.Pyopenapi.Spec _root_.Pyopenapi.Refs.Spec Obj Conv

/-! ### checking by computation -/

/-- `PathRefs`, for one object. -/
def pathRefB (root : Obj) (cls : Str) (x : Obj) : Bool :=
  match x with
  | .base c _ (.obj d) _ => !decide (c = cls) || (match Dict.get? d (s% "$ref") with
    | some (.str r) => (visits root).any (fun v => decide (pointer v.1 = r) && decide (v.2.className? = some cls))
    | _ => true)
  | _ => true

theorem pathRefs_check {root : Obj} {cls : Str} (hL : Scanned root (visits root))
    (h : (visits root).all (fun v => pathRefB root cls v.2) = true) : PathRefs root cls := by
  intro ts q d kids us hv hg
  have := List.all_eq_true.1 h _ ((hL.2.2 _ _).2 hv)
  simp only [pathRefB, hg, decide_true, Bool.not_true, Bool.false_or] at this
  obtain ⟨v, hvm, hc⟩ := List.any_eq_true.1 this
  simp only [Bool.and_eq_true, decide_eq_true_eq] at hc
  refine ⟨v.2, ?_, hc.2⟩
  rw [← pointer_inj hc.1]
  exact (hL.2.2 _ _).1 hvm

/-! ### 2.0: path items that refer to each other -/

def ringDoc : Json := .obj [
  (s% "swagger", .str (s% "2.0")),
  (s% "info", .obj [(s% "title", .str (s% "t")), (s% "version", .str (s% "1"))]),
  (s% "paths", .obj [
    (s% "/a", .obj [(s% "$ref", .str (s% "#/paths/~1b")), (s% "get", .obj [(s% "responses", .obj [(s% "200", .obj [(s% "description", .str (s% "a"))])])])]),
    (s% "/b", .obj [(s% "$ref", .str (s% "#/paths/~1a")), (s% "put", .obj [(s% "responses", .obj [(s% "200", .obj [(s% "description", .str (s% "b"))])])])])])]

def ringObj : Obj := match buildF pkg 30 (.cls (s% "v2_0.Swagger")) ringDoc (some (s% "file:///a/b.json")) with
  | .ok o => o
  | .error _ => .prim .null

theorem ringObj_built : build pkg (.cls (s% "v2_0.Swagger")) ringDoc (some (s% "file:///a/b.json")) [] = .ok ringObj :=
  buildF_sound 30 _ _ _ _ (by decide +kernel)

example : ∃ a a', App.loadObj (application (serving ringDoc) 1) (s% "file:///a/b.json") none false (opened ()) = (.ok ringObj, a) ∧
    App.migrateObj (application (serving ringDoc) 1) ringObj (s% "file:///a/b.json") (s% "2.0") a = (.ok ringObj, a') ∧
    a'.original = s% "2.0" ∧ a'.current = some (s% "2.0") ∧ Knows a'.world ringObj Refs.normClasses2 (s% "file:///a/b.json") ∧
    LocalMerged Refs.normClasses2 (s% "v2_0.PathItem") ringObj a'.world ∧
    Found (application (serving ringDoc) 1) a' (s% "file:///a/b.json") (s% "2.0") ringObj ∧ a'.world.rest = () :=
  have hL := scanned_of (by decide) (by decide +kernel) ringObj_built
  C86_two_paths docUrl_example rfl (by decide +kernel) (by decide +kernel) ringObj_built (linked_check hL (by decide +kernel))
    (pathRefs_check hL (by decide +kernel)) (show (visits ringObj).length ≤ 1000 by decide +kernel)

/-! ### 3.0.0 -/

def ringDoc3 : Json := .obj [
  (s% "openapi", .str (s% "3.0.0")),
  (s% "info", .obj [(s% "title", .str (s% "t")), (s% "version", .str (s% "1"))]),
  (s% "paths", .obj [
    (s% "/a", .obj [(s% "$ref", .str (s% "#/paths/~1b")), (s% "get", .obj [(s% "responses", .obj [(s% "200", .obj [(s% "description", .str (s% "a"))])])])]),
    (s% "/b", .obj [(s% "put", .obj [(s% "responses", .obj [(s% "200", .obj [(s% "description", .str (s% "b"))])])])])])]

def ringObj3 : Obj := match buildF pkg 30 (.cls (s% "v3_0_0.OpenApi")) ringDoc3 (some (s% "file:///a/b.json")) with
  | .ok o => o
  | .error _ => .prim .null

theorem ringObj3_built : build pkg (.cls (s% "v3_0_0.OpenApi")) ringDoc3 (some (s% "file:///a/b.json")) [] = .ok ringObj3 :=
  buildF_sound 30 _ _ _ _ (by decide +kernel)

example : ∃ a a', App.loadObj (application (serving ringDoc3) 1) (s% "file:///a/b.json") none false (opened ()) = (.ok ringObj3, a) ∧
    App.migrateObj (application (serving ringDoc3) 1) ringObj3 (s% "file:///a/b.json") (s% "3.0.0") a = (.ok ringObj3, a') ∧
    a'.original = s% "3.0.0" ∧ a'.current = some (s% "3.0.0") ∧
    KnowsVia (fun p => p) a'.world ringObj3 Refs.normClasses3 (s% "file:///a/b.json") ∧
    LocalMerged Refs.normClasses3 (s% "v3_0_0.PathItem") ringObj3 a'.world ∧
    Found (application (serving ringDoc3) 1) a' (s% "file:///a/b.json") (s% "3.0.0") ringObj3 ∧ a'.world.rest = () :=
  have hm : NoMix ringObj3 := noMix_check (n := 30) (by decide +kernel)
  have hL : Scanned ringObj3 (visits ringObj3) :=
    Refs.scanned_walk (loaded_keyed okTable_pkg closed_all ⟨_, ringDoc3, _, trivial, by decide +kernel, ringObj3_built⟩) hm
  C86_native_paths_partial docUrl_example rfl (by decide +kernel) (by decide +kernel) ringObj3_built hm (noEx_check hL (by decide +kernel))
    (linked_check hL (by decide +kernel)) (pathRefs_check hL (by decide +kernel)) (show (visits ringObj3).length ≤ 1000 by decide +kernel)

/-! ### from 2.0 to 3.0.0 -/

def lodgeGet : Dict Json := [
  (s% "parameters", .arr [.obj [(s% "$ref", .str (s% "#/parameters/q"))]]),
  (s% "responses", .obj [(s% "200", .obj [(s% "description", .str (s% "ok")), (s% "schema", .obj [(s% "$ref", .str (s% "#/definitions/D"))])])])]
def lodgeItem : Dict Json := [(s% "get", .obj lodgeGet)]
def lodgeAlias : Dict Json := [(s% "$ref", .str (s% "#/paths/~1a"))]

def lodgeDoc : Dict Json := [
  (s% "swagger", .str (s% "2.0")),
  (s% "info", .obj [(s% "title", .str (s% "t")), (s% "version", .str (s% "1"))]),
  (s% "paths", .obj [(s% "/a", .obj lodgeItem), (s% "/b", .obj lodgeAlias)]),
  (s% "parameters", .obj [(s% "q", .obj shopQ)]),
  (s% "definitions", .obj [
    (s% "C", .obj [(s% "properties", .obj [(s% "x", .obj [(s% "$ref", .str (s% "#/definitions/D"))])])]),
    (s% "D", .obj [(s% "$ref", .str (s% "#/definitions/C"))])])]

theorem lodge_path {k : Str} {e : Dict Json} (h : (k, Json.obj e) ∈ objAt lodgeDoc (s% "paths")) :
    k = s% "/a" ∧ e = lodgeItem ∨ k = s% "/b" ∧ e = lodgeAlias := by
  rcases List.mem_append.1 (show (k, Json.obj e) ∈ [(s% "/a", Json.obj lodgeItem)] ++ [(s% "/b", Json.obj lodgeAlias)] from h) with this | this
  · exact .inl (by simpa only [List.mem_singleton, Prod.mk.injEq, Json.obj.injEq] using this)
  · exact .inr (by simpa only [List.mem_singleton, Prod.mk.injEq, Json.obj.injEq] using this)

theorem lodge_ops : ∀ p ∈ opsOf lodgeItem, p = (s% "get", lodgeGet) := by
  intro p hp
  have : p ∈ [(s% "get", lodgeGet)] := hp
  simpa using this

theorem lodge_get : paramsOf (docRefs lodgeDoc) lodgeGet = [⟨shopQ, some (.str (s% "#/parameters/q"))⟩] := by rfl

theorem lodge_param {k : Str} {e : Dict Json} (h : (k, Json.obj e) ∈ objAt lodgeDoc (s% "parameters")) : k = s% "q" ∧ e = shopQ := by
  have : (k, Json.obj e) ∈ [(s% "q", Json.obj shopQ)] := h
  simpa only [List.mem_singleton, Prod.mk.injEq, Json.obj.injEq] using this

theorem lodge_resp {kv : Str × Json} (h : kv ∈ objAt lodgeGet (s% "responses")) :
    kv = (s% "200", Json.obj [(s% "description", .str (s% "ok")), (s% "schema", .obj [(s% "$ref", .str (s% "#/definitions/D"))])]) := by
  have : kv ∈ [(s% "200", Json.obj [(s% "description", .str (s% "ok")), (s% "schema", .obj [(s% "$ref", .str (s% "#/definitions/D"))])])] := h
  rwa [List.mem_singleton] at this

theorem lodge_item : ItemFits (docRefs lodgeDoc) (fun _ => true) lodgeDoc lodgeItem := by
  refine ⟨fun p hp => ?_, .inl ⟨(fun f hf => by cases hf), (fun ⟨f, hf, _⟩ => by cases hf), fun p hp => ?_⟩⟩
  · have := lodge_ops p hp
    subst this
    refine ⟨fun kv hkv k d hd => ?_, .inl rfl⟩
    have := lodge_resp hkv
    subst this
    cases hd
  · have := lodge_ops p hp
    subst this
    show ParamsFit _ (paramsOf (docRefs lodgeDoc) lodgeGet)
    rw [lodge_get]
    exact shop_fitQ _ _

theorem lodge_alias : ItemFits (docRefs lodgeDoc) (fun _ => true) lodgeDoc lodgeAlias :=
  ⟨(fun p hp => by cases hp), .inl ⟨(fun f hf => by cases hf), (fun ⟨f, hf, _⟩ => by cases hf), (fun p hp => by cases hp)⟩⟩

theorem lodge_convertible : Convertible (docRefs lodgeDoc) (fun _ => true) lodgeDoc where
  host := ⟨[], .inr ⟨rfl, rfl⟩⟩
  basePath := ⟨[], .inr ⟨rfl, rfl⟩⟩
  security := rfl
  paths := fun k e h => by
    rcases lodge_path h with ⟨rfl, rfl⟩ | ⟨rfl, rfl⟩
    · exact ⟨by decide, lodge_item⟩
    · exact ⟨by decide, lodge_alias⟩
  parameters := fun k e h => by
    obtain ⟨_, rfl⟩ := lodge_param h
    exact shop_fitQ _ _
  responses := fun k e h => by cases h
  schemes := fun k e h => by cases h

theorem lodge_resolves : DocResolves (docRefs lodgeDoc) lodgeDoc := by
  intro k e h
  rcases lodge_path h with ⟨rfl, rfl⟩ | ⟨rfl, rfl⟩
  rotate_left
  · exact ⟨(fun j hj => by cases hj), fun p hp => by cases hp⟩
  refine ⟨(fun j hj => by cases hj), fun p hp => ?_⟩
  have := lodge_ops p hp
  subst this
  refine ⟨fun j hj d v hd hv => ?_, fun kv hkv d v hd hv => ?_⟩
  · have : j ∈ [Json.obj [(s% "$ref", .str (s% "#/parameters/q"))]] := hj
    rw [List.mem_singleton] at this
    subst this
    cases hd
    cases hv
    exact ⟨rfl, by decide⟩
  · have := lodge_resp hkv
    subst this
    cases hd
    cases hv

theorem lodge_files : NoFiles lodgeDoc := by
  rintro n w h ⟨e, rfl, hf⟩
  have := Dict.mem_of_get? h
  rcases List.mem_cons.1 (show (n, Json.obj e) ∈ (_ :: [_] : Dict Json) from this) with h | h
  · cases h; exact absurd hf (by decide)
  · rw [List.mem_singleton] at h; cases h; exact absurd hf (by decide)

theorem lodge_names : NamesOk lodgeDoc := by
  intro n e h
  obtain ⟨rfl, rfl⟩ := lodge_param (Dict.mem_of_get? h)
  refine ⟨by decide, fun _ => by decide, fun _ k hk ⟨s, hs⟩ => ?_⟩
  obtain ⟨e, he, hp⟩ := hk
  obtain ⟨rfl, rfl⟩ := lodge_param (Dict.mem_of_get? he)
  exact absurd hp (by decide)

def lodgeObj : Obj := match buildF pkg 30 (.cls (s% "v2_0.Swagger")) (.obj lodgeDoc) (some (s% "file:///a/b.json")) with
  | .ok o => o
  | .error _ => .prim .null

theorem lodgeObj_built : build pkg (.cls (s% "v2_0.Swagger")) (.obj lodgeDoc) (some (s% "file:///a/b.json")) [] = .ok lodgeObj :=
  buildF_sound 30 _ _ _ _ (by decide +kernel)

def lodgeOut : Outer Unit := { serving (.obj lodgeDoc) with setOrder := plainEnv.setOrder }

theorem lodge_conventional : Conventional2 lodgeObj lodgeDoc := by
  have hL := scanned_of (by decide) (by decide +kernel) lodgeObj_built
  intro ts c q spec kids hv hc
  obtain ⟨e, rfl, h⟩ := far_check (out := lodgeOut) (main := alone (s% "file:///a/b.json") (s% "v2_0.Swagger") (.obj lodgeDoc) lodgeObj) (pieces := []) (d := lodgeDoc)
    hL (by decide +kernel) ts c q spec kids hv hc
  refine ⟨e, rfl, h.imp_right ?_⟩
  rintro ⟨v, h1, h2⟩
  refine ⟨v, h1, h2.imp_right ?_⟩
  rintro (h | ⟨_, r, t, _, ht, _⟩)
  · exact h
  · cases ht

example : ∃ a a' r o3 move,
    App.loadObj (application lodgeOut 1) (s% "file:///a/b.json") none false (opened ()) = (.ok lodgeObj, a) ∧
      App.migrateObj (application lodgeOut 1) lodgeObj (s% "file:///a/b.json") (s% "3.0.0") a = (.ok o3, a') ∧
      a'.original = s% "2.0" ∧ a'.current = some (s% "3.0.0") ∧
      build pkg (.cls (s% "v3_0_0.OpenApi")) (.obj r) (some ['#']) [] = .ok o3 ∧ DocTo (docRefs lodgeDoc) lodgeDoc r ∧
      Moved move (application lodgeOut 1) a' (s% "file:///a/b.json") lodgeDoc o3 ∧ PathsKept (s% "file:///a/b.json") lodgeDoc o3 ∧
      KnowsMoved lodgeOut.ok move a'.world o3 (s% "file:///a/b.json") ∧
      Merged3 (s% "file:///a/b.json") o3 a'.world ∧ Knows a'.world lodgeObj Refs.normClasses2 (s% "file:///a/b.json") ∧
      Found (application lodgeOut 1) a' (s% "file:///a/b.json") (s% "2.0") lodgeObj ∧
      Found (application lodgeOut 1) a' (s% "file:///a/b.json") (s% "3.0.0") o3 ∧ a'.world.rest = () :=
  have hL := scanned_of (by decide) (by decide +kernel) lodgeObj_built
  C86_up_paths (K := 2) docUrl_example plainEnv_set rfl (by decide +kernel)
    (regularB_sound 12 _ _ (by decide +kernel)) (by decide +kernel) lodgeObj_built lodge_conventional
    (grounded_check hL (by decide +kernel)) lodge_files lodge_names lodge_resolves lodge_convertible
    (fun k e h => by cases h) (show (visits lodgeObj).length ≤ 1000 by decide +kernel)

end Pyopenapi.Main
