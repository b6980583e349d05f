import Verif.Props.Alone
import Verif.Props.MainUpExample
import Verif.Props.PiecesExample

/-!
# Instances of C87: a schema and a path item; the servers of the operations of such a path item
-/

namespace Pyopenapi.Main
open _root_.Pyopenapi.Spec _root_.Pyopenapi.Refs.Spec Obj Conv

/-- No `$ref`, for one object. -/
def refFreeB (classes : List Str) : Obj → Bool
  | .base c _ (.obj d) _ => !(classes.elem c) || (Dict.get? d (s% "$ref")).isNone
  | .base c _ _ _ => !(classes.elem c)
  | _ => true

theorem refFree_check {classes : List Str} {root : Obj} (hL : Scanned root (visits root))
    (h : (visits root).all (fun v => refFreeB classes v.2) = true) : RefFree classes root := by
  intro ts c q spec kids hv hc
  have := List.all_eq_true.1 h _ ((hL.2.2 _ _).2 hv)
  have hc' : classes.elem c = true := by simpa using hc
  cases spec <;> simp only [refFreeB, hc', Bool.not_true, Bool.false_or, Option.isNone_iff_eq_none] at this <;> first | (cases this; done) | exact ⟨_, rfl, this⟩

def loneQ : Dict Json := [(s% "name", .str (s% "q")), (s% "in", .str (s% "query")), (s% "type", .str (s% "string"))]
def loneB : Dict Json := [(s% "name", .str (s% "b")), (s% "in", .str (s% "body")), (s% "schema", .obj [(s% "type", .str (s% "object"))])]
def loneGet : Dict Json := [(s% "schemes", .arr [.str (s% "https")]), (s% "parameters", .arr [.obj loneQ]),
  (s% "responses", .obj [(s% "200", .obj [(s% "description", .str (s% "ok"))])])]
def lonePost : Dict Json := [(s% "consumes", .arr [.str (s% "text/json")]), (s% "parameters", .arr [.obj loneB]),
  (s% "responses", .obj [(s% "200", .obj [(s% "description", .str (s% "ok")), (s% "schema", .obj [(s% "type", .str (s% "string"))])])])]
def loneItem : Dict Json := [(s% "get", .obj loneGet), (s% "post", .obj lonePost)]
def loneSchema : Dict Json := [(s% "type", .str (s% "object")), (s% "x-nullable", .bool true),
  (s% "properties", .obj [(s% "a", .obj [(s% "type", .str (s% "array")), (s% "items", .obj [(s% "type", .str (s% "string"))])])])]

def loneOut : Outer (List Str) where
  url := s% "http://h/d/a.json"
  ok := fun _ => true
  path2url := .ok
  abspath := .ok
  fetch := fun r w => (if r = s% "http://h/d/b.json#/items/q" then .ok (.obj loneItem)
    else if r = s% "http://h/d/c.json#/definitions/A" then .ok (.obj loneSchema)
    else .error .generic, w ++ [r])
  setOrder := plainEnv.setOrder
  up12 := { sep := s% "!##!", lower := fun s => s, float := .ok, trunc := .ok, urlOk := fun _ => true }
  rounds := 1000

def lonePath : Piece := pieceOf (s% "http://h/d/b.json") [s% "items", s% "q"] (s% "http://h/d/b.json#/items/q") (s% "v2_0.PathItem") (.obj loneItem)
def loneA : Piece := pieceOf (s% "http://h/d/c.json") [s% "definitions", s% "A"] (s% "http://h/d/c.json#/definitions/A") (s% "v2_0.Schema") (.obj loneSchema)

theorem lonePath_good : lonePath.Good loneOut :=
  ⟨⟨by decide, by decide, ⟨s% "http", s% "h", s% "/d/b.json", [], [], []⟩, by decide +kernel⟩, by unfold Safe; decide +kernel, by decide, by decide, by decide +kernel, by decide +kernel, buildF_sound 30 _ _ _ _ (by decide +kernel)⟩

theorem loneA_good : loneA.Good loneOut :=
  ⟨⟨by decide, by decide, ⟨s% "http", s% "h", s% "/d/c.json", [], [], []⟩, by decide +kernel⟩, by unfold Safe; decide +kernel, by decide, by decide, by decide +kernel, by decide +kernel, buildF_sound 30 _ _ _ _ (by decide +kernel)⟩

theorem lone_web : WebUrl loneOut.ok (s% "http://h/d/b.json") (s% "h") (s% "/d/b.json") :=
  ⟨s% "http", by decide, by decide, by unfold HostText; decide, ⟨by decide, by decide⟩, rfl⟩

theorem lone_ops : ∀ p ∈ opsOf loneItem, p = (s% "get", loneGet) ∨ p = (s% "post", lonePost) := by
  intro p hp
  have : p ∈ [(s% "get", loneGet), (s% "post", lonePost)] := hp
  simpa using this

theorem lone_fitQ (c : List Str) : ParamsFit c [⟨loneQ, none⟩] := shop_fitQ none c

theorem lone_fitB (c : List Str) : ParamsFit c [⟨loneB, none⟩] := by
  refine ⟨noStyle_of (fun f hf => ?_), .inr ⟨[], _, [], rfl, by decide, ⟨fun h => ?_, fun _ s hs hf => ?_⟩, fun g hg => by cases hg⟩⟩
  · rw [List.mem_singleton] at hf; subst hf; rfl
  · exact absurd (show Part.isPart ⟨loneB, none⟩ = true from h) (by decide)
  · have : given loneB (s% "schema") = some (.obj [(s% "type", .str (s% "object"))]) := by rfl
    rw [this] at hs
    cases hs
    obtain ⟨e, he, ht⟩ := hf
    cases he
    exact absurd ht (by decide)

theorem lone_able : Able loneOut.ok lonePath.url lonePath.cls loneItem := by
  refine .inr (.inr (.inr ⟨rfl, ⟨(fun j hj => by cases hj), fun p hp => ?_⟩, _, .inr ⟨_, _, lone_web, rfl⟩,
    fun p hp => ?_, .inl ⟨(fun f hf => by cases hf), (fun ⟨f, hf, _⟩ => by cases hf), fun p hp => ?_⟩⟩))
  · rcases lone_ops p hp with rfl | rfl
    · refine ⟨fun j hj d v hd hv => ?_, fun kv hkv d v hd hv => ?_⟩
      · have : j ∈ [Json.obj loneQ] := hj
        rw [List.mem_singleton] at this
        subst this
        cases hd
        cases hv
      · have : kv ∈ [(s% "200", Json.obj [(s% "description", .str (s% "ok"))])] := hkv
        rw [List.mem_singleton] at this
        subst this
        cases hd
        cases hv
    · refine ⟨fun j hj d v hd hv => ?_, fun kv hkv d v hd hv => ?_⟩
      · have : j ∈ [Json.obj loneB] := hj
        rw [List.mem_singleton] at this
        subst this
        cases hd
        cases hv
      · have : kv ∈ [(s% "200", Json.obj [(s% "description", .str (s% "ok")), (s% "schema", .obj [(s% "type", .str (s% "string"))])])] := hkv
        rw [List.mem_singleton] at this
        subst this
        cases hd
        cases hv
  · rcases lone_ops p hp with rfl | rfl
    · refine ⟨fun kv hkv k d hd => ?_, .inr ⟨s% "h", s% "/d/b.json", .inl rfl, .inl rfl, (by unfold HostText; decide), ⟨rfl, by decide⟩, rfl, by decide, by decide⟩⟩
      have : kv ∈ [(s% "200", Json.obj [(s% "description", .str (s% "ok"))])] := hkv
      rw [List.mem_singleton] at this
      subst this
      cases hd
    · refine ⟨fun kv hkv k d hd => ?_, .inl rfl⟩
      have : kv ∈ [(s% "200", Json.obj [(s% "description", .str (s% "ok")), (s% "schema", .obj [(s% "type", .str (s% "string"))])])] := hkv
      rw [List.mem_singleton] at this
      subst this
      cases hd
  · rcases lone_ops p hp with rfl | rfl
    · exact lone_fitQ _
    · exact lone_fitB _

theorem tidy_opened (w : List Str) : Tidy (opened (W := List Str) w).world := fun _ _ _ => rfl

theorem unknown_opened (w : List Str) (url : Str) : Unknown (opened (W := List Str) w) url := ⟨rfl, rfl, rfl⟩

/-- `lonePath` meets the hypotheses of C87: it is loaded and migrated. -/
theorem C87_example : ∃ a1 c3 r o3 a2,
    App.loadObj (application loneOut 1) lonePath.ref (some (fun j path w => (build pkg (.cls lonePath.cls) j (some path) [], w))) false (opened []) =
      (.ok lonePath.obj, a1) ∧
    App.migrateObj (application loneOut 1) lonePath.obj lonePath.ref (s% "3.0.0") a1 = (.ok o3, a2) ∧
    BecomesAlone loneOut.ok lonePath.url lonePath.cls loneItem c3 r ∧ build pkg (.cls c3) (.obj r) (some (pointer lonePath.place)) [] = .ok o3 ∧
    FoundAt (application loneOut 1) a2 lonePath.url lonePath.place (s% "3.0.0") (s% "3.0.0") o3 ∧ a2.world.rest = [lonePath.ref] := by
  obtain ⟨a1, c3, r, o3, a2, h1, h2, h3, h4, _, h6, _, _, _, _, h11⟩ := C87_alone_partial (n := 0) (a := opened (W := List Str) []) lonePath_good ⟨fun w => rfl, by decide, by decide⟩
    (regularB_sound 30 _ _ (by decide +kernel)) rfl (refFree_check lonePath_good.scan (by decide +kernel)) lone_able plainEnv_set (tidy_opened _) (unknown_opened _ _) false
  exact ⟨a1, c3, r, o3, a2, h1, h2, h3, h4, h6, h11⟩

example : ∃ c3 r o3 a2,
    App.resolveObj (application loneOut 1) loneA.ref (s% "2.0") (some (fun j path w => (build pkg (.cls loneA.cls) j (some path) [], w)))
      (some (s% "3.0.0")) false { opened [] with original := s% "2.0" } = (.ok (o3, loneA.url ++ pointer loneA.place), a2) ∧
    BecomesAlone loneOut.ok loneA.url loneA.cls loneSchema c3 r ∧ build pkg (.cls c3) (.obj r) (some (pointer loneA.place)) [] = .ok o3 ∧ a2.world.rest = [loneA.ref] :=
  C87_asked_partial (n := 0) (a := { opened (W := List Str) [] with original := s% "2.0" }) loneA_good ⟨fun w => rfl, by decide, by decide⟩
    (regularB_sound 30 _ _ (by decide +kernel)) rfl (refFree_check loneA_good.scan (by decide +kernel)) (.inr (.inr (.inl rfl))) plainEnv_set
    (fun _ _ _ => rfl) ⟨rfl, rfl, rfl⟩ rfl false

/-- **C73** is false of path items of other documents: the server of an operation that names schemes is the url of the
document the path item is read from. -/
theorem C73_elsewhere_violation : ∃ a1 r o3 a2 x,
    App.loadObj (application loneOut 1) lonePath.ref (some (fun j path w => (build pkg (.cls lonePath.cls) j (some path) [], w))) false (opened []) =
      (.ok lonePath.obj, a1) ∧
    App.migrateObj (application loneOut 1) lonePath.obj lonePath.ref (s% "3.0.0") a1 = (.ok o3, a2) ∧
    build pkg (.cls (s% "v3_0_0.PathItem")) (.obj r) (some (pointer lonePath.place)) [] = .ok o3 ∧ Dict.get? r (s% "get") = some (.obj x) ∧
    Dict.get? x (s% "servers") = some (.arr [.obj [(s% "url", .str (s% "https://h/d/b.json"))]]) := by
  obtain ⟨a1, c3, r, o3, a2, h1, h2, h3, h4, _⟩ := C87_example
  rcases h3 with ⟨h, _⟩ | ⟨h, _⟩ | ⟨h, _⟩ | ⟨_, rfl, _, _, h3⟩
  · exact absurd h (by decide)
  · exact absurd h (by decide)
  · exact absurd h (by decide)
  · obtain ⟨x, g1, g2⟩ := h3 (fun f hf => by cases hf) _ _ (s% "get") loneGet lone_web (.head _) (by decide) (by decide)
    exact ⟨a1, r, o3, a2, x, h1, h2, h4, g1, g2⟩

end Pyopenapi.Main
