import Verif.Props.MainUp

/-!
# An instance of C86 for documents of 2.0 migrated to 3.0.0
-/

namespace Pyopenapi.Main
open _root_.Pyopenapi.Spec _root_.Pyopenapi.Refs.Spec Obj Conv

def shopQ : Dict Json := [(s% "name", .str (s% "q")), (s% "in", .str (s% "query")), (s% "type", .str (s% "string"))]
def shopB : Dict Json := [(s% "name", .str (s% "b")), (s% "in", .str (s% "body")), (s% "schema", .obj [(s% "$ref", .str (s% "#/definitions/A"))])]
def shopGet : Dict Json := [
  (s% "parameters", .arr [.obj [(s% "$ref", .str (s% "#/parameters/q"))]]),
  (s% "responses", .obj [(s% "200", .obj [(s% "$ref", .str (s% "#/responses/ok"))])])]
def shopPost : Dict Json := [
  (s% "schemes", .arr [.str (s% "http")]),
  (s% "parameters", .arr [.obj [(s% "$ref", .str (s% "#/parameters/b"))]]),
  (s% "responses", .obj [(s% "201", .obj [(s% "description", .str (s% "made")), (s% "schema", .obj [(s% "$ref", .str (s% "#/definitions/B"))])])])]
def shopItem : Dict Json := [(s% "get", .obj shopGet), (s% "post", .obj shopPost)]
def shopOk : Dict Json := [(s% "description", .str (s% "ok")), (s% "schema", .obj [(s% "$ref", .str (s% "#/definitions/A"))])]

/-- A 2.0 document: schemas that refer to each other, a shared parameter, body and response. -/
def shopDoc : Dict Json := [
  (s% "swagger", .str (s% "2.0")),
  (s% "info", .obj [(s% "title", .str (s% "t")), (s% "version", .str (s% "1"))]),
  (s% "host", .str (s% "h.com")),
  (s% "basePath", .str (s% "/v1")),
  (s% "paths", .obj [(s% "/a", .obj shopItem)]),
  (s% "parameters", .obj [(s% "q", .obj shopQ), (s% "b", .obj shopB)]),
  (s% "responses", .obj [(s% "ok", .obj shopOk)]),
  (s% "securityDefinitions", .obj [(s% "o", .obj [(s% "type", .str (s% "oauth2")), (s% "flow", .str (s% "implicit")),
    (s% "scopes", .obj [(s% "w", .str (s% "write"))])])]),
  (s% "definitions", .obj [
    (s% "A", .obj [(s% "properties", .obj [(s% "x", .obj [(s% "$ref", .str (s% "#/definitions/B"))])])]),
    (s% "B", .obj [(s% "items", .obj [(s% "$ref", .str (s% "#/definitions/A"))])]),
    (s% "C", .obj [(s% "$ref", .str (s% "#/definitions/B"))])])]

def shopObj : Obj := match buildF pkg 30 (.cls (s% "v2_0.Swagger")) (.obj shopDoc) (some (s% "file:///a/b.json")) with
  | .ok o => o
  | .error _ => .prim .null

theorem shopObj_built : build pkg (.cls (s% "v2_0.Swagger")) (.obj shopDoc) (some (s% "file:///a/b.json")) [] = .ok shopObj :=
  buildF_sound 30 _ _ _ _ (by decide +kernel)

def shopOut : Outer Unit := { serving (.obj shopDoc) with setOrder := plainEnv.setOrder }

theorem noStyle_of {consumes : List Str} {fs : List Part} (h : ∀ f ∈ fs, Dict.get? f.doc (s% "collectionFormat") = none) :
    ¬ StyleTrouble consumes fs := by
  rintro ⟨f, hf, ⟨h1 | h1, _⟩, _⟩ <;> rw [h f hf] at h1 <;> cases h1

theorem shop_ops : ∀ p ∈ opsOf shopItem, p = (s% "get", shopGet) ∨ p = (s% "post", shopPost) := by
  intro p hp
  have : p ∈ [(s% "get", shopGet), (s% "post", shopPost)] := hp
  simpa using this

theorem shop_path {k : Str} {e : Dict Json} (h : (k, Json.obj e) ∈ objAt shopDoc (s% "paths")) : k = s% "/a" ∧ e = shopItem := by
  have : (k, Json.obj e) ∈ [(s% "/a", Json.obj shopItem)] := h
  simpa only [List.mem_singleton, Prod.mk.injEq, Json.obj.injEq] using this

theorem shop_get : paramsOf (docRefs shopDoc) shopGet = [⟨shopQ, some (.str (s% "#/parameters/q"))⟩] := by rfl

theorem shop_post : paramsOf (docRefs shopDoc) shopPost = [⟨shopB, some (.str (s% "#/parameters/b"))⟩] := by rfl

theorem shop_fitQ (r : Option Json) (c : List Str) : ParamsFit c [⟨shopQ, r⟩] := by
  refine ⟨noStyle_of (fun f hf => ?_), .inl ⟨fun f hf => .inl ?_, ?_⟩⟩
  · rw [List.mem_singleton] at hf; subst hf; rfl
  · rw [List.mem_singleton] at hf; subst hf; show Part.isPlain ⟨shopQ, none⟩ = true; decide
  · rintro ⟨t, ht⟩
    exact ht (by rw [show ([⟨shopQ, r⟩] : List Part).filter Part.isPart = [] by
      rw [List.filter_cons, if_neg (show ¬ Part.isPart ⟨shopQ, r⟩ = true from show ¬ Part.isPart ⟨shopQ, none⟩ = true by decide)]; rfl]; simp)

theorem shop_validB (r : Option Json) : ValidParam ⟨shopB, r⟩ := by
  refine ⟨fun h => ?_, fun _ s hs hf => ?_⟩
  · exact absurd (show Part.isPart ⟨shopB, none⟩ = true from h) (by decide)
  · have : given shopB (s% "schema") = some (.obj [(s% "$ref", .str (s% "#/definitions/A"))]) := by rfl
    rw [this] at hs
    cases hs
    obtain ⟨e, he, ht⟩ := hf
    cases he
    exact absurd ht (by decide)

theorem shop_fitB (r : Option Json) (c : List Str) : ParamsFit c [⟨shopB, r⟩] := by
  refine ⟨noStyle_of (fun f hf => ?_), .inr ⟨[], _, [], rfl, ?_, shop_validB r, fun g hg => by cases hg⟩⟩
  · rw [List.mem_singleton] at hf; subst hf; rfl
  · show placeOf shopB = .body; decide

theorem shop_item : ItemFits (docRefs shopDoc) (fun _ => true) shopDoc shopItem := by
  refine ⟨fun p hp => ?_, .inl ⟨(fun f hf => by cases hf), (fun ⟨f, hf, _⟩ => by cases hf), fun p hp => ?_⟩⟩
  · have hnone : ∀ kv ∈ objAt p.2 (s% "responses"), HeadersOk (behind (docRefs shopDoc).resp kv.2) := by
      intro kv hkv k d hd
      rcases shop_ops p hp with rfl | rfl
      · have : kv ∈ [(s% "200", Json.obj [(s% "$ref", .str (s% "#/responses/ok"))])] := hkv
        rw [List.mem_singleton] at this
        subst this
        have e : (behind (docRefs shopDoc).resp (.obj [(s% "$ref", .str (s% "#/responses/ok"))])).doc = shopOk := by rfl
        rw [e] at hd; cases hd
      · have : kv ∈ [(s% "201", Json.obj [(s% "description", .str (s% "made")), (s% "schema", .obj [(s% "$ref", .str (s% "#/definitions/B"))])])] := hkv
        rw [List.mem_singleton] at this
        subst this
        cases hd
    refine ⟨hnone, ?_⟩
    rcases shop_ops p hp with rfl | rfl
    · exact .inl rfl
    · refine .inr ⟨s% "h.com", s% "/v1", .inl rfl, .inl rfl, (by unfold HostText; decide), ⟨rfl, by decide⟩, rfl, by decide, by decide⟩
  · rcases shop_ops p hp with rfl | rfl
    · show ParamsFit _ (paramsOf (docRefs shopDoc) shopGet); rw [shop_get]; exact shop_fitQ _ _
    · show ParamsFit _ (paramsOf (docRefs shopDoc) shopPost); rw [shop_post]; exact shop_fitB _ _

theorem shop_param {k : Str} {e : Dict Json} (h : (k, Json.obj e) ∈ objAt shopDoc (s% "parameters")) :
    (k = s% "q" ∧ e = shopQ) ∨ (k = s% "b" ∧ e = shopB) := by
  have : (k, Json.obj e) ∈ [(s% "q", Json.obj shopQ), (s% "b", Json.obj shopB)] := h
  simpa only [List.mem_cons, List.not_mem_nil, or_false, Prod.mk.injEq, Json.obj.injEq] using this

theorem shop_scheme {k : Str} {e : Dict Json} (h : (k, Json.obj e) ∈ objAt shopDoc (s% "securityDefinitions")) :
    e = [(s% "type", .str (s% "oauth2")), (s% "flow", .str (s% "implicit")), (s% "scopes", .obj [(s% "w", .str (s% "write"))])] := by
  have : (k, Json.obj e) ∈ [(s% "o", Json.obj [(s% "type", .str (s% "oauth2")), (s% "flow", .str (s% "implicit")),
    (s% "scopes", .obj [(s% "w", .str (s% "write"))])])] := h
  simp only [List.mem_singleton, Prod.mk.injEq, Json.obj.injEq] at this
  exact this.2

theorem shop_convertible : Convertible (docRefs shopDoc) (fun _ => true) shopDoc where
  host := ⟨s% "h.com", .inl rfl⟩
  basePath := ⟨s% "/v1", .inl rfl⟩
  security := rfl
  paths := fun k e h => by
    obtain ⟨rfl, rfl⟩ := shop_path h
    exact ⟨by decide, shop_item⟩
  parameters := fun k e h => by
    rcases shop_param h with ⟨_, rfl⟩ | ⟨_, rfl⟩
    · exact shop_fitQ _ _
    · exact shop_fitB _ _
  responses := fun k e h => by
    have : (k, Json.obj e) ∈ [(s% "ok", Json.obj shopOk)] := h
    simp only [List.mem_singleton, Prod.mk.injEq, Json.obj.injEq] at this
    obtain ⟨_, rfl⟩ := this
    intro k d hd
    cases hd
  schemes := fun k e h => by
    rw [shop_scheme h]
    exact fun _ => ⟨s% "implicit", rfl, by decide⟩

theorem shop_resolves : DocResolves (docRefs shopDoc) shopDoc := by
  intro k e h
  obtain ⟨rfl, rfl⟩ := shop_path h
  refine ⟨(fun j hj => by cases hj), fun p hp => ?_⟩
  rcases shop_ops p hp with rfl | rfl
  · refine ⟨fun j hj d v hd hv => ?_, fun kv hkv d v hd hv => ?_⟩
    · have : j ∈ [Json.obj [(s% "$ref", .str (s% "#/parameters/q"))]] := hj
      rw [List.mem_singleton] at this
      subst this
      cases hd
      cases hv
      exact ⟨rfl, by decide⟩
    · have : kv ∈ [(s% "200", Json.obj [(s% "$ref", .str (s% "#/responses/ok"))])] := hkv
      rw [List.mem_singleton] at this
      subst this
      cases hd
      cases hv
      exact ⟨rfl, by decide⟩
  · refine ⟨fun j hj d v hd hv => ?_, fun kv hkv d v hd hv => ?_⟩
    · have : j ∈ [Json.obj [(s% "$ref", .str (s% "#/parameters/b"))]] := hj
      rw [List.mem_singleton] at this
      subst this
      cases hd
      cases hv
      exact ⟨rfl, by decide⟩
    · have : kv ∈ [(s% "201", Json.obj [(s% "description", .str (s% "made")), (s% "schema", .obj [(s% "$ref", .str (s% "#/definitions/B"))])])] := hkv
      rw [List.mem_singleton] at this
      subst this
      cases hd
      cases hv

theorem shop_files : NoFiles shopDoc := by
  rintro n w h ⟨e, rfl, hf⟩
  have := Dict.mem_of_get? h
  rcases List.mem_cons.1 (show (n, Json.obj e) ∈ (_ :: _ :: [_] : Dict Json) from this) with h | h
  · cases h; exact absurd hf (by decide)
  · rcases List.mem_cons.1 h with h | h
    · cases h; exact absurd hf (by decide)
    · rw [List.mem_singleton] at h; cases h; exact absurd hf (by decide)

theorem shop_names : NamesOk shopDoc := by
  intro n e h
  rcases shop_param (Dict.mem_of_get? h) with ⟨rfl, rfl⟩ | ⟨rfl, rfl⟩
  · refine ⟨by decide, fun _ => by decide, fun _ k hk ⟨s, hs⟩ => ?_⟩
    obtain ⟨e, he, hp⟩ := hk
    rcases shop_param (Dict.mem_of_get? he) with ⟨rfl, rfl⟩ | ⟨rfl, rfl⟩
    · exact absurd hp (by decide)
    · cases hs
  · refine ⟨by decide, fun _ => by decide, fun hn => absurd ⟨_, h, by decide⟩ hn⟩

/-- `shopDoc` meets the hypotheses of C86: it is loaded and migrated. -/
theorem C86_up_example : ∃ a a' r o3 move,
    App.loadObj (application shopOut 1) (s% "file:///a/b.json") none false (opened ()) = (.ok shopObj, a) ∧
      App.migrateObj (application shopOut 1) shopObj (s% "file:///a/b.json") (s% "3.0.0") a = (.ok o3, a') ∧
      a'.original = s% "2.0" ∧ a'.current = some (s% "3.0.0") ∧
      build pkg (.cls (s% "v3_0_0.OpenApi")) (.obj r) (some ['#']) [] = .ok o3 ∧ DocTo (docRefs shopDoc) shopDoc r ∧
      RefersTo o3 shopDoc ∧ Moved move (application shopOut 1) a' (s% "file:///a/b.json") shopDoc o3 ∧
      KnowsVia move a'.world o3 Refs.normClasses3 (s% "file:///a/b.json") ∧
      Found (application shopOut 1) a' (s% "file:///a/b.json") (s% "2.0") shopObj ∧
      Found (application shopOut 1) a' (s% "file:///a/b.json") (s% "3.0.0") o3 ∧ a'.world.rest = () :=
  have hL := scanned_of (by decide) (by decide +kernel) shopObj_built
  C86_up (K := 2) docUrl_example plainEnv_set rfl (by decide +kernel)
    (regularB_sound 12 _ _ (by decide +kernel)) (by decide +kernel) shopObj_built (conventional_check hL (by decide +kernel))
    (grounded_check hL (by decide +kernel)) shop_files shop_names shop_resolves shop_convertible
    (fun k e h => by rw [shop_scheme h]; exact fun _ => .inl (by decide))

end Pyopenapi.Main
