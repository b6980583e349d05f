import Verif.Props.Losses
import Verif.Instances.Up

/-!
# Instances of C109-C111
-/

namespace Pyopenapi
namespace Inst
open Spec Obj Conv Up12

/-- C109: the operation of `hereShop` has a response message for 404; what it becomes has no such response. -/
example : ∃ doc o item r, build pkg (.cls (s% "v2_0.Swagger")) (.obj doc) (some (s% "#")) [] = .ok o ∧
    listAt demoBuy (s% "responseMessages") = [.obj [(s% "code", .int 404), (s% "message", .str (s% "no such thing"))]] ∧
    Dict.get? (objAt doc (s% "paths")) (s% "/api/shop") = some (.obj item) ∧ Dict.get? item (s% "post") = some (.obj r) ∧
    Dict.get? (objAt r (s% "responses")) (s% "404") = none := by
  obtain ⟨listing, rs, hs⟩ := here_source
  obtain ⟨doc, o, hr, _⟩ := C77_noSite demoEnv_ok hs here_upgradable rfl here_noSite
  obtain ⟨_, paths, h2, h3⟩ := C63_noSite demoEnv_ok hs doc o hr rfl (by decide +kernel) here_noSite
  have e : objAt doc (s% "paths") = paths.map (fun kv => (kv.1, Json.obj kv.2)) := by unfold objAt; rw [h2]; rfl
  have hp := (h3.1 (s% "/api/shop")).2 ⟨⟨s% "/api/shop", s% "post", hereShop, demoBuy⟩,
    (show _ ∈ [(⟨s% "/api/shop", s% "post", hereShop, demoBuy⟩ : Op12)] from List.mem_singleton.2 rfl), rfl⟩
  obtain ⟨item, hi⟩ := Option.ne_none_iff_exists'.1 hp
  have hm := h3.2 _ _ hi (s% "post")
  have hl : ((allOps demoEnv.lower [hereShop]).filter (fun x => x.path = s% "/api/shop" ∧ x.method = s% "post")).getLast? =
    some ⟨s% "/api/shop", s% "post", hereShop, demoBuy⟩ := rfl
  rw [hl] at hm
  obtain ⟨r, hr1, _⟩ := hm
  have hget : Dict.get? (objAt doc (s% "paths")) (s% "/api/shop") = some (.obj item) := by rw [e, get?_objectsOf, hi]; rfl
  exact ⟨doc, o, item, r, C75_object demoEnv_ok hs doc o hr, rfl, hget, hr1,
    C109_messages_violation demoEnv_ok hs doc o hr _ _ item r hget hr1 _ (by decide)⟩

/-- A response with an example. -/
def exampleResponse : Dict Json := [(s% "description", .str (s% "a pet")), (s% "schema", .obj [(s% "type", .str (s% "string"))]),
  (s% "examples", .obj [(s% "application/json", .str (s% "rex"))])]

example : ∃ o e, RespIn plainEnv o ⟨exampleResponse, none⟩ ∧ toResponse plainEnv o [s% "application/json"] = .ok (.obj e) ∧
    Dict.get? e (s% "examples") = none := by
  obtain ⟨o, _, h⟩ := built_exists (regularB_sound 9 (.cls (s% "v2_0.Response")) (.obj exampleResponse) (by decide +kernel))
    (by decide +kernel) none
  have hin : RespIn plainEnv o ⟨exampleResponse, none⟩ := .inl ⟨rfl, h, rfl⟩
  rcases C57_response plainEnv o ⟨exampleResponse, none⟩ [s% "application/json"] hin with ⟨r, hr, _⟩ | ⟨_, k, d, hk, _⟩
  · obtain ⟨e, rfl, h2, _⟩ := C110_examples_violation plainEnv o ⟨exampleResponse, none⟩ [s% "application/json"] hin r hr
    exact ⟨o, e, hin, hr, h2⟩
  · cases hk

/-- The parts of `sampleParts`: the user keeps its description, the photo would not. -/
example : ∃ os ps b p, parameters plainEnv [s% "multipart/form-data"] os [] none = .ok (ps, some b) ∧
    PropertyIn b (s% "multipart/form-data")
      ⟨[(s% "name", .str (s% "photo")), (s% "in", .str (s% "formData")), (s% "type", .str (s% "file"))], none⟩ p ∧
    Dict.get? p (s% "description") = none := by
  obtain ⟨os, hos⟩ := sampleParts_in
  have hc := C49_forms plainEnv plainEnv_set [s% "multipart/form-data"] os sampleParts hos sampleParts_valid
  obtain ⟨ps, body, hr, _, hb⟩ := hc.2 (by
    rintro (⟨t, ht⟩ | ⟨f, hf, ⟨hb, _⟩, _⟩)
    · refine ht ?_
      have e : sampleParts.filter Part.isPart = sampleParts.drop 1 := rfl
      rw [e]
      have hsub : ((sampleParts.drop 1).filter (fun f => decide (t ∈ partTypes [s% "multipart/form-data"] f.file))).Sublist
        (sampleParts.drop 1) := List.filter_sublist
      exact (hsub.map Part.name).nodup (by decide)
    · simp only [sampleParts, List.mem_cons, List.not_mem_nil, or_false] at hf
      rcases hf with rfl | rfl | rfl <;> rcases hb with hb | hb <;> cases hb)
  cases body with
  | none => cases hb
  | some b =>
    obtain ⟨p, h1, h2⟩ := C110_file_violation plainEnv plainEnv_set _ os sampleParts hos sampleParts_valid ps b hr
      ⟨[(s% "name", .str (s% "photo")), (s% "in", .str (s% "formData")), (s% "type", .str (s% "file"))], none⟩
      (by simp [sampleParts]) (by decide) rfl (by decide) (s% "multipart/form-data") (by decide)
    exact ⟨os, ps, b, p, hr, h1, h2⟩

/-- C111: `wholeDoc` has one scheme and a base path. -/
example : ∃ o r rl, toOpenapi plainEnv o = .ok (r, rl) ∧ serverUrls r = [.str (s% "http://h.com/v1")] := by
  obtain ⟨o, ho⟩ := wholeDoc_built
  obtain ⟨r, rl, hr⟩ := wholeDoc_converts o ho
  exact ⟨o, r, rl, hr, C111_one_partial plainEnv_ok wholeDoc o ho wholeDoc_resolves wholeDoc_valid r rl hr
    (s% "h.com") (s% "/v1") (.inl rfl) (.inl rfl) (by decide +kernel) (by unfold BaseText; decide) (by decide +kernel)⟩

/-- A document with two schemes. -/
def twoSchemes (basePath : Str) : Dict Json := [
  (s% "swagger", .str (s% "2.0")), (s% "host", .str (s% "h.com")), (s% "basePath", .str basePath),
  (s% "schemes", .arr [.str (s% "http"), .str (s% "https")])]

theorem twoSchemes_converts (b : Str) (o : Obj) (h : Built (.cls (s% "v2_0.Swagger")) (.obj (twoSchemes b)) o) :
    ∃ r rl, toOpenapi plainEnv o = .ok (r, rl) := by
  refine C53_converted plainEnv_ok (twoSchemes b) o h (s% "h.com") b (.inl rfl) (.inl rfl) rfl ?_ ?_ ?_ ?_
  · intro k e hk; have hk : (k, Json.obj e) ∈ ([] : Dict Json) := hk; cases hk
  · intro k e hk; have hk : (k, Json.obj e) ∈ ([] : Dict Json) := hk; cases hk
  · intro k e hk; have hk : (k, Json.obj e) ∈ ([] : Dict Json) := hk; cases hk
  · intro k e hk; have hk : (k, Json.obj e) ∈ ([] : Dict Json) := hk; cases hk

/-- C111: it can be reached at `https://h.com/v1`, and the converted document does not say so. -/
example : ∃ o r rl, toOpenapi plainEnv o = .ok (r, rl) ∧ Json.str (s% "https://h.com/v1") ∉ serverUrls r := by
  obtain ⟨o, _, ho⟩ := built_exists (regularB_sound 12 (.cls (s% "v2_0.Swagger")) (.obj (twoSchemes (s% "/v1"))) (by decide +kernel))
    (by decide +kernel) none
  obtain ⟨r, rl, hr⟩ := twoSchemes_converts _ o ho
  refine ⟨o, r, rl, hr, (C111_schemes_violation plainEnv_ok (refs := noRefs) (twoSchemes (s% "/v1")) o ho ?_ ?_ r rl hr
    (s% "h.com") (s% "/v1") (.inl rfl) (.inl rfl) (by decide +kernel) (by unfold BaseText; decide) (s% "http") (s% "https") [s% "https"] rfl
    (by simp) (by decide)).2⟩
  · intro k e hk; have hk : (k, Json.obj e) ∈ ([] : Dict Json) := hk; cases hk
  · intro k e hk; have hk : (k, Json.obj e) ∈ ([] : Dict Json) := hk; cases hk

/-- C111: without base path. -/
example : ∃ o r rl, toOpenapi plainEnv o = .ok (r, rl) ∧ serverUrls r = [.str (s% "h.com")] := by
  obtain ⟨o, _, ho⟩ := built_exists (regularB_sound 12 (.cls (s% "v2_0.Swagger")) (.obj (twoSchemes [])) (by decide +kernel))
    (by decide +kernel) none
  obtain ⟨r, rl, hr⟩ := twoSchemes_converts _ o ho
  refine ⟨o, r, rl, hr, (C111_host_violation plainEnv_ok (refs := noRefs) (twoSchemes []) o ho ?_ ?_ r rl hr
    (s% "h.com") [] (.inl rfl) (.inl rfl) (by decide +kernel) rfl (by decide)).1⟩
  · intro k e hk; have hk : (k, Json.obj e) ∈ ([] : Dict Json) := hk; cases hk
  · intro k e hk; have hk : (k, Json.obj e) ∈ ([] : Dict Json) := hk; cases hk

end Inst
end Pyopenapi
