import Verif.Props.Up12More

/-!
# Instances: every hypothesis of C61-C65 and C75-C77 is met by a concrete case
-/
namespace Pyopenapi
namespace Inst

open Spec Obj Up12

/-- C61: a property that names a model. -/
def friendDoc : Dict Json := [(s% "$ref", .str (s% "Pet"))]

theorem friend_built : ∃ o, Built (.cls (s% "v1_2.Property")) (.obj friendDoc) o := by
  obtain ⟨o, _, h⟩ := built_exists (regularB_sound 12 (.cls (s% "v1_2.Property")) (.obj friendDoc) (by decide +kernel)) (by decide +kernel) none
  exact ⟨o, h⟩

example : ∃ o, Built (.cls (s% "v1_2.Property")) (.obj friendDoc) o ∧ ∀ r, schemaOf demoEnv (s% "pet") o = .ok r →
    Dict.get? r (s% "$ref") = some (.str (s% "#/definitions/pet!##!Pet")) ∧ BoundTo demoEnv.numbers friendDoc (s% "minimum") r := by
  obtain ⟨o, h⟩ := friend_built
  exact ⟨o, h, fun r hr => ⟨(C61_reference demoEnv_ok (s% "/pet") _ (by simp) friendDoc o h r hr).2,
    (C64_schema_bounds demoEnv_ok (s% "/pet") _ (by simp) friendDoc o h r hr).1⟩⟩

/-- C61: names of different models are different. -/
example (e : modelName (s% "!##!") (s% "/pet") (s% "Pet") = modelName (s% "!##!") (s% "/pet") (s% "Pet")) : s% "pet" = s% "pet" ∧ s% "Pet" = s% "Pet" :=
  C61_distinct '!' (s% "##!") (s% "/pet") (s% "/pet") (s% "Pet") (s% "Pet") (by decide) (by decide) (by decide) (by decide)
    (by decide) (by decide) e

/-- C62 and C76 of the demo: the parents of its models, and its security definitions, come from the document. -/
example : ∃ doc o s ps, Built (.cls (s% "v2_0.Swagger")) (.obj doc) o ∧ definitionAt doc (s% "pet!##!Cat") = some (.obj s) ∧
    Dict.get? s (s% "allOf") = some (.arr ps) ∧ (∀ j ∈ ps, ∃ e ∈ [demoPet, demoShop], ∃ k m t, (k, .obj m) ∈ objAt e (s% "models") ∧
      t ∈ strsAt m (s% "subTypes") ∧ modelName demoEnv.sep (resourcePath e) t = s% "pet!##!Cat" ∧
      j = .obj [(s% "$ref", .str (modelRef demoEnv.sep (resourcePath e) (textAt m (s% "id"))))]) ∧
    (∃ n d r v, Dict.get? (objAt doc (s% "securityDefinitions")) (s% "key") = some v ∧ s% "key" = escape n ∧
      Dict.get? (objAt demoListing (s% "authorizations")) n = some (.obj d) ∧ v = .obj r ∧ AuthorizationTo12 d r) := by
  obtain ⟨listing, rs, doc, o, hs, hr, hb⟩ := demo_upgraded
  obtain ⟨s2, ps, e2, e3, e4⟩ := C62_subtypes demoEnv_ok hs doc o hr demoPet demoPetModel (s% "Pet") (s% "Cat") (by simp)
    (by decide +kernel) (by decide +kernel)
  obtain ⟨r, e5, _⟩ := C76_defined_partial demoEnv_ok hs doc o hr (s% "key") _ rfl (by decide) (by decide)
  refine ⟨doc, o, s2, ps, hb, e2, e3, C62_only_parents demoEnv_ok hs doc o hr _ s2 e2 ps e3, ?_⟩
  obtain ⟨n, d, r', h1, h2, h3, h4⟩ := C76_only demoEnv_ok hs doc o hr (s% "key") (.obj r) e5
  exact ⟨n, d, r', _, e5, h1, h2, h3, h4⟩

/-- C62: the one model of that name. -/
example : ∃ doc o s props, Built (.cls (s% "v2_0.Swagger")) (.obj doc) o ∧ definitionAt doc (s% "pet!##!Pet") = some (.obj s) ∧
    Dict.get? s (s% "properties") = some (.obj props) ∧
    (∀ k ∈ [s% "required", s% "discriminator", s% "description"], Dict.get? s k = Dict.get? demoPetModel k) := by
  obtain ⟨listing, rs, doc, o, hs, hr, hb⟩ := demo_upgraded
  obtain ⟨s, props, h1, h2, _, h3⟩ := C62_own demoEnv_ok hs doc o hr ⟨demoPet, demoPetModel⟩ rfl
  exact ⟨doc, o, s, props, hb, h1, h2, h3⟩

/-- C64: a string with a bound. -/
def wrongDoc : Dict Json := [(s% "type", .str (s% "string")), (s% "minimum", .str (s% "3"))]

example : ∃ o, Built (.cls (s% "v1_2.Property")) (.obj wrongDoc) o ∧ (∀ r, schemaOf demoEnv (s% "pet") o ≠ .ok r) ∧
    ∀ dst, fromStr demoEnv o (s% "minimum") dst = .error .schemaError := by
  obtain ⟨o, _, h⟩ := built_exists (regularB_sound 12 (.cls (s% "v1_2.Property")) (.obj wrongDoc) (by decide +kernel)) (by decide +kernel) none
  exact ⟨o, h, C64_schema_rejected demoEnv_ok (s% "/pet") _ (by simp) wrongDoc o h (s% "minimum") (by simp) (by decide +kernel)
      (by decide +kernel) (by decide +kernel), fun dst =>
    C64_bound_raises h (by decide +kernel) (by decide +kernel) dst (by decide +kernel) (by decide +kernel) (by decide +kernel)⟩

/-- C65: a repeated parameter of a model. -/
def models : Dict Json := [(s% "name", .str (s% "m")), (s% "paramType", .str (s% "query")), (s% "type", .str (s% "Pet")), (s% "allowMultiple", .bool true)]

example : ∃ o, Built (.cls (s% "v1_2.Parameter")) (.obj models) o ∧ ∀ r, convertParameter demoEnv (s% "pet") o ≠ .ok r := by
  obtain ⟨o, _, h⟩ := built_exists (regularB_sound 12 (.cls (s% "v1_2.Parameter")) (.obj models) (by decide +kernel)) (by decide +kernel) none
  exact ⟨o, h, C65_rejected demoEnv_ok (s% "/pet") models o h (by decide +kernel) (by unfold Repeats; decide +kernel) (by decide +kernel)⟩

/-! ### a document whose paths name no site -/

/-- A resource with a relative base path. -/
def hereShop : Dict Json := [
  (s% "swaggerVersion", .str (s% "1.2")), (s% "basePath", .str (s% "/api")), (s% "resourcePath", .str (s% "/shop")),
  (s% "apis", .arr [.obj [(s% "path", .str (s% "/shop")), (s% "operations", .arr [.obj demoBuy])]]),
  (s% "models", .obj [(s% "Pet", .obj demoOther)])]

def hereListing : Dict Json := [
  (s% "swaggerVersion", .str (s% "1.2")), (s% "apiVersion", .str (s% "7")), (s% "apis", .arr [.obj [(s% "path", .str (s% "/shop"))]]),
  (s% "info", .obj [(s% "title", .str (s% "t")), (s% "description", .str (s% "d"))])]

theorem here_source : ∃ listing rs, Source12 hereListing [hereShop] listing rs := by
  obtain ⟨o, _, h⟩ := built_exists (regularB_sound 12 (.cls (s% "v1_2.ResourceListing")) (.obj hereListing) (by decide +kernel))
    (by decide +kernel) none
  obtain ⟨o2, _, h2⟩ := built_exists (regularB_sound 12 (.cls (s% "v1_2.ApiDeclaration")) (.obj hereShop) (by decide +kernel))
    (by decide +kernel) none
  refine ⟨o, [(s% "shop", o2)], h, .cons h2 .nil, fun e he k m hm ht => ?_⟩
  rw [List.mem_singleton] at he
  subst he
  have hm : (k, Json.obj m) ∈ [(s% "Pet", .obj demoOther)] := hm
  simp only [List.mem_cons, List.not_mem_nil, or_false, Prod.mk.injEq, Json.obj.injEq] at hm
  obtain ⟨rfl, rfl⟩ := hm
  cases ht

theorem here_upgradable : Upgradable demoEnv.numbers demoEnv.lower hereListing [hereShop] := by
  refine ⟨⟨by decide +kernel, by decide +kernel, by decide +kernel, fun n d hd => ?_⟩, fun e he => ?_, by decide +kernel⟩
  · have hd : (n, Json.obj d) ∈ ([] : Dict Json) := hd
    cases hd
  · rw [List.mem_singleton] at he
    subst he
    refine ⟨⟨_, rfl⟩, ⟨_, rfl⟩, by decide +kernel, fun api ha => ?_, fun k m hm => ?_⟩
    · have ha : api ∈ [[(s% "path", Json.str (s% "/shop")), (s% "operations", .arr [.obj demoBuy])]] := ha
      rw [List.mem_singleton] at ha
      subst ha
      refine ⟨⟨_, rfl⟩, by decide +kernel, fun op hop => ?_⟩
      have hop : op ∈ [demoBuy] := hop
      rw [List.mem_singleton] at hop
      subst hop
      refine ⟨by decide +kernel, fun p hp => ?_, fun h => absurd rfl h, ⟨_, rfl⟩, by decide +kernel, fun k hk j hj => ?_,
        fun nl hnl => ?_⟩
      · have hp : p ∈ [demoBody] := hp
        rw [List.mem_singleton] at hp
        subst hp
        exact ⟨by decide +kernel, fun _ => simple_ok (two_ok (.inr ⟨_, rfl⟩) (.inl rfl)) rfl rfl rfl, fun h => absurd rfl h⟩
      · rw [(show ∀ k ∈ [s% "consumes", s% "produces"], ownElse hereShop demoBuy k = none by decide +kernel) k hk] at hj
        cases hj
      · have hnl : nl ∈ ([] : Dict Json) := hnl
        cases hnl
    · have hm : (k, Json.obj m) ∈ [(s% "Pet", .obj demoOther)] := hm
      simp only [List.mem_cons, List.not_mem_nil, or_false, Prod.mk.injEq, Json.obj.injEq] at hm
      obtain ⟨rfl, rfl⟩ := hm
      refine ⟨⟨_, rfl⟩, fun k p hp => ?_, fun h => absurd h (by decide +kernel)⟩
      have hp : (k, Json.obj p) ∈ ([] : Dict Json) := hp
      cases hp

theorem here_noSite : ∀ x ∈ allOps demoEnv.lower [hereShop], NoSite x.path := by
  intro x hx
  have hx : x ∈ [(⟨s% "/api/shop", s% "post", hereShop, demoBuy⟩ : Op12)] := hx
  rw [List.mem_singleton] at hx
  subst hx
  refine ⟨s% "api/shop", rfl, fun c r' h => ?_⟩
  cases h
  exact ⟨by decide, by decide⟩

/-- C63, C75 and C77 of it: it is upgraded, and has no host. -/
example : ∃ doc o paths, build pkg (.cls (s% "v2_0.Swagger")) (.obj doc) (some (s% "#")) [] = .ok o ∧
    Dict.get? doc (s% "host") = some (.str []) ∧ Dict.get? doc (s% "paths") = some (objectsOf paths) ∧
    PathsTo12 demoEnv.numbers demoEnv.lower demoEnv.sep (allOps demoEnv.lower [hereShop]) paths := by
  obtain ⟨listing, rs, hs⟩ := here_source
  obtain ⟨doc, o, hr, _⟩ := C77_noSite demoEnv_ok hs here_upgradable rfl here_noSite
  obtain ⟨h1, paths, h2, h3⟩ := C63_noSite demoEnv_ok hs doc o hr rfl (by decide +kernel) here_noSite
  exact ⟨doc, o, paths, C75_object demoEnv_ok hs doc o hr, h1, h2, h3⟩

end Inst
end Pyopenapi
