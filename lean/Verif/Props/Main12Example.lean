import Verif.Props.Main12
import Verif.Props.MainUpExample

/-!
# Instances of C98 and C99: a listing with two resources
-/

namespace Pyopenapi.Main
open _root_.Pyopenapi.Spec _root_.Pyopenapi.Refs.Spec Obj Conv

/-- Another resource of the site. -/
def zooShop : Dict Json := [
  (s% "swaggerVersion", .str (s% "1.2")), (s% "basePath", .str (s% "http://a.com")), (s% "resourcePath", .str (s% "/shop")),
  (s% "apis", .arr [.obj [(s% "path", .str (s% "/shop")), (s% "operations", .arr [.obj demoBuy])]]),
  (s% "models", .obj [(s% "Pet", .obj demoOther)])]

/-- A server of these documents, which remembers what was fetched. -/
def zooOut : Outer (List Str) where
  url := s% "file:///a/b.json"
  ok := fun _ => true
  path2url := .ok
  abspath := .ok
  fetch := fun u w => (if u = s% "file:///a/b.json" then .ok (.obj demoListing) else if u = s% "file:///a/pet" then .ok (.obj demoPet)
    else if u = s% "file:///a/shop" then .ok (.obj zooShop) else .error .generic, w ++ [u])
  setOrder := plainEnv.setOrder
  up12 := demoEnv
  rounds := 1000

def zooListing : Obj := match buildF pkg 30 (.cls (s% "v1_2.ResourceListing")) (.obj demoListing) (some (s% "file:///a/b.json")) with
  | .ok o => o
  | .error _ => .prim .null

def zooObj (d : Dict Json) (u n : Str) : Obj := match buildF pkg 30 (.cls (s% "v1_2.ApiDeclaration")) (.obj d) (some (jpCompose [n] (some u))) with
  | .ok o => o
  | .error _ => .prim .null

def zooResources : List Resource := [
  ⟨s% "/pet", s% "file:///a/pet", demoPet, zooObj demoPet (s% "file:///a/pet") (s% "pet")⟩,
  ⟨s% "/shop", s% "file:///a/shop", zooShop, zooObj zooShop (s% "file:///a/shop") (s% "shop")⟩]

theorem zoo_mem {r : Resource} (h : r ∈ zooResources) :
    r = ⟨s% "/pet", s% "file:///a/pet", demoPet, zooObj demoPet (s% "file:///a/pet") (s% "pet")⟩ ∨
    r = ⟨s% "/shop", s% "file:///a/shop", zooShop, zooObj zooShop (s% "file:///a/shop") (s% "shop")⟩ := by
  unfold zooResources at h
  simpa only [List.mem_cons, List.not_mem_nil, or_false] using h

theorem zoo_api : Api12 zooOut (s% "file:///a/b.json") demoListing zooListing zooResources where
  docUrl := docUrl_example
  version := rfl
  regular := regularB_sound 12 _ _ (by decide +kernel)
  wf := by decide +kernel
  built := buildF_sound 30 _ _ _ _ (by decide +kernel)
  apis := by decide +kernel
  paths := rfl
  names := by decide +kernel
  urls := fun r hr => by
    have key : ∀ name ∈ [s% "pet", s% "shop"], Beside zooOut.ok (s% "file:///a/b.json") name (s% "file:///a/" ++ name) := by
      intro name hn
      refine ⟨⟨s% "file", [], s% "/a/b.json", [], [], []⟩, s% "/a", by decide +kernel, .inr rfl, by decide,
        .inl ⟨s% "b.json", rfl, by decide, .inl ⟨s% "/a/b.", rfl⟩, by decide⟩, ?_, ?_⟩
      · exact (show ∀ name ∈ [s% "pet", s% "shop"], name.head? ≠ some '/' by decide) name hn
      · exact (show ∀ name ∈ [s% "pet", s% "shop"], s% "file:///a/" ++ name =
          Url.unparse ⟨s% "file", [], s% "/a" ++ '/' :: name, [], [], []⟩ by decide +kernel) name hn
    rcases zoo_mem hr with rfl | rfl
    · exact ⟨rfl, key (s% "pet") (by decide)⟩
    · exact ⟨rfl, key (s% "shop") (by decide)⟩
  resources := fun r hr => by
    rcases zoo_mem hr with rfl | rfl
    · exact ⟨regularB_sound 12 _ _ (by decide +kernel), by decide +kernel, buildF_sound 30 _ _ _ _ (by decide +kernel)⟩
    · exact ⟨regularB_sound 12 _ _ (by decide +kernel), by decide +kernel, buildF_sound 30 _ _ _ _ (by decide +kernel)⟩

theorem zoo_fetched : Fetched zooOut ((s% "file:///a/b.json", .obj demoListing) :: zooResources.map (fun r => (r.url, Json.obj r.doc))) []
    [s% "file:///a/b.json", s% "file:///a/pet", s% "file:///a/shop"] :=
  .one rfl (.one rfl (.one rfl .none))

theorem zoo_shop : ResourceOk demoEnv.numbers demoEnv.lower zooShop := by
  refine ⟨⟨_, rfl⟩, ⟨_, rfl⟩, by decide +kernel, fun api ha => ?_, fun k m hm => ?_⟩
  · have ha : api ∈ [[(s% "path", Json.str (s% "/shop")), (s% "operations", .arr [.obj demoBuy])]] := ha
    rw [List.mem_singleton] at ha
    subst ha
    refine ⟨⟨_, rfl⟩, by decide +kernel, fun op hop => ?_⟩
    have hop : op ∈ [demoBuy] := hop
    rw [List.mem_singleton] at hop
    subst hop
    refine ⟨by decide +kernel, fun p hp => ?_, fun h => absurd rfl h, ⟨_, rfl⟩, by decide +kernel, fun k hk j hj => ?_,
      fun nl hnl => ?_⟩
    · have hp : p ∈ [demoBody] := hp
      rw [List.mem_singleton] at hp
      subst hp
      exact ⟨by decide +kernel, fun _ => simple_ok (two_ok (.inr ⟨_, rfl⟩) (.inl rfl)) rfl rfl rfl, fun h => absurd rfl h⟩
    · rw [(show ∀ k ∈ [s% "consumes", s% "produces"], ownElse zooShop demoBuy k = none by decide +kernel) k hk] at hj
      cases hj
    · have hnl : nl ∈ ([] : Dict Json) := hnl
      cases hnl
  · have hm : (k, Json.obj m) ∈ [(s% "Pet", .obj demoOther)] := hm
    simp only [List.mem_cons, List.not_mem_nil, or_false, Prod.mk.injEq, Json.obj.injEq] at hm
    obtain ⟨rfl, rfl⟩ := hm
    refine ⟨⟨_, rfl⟩, fun k p hp => ?_, fun h => absurd h (by decide +kernel)⟩
    have hp : (k, Json.obj p) ∈ ([] : Dict Json) := hp
    cases hp

theorem zoo_upgradable : Spec.Upgradable demoEnv.numbers demoEnv.lower demoListing [demoPet, zooShop] := by
  refine ⟨demo_upgradable.listing, fun e he => ?_, by decide +kernel⟩
  simp only [List.mem_cons, List.not_mem_nil, or_false] at he
  rcases he with rfl | rfl
  · exact demo_pet
  · exact zoo_shop

def zooOps : List Op12 := [⟨s% "/api/pet", s% "get", demoPet, demoGet⟩, ⟨s% "/shop", s% "post", zooShop, demoBuy⟩]

theorem zoo_all : allOps demoEnv.lower [demoPet, zooShop] =
    [⟨s% "http://a.com/api/pet", s% "get", demoPet, demoGet⟩, ⟨s% "http://a.com/shop", s% "post", zooShop, demoBuy⟩] := by rfl

theorem zoo_op {x : Op12} (h : x ∈ allOps demoEnv.lower [demoPet, zooShop]) :
    x = ⟨s% "http://a.com/api/pet", s% "get", demoPet, demoGet⟩ ∨ x = ⟨s% "http://a.com/shop", s% "post", zooShop, demoBuy⟩ := by
  rw [zoo_all] at h
  simpa only [List.mem_cons, List.not_mem_nil, or_false] using h

theorem zoo_site : SiteOf demoEnv.urlOk (allOps demoEnv.lower [demoPet, zooShop]) (s% "a.com") zooOps := by
  refine .inl ⟨by decide, rfl, s% "http", demo_site.1, demo_site.2.1, fun x hx => ?_, rfl⟩
  rcases zoo_op hx with rfl | rfl
  · exact ⟨s% "api/pet", rfl⟩
  · exact ⟨s% "shop", rfl⟩

theorem zoo_models : allModels [demoPet, zooShop] = [⟨demoPet, demoCat⟩, ⟨demoPet, demoPetModel⟩, ⟨zooShop, demoOther⟩] := by rfl

theorem zoo_closed : Closed12 demoEnv.lower demoEnv.sep [demoPet, zooShop] := by
  have hpet : Defined demoEnv.sep [demoPet, zooShop] (modelName demoEnv.sep (s% "/pet") (s% "Pet")) :=
    ⟨⟨demoPet, demoPetModel⟩, by rw [zoo_models]; exact .tail _ (.head _), .inl rfl⟩
  have hshop : Defined demoEnv.sep [demoPet, zooShop] (modelName demoEnv.sep (s% "/shop") (s% "Pet")) :=
    ⟨⟨zooShop, demoOther⟩, by rw [zoo_models]; exact .tail _ (.tail _ (.head _)), .inl rfl⟩
  refine ⟨fun x hx hv => ?_, fun x hx d hd hb => ?_, fun x hx k d hd => ?_, fun x hx => ?_, fun n hn => ?_⟩
  · rcases zoo_op hx with rfl | rfl
    · refine ⟨fun m hm => ?_, fun i m hi => ?_⟩
      · cases Option.some.inj ((show modelOf demoGet = some (s% "Pet") by decide +kernel).symm.trans hm)
        exact hpet
      · rw [show given demoGet (s% "items") = none by decide +kernel] at hi; cases hi
    · exact absurd rfl hv
  · rcases zoo_op hx with rfl | rfl
    · have : d ∈ [demoRepeated, demoBounded] := hd
      exact absurd hb ((show ∀ d ∈ [demoRepeated, demoBounded], look d (s% "paramType") ≠ .str (s% "body") by decide +kernel) d this)
    · have : d ∈ [demoBody] := hd
      rw [List.mem_singleton] at this
      subst this
      refine ⟨fun m hm => ?_, fun i m hi => ?_⟩
      · cases Option.some.inj ((show modelOf demoBody = some (s% "Pet") by decide +kernel).symm.trans hm)
        exact hshop
      · rw [show given demoBody (s% "items") = none by decide +kernel] at hi; cases hi
  · rw [zoo_models] at hx
    simp only [List.mem_cons, List.not_mem_nil, or_false] at hx
    rcases hx with rfl | rfl | rfl
    · have hd : (k, Json.obj d) ∈ [(s% "lives", Json.obj [(s% "type", .str (s% "integer")), (s% "minimum", .str (s% "1"))])] := hd
      simp only [List.mem_cons, List.not_mem_nil, or_false, Prod.mk.injEq, Json.obj.injEq] at hd
      obtain ⟨rfl, rfl⟩ := hd
      refine ⟨fun m hm => ?_, fun i m hi => ?_⟩
      · rw [show modelOf _ = none from (by decide +kernel)] at hm; cases hm
      · rw [show given _ (s% "items") = none from rfl] at hi; cases hi
    · have hd : (k, Json.obj d) ∈ [(s% "friend", Json.obj [(s% "$ref", .str (s% "Pet"))])] := hd
      simp only [List.mem_cons, List.not_mem_nil, or_false, Prod.mk.injEq, Json.obj.injEq] at hd
      obtain ⟨rfl, rfl⟩ := hd
      refine ⟨fun m hm => ?_, fun i m hi => ?_⟩
      · cases Option.some.inj ((show modelOf [(s% "$ref", .str (s% "Pet"))] = some (s% "Pet") by decide +kernel).symm.trans hm)
        exact hpet
      · rw [show given _ (s% "items") = none from rfl] at hi; cases hi
    · have hd : (k, Json.obj d) ∈ ([] : Dict Json) := hd
      cases hd
  · rcases zoo_op hx with rfl | rfl
    · exact (show s% "get" ≠ s% "$ref" by decide)
    · exact (show s% "post" ≠ s% "$ref" by decide)
  · obtain ⟨x, hx, hn⟩ := hn
    rw [zoo_models] at hx
    have key : ∀ x ∈ [(⟨demoPet, demoCat⟩ : Model12), ⟨demoPet, demoPetModel⟩, ⟨zooShop, demoOther⟩], ∀ n ∈ x.name demoEnv.sep :: x.subs demoEnv.sep,
        '/' ∉ n ∧ '~' ∉ n ∧ ∀ c ∈ n, Url.unsafeChar c = false := by decide +kernel
    exact key x hx n (hn.elim (fun e => e ▸ List.mem_cons_self ..) (List.mem_cons_of_mem _))

theorem zoo_sayable : Sayable12 demoEnv.lower demoListing [demoPet, zooShop] := by
  refine ⟨fun x hx => ?_, fun n d hd ht => ?_⟩
  · rcases zoo_op hx with rfl | rfl
    · refine .inl ⟨?_, fun d hd => ?_, ?_⟩
      · exact (show ∀ d ∈ [demoRepeated, demoBounded], look d (s% "paramType") ≠ .str (s% "body") by decide +kernel)
      · have hd : d ∈ [demoRepeated, demoBounded] := hd
        simp only [List.mem_cons, List.not_mem_nil, or_false] at hd
        rcases hd with rfl | rfl
        · exact fun h => absurd h (by decide +kernel)
        · exact fun _ => ⟨⟨_, rfl⟩, fun l h => by rw [show Dict.get? demoBounded (s% "required") = none by decide +kernel] at h; cases h⟩
      · exact (show (([demoRepeated, demoBounded].filter (inForm demoEnv.lower)).map (fun d => textAt d (s% "name"))).Nodup by decide +kernel)
    · exact .inr ⟨[], demoBody, [], rfl, rfl, fun d hd => by cases hd⟩
  · have hd := Dict.mem_of_get? hd
    have hd : (n, Json.obj d) ∈ [(s% "key", Json.obj [(s% "type", .str (s% "apiKey")), (s% "passAs", .str (s% "header")), (s% "keyname", .str (s% "k"))]),
      (s% "a/b", .obj [(s% "type", .str (s% "oauth2")),
        (s% "scopes", .arr [.obj [(s% "scope", .str (s% "w")), (s% "description", .str (s% "write"))]]),
        (s% "grantTypes", .obj [(s% "implicit", .obj [(s% "loginEndpoint", .obj [(s% "url", .str (s% "http://l"))])])])])] := hd
    simp only [List.mem_cons, List.not_mem_nil, or_false, Prod.mk.injEq, Json.obj.injEq] at hd
    rcases hd with ⟨rfl, rfl⟩ | ⟨rfl, rfl⟩
    · exact absurd ht (by decide +kernel)
    · exact .inl ⟨by decide +kernel, by decide +kernel⟩

/-- C98 on them: three documents are fetched, in this order. -/
example : ∃ a a' doc o, App.loadObj (application zooOut 1) (s% "file:///a/b.json") none false (opened []) = (.ok zooListing, a) ∧
    App.migrateObj (application zooOut 1) zooListing (s% "file:///a/b.json") (s% "2.0") a = (.ok o, a') ∧
    build pkg (.cls (s% "v2_0.Swagger")) (.obj doc) (some (s% "#")) [] = .ok o ∧
    Dict.get? doc (s% "host") = some (.str (s% "a.com")) ∧
    UpgradedTo demoEnv.numbers demoEnv.lower demoEnv.sep demoListing [demoPet, zooShop] (s% "a.com") zooOps doc ∧
    Knows a'.world o Refs.normClasses2 (s% "file:///a/b.json") ∧
    a'.world.rest = [s% "file:///a/b.json", s% "file:///a/pet", s% "file:///a/shop"] := by
  obtain ⟨a, a', doc, o, h1, _, _, h4, _, _, h7, h8, _, h10, _, _, h13⟩ :=
    C98_two (n := 0) demoEnv_ok zoo_api zoo_fetched zoo_upgradable zoo_site zoo_closed
  exact ⟨a, a', doc, o, h1, h4, h7, h8.2.1, h8, h10, h13⟩

/-- C99 on them. -/
example : ∃ a a' doc r o3 move, App.loadObj (application zooOut 1) (s% "file:///a/b.json") none false (opened []) = (.ok zooListing, a) ∧
    App.migrateObj (application zooOut 1) zooListing (s% "file:///a/b.json") (s% "3.0.0") a = (.ok o3, a') ∧
    UpgradedTo demoEnv.numbers demoEnv.lower demoEnv.sep demoListing [demoPet, zooShop] (s% "a.com") zooOps doc ∧
    build pkg (.cls (s% "v3_0_0.OpenApi")) (.obj r) (some ['#']) [] = .ok o3 ∧ DocTo (docRefs doc) doc r ∧
    Dict.get? r (s% "servers") = some (.arr [.obj [(s% "url", .str (s% "a.com"))]]) ∧
    KnowsVia move a'.world o3 Refs.normClasses3 (s% "file:///a/b.json") ∧
    a'.world.rest = [s% "file:///a/b.json", s% "file:///a/pet", s% "file:///a/shop"] := by
  obtain ⟨a, a', doc, o, r, o3, move, h1, _, _, h4, _, _, h7, h8, _, h10, h11, h12, _, _, h14, _, _, _, h18⟩ :=
    C99_three (out := zooOut) (n := 0) demoEnv_ok plainEnv_set zoo_api zoo_fetched zoo_upgradable zoo_site zoo_closed zoo_sayable
  exact ⟨a, a', doc, r, o3, move, h1, h4, h8, h10, h11, h12, h14, h18⟩

end Pyopenapi.Main
