import Verif.Spec.Says
import Verif.Spec.MainDoc
import Verif.Spec.Up12

/-!
# Specification: applications of Swagger 1.2, a resource listing and its resources
-/

namespace Pyopenapi.Main
open _root_.Pyopenapi.Spec _root_.Pyopenapi.Refs.Spec Obj

/-- A resource: its path in the listing, the url it is fetched from, its document and the object made of it. -/
structure Resource where
  path : Str
  url : Str
  doc : Dict Json
  obj : Obj

/-- The name of a resource: its path without the first character (`/`). -/
def Resource.name (r : Resource) : Str := r.path.drop 1

/-- `there` is the url of `name` beside the document at `url`: in the same folder, when the path of `url` ends in `json` or `yaml`;
else in the folder `url` itself.  Everything but the path is that of `url`. -/
def Beside (ok : Str → Bool) (url name there : Str) : Prop :=
  ∃ u folder, Url.parse ok url = .ok u ∧ (folder = [] ∨ folder.head? = some '/') ∧ folder.getLast? ≠ some '/' ∧
    ((∃ file, u.path = folder ++ '/' :: file ∧ '/' ∉ file ∧ ((∃ t, u.path = t ++ s% "json") ∨ ∃ t, u.path = t ++ s% "yaml") ∧
      ';' ∉ Str.afterLast '/' folder) ∨
     ((u.path = folder ∨ u.path = folder ++ ['/']) ∧ (¬ ∃ t, u.path = t ++ s% "json") ∧ ¬ ∃ t, u.path = t ++ s% "yaml")) ∧
    name.head? ≠ some '/' ∧ there = Url.unparse { u with path := folder ++ '/' :: name }

/-- The documents at these urls are fetched, one after the other. -/
inductive Fetched {W : Type} (out : Outer W) : List (Str × Json) → W → W → Prop
  | none {w : W} : Fetched out [] w w
  | one {u : Str} {j : Json} {l : List (Str × Json)} {w w1 w2 : W} : out.fetch u w = (.ok j, w1) → Fetched out l w1 w2 →
      Fetched out ((u, j) :: l) w w2

/-- An application of Swagger 1.2: the listing `l` at `url`, from which `listing` is made, and the resources it names, in
order. -/
structure Api12 {W : Type} (out : Outer W) (url : Str) (l : Dict Json) (listing : Obj) (rs : List Resource) : Prop where
  docUrl : DocUrl out.ok url
  version : SaysVersion (.obj l) (some (s% "1.2"))
  regular : Regular pkg (.cls (s% "v1_2.ResourceListing")) (.obj l)
  wf : (Json.obj l).wf = true
  built : build pkg (.cls (s% "v1_2.ResourceListing")) (.obj l) (some url) [] = .ok listing
  apis : given l (s% "apis") ≠ none
  paths : (dictsAt l (s% "apis")).map (fun e => Dict.get? e (s% "path")) = rs.map (fun r => some (.str r.path))
  names : (rs.map Resource.name).Nodup
  urls : ∀ r ∈ rs, r.path = '/' :: r.name ∧ Beside out.ok url r.name r.url
  resources : ∀ r ∈ rs, Regular pkg (.cls (s% "v1_2.ApiDeclaration")) (.obj r.doc) ∧ (Json.obj r.doc).wf = true ∧
    build pkg (.cls (s% "v1_2.ApiDeclaration")) (.obj r.doc) (some (jpCompose [r.name] (some r.url))) [] = .ok r.obj

/-- There is a definition `n`: a model has this name, or a subtype of it. -/
def Defined (sep : Str) (ds : List (Dict Json)) (n : Str) : Prop := ∃ x ∈ allModels ds, x.name sep = n ∨ n ∈ x.subs sep

/-- The models a data type of the resource `e` names are defined. -/
def ModelsKnown (sep : Str) (ds : List (Dict Json)) (e d : Dict Json) : Prop :=
  (∀ m, modelOf d = some m → Defined sep ds (modelName sep (resourcePath e) m)) ∧
  ∀ i m, given d (s% "items") = some (.obj i) → modelOf i = some m → Defined sep ds (modelName sep (resourcePath e) m)

/-- All models that are named are defined: in what operations return, in bodies, in properties of models. -/
structure Closed12 (lower : Str → Str) (sep : Str) (ds : List (Dict Json)) : Prop where
  returned : ∀ x ∈ allOps lower ds, look x.op (s% "type") ≠ .str (s% "void") → ModelsKnown sep ds x.decl x.op
  bodies : ∀ x ∈ allOps lower ds, ∀ d ∈ dictsAt x.op (s% "parameters"), look d (s% "paramType") = .str (s% "body") →
    ModelsKnown sep ds x.decl d
  properties : ∀ x ∈ allModels ds, ∀ k d, (k, .obj d) ∈ objAt x.model (s% "properties") → ModelsKnown sep ds x.decl d
  methods : ∀ x ∈ allOps lower ds, x.method ≠ s% "$ref"
  /-- Names that need no escaping (C74). -/
  plain : ∀ n, Defined sep ds n → '/' ∉ n ∧ '~' ∉ n ∧ ∀ c ∈ n, Url.unsafeChar c = false

/-- The paths of the operations have one site, `host`, or none; `ops` are the operations under their paths without it. -/
def SiteOf (ok : Str → Bool) (all : List Op12) (host : Str) (ops : List Op12) : Prop :=
  (host ≠ [] ∧ ok host = true ∧ ∃ scheme, IsScheme scheme ∧ IsHost host ∧ (∀ x ∈ all, OfSite scheme host x.path) ∧
    ops = all.map (Op12.within scheme host)) ∨
  (host = [] ∧ ok [] = true ∧ (∀ x ∈ all, NoSite x.path) ∧ ops = all)

/-- The 2.0 document made of the listing and its resources. -/
def UpgradedTo (num : Numbers) (lower : Str → Str) (sep : Str) (l : Dict Json) (ds : List (Dict Json)) (host : Str) (ops : List Op12) (doc : Dict Json) : Prop :=
  DocumentTo12 num sep l ds doc ∧ Dict.get? doc (s% "host") = some (.str host) ∧
  ∃ paths, Dict.get? doc (s% "paths") = some (objectsOf paths) ∧ PathsTo12 num lower sep ops paths

/-- A file. -/
def IsFile12 (lower : Str → Str) (d : Dict Json) : Bool :=
  match look d (s% "type") with
  | .str t => decide (¬ Repeats d ∧ lower t = s% "file")
  | _ => false

/-- A parameter sent in a form: its place says so, or it is a file. -/
def inForm (lower : Str → Str) (d : Dict Json) : Bool :=
  decide (look d (s% "paramType") = .str (s% "form")) || decide (look d (s% "paramType") = .str (s% "formData")) || IsFile12 lower d

/-- The parameters of an operation: a form, whose parts have different names, or one body; besides those that are sent elsewhere. -/
def Params12 (lower : Str → Str) (ps : List (Dict Json)) : Prop :=
  ((∀ d ∈ ps, look d (s% "paramType") ≠ .str (s% "body")) ∧
    (∀ d ∈ ps, inForm lower d = true → HasText d (s% "name") ∧ ∀ l, Dict.get? d (s% "required") ≠ some (.arr l)) ∧
    ((ps.filter (inForm lower)).map (fun d => textAt d (s% "name"))).Nodup) ∨
  (∃ l1 b l2, ps = l1 ++ b :: l2 ∧ look b (s% "paramType") = .str (s% "body") ∧
    ∀ d ∈ l1 ++ l2, look d (s% "paramType") ≠ .str (s% "body") ∧ inForm lower d = false)

/-- The resources say what OpenAPI 3 can say. -/
structure Sayable12 (lower : Str → Str) (l : Dict Json) (ds : List (Dict Json)) : Prop where
  params : ∀ x ∈ allOps lower ds, Params12 lower (dictsAt x.op (s% "parameters"))
  /-- OAuth 2 has a grant with a url; with a login url, there are scopes (C71). -/
  grants : ∀ n d, Dict.get? (objAt l (s% "authorizations")) n = some (.obj d) → look d (s% "type") = .str (s% "oauth2") →
    (loginUrl d ≠ none ∧ dictsAt d (s% "scopes") ≠ []) ∨ (loginUrl d = none ∧ tokenUrl d ≠ none)

end Pyopenapi.Main
