import Verif.Lemmas.Up12Host
import Verif.Lemmas.Eval
import Verif.Lemmas.ConvCheck
import Verif.Props.Resolve

/-!
# The conversion from Swagger 1.2 to Swagger 2.0

`Source12` says what is upgraded: a resource listing and its resources, loaded from documents of regular shape.
`upgrade12` gives the raw 2.0 document and the object made of it.
-/

namespace Pyopenapi
open Spec Obj Conv Up12

/-- The resource listing `listing` loaded from `l`, and its resources `rs` loaded from `ds`; the subtypes of models are
lists. -/
structure Source12 (l : Dict Json) (ds : List (Dict Json)) (listing : Obj) (rs : List (Str × Obj)) : Prop where
  listing : Built (.cls (s% "v1_2.ResourceListing")) (.obj l) listing
  resources : List.Forall₂ (fun e r => Built (.cls (s% "v1_2.ApiDeclaration")) (.obj e) r.2) ds rs
  subtypes : ∀ e ∈ ds, DeclOk e

/-- Python's numbers and `str.lower` behave. -/
structure PythonOk (env : Up12.Env) : Prop where
  lower : LowerOk env
  numbers : NumbersOk env

variable {env : Up12.Env} {l : Dict Json} {ds : List (Dict Json)} {listing : Obj} {rs : List (Str × Obj)}

theorem get?_objectsOf (d : Dict (Dict Json)) (k : Str) :
    Dict.get? (d.map (fun kv => (kv.1, Json.obj kv.2))) k = (Dict.get? d k).map .obj :=
  Dict.get?_map (fun _ v => Json.obj v) d k

/-- C75: the upgraded document: version, info, tags, definitions and security definitions. -/
theorem C75_document (hp : PythonOk env) (hs : Source12 l ds listing rs) (doc : Dict Json) (o : Obj)
    (hr : upgrade12 env listing rs = .ok (doc, o)) : DocumentTo12 env.numbers env.sep l ds doc := by
  obtain ⟨st, host, paths, rfl, _, h1, _, h2, h3, _⟩ := upgrade12_state hp.lower hp.numbers hs.listing hs.resources hs.subtypes hr
  refine ⟨rfl, ⟨_, rfl, h2⟩, ⟨_, rfl, h1.tags⟩, ⟨_, rfl, h1.definitions⟩, ⟨_, rfl, h3⟩, rfl, rfl, fun k hk => ?_, fun k hk => ?_,
    fun k hk => Dict.get?_isSome_iff.1 (Option.isSome_iff_ne_none.2 hk)⟩
  · simp only [List.mem_cons, List.not_mem_nil, or_false] at hk
    rcases hk with rfl | rfl <;> rfl
  · simp only [List.mem_cons, List.not_mem_nil, or_false] at hk
    rcases hk with rfl | rfl | rfl <;> rfl

/-- C75: the upgraded document is a Swagger 2.0 object. -/
theorem C75_object (hp : PythonOk env) (hs : Source12 l ds listing rs) (doc : Dict Json) (o : Obj)
    (hr : upgrade12 env listing rs = .ok (doc, o)) :
    build pkg (.cls (s% "v2_0.Swagger")) (.obj doc) (some (s% "#")) [] = .ok o := by
  obtain ⟨_, _, _, _, _, _, _, _, _, h⟩ := upgrade12_state hp.lower hp.numbers hs.listing hs.resources hs.subtypes hr
  exact h

/-! ### paths and the host -/

theorem getLast?_map {α β : Type} (f : α → β) (l : List α) : (l.map f).getLast? = l.getLast?.map f := by
  rw [List.getLast?_eq_getElem?, List.getLast?_eq_getElem?]; simp

theorem within_path {scheme host : Str} {x : Op12} (h : OfSite scheme host x.path) :
    siteOf scheme host ++ (x.within scheme host).path = x.path := by
  obtain ⟨r, hr⟩ := h
  unfold Op12.within
  dsimp only
  rw [hr, List.drop_left]

theorem pathsTo12_cut {num : Numbers} {lower : Str → Str} {sep scheme host : Str} {ops : List Op12} {paths paths' : Dict (Dict Json)}
    (h : PathsTo12 num lower sep ops paths) (ho : ∀ x ∈ ops, OfSite scheme host x.path)
    (hg : ∀ k, Dict.get? paths' k = Dict.get? paths (siteOf scheme host ++ k)) :
    PathsTo12 num lower sep (ops.map (Op12.within scheme host)) paths' := by
  have hf : ∀ p m, (ops.map (Op12.within scheme host)).filter (fun x => decide (x.path = p ∧ x.method = m)) =
      (ops.filter (fun x => decide (x.path = siteOf scheme host ++ p ∧ x.method = m))).map (Op12.within scheme host) := by
    intro p m
    rw [List.filter_map]
    congr 1
    refine List.filter_congr (fun x hx => ?_)
    have := within_path (ho x hx)
    simp only [Function.comp]
    have e : (x.within scheme host).method = x.method := rfl
    rw [e, ← this]
    congr 1
    rw [List.append_cancel_left_eq]
  refine ⟨fun p => ?_, fun p item hi m => ?_⟩
  · rw [hg, h.1]
    constructor
    · rintro ⟨x, hx, e⟩
      refine ⟨x.within scheme host, List.mem_map.2 ⟨x, hx, rfl⟩, ?_⟩
      rw [← within_path (ho x hx)] at e
      exact List.append_cancel_left e
    · rintro ⟨y, hy, e⟩
      obtain ⟨x, hx, rfl⟩ := List.mem_map.1 hy
      exact ⟨x, hx, by rw [← within_path (ho x hx), e]⟩
  · rw [hg] at hi
    have := h.2 _ _ hi m
    rw [hf, getLast?_map]
    cases hq : (ops.filter (fun x => decide (x.path = siteOf scheme host ++ p ∧ x.method = m))).getLast? with
    | none => rw [hq] at this; exact this
    | some x => rw [hq] at this; exact this

theorem paths_ne {num : Numbers} {lower : Str → Str} {sep : Str} {ops : List Op12} {paths : Dict (Dict Json)}
    (h : PathsTo12 num lower sep ops paths) (hne : ops ≠ []) : paths ≠ [] := by
  rintro rfl
  cases ops with
  | nil => exact hne rfl
  | cons x r => exact (h.1 x.path).2 ⟨x, by simp, rfl⟩ rfl

theorem paths_keys {num : Numbers} {lower : Str → Str} {sep : Str} {ops : List Op12} {paths : Dict (Dict Json)} {P : Str → Prop}
    (h : PathsTo12 num lower sep ops paths) (ho : ∀ x ∈ ops, P x.path) : ∀ p ∈ Dict.keys paths, P p := by
  intro p hp
  rw [← Dict.get?_isSome_iff] at hp
  obtain ⟨x, hx, rfl⟩ := (h.1 p).1 (by rw [Option.isSome_iff_ne_none] at hp; exact hp)
  exact ho x hx

/-- C63: when all operations are of one site, the document has its host, and the paths are what follows it: the host is
cut off and nothing else (`PathsTo12` of the operations under their cut paths). -/
theorem C63_site (hp : PythonOk env) (hs : Source12 l ds listing rs) (doc : Dict Json) (o : Obj)
    (hr : upgrade12 env listing rs = .ok (doc, o)) (scheme host : Str) (h1 : IsScheme scheme) (h2 : IsHost host) (h3 : host ≠ [])
    (h4 : env.urlOk host = true) (hne : allOps env.lower ds ≠ [])
    (ho : ∀ x ∈ allOps env.lower ds, OfSite scheme host x.path) :
    Dict.get? doc (s% "host") = some (.str host) ∧
    ∃ paths, Dict.get? doc (s% "paths") = some (objectsOf paths) ∧
      PathsTo12 env.numbers env.lower env.sep ((allOps env.lower ds).map (Op12.within scheme host)) paths := by
  obtain ⟨st, host', paths, rfl, hh, hst, hn, _⟩ := upgrade12_state hp.lower hp.numbers hs.listing hs.resources hs.subtypes hr
  obtain ⟨p', e, hg⟩ := hostAndPaths_site (env := env) h1 h2 h3 h4 (paths_ne hst.paths hne) hn (paths_keys hst.paths ho)
  rw [hh] at e
  cases e
  exact ⟨rfl, paths, rfl, pathsTo12_cut hst.paths ho hg⟩

/-- C63: host and path of the upgraded document give back the base path and path of every operation, and every path of
the document comes from an operation. -/
theorem C63_round (hp : PythonOk env) (hs : Source12 l ds listing rs) (doc : Dict Json) (o : Obj)
    (hr : upgrade12 env listing rs = .ok (doc, o)) (scheme host : Str) (h1 : IsScheme scheme) (h2 : IsHost host) (h3 : host ≠ [])
    (h4 : env.urlOk host = true) (hne : allOps env.lower ds ≠ [])
    (ho : ∀ x ∈ allOps env.lower ds, OfSite scheme host x.path) (p : Str) :
    p ∈ Dict.keys (objAt doc (s% "paths")) ↔ ∃ x ∈ allOps env.lower ds, x.path = scheme ++ s% "://" ++ host ++ p := by
  obtain ⟨_, paths, e, ht⟩ := C63_site hp hs doc o hr scheme host h1 h2 h3 h4 hne ho
  have : objAt doc (s% "paths") = paths.map (fun kv => (kv.1, Json.obj kv.2)) := by unfold objAt; rw [e]; rfl
  rw [this, ← Dict.get?_isSome_iff, get?_objectsOf, Option.isSome_map, Option.isSome_iff_ne_none, ht.1]
  constructor
  · rintro ⟨y, hy, rfl⟩
    obtain ⟨x, hx, rfl⟩ := List.mem_map.1 hy
    exact ⟨x, hx, (within_path (ho x hx)).symm⟩
  · rintro ⟨x, hx, e⟩
    refine ⟨x.within scheme host, List.mem_map.2 ⟨x, hx, rfl⟩, ?_⟩
    have := within_path (ho x hx)
    rw [e] at this
    exact List.append_cancel_left this

/-- C63: when the base paths have no site, there is no host and the paths are the base paths and paths. -/
theorem C63_noSite (hp : PythonOk env) (hs : Source12 l ds listing rs) (doc : Dict Json) (o : Obj)
    (hr : upgrade12 env listing rs = .ok (doc, o)) (h4 : env.urlOk [] = true) (hne : allOps env.lower ds ≠ [])
    (ho : ∀ x ∈ allOps env.lower ds, NoSite x.path) :
    Dict.get? doc (s% "host") = some (.str []) ∧
    ∃ paths, Dict.get? doc (s% "paths") = some (objectsOf paths) ∧
      PathsTo12 env.numbers env.lower env.sep (allOps env.lower ds) paths := by
  obtain ⟨st, host', paths, rfl, hh, hst, hn, _⟩ := upgrade12_state hp.lower hp.numbers hs.listing hs.resources hs.subtypes hr
  obtain ⟨p', e, hg⟩ := hostAndPaths_noSite (env := env) h4 (paths_ne hst.paths hne) hn (paths_keys hst.paths ho)
  rw [hh] at e
  cases e
  refine ⟨rfl, paths, rfl, ?_⟩
  exact ⟨fun p => by rw [hg]; exact hst.paths.1 p, fun p item hi m => by rw [hg] at hi; exact hst.paths.2 p item hi m⟩

/-- C63: without operations there is no upgrade: the common prefix of no paths is empty and has no last character. -/
theorem C63_no_operation_violation (hp : PythonOk env) (hs : Source12 l ds listing rs) (hne : allOps env.lower ds = []) :
    ∀ doc o, upgrade12 env listing rs ≠ .ok (doc, o) := by
  intro doc o hr
  obtain ⟨st, host', paths, rfl, hh, hst, hn, _⟩ := upgrade12_state hp.lower hp.numbers hs.listing hs.resources hs.subtypes hr
  have : st.paths = [] := by
    cases hq : st.paths with
    | nil => rfl
    | cons kv r =>
      exfalso
      obtain ⟨x, hx, _⟩ := (hst.paths.1 kv.1).1 (by rw [hq, Dict.get?_cons, if_pos rfl]; simp)
      have hx : x ∈ allOps env.lower ds := hx
      rw [hne] at hx
      cases hx
  rw [this] at hh
  cases hh

/-! ### models -/

/-- The definition `n` of a document. -/
def Spec.definitionAt (doc : Dict Json) (n : Str) : Option Json := Dict.get? (objAt doc (s% "definitions")) n

theorem definitionAt_eq {num : Numbers} {sep : Str} {doc : Dict Json} (h : DocumentTo12 num sep l ds doc) :
    ∃ defs, DefinitionsTo num sep (allModels ds) defs ∧ ∀ n, definitionAt doc n = (Dict.get? defs n).map .obj := by
  obtain ⟨defs, e, hd⟩ := h.definitions
  refine ⟨defs, hd, fun n => ?_⟩
  have : objAt doc (s% "definitions") = defs.map (fun kv => (kv.1, Json.obj kv.2)) := by unfold objAt; rw [e]; rfl
  unfold definitionAt
  rw [this, get?_objectsOf]

theorem model_mem {e m : Dict Json} {k : Str} (he : e ∈ ds) (hm : (k, Json.obj m) ∈ objAt e (s% "models")) :
    (⟨e, m⟩ : Model12) ∈ allModels ds :=
  List.mem_flatMap.2 ⟨e, he, List.mem_filterMap.2 ⟨(k, .obj m), hm, rfl⟩⟩

/-- C61: every model of every resource is among the definitions under its name, with a property for each of its. -/
theorem C61_registered (hp : PythonOk env) (hs : Source12 l ds listing rs) (doc : Dict Json) (o : Obj)
    (hr : upgrade12 env listing rs = .ok (doc, o)) (e m : Dict Json) (k : Str) (he : e ∈ ds)
    (hm : (k, .obj m) ∈ objAt e (s% "models")) :
    ∃ s props, definitionAt doc (modelName env.sep (resourcePath e) (textAt m (s% "id"))) = some (.obj s) ∧
      Dict.get? s (s% "properties") = some (.obj props) ∧
      ∀ n, Dict.get? (objAt m (s% "properties")) n ≠ none → Dict.get? props n ≠ none := by
  obtain ⟨defs, hd, hg⟩ := definitionAt_eq (C75_document hp hs doc o hr)
  have hx := model_mem he hm
  have hn : (⟨e, m⟩ : Model12) ∈ namedOf env.sep (allModels ds) (modelName env.sep (resourcePath e) (textAt m (s% "id"))) :=
    List.mem_filter.2 ⟨hx, decide_eq_true rfl⟩
  have := hd (modelName env.sep (resourcePath e) (textAt m (s% "id")))
  rw [hg]
  generalize modelName env.sep (resourcePath e) (textAt m (s% "id")) = nm at *
  cases hq : Dict.get? defs nm with
  | none => rw [hq] at this; rw [this.1] at hn; cases hn
  | some s =>
    rw [hq] at this
    obtain ⟨props, h1, h2⟩ := this.2.2.2.1 (List.ne_nil_of_mem hn)
    refine ⟨s, props, rfl, h1, fun n hk => ?_⟩
    have h3 := h2 n
    have : propertyOf (namedOf env.sep (allModels ds) nm) n ≠ none := by
      unfold propertyOf
      rw [Ne, List.getLast?_eq_none_iff]
      cases hv : Dict.get? (objAt m (s% "properties")) n with
      | none => exact absurd hv hk
      | some v => exact List.ne_nil_of_mem (List.mem_filterMap.2 ⟨⟨e, m⟩, hn, by dsimp only; rw [hv]; rfl⟩)
    cases hq2 : propertyOf (namedOf env.sep (allModels ds) nm) n with
    | none => exact absurd hq2 this
    | some xv =>
      rw [hq2] at h3
      obtain ⟨_, _, _, h4, _⟩ := h3
      rw [h4]
      simp

/-- C61: a data type that names a model converts to a reference to the name under which the model of its resource is
registered; a primitive type stays a type. -/
theorem C61_reference (hp : PythonOk env) (path c : Str) (hc : c ∈ [s% "v1_2.Parameter", s% "v1_2.Operation", s% "v1_2.Property"])
    (d : Dict Json) (o : Obj) (h : Built (.cls c) (.obj d) o) (r : Dict Json) (hr : schemaOf env (path.drop 1) o = .ok r) :
    Dict.get? r (s% "type") = (primitiveOf d).map .str ∧
    Dict.get? r (s% "$ref") = (modelOf d).map (fun m => .str (s% "#/definitions/" ++ modelName env.sep path m)) := by
  have hd : dataClass c = true := (show ∀ c ∈ [s% "v1_2.Parameter", s% "v1_2.Operation", s% "v1_2.Property"], dataClass c = true by
    decide +kernel) c hc
  exact (schemaOf_ok hp.lower hp.numbers hd h hr).1.1

theorem split_at {c : Char} {a a' b b' : Str} (h : c ∉ a) (h' : c ∉ a') (e : a ++ c :: b = a' ++ c :: b') : a = a' ∧ b = b' := by
  induction a generalizing a' with
  | nil =>
    cases a' with
    | nil => simpa using e
    | cons x r => simp only [List.nil_append, List.cons_append, List.cons.injEq] at e; simp [← e.1] at h'
  | cons y a ih =>
    cases a' with
    | nil => simp only [List.nil_append, List.cons_append, List.cons.injEq] at e; simp [e.1] at h
    | cons x r =>
      simp only [List.cons_append, List.cons.injEq] at e
      obtain ⟨h1, h2⟩ := ih (by simp at h; exact h.2) (by simp at h'; exact h'.2) e.2
      exact ⟨by rw [e.1, h1], h2⟩

/-- C61: different models of different resources get different names, when the first character of the separator is not
in the paths of the resources. -/
theorem C61_distinct (c : Char) (sep : Str) (p p' id id' : Str) (hp : p.drop 1 ≠ []) (hp' : p'.drop 1 ≠ [])
    (hi : id ≠ []) (hi' : id' ≠ []) (h : c ∉ p.drop 1) (h' : c ∉ p'.drop 1)
    (e : modelName (c :: sep) p id = modelName (c :: sep) p' id') : p.drop 1 = p'.drop 1 ∧ id = id' := by
  unfold modelName at e
  rw [if_neg hp, if_neg hi, if_neg hp', if_neg hi', List.append_assoc, List.append_assoc] at e
  obtain ⟨h1, h2⟩ := split_at h h' e
  exact ⟨h1, List.append_cancel_left h2⟩

/-- C61 (deviation): a resource path may hold the separator; then two models get one name. -/
theorem C61_same_name_violation : modelName (s% "!##!") (s% "/a!##!b") (s% "c") = modelName (s% "!##!") (s% "/a") (s% "b!##!c") := by
  decide

/-- C62: every subtype of a model of a resource is a definition, with the model in its `allOf`; the resources and models
may be in any order. -/
theorem C62_subtypes (hp : PythonOk env) (hs : Source12 l ds listing rs) (doc : Dict Json) (o : Obj)
    (hr : upgrade12 env listing rs = .ok (doc, o)) (e m : Dict Json) (k t : Str) (he : e ∈ ds)
    (hm : (k, .obj m) ∈ objAt e (s% "models")) (ht : t ∈ strsAt m (s% "subTypes")) :
    ∃ s parents, definitionAt doc (modelName env.sep (resourcePath e) t) = some (.obj s) ∧
      Dict.get? s (s% "allOf") = some (.arr parents) ∧
      Json.obj [(s% "$ref", .str (modelRef env.sep (resourcePath e) (textAt m (s% "id"))))] ∈ parents := by
  obtain ⟨defs, hd, hg⟩ := definitionAt_eq (C75_document hp hs doc o hr)
  have hx := model_mem he hm
  have hn : (Model12.mk e m).ref env.sep ∈ parentsOf env.sep (allModels ds) (modelName env.sep (resourcePath e) t) :=
    List.mem_flatMap.2 ⟨_, hx, List.mem_filterMap.2 ⟨modelName env.sep (resourcePath e) t,
      List.mem_map.2 ⟨t, ht, rfl⟩, by rw [if_pos rfl]⟩⟩
  have := hd (modelName env.sep (resourcePath e) t)
  rw [hg]
  cases hq : Dict.get? defs (modelName env.sep (resourcePath e) t) with
  | none => rw [hq] at this; rw [this.2] at hn; cases hn
  | some s =>
    rw [hq] at this
    refine ⟨s, _, rfl, this.2.1.trans (if_neg (List.ne_nil_of_mem hn)), hn⟩

/-- C62: nothing else is in the `allOf` of a definition. -/
theorem C62_only_parents (hp : PythonOk env) (hs : Source12 l ds listing rs) (doc : Dict Json) (o : Obj)
    (hr : upgrade12 env listing rs = .ok (doc, o)) (n : Str) (s : Dict Json) (hn : definitionAt doc n = some (.obj s))
    (parents : List Json) (ha : Dict.get? s (s% "allOf") = some (.arr parents)) :
    ∀ j ∈ parents, ∃ e ∈ ds, ∃ k m t, (k, .obj m) ∈ objAt e (s% "models") ∧ t ∈ strsAt m (s% "subTypes") ∧
      modelName env.sep (resourcePath e) t = n ∧
      j = .obj [(s% "$ref", .str (modelRef env.sep (resourcePath e) (textAt m (s% "id"))))] := by
  obtain ⟨defs, hd, hg⟩ := definitionAt_eq (C75_document hp hs doc o hr)
  rw [hg] at hn
  cases hq : Dict.get? defs n with
  | none => rw [hq] at hn; cases hn
  | some s' =>
    rw [hq] at hn
    cases hn
    have := hd n
    rw [hq] at this
    have h1 := this.2.1
    rw [ha] at h1
    intro j hj
    split at h1
    · cases h1
    cases h1
    obtain ⟨x, hx, hx2⟩ := List.mem_flatMap.1 hj
    obtain ⟨u, hu, hu2⟩ := List.mem_filterMap.1 hx2
    obtain ⟨t, ht, rfl⟩ := List.mem_map.1 hu
    split at hu2
    · rename_i hu3
      cases hu2
      obtain ⟨e, he, hxe⟩ := List.mem_flatMap.1 hx
      obtain ⟨km, hkm, hkm2⟩ := List.mem_filterMap.1 hxe
      obtain ⟨k, jm⟩ := km
      cases jm with
      | obj m => cases hkm2; exact ⟨e, he, k, m, t, hkm, ht, hu3, rfl⟩
      | _ => cases hkm2
    · cases hu2

/-- C62: a model whose name no other model has keeps its own properties, `required`, `discriminator` and `description`,
whether it is a subtype or not. -/
theorem C62_own (hp : PythonOk env) (hs : Source12 l ds listing rs) (doc : Dict Json) (o : Obj)
    (hr : upgrade12 env listing rs = .ok (doc, o)) (x : Model12)
    (hx : namedOf env.sep (allModels ds) (x.name env.sep) = [x]) :
    ∃ s props, definitionAt doc (x.name env.sep) = some (.obj s) ∧ Dict.get? s (s% "properties") = some (.obj props) ∧
      (∀ k, match Dict.get? (objAt x.model (s% "properties")) k with
        | none => Dict.get? props k = none
        | some v => ∃ d r, v = .obj d ∧ Dict.get? props k = some (.obj r) ∧
            PropertyTo12 env.numbers env.sep (resourcePath x.decl) d r) ∧
      ∀ k ∈ [s% "required", s% "discriminator", s% "description"], Dict.get? s k = Dict.get? x.model k := by
  obtain ⟨defs, hd, hg⟩ := definitionAt_eq (C75_document hp hs doc o hr)
  have := hd (x.name env.sep)
  rw [hg]
  rw [hx] at this
  cases hq : Dict.get? defs (x.name env.sep) with
  | none => rw [hq] at this; cases this.1
  | some s =>
    rw [hq] at this
    obtain ⟨_, _, h1, h2, _⟩ := this.2
    obtain ⟨props, h3, h4⟩ := h1 (by simp)
    refine ⟨s, props, rfl, h3, fun k => ?_, fun k hk => ?_⟩
    · have h5 := h4 k
      cases hv : Dict.get? (objAt x.model (s% "properties")) k with
      | none =>
        have : propertyOf [x] k = none := by simp [propertyOf, hv]
        rw [this] at h5
        exact h5
      | some v =>
        have : propertyOf [x] k = some (x, v) := by simp [propertyOf, hv]
        rw [this] at h5
        exact h5
    · rw [h2 k hk]
      cases hv : Dict.get? x.model k <;> simp [hv]

theorem jpSplit_definition (n : Str) : (jpSplit (s% "#/definitions/" ++ n)).drop 1 =
    s% "definitions" :: (Str.splitC '/' n).map unescape := by
  have e : Str.splitC '/' (s% "#/definitions/" ++ n) = s% "#" :: s% "definitions" :: Str.splitC '/' n := by
    rw [show s% "#/definitions/" ++ n = s% "#/definitions" ++ '/' :: n by simp, Str.splitC_append]
    rfl
  have f : jpDecode = unescape := funext jpDecode_eq_unescape
  have g : ((Str.splitC '/' (s% "#/definitions/" ++ n)).map unescape).drop 1 =
      s% "definitions" :: (Str.splitC '/' n).map unescape := by
    rw [e, List.map_cons, List.map_cons]
    have : unescape (s% "definitions") = s% "definitions" := by decide
    rw [this]
    rfl
  unfold jpSplit
  rw [if_neg (by simp), f, g]

/-- C74: a reference to a model of a resource is resolved in the upgraded object to the schema made of its definition,
when the name has neither `/` nor `~`. -/
theorem C74_resolves_partial (hp : PythonOk env) (hs : Source12 l ds listing rs) (doc : Dict Json) (o : Obj)
    (hr : upgrade12 env listing rs = .ok (doc, o)) (path id : Str) (s : Dict Json)
    (hd : definitionAt doc (modelName env.sep path id) = some (.obj s))
    (h1 : '/' ∉ modelName env.sep path id) (h2 : '~' ∉ modelName env.sep path id) :
    ∃ x, Obj.resolve pkg ((jpSplit (modelRef env.sep path id)).drop 1) o = .ok x ∧
      build pkg (.cls (s% "v2_0.Schema")) (.obj s) (some (modelRef env.sep path id)) [] = .ok x := by
  have ho := C75_object hp hs doc o hr
  obtain ⟨defs, e, _⟩ := (C75_document hp hs doc o hr).definitions
  unfold modelRef
  generalize modelName env.sep path id = n at *
  have hesc : escape n = n := escape_plain h1 h2
  have hun : unescape n = n := by rw [← hesc, unescape_escape, hesc]
  have hob : objAt doc (s% "definitions") = defs.map (fun kv => (kv.1, Json.obj kv.2)) := by unfold objAt; rw [e]; rfl
  unfold definitionAt at hd
  rw [hob] at hd
  have hre : Reach pkg (.cls (s% "v2_0.Swagger")) (.obj doc) [s% "definitions", n] (.cls (s% "v2_0.Schema")) (.obj s) :=
    .child (cd := { builder := (.mapOf (.cls (s% "v2_0.Schema"))) }) (by decide +kernel) e (by simp [objectsOf]) (.item hd .here)
  obtain ⟨x, hx1, hx2⟩ := C25_resolve okTable_pkg hre rfl (by decide +kernel) _ _ ho
  refine ⟨x, ?_, ?_⟩
  · rw [jpSplit_definition, Str.splitC_of_not_mem h1, List.map_cons, List.map_nil, hun]
    exact hx1
  · have : pathTo (some (s% "#")) [s% "definitions", n] = some (s% "#/definitions/" ++ n) := by
      have hj : jpEncode n = n := by rw [jpEncode_eq_escape, hesc]
      have hc : jpCompose [n] (some (jpCompose [s% "definitions"] (some (s% "#")))) = s% "#/definitions/" ++ n := by
        have : jpCompose [s% "definitions"] (some (s% "#")) = s% "#/definitions" := by decide
        rw [this]
        simp [jpCompose, hj, Str.joinC]
      exact congrArg some hc
    rw [← this]
    exact hx2

theorem resolve_missing {doc : Dict Json} {p : Option Str} {o : Obj} {D : Dict Json} {n : Str} {ts : List Str}
    (hb : build pkg (.cls (s% "v2_0.Swagger")) (.obj doc) p [] = .ok o) (hd : Dict.get? doc (s% "definitions") = some (.obj D))
    (hn : Dict.get? D n = none) : Obj.resolve pkg (s% "definitions" :: n :: ts) o = .error .keyError := by
  have hk : Dict.get? (pkg (s% "v2_0.Swagger")).children (s% "definitions") = some { builder := (.mapOf (.cls (s% "v2_0.Schema"))) } := by
    decide +kernel
  obtain ⟨kids, oc, rfl, hkid, hbc⟩ := kid_of_cls okTable_pkg hb hk hd (by simp)
  have hget : Obj.getattr pkg (s% "v2_0.Swagger") (.obj doc) kids (s% "definitions") = .ok oc := by
    simp [Obj.getattr, Dict.has, hk, hkid]
  rw [build_map] at hbc
  split at hbc
  · simp at hbc
  · rename_i es hes
    cases hbc
    rw [buildItems_eq] at hes
    have : Dict.get? es n = none := by
      rcases Dict.get?_mapM hes n with ⟨_, h⟩ | ⟨v, _, h, _⟩
      · exact h
      · rw [hn] at h; cases h
    simp only [Obj.resolve, hget, bind, Except.bind, Dict.get!, this]

/-- C74 (deviation): a name is not escaped in references.  With a `/` in it (a resource `/pet/store`, say), the reference
is resolved only if the part before the slash is a definition too; otherwise resolving raises `KeyError`. -/
theorem C74_slash_violation (hp : PythonOk env) (hs : Source12 l ds listing rs) (doc : Dict Json) (o : Obj)
    (hr : upgrade12 env listing rs = .ok (doc, o)) (path id a b : Str) (ha : '/' ∉ a)
    (hn : modelName env.sep path id = a ++ '/' :: b) (hd : definitionAt doc (unescape a) = none) :
    Obj.resolve pkg ((jpSplit (modelRef env.sep path id)).drop 1) o = .error .keyError := by
  have ho := C75_object hp hs doc o hr
  obtain ⟨defs, e, _⟩ := (C75_document hp hs doc o hr).definitions
  have hob : objAt doc (s% "definitions") = defs.map (fun kv => (kv.1, Json.obj kv.2)) := by unfold objAt; rw [e]; rfl
  unfold modelRef
  unfold definitionAt at hd
  rw [hn, jpSplit_definition, Str.splitC_append, Str.splitC_of_not_mem ha]
  rw [hob] at hd
  exact resolve_missing ho e hd

/-! ### parameters -/

/-- C64: the bounds of a data type (a body, a property, what an operation returns) are converted to numbers. -/
theorem C64_schema_bounds (hp : PythonOk env) (path c : Str) (hc : c ∈ [s% "v1_2.Parameter", s% "v1_2.Operation", s% "v1_2.Property"])
    (d : Dict Json) (o : Obj) (h : Built (.cls c) (.obj d) o) (r : Dict Json) (hr : schemaOf env (path.drop 1) o = .ok r) :
    BoundTo env.numbers d (s% "minimum") r ∧ BoundTo env.numbers d (s% "maximum") r := by
  have hd : dataClass c = true := (show ∀ c ∈ [s% "v1_2.Parameter", s% "v1_2.Operation", s% "v1_2.Property"], dataClass c = true by
    decide +kernel) c hc
  have := (schemaOf_ok hp.lower hp.numbers hd h hr).1
  exact ⟨this.2.2.2.1, this.2.2.2.2.1⟩

/-- C64: the bounds of a parameter that is neither a body nor repeated are converted to numbers. -/
theorem C64_parameter_bounds_partial (hp : PythonOk env) (path : Str) (d : Dict Json) (o : Obj)
    (h : Built (.cls (s% "v1_2.Parameter")) (.obj d) o) (r : Dict Json) (hr : convertParameter env (path.drop 1) o = .ok r)
    (hb : look d (s% "paramType") ≠ .str (s% "body")) (hm : ¬ Repeats d) :
    BoundTo env.numbers d (s% "minimum") r ∧ BoundTo env.numbers d (s% "maximum") r := by
  have := (((convertParameter_ok hp.lower hp.numbers h hr).1.2.2 hb).2.2 hm).1
  exact ⟨this.2.2.2.1, this.2.2.2.2.1⟩

/-- C64 (deviation): the bounds of a repeated parameter are lost: neither the array nor its items have them. -/
theorem C64_repeated_violation (hp : PythonOk env) (path : Str) (d : Dict Json) (o : Obj)
    (h : Built (.cls (s% "v1_2.Parameter")) (.obj d) o) (r : Dict Json) (hr : convertParameter env (path.drop 1) o = .ok r)
    (hb : look d (s% "paramType") ≠ .str (s% "body")) (hm : Repeats d) (k : Str) (hk : k ∈ [s% "minimum", s% "maximum"]) :
    Dict.get? r k = none ∧ ∃ i, Dict.get? r (s% "items") = some (.obj i) ∧ Dict.get? i k = none := by
  obtain ⟨h1, h2⟩ := ((convertParameter_ok hp.lower hp.numbers h hr).1.2.2 hb).2.1 hm
  obtain ⟨i, hi, _, _, ho⟩ := h1.2.2.2.2
  have hk' := (show ∀ k ∈ [s% "minimum", s% "maximum"], k ∉ [s% "name", s% "required", s% "description", s% "in", s% "type",
    s% "collectionFormat", s% "uniqueItems", s% "items", s% "default"] ∧ k ∉ [s% "type", s% "format", s% "enum"] by decide) k hk
  exact ⟨only_none h2 hk'.1, i, hi, only_none ho hk'.2⟩

theorem C64_bound_raises {c : Str} {d : Dict Json} {o : Obj} (h : Built (.cls c) (.obj d) o) {k : Str}
    (h1 : looseField c (s% "type") = true) (h2 : looseField c k = true) (dst : Dict Json) (hv : (look d k).truthy = true)
    (hi : look d (s% "type") ≠ .str (s% "integer")) (hn : look d (s% "type") ≠ .str (s% "number")) :
    fromStr env o k dst = .error .schemaError := by
  unfold fromStr
  simp only [built_look h h1, built_look h h2, bind, Except.bind, if_pos hv, if_neg hi, if_neg hn]

end Pyopenapi
