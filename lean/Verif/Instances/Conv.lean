import Verif.Props.ConvParam
import Verif.Props.ConvTotal
import Verif.Props.ConvLoads
import Verif.Props.ConvSwagger
import Verif.Props.ConvReloc

/-!
# Instances: every hypothesis of C45-C53, C57, C58 and C72 is met by a concrete case
-/
namespace Pyopenapi
namespace Inst

open Spec Obj Conv

/-- C45: a style that is kept, and one that is refused. -/
example : (∀ s, (some (s% "pipeDelimited"), (none : Option Bool)).1 = some s → s ∈ stylesAt (s% "query")) :=
  (C45_allowed (s% "pipes") (s% "query") (.str (s% "array")) (some (s% "pipeDelimited"), none) (by decide)).1

example : ∃ e, toStyleExplode (.str (s% "ssv")) (.str (s% "header")) (.str (s% "array")) = .error e :=
  (C45_raises _ _ _).1.2 ⟨.inl rfl, .inl (by decide)⟩

/-- C45: a header of an array. -/
def headerDoc : Dict Json := [(s% "type", .str (s% "array")), (s% "items", .obj [(s% "type", .str (s% "string"))]),
  (s% "collectionFormat", .str (s% "csv")), (s% "description", .str (s% "tags"))]

example : ∃ o r, build pkg (.cls (s% "v2_0.Header")) (.obj headerDoc) none [] = .ok o ∧ toHeader o = .ok (.obj r) ∧ HeaderTo headerDoc r := by
  obtain ⟨o, h1, h2⟩ := C45_header headerDoc none (regularB_sound 9 _ _ (by decide +kernel)) (by decide +kernel)
  rcases h2 with ⟨⟨h | h, _⟩, _⟩ | ⟨_, r, h2, h3⟩
  · exact absurd h (by decide +kernel)
  · exact absurd h (by decide +kernel)
  · exact ⟨o, r, h1, h2, h3⟩

/-- C47: a reference and a file. -/
def refDoc : Dict Json := [(s% "$ref", .str (s% "#/definitions/A")), (s% "description", .str (s% "ignored"))]
def fileDoc : Dict Json := [(s% "type", .str (s% "file")), (s% "description", .str (s% "ignored"))]

example : ∃ o, Built (.cls (s% "v2_0.Schema")) (.obj refDoc) o ∧
    toSchema true o = .ok (.obj [(s% "$ref", .str (s% "#/definitions/A"))]) := by
  obtain ⟨o, _, h⟩ := built_exists (regularB_sound 9 (.cls (s% "v2_0.Schema")) (.obj refDoc) (by decide +kernel)) (by decide +kernel) none
  exact ⟨o, h, C47_reference true refDoc o _ h rfl rfl⟩

example : ∃ o, Built (.cls (s% "v2_0.Schema")) (.obj fileDoc) o ∧
    toSchema true o = .ok (.obj [(s% "type", .str (s% "string")), (s% "format", .str (s% "binary"))]) := by
  obtain ⟨o, _, h⟩ := built_exists (regularB_sound 9 (.cls (s% "v2_0.Schema")) (.obj fileDoc) (by decide +kernel)) (by decide +kernel) none
  exact ⟨o, h, C47_file true fileDoc o h (by unfold IsRef; decide) rfl⟩

/-- Parameters met by hand: a query parameter, a form field and a file, all sent as a multipart form. -/
theorem sampleParts_fine : ¬ (Clash [s% "multipart/form-data"] (sampleParts.filter Part.isPart) ∨
    StyleTrouble [s% "multipart/form-data"] sampleParts) := by
  rintro (⟨t, ht⟩ | ⟨f, hf, ⟨hb, _⟩, _⟩)
  · refine ht ?_
    have e : sampleParts.filter Part.isPart = sampleParts.drop 1 := rfl
    rw [e]
    have hsub : ((sampleParts.drop 1).filter (fun f => decide (t ∈ partTypes [s% "multipart/form-data"] f.file))).Sublist
      (sampleParts.drop 1) := List.filter_sublist
    exact (hsub.map Part.name).nodup (by decide)
  · simp only [sampleParts, List.mem_cons, List.not_mem_nil, or_false] at hf
    rcases hf with rfl | rfl | rfl <;> rcases hb with hb | hb <;> cases hb

/-- C49: they are converted. -/
theorem sampleParts_converted : ∃ os ps b, ParamsIn plainEnv os sampleParts ∧
    parameters plainEnv [s% "multipart/form-data"] os [] none = .ok (ps, some b) ∧
    FormBody [s% "multipart/form-data"] (sampleParts.filter Part.isPart) b ∧ (Json.obj b).wf = true := by
  obtain ⟨os, h⟩ := sampleParts_in
  rcases parameters_forms plainEnv_set (consumes := [s% "multipart/form-data"]) h sampleParts_valid [] [] none (by rfl) with ⟨h0, _⟩ | ⟨_, ps, body, h1, h2, _⟩
  · exact absurd h0 sampleParts_fine
  · cases body with
    | none => cases h2
    | some b => exact ⟨os, ps, b, h, h1, h2.1, h2.2⟩

/-- C48: one of the three stays a parameter, and there is a body. -/
example : ∃ ps body, List.Forall₂ PlainTo (sampleParts.take 1) ps ∧ (body : Option (Dict Json)).isSome = true := by
  obtain ⟨os, ps, b, h1, h2, _⟩ := sampleParts_converted
  obtain ⟨h3, h4, _⟩ := C48_partition plainEnv _ os sampleParts h1 none ps (some b) h2
  exact ⟨ps, some b, h3, rfl⟩

/-- A body parameter. -/
def bodyPart : Part := ⟨[(s% "name", .str (s% "b")), (s% "in", .str (s% "body")), (s% "required", .bool true),
  (s% "schema", .obj [(s% "type", .str (s% "object"))])], none⟩

theorem bodyPart_built : ∃ o, Built (.cls (s% "v2_0.Parameter")) (.obj bodyPart.doc) o ∧ BodyOk plainEnv o := by
  have hb : (match buildF pkg 9 (.cls (s% "v2_0.Parameter")) (.obj bodyPart.doc) none with
      | .ok o => decide ((kid o (s% "schema")).map (fun s => (fld s (s% "type")).toOption) = some (some (.str (s% "object"))))
      | _ => false) = true := by decide +kernel
  revert hb
  cases ho : buildF pkg 9 (.cls (s% "v2_0.Parameter")) (.obj bodyPart.doc) none with
  | error e => intro h; cases h
  | ok o =>
    intro hb
    have hb := of_decide_eq_true hb
    refine ⟨o, ⟨regularB_sound 9 _ _ (by decide +kernel), by decide +kernel, none, buildF_sound _ _ _ _ _ ho⟩, fun p s hp hs => ?_⟩
    cases (show Except.ok o = Except.ok p from hp)
    rw [hs] at hb
    refine ⟨s, .str (s% "object"), rfl, ?_, by decide⟩
    cases hf : fld s (s% "type") with
    | error e => rw [Option.map_some, hf] at hb; cases hb
    | ok t => rw [Option.map_some, hf] at hb; exact congrArg _ (Option.some.inj (Option.some.inj hb))

/-- C50: a body parameter after the parts of a form. -/
example : ∃ l1 o, ∀ l2, parameters plainEnv [s% "multipart/form-data"] (l1 ++ o :: l2) [] none = .error .schemaError ∧
    ¬ ∃ r, parameters plainEnv [s% "multipart/form-data"] (l1 ++ o :: l2) [] none = .ok r := by
  obtain ⟨os, ps, b, h1, h2, _⟩ := sampleParts_converted
  obtain ⟨o, h3, h4⟩ := bodyPart_built
  have hb : ∃ g ∈ sampleParts, g.isPlain = false := ⟨_, List.mem_cons_of_mem _ (List.mem_cons_self ..), by decide⟩
  exact ⟨os, o, fun l2 => ⟨C50_second_body plainEnv _ os l2 o sampleParts bodyPart h1 (.inl ⟨rfl, h3, rfl⟩) (by decide) h4 hb ps _ h2,
    C50_never plainEnv _ os l2 o sampleParts bodyPart h1 (.inl ⟨rfl, h3, rfl⟩) (by decide) h4 hb⟩⟩

/-- C49: more parts for a form that is there. -/
def morePart : Part := ⟨[(s% "name", .str (s% "age")), (s% "in", .str (s% "formData")), (s% "type", .str (s% "integer"))], none⟩

theorem morePart_valid : ∀ f ∈ [morePart], f.isPlain = true ∨ (f.isPart = true ∧ f.Valid) := by
  intro f hf
  rw [List.mem_singleton] at hf
  subst hf
  refine .inr ⟨by decide, ⟨_, rfl⟩, .inr rfl, rfl, fun l h => ?_⟩
  cases h

/-- C49: it joins the parts that are there. -/
example : ∃ os ps b, parameters plainEnv [s% "multipart/form-data"] os [] none = .ok (ps, some b) ∧
    FormBody [s% "multipart/form-data"] (sampleParts.filter Part.isPart) b ∧
    ∃ o ps' b', parameters plainEnv [s% "multipart/form-data"] [o] [] (some b) = .ok (ps', some b') ∧
      FormBody [s% "multipart/form-data"] (sampleParts.filter Part.isPart ++ [morePart]) b' := by
  obtain ⟨os, ps, b, _, h2, h3, hw⟩ := sampleParts_converted
  refine ⟨os, ps, b, h2, h3, ?_⟩
  obtain ⟨o, _, h⟩ := built_exists (regularB_sound 9 (.cls (s% "v2_0.Parameter")) (.obj morePart.doc) (by decide +kernel)) (by decide +kernel) none
  have hin : ParamsIn plainEnv [o] [morePart] := .cons (.inl ⟨rfl, h, rfl⟩) .nil
  obtain ⟨ps', b', h4, h5⟩ := (C49_more plainEnv plainEnv_set [s% "multipart/form-data"] [o] [morePart] (sampleParts.filter Part.isPart) hin
    morePart_valid b h3 hw).2 (by
      rintro (⟨t, ht⟩ | ⟨f, hf, ⟨hb, _⟩, _⟩)
      · refine ht ?_
        have e : sampleParts.filter Part.isPart ++ [morePart].filter Part.isPart = sampleParts.drop 1 ++ [morePart] := rfl
        rw [e]
        have hsub : ((sampleParts.drop 1 ++ [morePart]).filter (fun f => decide (t ∈ partTypes [s% "multipart/form-data"] f.file))).Sublist
          (sampleParts.drop 1 ++ [morePart]) := List.filter_sublist
        exact (hsub.map Part.name).nodup (by decide)
      · rw [List.mem_singleton] at hf
        subst hf
        rcases hb with hb | hb <;> cases hb)
  exact ⟨o, ps', b', h4, h5⟩

/-- C51: a body parameter alone. -/
example : ∃ o ps b, parameters plainEnv [s% "text/xml"] [o] [] none = .ok (ps, some b) ∧ BodyTo [s% "text/xml"] bodyPart.doc b := by
  obtain ⟨o, h3, h4⟩ := bodyPart_built
  have hin : ParamsIn plainEnv [o] ([] ++ bodyPart :: []) := .cons (.inl ⟨rfl, h3, rfl⟩) .nil
  obtain ⟨⟨ps, body⟩, hr⟩ := parameters_fit (consumes := [s% "text/xml"]) plainEnv_ok hin (by
    refine ⟨?_, .inr ⟨[], bodyPart, [], rfl, by decide, ?_, fun g hg => (by cases hg)⟩⟩
    · rintro ⟨f, hf, ⟨hb, _⟩, _⟩
      rw [List.nil_append, List.mem_singleton] at hf
      subst hf
      rcases hb with hb | hb <;> cases hb
    · refine ⟨fun h => absurd h (by decide), fun _ => ?_⟩
      intro s hs
      cases (show some (Json.obj [(s% "type", .str (s% "object"))]) = some s from hs)
      rintro ⟨e, he, ht⟩
      cases he
      cases ht)
  obtain ⟨b, e, hb⟩ := C51_body plainEnv [s% "text/xml"] [o] [] [] bodyPart hin (by decide) (fun g hg => (by cases hg)) (fun o' ho _ => by
    rw [List.mem_singleton] at ho; subst ho; exact h4) ps body hr
  subst e
  exact ⟨o, ps, b, hr, hb⟩

/-- C51: where the parts of a form go. -/
example : s% "multipart/form-data" ∈ (partCtx true).mimes plainEnv [s% "text/xml", s% "multipart/form-data"] ∧
    (s% "multipart/form-data" ∈ (partCtx true).mimes plainEnv [s% "text/xml"]) :=
  ⟨((C51_part_types plainEnv plainEnv_set [s% "text/xml", s% "multipart/form-data"] true (s% "multipart/form-data")).1
      ⟨s% "multipart/form-data", by decide, by decide⟩).2 ⟨by decide, by decide⟩,
   ((C51_part_types plainEnv plainEnv_set [s% "text/xml"] true (s% "multipart/form-data")).2.1 (by decide)).2 rfl⟩

/-! ### path items and documents -/

/-- A query parameter for the whole path, and a form for one of its operations. -/
def plainItem : Dict Json := [
  (s% "parameters", .arr [.obj [(s% "name", .str (s% "limit")), (s% "in", .str (s% "query")), (s% "type", .str (s% "integer"))]]),
  (s% "get", .obj [(s% "responses", .obj [(s% "200", .obj [(s% "description", .str (s% "ok"))])])]),
  (s% "post", .obj [(s% "parameters", .arr [.obj (samplePart (s% "b")).doc]),
    (s% "responses", .obj [(s% "200", .obj [(s% "description", .str (s% "ok"))])])])]

theorem plainItem_ops : opsOf plainItem = [(s% "get", objAt plainItem (s% "get")), (s% "post", objAt plainItem (s% "post"))] := by
  decide +kernel

theorem plainItem_built : ∃ o, Built (.cls (s% "v2_0.PathItem")) (.obj plainItem) o := by
  obtain ⟨o, _, h⟩ := built_exists (regularB_sound 9 (.cls (s% "v2_0.PathItem")) (.obj plainItem) (by decide +kernel))
    (by decide +kernel) none
  exact ⟨o, h⟩

theorem plainItem_resolves : PathResolves noRefs plainItem := by
  refine ⟨fun j hj => ?_, fun p hp => ?_⟩
  · have : j = .obj [(s% "name", .str (s% "limit")), (s% "in", .str (s% "query")), (s% "type", .str (s% "integer"))] := by
      simpa using (show j ∈ [_] from hj)
    subst this
    exact resolves_plain (by decide)
  · rw [plainItem_ops] at hp
    simp only [List.mem_cons, List.not_mem_nil, or_false] at hp
    have hr : ∀ kv ∈ [(s% "200", Json.obj [(s% "description", .str (s% "ok"))])], Resolves noRefs.resp kv.2 := by
      intro kv hkv
      rw [List.mem_singleton] at hkv
      subst hkv
      exact resolves_plain (by decide)
    rcases hp with rfl | rfl
    · exact ⟨fun j hj => (by cases hj), hr⟩
    · refine ⟨fun j hj => ?_, hr⟩
      have : j = .obj (samplePart (s% "b")).doc := by simpa using (show j ∈ [_] from hj)
      subst this
      exact resolves_plain (by decide)

theorem plainItem_params : paramsOf noRefs plainItem =
      [⟨[(s% "name", .str (s% "limit")), (s% "in", .str (s% "query")), (s% "type", .str (s% "integer"))], none⟩] ∧
    paramsOf noRefs (objAt plainItem (s% "get")) = [] ∧ paramsOf noRefs (objAt plainItem (s% "post")) = [samplePart (s% "b")] :=
  ⟨rfl, rfl, rfl⟩

theorem plainItem_plain : ∀ f ∈ paramsOf noRefs plainItem, f.isPlain = true := by
  rw [plainItem_params.1]
  intro f hf
  rw [List.mem_singleton] at hf
  subst hf
  decide

theorem plainItem_converts (o : Obj) (ho : Built (.cls (s% "v2_0.PathItem")) (.obj plainItem) o) (root : Str) :
    ∃ r, toPathItem plainEnv o root [] [] = .ok r := by
  obtain ⟨p0, p1, p2⟩ := plainItem_params
  refine toPathItem_fits (d := []) plainEnv_ok (fun p hp => ?_) ho plainItem_resolves ⟨fun p hp => ?_, .inl ⟨plainItem_plain, ?_, fun p hp => ?_⟩⟩
  · rw [plainItem_ops] at hp
    simp only [List.mem_cons, List.not_mem_nil, or_false] at hp
    rcases hp with rfl | rfl <;> exact .inl rfl
  · have hh : ∀ kv ∈ [(s% "200", Json.obj [(s% "description", .str (s% "ok"))])], HeadersOk (behind noRefs.resp kv.2) := by
      intro kv hkv k d hd
      rw [List.mem_singleton] at hkv
      subst hkv
      cases hd
    rw [plainItem_ops] at hp
    simp only [List.mem_cons, List.not_mem_nil, or_false] at hp
    rcases hp with rfl | rfl <;> exact ⟨hh, .inl rfl⟩
  · rw [p0]
    rintro ⟨f, hf, ⟨hb, _⟩, _⟩
    rw [List.mem_singleton] at hf
    subst hf
    rcases hb with hb | hb <;> cases hb
  · rw [plainItem_ops] at hp
    simp only [List.mem_cons, List.not_mem_nil, or_false] at hp
    rcases hp with rfl | rfl
    · rw [p1]
      exact ⟨samplePart_noTrouble _ _ (fun f hf => (by cases hf)), .inl ⟨fun f hf => (by cases hf), fun ⟨t, ht⟩ => ht List.Pairwise.nil⟩⟩
    · rw [p2]
      refine ⟨samplePart_noTrouble _ _ (fun f hf => ⟨_, List.mem_singleton.1 hf⟩), .inl ⟨fun f hf => ?_, fun ⟨t, ht⟩ => ht ?_⟩⟩
      · rw [List.mem_singleton] at hf
        subst hf
        exact .inr (samplePart_valid _)
      · have hsub : (([samplePart (s% "b")].filter Part.isPart).filter (fun f => decide (t ∈ partTypes (ownOr (objAt plainItem (s% "post"))
          (s% "consumes") (strsAt [] (s% "consumes"))) f.file))).Sublist [samplePart (s% "b")] :=
          List.filter_sublist.trans List.filter_sublist
        exact (hsub.map Part.name).nodup (by decide)

/-- C52 of it: the `post` has its own body, the `get` has none, whatever else the path item says. -/
example : ∃ o r rl x y, Built (.cls (s% "v2_0.PathItem")) (.obj plainItem) o ∧ toPathItem plainEnv o (s% "/") [] [] = .ok (r, rl) ∧
    Dict.get? r (s% "get") = some (.obj x) ∧ RequestOf [] [] (Dict.get? x (s% "requestBody")) ∧
    Dict.get? r (s% "post") = some (.obj y) ∧ RequestOf [] [samplePart (s% "b")] (Dict.get? y (s% "requestBody")) ∧
    Dict.get? r (s% "get") = Dict.get? r (s% "get") := by
  obtain ⟨o, ho⟩ := plainItem_built
  obtain ⟨⟨r, rl⟩, hr⟩ := plainItem_converts o ho (s% "/")
  obtain ⟨p0, p1, p2⟩ := plainItem_params
  obtain ⟨x, hx1, hx2⟩ := C52_own_body_partial plainEnv_ok plainItem o ho plainItem_resolves (s% "/") [] [] r rl hr plainItem_plain
    (s% "get") (objAt plainItem (s% "get")) (by rw [plainItem_ops]; exact List.mem_cons_self ..) (by rw [p1]; intro f hf; cases hf)
  obtain ⟨y, hy1, hy2⟩ := C52_own_body_partial plainEnv_ok plainItem o ho plainItem_resolves (s% "/") [] [] r rl hr plainItem_plain
    (s% "post") (objAt plainItem (s% "post")) (by rw [plainItem_ops]; exact List.mem_cons_of_mem _ (List.mem_cons_self ..)) (by
      rw [p2]
      intro f hf
      rw [List.mem_singleton] at hf
      subst hf
      exact ⟨fun _ => (samplePart_valid _).2, fun h => absurd h (by decide)⟩)
  refine ⟨o, r, rl, x, y, ho, hr, hx1, hx2, hy1, hy2, ?_⟩
  obtain ⟨op, hop⟩ : ∃ op, kid o (s% "get") = some op := by
    rcases built_kid_cls ho (k := s% "get") (c' := s% "v2_0.Operation") (by decide +kernel) with ⟨k1, _, _⟩ | ⟨_, op, _, _, k2, _⟩
    · cases k1
    · exact ⟨op, k2⟩
  exact C52_independent_partial plainEnv_ok plainItem plainItem o o ho ho plainItem_resolves plainItem_resolves (s% "/") [] [] r r rl rl hr hr
    plainItem_plain plainItem_plain (s% "get") (by decide) op hop hop

/-- C53 of `wholeDoc`. -/
example : ∃ o r rl q, toOpenapi plainEnv o = .ok (r, rl) ∧ Dict.get? (objAt r (s% "paths")) (s% "/p") = some (.obj q) ∧
    PathItemTo noRefs [] sampleItem q := by
  obtain ⟨o, ho⟩ := wholeDoc_built
  obtain ⟨r, rl, hr⟩ := wholeDoc_converts o ho
  obtain ⟨q, h1, h2⟩ := (C53_paths plainEnv_ok wholeDoc o ho wholeDoc_resolves wholeDoc_valid r rl hr).2 (s% "/p") sampleItem rfl
  exact ⟨o, r, rl, q, hr, h1, h2⟩

/-- C53: an extension among the paths. -/
def extended : Dict Json := Dict.set wholeDoc (s% "paths") (.obj [(s% "x-note", .obj []), (s% "/p", .obj sampleItem)])

example : ∃ o e, Built (.cls (s% "v2_0.Swagger")) (.obj extended) o ∧ toOpenapi plainEnv o = .error e := by
  obtain ⟨o, _, h⟩ := built_exists (regularB_sound 9 (.cls (s% "v2_0.Swagger")) (.obj extended) (by decide +kernel)) (by decide +kernel) none
  obtain ⟨e, he⟩ := C53_extension (env := plainEnv) extended o h (s% "x-note") (by decide +kernel) (by decide +kernel)
  exact ⟨o, e, h, he⟩

/-- C57: a response that is no file. -/
def textResponse : Dict Json := [(s% "description", .str (s% "ok")), (s% "schema", .obj [(s% "type", .str (s% "string"))])]

example : ∃ o r, Built (.cls (s% "v2_0.Response")) (.obj textResponse) o ∧ toResponse plainEnv o [s% "text/csv"] = .ok r ∧
    ResponseTo (fun _ => False) [s% "text/csv"] ⟨textResponse, none⟩ r := by
  obtain ⟨o, _, h⟩ := built_exists (regularB_sound 9 (.cls (s% "v2_0.Response")) (.obj textResponse) (by decide +kernel)) (by decide +kernel) none
  have hin : RespIn plainEnv o ⟨textResponse, none⟩ := .inl ⟨rfl, h, rfl⟩
  rcases C57_response plainEnv o ⟨textResponse, none⟩ [s% "text/csv"] hin with ⟨r, hr, _⟩ | ⟨_, k, d, hk, hb, _⟩
  · exact ⟨o, r, h, hr, C57_no_file_partial plainEnv o _ _ hin (fun s hs => by
      cases (show some (Json.obj [(s% "type", .str (s% "string"))]) = some s from hs)
      rintro ⟨e, he, ht⟩
      cases he
      cases ht) r hr⟩
  · cases hk

/-- C58: no requirement is the same as no word about them. -/
example : (∃ o, build pkg (.cls (s% "v2_0.Swagger")) (.obj (wholeDoc ++ [(s% "security", .arr [])])) none [] = .ok o) ↔
    ∃ o, build pkg (.cls (s% "v2_0.Swagger")) (.obj wholeDoc) none [] = .ok o :=
  C58_empty_partial _ _ (by decide +kernel) (by decide +kernel) (fun k hk => by
    rw [Dict.get?_append, Dict.get?_cons, if_neg (Ne.symm hk), Dict.get?_nil, Option.or_none]) none

/-- C72: an OAuth 2 scheme without a flow. -/
example : ∃ o, Built (.cls (s% "v2_0.SecurityScheme")) (.obj [(s% "type", .str (s% "oauth2"))]) o ∧ toSecurityScheme o = .error .schemaError := by
  obtain ⟨o, _, h⟩ := built_exists (regularB_sound 9 (.cls (s% "v2_0.SecurityScheme")) (.obj [(s% "type", .str (s% "oauth2"))])
    (by decide +kernel)) (by decide +kernel) none
  exact ⟨o, h, C72_no_flow _ o h rfl rfl⟩

end Inst
end Pyopenapi
