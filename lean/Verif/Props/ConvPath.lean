import Verif.Lemmas.ConvPath

/-!
# C52, C53, C57: responses, operations and path items
-/

namespace Pyopenapi
open Spec Obj Conv

/-- C57: a response is converted, unless a header has a `collectionFormat` that cannot be said; then `SchemaError` is
raised.  (`ResponseTo`: a reference to a response without schema stays; otherwise the schema is put under every media
type, and every header is converted.) -/
theorem C57_response (env : Env) (o : Obj) (f : Part) (produces : List Str) (h : RespIn env o f) :
    (∃ r, toResponse env o produces = .ok r ∧ ResponseTo BareFile produces f r) ∨
    (toResponse env o produces = .error .schemaError ∧
      ∃ k d, Dict.get? (objAt f.doc (s% "headers")) k = some (.obj d) ∧
        BadStyle d (.str (s% "header")) (look d (s% "type"))) := by
  rcases toResponse_built h produces with ⟨r, h1, h2, _⟩ | h
  · exact .inl ⟨r, h1, h2⟩
  · exact .inr h

/-- C57, the part that holds: a response that is no file, as the claim has it. -/
theorem C57_no_file_partial (env : Env) (o : Obj) (f : Part) (produces : List Str) (h : RespIn env o f)
    (hf : ∀ s, given f.doc (s% "schema") = some s → ¬ IsFile s) (r : Json) (hr : toResponse env o produces = .ok r) :
    ResponseTo (fun _ => False) produces f r := by
  rcases toResponse_built h produces with ⟨r', h1, h2, _⟩ | ⟨h1, _⟩
  · rw [hr] at h1
    cases h1
    obtain ⟨e, he, a1, a2⟩ := h2
    refine ⟨e, he, a1, fun hor => ?_⟩
    obtain ⟨b1, b2, b3, b4, b5⟩ := a2 hor
    refine ⟨b1, b2, fun s hs => ?_, b4, b5⟩
    obtain ⟨content, c1, c2, c3⟩ := b3 s hs
    exact ⟨content, c1, c2, fun hfile => hf s hs hfile⟩
  · rw [hr] at h1; cases h1

/-- C57 is false for a file: whatever `produces` is, the content is one media type `application/octet-stream`, and it
has no schema at all. -/
theorem C57_file_violation (env : Env) (o : Obj) (f : Part) (produces : List Str) (h : RespIn env o f) (s : Json)
    (hs : given f.doc (s% "schema") = some s) (hf : IsFile s) (r : Json) (hr : toResponse env o produces = .ok r) :
    ∃ e content m, r = .obj e ∧ Dict.get? e (s% "content") = some (.obj content) ∧
      (∀ t, t ≠ s% "application/octet-stream" → Dict.get? content t = none) ∧
      Dict.get? content (s% "application/octet-stream") = some (.obj m) ∧ Dict.get? m (s% "schema") = none := by
  rcases toResponse_built h produces with ⟨r', h1, h2, _⟩ | ⟨h1, _⟩
  · rw [hr] at h1
    cases h1
    obtain ⟨e, he, _, a2⟩ := h2
    obtain ⟨_, _, b3, _⟩ := a2 (.inr (by rw [hs]; simp))
    obtain ⟨content, c1, _, c3⟩ := b3 s hs
    have c3 := c3 hf
    unfold BareFile at c3
    subst c3
    refine ⟨e, _, [(s% "type", .str (s% "string")), (s% "format", .str (s% "binary"))], he, c1, fun t ht => ?_, rfl, by decide +kernel⟩
    rw [Dict.get?_cons, if_neg (Ne.symm ht)]; rfl
  · rw [hr] at h1; cases h1

/-- C53: a converted path item has the same operations, each converted. -/
theorem C53_path_item {refs : Refs} {env : Env} (he : EnvOk refs env) (d : Dict Json) (o : Obj)
    (h : Built (.cls (s% "v2_0.PathItem")) (.obj d) o) (hres : PathResolves refs d) (root : Str)
    (consumes produces : List Str) (r : Dict Json) (rl : Routes)
    (hr : toPathItem env o root consumes produces = .ok (r, rl)) : PathItemTo refs produces d r := by
  obtain ⟨ref, ps, body, ops, body', href, hp, hops, hget⟩ := toPathItem_parts hr
  have hk : plainFields (s% "v2_0.PathItem") [s% "$ref"] = true := by decide +kernel
  rw [built_fld h (plainFields_cls hk), plainFields_val hk (by simp)] at href
  cases href
  have hin := paramsIn_of he h (by decide +kernel) hres.1
  have hops' : List.Forall₂ (fun m q => q.1 = m ∧ (∀ e op, given d m = some (.obj e) → kidT o m = some op → (m, e) ∈ opsOf d →
      Built (.cls (s% "v2_0.Operation")) (.obj e) op → OperationTo refs produces e q.2))
      (methods.filter (fun m => (kidT o m).isSome)) ops := by
    cases body with
    | none =>
      obtain ⟨_, qs, h1, h2⟩ := pathOps_none _ _ _ _ hops
      rw [List.nil_append] at h1
      subst h1
      refine forall₂_weaken h2 (fun m _ q hq => ?_)
      obtain ⟨h1, op, ret, b, h2, h3, h4⟩ := hq
      refine ⟨h1, fun e op' _ hk hmem hb => ?_⟩
      rw [h2] at hk
      cases hk
      rw [h4]
      exact operationTo_congr (toOperation_built he hb (hres.2 _ hmem) h3).1 (putBody_get b ret).1
    | some b0 =>
      obtain ⟨_, qs, h1, h2⟩ := pathOps_some _ _ _ _ _ (fun _ _ _ _ _ _ ht => toOperation_some ht) hops
      rw [List.nil_append] at h1
      subst h1
      refine forall₂_weaken h2 (fun m _ q hq => ?_)
      obtain ⟨h1, op, b, b', h2, h3⟩ := hq
      refine ⟨h1, fun e op' _ hk hmem hb => ?_⟩
      rw [h2] at hk
      cases hk
      exact (toOperation_built he hb (hres.2 _ hmem) h3).1
  obtain ⟨hnd, hno, hyes⟩ := ops_lookup (P := fun m q =>
    ∀ e op, given d m = some (.obj e) → kidT o m = some op → (m, e) ∈ opsOf d →
      Built (.cls (s% "v2_0.Operation")) (.obj e) op → OperationTo refs produces e q) hops'
  have hget := hget hnd
  have hbase : Dict.get? (if (look d (s% "$ref")).truthy = true then [(s% "$ref", env.normRef o)] else [])
      (s% "parameters") = none := by
    split
    · rw [Dict.get?_cons, if_neg (by decide)]; rfl
    · rfl
  obtain ⟨q1, q2⟩ := putParams_built (refs := refs) (d := d) hin hp hbase
  have hmap : ∀ k, Dict.get? (ops.map (fun p => (p.1, Json.obj (putBody body' p.2)))) k =
      (Dict.get? ops k).map (fun q => Json.obj (putBody body' q)) := fun k => get?_map_val (fun q => Json.obj (putBody body' q)) ops k
  refine ⟨fun m hm => ?_, ?_, ?_, fun k hk' => ?_⟩
  · have hx : m ≠ s% "x-pyopenapi_internal_request_body" ∧ m ≠ s% "parameters" ∧ m ≠ s% "$ref" := by
      revert hm; revert m; decide
    rcases kid_method h hm with ⟨h1, h2, _⟩ | ⟨e, x, h1, h2, _, h3, h4⟩
    · refine ⟨fun _ => ?_, fun v hv => by rw [h1] at hv; cases hv⟩
      rw [hget m hx.1, hmap, hno m (.inr h2), q2 m hx.2.1]
      simp only [Option.map_none, Option.none_or]
      split
      · rw [Dict.get?_cons, if_neg (Ne.symm hx.2.2)]; rfl
      · rfl
    · refine ⟨fun hn => (by rw [h1] at hn; cases hn), fun v hv => ?_⟩
      rw [h1] at hv
      cases hv
      obtain ⟨q, hq1, hq2⟩ := hyes m hm x h2
      refine ⟨e, _, rfl, ?_, putBody body' q, rfl, operationTo_congr (hq2 e x h1 h2 h3 h4) (putBody_get body' q).1⟩
      rw [hget m hx.1, hmap, hq1]; rfl
  · unfold ParamsTo at q1 ⊢
    rw [hget _ (by decide), hmap, hno _ (.inl (by decide))]
    exact q1
  · rw [hget _ (by decide), hmap, hno _ (.inl (by decide)), q2 _ (by decide)]
    simp only [Option.map_none, Option.none_or]
    split
    · rename_i ht
      exact ⟨fun _ => (by rw [Dict.get?_cons, if_pos rfl]; simp), fun _ => ht⟩
    · rename_i ht
      exact ⟨fun ht' => absurd ht' ht, fun hn => absurd rfl hn⟩
  · refine Decidable.byContradiction (fun hn => hk' ?_)
    simp only [List.mem_append, List.mem_cons, List.not_mem_nil, or_false, not_or] at hn
    obtain ⟨n1, n2, n3, n4⟩ := hn
    rw [hget k n4, hmap, hno k (.inl n1), q2 k n3]
    simp only [Option.map_none, Option.none_or]
    split
    · rw [Dict.get?_cons, if_neg (Ne.symm n2)]; rfl
    · rfl

/-- C53: two operations of one path item are not mixed up: what is said in `PathItemTo` of `summary`, for example. -/
theorem C53_summary {refs : Refs} {produces : List Str} {d r e : Dict Json} {m : Str} (h : PathItemTo refs produces d r)
    (hm : m ∈ methods2) (he : Dict.get? d m = some (.obj e)) :
    ∃ x, Dict.get? r m = some (.obj x) ∧ ∀ k ∈ [s% "summary", s% "description", s% "operationId", s% "deprecated"],
      Dict.get? x k = given e k := by
  obtain ⟨e', y, h1, h2, x, rfl, h3⟩ := (h.1 m hm).2 _ (given_some.2 ⟨he, by simp⟩)
  cases h1
  exact ⟨x, h2, h3.1⟩

/-! ### C52: the operations of one path -/

theorem bodyOk_of {refs : Refs} {env : Env} (he : EnvOk refs env) {o : Obj} {f : Part} (h : ParamIn env o f.ref f.doc)
    (hf : ∀ s, given f.doc (s% "schema") = some s → ¬ IsFile s) : BodyOk env o := by
  intro p s hp hs
  obtain ⟨p', hp', hb, _⟩ := param_resolved h
  rw [hp] at hp'
  cases hp'
  rcases built_kid_cls hb (k := s% "schema") (c' := s% "v2_0.Schema") (by decide +kernel) with
    ⟨_, _, h3⟩ | ⟨e, x, h1, _, h3, h4⟩
  · rw [hs] at h3; cases h3
  · rw [hs] at h3; cases h3
    exact he.schema _ _ h4 (hf _ h1)

/-- The request body the parameters of a list make. -/
theorem requestOf_parameters {refs : Refs} {env : Env} (he : EnvOk refs env) {consumes : List Str} {os : List Obj}
    {fs : List Part} (h : ParamsIn env os fs) (hv : ∀ f ∈ fs, ValidParam f) {ps : List Json}
    {body : Option (Dict Json)} (hr : parameters env consumes os [] none = .ok (ps, body)) :
    RequestOf consumes fs (body.map Json.obj) := by
  refine ⟨fun hall => ?_, fun hall hex => ?_, fun l1 f l2 hfs hf hplain => ?_⟩
  · rw [(C48_partition env consumes os fs h none ps body hr).2.2 hall]; rfl
  · obtain ⟨h1, h2⟩ := C49_forms env he.set consumes os fs h
      (fun f hf => (hall f hf).elim .inl (fun hp => .inr ⟨hp, (hv f hf).1 hp⟩))
    by_cases hbad : Clash consumes (fs.filter Part.isPart) ∨ StyleTrouble consumes fs
    · rw [h1 hbad] at hr; cases hr
    · obtain ⟨ps', body', e1, _, e2⟩ := h2 hbad
      rw [hr] at e1
      cases e1
      cases body with
      | none =>
        obtain ⟨f, hf, hp⟩ := hex
        have : f ∈ fs.filter Part.isPart := List.mem_filter.2 ⟨hf, hp⟩
        rw [show fs.filter Part.isPart = [] from e2] at this; cases this
      | some b => exact ⟨b, rfl, e2⟩
  · subst hfs
    obtain ⟨b, rfl, hb⟩ := C51_body env consumes os l1 l2 f h hf hplain
      (fun o _ ho => bodyOk_of he ho ((hv f (by simp)).2 hf)) ps body hr
    exact ⟨b, rfl, hb⟩

/-- C52, the part that holds: where no parameter of the path itself goes into a body, the request body of every
operation is that of its own parameters. -/
theorem C52_own_body_partial {refs : Refs} {env : Env} (he : EnvOk refs env) (d : Dict Json) (o : Obj)
    (h : Built (.cls (s% "v2_0.PathItem")) (.obj d) o) (hres : PathResolves refs d) (root : Str)
    (consumes produces : List Str) (r : Dict Json) (rl : Routes)
    (hr : toPathItem env o root consumes produces = .ok (r, rl))
    (hplain : ∀ f ∈ paramsOf refs d, f.isPlain = true)
    (m : Str) (e : Dict Json) (hm : (m, e) ∈ opsOf d) (hv : ∀ f ∈ paramsOf refs e, ValidParam f) :
    ∃ x, Dict.get? r m = some (.obj x) ∧
      RequestOf (ownOr e (s% "consumes") consumes) (paramsOf refs e) (Dict.get? x (s% "requestBody")) := by
  obtain ⟨ref, ps, body, ops, body', href, hp, hops, hget⟩ := toPathItem_parts hr
  have hin := paramsIn_of he h (by decide +kernel) hres.1
  have hb := (C48_partition env consumes _ _ hin none ps body hp).2.2 hplain
  subst hb
  obtain ⟨hb', qs, h1, h2⟩ := pathOps_none _ _ _ _ hops
  rw [List.nil_append] at h1
  subst h1 hb'
  obtain ⟨hnd, _, hyes⟩ := ops_lookup (P := fun m q => ∃ op ret b, kidT o m = some op ∧
    toOperation env op none root produces consumes = .ok (ret, b) ∧ q = putBody b ret) h2
  obtain ⟨m', hm1, hm2⟩ := List.mem_filterMap.1 hm
  have hmm : m' = m ∧ given d m = some (.obj e) := by
    cases hg : Dict.get? d m' with
    | none => rw [hg] at hm2; cases hm2
    | some v => cases v <;> rw [hg] at hm2 <;> cases hm2; exact ⟨rfl, given_some.2 ⟨hg, by simp⟩⟩
  obtain ⟨rfl, hgm⟩ := hmm
  have hx : m' ≠ s% "x-pyopenapi_internal_request_body" := (method_ne hm1).1
  rcases kid_method h hm1 with ⟨h1, _⟩ | ⟨e', op, h1, h2', _, h3, h4⟩
  · rw [hgm] at h1; cases h1
  · rw [hgm] at h1
    cases h1
    obtain ⟨q, hq1, op', ret, b, hk, ht, rfl⟩ := hyes m' hm1 op h2'
    rw [h2'] at hk
    cases hk
    obtain ⟨_, hno, ⟨ps', hps⟩, _⟩ := toOperation_built he h4 (hres.2 _ hm) ht
    refine ⟨putBody b ret, ?_, ?_⟩
    · rw [hget hnd m' hx, get?_map_val (fun q => Json.obj (putBody none q)) ops m', hq1]; rfl
    · rw [(putBody_get b ret).2 hno]
      exact requestOf_parameters he (paramsIn_of he h4 (by decide +kernel) (hres.2 _ hm).1) hv hps

/-- C52: there, an operation is converted alike whatever the other operations of the path are. -/
theorem C52_independent_partial {refs : Refs} {env : Env} (he : EnvOk refs env) (d d' : Dict Json) (o o' : Obj)
    (h : Built (.cls (s% "v2_0.PathItem")) (.obj d) o) (h' : Built (.cls (s% "v2_0.PathItem")) (.obj d') o')
    (hres : PathResolves refs d) (hres' : PathResolves refs d') (root : Str) (consumes produces : List Str)
    (r r' : Dict Json) (rl rl' : Routes)
    (hr : toPathItem env o root consumes produces = .ok (r, rl))
    (hr' : toPathItem env o' root consumes produces = .ok (r', rl'))
    (hplain : ∀ f ∈ paramsOf refs d, f.isPlain = true) (hplain' : ∀ f ∈ paramsOf refs d', f.isPlain = true)
    (m : Str) (hm : m ∈ methods2) (op : Obj) (hk : kid o m = some op) (hk' : kid o' m = some op) :
    Dict.get? r m = Dict.get? r' m := by
  have key : ∀ (d : Dict Json) (o : Obj) (r : Dict Json) (rl : Routes), Built (.cls (s% "v2_0.PathItem")) (.obj d) o →
      PathResolves refs d → toPathItem env o root consumes produces = .ok (r, rl) →
      (∀ f ∈ paramsOf refs d, f.isPlain = true) → kid o m = some op →
      ∃ ret b, toOperation env op none root produces consumes = .ok (ret, b) ∧
        Dict.get? r m = some (.obj (putBody b ret)) := by
    intro d o r rl h hres hr hplain hk
    obtain ⟨ref, ps, body, ops, body', href, hp, hops, hget⟩ := toPathItem_parts hr
    have hin := paramsIn_of he h (by decide +kernel) hres.1
    have hb := (C48_partition env consumes _ _ hin none ps body hp).2.2 hplain
    subst hb
    obtain ⟨hb', qs, h1, h2⟩ := pathOps_none _ _ _ _ hops
    rw [List.nil_append] at h1
    subst h1 hb'
    obtain ⟨hnd, _, hyes⟩ := ops_lookup (P := fun m q => ∃ op ret b, kidT o m = some op ∧
      toOperation env op none root produces consumes = .ok (ret, b) ∧ q = putBody b ret) h2
    have hx : m ≠ s% "x-pyopenapi_internal_request_body" := (method_ne hm).1
    rcases kid_method h hm with ⟨_, _, h3⟩ | ⟨e, x, _, h3, h4, _, _⟩
    · rw [hk] at h3; cases h3
    · rw [hk] at h4
      cases h4
      obtain ⟨q, hq1, op', ret, b, hk, ht, rfl⟩ := hyes m hm op h3
      rw [h3] at hk
      cases hk
      exact ⟨ret, b, ht, by rw [hget hnd m hx, get?_map_val (fun q => Json.obj (putBody none q)) ops m, hq1]; rfl⟩
  obtain ⟨ret, b, h1, h2⟩ := key d o r rl h hres hr hplain hk
  obtain ⟨ret', b', h3, h4⟩ := key d' o' r' rl' h' hres' hr' hplain' hk'
  rw [h1] at h3
  cases h3
  rw [h2, h4]

/-- All parts of forms in a path item: those of the path, then those of the operations. -/
def allParts (refs : Refs) (d : Dict Json) : List Part := partsOf refs d ++ (opsOf d).flatMap (fun p => partsOf refs p.2)

/-- C52 is false when a parameter of the path itself is a part of a form: every operation gets the form of all
parameters of all operations. -/
theorem C52_shared_violation {refs : Refs} {env : Env} (he : EnvOk refs env) (d : Dict Json) (o : Obj)
    (h : Built (.cls (s% "v2_0.PathItem")) (.obj d) o) (hres : PathResolves refs d) (root : Str)
    (consumes produces : List Str) (r : Dict Json) (rl : Routes)
    (hr : toPathItem env o root consumes produces = .ok (r, rl))
    (hcons : ∀ p ∈ opsOf d, strsAt p.2 (s% "consumes") = [])
    (hforms : FormsOnly refs d) (hforms' : ∀ p ∈ opsOf d, FormsOnly refs p.2) (hpart : partsOf refs d ≠ [])
    (m : Str) (e : Dict Json) (hm : (m, e) ∈ opsOf d) :
    ∃ x b, Dict.get? r m = some (.obj x) ∧ Dict.get? x (s% "requestBody") = some (.obj b) ∧
      FormBody consumes (allParts refs d) b := by
  obtain ⟨ref, ps, body, ops, body', href, hp, hops, hget⟩ := toPathItem_parts hr
  have hin := paramsIn_of he h (by decide +kernel) hres.1
  rcases parameters_forms he.set hin hforms [] [] none rfl with ⟨_, h1⟩ | ⟨_, ps', b0, h1, h2, _⟩
  · rw [hp] at h1; cases h1
  rw [hp] at h1
  cases h1
  rw [List.nil_append] at h2
  cases body with
  | none => exact absurd h2 hpart
  | some b0 =>
    obtain ⟨h3, h4⟩ := (pathOps_forms he h hres hcons hforms' methods (fun m hm => hm) _ b0 [] h2).1 _ _ hops
    obtain ⟨b, rfl⟩ := Option.ne_none_iff_exists'.1 h4
    obtain ⟨_, qs, h5, h6⟩ := pathOps_some _ _ _ _ _ (fun _ _ _ _ _ _ ht => toOperation_some ht) hops
    rw [List.nil_append] at h5
    subst h5
    obtain ⟨hnd, _, hyes⟩ := ops_lookup (P := fun m q => ∃ op b b', kidT o m = some op ∧
      toOperation env op (some b) root produces consumes = .ok (q, b')) h6
    obtain ⟨m', hm1, hm2⟩ := List.mem_filterMap.1 hm
    have hmm : m' = m ∧ given d m = some (.obj e) := by
      cases hg : Dict.get? d m' with
      | none => rw [hg] at hm2; cases hm2
      | some v => cases v <;> rw [hg] at hm2 <;> cases hm2; exact ⟨rfl, given_some.2 ⟨hg, by simp⟩⟩
    obtain ⟨rfl, hgm⟩ := hmm
    rcases kid_method h hm1 with ⟨h1, _⟩ | ⟨e', op, h1, h2', _, _, hbo⟩
    · rw [hgm] at h1; cases h1
    · obtain ⟨q, hq1, op', b1, b1', hk, ht⟩ := hyes m' hm1 op h2'
      rw [h2'] at hk
      cases hk
      rw [hgm] at h1
      cases h1
      have hno := (toOperation_built he hbo (hres.2 _ hm) ht).2.1
      refine ⟨putBody (some b) q, b, ?_, ?_, h3.1⟩
      · rw [hget hnd m' (method_ne hm1).1, get?_map_val (fun q => Json.obj (putBody (some b) q)) ops m', hq1]; rfl
      · rw [(putBody_get (some b) q).2 hno]; rfl

/-- C52: so a path with two parts of one name, in different operations, is not converted at all. -/
theorem C52_clash_violation {refs : Refs} {env : Env} (he : EnvOk refs env) (d : Dict Json) (o : Obj)
    (h : Built (.cls (s% "v2_0.PathItem")) (.obj d) o) (hres : PathResolves refs d) (root : Str)
    (consumes produces : List Str) (hcons : ∀ p ∈ opsOf d, strsAt p.2 (s% "consumes") = [])
    (hforms : FormsOnly refs d) (hforms' : ∀ p ∈ opsOf d, FormsOnly refs p.2) (hpart : partsOf refs d ≠ [])
    (hclash : Clash consumes (allParts refs d)) : ¬ ∃ r, toPathItem env o root consumes produces = .ok r := by
  rintro ⟨⟨r, rl⟩, hr⟩
  obtain ⟨ref, ps, body, ops, body', href, hp, hops, hget⟩ := toPathItem_parts hr
  have hin := paramsIn_of he h (by decide +kernel) hres.1
  rcases parameters_forms he.set hin hforms [] [] none rfl with ⟨_, h1⟩ | ⟨_, ps', b0, h1, h2, _⟩
  · rw [hp] at h1; cases h1
  rw [hp] at h1
  cases h1
  rw [List.nil_append] at h2
  cases body with
  | none => exact absurd h2 hpart
  | some b0 =>
    obtain ⟨h3, _⟩ := (pathOps_forms he h hres hcons hforms' methods (fun m hm => hm) _ b0 [] h2).1 _ _ hops
    exact formSoFar_noClash h3 hclash

/-- The converse: without a clash (and without other trouble) it is converted. -/
theorem C52_converted {refs : Refs} {env : Env} (he : EnvOk refs env) (d : Dict Json) (o : Obj)
    (h : Built (.cls (s% "v2_0.PathItem")) (.obj d) o) (hres : PathResolves refs d) (root : Str)
    (consumes produces : List Str) (hcons : ∀ p ∈ opsOf d, strsAt p.2 (s% "consumes") = [])
    (hforms : FormsOnly refs d) (hforms' : ∀ p ∈ opsOf d, FormsOnly refs p.2) (hpart : partsOf refs d ≠ [])
    (hclash : ¬ Clash consumes (allParts refs d)) (hstyle : ¬ StyleTrouble consumes (paramsOf refs d))
    (hops : ∀ p ∈ opsOf d, ¬ StyleTrouble consumes (paramsOf refs p.2) ∧
      (∀ kv ∈ objAt p.2 (s% "responses"), HeadersOk (behind refs.resp kv.2)) ∧ listAt p.2 (s% "schemes") = []) :
    ∃ r, toPathItem env o root consumes produces = .ok r := by
  have hin := paramsIn_of he h (by decide +kernel) hres.1
  have hk : plainFields (s% "v2_0.PathItem") [s% "$ref"] = true := by decide +kernel
  have hncl : ¬ Clash consumes (partsOf refs d ++ opParts refs d methods) := hclash
  rcases parameters_forms he.set hin hforms [] [] none rfl with ⟨hbad, _⟩ | ⟨_, ps', b0, h1, h2, _⟩
  · exfalso
    rw [List.nil_append] at hbad
    rcases hbad with hbad | hbad
    · exact hncl (clash_mono hbad)
    · exact hstyle hbad
  rw [List.nil_append] at h2
  cases b0 with
  | none => exact absurd h2 hpart
  | some b0 =>
    obtain ⟨ops, body', h3⟩ := (pathOps_forms he h hres (root := root) (produces := produces) hcons hforms' methods
      (fun m hm => hm) _ b0 [] h2).2 hncl hops
    obtain ⟨idx, h4⟩ := bodyIndexes_total hin (fun f hf => (hforms f hf).imp_right And.left) 0
    unfold toPathItem
    simp only [built_fld h (plainFields_cls hk), h1, h3, h4, bind, Except.bind]
    exact ⟨_, rfl⟩

theorem partTypes_some (consumes : List Str) (file : Bool) : ∃ t, t ∈ partTypes consumes file := by
  unfold partTypes
  generalize hq : consumes.filter _ = l
  cases l with
  | nil => exact ⟨_, List.mem_singleton.2 rfl⟩
  | cons x l => exact ⟨x, by simp⟩

/-- C52: the request body of an operation is then not that of the parameters of the path and of its own, as soon as
another operation has a part with a name of its own. -/
theorem C52_violation {refs : Refs} {consumes : List Str} {d e e' : Dict Json} {m' : Str} {b : Dict Json}
    (hb : FormBody consumes (allParts refs d) b) (hforms : FormsOnly refs d) (hforms' : FormsOnly refs e)
    (hpart : partsOf refs d ≠ []) (hm' : (m', e') ∈ opsOf d) (f : Part) (hf : f ∈ partsOf refs e')
    (hnew : ∀ g ∈ partsOf refs d ++ partsOf refs e, g.name ≠ f.name) :
    ¬ RequestOf consumes (paramsOf refs d ++ paramsOf refs e) (some (.obj b)) := by
  rintro ⟨_, h2, _⟩
  obtain ⟨g, hg⟩ := List.exists_mem_of_ne_nil _ hpart
  have hg' := List.mem_filter.1 hg
  obtain ⟨b', e1, hb'⟩ := h2 (fun x hx => by
    rcases List.mem_append.1 hx with hx | hx
    · exact (hforms x hx).imp_right And.left
    · exact (hforms' x hx).imp_right And.left) ⟨g, by simp [hg'.1], hg'.2⟩
  cases e1
  rw [List.filter_append] at hb'
  obtain ⟨t, ht⟩ := partTypes_some consumes f.file
  obtain ⟨⟨c, hc1, hc2⟩, _, _⟩ := hb
  obtain ⟨⟨c', hc1', hc2'⟩, _, _⟩ := hb'
  rw [hc1] at hc1'
  cases hc1'
  have hfa : f ∈ (allParts refs d).filter (fun f => decide (t ∈ partTypes consumes f.file)) := by
    rw [List.mem_filter]
    refine ⟨?_, decide_eq_true ht⟩
    unfold allParts
    rw [List.mem_append, List.mem_flatMap]
    exact .inr ⟨_, hm', hf⟩
  have h3 := hc2 t
  have h4 := hc2' t
  cases hq : (allParts refs d).filter (fun f => decide (t ∈ partTypes consumes f.file)) with
  | nil => rw [hq] at hfa; cases hfa
  | cons q qs =>
    rw [hq] at h3 hfa
    obtain ⟨mm, m1, schema, props, p1, p2, p3, _⟩ := h3
    cases hq' : ((paramsOf refs d).filter Part.isPart ++ (paramsOf refs e).filter Part.isPart).filter
        (fun f => decide (t ∈ partTypes consumes f.file)) with
    | nil => rw [hq'] at h4; rw [m1] at h4; cases h4
    | cons q' qs' =>
      rw [hq'] at h4
      obtain ⟨mm', m1', schema', props', p1', p2', p3', _⟩ := h4
      rw [m1] at m1'
      cases m1'
      rw [p1] at p1'
      cases p1'
      rw [p2] at p2'
      cases p2'
      have hmem : f.name ∈ (q' :: qs').map Part.name := by
        rw [← p3', p3]; exact List.mem_map_of_mem hfa
      rw [← hq'] at hmem
      obtain ⟨y, hy1, hy2⟩ := List.mem_map.1 hmem
      exact hnew y (List.mem_filter.1 hy1).1 hy2

/-! ### A path item that meets the hypotheses -/

def noRefs : Refs := ⟨fun _ => none, fun _ => none⟩

theorem plainEnv_ok : EnvOk noRefs plainEnv where
  set := plainEnv_set
  param := fun _ _ _ => rfl
  paramRef := fun _ _ _ _ _ _ h => by cases h
  resp := fun _ _ _ => rfl
  respRef := fun _ _ _ _ _ _ h => by cases h
  schema := fun j o h hf => by
    obtain ⟨d, p, kids, rfl, _⟩ := built_cls h
    have hk : plainFields (s% "v2_0.Schema") [s% "type"] = true := by decide +kernel
    refine ⟨o, _, rfl, built_fld h (plainFields_cls hk) _, ?_⟩
    rw [plainFields_val hk (by simp)]
    exact fun ht => hf ⟨d, rfl, ht⟩

/-- `{parameters: [formData a], get: {}, post: {parameters: [formData b]}}`, the operations with a response. -/
def sampleItem : Dict Json := [
  (s% "parameters", .arr [.obj [(s% "name", .str (s% "a")), (s% "in", .str (s% "formData")), (s% "type", .str (s% "string"))]]),
  (s% "get", .obj [(s% "summary", .str (s% "g")),
    (s% "responses", .obj [(s% "200", .obj [(s% "description", .str (s% "ok"))])])]),
  (s% "post", .obj [(s% "parameters", .arr [.obj [(s% "name", .str (s% "b")), (s% "in", .str (s% "formData")),
      (s% "type", .str (s% "string"))]]),
    (s% "responses", .obj [(s% "200", .obj [(s% "description", .str (s% "ok"))])])])]

theorem sampleItem_built : ∃ o, Built (.cls (s% "v2_0.PathItem")) (.obj sampleItem) o := by
  obtain ⟨o, _, h⟩ := built_exists (regularB_sound 9 (.cls (s% "v2_0.PathItem")) (.obj sampleItem) (by decide +kernel))
    (by decide +kernel) none
  exact ⟨o, h⟩

theorem resolves_plain {find : Json → Option (Dict Json)} {d : Dict Json} (h : Dict.get? d (s% "$ref") = none) :
    Resolves find (.obj d) := by
  intro d' v h1 h2
  cases h1
  rw [h] at h2; cases h2

theorem sampleItem_resolves : PathResolves noRefs sampleItem := by
  have hop : opsOf sampleItem = [(s% "get", objAt sampleItem (s% "get")), (s% "post", objAt sampleItem (s% "post"))] := by
    decide +kernel
  refine ⟨fun j hj => ?_, fun p hp => ?_⟩
  · simp only [sampleItem, listAt, Dict.get?_cons, if_pos, List.mem_cons, List.not_mem_nil, or_false] at hj
    subst hj
    exact resolves_plain (by decide)
  · rw [hop] at hp
    simp only [List.mem_cons, List.not_mem_nil, or_false] at hp
    have hr : ∀ kv ∈ [(s% "200", Json.obj [(s% "description", .str (s% "ok"))])], Resolves noRefs.resp kv.2 := by
      intro kv hkv
      rw [List.mem_singleton] at hkv
      subst hkv
      exact resolves_plain (by decide)
    rcases hp with rfl | rfl
    · exact ⟨fun j hj => (by cases hj), hr⟩
    · refine ⟨fun j hj => ?_, hr⟩
      have : j = .obj [(s% "name", .str (s% "b")), (s% "in", .str (s% "formData")), (s% "type", .str (s% "string"))] := by
        simpa using (show j ∈ [_] from hj)
      subst this
      exact resolves_plain (by decide)

/-- The parts of `sampleItem`. -/
def samplePart (name : Str) : Part :=
  ⟨[(s% "name", .str name), (s% "in", .str (s% "formData")), (s% "type", .str (s% "string"))], none⟩

theorem samplePart_valid (name : Str) : (samplePart name).isPart = true ∧ (samplePart name).Valid :=
  ⟨rfl, ⟨_, rfl⟩, .inr rfl, rfl, fun l h => by cases h⟩

theorem samplePart_noTrouble (consumes : List Str) (fs : List Part) (h : ∀ f ∈ fs, ∃ n, f = samplePart n) :
    ¬ StyleTrouble consumes fs := by
  rintro ⟨f, hf, ⟨hb, _⟩, _⟩
  obtain ⟨n, rfl⟩ := h f hf
  rcases hb with hb | hb <;> cases hb

theorem sampleItem_facts : opsOf sampleItem = [(s% "get", objAt sampleItem (s% "get")), (s% "post", objAt sampleItem (s% "post"))] ∧
    paramsOf noRefs sampleItem = [samplePart (s% "a")] ∧ paramsOf noRefs (objAt sampleItem (s% "get")) = [] ∧
    paramsOf noRefs (objAt sampleItem (s% "post")) = [samplePart (s% "b")] ∧
    (∀ p ∈ opsOf sampleItem, strsAt p.2 (s% "consumes") = []) := by
  have hop : opsOf sampleItem = [(s% "get", objAt sampleItem (s% "get")), (s% "post", objAt sampleItem (s% "post"))] := by
    decide +kernel
  exact ⟨hop, rfl, rfl, rfl, by rw [hop]; decide +kernel⟩

theorem sampleItem_forms : FormsOnly noRefs sampleItem ∧ ∀ p ∈ opsOf sampleItem, FormsOnly noRefs p.2 := by
  obtain ⟨hop, p0, p1, p2, _⟩ := sampleItem_facts
  constructor
  · intro f hf
    rw [p0, List.mem_singleton] at hf
    subst hf
    exact .inr (samplePart_valid _)
  · intro p hp f hf
    rw [hop] at hp
    simp only [List.mem_cons, List.not_mem_nil, or_false] at hp
    rcases hp with rfl | rfl
    · rw [p1] at hf; cases hf
    · rw [p2, List.mem_singleton] at hf
      subst hf
      exact .inr (samplePart_valid _)

/-- `sampleItem` is converted. -/
theorem sampleItem_converts (o : Obj) (ho : Built (.cls (s% "v2_0.PathItem")) (.obj sampleItem) o) (root : Str) :
    ∃ r, toPathItem plainEnv o root [] [] = .ok r := by
  obtain ⟨hop, p0, p1, p2, hcons⟩ := sampleItem_facts
  obtain ⟨hf0, hf1⟩ := sampleItem_forms
  have hpart : partsOf noRefs sampleItem ≠ [] := by decide
  have hall : allParts noRefs sampleItem = [samplePart (s% "a"), samplePart (s% "b")] := by
    unfold allParts
    rw [hop]
    rfl
  have hclash : ¬ Clash [] (allParts noRefs sampleItem) := by
    rintro ⟨t, ht⟩
    refine ht ?_
    rw [hall]
    have hsub : ([samplePart (s% "a"), samplePart (s% "b")].filter (fun f => decide (t ∈ partTypes [] f.file))).Sublist
      [samplePart (s% "a"), samplePart (s% "b")] := List.filter_sublist
    exact (hsub.map Part.name).nodup (by decide)
  exact C52_converted plainEnv_ok sampleItem o ho sampleItem_resolves root [] [] hcons hf0 hf1
    hpart hclash (samplePart_noTrouble _ _ (by rw [p0]; intro f hf; exact ⟨_, List.mem_singleton.1 hf⟩)) (by
      intro p hp
      rw [hop] at hp
      have hh : ∀ kv ∈ [(s% "200", Json.obj [(s% "description", .str (s% "ok"))])], HeadersOk (behind noRefs.resp kv.2) := by
        intro kv hkv k d hd
        rw [List.mem_singleton] at hkv
        subst hkv
        cases hd
      simp only [List.mem_cons, List.not_mem_nil, or_false] at hp
      rcases hp with rfl | rfl
      · exact ⟨samplePart_noTrouble _ _ (by rw [p1]; intro f hf; cases hf), hh, rfl⟩
      · exact ⟨samplePart_noTrouble _ _ (by rw [p2]; intro f hf; exact ⟨_, List.mem_singleton.1 hf⟩), hh, rfl⟩)

/-- C52 is false of a concrete path item: it is converted, and the `get` has a request body that is not made of the
parameters of the path and of its own. -/
theorem C52_example_violation : ∃ o r rl x b, Built (.cls (s% "v2_0.PathItem")) (.obj sampleItem) o ∧
    toPathItem plainEnv o (s% "/") [] [] = .ok (r, rl) ∧ Dict.get? r (s% "get") = some (.obj x) ∧
    Dict.get? x (s% "requestBody") = some b ∧
    ¬ RequestOf [] (paramsOf noRefs sampleItem ++ paramsOf noRefs (objAt sampleItem (s% "get"))) (some b) := by
  obtain ⟨o, ho⟩ := sampleItem_built
  obtain ⟨hop, p0, p1, p2, hcons⟩ := sampleItem_facts
  obtain ⟨hf0, hf1⟩ := sampleItem_forms
  have hpart : partsOf noRefs sampleItem ≠ [] := by decide
  obtain ⟨⟨r, rl⟩, hr⟩ := sampleItem_converts o ho (s% "/")
  obtain ⟨x, b, hx, hb, hform⟩ := C52_shared_violation plainEnv_ok sampleItem o ho sampleItem_resolves (s% "/") [] [] r rl hr
    hcons hf0 hf1 hpart (s% "get") (objAt sampleItem (s% "get")) (by rw [hop]; simp)
  refine ⟨o, r, rl, x, _, ho, hr, hx, hb, ?_⟩
  exact C52_violation hform hf0 (hf1 (s% "get", objAt sampleItem (s% "get")) (by rw [hop]; simp)) hpart
    (m' := s% "post") (e' := objAt sampleItem (s% "post")) (by rw [hop]; simp) (samplePart (s% "b"))
    (List.mem_filter.2 ⟨by rw [p2]; simp, rfl⟩) (by decide +kernel)

/-- A response that is a file. -/
def fileResponse : Dict Json := [(s% "description", .str (s% "a picture")),
  (s% "schema", .obj [(s% "type", .str (s% "file"))]),
  (s% "headers", .obj [(s% "X-Rate", .obj [(s% "type", .str (s% "integer"))])])]

/-- The hypotheses of `C57_file_violation` hold of `fileResponse`, and it is converted. -/
example : ∃ o r, RespIn plainEnv o ⟨fileResponse, none⟩ ∧ toResponse plainEnv o [s% "image/png"] = .ok r ∧
    ∃ s, given fileResponse (s% "schema") = some s ∧ IsFile s := by
  obtain ⟨o, _, h⟩ := built_exists (regularB_sound 9 (.cls (s% "v2_0.Response")) (.obj fileResponse) (by decide +kernel))
    (by decide +kernel) none
  have hin : RespIn plainEnv o ⟨fileResponse, none⟩ := .inl ⟨rfl, h, rfl⟩
  rcases C57_response plainEnv o ⟨fileResponse, none⟩ [s% "image/png"] hin with ⟨r, hr, _⟩ | ⟨_, k, d, hk, hb, _⟩
  · exact ⟨o, r, hin, hr, _, rfl, _, rfl, rfl⟩
  · exfalso
    have hk' : (if s% "X-Rate" = k then some (Json.obj [(s% "type", .str (s% "integer"))]) else none) = some (.obj d) := by
      simpa [objAt, fileResponse, Dict.get?_cons] using hk
    split at hk'
    · cases hk'
      rcases hb with hb | hb <;> cases hb
    · cases hk'

end Pyopenapi
