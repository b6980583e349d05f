import Verif.Lemmas.ConvParam

/-!
# What the converters make of forms and bodies
-/

namespace Pyopenapi
open Spec Obj Conv

/-- A name the class has no child for. -/
theorem built_kid_absent {c : Str} {d : Dict Json} {o : Obj} (h : Built (.cls c) (.obj d) o) {k : Str}
    (hc : Dict.get? (pkg c).children k = none) : kid o k = none := by
  obtain ⟨d', p, kids, hd, rfl, hk⟩ := built_cls h
  cases hd
  simp only [kid]
  rw [Dict.get?_collect (okTable_pkg.cls c).children hk, hc]
  rfl

/-- `o` is the parameter `d`, or a reference `ref` that leads to it. -/
def ParamIn (env : Env) (o : Obj) (ref : Option Json) (d : Dict Json) : Prop :=
  (ref = none ∧ Built (.cls (s% "v2_0.Parameter")) (.obj d) o ∧ env.deref o = .ok o) ∨
  (∃ v e p, ref = some v ∧ v.truthy = true ∧ Built (.cls (s% "v2_0.Reference")) (.obj e) o ∧
    Dict.get? e (s% "$ref") = some v ∧ env.deref o = .ok p ∧ Built (.cls (s% "v2_0.Parameter")) (.obj d) p)

theorem param_resolved {env : Env} {o : Obj} {ref : Option Json} {d : Dict Json} (h : ParamIn env o ref d) :
    ∃ p, env.deref o = .ok p ∧ Built (.cls (s% "v2_0.Parameter")) (.obj d) p ∧ (ref = none → p = o) := by
  rcases h with ⟨_, h2, h3⟩ | ⟨v, e, p, h1, h2, h3, h4, h5, h6⟩
  · exact ⟨o, h3, h2, fun _ => rfl⟩
  · exact ⟨p, h5, h6, fun hn => by rw [hn] at h1; cases h1⟩

theorem param_ref {env : Env} {o : Obj} {ref : Option Json} {d : Dict Json} (h : ParamIn env o ref d) :
    ∃ j, fld o (s% "$ref") = .ok j ∧ (j.truthy = true ↔ ref = some j) ∧ (ref = none → j.truthy = false) := by
  rcases h with ⟨h1, h2, h3⟩ | ⟨v, e, p, h1, h2, h3, h4, h5, h6⟩
  · refine ⟨.null, ?_, ?_, fun _ => rfl⟩
    · rw [built_fld h2 (by decide +kernel), valOf_absent (by decide +kernel)]
    · rw [h1]; decide
  · refine ⟨v, ?_, ?_, fun hn => by rw [hn] at h1; cases h1⟩
    · have hk : plainFields (s% "v2_0.Reference") [s% "$ref"] = true := by decide +kernel
      rw [built_fld h3 (plainFields_cls hk), plainFields_val hk (by simp)]
      simp [look, h4]
    · simp [h1, h2]

/-- The fields of a parameter. -/
theorem param_fld {d : Dict Json} {o : Obj} (h : Built (.cls (s% "v2_0.Parameter")) (.obj d) o) {k : Str}
    (hk : k ∈ [s% "description", s% "required", s% "allowEmptyValue", s% "in", s% "name"] ++ simpleKeywords) :
    fld o k = .ok (look d k) := by
  have hp : plainFields (s% "v2_0.Parameter") ([s% "description", s% "required", s% "allowEmptyValue", s% "in",
    s% "name"] ++ simpleKeywords) = true := by decide +kernel
  rw [built_fld h (plainFields_cls hp), plainFields_val hp hk]

theorem look_wf {d : Dict Json} (h : (Json.obj d).wf = true) (k : Str) : (look d k).wf = true := by
  unfold look
  cases hg : Dict.get? d k with
  | none => rfl
  | some v => exact wf_at h hg

/-- A parameter as a schema. -/
theorem toSchema_param {d : Dict Json} {o : Obj} (h : Built (.cls (s% "v2_0.Parameter")) (.obj d) o)
    (hreq : ∀ l, Dict.get? d (s% "required") ≠ some (.arr l)) :
    ∃ r, toSchema true o = .ok (.obj r) ∧ PartSchema ⟨d, none⟩ r ∧ (Json.obj r).wf = true := by
  have hpc : plainClass (s% "v2_0.Parameter") = true := by decide +kernel
  have hk : plainFields (s% "v2_0.Parameter") (simpleKeywords ++ [s% "description"]) = true := by decide +kernel
  rw [toSchema, built_fld h hpc, valOf_absent (by decide +kernel) d, param_fld h (k := s% "type") (by decide)]
  simp only [bind, Except.bind]
  rw [if_neg (by decide)]
  by_cases hfile : look d (s% "type") = .str (s% "file")
  · rw [if_pos hfile]
    refine ⟨_, rfl, ?_, by decide +kernel⟩
    have : (⟨d, none⟩ : Part).file = true := by simp only [Part.file]; exact decide_eq_true hfile
    simp only [PartSchema, this, if_true]
  rw [if_neg hfile]
  have hnf : (⟨d, none⟩ : Part).file = false := by simp only [Part.file]; exact decide_eq_false hfile
  obtain ⟨r0, e0, c0, f0⟩ := genFields_built h hpc schemaFields []
  have hcop : Copied (simpleKeywords ++ [s% "description"]) d r0 := by
    intro k hkm
    have hks : k ∈ schemaFields := by revert hkm; revert k; decide
    rw [c0 k, given_look, plainFields_val hk hkm]
    by_cases hn : look d k = .null <;> simp [hn, hks]
  have honly : ∀ k, k ∉ simpleKeywords ++ [s% "description"] → Dict.get? r0 k = none := by
    intro k hkm
    rw [c0 k]
    by_cases hks : k ∈ schemaFields
    · have hall : ∀ k ∈ schemaFields, k ∈ simpleKeywords ++ [s% "description"] ∨
          Dict.get? (pkg (s% "v2_0.Parameter")).fields k = none := by decide +kernel
      rw [valOf_absent ((hall k hks).resolve_left hkm) d]
      simp
    · simp [hks]
  have w0 : (Json.obj r0).wf = true := f0 rfl
  have e1 : putRequired o r0 = .ok r0 := by
    unfold putRequired
    rw [param_fld h (by decide)]
    simp only [bind, Except.bind]
    unfold look
    cases hg : Dict.get? d (s% "required") with
    | none => rfl
    | some v => cases v <;> first | rfl | (exact absurd hg (hreq _))
  have e2 : ∀ r, putAllOf o r = .ok r := by
    intro r; rw [putAllOf_eq, kidT_none_of (built_kid_absent h (by decide +kernel))]
  have e3 : ∃ r1, putItems true o r0 = .ok r1 ∧ Step (s% "items") r0 r1 ∧
      (given d (s% "items") = none → Dict.get? r1 (s% "items") = none) ∧
      (∀ v, given d (s% "items") = some v → ∃ w, Dict.get? r1 (s% "items") = some w ∧ ItemsTo v w) := by
    rw [putItems_eq]
    rcases built_kid_cls h (k := s% "items") (c' := s% "v2_0.Items") (by decide +kernel) with
      ⟨g1, g2, _⟩ | ⟨e, x, g1, g2, _, g3⟩
    · rw [g2]
      exact ⟨r0, rfl, .refl _ _, fun _ => honly _ (by decide), fun v hv => by rw [g1] at hv; cases hv⟩
    · obtain ⟨w, a1, a2, a3⟩ := fromItems_built _ _ x (Nat.le_refl _) g3
      simp only [g2, a1, if_true, bind, Except.bind]
      refine ⟨_, rfl, .set _ _ a3, (fun hn => by rw [g1] at hn; cases hn), fun v hv => ?_⟩
      rw [g1] at hv; cases hv
      exact ⟨w, Dict.get?_set_self _ _ _, a2⟩
  obtain ⟨r1, e3, s3, i1, i2⟩ := e3
  have e4 : ∀ r, putProperties true o r = .ok r := by
    intro r; rw [putProperties_eq, kidT_none_of (built_kid_absent h (by decide +kernel))]
  have e5 : ∀ r, putAdditional o r = .ok r := by
    intro r; rw [putAdditional_eq, built_kid_absent h (by decide +kernel)]
  have e6 : ∀ r, putRest o r = .ok r := by
    intro r
    unfold putRest putXml putExternalDocs
    rw [built_fld h hpc, valOf_absent (by decide +kernel) d, kidT_none_of (built_kid_absent h (by decide +kernel)),
      kidT_none_of (built_kid_absent h (by decide +kernel))]
    rfl
  simp only [e0, e1, e2, e3, e4, e5, e6]
  refine ⟨r1, rfl, ?_, s3.wf w0⟩
  simp only [PartSchema, hnf, Bool.false_eq_true, if_false]
  refine ⟨fun k hk' => ?_, i1, i2, fun k hk' => ?_⟩
  · rw [s3.frame k (by rintro rfl; exact absurd hk' (by decide))]; exact hcop k hk'
  · refine Decidable.byContradiction (fun hn => hk' ?_)
    have hn1 : k ≠ s% "items" := by rintro rfl; exact hn (by decide)
    rw [s3.frame k hn1]
    refine honly k (fun hm => hn ?_)
    rcases List.mem_append.1 hm with hm | hm
    · exact List.mem_append_left _ hm
    · simp only [List.mem_singleton] at hm; subst hm; decide

/-- The schema of a part. -/
theorem part_schema {env : Env} {o p : Obj} {f : Part} (h : ParamIn env o f.ref f.doc) (hp : env.deref o = .ok p)
    (hreq : ∀ l, Dict.get? f.doc (s% "required") ≠ some (.arr l)) {j : Json} (hj : fld o (s% "$ref") = .ok j) :
    ∃ r, toSchema true (if j.truthy = true then o else p) = .ok (.obj r) ∧ PartSchema f r ∧ (Json.obj r).wf = true := by
  obtain ⟨j', hj', hr, hn⟩ := param_ref h
  rw [hj] at hj'; cases hj'
  rcases h with ⟨h1, h2, h3⟩ | ⟨v, e, p', h1, h2, h3, h4, h5, h6⟩
  · rw [hn h1, if_neg (by decide)]
    rw [h3] at hp; cases hp
    obtain ⟨r, a1, a2, a3⟩ := toSchema_param h2 hreq
    refine ⟨r, a1, ?_, a3⟩
    obtain ⟨fd, fr⟩ := f
    cases h1; exact a2
  · have hjv : j = v := by
      have hk : plainFields (s% "v2_0.Reference") [s% "$ref"] = true := by decide +kernel
      rw [built_fld h3 (plainFields_cls hk), plainFields_val hk (by simp)] at hj
      simp only [look, h4, Option.getD_some, Except.ok.injEq] at hj
      exact hj.symm
    subst hjv
    rw [if_pos h2, toSchema, hj]
    have ht : fld o (s% "type") = .ok .null := by
      rw [built_fld h3 (by decide +kernel), valOf_absent (by decide +kernel)]
    simp only [bind, Except.bind, ht, h2, if_true]
    refine ⟨_, rfl, by simp [PartSchema, h1], wf_set_obj (d := []) (k := s% "$ref") rfl (wf_at h3.wf h4)⟩

theorem encodingType_eq (o : Obj) : encodingType o = (do
    let type_ ← fld o (s% "type")
    if type_ = .str (s% "file") then .ok (s% "application/octet-stream")
    else if type_ = .str (s% "object") then .ok (s% "application/json")
    else if type_ = .str (s% "array") then
      match kid o (s% "items") with
      | some it => encodingType it
      | none => .ok (s% "text/plain")
    else .ok (s% "text/plain")) := by
  rw [encodingType]
  simp only [bind, Except.bind]
  cases fld o (s% "type") with
  | error e => rfl
  | ok t =>
    dsimp only
    by_cases h1 : t = .str (s% "file")
    · rw [if_pos h1, if_pos h1]
    rw [if_neg h1, if_neg h1]
    by_cases h2 : t = .str (s% "object")
    · rw [if_pos h2, if_pos h2]
    rw [if_neg h2, if_neg h2]
    by_cases h3 : t = .str (s% "array")
    · rw [if_pos h3, if_pos h3]
      split <;> simp_all
    · rw [if_neg h3, if_neg h3]

theorem encodingType_built : ∀ (n : Nat) (c : Str) (j : Json) (o : Obj), sizeOf j ≤ n →
    plainFields c [s% "type"] = true →
    (Dict.get? (pkg c).children (s% "items")).map (fun cd => cd.builder) = some (.cls (s% "v2_0.Items")) →
    Built (.cls c) j o → ∃ m, encodingType o = .ok m ∧ ValueType j m := by
  intro n
  induction n with
  | zero => intro c j o hs _ _ _; cases j <;> simp at hs
  | succ n ih =>
    intro c j o hs hp hc h
    obtain ⟨d, q, kids, rfl, ho, _⟩ := built_cls h
    rw [encodingType_eq, built_fld h (plainFields_cls hp), plainFields_val hp (by simp)]
    simp only [bind, Except.bind]
    by_cases h1 : look d (s% "type") = .str (s% "file")
    · rw [if_pos h1]; exact ⟨_, rfl, .file h1⟩
    rw [if_neg h1]
    by_cases h2 : look d (s% "type") = .str (s% "object")
    · rw [if_pos h2]; exact ⟨_, rfl, .object h2⟩
    rw [if_neg h2]
    by_cases h3 : look d (s% "type") = .str (s% "array")
    · rw [if_pos h3]
      rcases built_kid_cls h hc with ⟨g1, _, g2⟩ | ⟨e, x, g1, _, g2, g3⟩
      · rw [g2]; exact ⟨_, rfl, .bare h3 g1⟩
      · rw [g2]
        have := size_get (given_some.1 g1).1
        obtain ⟨m, a1, a2⟩ := ih (s% "v2_0.Items") _ x (by omega) (by decide +kernel) (by decide +kernel) g3
        exact ⟨m, a1, .array h3 g1 a2⟩
    · rw [if_neg h3]; exact ⟨_, rfl, .plain (by simp [h1, h2, h3])⟩

/-- A part in `formData` has no style. -/
theorem style_form {cf type_ : Json} {se : Option Str × Option Bool}
    (h : toStyleExplode cf (.str (s% "formData")) type_ = .ok se) : se.1 = none := by
  unfold toStyleExplode at h
  repeat' split at h
  all_goals first
    | (cases h; rfl)
    | (rename_i hh; exact absurd hh (by decide))
    | (cases h; done)
    | simp_all

/-- The encoding of a part. -/
theorem toEncoding_param {d : Dict Json} {o : Obj} (h : Built (.cls (s% "v2_0.Parameter")) (.obj d) o) (t : Str) :
    (t ∉ formTypes → toEncoding o t = .ok []) ∧
    (t ∈ formTypes → BadStyle d (look d (s% "in")) (look d (s% "type")) → toEncoding o t = .error .schemaError) ∧
    (t ∈ formTypes → ¬ BadStyle d (look d (s% "in")) (look d (s% "type")) → ∃ e, toEncoding o t = .ok e ∧
      EncodingTo d e ∧ (Json.obj e).wf = true) := by
  obtain ⟨c, c1, c2⟩ := encodingType_built _ _ _ o (Nat.le_refl _) (by decide +kernel) (by decide +kernel) h
  have hiff : (t = s% "application/x-www-form-urlencoded" ∨ t = s% "multipart/form-data") ↔ t ∈ formTypes := by
    simp [formTypes]
  have key : t ∈ formTypes → (BadStyle d (look d (s% "in")) (look d (s% "type")) → toEncoding o t = .error .schemaError) ∧
      (¬ BadStyle d (look d (s% "in")) (look d (s% "type")) → ∃ e, toEncoding o t = .ok e ∧
      EncodingTo d e ∧ (Json.obj e).wf = true) := by
    intro ht
    have alone : EncodingTo d [(s% "contentType", .str c)] := by
      refine ⟨⟨c, rfl, c2⟩, ?_, fun _ => ?_⟩ <;>
        exact fun k hk => by
          by_cases h' : k = s% "contentType"
          · subst h'; decide
          · exact absurd (by rw [Dict.get?_cons, if_neg (Ne.symm h')]; rfl) hk
    unfold toEncoding
    rw [if_pos (hiff.2 ht)]
    simp only [c1, built_isSet h, bind, Except.bind]
    cases hg : Dict.get? d (s% "collectionFormat") with
    | none =>
      have hh : Dict.has d (s% "collectionFormat") = false := by simp [Dict.has, hg]
      rw [hh]
      refine ⟨fun hb => ?_, fun _ => ⟨_, rfl, alone, rfl⟩⟩
      rcases hb with ⟨h | h, _⟩ <;> rw [hg] at h <;> cases h
    | some cf =>
      have hh : Dict.has d (s% "collectionFormat") = true := by simp [Dict.has, hg]
      have hcv : fld o (s% "collectionFormat") = .ok cf := by
        rw [built_fld h (by decide +kernel)]
        have : valOf (s% "v2_0.Parameter") d (s% "collectionFormat") =
          (Dict.get? d (s% "collectionFormat")).getD (.str (s% "csv")) := rfl
        rw [this, hg]; rfl
      rw [hh, if_pos rfl, hcv, param_fld h (by decide), param_fld h (by decide)]
      dsimp only
      have hbad : BadStyle d (look d (s% "in")) (look d (s% "type")) ↔
          ∃ e, toStyleExplode cf (look d (s% "in")) (look d (s% "type")) = .error e := by
        rw [toStyleExplode_error, BadStyle, hg]; simp
      cases he : toStyleExplode cf (look d (s% "in")) (look d (s% "type")) with
      | error e =>
        have := toStyleExplode_schemaError he
        subst this
        exact ⟨fun _ => rfl, fun hn => absurd (hbad.2 ⟨_, he⟩) hn⟩
      | ok se =>
        refine ⟨fun hb => ?_, fun _ => ⟨_, rfl, ?_, ?_⟩⟩
        · obtain ⟨e, he'⟩ := hbad.1 hb
          rw [he] at he'; cases he'
        · split
          · rename_i hse
            obtain ⟨p1, p2, p3, _⟩ := get_putStyle se [(s% "contentType", .str c)] rfl rfl
            refine ⟨⟨c, by rw [p3 _ (by decide) (by decide)]; rfl, c2⟩, fun k hk => ?_, fun hf => ?_⟩
            · by_cases k1 : k = s% "style"
              · subst k1; decide
              by_cases k2 : k = s% "explode"
              · subst k2; decide
              · rw [p3 k k1 k2] at hk
                have := alone.2.1 k hk
                exact this
            · rw [hf] at he
              rw [style_form he] at hse
              cases hse
          · exact alone
        · split
          · exact (get_putStyle se _ rfl rfl).2.2.2 rfl
          · rfl
  refine ⟨fun hn => ?_, fun ht => (key ht).1, fun ht hb => ?_⟩
  · unfold toEncoding; rw [if_neg (fun h => hn (hiff.1 h))]
  · exact (key ht).2 hb

/-! ### the media type of a form -/

/-- The media type before the first part (`{}`), or of the parts so far. -/
def FormOf (t : Str) (qs : List Part) (m : Dict Json) : Prop := (qs = [] ∧ m = []) ∨ FormTo t qs m

theorem sub_some {d e : Dict Json} {k : Str} (h : Dict.get? d k = some (.obj e)) : Conv.sub d k = e := by
  unfold Conv.sub; rw [h]

theorem sub_none {d : Dict Json} {k : Str} (h : Dict.get? d k = none) : Conv.sub d k = [] := by
  unfold Conv.sub; rw [h]

theorem subL_some {d : Dict Json} {l : List Json} {k : Str} (h : Dict.get? d k = some (.arr l)) : Conv.subL d k = l := by
  unfold Conv.subL; rw [h]

theorem subL_none {d : Dict Json} {k : Str} (h : Dict.get? d k = none) : Conv.subL d k = [] := by
  unfold Conv.subL; rw [h]

theorem sub_wf {d : Dict Json} {k : Str} (h : (Json.obj d).wf = true) : (Json.obj (Conv.sub d k)).wf = true := by
  unfold Conv.sub
  split
  · rename_i e he; exact wf_at h he
  · rfl

theorem subL_wf {d : Dict Json} {k : Str} (h : (Json.obj d).wf = true) : (Json.arr (Conv.subL d k)).wf = true := by
  unfold Conv.subL
  split
  · rename_i e he; exact wf_at h he
  · rfl

theorem wf_snoc {l : List Json} {x : Json} (h : (Json.arr l).wf = true) (hx : x.wf = true) :
    (Json.arr (l ++ [x])).wf = true := by
  simp only [Json.wf] at h ⊢
  induction l with
  | nil => simp [Json.wfL, hx]
  | cons y l ih =>
    simp only [Json.wfL, List.cons_append, Bool.and_eq_true] at h ⊢
    exact ⟨h.1, ih h.2⟩

theorem keys_set_new {d : Dict Json} {k : Str} {v : Json} (h : k ∉ Dict.keys d) :
    Dict.keys (Dict.set d k v) = Dict.keys d ++ [k] := by
  rw [set_append_new h]; simp [Dict.keys]

/-- What is asked of the lists of parts: names in one media type differ. -/
theorem required_snoc (qs : List Part) (f : Part) (schema : Dict Json)
    (h : Dict.get? schema (s% "required") = (match (qs.filter Part.required).map (fun f => Json.str f.name) with
      | [] => none
      | l => some (.arr l))) :
    Dict.get? (if f.required then Dict.set schema (s% "required") (.arr (Conv.subL schema (s% "required") ++
        [.str f.name])) else schema) (s% "required") =
      (match ((qs ++ [f]).filter Part.required).map (fun f => Json.str f.name) with
        | [] => none
        | l => some (.arr l)) := by
  have hs : Conv.subL schema (s% "required") = (qs.filter Part.required).map (fun f => Json.str f.name) := by
    cases hl : (qs.filter Part.required).map (fun f => Json.str f.name) with
    | nil => rw [hl] at h; exact subL_none h
    | cons x l => rw [hl] at h; exact subL_some h
  rw [List.filter_append, List.map_append]
  by_cases hr : f.required = true
  · rw [if_pos hr, Dict.get?_set_self, hs]
    simp only [List.filter_cons, hr, if_true, List.filter_nil, List.map_cons, List.map_nil]
    cases (qs.filter Part.required).map (fun f => Json.str f.name) <;> rfl
  · rw [if_neg hr, h]
    simp [hr]

/-- One more part in a media type. -/
theorem toMediaType_built {env : Env} {o : Obj} {f : Part} (h : ParamIn env o f.ref f.doc) (hv : f.Valid) (t : Str)
    {qs : List Part} {m : Dict Json} (hm : FormOf t qs m) (hw : (Json.obj m).wf = true) :
    ((f.name ∈ qs.map Part.name ∨ (t ∈ formTypes ∧ BadStyle f.doc (look f.doc (s% "in")) (look f.doc (s% "type")))) ∧
      toMediaType env o t m = .error .schemaError) ∨
    (f.name ∉ qs.map Part.name ∧ ¬ (t ∈ formTypes ∧ BadStyle f.doc (look f.doc (s% "in")) (look f.doc (s% "type"))) ∧
      ∃ m', toMediaType env o t m = .ok m' ∧ FormTo t (qs ++ [f]) m' ∧ (Json.obj m').wf = true) := by
  obtain ⟨⟨n, hn⟩, hplace, hsch, hreq⟩ := hv
  obtain ⟨p, hp, hbp, _⟩ := param_resolved h
  obtain ⟨j, hj, _, _⟩ := param_ref h
  have hname : f.name = n := by unfold Part.name; rw [hn]
  have hlook : look f.doc (s% "name") = .str f.name := by unfold look; rw [hn, hname]; rfl
  have hk : kidT p (s% "schema") = none := kidT_none_of (built_kid_none hbp hsch)
  -- the schema so far
  have hbase : ∃ schema0 props0, Conv.sub m (s% "schema") = schema0 ∧ Conv.sub schema0 (s% "properties") = props0 ∧
      Dict.keys props0 = qs.map Part.name ∧
      (∀ f ∈ qs, ∃ p, Dict.get? props0 f.name = some (.obj p) ∧ PropTo f p) ∧
      Dict.get? schema0 (s% "required") = (match (qs.filter Part.required).map (fun f => Json.str f.name) with
        | [] => none
        | l => some (.arr l)) ∧
      Only [s% "properties", s% "required"] schema0 ∧
      (t ∈ formTypes → Dict.keys (Conv.sub m (s% "encoding")) = qs.map Part.name ∧
        ∀ f ∈ qs, ∃ e, Dict.get? (Conv.sub m (s% "encoding")) f.name = some (.obj e) ∧ EncodingTo f.doc e) ∧
      (t ∉ formTypes → Dict.get? m (s% "encoding") = none) ∧ Only [s% "schema", s% "encoding"] m := by
    rcases hm with ⟨rfl, rfl⟩ | ⟨schema, props, a1, a2, a3, a4, a5, a6, a7, a8, a9⟩
    · refine ⟨[], [], rfl, rfl, rfl, by simp, rfl, ?_, fun _ => ⟨rfl, by simp⟩, fun _ => rfl, ?_⟩
      · intro k hk; exact absurd rfl hk
      · intro k hk; exact absurd rfl hk
    · refine ⟨schema, props, sub_some a1, sub_some a2, a3, a4, a5, a6, fun ht => ?_, a8, a9⟩
      obtain ⟨encs, b1, b2, b3⟩ := a7 ht
      rw [sub_some b1]; exact ⟨b2, b3⟩
  obtain ⟨schema0, props0, s1, s2, s3, s4, s5, s6, s7, s8, s9⟩ := hbase
  have ws0 : (Json.obj schema0).wf = true := by rw [← s1]; exact sub_wf hw
  have wp0 : (Json.obj props0).wf = true := by rw [← s2]; exact sub_wf ws0
  unfold toMediaType
  simp only [hp, param_fld hbp (k := s% "required") (by decide), param_fld hbp (k := s% "name") (by decide), hlook, s1,
    bind, Except.bind]
  have hrq : (look f.doc (s% "required")).truthy = f.required := rfl
  rw [hrq]
  generalize hsc1 : (if f.required = true then Dict.set schema0 (s% "required") (.arr (Conv.subL schema0 (s% "required") ++
    [.str f.name])) else schema0) = schema1
  have hr1 := required_snoc qs f schema0 s5
  rw [hsc1] at hr1
  have hfr1 : ∀ k, k ≠ s% "required" → Dict.get? schema1 k = Dict.get? schema0 k := by
    intro k hk; rw [← hsc1]; split
    · exact Dict.get?_set_ne _ _ (Ne.symm hk)
    · rfl
  have ws1 : (Json.obj schema1).wf = true := by
    rw [← hsc1]; split
    · exact wf_set_obj ws0 (wf_snoc (subL_wf ws0) rfl)
    · exact ws0
  have hp1 : Conv.sub schema1 (s% "properties") = props0 := by
    rw [← s2]; unfold Conv.sub; rw [hfr1 _ (by decide)]
  rw [hp1, asKey]
  dsimp only
  have hhas : Dict.has props0 f.name = true ↔ f.name ∈ qs.map Part.name := by
    rw [← s3, Dict.has]; exact Dict.get?_isSome_iff
  by_cases hdup : f.name ∈ qs.map Part.name
  · rw [if_pos (hhas.2 hdup)]
    exact .inl ⟨.inl hdup, rfl⟩
  rw [if_neg (fun h => hdup (hhas.1 h)), hk, hj]
  simp only [Option.getD_none]
  obtain ⟨r, r1, r2, r3⟩ := part_schema h hp hreq hj
  rw [r1, param_fld hbp (k := s% "allowEmptyValue") (by decide)]
  dsimp only
  generalize hprop : (if look f.doc (s% "allowEmptyValue") = Json.bool true then
    Json.obj (Dict.set r (s% "nullable") (.bool true)) else .obj r) = prop
  have hpropTo : ∃ q, prop = .obj q ∧ PropTo f q ∧ (Json.obj q).wf = true := by
    rw [← hprop]
    have hnn : Dict.get? r (s% "nullable") = none := by
      unfold PartSchema at r2
      split at r2
      · rw [r2]; rfl
      · split at r2
        · rw [r2]; rfl
        · cases hg : Dict.get? r (s% "nullable") with
          | none => rfl
          | some v => exact absurd (r2.2.2.2 _ (by rw [hg]; simp)) (by decide)
    split
    · rename_i hae
      refine ⟨_, rfl, ⟨r, r2, fun k hk => Dict.get?_set_ne _ _ (Ne.symm hk), ?_⟩, wf_set_obj r3 rfl⟩
      rw [if_pos hae]; exact Dict.get?_set_self _ _ _
    · rename_i hae
      refine ⟨_, rfl, ⟨r, r2, fun _ _ => rfl, ?_⟩, r3⟩
      rw [if_neg hae]; exact hnn
  obtain ⟨q, rfl, q1, q2⟩ := hpropTo
  -- what the media type is before the encoding
  have hnk : f.name ∉ Dict.keys props0 := by rw [s3]; exact hdup
  generalize hm1 : Dict.set m (s% "schema") (.obj (Dict.set schema1 (s% "properties") (.obj (Dict.set props0 f.name
    (.obj q))))) = m1
  have wq : (Json.obj (Dict.set props0 f.name (.obj q))).wf = true := wf_set_obj wp0 q2
  have wm1 : (Json.obj m1).wf = true := by rw [← hm1]; exact wf_set_obj hw (wf_set_obj ws1 wq)
  have m1s : Dict.get? m1 (s% "schema") = some (.obj (Dict.set schema1 (s% "properties") (.obj (Dict.set props0 f.name
    (.obj q))))) := by rw [← hm1]; exact Dict.get?_set_self _ _ _
  have m1e : ∀ k, k ≠ s% "schema" → Dict.get? m1 k = Dict.get? m k := by
    intro k hk; rw [← hm1]; exact Dict.get?_set_ne _ _ (Ne.symm hk)
  have hsub : Conv.sub m1 (s% "encoding") = Conv.sub m (s% "encoding") := by
    unfold Conv.sub; rw [m1e _ (by decide)]
  have finish : ∀ m2 : Dict Json, (∀ k, k ≠ s% "encoding" → Dict.get? m2 k = Dict.get? m1 k) →
      (t ∈ formTypes → ∃ encs, Dict.get? m2 (s% "encoding") = some (.obj encs) ∧
        Dict.keys encs = (qs ++ [f]).map Part.name ∧
        ∀ f' ∈ qs ++ [f], ∃ e, Dict.get? encs f'.name = some (.obj e) ∧ EncodingTo f'.doc e) →
      (t ∉ formTypes → Dict.get? m2 (s% "encoding") = none) → FormTo t (qs ++ [f]) m2 := by
    intro m2 hfr he1 he2
    refine ⟨_, _, by rw [hfr _ (by decide)]; exact m1s, Dict.get?_set_self _ _ _, ?_, fun f' hf' => ?_, ?_, ?_, he1, he2, ?_⟩
    · rw [keys_set_new hnk, s3]; simp
    · rcases List.mem_append.1 hf' with hf' | hf'
      · obtain ⟨p', b1, b2⟩ := s4 f' hf'
        refine ⟨p', ?_, b2⟩
        rw [Dict.get?_set_ne _ _ (fun he => hdup (by rw [he]; exact List.mem_map_of_mem hf'))]
        exact b1
      · simp only [List.mem_singleton] at hf'
        subst hf'
        exact ⟨q, Dict.get?_set_self _ _ _, q1⟩
    · rw [Dict.get?_set_ne _ _ (by decide)]; exact hr1
    · intro k hk
      by_cases k1 : k = s% "properties"
      · subst k1; decide
      · rw [Dict.get?_set_ne _ _ (Ne.symm k1)] at hk
        by_cases k2 : k = s% "required"
        · subst k2; decide
        · rw [hfr1 k k2] at hk; exact s6 k hk
    · intro k hk
      by_cases k1 : k = s% "encoding"
      · subst k1; decide
      · rw [hfr k k1] at hk
        by_cases k2 : k = s% "schema"
        · subst k2; decide
        · rw [m1e k k2] at hk; exact s9 k hk
  obtain ⟨t1, t2, t3⟩ := toEncoding_param hbp t
  by_cases ht : t ∈ formTypes
  · by_cases hb : BadStyle f.doc (look f.doc (s% "in")) (look f.doc (s% "type"))
    · rw [t2 ht hb]
      exact .inl ⟨.inr ⟨ht, hb⟩, rfl⟩
    · obtain ⟨e, e1, e2, e4⟩ := t3 ht hb
      have hne : e.isEmpty = false := by
        cases e with
        | nil => obtain ⟨⟨_, h, _⟩, _⟩ := e2; cases h
        | cons _ _ => rfl
      rw [e1]
      simp only [hne, Bool.false_eq_true, if_false, hsub]
      refine .inr ⟨hdup, fun h => hb h.2, _, rfl, finish _ (fun k hk => Dict.get?_set_ne _ _ (Ne.symm hk)) (fun _ => ?_)
        (fun hn => absurd ht hn), ?_⟩
      · obtain ⟨b1, b2⟩ := s7 ht
        have hnk' : f.name ∉ Dict.keys (Conv.sub m (s% "encoding")) := by rw [b1]; exact hdup
        refine ⟨_, Dict.get?_set_self _ _ _, by rw [keys_set_new hnk', b1]; simp, fun f' hf' => ?_⟩
        rcases List.mem_append.1 hf' with hf' | hf'
        · obtain ⟨e', d1, d2⟩ := b2 f' hf'
          refine ⟨e', ?_, d2⟩
          rw [Dict.get?_set_ne _ _ (fun he => hdup (by rw [he]; exact List.mem_map_of_mem hf'))]
          exact d1
        · simp only [List.mem_singleton] at hf'
          subst hf'
          exact ⟨e, Dict.get?_set_self _ _ _, e2⟩
      · exact wf_set_obj wm1 (wf_set_obj (sub_wf hw) e4)
  · rw [t1 ht]
    simp only [List.isEmpty_nil, if_true]
    refine .inr ⟨hdup, fun h => ht h.1, m1, rfl, finish m1 (fun _ _ => rfl) (fun h => absurd h ht) (fun _ => ?_), wm1⟩
    rw [m1e _ (by decide)]; exact s8 ht

/-! ### the content of a form -/

/-- The part cannot be put into the media type. -/
def BadIn (t : Str) (qs : List Part) (f : Part) : Prop :=
  f.name ∈ qs.map Part.name ∨ (t ∈ formTypes ∧ BadStyle f.doc (look f.doc (s% "in")) (look f.doc (s% "type")))

theorem formContent_built {env : Env} {o : Obj} {f : Part} (h : ParamIn env o f.ref f.doc) (hv : f.Valid)
    (qs : Str → List Part) : ∀ (ts : List Str) (content : Dict Json), ts.Nodup →
      (∀ t ∈ ts, FormOf t (qs t) (Conv.sub content t)) → (Json.obj content).wf = true →
      ((∃ t ∈ ts, BadIn t (qs t) f) ∧ formContent env o ts content = .error .schemaError) ∨
      ((∀ t ∈ ts, ¬ BadIn t (qs t) f) ∧ ∃ content', formContent env o ts content = .ok content' ∧
        (∀ t ∈ ts, ∃ m, Dict.get? content' t = some (.obj m) ∧ FormTo t (qs t ++ [f]) m) ∧
        (∀ t, t ∉ ts → Dict.get? content' t = Dict.get? content t) ∧ (Json.obj content').wf = true) := by
  intro ts
  induction ts with
  | nil => intro content _ _ hw; exact .inr ⟨by simp, content, rfl, by simp, fun _ _ => rfl, hw⟩
  | cons t ts ih =>
    intro content hnd hf hw
    obtain ⟨hnt, hnd'⟩ := List.nodup_cons.1 hnd
    simp only [formContent, bind, Except.bind]
    rcases toMediaType_built h hv t (hf t (by simp)) (sub_wf hw) with ⟨hb, he⟩ | ⟨h1, h2, m, hm1, hm2, hm3⟩
    · rw [he]; exact .inl ⟨⟨t, by simp, hb⟩, rfl⟩
    · simp only [hm1]
      have hset : ∀ t' ∈ ts, Conv.sub (Dict.set content t (.obj m)) t' = Conv.sub content t' := by
        intro t' ht'
        have : t ≠ t' := by rintro rfl; exact hnt ht'
        unfold Conv.sub; rw [Dict.get?_set_ne _ _ this]
      rcases ih (Dict.set content t (.obj m)) hnd' (fun t' ht' => by rw [hset t' ht']; exact hf t' (by simp [ht']))
        (wf_set_obj hw hm3) with ⟨⟨t', ht', hb⟩, he⟩ | ⟨hg, c', he, k1, k2, k3⟩
      · rw [he]; exact .inl ⟨⟨t', by simp [ht'], hb⟩, rfl⟩
      · refine .inr ⟨?_, c', he, ?_, ?_, k3⟩
        · intro t' ht'
          rcases List.mem_cons.1 ht' with rfl | ht'
          · exact fun hb => hb.elim h1 h2
          · exact hg t' ht'
        · intro t' ht'
          rcases List.mem_cons.1 ht' with rfl | ht'
          · exact ⟨m, by rw [k2 _ hnt]; exact Dict.get?_set_self _ _ _, hm2⟩
          · exact k1 t' ht'
        · intro t' ht'
          simp only [List.mem_cons, not_or] at ht'
          rw [k2 t' ht'.2, Dict.get?_set_ne _ _ (Ne.symm ht'.1)]

/-- The order of a set is some order of its elements. -/
def SetOk (env : Env) : Prop := ∀ l, (env.setOrder l).Nodup ∧ ∀ x, x ∈ env.setOrder l ↔ x ∈ l

/-- The flags of a part. -/
def partCtx (file : Bool) : Ctx := ⟨true, file, !file⟩

theorem pick_ok {env : Env} (hs : SetOk env) (l : List Str) (dflt : Str) :
    (match env.setOrder l with
      | [] => [dflt]
      | l => l).Nodup ∧
    ∀ t, t ∈ (match env.setOrder l with
      | [] => [dflt]
      | l => l) ↔ t ∈ (match l with
      | [] => [dflt]
      | l => l) := by
  obtain ⟨h1, h2⟩ := hs l
  cases hl : l with
  | nil =>
    have : env.setOrder ([] : List Str) = [] := by
      cases hc : env.setOrder ([] : List Str) with
      | nil => rfl
      | cons a b =>
        have := (hs []).2 a
        rw [hc] at this; simp at this
    rw [this]; simp
  | cons a b =>
    rw [hl] at h1 h2
    cases hc : env.setOrder (a :: b) with
    | nil => have := (h2 a).2 (by simp); rw [hc] at this; cases this
    | cons x y => rw [hc] at h1 h2; exact ⟨h1, h2⟩

theorem part_mimes {env : Env} (hs : SetOk env) (file : Bool) (consumes : List Str) :
    ((partCtx file).mimes env consumes).Nodup ∧
    ∀ t, t ∈ (partCtx file).mimes env consumes ↔ t ∈ partTypes consumes file := by
  unfold Ctx.mimes
  by_cases hc : consumes = []
  · rw [if_pos hc, hc]
    cases file <;> simp [partCtx, Ctx.defaultMime, partTypes]
  rw [if_neg hc]
  cases file with
  | true =>
    have : consumes.filter (fun m => decide (m ∈ fileContentTypes)) = consumes.filter (fun t => decide (t ∈ if true = true then
        fileTypes else formTypes)) := by
      refine List.filter_congr (fun x _ => ?_)
      have : x ∈ fileContentTypes ↔ x ∈ fileTypes := by
        simp only [fileContentTypes, fileTypes, formTypes, List.mem_append, List.mem_cons, List.not_mem_nil, or_false]
        grind
      simp [this]
    have hp := pick_ok hs (consumes.filter (fun m => decide (m ∈ fileContentTypes))) (s% "multipart/form-data")
    simp only [partCtx, if_true, Ctx.defaultMime]
    refine ⟨hp.1, fun t => (hp.2 t).trans ?_⟩
    unfold partTypes
    rw [this]
    cases (consumes.filter (fun t => decide (t ∈ if true = true then fileTypes else formTypes))) <;> simp
  | false =>
    have : consumes.filter (fun m => decide (m = s% "application/x-www-form-urlencoded" ∨ m = s% "multipart/form-data")) =
        consumes.filter (fun t => decide (t ∈ if false = true then fileTypes else formTypes)) := by
      refine List.filter_congr (fun x _ => ?_)
      simp [formTypes]
    have hp := pick_ok hs (consumes.filter (fun m => decide (m = s% "application/x-www-form-urlencoded" ∨
      m = s% "multipart/form-data"))) (s% "application/x-www-form-urlencoded")
    simp only [partCtx, Bool.false_eq_true, if_false, Ctx.defaultMime, Bool.not_false, if_true]
    refine ⟨hp.1, fun t => (hp.2 t).trans ?_⟩
    unfold partTypes
    rw [this]
    cases (consumes.filter (fun t => decide (t ∈ if false = true then fileTypes else formTypes))) <;> simp

/-- The parts of a list in one media type. -/
def partsIn (consumes : List Str) (fs : List Part) (t : Str) : List Part :=
  fs.filter (fun f => t ∈ partTypes consumes f.file)

/-- The body so far: nothing before the first part. -/
def FormSoFar (consumes : List Str) (fs : List Part) : Option (Dict Json) → Prop
  | none => fs = []
  | some b => FormBody consumes fs b ∧ (Json.obj b).wf = true

theorem partsIn_snoc (consumes : List Str) (fs : List Part) (f : Part) (t : Str) :
    partsIn consumes (fs ++ [f]) t = partsIn consumes fs t ++ if t ∈ partTypes consumes f.file then [f] else [] := by
  unfold partsIn
  rw [List.filter_append]
  congr 1
  by_cases h : t ∈ partTypes consumes f.file <;> simp [h]

theorem formBody_content {consumes : List Str} {fs : List Part} {content : Dict Json}
    (h : ∀ t, match fs.filter (fun f => t ∈ partTypes consumes f.file) with
      | [] => Dict.get? content t = none
      | q :: qs => ∃ m, Dict.get? content t = some (.obj m) ∧ FormTo t (q :: qs) m) (t : Str) :
    FormOf t (partsIn consumes fs t) (Conv.sub content t) := by
  have := h t
  unfold partsIn
  cases hq : fs.filter (fun f => decide (t ∈ partTypes consumes f.file)) with
  | nil => rw [hq] at this; rw [sub_none this]; exact .inl ⟨rfl, rfl⟩
  | cons q qs =>
    rw [hq] at this
    obtain ⟨m, h1, h2⟩ := this
    rw [sub_some h1]; exact .inr h2

/-- One more part in the body. -/
theorem toRequestBody_part {env : Env} (hs : SetOk env) {o : Obj} {f : Part} (h : ParamIn env o f.ref f.doc)
    (hv : f.Valid) (consumes : List Str) {fs : List Part} {body : Option (Dict Json)}
    (hb : FormSoFar consumes fs body) :
    ((∃ t ∈ partTypes consumes f.file, BadIn t (partsIn consumes fs t) f) ∧
      toRequestBody env o body (partCtx f.file) consumes = .error .schemaError) ∨
    ((∀ t ∈ partTypes consumes f.file, ¬ BadIn t (partsIn consumes fs t) f) ∧
      ∃ b, toRequestBody env o body (partCtx f.file) consumes = .ok b ∧ FormSoFar consumes (fs ++ [f]) (some b)) := by
  obtain ⟨p, hp, hbp, _⟩ := param_resolved h
  obtain ⟨hm1, hm2⟩ := part_mimes hs f.file consumes
  have hctx : ((partCtx f.file).isFile || (partCtx f.file).isForm) = true := by cases f.file <;> rfl
  have hst : ∃ b0 content0, body.getD [] = b0 ∧ Conv.sub b0 (s% "content") = content0 ∧
      (∀ t, match fs.filter (fun f => t ∈ partTypes consumes f.file) with
        | [] => Dict.get? content0 t = none
        | q :: qs => ∃ m, Dict.get? content0 t = some (.obj m) ∧ FormTo t (q :: qs) m) ∧
      Dict.get? b0 (s% "required") = (if fs.any Part.required then some (.bool true) else none) ∧
      Only [s% "content", s% "required"] b0 ∧ (Json.obj b0).wf = true := by
    cases body with
    | none =>
      have hb : fs = [] := hb
      subst hb
      exact ⟨[], [], rfl, rfl, fun t => rfl, rfl, fun k hk => absurd rfl hk, rfl⟩
    | some b =>
      obtain ⟨⟨⟨content, c1, c2⟩, h2, h3⟩, hw⟩ := hb
      exact ⟨b, content, rfl, sub_some c1, c2, h2, h3, hw⟩
  obtain ⟨b0, content0, e1, e2, e3, e4, e5, e6⟩ := hst
  unfold toRequestBody
  simp only [e1, e2, hp, param_fld hbp (k := s% "required") (by decide), bind, Except.bind]
  rw [if_pos hctx]
  have wc0 : (Json.obj content0).wf = true := by rw [← e2]; exact sub_wf e6
  have hrq : (look f.doc (s% "required")).truthy = f.required := rfl
  rw [hrq]
  rcases formContent_built h hv (partsIn consumes fs) ((partCtx f.file).mimes env consumes) content0 hm1
    (fun t _ => formBody_content e3 t) wc0 with ⟨⟨t, ht, hbad⟩, he⟩ | ⟨hg, c', he, k1, k2, k3⟩
  · rw [he]; exact .inl ⟨⟨t, (hm2 t).1 ht, hbad⟩, rfl⟩
  · simp only [he]
    refine .inr ⟨fun t ht => hg t ((hm2 t).2 ht), _, rfl, ⟨⟨c', Dict.get?_set_self _ _ _, fun t => ?_⟩, ?_, ?_⟩, ?_⟩
    · have hsn := partsIn_snoc consumes fs f t
      unfold partsIn at hsn
      rw [hsn]
      by_cases ht : t ∈ partTypes consumes f.file
      · rw [if_pos ht]
        obtain ⟨m, a1, a2⟩ := k1 t ((hm2 t).2 ht)
        unfold partsIn at a2
        cases hq : fs.filter (fun f => decide (t ∈ partTypes consumes f.file)) with
        | nil => rw [hq] at a2; exact ⟨m, a1, a2⟩
        | cons q qs => rw [hq] at a2; exact ⟨m, a1, a2⟩
      · rw [if_neg ht, List.append_nil, k2 t (fun h => ht ((hm2 t).1 h))]
        exact e3 t
    · rw [Dict.get?_set_ne _ _ (by decide), List.any_append]
      by_cases hr : f.required = true
      · rw [if_pos hr, Dict.get?_set_self]; simp [hr]
      · rw [if_neg hr, Dict.get?_set_ne _ _ (by decide), e4]; simp [hr]
    · intro k hk
      by_cases k1 : k = s% "content"
      · subst k1; decide
      rw [Dict.get?_set_ne _ _ (Ne.symm k1)] at hk
      by_cases k2 : k = s% "required"
      · subst k2; decide
      refine e5 k ?_
      split at hk
      · rwa [Dict.get?_set_ne _ _ (Ne.symm k2), Dict.get?_set_ne _ _ (Ne.symm k1)] at hk
      · rwa [Dict.get?_set_ne _ _ (Ne.symm k1)] at hk
    · refine wf_set_obj ?_ k3
      split
      · exact wf_set_obj (wf_set_obj e6 wc0) rfl
      · exact wf_set_obj e6 wc0

end Pyopenapi
