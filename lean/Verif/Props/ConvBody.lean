import Verif.Lemmas.ConvOps
import Verif.Lemmas.ConvCheck

/-!
# C48-C51: parameters, forms and bodies
-/

namespace Pyopenapi
open Spec Obj Conv

/-- `os` are the parameters `fs`, as loaded: each is a parameter object, or a reference that leads to one. -/
def ParamsIn (env : Env) (os : List Obj) (fs : List Part) : Prop :=
  List.Forall₂ (fun o f => ParamIn env o f.ref f.doc) os fs

/-- C48: whatever the parameters are, when they are converted those outside of the body are in the list, one each, in
order and nothing else; and there is a body exactly when there is a parameter for it (or there was one before). -/
theorem C48_partition (env : Env) (consumes : List Str) (os : List Obj) (fs : List Part) (h : ParamsIn env os fs)
    (body : Option (Dict Json)) (ps : List Json) (body' : Option (Dict Json))
    (hr : parameters env consumes os [] body = .ok (ps, body')) :
    List.Forall₂ PlainTo (fs.filter Part.isPlain) ps ∧
    (body'.isSome = true ↔ body.isSome = true ∨ ∃ f ∈ fs, f.isPlain = false) ∧
    ((∀ f ∈ fs, f.isPlain = true) → body' = body) := by
  obtain ⟨qs, h1, h2, h3, h4⟩ := parameters_plain h [] body ps body' hr
  rw [List.nil_append] at h1
  subst h1
  refine ⟨h2, ?_, fun hall => h4 (List.all_eq_true.2 hall)⟩
  rw [h3]
  simp

/-- C48, C49: parameters without a body parameter.  They are converted unless two parts of one media type have one
name, or a `collectionFormat` cannot be said; then `SchemaError` is raised.  The parts are the properties of the
form, each once, in order (`FormBody`), none lost. -/
theorem C49_forms (env : Env) (hs : SetOk env) (consumes : List Str) (os : List Obj) (fs : List Part)
    (h : ParamsIn env os fs) (hv : ∀ f ∈ fs, f.isPlain = true ∨ (f.isPart = true ∧ f.Valid)) :
    ((Clash consumes (fs.filter Part.isPart) ∨ StyleTrouble consumes fs) →
      parameters env consumes os [] none = .error .schemaError) ∧
    (¬ (Clash consumes (fs.filter Part.isPart) ∨ StyleTrouble consumes fs) →
      ∃ ps body, parameters env consumes os [] none = .ok (ps, body) ∧
        List.Forall₂ PlainTo (fs.filter Part.isPlain) ps ∧
        (match body with
          | none => fs.filter Part.isPart = []
          | some b => FormBody consumes (fs.filter Part.isPart) b)) := by
  rcases parameters_forms hs h hv [] [] none rfl with ⟨h1, h2⟩ | ⟨h1, ps, body, h2, h3, _, _⟩
  · exact ⟨fun _ => h2, fun hn => absurd h1 hn⟩
  · refine ⟨fun hn => absurd hn h1, fun _ => ⟨ps, body, h2, (C48_partition env consumes os fs h none ps body h2).1, ?_⟩⟩
    cases body with
    | none => exact h3
    | some b => exact h3.1

/-- C49, more parts into a body that has some (the parameters of an operation after those of its path): the body
becomes the form of all of them. -/
theorem C49_more (env : Env) (hs : SetOk env) (consumes : List Str) (os : List Obj) (fs gs : List Part)
    (h : ParamsIn env os fs) (hv : ∀ f ∈ fs, f.isPlain = true ∨ (f.isPart = true ∧ f.Valid)) (b : Dict Json)
    (hb : FormBody consumes gs b) (hw : (Json.obj b).wf = true) :
    ((Clash consumes (gs ++ fs.filter Part.isPart) ∨ StyleTrouble consumes fs) →
      parameters env consumes os [] (some b) = .error .schemaError) ∧
    (¬ (Clash consumes (gs ++ fs.filter Part.isPart) ∨ StyleTrouble consumes fs) →
      ∃ ps b', parameters env consumes os [] (some b) = .ok (ps, some b') ∧
        FormBody consumes (gs ++ fs.filter Part.isPart) b') := by
  rcases parameters_forms hs h hv gs [] (some b) ⟨hb, hw⟩ with ⟨h1, h2⟩ | ⟨h1, ps, body, h2, h3, h4, _⟩
  · exact ⟨fun _ => h2, fun hn => absurd h1 hn⟩
  · refine ⟨fun hn => absurd hn h1, fun _ => ?_⟩
    cases body with
    | none =>
      have := (C48_partition env consumes os fs h (some b) ps none h2).2.1.2 (.inl rfl)
      cases this
    | some b' => exact ⟨ps, b', h2, h3.1⟩

/-- C49 is false for a file with another field, when `consumes` does not say `multipart/form-data`: no media type
has both. -/
theorem C49_split_violation (consumes : List Str) (hc : ∀ t ∈ consumes, t ∉ fileTypes) (f g : Part) (hf : f.file = true)
    (hg : g.file = false) : ¬ ∃ t, t ∈ partTypes consumes f.file ∧ t ∈ partTypes consumes g.file := by
  rintro ⟨t, h1, h2⟩
  have e1 : partTypes consumes f.file = [s% "multipart/form-data"] := by
    unfold partTypes
    have : consumes.filter (fun t => decide (t ∈ if f.file = true then fileTypes else formTypes)) = [] := by
      rw [List.filter_eq_nil_iff]; intro t ht; simpa [hf] using hc t ht
    rw [this, hf]; rfl
  have e2 : partTypes consumes g.file = [s% "application/x-www-form-urlencoded"] := by
    unfold partTypes
    have : consumes.filter (fun t => decide (t ∈ if g.file = true then fileTypes else formTypes)) = [] := by
      rw [List.filter_eq_nil_iff]; intro t ht
      have hsub : ∀ t ∈ formTypes, t ∈ fileTypes := by decide
      simpa [hg] using fun h => hc t ht (hsub t h)
    rw [this, hg]; rfl
  rw [e1, List.mem_singleton] at h1
  rw [e2, List.mem_singleton] at h2
  rw [h1] at h2
  exact absurd h2 (by decide)

/-- C49 is false for referenced parts: the property is the reference, to a parameter and not to a schema, and nothing of
the parameter is in it. -/
theorem C49_reference_violation (f : Part) (v : Json) (r : Dict Json) (hr : f.ref = some v) (h : PropTo f r) :
    Dict.get? r (s% "$ref") = some v ∧ ∀ k ∈ simpleKeywords, Dict.get? r k = none := by
  obtain ⟨r0, h1, h2, _⟩ := h
  unfold PartSchema at h1
  rw [hr] at h1
  dsimp only at h1
  subst h1
  refine ⟨by rw [h2 _ (by decide)]; rfl, fun k hk => ?_⟩
  have : k ≠ s% "nullable" ∧ k ≠ s% "$ref" := by revert hk; revert k; decide
  rw [h2 k this.1, Dict.get?_cons, if_neg (Ne.symm this.2)]; rfl

/-- C50: a second body raises `SchemaError`: where the parameters before have made a body (or a part of one), a body
parameter ends the conversion. -/
theorem C50_second_body (env : Env) (consumes : List Str) (l1 l2 : List Obj) (o : Obj) (fs : List Part) (f : Part)
    (h1 : ParamsIn env l1 fs) (h2 : ParamIn env o f.ref f.doc) (hf : placeOf f.doc = .body) (hok : BodyOk env o)
    (hbody : ∃ g ∈ fs, g.isPlain = false) (ps : List Json) (b : Option (Dict Json))
    (hfirst : parameters env consumes l1 [] none = .ok (ps, b)) :
    parameters env consumes (l1 ++ o :: l2) [] none = .error .schemaError := by
  rw [parameters_append, hfirst]
  have hb := ((C48_partition env consumes l1 fs h1 none ps b hfirst).2.1).2 (.inr hbody)
  obtain ⟨b, rfl⟩ := Option.isSome_iff_exists.1 hb
  have hib : bodyCtx.isBody = true := rfl
  simp only [parameters, bind, Except.bind, paramCtx_body h2 hf hok, hib, if_true, toRequestBody_second h2]

/-- C50: so no list with two bodies is converted. -/
theorem C50_never (env : Env) (consumes : List Str) (l1 l2 : List Obj) (o : Obj) (fs : List Part) (f : Part)
    (h1 : ParamsIn env l1 fs) (h2 : ParamIn env o f.ref f.doc) (hf : placeOf f.doc = .body) (hok : BodyOk env o)
    (hbody : ∃ g ∈ fs, g.isPlain = false) : ¬ ∃ r, parameters env consumes (l1 ++ o :: l2) [] none = .ok r := by
  rintro ⟨r, hr⟩
  cases hfirst : parameters env consumes l1 [] none with
  | error e => rw [parameters_append, hfirst] at hr; cases hr
  | ok pb =>
    obtain ⟨ps, b⟩ := pb
    rw [C50_second_body env consumes l1 l2 o fs f h1 h2 hf hok hbody ps b hfirst] at hr
    cases hr

/-- C51: the body made of one body parameter among others that are no parts of it: under each entry of `consumes`
(`application/json` when there is none) the schema, converted. -/
theorem C51_body (env : Env) (consumes : List Str) (os : List Obj) (fs gs : List Part) (f : Part)
    (h : ParamsIn env os (fs ++ f :: gs)) (hf : placeOf f.doc = .body)
    (hplain : ∀ g ∈ fs ++ gs, g.isPlain = true) (hok : ∀ o ∈ os, ParamIn env o f.ref f.doc → BodyOk env o) (ps : List Json)
    (body : Option (Dict Json)) (hr : parameters env consumes os [] none = .ok (ps, body)) :
    ∃ b, body = some b ∧ BodyTo consumes f.doc b := by
  obtain ⟨l1, l2', hl1, hl2, rfl⟩ : ∃ l1 l2, List.Forall₂ (fun o f => ParamIn env o f.ref f.doc) l1 fs ∧
      List.Forall₂ (fun o f => ParamIn env o f.ref f.doc) l2 (f :: gs) ∧ os = l1 ++ l2 := by
    clear hr hok hplain
    unfold ParamsIn at h
    induction fs generalizing os with
    | nil => exact ⟨[], os, .nil, h, rfl⟩
    | cons g fs ih =>
      cases h with
      | @cons o _ os _ hg htl =>
        obtain ⟨l1, l2, a1, a2, rfl⟩ := ih _ htl
        exact ⟨o :: l1, l2, .cons hg a1, a2, rfl⟩
  cases hl2 with
  | @cons o _ l2 _ ho hl2 =>
    rw [parameters_append] at hr
    simp only [bind, Except.bind] at hr
    cases hr1 : parameters env consumes l1 [] none with
    | error e => rw [hr1] at hr; cases hr
    | ok pb =>
      obtain ⟨ps1, b1⟩ := pb
      rw [hr1] at hr
      have hb1 : b1 = none := (C48_partition env consumes l1 fs hl1 none ps1 b1 hr1).2.2 (fun g hg => hplain g (by simp [hg]))
      subst hb1
      obtain ⟨b, e1, e2, _⟩ := toRequestBody_body ho consumes
      have hib : bodyCtx.isBody = true := rfl
      simp only [parameters, bind, Except.bind, paramCtx_body ho hf (hok o (by simp) ho), hib, if_true, e1] at hr
      obtain ⟨_, _, _, _, h5⟩ := parameters_plain hl2 _ _ _ _ hr
      exact ⟨b, h5 (List.all_eq_true.2 (fun g hg => hplain g (by simp [hg]))), e2⟩

/-- The media types that fit a part. -/
def fits (file : Bool) : List Str := if file then fileTypes else formTypes

/-- C51: the media types of a part are the entries of `consumes` that fit, or the default when none does. -/
theorem C51_part_types (env : Env) (hs : SetOk env) (consumes : List Str) (file : Bool) (t : Str) :
    ((∃ c ∈ consumes, c ∈ fits file) → (t ∈ (partCtx file).mimes env consumes ↔ t ∈ consumes ∧ t ∈ fits file)) ∧
    ((∀ c ∈ consumes, c ∉ fits file) → (t ∈ (partCtx file).mimes env consumes ↔
      t = if file then s% "multipart/form-data" else s% "application/x-www-form-urlencoded")) ∧
    ((partCtx file).mimes env consumes).Nodup := by
  obtain ⟨h1, h2⟩ := part_mimes hs file consumes
  have hp : t ∈ partTypes consumes file ↔ t ∈ (match consumes.filter (fun t => decide (t ∈ fits file)) with
    | [] => [if file then s% "multipart/form-data" else s% "application/x-www-form-urlencoded"]
    | l => l) := Iff.rfl
  refine ⟨fun hc => (h2 t).trans (hp.trans ?_), fun hc => (h2 t).trans (hp.trans ?_), h1⟩
  · obtain ⟨c, c1, c2⟩ := hc
    have hm : t ∈ consumes.filter (fun t => decide (t ∈ fits file)) ↔ t ∈ consumes ∧ t ∈ fits file := by
      rw [List.mem_filter]; simp
    cases hq : consumes.filter (fun t => decide (t ∈ fits file)) with
    | nil =>
      have : c ∈ consumes.filter (fun t => decide (t ∈ fits file)) := List.mem_filter.2 ⟨c1, decide_eq_true c2⟩
      rw [hq] at this; cases this
    | cons a l => rw [hq] at hm; exact hm
  · have hq : consumes.filter (fun t => decide (t ∈ fits file)) = [] := by
      rw [List.filter_eq_nil_iff]; intro c hc'; simpa using hc c hc'
    rw [hq]; simp

/-! ### cases -/

/-- The elements of a list, each once. -/
def once : List Str → List Str
  | [] => []
  | x :: xs => if x ∈ once xs then once xs else x :: once xs

theorem mem_once (l : List Str) : ∀ x, x ∈ once l ↔ x ∈ l := by
  induction l with
  | nil => exact fun _ => Iff.rfl
  | cons y ys ih =>
    intro x
    rw [once]
    split
    · rename_i h
      rw [ih, List.mem_cons]
      exact ⟨.inr, fun h' => h'.elim (fun e => by rw [e]; exact (ih y).1 h) id⟩
    · rw [List.mem_cons, List.mem_cons, ih]

theorem nodup_once (l : List Str) : (once l).Nodup := by
  induction l with
  | nil => exact .nil
  | cons y ys ih =>
    rw [once]
    split
    · exact ih
    · rename_i h
      exact List.nodup_cons.2 ⟨h, ih⟩

/-- No references; sets in some order of their elements. -/
def plainEnv : Env := ⟨.ok, once, fun _ => .null, fun _ => true⟩

theorem plainEnv_set : SetOk plainEnv := fun l => ⟨nodup_once l, fun x => mem_once l x⟩

def sampleParts : List Part := [
  ⟨[(s% "name", .str (s% "limit")), (s% "in", .str (s% "query")), (s% "type", .str (s% "integer"))], none⟩,
  ⟨[(s% "name", .str (s% "user")), (s% "in", .str (s% "formData")), (s% "type", .str (s% "string")),
    (s% "required", .bool true), (s% "allowEmptyValue", .bool true)], none⟩,
  ⟨[(s% "name", .str (s% "photo")), (s% "in", .str (s% "formData")), (s% "type", .str (s% "file"))], none⟩]

theorem sampleParts_in : ∃ os, ParamsIn plainEnv os sampleParts := by
  have h : ∀ f ∈ sampleParts, f.ref = none ∧ regularB 9 (.cls (s% "v2_0.Parameter")) (.obj f.doc) = true ∧
      (Json.obj f.doc).wf = true := by decide +kernel
  have gen : ∀ fs : List Part, (∀ f ∈ fs, f.ref = none ∧ regularB 9 (.cls (s% "v2_0.Parameter")) (.obj f.doc) = true ∧
      (Json.obj f.doc).wf = true) → ∃ os, ParamsIn plainEnv os fs := by
    intro fs
    induction fs with
    | nil => intro _; exact ⟨[], .nil⟩
    | cons f fs ih =>
      intro h
      obtain ⟨os, hos⟩ := ih (fun g hg => h g (by simp [hg]))
      obtain ⟨h1, h2, h3⟩ := h f (by simp)
      obtain ⟨o, _, hb⟩ := built_exists (regularB_sound _ _ _ h2) h3 none
      exact ⟨o :: os, .cons (.inl ⟨h1, hb, rfl⟩) hos⟩
  exact gen _ h

theorem sampleParts_valid : ∀ f ∈ sampleParts, f.isPlain = true ∨ (f.isPart = true ∧ f.Valid) := by
  intro f hf
  simp only [sampleParts, List.mem_cons, List.not_mem_nil, or_false] at hf
  rcases hf with rfl | rfl | rfl
  · exact .inl (by decide)
  · refine .inr ⟨by decide, ⟨_, rfl⟩, .inr rfl, rfl, fun l h => ?_⟩
    cases h
  · refine .inr ⟨by decide, ⟨_, rfl⟩, .inl rfl, rfl, fun l h => ?_⟩
    cases h

example : ¬ (Clash [s% "multipart/form-data"] (sampleParts.filter Part.isPart) ∨
    StyleTrouble [s% "multipart/form-data"] sampleParts) := by
  rintro (⟨t, ht⟩ | ⟨f, hf, ⟨hb, _⟩, _⟩)
  · refine ht ?_
    have e : sampleParts.filter Part.isPart = sampleParts.drop 1 := rfl
    rw [e]
    have hsub : ((sampleParts.drop 1).filter (fun f => decide (t ∈ partTypes [s% "multipart/form-data"] f.file))).Sublist
      (sampleParts.drop 1) := List.filter_sublist
    exact (hsub.map Part.name).nodup (by decide)
  · simp only [sampleParts, List.mem_cons, List.not_mem_nil, or_false] at hf
    rcases hf with rfl | rfl | rfl <;> rcases hb with hb | hb <;> cases hb

/-- The same name twice. -/
example : Clash [] (sampleParts.filter Part.isPart ++ sampleParts.filter Part.isPart) :=
  ⟨s% "multipart/form-data", by decide⟩

end Pyopenapi
