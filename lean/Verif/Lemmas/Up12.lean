import Verif.Lemmas.ConvResp
import Verif.Spec.Up12
import Verif.Model.Up12

/-! Reading 1.2 objects and building 2.0 documents. -/

namespace Pyopenapi
open Spec Obj Conv

theorem bindOk {α β : Type} {x : R α} {f : α → R β} {b : β} (h : (x >>= f) = .ok b) : ∃ a, x = .ok a ∧ f a = .ok b := by
  cases x with
  | error e => cases h
  | ok a => exact ⟨a, rfl, h⟩

/-- A field with nothing special about it: its value is the member, or `null`. -/
def looseField (c k : Str) : Bool :=
  match Dict.get? (pkg c).fields k with
  | some fd => !fd.required && !fd.restricted && (fd.default == .null)
  | none => false

theorem built_look {c : Str} {d : Dict Json} {o : Obj} (h : Built (.cls c) (.obj d) o) {k : Str} (hk : looseField c k = true) :
    fld o k = .ok (look d k) := by
  obtain ⟨d', p, kids, hd, rfl, _⟩ := built_cls h
  cases hd
  unfold looseField at hk
  simp only [fld]
  cases hf : Dict.get? (pkg c).fields k with
  | none => rw [hf] at hk; cases hk
  | some fd =>
    rw [hf] at hk
    simp only [Bool.and_eq_true, Bool.not_eq_true', beq_iff_eq] at hk
    simp only [readField, specGet, look]
    cases Dict.get? d k with
    | none => simp [hk]
    | some v => simp [hk]

/-- A required field: its value, or an exception. -/
def requiredField (c k : Str) : Bool :=
  match Dict.get? (pkg c).fields k with
  | some fd => fd.required && !fd.restricted
  | none => false

theorem built_required {c : Str} {d : Dict Json} {o : Obj} (h : Built (.cls c) (.obj d) o) {k : Str}
    (hk : requiredField c k = true) : fld o k = match Dict.get? d k with | some v => .ok v | none => .error .generic := by
  obtain ⟨d', p, kids, hd, rfl, _⟩ := built_cls h
  cases hd
  unfold requiredField at hk
  simp only [fld]
  cases hf : Dict.get? (pkg c).fields k with
  | none => rw [hf] at hk; cases hk
  | some fd =>
    rw [hf] at hk
    simp only [Bool.and_eq_true, Bool.not_eq_true'] at hk
    simp only [readField, specGet]
    cases Dict.get? d k with
    | none => simp [hk]
    | some v => simp [hk]

theorem has_iff {d : Dict Json} {k : Str} : Dict.has d k = true ↔ Dict.get? d k ≠ none := by
  unfold Dict.has
  cases Dict.get? d k <;> simp

namespace Up12

theorem copySet_built {c : Str} {d : Dict Json} {o : Obj} (h : Built (.cls c) (.obj d) o) {src : Str}
    (hk : looseField c src = true ∨ requiredField c src = true) (name : Str) (dst : Dict Json) :
    ∃ dst', copySet o src name dst = .ok dst' ∧ Step name dst dst' ∧
      Dict.get? dst' name = (Dict.get? d src).or (Dict.get? dst name) := by
  unfold copySet
  simp only [built_isSet h, bind, Except.bind]
  cases hg : Dict.get? d src with
  | none =>
    have : Dict.has d src = false := by
      cases hh : Dict.has d src with
      | false => rfl
      | true => exact absurd hg (has_iff.1 hh)
    rw [this]
    exact ⟨dst, rfl, .refl _ _, by simp⟩
  | some v =>
    have : Dict.has d src = true := has_iff.2 (by rw [hg]; simp)
    rw [this]
    have hf : fld o src = .ok v := by
      rcases hk with hk | hk
      · rw [built_look h hk, look, hg]; rfl
      · rw [built_required h hk, hg]
    simp only [hf, if_true]
    refine ⟨_, rfl, .set _ _ ?_, by simp [Dict.get?_set_self]⟩
    have := look_wf' h.wf src
    rwa [look, hg] at this
where
  look_wf' {d : Dict Json} (h : (Json.obj d).wf = true) (k : Str) : (look d k).wf = true := by
    unfold look
    cases hg : Dict.get? d k with
    | none => rfl
    | some v => exact wf_at h hg

theorem scopeCompose_name (env : Env) (path n : Str) :
    scopeCompose (some (path.drop 1)) (some n) env.sep = some (modelName env.sep path n) := by
  unfold modelName scopeCompose
  cases n with
  | nil => cases path.drop 1 <;> rfl
  | cons a n => cases path.drop 1 with
    | nil => rfl
    | cons b p => simp

theorem textOf_some {j : Json} {t : Str} : textOf j = some t ↔ j = .str t ∧ t ≠ [] := by
  constructor
  · intro h
    cases j with
    | str s => cases s with
      | nil => cases h
      | cons a s => cases h; exact ⟨rfl, by simp⟩
    | _ => cases h
  · rintro ⟨rfl, h⟩
    cases t with
    | nil => exact absurd rfl h
    | cons a s => rfl

theorem truthy_str {t : Str} : (Json.str t).truthy = true ↔ t ≠ [] := by cases t <;> simp [Json.truthy]

/-- Setting a reference: nothing without a name, the reference to the model with one; other values raise. -/
theorem setRef_ok {env : Env} {path : Str} {name : Json} {dst dst' : Dict Json}
    (h : setRef env (path.drop 1) name dst = .ok dst') : Step (s% "$ref") dst dst' ∧
      (name.truthy = true → ∃ t, textOf name = some t) ∧
      Dict.get? dst' (s% "$ref") = ((textOf name).map (fun m => Json.str (modelRef env.sep path m))).or (Dict.get? dst (s% "$ref")) := by
  unfold setRef at h
  split at h
  · rename_i ht
    obtain ⟨r, h1, h2⟩ := bindOk h
    cases h2
    obtain ⟨n, h3, h4⟩ := bindOk h1
    cases name with
    | str s =>
      cases h3
      have hs := truthy_str.1 ht
      rw [scopeCompose_name env] at h4
      cases h4
      have : textOf (.str n) = some n := textOf_some.2 ⟨rfl, hs⟩
      exact ⟨.set _ _ rfl, fun _ => ⟨n, this⟩, by rw [this, Dict.get?_set_self]; rfl⟩
    | _ => cases h3
  · rename_i ht
    cases h
    have : textOf name = none := by
      cases hn : textOf name with
      | none => rfl
      | some t =>
        obtain ⟨rfl, h0⟩ := textOf_some.1 hn
        exact absurd (truthy_str.2 h0) ht
    exact ⟨.refl _ _, fun h => absurd h ht, by rw [this]; rfl⟩

theorem setRef_total {env : Env} {path : Str} {name : Json} {dst : Dict Json}
    (h : name.truthy = true → ∃ t, textOf name = some t) : ∃ dst', setRef env (path.drop 1) name dst = .ok dst' := by
  unfold setRef
  split
  · rename_i ht
    obtain ⟨t, h1⟩ := h ht
    obtain ⟨rfl, h0⟩ := textOf_some.1 h1
    simp only [definitionRef, asText, bind, Except.bind, scopeCompose_name env]
    exact ⟨_, rfl⟩
  · exact ⟨_, rfl⟩

theorem isPrimitive_iff {j : Json} : isPrimitive j = true ↔ ∃ t, j = .str t ∧ Primitive t := by
  cases j with
  | str s => simp only [isPrimitive, List.contains_iff_mem, Json.str.injEq]; exact ⟨fun h => ⟨s, rfl, h⟩, fun ⟨t, h1, h2⟩ => h1 ▸ h2⟩
  | _ => simp [isPrimitive]

theorem primitive_ne {t : Str} (h : Primitive t) : t ≠ [] := by
  rintro rfl
  revert h; decide

/-- The lower case of the primitive types. -/
def LowerOk (env : Env) : Prop := ∀ t, Primitive t → env.lower t = t

theorem updateTypeAndRef_ok {env : Env} (hl : LowerOk env) {path c : Str} {d : Dict Json} {o : Obj}
    (h : Built (.cls c) (.obj d) o) (h1 : looseField c (s% "type") = true) (h2 : looseField c (s% "$ref") = true)
    {r : Dict Json} (hr : updateTypeAndRef env (path.drop 1) o [] = .ok r) :
    TypeTo env.sep path d r ∧ Only [s% "type", s% "$ref"] r ∧ (Json.obj r).wf = true := by
  unfold updateTypeAndRef at hr
  simp only [built_look h h1, built_look h h2] at hr
  obtain ⟨_, e0, hr⟩ := bindOk hr
  cases e0
  obtain ⟨d1, g1, hr⟩ := bindOk hr
  obtain ⟨s1, t1, q1⟩ := setRef_ok g1
  have w1 := s1.wf rfl
  have n1 : ∀ k, k ≠ s% "$ref" → Dict.get? d1 k = none := fun k hk => by rw [s1.frame k hk]; rfl
  rw [show Dict.get? ([] : Dict Json) (s% "$ref") = none from rfl, Option.or_none] at q1
  obtain ⟨_, e0, hr⟩ := bindOk hr
  cases e0
  split at hr
  · rename_i hp
    obtain ⟨t, ht, hpt⟩ := isPrimitive_iff.1 hp
    rw [ht] at hr
    cases hr
    have ht' : textOf (look d (s% "type")) = some t := textOf_some.2 ⟨ht, primitive_ne hpt⟩
    have e1 : primitiveOf d = some t := by simp [primitiveOf, ht', hpt]
    have e2 : modelOf d = textOf (look d (s% "$ref")) := by simp [modelOf, ht', Option.filter, hpt]
    refine ⟨⟨?_, ?_⟩, ?_, wf_set_obj w1 rfl⟩
    · rw [Dict.get?_set_self, e1, hl t hpt]; rfl
    · rw [Dict.get?_set_ne _ _ (by decide), q1, e2]
    · intro k hk
      by_cases k1 : k = s% "type"
      · simp [k1]
      · rw [Dict.get?_set_ne _ _ (Ne.symm k1)] at hk
        by_cases k2 : k = s% "$ref"
        · simp [k2]
        · exact absurd (n1 k k2) hk
  · rename_i hp
    obtain ⟨s2, t2, q2⟩ := setRef_ok hr
    have hnp : ∀ t, textOf (look d (s% "type")) = some t → ¬ Primitive t := fun t ht hpt =>
      hp (isPrimitive_iff.2 ⟨t, (textOf_some.1 ht).1, hpt⟩)
    have e1 : primitiveOf d = none := by
      unfold primitiveOf
      cases ht : textOf (look d (s% "type")) with
      | none => rfl
      | some t => simp [Option.filter, hnp t ht]
    have e2 : modelOf d = (textOf (look d (s% "type"))).or (textOf (look d (s% "$ref"))) := by
      unfold modelOf
      cases ht : textOf (look d (s% "type")) with
      | none => rfl
      | some t => simp [Option.filter, hnp t ht]
    refine ⟨⟨?_, ?_⟩, ?_, s2.wf w1⟩
    · rw [s2.frame _ (by decide), n1 _ (by decide), e1]; rfl
    · rw [q2, q1, e2]
      cases textOf (look d (s% "type")) <;> rfl
    · intro k hk
      by_cases k2 : k = s% "$ref"
      · simp [k2]
      · rw [s2.frame k k2] at hk
        exact absurd (n1 k k2) hk

/-- What Python makes of bounds. -/
def Env.numbers (env : Env) : Numbers where
  float v n := env.float v = .ok n
  whole v n := ∃ f, env.float v = .ok f ∧ env.trunc f = .ok n

/-- `float` and `int` give numbers. -/
structure NumbersOk (env : Env) : Prop where
  float : ∀ v n, env.float v = .ok n → ∃ m e, n = .flt m e
  trunc : ∀ v n, env.trunc v = .ok n → ∃ i, n = .int i

theorem fromStr_ok {env : Env} (hn : NumbersOk env) {c : Str} {d : Dict Json} {o : Obj} (h : Built (.cls c) (.obj d) o)
    {k : Str} (h1 : looseField c (s% "type") = true) (h2 : looseField c k = true)
    {dst r : Dict Json} (hdst : Dict.get? dst k = none) (hr : fromStr env o k dst = .ok r) :
    Step k dst r ∧ BoundTo env.numbers d k r := by
  unfold fromStr at hr
  simp only [built_look h h1, built_look h h2, bind, Except.bind] at hr
  unfold BoundTo
  by_cases ht : (look d k).truthy = true
  · rw [if_pos ht] at hr ⊢
    by_cases hi : look d (s% "type") = .str (s% "integer")
    · rw [if_pos hi] at hr
      cases hf : env.float (look d k) with
      | error e => rw [hf] at hr; cases hr
      | ok f =>
        rw [hf] at hr
        dsimp only at hr
        cases hg : env.trunc f with
        | error e => rw [hg] at hr; cases hr
        | ok n =>
          rw [hg] at hr
          cases hr
          obtain ⟨i, rfl⟩ := hn.trunc _ _ hg
          exact ⟨.set _ _ rfl, .inl ⟨hi, _, ⟨f, hf, hg⟩, Dict.get?_set_self _ _ _⟩⟩
    · rw [if_neg hi] at hr
      by_cases hm : look d (s% "type") = .str (s% "number")
      · rw [if_pos hm] at hr
        cases hf : env.float (look d k) with
        | error e => rw [hf] at hr; cases hr
        | ok f =>
          rw [hf] at hr
          cases hr
          obtain ⟨m, e, rfl⟩ := hn.float _ _ hf
          exact ⟨.set _ _ rfl, .inr ⟨hm, _, hf, Dict.get?_set_self _ _ _⟩⟩
      · rw [if_neg hm] at hr; cases hr
  · rw [if_neg ht] at hr ⊢
    have : Dict.erase dst k = dst := erase_absent hdst
    rw [this] at hr
    cases hr
    exact ⟨.refl _ _, hdst⟩
where
  erase_absent {dst : Dict Json} {k : Str} (h : Dict.get? dst k = none) : Dict.erase dst k = dst := by
    induction dst with
    | nil => rfl
    | cons x dst ih =>
      obtain ⟨a, b⟩ := x
      rw [Dict.get?_cons] at h
      unfold Dict.erase
      split at h
      · cases h
      · rename_i hne; simp [hne, ih h]

theorem only_nil (ks : List Str) : Only ks [] := fun _ h => absurd rfl h

theorem only_step {ks : List Str} {key : Str} {d d' : Dict Json} (h : Only ks d) (s : Step key d d') : Only (ks ++ [key]) d' := by
  intro k hk
  by_cases e : k = key
  · simp [e]
  · rw [s.frame k e] at hk
    exact List.mem_append_left _ (h k hk)

theorem only_mono {ks ks' : List Str} {d : Dict Json} (h : Only ks d) (hs : ∀ k ∈ ks, k ∈ ks') : Only ks' d :=
  fun k hk => hs k (h k hk)

theorem only_none {ks : List Str} {d : Dict Json} (h : Only ks d) {k : Str} (hk : k ∉ ks) : Dict.get? d k = none := by
  cases hg : Dict.get? d k with
  | none => rfl
  | some v => exact absurd (h k (by rw [hg]; simp)) hk

theorem boundTo_congr {num : Numbers} {d r r' : Dict Json} {k : Str} (h : Dict.get? r' k = Dict.get? r k)
    (hb : BoundTo num d k r) : BoundTo num d k r' := by
  unfold BoundTo at hb ⊢
  rw [h]; exact hb

theorem typeTo_congr {sep path : Str} {d r r' : Dict Json} (h1 : Dict.get? r' (s% "type") = Dict.get? r (s% "type"))
    (h2 : Dict.get? r' (s% "$ref") = Dict.get? r (s% "$ref")) (h : TypeTo sep path d r) : TypeTo sep path d r' := by
  unfold TypeTo at h ⊢
  rw [h1, h2]; exact h

/-- The classes that describe data. -/
def dataClass (c : Str) : Bool :=
  ([s% "type", s% "$ref", s% "format", s% "defaultValue", s% "minimum", s% "maximum", s% "uniqueItems", s% "enum"].all (looseField c)) &&
  decide ((Dict.get? (pkg c).children (s% "items")).map (fun cd => cd.builder) = some (.cls (s% "v1_2.Items")))

theorem dataClass_field {c k : Str} (h : dataClass c = true)
    (hk : k ∈ [s% "type", s% "$ref", s% "format", s% "defaultValue", s% "minimum", s% "maximum", s% "uniqueItems", s% "enum"]) :
    looseField c k = true := by
  unfold dataClass at h
  rw [Bool.and_eq_true] at h
  exact List.all_eq_true.1 h.1 k hk

theorem dataClass_items {c : Str} (h : dataClass c = true) :
    (Dict.get? (pkg c).children (s% "items")).map (fun cd => cd.builder) = some (.cls (s% "v1_2.Items")) := by
  unfold dataClass at h
  rw [Bool.and_eq_true] at h
  exact of_decide_eq_true h.2

theorem dataClass_parameter : dataClass (s% "v1_2.Parameter") = true := by decide +kernel
theorem dataClass_operation : dataClass (s% "v1_2.Operation") = true := by decide +kernel
theorem dataClass_property : dataClass (s% "v1_2.Property") = true := by decide +kernel

theorem look_wf12 {d : Dict Json} (h : (Json.obj d).wf = true) (k : Str) : (look d k).wf = true := by
  unfold look
  cases hg : Dict.get? d k with
  | none => rfl
  | some v => exact wf_at h hg

theorem itemsOf_ok {env : Env} (hl : LowerOk env) {path c : Str} (hd : dataClass c = true) {d : Dict Json} {o : Obj}
    (h : Built (.cls c) (.obj d) o) {dst r : Dict Json} (hn : Dict.get? dst (s% "items") = none)
    (hr : itemsOf env (path.drop 1) o dst = .ok r) :
    Step (s% "items") dst r ∧ (given d (s% "items") = none → Dict.get? r (s% "items") = none) ∧
    (∀ e, given d (s% "items") = some (.obj e) → ∃ i, Dict.get? r (s% "items") = some (.obj i) ∧ TypeTo env.sep path e i ∧
      Dict.get? i (s% "format") = some (look e (s% "format")) ∧ Only [s% "type", s% "$ref", s% "format"] i) := by
  unfold itemsOf at hr
  rcases built_kid_cls h (dataClass_items hd) with ⟨h1, h2, _⟩ | ⟨e, x, h1, h2, _, h3⟩
  · rw [h2] at hr
    cases hr
    exact ⟨.refl _ _, fun _ => hn, fun e he => by rw [h1] at he; cases he⟩
  · rw [h2] at hr
    dsimp only at hr
    obtain ⟨i, g1, hr⟩ := bindOk hr
    have hf : looseField (s% "v1_2.Items") (s% "format") = true := by decide +kernel
    rw [built_look h3 hf] at hr
    cases hr
    obtain ⟨t1, t2, t3⟩ := updateTypeAndRef_ok hl h3 (by decide +kernel) (by decide +kernel) g1
    have st : Step (s% "format") i (Dict.set i (s% "format") (look e (s% "format"))) := .set _ _ (look_wf12 h3.wf _)
    refine ⟨.set _ _ (st.wf t3), (fun hg => by rw [h1] at hg; cases hg), fun e' he => ?_⟩
    rw [h1] at he
    cases he
    refine ⟨_, Dict.get?_set_self _ _ _, typeTo_congr (st.frame _ (by decide)) (st.frame _ (by decide)) t1,
      Dict.get?_set_self _ _ _, only_step t2 st⟩

theorem convertMinMax_ok {env : Env} (hn : NumbersOk env) {c : Str} (hd : dataClass c = true) {d : Dict Json} {o : Obj}
    (h : Built (.cls c) (.obj d) o) {dst r : Dict Json} (h1 : Dict.get? dst (s% "minimum") = none)
    (h2 : Dict.get? dst (s% "maximum") = none) (hr : convertMinMax env o dst = .ok r) :
    ∃ m, Step (s% "minimum") dst m ∧ Step (s% "maximum") m r ∧
      BoundTo env.numbers d (s% "minimum") r ∧ BoundTo env.numbers d (s% "maximum") r := by
  unfold convertMinMax at hr
  obtain ⟨m, g1, g2⟩ := bindOk hr
  obtain ⟨s1, b1⟩ := fromStr_ok hn h (dataClass_field hd (by decide)) (dataClass_field hd (by decide)) h1 g1
  obtain ⟨s2, b2⟩ := fromStr_ok hn h (dataClass_field hd (by decide)) (dataClass_field hd (by decide))
    ((s1.frame _ (by decide)).trans h2) g2
  exact ⟨m, s1, s2, boundTo_congr (s2.frame _ (by decide)) b1, b2⟩

theorem copySet_ok {c : Str} {d : Dict Json} {o : Obj} (h : Built (.cls c) (.obj d) o) {src : Str}
    (hk : looseField c src = true ∨ requiredField c src = true) {name : Str} {dst dst' : Dict Json}
    (hn : Dict.get? dst name = none) (hr : copySet o src name dst = .ok dst') :
    Step name dst dst' ∧ Dict.get? dst' name = Dict.get? d src := by
  obtain ⟨x, h1, h2, h3⟩ := copySet_built h hk name dst
  rw [h1] at hr
  cases hr
  rw [hn, Option.or_none] at h3
  exact ⟨h2, h3⟩

/-- Schemas of data types. -/
theorem schemaOf_ok {env : Env} (hl : LowerOk env) (hn : NumbersOk env) {path c : Str} (hd : dataClass c = true)
    {d : Dict Json} {o : Obj} (h : Built (.cls c) (.obj d) o) {r : Dict Json} (hr : schemaOf env (path.drop 1) o = .ok r) :
    DataTypeTo env.numbers env.sep path d r ∧ (Json.obj r).wf = true := by
  unfold schemaOf at hr
  obtain ⟨d1, g1, hr⟩ := bindOk hr
  obtain ⟨d2, g2, hr⟩ := bindOk hr
  obtain ⟨d3, g3, hr⟩ := bindOk hr
  obtain ⟨d4, g4, hr⟩ := bindOk hr
  obtain ⟨u, gu, hr⟩ := bindOk hr
  obtain ⟨e, ge, hr⟩ := bindOk hr
  rw [built_look h (dataClass_field hd (by decide))] at gu ge
  cases gu
  cases ge
  obtain ⟨t1, o1, w1⟩ := updateTypeAndRef_ok hl h (dataClass_field hd (by decide)) (dataClass_field hd (by decide)) g1
  obtain ⟨s2, e2⟩ := copySet_ok h (.inl (dataClass_field hd (by decide))) (only_none o1 (by decide)) g2
  have o2 := only_step o1 s2
  obtain ⟨s3, e3⟩ := copySet_ok h (.inl (dataClass_field hd (by decide))) (only_none o2 (by decide)) g3
  have o3 := only_step o2 s3
  obtain ⟨m, s4, s5, b1, b2⟩ := convertMinMax_ok hn hd h (only_none o3 (by decide)) (only_none o3 (by decide)) g4
  have o5 := only_step (only_step o3 s4) s5
  have s6 : Step (s% "uniqueItems") d4 (Dict.set d4 (s% "uniqueItems") (look d (s% "uniqueItems"))) := .set _ _ (look_wf12 h.wf _)
  have s7 : Step (s% "enum") (Dict.set d4 (s% "uniqueItems") (look d (s% "uniqueItems")))
    (Dict.set (Dict.set d4 (s% "uniqueItems") (look d (s% "uniqueItems"))) (s% "enum") (look d (s% "enum"))) :=
    .set _ _ (look_wf12 h.wf _)
  have o7 := only_step (only_step o5 s6) s7
  obtain ⟨s8, i1, i2⟩ := itemsOf_ok hl hd h (only_none o7 (by decide)) hr
  have fr : ∀ k, k ∉ [s% "minimum", s% "maximum", s% "uniqueItems", s% "enum", s% "items"] → Dict.get? r k = Dict.get? d3 k := by
    intro k hk
    simp only [List.mem_cons, List.not_mem_nil, or_false, not_or] at hk
    rw [s8.frame _ hk.2.2.2.2, s7.frame _ hk.2.2.2.1, s6.frame _ hk.2.2.1, s5.frame _ hk.2.1, s4.frame _ hk.1]
  have fr' : ∀ k, k ∉ [s% "uniqueItems", s% "enum", s% "items"] → Dict.get? r k = Dict.get? d4 k := by
    intro k hk
    simp only [List.mem_cons, List.not_mem_nil, or_false, not_or] at hk
    rw [s8.frame _ hk.2.2, s7.frame _ hk.2.1, s6.frame _ hk.1]
  refine ⟨⟨typeTo_congr ?_ ?_ t1, ?_, ?_, boundTo_congr (fr' _ (by decide)) b1, boundTo_congr (fr' _ (by decide)) b2, ?_, ?_, i1, i2,
    only_mono (only_step o7 s8) (by decide)⟩, s8.wf (s7.wf (s6.wf (s5.wf (s4.wf (s3.wf (s2.wf w1))))))⟩
  · rw [fr _ (by decide), s3.frame _ (by decide), s2.frame _ (by decide)]
  · rw [fr _ (by decide), s3.frame _ (by decide), s2.frame _ (by decide)]
  · rw [fr _ (by decide), s3.frame _ (by decide), e2]
  · rw [fr _ (by decide), e3]
  · rw [s8.frame _ (by decide), s7.frame _ (by decide), Dict.get?_set_self]
  · rw [s8.frame _ (by decide), Dict.get?_set_self]

/-- The items of parameters. -/
theorem convertItems_ok {env : Env} (hl : LowerOk env) {c : Str} {d : Dict Json} {o : Obj} (h : Built (.cls c) (.obj d) o)
    (hc : ∀ k ∈ [s% "type", s% "$ref", s% "format"], looseField c k = true) {r : Dict Json} (hr : convertItems env o = .ok r) :
    Items12To d r ∧ Only [s% "type", s% "format"] r ∧ (Json.obj r).wf = true ∧ textOf (look d (s% "$ref")) = none := by
  unfold convertItems at hr
  rw [built_look h (hc _ (by decide)), built_look h (hc _ (by decide))] at hr
  obtain ⟨ref, e0, hr⟩ := bindOk hr
  cases e0
  split at hr
  · cases hr
  rename_i href
  obtain ⟨ty, e0, hr⟩ := bindOk hr
  cases e0
  split at hr
  · rename_i hp
    obtain ⟨t, ht, hpt⟩ := isPrimitive_iff.1 hp
    rw [ht] at hr
    obtain ⟨_, e0, hr⟩ := bindOk hr
    cases e0
    rw [hl t hpt] at hr
    obtain ⟨st, g⟩ := copySet_ok h (.inl (hc _ (by decide))) (only_none (ks := [s% "type"]) (by
      intro k hk
      rw [Dict.get?_cons] at hk
      split at hk
      · rename_i e; simp [← e]
      · exact absurd rfl hk) (by decide)) hr
    refine ⟨⟨⟨t, ?_, ?_⟩, g⟩, ?_, st.wf rfl, ?_⟩
    · unfold primitiveOf
      rw [textOf_some.2 ⟨ht, primitive_ne hpt⟩]
      simp [Option.filter, hpt]
    · rw [st.frame _ (by decide)]; rfl
    · intro k hk
      by_cases e : k = s% "format"
      · simp [e]
      · rw [st.frame _ e, Dict.get?_cons] at hk
        split at hk
        · rename_i e'; simp [← e']
        · exact absurd rfl hk
    · cases hx : textOf (look d (s% "$ref")) with
      | none => rfl
      | some t =>
        obtain ⟨e1, e2⟩ := textOf_some.1 hx
        rw [e1] at href
        exact absurd (truthy_str.2 e2) href
  · cases hr

theorem paramHead_ok {d : Dict Json} {o : Obj} (h : Built (.cls (s% "v1_2.Parameter")) (.obj d) o) {r : Dict Json}
    (hr : paramHead o = .ok r) : (∀ k ∈ [s% "name", s% "required", s% "description"], Dict.get? r k = Dict.get? d k) ∧
      Only [s% "name", s% "required", s% "description"] r ∧ (Json.obj r).wf = true := by
  unfold paramHead at hr
  obtain ⟨d1, g1, hr⟩ := bindOk hr
  obtain ⟨d2, g2, hr⟩ := bindOk hr
  have o0 := only_nil ([] : List Str)
  obtain ⟨s1, e1⟩ := copySet_ok h (.inr (by decide +kernel)) rfl g1
  have o1 := only_step o0 s1
  obtain ⟨s2, e2⟩ := copySet_ok h (.inl (by decide +kernel)) (only_none o1 (by decide)) g2
  have o2 := only_step o1 s2
  obtain ⟨s3, e3⟩ := copySet_ok h (.inl (by decide +kernel)) (only_none o2 (by decide)) hr
  refine ⟨?_, only_step o2 s3, s3.wf (s2.wf (s1.wf rfl))⟩
  intro k hk
  simp only [List.mem_cons, List.not_mem_nil, or_false] at hk
  rcases hk with rfl | rfl | rfl
  · rw [s3.frame _ (by decide), s2.frame _ (by decide), e1]
  · rw [s3.frame _ (by decide), e2]
  · exact e3

theorem repeated_ok {env : Env} (hl : LowerOk env) {d : Dict Json} {o : Obj} (h : Built (.cls (s% "v1_2.Parameter")) (.obj d) o)
    {ks : List Str} {dst r : Dict Json} (hk : Only ks dst)
    (hd : ∀ k ∈ [s% "type", s% "collectionFormat", s% "uniqueItems", s% "items", s% "default"], k ∉ ks)
    (hw : (Json.obj dst).wf = true) (hr : repeated env o dst = .ok r) :
    RepeatedTo d r ∧ Only (ks ++ [s% "type", s% "collectionFormat", s% "uniqueItems", s% "items", s% "default"]) r ∧
      (∀ k ∈ ks, Dict.get? r k = Dict.get? dst k) ∧ (Json.obj r).wf = true := by
  unfold repeated at hr
  have hdc := dataClass_parameter
  have s1 : Step (s% "type") dst (Dict.set dst (s% "type") (.str (s% "array"))) := .set _ _ rfl
  have s2 : Step (s% "collectionFormat") (Dict.set dst (s% "type") (.str (s% "array"))) (Dict.set (Dict.set dst (s% "type") (.str (s% "array"))) (s% "collectionFormat") (.str (s% "csv"))) := .set _ _ rfl
  have v1 := Dict.get?_set_self dst (s% "type") (Json.str (s% "array"))
  have v2 := Dict.get?_set_self (Dict.set dst (s% "type") (.str (s% "array"))) (s% "collectionFormat") (Json.str (s% "csv"))
  dsimp only at hr
  generalize Dict.set (Dict.set dst (s% "type") (.str (s% "array"))) (s% "collectionFormat") (.str (s% "csv")) = m2 at *
  generalize Dict.set dst (s% "type") (.str (s% "array")) = m1 at *
  obtain ⟨m3, g3, hr⟩ := bindOk hr
  have n2 : Dict.get? m2 (s% "uniqueItems") = none := by
    rw [s2.frame _ (by decide), s1.frame _ (by decide)]; exact only_none hk (hd _ (by decide))
  obtain ⟨s3, e3⟩ := copySet_ok h (.inl (dataClass_field hdc (by decide))) n2 g3
  obtain ⟨it, gi, hr⟩ := bindOk hr
  rw [built_isSet h, built_look h (dataClass_field hdc (by decide)), built_look h (dataClass_field hdc (by decide))] at hr
  obtain ⟨b, eb, hr⟩ := bindOk hr
  cases eb
  obtain ⟨v, ev, hr⟩ := bindOk hr
  cases ev
  obtain ⟨en, een, hr⟩ := bindOk hr
  cases een
  obtain ⟨i1, i2, i3, _⟩ := convertItems_ok hl h (fun k hk => dataClass_field hdc (by revert hk; revert k; decide)) gi
  have si : Step (s% "enum") it (Dict.set it (s% "enum") (look d (s% "enum"))) := .set _ _ (look_wf12 h.wf _)
  have s4 : Step (s% "items") m3 (Dict.set m3 (s% "items") (.obj (Dict.set it (s% "enum") (look d (s% "enum"))))) :=
    .set _ _ (si.wf i3)
  have v4 := Dict.get?_set_self m3 (s% "items") (Json.obj (Dict.set it (s% "enum") (look d (s% "enum"))))
  have vi := Dict.get?_set_self it (s% "enum") (look d (s% "enum"))
  generalize hm4 : Dict.set m3 (s% "items") (.obj (Dict.set it (s% "enum") (look d (s% "enum")))) = m4 at *
  generalize Dict.set it (s% "enum") (look d (s% "enum")) = it' at *
  have n4 : Dict.get? m4 (s% "default") = none := by
    rw [s4.frame _ (by decide), s3.frame _ (by decide), s2.frame _ (by decide), s1.frame _ (by decide)]
    exact only_none hk (hd _ (by decide))
  obtain ⟨s5, v5⟩ : Step (s% "default") m4 r ∧ Dict.get? r (s% "default") = (Dict.get? d (s% "defaultValue")).map (fun v => .arr [v]) := by
    cases hg : Dict.get? d (s% "defaultValue") with
    | none =>
      have : Dict.has d (s% "defaultValue") = false := by unfold Dict.has; rw [hg]; rfl
      rw [this] at hr
      cases hr
      exact ⟨.refl _ _, n4⟩
    | some v =>
      have : Dict.has d (s% "defaultValue") = true := by unfold Dict.has; rw [hg]; rfl
      rw [this, look, hg] at hr
      cases hr
      refine ⟨.set _ _ ?_, Dict.get?_set_self _ _ _⟩
      simp [Json.wf, Json.wfL, wf_at h.wf hg]
  have o5 := only_step (only_step (only_step (only_step (only_step hk s1) s2) s3) s4) s5
  refine ⟨⟨?_, ?_, ?_, v5, it', ?_, ⟨?_, ?_⟩, vi, only_step i2 si⟩, only_mono o5 (by simp), ?_, s5.wf (s4.wf (s3.wf (s2.wf (s1.wf hw))))⟩
  · rw [s5.frame _ (by decide), s4.frame _ (by decide), s3.frame _ (by decide), s2.frame _ (by decide), v1]
  · rw [s5.frame _ (by decide), s4.frame _ (by decide), s3.frame _ (by decide), v2]
  · rw [s5.frame _ (by decide), s4.frame _ (by decide), e3]
  · rw [s5.frame _ (by decide), v4]
  · obtain ⟨t, t1, t2⟩ := i1.1
    exact ⟨t, t1, by rw [si.frame _ (by decide), t2]⟩
  · rw [si.frame _ (by decide), i1.2]
  · intro k hkk
    have ne : ∀ x ∈ [s% "type", s% "collectionFormat", s% "uniqueItems", s% "items", s% "default"], k ≠ x := fun x hx e => hd x hx (e ▸ hkk)
    rw [s5.frame _ (ne _ (by decide)), s4.frame _ (ne _ (by decide)), s3.frame _ (ne _ (by decide)), s2.frame _ (ne _ (by decide)), s1.frame _ (ne _ (by decide))]

/-- What `single` sets. -/
def singleKeys : List Str := [s% "type", s% "format", s% "default", s% "minimum", s% "maximum", s% "enum"]

theorem single_ok {env : Env} (hn : NumbersOk env) {d : Dict Json} {o : Obj} (h : Built (.cls (s% "v1_2.Parameter")) (.obj d) o)
    {ks : List Str} {dst r : Dict Json} (hk : Only ks dst) (hd : ∀ k ∈ singleKeys, k ∉ ks) (hw : (Json.obj dst).wf = true)
    (hr : single env o dst = .ok r) :
    ((∃ t, look d (s% "type") = .str t ∧ Dict.get? r (s% "type") = some (.str (env.lower t))) ∧
      Dict.get? r (s% "format") = Dict.get? d (s% "format") ∧
      Dict.get? r (s% "default") = Dict.get? d (s% "defaultValue") ∧
      BoundTo env.numbers d (s% "minimum") r ∧ BoundTo env.numbers d (s% "maximum") r ∧
      Dict.get? r (s% "enum") = some (look d (s% "enum"))) ∧
    Only (ks ++ singleKeys) r ∧ (∀ k ∈ ks, Dict.get? r k = Dict.get? dst k) ∧ (Json.obj r).wf = true := by
  unfold single at hr
  have hdc := dataClass_parameter
  rw [built_look h (dataClass_field hdc (by decide))] at hr
  obtain ⟨_, e0, hr⟩ := bindOk hr
  cases e0
  obtain ⟨t, et, hr⟩ := bindOk hr
  have ht : look d (s% "type") = .str t := by
    cases hl : look d (s% "type") <;> rw [hl] at et <;> cases et
    rfl
  have s1 : Step (s% "type") dst (Dict.set dst (s% "type") (.str (env.lower t))) := .set _ _ rfl
  have v1 := Dict.get?_set_self dst (s% "type") (Json.str (env.lower t))
  have nn : ∀ k ∈ singleKeys, Dict.get? dst k = none := fun k h => only_none hk (hd k h)
  generalize Dict.set dst (s% "type") (.str (env.lower t)) = m1 at *
  obtain ⟨m2, g2, hr⟩ := bindOk hr
  obtain ⟨s2, e2⟩ := copySet_ok h (.inl (dataClass_field hdc (by decide))) (by rw [s1.frame _ (by decide)]; exact nn _ (by decide)) g2
  obtain ⟨m3, g3, hr⟩ := bindOk hr
  obtain ⟨s3, e3⟩ := copySet_ok h (.inl (dataClass_field hdc (by decide)))
    (by rw [s2.frame _ (by decide), s1.frame _ (by decide)]; exact nn _ (by decide)) g3
  obtain ⟨m5, g5, hr⟩ := bindOk hr
  obtain ⟨m4, s4, s5, b1, b2⟩ := convertMinMax_ok hn hdc h
    (by rw [s3.frame _ (by decide), s2.frame _ (by decide), s1.frame _ (by decide)]; exact nn _ (by decide))
    (by rw [s3.frame _ (by decide), s2.frame _ (by decide), s1.frame _ (by decide)]; exact nn _ (by decide)) g5
  rw [built_look h (dataClass_field hdc (by decide))] at hr
  cases hr
  have s6 : Step (s% "enum") m5 (Dict.set m5 (s% "enum") (look d (s% "enum"))) := .set _ _ (look_wf12 h.wf _)
  have v6 := Dict.get?_set_self m5 (s% "enum") (look d (s% "enum"))
  generalize Dict.set m5 (s% "enum") (look d (s% "enum")) = r at *
  have oo := only_step (only_step (only_step (only_step (only_step (only_step hk s1) s2) s3) s4) s5) s6
  refine ⟨⟨⟨t, ht, ?_⟩, ?_, ?_, boundTo_congr (s6.frame _ (by decide)) b1, boundTo_congr (s6.frame _ (by decide)) b2, v6⟩,
    only_mono oo (by simp [singleKeys]), ?_, s6.wf (s5.wf (s4.wf (s3.wf (s2.wf (s1.wf hw)))))⟩
  · rw [s6.frame _ (by decide), s5.frame _ (by decide), s4.frame _ (by decide), s3.frame _ (by decide), s2.frame _ (by decide), v1]
  · rw [s6.frame _ (by decide), s5.frame _ (by decide), s4.frame _ (by decide), s3.frame _ (by decide), e2]
  · rw [s6.frame _ (by decide), s5.frame _ (by decide), s4.frame _ (by decide), e3]
  · intro k hkk
    have ne : ∀ x ∈ singleKeys, k ≠ x := fun x hx e => hd x hx (e ▸ hkk)
    rw [s6.frame _ (ne _ (by decide)), s5.frame _ (ne _ (by decide)), s4.frame _ (ne _ (by decide)), s3.frame _ (ne _ (by decide)),
      s2.frame _ (ne _ (by decide)), s1.frame _ (ne _ (by decide))]

/-- What `paramItems` sets. -/
def arrayKeys : List Str := [s% "collectionFormat", s% "uniqueItems", s% "items"]

theorem paramItems_ok {env : Env} (hl : LowerOk env) {d : Dict Json} {o : Obj} (h : Built (.cls (s% "v1_2.Parameter")) (.obj d) o)
    {ks : List Str} {dst r : Dict Json} (hk : Only ks dst) (hd : ∀ k ∈ arrayKeys, k ∉ ks) (hw : (Json.obj dst).wf = true)
    (hr : paramItems env o dst = .ok r) :
    (given d (s% "items") = none → r = dst) ∧
    (∀ e, given d (s% "items") = some (.obj e) →
      Dict.get? r (s% "collectionFormat") = some (.str (s% "csv")) ∧
      Dict.get? r (s% "uniqueItems") = Dict.get? d (s% "uniqueItems") ∧
      ∃ i, Dict.get? r (s% "items") = some (.obj i) ∧ Items12To e i ∧ Only [s% "type", s% "format"] i) ∧
    Only (ks ++ arrayKeys) r ∧ (∀ k ∈ ks, Dict.get? r k = Dict.get? dst k) ∧ (Json.obj r).wf = true := by
  unfold paramItems at hr
  have hdc := dataClass_parameter
  rcases built_kid_cls h (dataClass_items hdc) with ⟨h1, h2, _⟩ | ⟨e, x, h1, h2, _, h3⟩
  · rw [h2] at hr
    cases hr
    exact ⟨fun _ => rfl, (fun e he => by rw [h1] at he; cases he), only_mono hk (fun k h => List.mem_append_left _ h), fun _ _ => rfl, hw⟩
  · rw [h2] at hr
    dsimp only at hr
    have s1 : Step (s% "collectionFormat") dst (Dict.set dst (s% "collectionFormat") (.str (s% "csv"))) := .set _ _ rfl
    have v1 := Dict.get?_set_self dst (s% "collectionFormat") (Json.str (s% "csv"))
    generalize Dict.set dst (s% "collectionFormat") (.str (s% "csv")) = m1 at *
    obtain ⟨m2, g2, hr⟩ := bindOk hr
    obtain ⟨s2, e2⟩ := copySet_ok h (.inl (dataClass_field hdc (by decide)))
      (by rw [s1.frame _ (by decide)]; exact only_none hk (hd _ (by decide))) g2
    obtain ⟨i, gi, hr⟩ := bindOk hr
    cases hr
    obtain ⟨i1, i2, i3, _⟩ := convertItems_ok hl h3 (by decide +kernel) gi
    have s3 : Step (s% "items") m2 (Dict.set m2 (s% "items") (.obj i)) := .set _ _ i3
    have v3 := Dict.get?_set_self m2 (s% "items") (Json.obj i)
    generalize Dict.set m2 (s% "items") (.obj i) = r at *
    refine ⟨(fun hg => by rw [h1] at hg; cases hg), fun e' he => ?_, only_mono (only_step (only_step (only_step hk s1) s2) s3) (by simp [arrayKeys]),
      fun k hkk => ?_, s3.wf (s2.wf (s1.wf hw))⟩
    · rw [h1] at he
      cases he
      refine ⟨?_, ?_, i, v3, i1, i2⟩
      · rw [s3.frame _ (by decide), s2.frame _ (by decide), v1]
      · rw [s3.frame _ (by decide), e2]
    · have ne : ∀ x ∈ arrayKeys, k ≠ x := fun x hx e => hd x hx (e ▸ hkk)
      rw [s3.frame _ (ne _ (by decide)), s2.frame _ (ne _ (by decide)), s1.frame _ (ne _ (by decide))]

/-- What all parameters have. -/
def headKeys : List Str := [s% "name", s% "required", s% "description", s% "in"]

theorem textOf_falsy {j : Json} (h : ¬ j.truthy = true) : textOf j = none := by
  cases hx : textOf j with
  | none => rfl
  | some t =>
    obtain ⟨rfl, e2⟩ := textOf_some.1 hx
    exact absurd (truthy_str.2 e2) h

theorem plainParam_ok {env : Env} (hl : LowerOk env) (hn : NumbersOk env) {d : Dict Json} {o : Obj}
    (h : Built (.cls (s% "v1_2.Parameter")) (.obj d) o) {dst r : Dict Json} (hk : Only headKeys dst)
    (hw : (Json.obj dst).wf = true) (hr : plainParam env o dst = .ok r) :
    (textOf (look d (s% "$ref")) = none ∧
    (Repeats d → RepeatedTo d r ∧ Only [s% "name", s% "required", s% "description", s% "in", s% "type", s% "collectionFormat",
      s% "uniqueItems", s% "items", s% "default"] r) ∧
    (¬ Repeats d → SingleTo env.numbers env.lower d r ∧ Only [s% "name", s% "required", s% "description", s% "in", s% "type", s% "format",
      s% "default", s% "minimum", s% "maximum", s% "enum", s% "collectionFormat", s% "uniqueItems", s% "items"] r)) ∧
    (∀ k ∈ headKeys, Dict.get? r k = Dict.get? dst k) ∧ (Json.obj r).wf = true := by
  unfold plainParam at hr
  have hdc := dataClass_parameter
  rw [built_look h (dataClass_field hdc (by decide)), built_look h (k := s% "allowMultiple") (by decide +kernel)] at hr
  obtain ⟨_, e0, hr⟩ := bindOk hr
  cases e0
  split at hr
  · cases hr
  rename_i href
  obtain ⟨_, e0, hr⟩ := bindOk hr
  cases e0
  obtain ⟨m, gm, hr⟩ := bindOk hr
  have hki : kid o (s% "items") = none ↔ given d (s% "items") = none := by
    rcases built_kid_cls h (dataClass_items hdc) with ⟨h1, _, h2⟩ | ⟨e, x, h1, _, h2, _⟩
    · simp [h1, h2]
    · simp [h1, h2]
  have hrep : (look d (s% "allowMultiple") = .bool true ∧ kid o (s% "items") = none) ↔ Repeats d := by
    unfold Repeats; rw [hki]
  split at gm
  · rename_i hm
    have hm' := hrep.1 hm
    obtain ⟨r1, r2, r3, r4⟩ := repeated_ok hl h hk (by decide) hw gm
    have hnone : kidT o (s% "items") = none := kidT_none_of hm.2
    unfold paramItems at hr
    rw [hnone] at hr
    cases hr
    exact ⟨⟨textOf_falsy href, fun _ => ⟨r1, r2⟩, fun hno => absurd hm' hno⟩, r3, r4⟩
  · rename_i hm
    have hm' : ¬ Repeats d := fun hx => hm (hrep.2 hx)
    obtain ⟨⟨t1, f1, f2, b1, b2, en⟩, o1, fr1, w1⟩ := single_ok hn h hk (by decide) hw gm
    obtain ⟨p1, p2, o2, fr2, w2⟩ := paramItems_ok hl h o1 (by decide) w1 hr
    refine ⟨⟨textOf_falsy href, fun hx => absurd hx hm', fun _ => ⟨⟨?_, ?_, ?_, ?_, ?_, ?_, ?_, p2⟩, only_mono o2 (by decide)⟩⟩, ?_, w2⟩
    · obtain ⟨t, t1, t2⟩ := t1
      exact ⟨t, t1, by rw [fr2 _ (by decide), t2]⟩
    · rw [fr2 _ (by decide), f1]
    · rw [fr2 _ (by decide), f2]
    · exact boundTo_congr (fr2 _ (by decide)) b1
    · exact boundTo_congr (fr2 _ (by decide)) b2
    · rw [fr2 _ (by decide), en]
    · intro hg
      rw [p1 hg]
      exact ⟨only_none o1 (by decide), only_none o1 (by decide), only_none o1 (by decide)⟩
    · intro k hkk
      rw [fr2 k (List.mem_append_left _ hkk), fr1 k hkk]

/-- Parameters. -/
theorem convertParameter_ok {env : Env} (hl : LowerOk env) (hn : NumbersOk env) {path : Str} {d : Dict Json} {o : Obj}
    (h : Built (.cls (s% "v1_2.Parameter")) (.obj d) o) {r : Dict Json} (hr : convertParameter env (path.drop 1) o = .ok r) :
    ParameterTo env.numbers env.lower env.sep path d r ∧ (Json.obj r).wf = true := by
  unfold convertParameter at hr
  obtain ⟨m0, g0, hr⟩ := bindOk hr
  obtain ⟨h1, h2, h3⟩ := paramHead_ok h g0
  obtain ⟨pt, gp, hr⟩ := bindOk hr
  have hpt : pt = look d (s% "paramType") := by
    rw [built_required h (by decide +kernel)] at gp
    unfold look
    cases hg : Dict.get? d (s% "paramType") with
    | none => rw [hg] at gp; cases gp
    | some v => rw [hg] at gp; cases gp; rfl
  subst hpt
  dsimp only at hr
  change (if placeTo (look d (s% "paramType")) = _ then _ else _) = _ at hr
  have hwp : (placeTo (look d (s% "paramType"))).wf = true := by
    unfold placeTo
    split
    · rfl
    · exact look_wf12 h.wf _
  have s1 : Step (s% "in") m0 (Dict.set m0 (s% "in") (placeTo (look d (s% "paramType")))) := .set _ _ hwp
  have v1 := Dict.get?_set_self m0 (s% "in") (placeTo (look d (s% "paramType")))
  change (if _ then _ else plainParam env o (Dict.set m0 (s% "in") (placeTo (look d (s% "paramType"))))) = _ at hr
  change (if _ then (do let s ← schemaOf env (path.drop 1) o; .ok (Dict.set (Dict.set m0 (s% "in") (placeTo (look d (s% "paramType")))) _ _)) else _) = _ at hr
  generalize Dict.set m0 (s% "in") (placeTo (look d (s% "paramType"))) = m1 at *
  have o1 : Only headKeys m1 := only_mono (only_step h2 s1) (by decide)
  have hb : placeTo (look d (s% "paramType")) = .str (s% "body") ↔ look d (s% "paramType") = .str (s% "body") := by
    unfold placeTo
    split
    · rename_i e; rw [e]; decide
    · exact Iff.rfl
  split at hr
  · rename_i hc
    obtain ⟨s, gs, hr⟩ := bindOk hr
    cases hr
    obtain ⟨ds, ws⟩ := schemaOf_ok hl hn dataClass_parameter h gs
    have s2 : Step (s% "schema") m1 (Dict.set m1 (s% "schema") (.obj s)) := .set _ _ ws
    refine ⟨⟨⟨fun k hk => ?_, ?_⟩, fun _ => ⟨⟨s, Dict.get?_set_self _ _ _, ds⟩, only_step o1 s2⟩, fun hx => absurd (hb.1 hc) hx⟩,
      s2.wf (s1.wf h3)⟩
    · have : k ≠ s% "schema" ∧ k ≠ s% "in" := by revert hk; revert k; decide
      rw [s2.frame _ this.1, s1.frame _ this.2, h1 k hk]
    · rw [s2.frame _ (by decide), v1]
  · rename_i hc
    obtain ⟨p1, p2, p3⟩ := plainParam_ok hl hn h o1 (s1.wf h3) hr
    refine ⟨⟨⟨fun k hk => ?_, ?_⟩, fun hx => absurd (hb.2 hx) hc, fun _ => p1⟩, p3⟩
    · have : k ∈ headKeys ∧ k ≠ s% "in" := by revert hk; revert k; decide
      rw [p2 k this.1, s1.frame _ this.2, h1 k hk]
    · rw [p2 _ (by decide), v1]

end Up12
end Pyopenapi
