import Verif.Lemmas.Up12Ops

/-! Models, and the definitions they make. -/

namespace Pyopenapi
open Spec Obj Conv
namespace Up12

theorem entries_dicts {c : Str} {l : Dict Json} {os : List (Str × Obj)}
    (h : List.Forall₂ (fun x y => x.1 = y.1 ∧ Built (.cls c) x.2 y.2) l os) {k : Str} {v : Json} (hv : (k, v) ∈ l) :
    ∃ d, v = .obj d := by
  induction h with
  | nil => cases hv
  | cons hb _ ih =>
    rcases List.mem_cons.1 hv with e | e
    · obtain ⟨d, _, _, hd, _, _⟩ := built_cls hb.2
      rw [← e] at hd
      exact ⟨d, hd⟩
    · exact ih e

/-- Properties: one for each, in order, with the same names. -/
theorem propertiesOf_ok {env : Env} (hl : LowerOk env) (hn : NumbersOk env) {path : Str} {l : Dict Json} {os : List (Str × Obj)}
    (h : List.Forall₂ (fun x y => x.1 = y.1 ∧ Built (.cls (s% "v1_2.Property")) x.2 y.2) l os) {r : Dict Json}
    (hr : propertiesOf env (path.drop 1) os = .ok r) :
    Dict.keys r = Dict.keys l ∧ (∀ k, match Dict.get? l k with
      | none => Dict.get? r k = none
      | some v => ∃ d s, v = .obj d ∧ Dict.get? r k = some (.obj s) ∧ PropertyTo12 env.numbers env.sep path d s) ∧
    Json.wfD r = true := by
  induction h generalizing r with
  | nil => cases hr; exact ⟨rfl, fun k => rfl, rfl⟩
  | @cons x y _ _ hb _ ih =>
    obtain ⟨n, j⟩ := x
    obtain ⟨n', o⟩ := y
    obtain ⟨h1, h2⟩ := hb
    dsimp only at h1 h2
    subst h1
    unfold propertiesOf at hr
    obtain ⟨d, _, _, rfl, _, _⟩ := built_cls h2
    obtain ⟨s, g1, hr⟩ := bindOk hr
    rw [built_look h2 (k := s% "description") (by decide +kernel)] at hr
    obtain ⟨_, e0, hr⟩ := bindOk hr
    cases e0
    obtain ⟨rs, g3, hr⟩ := bindOk hr
    cases hr
    obtain ⟨i1, i2, i3⟩ := ih g3
    obtain ⟨q1, q2⟩ := schemaOf_ok hl hn dataClass_property h2 g1
    refine ⟨by simp only [Dict.keys, List.map_cons] at i1 ⊢; rw [i1], fun k => ?_, ?_⟩
    · rw [Dict.get?_cons, Dict.get?_cons]
      by_cases e : n = k
      · rw [if_pos e, if_pos e]
        exact ⟨d, _, rfl, rfl, s, q1, fun k' hk' => Dict.get?_set_ne _ _ (Ne.symm hk'), Dict.get?_set_self _ _ _⟩
      · rw [if_neg e, if_neg e]
        exact i2 k
    · simp only [Json.wfD, Bool.and_eq_true]
      exact ⟨wf_set_obj q2 (look_wf12 h2.wf _), i3⟩

/-- How a definition can be made: from nothing, as the definition of a model, or as that of a subtype. -/
def DefOpt (num : Numbers) (sep : Str) (xs : List Model12) (parents : List Json) : Option (Dict Json) → Prop
  | none => xs = [] ∧ parents = []
  | some s => (xs ≠ [] ∨ parents ≠ []) ∧ DefinitionTo num sep xs parents s

theorem defOpt_parent {num : Numbers} {sep : Str} {xs : List Model12} {parents : List Json} {s : Option (Dict Json)}
    (h : DefOpt num sep xs parents s) (ref : Str) :
    DefOpt num sep xs (parents ++ [.obj [(s% "$ref", .str ref)]]) (some (addParent ref (s.getD []))) := by
  refine ⟨.inr (by simp), ?_⟩
  have hold : listOr (Dict.get? (s.getD []) (s% "allOf")) = parents := by
    cases s with
    | none => rw [h.2]; rfl
    | some s =>
      rw [Option.getD_some, h.2.1]
      by_cases hp : parents = []
      · rw [if_pos hp, hp]; rfl
      · rw [if_neg hp]; rfl
  have st : ∀ k, k ≠ s% "allOf" → Dict.get? (addParent ref (s.getD [])) k = Dict.get? (s.getD []) k := by
    intro k hk
    unfold addParent
    exact Dict.get?_set_ne _ _ (Ne.symm hk)
  have v0 : Dict.get? (addParent ref (s.getD [])) (s% "allOf") = some (.arr (parents ++ [.obj [(s% "$ref", .str ref)]])) := by
    unfold addParent
    rw [Dict.get?_set_self, hold]
  refine ⟨by rw [v0, if_neg (by simp)], fun hx => ?_, fun hx => ?_, fun k hk => ?_, fun k hk => ?_⟩
  · rw [st _ (by decide)]
    cases s with
    | none => rfl
    | some s => exact h.2.2.1 hx
  · cases s with
    | none => exact absurd h.1 hx
    | some s =>
      obtain ⟨props, p1, p2⟩ := h.2.2.2.1 hx
      exact ⟨props, by rw [st _ (by decide)]; exact p1, p2⟩
  · have : k ≠ s% "allOf" := by revert hk; revert k; decide
    rw [st _ this]
    cases s with
    | none => rw [h.1]; rfl
    | some s => exact h.2.2.2.2.1 k hk
  · by_cases e : k = s% "allOf"
    · simp [e]
    · rw [st _ e] at hk
      cases s with
      | none => exact absurd rfl hk
      | some s => exact h.2.2.2.2.2 k hk

/-- What adding a model to the subtypes does to each definition. -/
theorem addSubtypes_ok {env : Env} {path name : Str} (num : Numbers) : ∀ (ts : List Json) (defs defs' : Dict (Dict Json))
    (xs : Str → List Model12) (ps : Str → List Json), (∀ n, DefOpt num env.sep (xs n) (ps n) (Dict.get? defs n)) →
    addSubtypes env (path.drop 1) name ts defs = .ok defs' →
    (∃ ss : List Str, ts = ss.map .str ∧ ∀ n, DefOpt num env.sep (xs n) (ps n ++ (ss.map (modelName env.sep path)).filterMap
      (fun t => if t = n then some (.obj [(s% "$ref", .str (s% "#/definitions/" ++ name))]) else none)) (Dict.get? defs' n)) := by
  intro ts
  induction ts with
  | nil => intro defs defs' xs ps h hr; cases hr; exact ⟨[], rfl, fun n => by simpa using h n⟩
  | cons t ts ih =>
    intro defs defs' xs ps h hr
    unfold addSubtypes at hr
    obtain ⟨n, g1, hr⟩ := bindOk hr
    have ht := asText_ok g1
    rw [scopeCompose_name] at hr
    dsimp only at hr
    have step : ∀ m, DefOpt num env.sep (xs m) (ps m ++ (if modelName env.sep path n = m then
        [Json.obj [(s% "$ref", .str (s% "#/definitions/" ++ name))]] else []))
        (Dict.get? (Dict.set defs (modelName env.sep path n) (addParent (s% "#/definitions/" ++ name)
          ((Dict.get? defs (modelName env.sep path n)).getD []))) m) := by
      intro m
      by_cases e : modelName env.sep path n = m
      · subst e
        rw [if_pos rfl, Dict.get?_set_self]
        exact defOpt_parent (h _) _
      · rw [if_neg e, Dict.get?_set_ne _ _ e, List.append_nil]
        exact h m
    obtain ⟨ss, e1, e2⟩ := ih _ _ _ _ step hr
    refine ⟨n :: ss, by rw [ht, e1]; rfl, fun m => ?_⟩
    have := e2 m
    rw [List.append_assoc] at this
    rw [List.map_cons, List.filterMap_cons]
    by_cases e : modelName env.sep path n = m
    · rw [if_pos e] at this ⊢; exact this
    · rw [if_neg e] at this ⊢; exact this

/-- `subTypes` is a list, or nothing. -/
def SubTypesOk (m : Dict Json) : Prop := (look m (s% "subTypes")).truthy = true → ∃ l, look m (s% "subTypes") = .arr l

theorem iterate_ok {m : Dict Json} (h : SubTypesOk m) {l : List Json} (hr : iterate (look m (s% "subTypes")) = .ok l) :
    listAt m (s% "subTypes") = l := by
  unfold iterate at hr
  split at hr
  · rename_i ht
    obtain ⟨l', hl⟩ := h ht
    rw [hl] at hr
    cases hr
    unfold look at hl
    unfold listAt
    cases hg : Dict.get? m (s% "subTypes") with
    | none => rw [hg] at hl; cases hl
    | some v => rw [hg] at hl; cases hl; rfl
  · rename_i ht
    cases hr
    unfold look at ht
    unfold listAt
    cases hg : Dict.get? m (s% "subTypes") with
    | none => rfl
    | some v =>
      rw [hg] at ht
      cases v with
      | arr l => cases l with
        | nil => rfl
        | cons x l => exact absurd rfl ht
      | _ => rfl

theorem modelFields_ok {m : Dict Json} {o : Obj} (h : Built (.cls (s% "v1_2.Model")) (.obj m) o) {dst r : Dict Json}
    (hr : modelFields o dst = .ok r) :
    (∀ k ∈ [s% "required", s% "discriminator", s% "description"], Dict.get? r k = (Dict.get? m k).or (Dict.get? dst k)) ∧
    (∀ k, k ∉ [s% "required", s% "discriminator", s% "description"] → Dict.get? r k = Dict.get? dst k) ∧
    ((Json.obj dst).wf = true → (Json.obj r).wf = true) := by
  unfold modelFields at hr
  obtain ⟨d1, g1, hr⟩ := bindOk hr
  obtain ⟨d2, g2, g3⟩ := bindOk hr
  obtain ⟨x1, f1, s1, v1⟩ := copySet_built h (src := s% "required") (.inl (by decide +kernel)) (s% "required") dst
  rw [f1] at g1; cases g1
  obtain ⟨x2, f2, s2, v2⟩ := copySet_built h (src := s% "discriminator") (.inl (by decide +kernel)) (s% "discriminator") d1
  rw [f2] at g2; cases g2
  obtain ⟨x3, f3, s3, v3⟩ := copySet_built h (src := s% "description") (.inl (by decide +kernel)) (s% "description") d2
  rw [f3] at g3; cases g3
  refine ⟨fun k hk => ?_, fun k hk => ?_, fun hw => s3.wf (s2.wf (s1.wf hw))⟩
  · simp only [List.mem_cons, List.not_mem_nil, or_false] at hk
    rcases hk with rfl | rfl | rfl
    · rw [s3.frame _ (by decide), s2.frame _ (by decide), v1]
    · rw [s3.frame _ (by decide), v2, s1.frame _ (by decide)]
    · rw [v3, s2.frame _ (by decide), s1.frame _ (by decide)]
  · simp only [List.mem_cons, List.not_mem_nil, or_false, not_or] at hk
    rw [s3.frame _ hk.2.2, s2.frame _ hk.2.1, s1.frame _ hk.1]

theorem getLast?_filterMap_snoc {α β : Type} (f : α → Option β) (xs : List α) (x : α) :
    ((xs ++ [x]).filterMap f).getLast? = (f x).or (xs.filterMap f).getLast? := by
  rw [List.filterMap_append, List.filterMap_cons, List.filterMap_nil]
  cases f x with
  | none => simp
  | some y => simp

/-- A definition and one more model of its name. -/
theorem defOpt_model {num : Numbers} {sep : Str} {xs : List Model12} {parents : List Json} {s : Option (Dict Json)}
    (h : DefOpt num sep xs parents s) {x : Model12} {o : Obj} (ho : Built (.cls (s% "v1_2.Model")) (.obj x.model) o)
    {props : Dict Json} (hw : (Dict.NodupKeys props))
    (hp : ∀ k, match Dict.get? (objAt x.model (s% "properties")) k with
      | none => Dict.get? props k = none
      | some v => ∃ d r, v = .obj d ∧ Dict.get? props k = some (.obj r) ∧ PropertyTo12 num sep (resourcePath x.decl) d r)
    {r : Dict Json} (hr : modelFields o (addProperties props (s.getD [])) = .ok r) :
    DefOpt num sep (xs ++ [x]) parents (some r) := by
  obtain ⟨f1, f2, _⟩ := modelFields_ok ho hr
  have st : ∀ k, k ≠ s% "properties" → Dict.get? (addProperties props (s.getD [])) k = Dict.get? (s.getD []) k := by
    intro k hk
    unfold addProperties
    exact Dict.get?_set_ne _ _ (Ne.symm hk)
  refine ⟨.inl (by simp), ?_, fun hx => absurd hx (by simp), fun _ => ?_, fun k hk => ?_, fun k hk => ?_⟩
  · rw [f2 _ (by decide), st _ (by decide)]
    cases s with
    | none => rw [h.2]; rfl
    | some s => exact h.2.1
  · obtain ⟨old, ho1, ho2⟩ : ∃ old, dictOr (Dict.get? (s.getD []) (s% "properties")) = old ∧ ∀ k, match propertyOf xs k with
          | none => Dict.get? old k = none
          | some (x, v) => ∃ d r, v = .obj d ∧ Dict.get? old k = some (.obj r) ∧ PropertyTo12 num sep (resourcePath x.decl) d r := by
      refine ⟨_, rfl, ?_⟩
      cases s with
      | none =>
        rw [h.1]
        intro k; rfl
      | some s =>
        by_cases hx : xs = []
        · have := h.2.2.1 hx
          simp only [Option.getD_some, this]
          subst hx
          intro k; rfl
        · obtain ⟨ps, p1, p2⟩ := h.2.2.2.1 hx
          simp only [Option.getD_some, p1]
          exact p2
    refine ⟨Dict.update old props, ?_, fun k => ?_⟩
    · rw [f2 _ (by decide)]
      unfold addProperties
      rw [Dict.get?_set_self, ho1]
    · unfold propertyOf
      rw [getLast?_filterMap_snoc, Dict.get?_update hw]
      have := hp k
      cases hg : Dict.get? (objAt x.model (s% "properties")) k with
      | none =>
        rw [hg] at this
        dsimp only at this
        rw [this]
        exact ho2 k
      | some v =>
        rw [hg] at this
        obtain ⟨d, r, e1, e2, e3⟩ := this
        refine ⟨d, r, e1, ?_, e3⟩
        rw [e2]; rfl
  · rw [f1 k hk, getLast?_filterMap_snoc]
    congr 1
    have : k ≠ s% "properties" := by revert hk; revert k; decide
    rw [st _ this]
    cases s with
    | none => rw [h.1]; rfl
    | some s => exact h.2.2.2.2.1 k hk
  · by_cases e1 : k ∈ [s% "required", s% "discriminator", s% "description"]
    · clear hk; revert e1; revert k; decide
    · rw [f2 k e1] at hk
      by_cases e2 : k = s% "properties"
      · simp [e2]
      · rw [st k e2] at hk
        cases s with
        | none => exact absurd rfl hk
        | some s => exact h.2.2.2.2.2 k hk

theorem strsAt_of {d : Dict Json} {k : Str} {ss : List Str} (h : listAt d k = ss.map .str) : strsAt d k = ss := by
  unfold strsAt
  rw [h]
  clear h
  induction ss with
  | nil => rfl
  | cons s ss ih => rw [List.map_cons, List.filterMap_cons]; dsimp only; rw [ih]

theorem definitionsTo_iff {num : Numbers} {sep : Str} {ms : List Model12} {defs : Dict (Dict Json)} :
    DefinitionsTo num sep ms defs ↔ ∀ n, DefOpt num sep (namedOf sep ms n) (parentsOf sep ms n) (Dict.get? defs n) := by
  unfold DefinitionsTo
  apply forall_congr'
  intro n
  cases Dict.get? defs n <;> exact Iff.rfl

theorem namedOf_snoc {sep : Str} {ms : List Model12} {x : Model12} {n : Str} :
    namedOf sep (ms ++ [x]) n = namedOf sep ms n ++ if x.name sep = n then [x] else [] := by
  unfold namedOf
  rw [List.filter_append]
  by_cases h : x.name sep = n <;> simp [h]

theorem parentsOf_snoc {sep : Str} {ms : List Model12} {x : Model12} {n : Str} :
    parentsOf sep (ms ++ [x]) n = parentsOf sep ms n ++
      (x.subs sep).filterMap (fun t => if t = n then some (x.ref sep) else none) := by
  unfold parentsOf
  rw [List.flatMap_append, List.flatMap_cons, List.flatMap_nil, List.append_nil]

/-- Models. -/
theorem convertModel_ok {env : Env} (hl : LowerOk env) (hn : NumbersOk env) {e m : Dict Json} {decl o : Obj}
    (hd : Built (.cls (s% "v1_2.ApiDeclaration")) (.obj e) decl) (ho : Built (.cls (s% "v1_2.Model")) (.obj m) o)
    (hs : SubTypesOk m) {st st' : State} {ms : List Model12} (h : DefinitionsTo env.numbers env.sep ms st.definitions)
    (hr : convertModel env decl o st = .ok st') :
    DefinitionsTo env.numbers env.sep (ms ++ [⟨e, m⟩]) st'.definitions ∧ st' = { st with definitions := st'.definitions } := by
  unfold convertModel at hr
  obtain ⟨sc, g0, hr⟩ := bindOk hr
  obtain ⟨rfl, _⟩ := scopeOf_ok hd g0
  obtain ⟨i, g1, hr⟩ := bindOk hr
  obtain ⟨i', g2, hr⟩ := bindOk hr
  have ei := textAt_of ((built_reqd ho (by decide +kernel) g1).symm.trans (asText_ok g2))
  rw [scopeCompose_name] at hr
  dsimp only at hr
  obtain ⟨props, g3, hr⟩ := bindOk hr
  obtain ⟨spec, g4, hr⟩ := bindOk hr
  rw [built_look ho (k := s% "subTypes") (by decide +kernel)] at hr
  obtain ⟨_, e0, hr⟩ := bindOk hr
  cases e0
  obtain ⟨ts, g6, hr⟩ := bindOk hr
  obtain ⟨defs, g7, hr⟩ := bindOk hr
  cases hr
  refine ⟨?_, rfl⟩
  rw [definitionsTo_iff] at h ⊢
  obtain ⟨q1, _, _, q4⟩ := kid_objAt ho (k := s% "properties") (b := .cls (s% "v1_2.Property")) (by decide +kernel)
  obtain ⟨p1, p2, p3⟩ := propertiesOf_ok hl hn q1 g3
  have hname : Model12.name env.sep ⟨e, m⟩ = modelName env.sep (resourcePath e) i' := by unfold Model12.name; rw [← ei]
  have hnd : Dict.NodupKeys props := by
    have := wf_nodup q4
    unfold Dict.NodupKeys at this ⊢
    rw [p1]; exact this
  have step : ∀ n, DefOpt env.numbers env.sep (namedOf env.sep (ms ++ [⟨e, m⟩]) n) (parentsOf env.sep ms n)
      (Dict.get? (Dict.set st.definitions (modelName env.sep (resourcePath e) i') spec) n) := by
    intro n
    rw [namedOf_snoc]
    by_cases en : modelName env.sep (resourcePath e) i' = n
    · rw [if_pos (hname.trans en), en, Dict.get?_set_self]
      refine defOpt_model (h n) (x := ⟨e, m⟩) ho hnd p2 ?_
      rw [en] at g4
      exact g4
    · rw [if_neg (fun hc => en (hname.symm.trans hc)), List.append_nil, Dict.get?_set_ne _ _ en]
      exact h n
  obtain ⟨ss, e1, e2⟩ := addSubtypes_ok env.numbers ts _ _ _ _ step g7
  intro n
  have hsub : Model12.subs env.sep ⟨e, m⟩ = ss.map (modelName env.sep (resourcePath e)) := by
    unfold Model12.subs
    have : strsAt m (s% "subTypes") = ss := strsAt_of ((iterate_ok hs g6).trans e1)
    dsimp only
    rw [this]
  rw [parentsOf_snoc, hsub]
  unfold Model12.ref
  rw [hname]
  exact e2 n

/-- The models of a resource. -/
theorem convertModels_ok {env : Env} (hl : LowerOk env) (hn : NumbersOk env) {e : Dict Json} {decl : Obj}
    (hd : Built (.cls (s% "v1_2.ApiDeclaration")) (.obj e) decl) {l : Dict Json} {os : List (Str × Obj)}
    (h : List.Forall₂ (fun x y => x.1 = y.1 ∧ Built (.cls (s% "v1_2.Model")) x.2 y.2) l os) :
    ∀ {st st' : State} {ms : List Model12}, DefinitionsTo env.numbers env.sep ms st.definitions →
    (∀ k m, (k, Json.obj m) ∈ l → SubTypesOk m) →
    os.foldlM (fun st km => convertModel env decl km.2 st) st = .ok st' →
    DefinitionsTo env.numbers env.sep (ms ++ l.filterMap (fun km => match km.2 with
      | .obj m => some ⟨e, m⟩
      | _ => none)) st'.definitions ∧ st' = { st with definitions := st'.definitions } := by
  induction h with
  | nil => intro st st' ms h _ hr; cases hr; exact ⟨by simpa using h, rfl⟩
  | @cons x y _ _ hb _ ih =>
    intro st st' ms h hs hr
    obtain ⟨k, j⟩ := x
    obtain ⟨k', o⟩ := y
    obtain ⟨rfl, hb⟩ := hb
    dsimp only at hb
    obtain ⟨m, _, _, rfl, _, _⟩ := built_cls hb
    rw [List.foldlM_cons] at hr
    obtain ⟨st1, g1, hr⟩ := bindOk hr
    obtain ⟨a1, a2⟩ := convertModel_ok hl hn hd hb (hs k m (by simp)) h g1
    obtain ⟨b1, b2⟩ := ih a1 (fun k m hk => hs k m (List.mem_cons_of_mem _ hk)) hr
    refine ⟨by rw [List.filterMap_cons]; rw [List.append_assoc] at b1; exact b1, ?_⟩
    rw [b2, a2]

/-- What the state says of resources. -/
structure StateTo (env : Env) (decls : List (Dict Json)) (st : State) : Prop where
  paths : PathsTo12 env.numbers env.lower env.sep (decls.flatMap (opsOf12 env.lower)) st.paths
  definitions : DefinitionsTo env.numbers env.sep (decls.flatMap modelsOf12) st.definitions
  tags : st.tags.Nodup ∧ ∀ t, t ∈ st.tags ↔ ∃ e ∈ decls, (resourcePath e).drop 1 = t

theorem stateTo_nil {env : Env} {st : State} (h1 : st.paths = []) (h2 : st.definitions = []) (h3 : st.tags = []) : StateTo env [] st := by
  refine ⟨?_, ?_, ?_⟩
  · rw [h1]; exact ⟨fun p => by simp [Dict.get?], fun p item hi => by cases hi⟩
  · rw [h2]; intro n; exact ⟨rfl, rfl⟩
  · rw [h3]; simp

/-- A resource whose models have lists of subtypes. -/
def DeclOk (e : Dict Json) : Prop := ∀ k m, (k, Json.obj m) ∈ objAt e (s% "models") → SubTypesOk m

/-- Resources. -/
theorem apiDeclaration_ok {env : Env} (hl : LowerOk env) (hn : NumbersOk env) {e : Dict Json} {decl : Obj}
    (hd : Built (.cls (s% "v1_2.ApiDeclaration")) (.obj e) decl) (hok : DeclOk e) {st st' : State} {decls : List (Dict Json)}
    (h : StateTo env decls st) (hr : apiDeclaration env (some st) decl = .ok (some st')) :
    StateTo env (decls ++ [e]) st' ∧ st'.info = st.info ∧ st'.securityDefinitions = st.securityDefinitions := by
  unfold apiDeclaration at hr
  obtain ⟨sc, g0, hr⟩ := bindOk hr
  obtain ⟨rfl, _⟩ := scopeOf_ok hd g0
  dsimp only at hr
  obtain ⟨st1, g1, hr⟩ := bindOk hr
  obtain ⟨a1, a2⟩ := convertApis_ok hl hn hd (st := { st with tags := if st.tags.contains ((resourcePath e).drop 1) then st.tags else st.tags ++ [(resourcePath e).drop 1] })
    h.paths g1
  split at hr
  · cases hr
  rename_i mo hmo
  obtain ⟨st2, g2, hr⟩ := bindOk hr
  cases hr
  obtain ⟨q1, _⟩ := kid_objAt hd (k := s% "models") (b := .cls (s% "v1_2.Model")) (by decide +kernel)
  rw [hmo] at q1
  have h1 : DefinitionsTo env.numbers env.sep (decls.flatMap modelsOf12) st1.definitions := by rw [a2]; exact h.definitions
  obtain ⟨b1, b2⟩ := convertModels_ok hl hn hd q1 h1 hok g2
  have ht : st'.tags = if st.tags.contains ((resourcePath e).drop 1) then st.tags else st.tags ++ [(resourcePath e).drop 1] := by
    rw [b2]
    dsimp only
    rw [a2]
  refine ⟨⟨?_, ?_, ?_⟩, ?_, ?_⟩
  · rw [List.flatMap_append, List.flatMap_cons, List.flatMap_nil, List.append_nil, b2]
    exact a1
  · rw [List.flatMap_append, List.flatMap_cons, List.flatMap_nil, List.append_nil]
    exact b1
  · rw [ht]
    obtain ⟨t1, t2⟩ := h.tags
    by_cases hc : (resourcePath e).drop 1 ∈ st.tags
    · rw [if_pos (List.contains_iff_mem.2 hc)]
      refine ⟨t1, fun t => ?_⟩
      rw [t2]
      constructor
      · rintro ⟨x, hx, rfl⟩; exact ⟨x, List.mem_append_left _ hx, rfl⟩
      · rintro ⟨x, hx, rfl⟩
        rcases List.mem_append.1 hx with hx | hx
        · exact ⟨x, hx, rfl⟩
        · rw [List.mem_singleton] at hx
          subst hx
          exact (t2 _).1 hc
    · rw [if_neg (fun h => hc (List.contains_iff_mem.1 h))]
      refine ⟨?_, fun t => ?_⟩
      · rw [List.nodup_append]
        refine ⟨t1, by simp, fun a ha b hb => ?_⟩
        rw [List.mem_singleton] at hb
        subst hb
        intro hab
        exact hc (hab ▸ ha)
      · rw [List.mem_append, List.mem_singleton, t2]
        constructor
        · rintro (⟨x, hx, rfl⟩ | rfl)
          · exact ⟨x, List.mem_append_left _ hx, rfl⟩
          · exact ⟨e, by simp, rfl⟩
        · rintro ⟨x, hx, rfl⟩
          rcases List.mem_append.1 hx with hx | hx
          · exact .inl ⟨x, hx, rfl⟩
          · rw [List.mem_singleton] at hx
            subst hx
            exact .inr rfl
  · rw [b2]; dsimp only; rw [a2]
  · rw [b2]; dsimp only; rw [a2]

end Up12
end Pyopenapi
