import Verif.Lemmas.Main12
import Verif.Lemmas.Each
import Verif.Props.Override

/-!
# The references of an upgraded document lead to its definitions
-/

namespace Pyopenapi.Main
open _root_.Pyopenapi.Spec _root_.Pyopenapi.Refs.Spec Obj Up12

variable {num : Numbers} {lower : Str → Str} {sep : Str} {l : Dict Json} {ds : List (Dict Json)} {host : Str} {ops : List Op12} {doc : Dict Json}

/-! ### the parts of the resources -/

/-- The resources are built. -/
def Declared (ds : List (Dict Json)) : Prop := ∀ e ∈ ds, ∃ o, Built (.cls (s% "v1_2.ApiDeclaration")) (.obj e) o

theorem op_built (h : Declared ds) {x : Op12} (hx : x ∈ allOps lower ds) :
    ∃ o, Built (.cls (s% "v1_2.Operation")) (.obj x.op) o := by
  obtain ⟨e, he, hx⟩ := List.mem_flatMap.1 hx
  obtain ⟨api, ha, hx⟩ := List.mem_flatMap.1 hx
  obtain ⟨op, hop, rfl⟩ := List.mem_map.1 hx
  obtain ⟨o, ho⟩ := h e he
  obtain ⟨oa, _, hoa⟩ := forall₂_mem_left (kid_dictsAt ho (k := s% "apis") (c' := s% "v1_2.Api") (by decide +kernel)) ha
  obtain ⟨oo, _, hoo⟩ := forall₂_mem_left (kid_dictsAt hoa (k := s% "operations") (c' := s% "v1_2.Operation") (by decide +kernel)) hop
  exact ⟨oo, hoo⟩

theorem param_built (h : Declared ds) {x : Op12} (hx : x ∈ allOps lower ds) {d : Dict Json} (hd : d ∈ dictsAt x.op (s% "parameters")) :
    ∃ o, Built (.cls (s% "v1_2.Parameter")) (.obj d) o := by
  obtain ⟨o, ho⟩ := op_built h hx
  obtain ⟨oa, _, hoa⟩ := forall₂_mem_left (kid_dictsAt ho (k := s% "parameters") (c' := s% "v1_2.Parameter") (by decide +kernel)) hd
  exact ⟨oa, hoa⟩

theorem property_built (h : Declared ds) {x : Model12} (hx : x ∈ allModels ds) {k : Str} {d : Dict Json}
    (hd : (k, .obj d) ∈ objAt x.model (s% "properties")) : ∃ o, Built (.cls (s% "v1_2.Property")) (.obj d) o := by
  obtain ⟨e, he, hx⟩ := List.mem_flatMap.1 hx
  obtain ⟨⟨n, v⟩, ha, hx⟩ := List.mem_filterMap.1 hx
  cases v with
  | obj m =>
    cases hx
    obtain ⟨o, ho⟩ := h e he
    obtain ⟨⟨_, om⟩, _, _, hom⟩ := forall₂_mem_left (kid_objAt (b := .cls (s% "v1_2.Model")) ho (k := s% "models") (by decide +kernel)).1 ha
    obtain ⟨⟨_, op⟩, _, _, hop⟩ := forall₂_mem_left (kid_objAt (b := .cls (s% "v1_2.Property")) hom (k := s% "properties") (by decide +kernel)).1 hd
    exact ⟨op, hop⟩
  | _ => cases hx

/-! ### references -/

/-- The text of a schema, a reference or a path item. -/
def Fine12 (doc : Dict Json) (c : Str) (e : Dict Json) : Prop :=
  Dict.get? e (s% "$ref") = none ∨ ∃ v, Dict.get? e (s% "$ref") = some v ∧ c = s% "v2_0.Schema" ∧ Entry doc c v

theorem entry_of (hdoc : DocumentTo12 num sep l ds doc) (hc : Closed12 lower sep ds) {n : Str} (hn : Defined sep ds n) :
    Entry doc (s% "v2_0.Schema") (.str (s% "#/definitions/" ++ n)) := by
  obtain ⟨h1, h2, h3⟩ := hc.plain n hn
  have he : escape n = n := escape_plain h1 h2
  have hp : s% "#/definitions/" ++ n = pointer [s% "definitions", n] := by
    show _ = '#' :: (('/' :: escape (s% "definitions")) ++ (('/' :: escape n) ++ []))
    rw [he, show escape (s% "definitions") = s% "definitions" by decide, List.append_nil]
    rfl
  obtain ⟨defs, hd1, hd2⟩ := hdoc.definitions
  have ho : objAt doc (s% "definitions") = defs.map (fun kv => (kv.1, Json.obj kv.2)) := by unfold objAt; rw [hd1]; rfl
  have hsome : ∃ w, Dict.get? (objAt doc (s% "definitions")) n = some w := by
    rw [ho, get?_objectsOf]
    cases hg : Dict.get? defs n with
    | some s => exact ⟨_, rfl⟩
    | none =>
      have := hd2 n
      rw [hg] at this
      obtain ⟨g1, g2⟩ := this
      obtain ⟨x, hx, hx' | hx'⟩ := hn
      · have : x ∈ namedOf sep (allModels ds) n := List.mem_filter.2 ⟨hx, by simp [hx']⟩
        rw [g1] at this; cases this
      · have : x.ref sep ∈ parentsOf sep (allModels ds) n :=
          List.mem_flatMap.2 ⟨x, hx, List.mem_filterMap.2 ⟨n, hx', by simp⟩⟩
        rw [g2] at this; cases this
  obtain ⟨w, hw⟩ := hsome
  refine ⟨s% "definitions", n, w, by rw [hp], ?_, hw, .inl ⟨rfl, rfl⟩⟩
  intro c hc'
  rw [← hp] at hc'
  rcases List.mem_append.1 hc' with h | h
  · have : (s% "#/definitions/").all (fun c => !Url.unsafeChar c) = true := by decide +kernel
    have := List.all_eq_true.1 this c h
    simpa using this
  · exact h3 c h

theorem fine_type (hdoc : DocumentTo12 num sep l ds doc) (hc : Closed12 lower sep ds) {path : Str} {d r : Dict Json}
    (h : TypeTo sep path d r) (hm : ∀ m, modelOf d = some m → Defined sep ds (modelName sep path m)) : Fine12 doc (s% "v2_0.Schema") r := by
  unfold Fine12
  rw [h.2]
  cases hmo : modelOf d with
  | none => exact .inl rfl
  | some m => exact .inr ⟨_, rfl, rfl, entry_of hdoc hc (hm m hmo)⟩

theorem each_dataType (hdoc : DocumentTo12 num sep l ds doc) (hc : Closed12 lower sep ds) {e d r : Dict Json} {c : Str} {o : Obj}
    (hcls : dataClass c = true) (hb : Built (.cls c) (.obj d) o) (h : DataTypeTo num sep (resourcePath e) d r) (hm : ModelsKnown sep ds e d) :
    Each (Fine12 doc) (.cls (s% "v2_0.Schema")) (.obj r) := by
  obtain ⟨h1, _, _, _, _, _, _, h8, h9, h10⟩ := h
  refine each_cls _ [(s% "items", .cls (s% "v2_0.Schema"))] (fine_type hdoc hc h1 hm.1) h10 (by decide +kernel) ?_
  intro kb hkb v hv
  simp only [List.mem_singleton] at hkb
  subst hkb
  dsimp only at hv ⊢
  rcases items_given hb (dataClass_items hcls) with hi | ⟨i, hi⟩
  · rw [h8 hi] at hv; cases hv
  · obtain ⟨x, g1, g2, _, g4⟩ := h9 i hi
    rw [g1] at hv
    cases hv
    exact each_cls _ [] (fine_type hdoc hc g2 (fun m => hm.2 i m hi)) g4 (by decide +kernel) (fun _ h => by cases h)

theorem each_param (hdoc : DocumentTo12 num sep l ds doc) (hc : Closed12 lower sep ds) (hd : Declared ds) {x : Op12} (hx : x ∈ allOps lower ds)
    {d r : Dict Json} (hm : d ∈ dictsAt x.op (s% "parameters")) (h : ParameterTo num lower sep (resourcePath x.decl) d r) :
    Each (Fine12 doc) (.ifNotRef (s% "v2_0.Reference") (.cls (s% "v2_0.Parameter"))) (.obj r) := by
  obtain ⟨_, h2, h3⟩ := h
  obtain ⟨o, ho⟩ := param_built hd hx hm
  by_cases hb : look d (s% "paramType") = .str (s% "body")
  · obtain ⟨⟨s, hs, hdt⟩, hon⟩ := h2 hb
    have hn := only_none hon (k := s% "$ref") (by decide)
    refine .notRef hn (each_cls _ [(s% "schema", .cls (s% "v2_0.Schema"))] (.inl hn) hon (by decide +kernel) ?_)
    intro kb hkb v hv
    simp only [List.mem_singleton] at hkb
    subst hkb
    dsimp only at hv ⊢
    rw [hs] at hv
    cases hv
    exact each_dataType hdoc hc dataClass_parameter ho hdt (hc.bodies x hx d hm hb)
  · obtain ⟨_, h4, h5⟩ := h3 hb
    by_cases hr : Repeats d
    · obtain ⟨_, hon⟩ := h4 hr
      have hn := only_none hon (k := s% "$ref") (by decide)
      exact .notRef hn (each_cls _ [] (.inl hn) hon (by decide +kernel) (fun _ h => by cases h))
    · obtain ⟨_, hon⟩ := h5 hr
      have hn := only_none hon (k := s% "$ref") (by decide)
      exact .notRef hn (each_cls _ [] (.inl hn) hon (by decide +kernel) (fun _ h => by cases h))

theorem each_operation (hdoc : DocumentTo12 num sep l ds doc) (hc : Closed12 lower sep ds) (hd : Declared ds) {x : Op12} (hx : x ∈ allOps lower ds)
    {r : Dict Json} (h : OperationTo12 num lower sep x.decl x.op r) : Each (Fine12 doc) (.cls (s% "v2_0.Operation")) (.obj r) := by
  obtain ⟨_, _, _, _, _, _, _, ⟨ps, h8, h8'⟩, _, ⟨s, h10, h11⟩, hon⟩ := h
  refine each_cls _ [(s% "parameters", .listOf (.ifNotRef (s% "v2_0.Reference") (.cls (s% "v2_0.Parameter")))),
    (s% "responses", .mapOf (.ifNotRef (s% "v2_0.Reference") (.cls (s% "v2_0.Response"))))] (.inl (only_none hon (by decide))) hon (by decide +kernel) ?_
  intro kb hkb v hv
  simp only [List.mem_cons, List.not_mem_nil, or_false] at hkb
  rcases hkb with rfl | rfl
  · dsimp only at hv ⊢
    rw [h8] at hv
    cases hv
    refine .list (fun y hy => ?_)
    obtain ⟨p, hp, rfl⟩ := List.mem_map.1 hy
    obtain ⟨d, hdm, hpt⟩ := forall₂_mem h8' hp
    exact each_param hdoc hc hd hx hdm hpt
  · dsimp only at hv ⊢
    rw [h10] at hv
    cases hv
    refine .map (fun k y hy => ?_)
    rw [Dict.get?_cons] at hy
    split at hy
    case isFalse => cases hy
    cases hy
    obtain ⟨_, g1, g2, g3⟩ := h11
    have hn := only_none g3 (k := s% "$ref") (by decide)
    refine .notRef hn (each_cls _ [(s% "schema", .cls (s% "v2_0.Schema"))] (.inl hn) g3 (by decide +kernel) ?_)
    intro kb hkb v hv
    simp only [List.mem_singleton] at hkb
    subst hkb
    dsimp only at hv ⊢
    by_cases hvoid : look x.op (s% "type") = .str (s% "void")
    · rw [g1 hvoid] at hv; cases hv
    · obtain ⟨t, k1, k2⟩ := g2 hvoid
      rw [k1] at hv
      cases hv
      obtain ⟨o, ho⟩ := op_built hd hx
      exact each_dataType hdoc hc dataClass_operation ho k2 (hc.returned x hx hvoid)

/-- The operations are those of the resources (under other paths). -/
def Among (lower : Str → Str) (ds : List (Dict Json)) (ops : List Op12) : Prop :=
  ∀ x ∈ ops, ∃ y ∈ allOps lower ds, x.method = y.method ∧ x.decl = y.decl ∧ x.op = y.op

theorem item_member {paths : Dict (Dict Json)} (h : PathsTo12 num lower sep ops paths) {p : Str} {item : Dict Json}
    (hi : Dict.get? paths p = some item) {m : Str} {v : Json} (hv : Dict.get? item m = some v) :
    ∃ x ∈ ops, x.path = p ∧ x.method = m ∧ ∃ r, v = .obj r ∧ OperationTo12 num lower sep x.decl x.op r := by
  have := h.2 p item hi m
  split at this
  · rw [this] at hv; cases hv
  · rename_i x hx
    obtain ⟨r, h1, h2⟩ := this
    have hm := List.mem_of_getLast? hx
    rw [List.mem_filter] at hm
    have h3 := of_decide_eq_true hm.2
    rw [h1] at hv
    exact ⟨x, hm.1, h3.1, h3.2, r, (Option.some.inj hv).symm, h2⟩

theorem each_item (hdoc : DocumentTo12 num sep l ds doc) (hc : Closed12 lower sep ds) (hd : Declared ds) (ha : Among lower ds ops)
    (hp : ∀ x ∈ allOps lower ds, x.method ≠ s% "parameters") {paths : Dict (Dict Json)} (h : PathsTo12 num lower sep ops paths) {p : Str} {item : Dict Json}
    (hi : Dict.get? paths p = some item) : Each (Fine12 doc) (.cls (s% "v2_0.PathItem")) (.obj item) := by
  refine .cls (.inl ?_) (fun k cd v hm hv => ?_)
  · cases hg : Dict.get? item (s% "$ref") with
    | none => rfl
    | some v =>
      obtain ⟨x, hx, _, hx2, _⟩ := item_member h hi hg
      obtain ⟨y, hy, e, _⟩ := ha x hx
      exact absurd (e.symm.trans hx2) (hc.methods y hy)
  · obtain ⟨x, hx, _, hx2, r, rfl, hr⟩ := item_member h hi hv
    obtain ⟨y, hy, e1, e2, e3⟩ := ha x hx
    have hne : k ≠ s% "parameters" := by rw [← hx2, e1]; exact hp y hy
    have ht : (pkg (s% "v2_0.PathItem")).children.all (fun kc => decide (kc.1 = s% "parameters") || decide (kc.2.builder = .cls (s% "v2_0.Operation"))) = true := by
      decide +kernel
    have := List.all_eq_true.1 ht _ hm
    simp only [Bool.or_eq_true, decide_eq_true_eq] at this
    rcases this with h' | h'
    · exact absurd h' hne
    · rw [h']
      rw [e2, e3] at hr
      exact each_operation hdoc hc hd hy hr

theorem each_definition (hdoc : DocumentTo12 num sep l ds doc) (hc : Closed12 lower sep ds) (hd : Declared ds) {xs : List Model12}
    (hxs : ∀ x ∈ xs, x ∈ allModels ds) {parents : List Json} (hpar : ∀ p ∈ parents, ∃ x ∈ allModels ds, p = x.ref sep) {s : Dict Json}
    (h : DefinitionTo num sep xs parents s) : Each (Fine12 doc) (.cls (s% "v2_0.Schema")) (.obj s) := by
  obtain ⟨h1, h2, h3, _, hon⟩ := h
  refine each_cls _ [(s% "allOf", .listOf (.cls (s% "v2_0.Schema"))), (s% "properties", .mapOf (.cls (s% "v2_0.Schema")))]
    (.inl (only_none hon (by decide))) hon (by decide +kernel) ?_
  intro kb hkb v hv
  simp only [List.mem_cons, List.not_mem_nil, or_false] at hkb
  rcases hkb with rfl | rfl
  · dsimp only at hv ⊢
    rw [h1] at hv
    split at hv
    · cases hv
    · cases hv
      refine .list (fun y hy => ?_)
      obtain ⟨x, hx, rfl⟩ := hpar y hy
      unfold Model12.ref
      refine .cls (.inr ⟨_, rfl, rfl, entry_of hdoc hc ⟨x, hx, .inl rfl⟩⟩) (fun k cd v hm hv => ?_)
      have ht : (pkg (s% "v2_0.Schema")).children.all (fun kc => decide (kc.1 ≠ s% "$ref")) = true := by decide +kernel
      have := List.all_eq_true.1 ht _ hm
      rw [Dict.get?_cons, if_neg (Ne.symm (of_decide_eq_true this))] at hv
      cases hv
  · dsimp only at hv ⊢
    by_cases hne : xs = []
    · rw [h2 hne] at hv; cases hv
    · obtain ⟨props, g1, g2⟩ := h3 hne
      rw [g1] at hv
      cases hv
      refine .map (fun k y hy => ?_)
      have hk := g2 k
      split at hk
      · rw [hk] at hy; cases hy
      · rename_i x v hxv
        obtain ⟨d, r, rfl, k1, sch, k2, k3, k4⟩ := hk
        rw [k1] at hy
        cases hy
        have hmem := List.mem_of_getLast? hxv
        obtain ⟨x', hx', hp⟩ := List.mem_filterMap.1 hmem
        rw [Option.map_eq_some_iff] at hp
        obtain ⟨v', hv', hp⟩ := hp
        cases hp
        have hpm := Dict.mem_of_get? hv'
        obtain ⟨o, ho⟩ := property_built hd (hxs x hx') hpm
        have he := each_dataType hdoc hc dataClass_property ho k2 (hc.properties x (hxs x hx') k d hpm)
        cases he with
        | free hf => exact absurd hf (by decide +kernel)
        | cls hP hk =>
          refine .cls ?_ (fun k' cd v hm hv => hk k' cd v hm ?_)
          · unfold Fine12 at hP ⊢
            rw [k3 _ (by decide)]
            exact hP
          · have ht : (pkg (s% "v2_0.Schema")).children.all (fun kc => decide (kc.1 ≠ s% "description")) = true := by decide +kernel
            have := List.all_eq_true.1 ht _ hm
            rw [← k3 _ (of_decide_eq_true this)]
            exact hv

theorem defs_at (hdoc : DocumentTo12 num sep l ds doc) {n : Str} {v : Json} (hv : Dict.get? (objAt doc (s% "definitions")) n = some v) :
    ∃ s, v = .obj s ∧ DefinitionTo num sep (namedOf sep (allModels ds) n) (parentsOf sep (allModels ds) n) s := by
  obtain ⟨defs, hd1, hd2⟩ := hdoc.definitions
  have ho : objAt doc (s% "definitions") = defs.map (fun kv => (kv.1, Json.obj kv.2)) := by unfold objAt; rw [hd1]; rfl
  rw [ho, get?_objectsOf] at hv
  have := hd2 n
  cases hg : Dict.get? defs n with
  | none => rw [hg] at hv; cases hv
  | some s =>
    rw [hg] at hv this
    cases hv
    exact ⟨s, rfl, this.2⟩

theorem objAt_some {d m : Dict Json} {k : Str} (h : Dict.get? d k = some (.obj m)) : objAt d k = m := by
  unfold objAt; rw [h]

theorem each_document (hu : UpgradedTo num lower sep l ds host ops doc) (hc : Closed12 lower sep ds) (hd : Declared ds) (ha : Among lower ds ops)
    (hp : ∀ x ∈ allOps lower ds, x.method ≠ s% "parameters") : Each (Fine12 doc) (.cls (s% "v2_0.Swagger")) (.obj doc) := by
  obtain ⟨hdoc, _, paths, h1, h2⟩ := hu
  refine each_cls _ [(s% "paths", .mapOf (.cls (s% "v2_0.PathItem"))), (s% "definitions", .mapOf (.cls (s% "v2_0.Schema"))),
    (s% "parameters", .mapOf (.cls (s% "v2_0.Parameter"))), (s% "responses", .mapOf (.cls (s% "v2_0.Response")))]
    (.inl (only_none hdoc.only (by decide))) hdoc.only (by decide +kernel) ?_
  intro kb hkb v hv
  simp only [List.mem_cons, List.not_mem_nil, or_false] at hkb
  rcases hkb with rfl | rfl | rfl | rfl
  · dsimp only at hv ⊢
    rw [h1] at hv
    cases hv
    refine .map (fun k y hy => ?_)
    rw [get?_objectsOf] at hy
    cases hg : Dict.get? paths k with
    | none => rw [hg] at hy; cases hy
    | some item =>
      rw [hg] at hy
      cases hy
      exact each_item hdoc hc hd ha hp h2 hg
  · dsimp only at hv ⊢
    obtain ⟨defs, hd1, _⟩ := hdoc.definitions
    have hv' := hv
    rw [hd1] at hv
    cases hv
    refine .map (fun k y hy => ?_)
    rw [← objAt_some hv'] at hy
    obtain ⟨s, rfl, hs⟩ := defs_at hdoc hy
    refine each_definition hdoc hc hd (fun x hx => (List.mem_filter.1 hx).1) (fun p hp => ?_) hs
    obtain ⟨x, hx, hp⟩ := List.mem_flatMap.1 hp
    obtain ⟨t, _, hp⟩ := List.mem_filterMap.1 hp
    split at hp
    · cases hp; exact ⟨x, hx, rfl⟩
    · cases hp
  · dsimp only at hv ⊢
    rw [hdoc.noShared _ (by decide)] at hv
    cases hv
    exact .map (fun k y hy => by cases hy)
  · dsimp only at hv ⊢
    rw [hdoc.noShared _ (by decide)] at hv
    cases hv
    exact .map (fun k y hy => by cases hy)

/-- The references of an upgraded document follow the conventions. -/
theorem conventional12 (hu : UpgradedTo num lower sep l ds host ops doc) (hc : Closed12 lower sep ds) (hd : Declared ds) (ha : Among lower ds ops)
    (hp : ∀ x ∈ allOps lower ds, x.method ≠ s% "parameters") {p : Option Str} {o : Obj} (hj : (Json.obj doc).wf = true)
    (hb : build pkg (.cls (s% "v2_0.Swagger")) (.obj doc) p [] = .ok o) :
    (∀ ts c q spec kids, Visited [] o ts (.base c q spec kids) → c ∈ Refs.normClasses2 → ∃ e, spec = .obj e ∧ Fine12 doc c e) := by
  intro ts c q spec kids hv hcl
  exact each_inside (each_document hu hc hd ha hp) hj hb (visited_inside hv _ (.here _)) hcl

theorem std12 (hu : UpgradedTo num lower sep l ds host ops doc) (hc : Closed12 lower sep ds) (hd : Declared ds) (ha : Among lower ds ops)
    (hp : ∀ x ∈ allOps lower ds, x.method ≠ s% "parameters") {o : Obj} (hB : Built (.cls (s% "v2_0.Swagger")) (.obj doc) o) :
    Std doc o 1 := by
  obtain ⟨p, hb⟩ := hB.path
  have hconv := conventional12 hu hc hd ha hp hB.wf hb
  refine ⟨hB, fun ts c q spec kids hv hcl => ?_, fun ts x hv => ?_, fun n w hw => ?_⟩
  · obtain ⟨e, he, h | ⟨v, h1, _, h2⟩⟩ := hconv ts c q spec kids hv hcl
    · exact ⟨e, he, .inl h⟩
    · exact ⟨e, he, .inr ⟨v, h1, h2⟩⟩
  · by_cases hr : ∃ r, Refers Refs.normClasses2 x r
    · obtain ⟨r, c, q, d, kids, rfl, hcl, hg, hne⟩ := hr
      obtain ⟨e, he, h | ⟨v, h1, hs, sec, n, w, hv', hsafe, hw, hf⟩⟩ := hconv ts c q _ kids hv hcl
      · cases he; rw [hg] at h; cases h
      · cases he
        rw [hg] at h1
        cases h1
        cases hv'
        subst hs
        rcases hf with ⟨_, rfl⟩ | ⟨hf, _⟩
        · obtain ⟨y, hy, hat, hby⟩ := target hB (sec := s% "definitions") (C := s% "v2_0.Schema") (by decide +kernel) hw
          obtain ⟨s, rfl, hdef⟩ := defs_at hu.1 hw
          refine ⟨1, y, Nat.le_refl 1, .step ⟨_, q, d, kids, rfl, hcl, hg, hne⟩ hat (.stop ?_)⟩
          rintro r ⟨c', q', d', kids', rfl, _, hg', _⟩
          obtain ⟨d'', q'', kids'', hd'', e'', _⟩ := built_cls hby
          cases hd''
          cases e''
          rw [only_none hdef.2.2.2.2 (by decide)] at hg'
          cases hg'
        · exact absurd hf (by decide)
    · exact ⟨0, x, Nat.zero_le 1, .stop (fun r h => hr ⟨r, h⟩)⟩
  · obtain ⟨s, rfl, hdef⟩ := defs_at hu.1 hw
    rintro ⟨e, he, ht⟩
    cases he
    unfold look at ht
    rw [only_none hdef.2.2.2.2 (by decide)] at ht
    cases ht

end Pyopenapi.Main
