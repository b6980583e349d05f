import Verif.Lemmas.Up12Refs
import Verif.Spec.Convertible
import Verif.Props.ConvLoads

/-!
# Upgraded documents can be converted to OpenAPI 3
-/

namespace Pyopenapi.Main
open _root_.Pyopenapi.Spec _root_.Pyopenapi.Refs.Spec Obj Up12

variable {num : Numbers} {lower : Str → Str} {sep : Str} {l : Dict Json} {ds : List (Dict Json)} {host : Str} {ops : List Op12} {doc : Dict Json}

theorem look_get {d : Dict Json} {k : Str} {v : Json} (h : Dict.get? d k = some v) : look d k = v := by unfold look; rw [h]; rfl

theorem look_none {d : Dict Json} {k : Str} (h : Dict.get? d k = none) : look d k = .null := by unfold look; rw [h]; rfl

/-- What the converted parameter is. -/
theorem place12 {path : Str} {d r : Dict Json} (h : ParameterTo num lower sep path d r) :
    Dict.get? r (s% "$ref") = none ∧
    (look d (s% "paramType") = .str (s% "body") → placeOf r = .body ∧ ValidParam ⟨r, none⟩) ∧
    (look d (s% "paramType") ≠ .str (s% "body") → placeOf r ≠ .body ∧ (placeOf r = .plain ↔ inForm lower d = false) ∧
      Dict.get? r (s% "schema") = none ∧ (placeOf r ≠ .plain → look r (s% "type") = .str (s% "file") ∨ look r (s% "in") = .str (s% "formData"))) ∧
    (∀ o, Built (.cls (s% "v1_2.Parameter")) (.obj d) o → ∀ a b, ¬ BadStyle r a b) := by
  obtain ⟨⟨_, hin⟩, h2, h3⟩ := h
  have hin' := look_get hin
  by_cases hb : look d (s% "paramType") = .str (s% "body")
  · obtain ⟨⟨s, hs, hd⟩, hon⟩ := h2 hb
    have ht : look r (s% "type") = .null := look_none (only_none hon (by decide))
    have hi : look r (s% "in") = .str (s% "body") := by rw [hin', hb]; rfl
    have hpl : placeOf r = .body := by
      unfold placeOf
      rw [ht, hi]
      rfl
    refine ⟨only_none hon (by decide), fun _ => ⟨hpl, fun hp => ?_, fun _ s' hs' => ?_⟩, fun h => absurd hb h, fun o ho a b => ?_⟩
    · simp [Part.isPart, hpl] at hp
    · rintro ⟨e, rfl, he⟩
      unfold given at hs'
      dsimp only at hs'
      rw [hs] at hs'
      have : s = e := by
        rw [show Option.filter (fun v => decide (v ≠ Json.null)) (some (Json.obj s)) = some (.obj s) from rfl] at hs'
        cases hs'
        rfl
      subst this
      have ht' := hd.1.1
      unfold look at he
      rw [ht'] at he
      unfold primitiveOf at he
      cases hx : textOf (look d (s% "type")) with
      | none => rw [hx] at he; cases he
      | some t =>
        rw [hx] at he
        by_cases hpr : Primitive t
        · simp only [Option.filter, hpr, decide_true, if_true, Option.map_some, Option.getD_some, Json.str.injEq] at he
          subst he
          exact absurd hpr (by decide)
        · simp [Option.filter, hpr] at he
    · unfold BadStyle
      rw [only_none hon (by decide)]
      rintro ⟨h | h, _⟩ <;> cases h
  · obtain ⟨_, h4, h5⟩ := h3 hb
    have hi : look r (s% "in") ≠ .str (s% "body") := by
      rw [hin']
      unfold placeTo
      split
      · decide
      · exact hb
    have hform : look r (s% "in") = .str (s% "formData") ↔ (look d (s% "paramType") = .str (s% "form") ∨ look d (s% "paramType") = .str (s% "formData")) := by
      rw [hin']
      unfold placeTo
      split
      · rename_i h; simp [h]
      · rename_i h; simp [h]
    have hnb : placeOf r ≠ .body := by
      unfold placeOf
      split
      · simp
      · split
        · simp
        · simp
    have hor : placeOf r ≠ .plain → look r (s% "type") = .str (s% "file") ∨ look r (s% "in") = .str (s% "formData") := by
      intro hp
      unfold placeOf at hp
      split at hp
      · rename_i h; exact .inl h
      · split at hp
        · rename_i h; exact .inr h
        · exact absurd rfl hp
    have hplain : placeOf r = .plain ↔ look r (s% "type") ≠ .str (s% "file") ∧ look r (s% "in") ≠ .str (s% "formData") := by
      constructor
      · intro h
        unfold placeOf at h
        split at h
        · cases h
        · split at h
          · cases h
          · exact ⟨by assumption, by assumption⟩
      · rintro ⟨g1, g2⟩
        unfold placeOf
        rw [if_neg g1, if_neg g2, if_neg hi]
    have hfile : look r (s% "type") = .str (s% "file") ↔ IsFile12 lower d = true := by
      unfold IsFile12
      by_cases hrep : Repeats d
      · rw [look_get (h4 hrep).1.1]
        constructor
        · intro h; exact absurd h (by decide)
        · intro h
          split at h
          · exact absurd (of_decide_eq_true h).1 (fun g => g hrep)
          · cases h
      · obtain ⟨t, e1, e2⟩ := (h5 hrep).1.1
        rw [e1, look_get e2]
        simp [hrep]
    have hiff : placeOf r = .plain ↔ inForm lower d = false := by
      rw [hplain]
      unfold inForm
      rw [Bool.or_eq_false_iff, Bool.or_eq_false_iff, decide_eq_false_iff_not, decide_eq_false_iff_not, Bool.eq_false_iff, ne_eq, ne_eq, hfile, hform]
      constructor
      · rintro ⟨g1, g2⟩; exact ⟨⟨fun h => g2 (.inl h), fun h => g2 (.inr h)⟩, g1⟩
      · rintro ⟨⟨g1, g2⟩, g3⟩; exact ⟨g3, fun h => h.elim g1 g2⟩
    by_cases hrep : Repeats d
    · obtain ⟨k, hon⟩ := h4 hrep
      refine ⟨only_none hon (by decide), fun h => absurd h hb, fun _ => ⟨hnb, hiff, only_none hon (by decide), hor⟩, fun o ho a b => ?_⟩
      unfold BadStyle
      rw [k.2.1]
      rintro ⟨h | h, _⟩ <;> exact absurd h (by decide)
    · obtain ⟨k, hon⟩ := h5 hrep
      refine ⟨only_none hon (by decide), fun h => absurd h hb, fun _ => ⟨hnb, hiff, only_none hon (by decide), hor⟩, fun o ho a b => ?_⟩
      obtain ⟨_, _, _, _, _, _, g1, g2⟩ := k
      unfold BadStyle
      rcases items_given ho (dataClass_items dataClass_parameter) with hg | ⟨e, hg⟩
      · rw [(g1 hg).2.1]
        rintro ⟨h | h, _⟩ <;> cases h
      · rw [(g2 e hg).1]
        rintro ⟨h | h, _⟩ <;> exact absurd h (by decide)

theorem forall₂_split {α β : Type} {P : α → β → Prop} : ∀ {l1 : List α} {a : α} {l2 : List α} {rs : List β}, List.Forall₂ P (l1 ++ a :: l2) rs →
    ∃ r1 b r2, rs = r1 ++ b :: r2 ∧ List.Forall₂ P l1 r1 ∧ P a b ∧ List.Forall₂ P l2 r2
  | [], _, _, _, h => by
    cases h with
    | cons h1 h2 => exact ⟨[], _, _, rfl, .nil, h1, h2⟩
  | x :: l1, _, _, _, h => by
    cases h with
    | cons h1 h2 =>
      obtain ⟨r1, b, r2, rfl, g1, g2, g3⟩ := forall₂_split h2
      exact ⟨_ :: r1, b, r2, rfl, .cons h1 g1, g2, g3⟩

theorem isPart_iff {r : Dict Json} (h : placeOf r ≠ .body) : Part.isPart ⟨r, none⟩ = true ↔ placeOf r ≠ .plain := by
  simp [Part.isPart, h]

theorem name12 {path : Str} {d r : Dict Json} (h : ParameterTo num lower sep path d r) : Part.name ⟨r, none⟩ = textAt d (s% "name") := by
  unfold Part.name textAt
  rw [show Dict.get? (⟨r, none⟩ : Part).doc (s% "name") = Dict.get? d (s% "name") from h.1.1 _ (by decide)]
  cases Dict.get? d (s% "name") with
  | none => rfl
  | some v => cases v <;> rfl

theorem part_names {path : Str} {xs ps : List (Dict Json)} (h : List.Forall₂ (ParameterTo num lower sep path) xs ps)
    (hb : ∀ d ∈ xs, look d (s% "paramType") ≠ .str (s% "body")) :
    ((ps.map (fun p => (⟨p, none⟩ : Part))).filter Part.isPart).map Part.name = (xs.filter (inForm lower)).map (fun d => textAt d (s% "name")) := by
  induction h with
  | nil => rfl
  | @cons d r xs ps h1 _ ih =>
    obtain ⟨g1, g2, _⟩ := (place12 h1).2.2.1 (hb d (List.mem_cons_self ..))
    have ih := ih (fun d hd => hb d (List.mem_cons_of_mem _ hd))
    have he : Part.isPart ⟨r, none⟩ = inForm lower d := by
      cases hf : inForm lower d with
      | false =>
        cases hp : Part.isPart ⟨r, none⟩ with
        | false => rfl
        | true => exact absurd (g2.2 hf) ((isPart_iff g1).1 hp)
      | true => exact (isPart_iff g1).2 (fun h => by rw [g2.1 h] at hf; cases hf)
    rw [List.map_cons, List.filter_cons, List.filter_cons, he]
    split
    · rw [List.map_cons, List.map_cons, ih, name12 h1]
    · exact ih

/-- The parameters of an operation of an upgraded document can be converted. -/
theorem params_fit {path : Str} {xs ps : List (Dict Json)} {consumes : List Str} (hf : List.Forall₂ (ParameterTo num lower sep path) xs ps)
    (hbuilt : ∀ d ∈ xs, ∃ o, Built (.cls (s% "v1_2.Parameter")) (.obj d) o) (h : Params12 lower xs) :
    ParamsFit consumes (ps.map (fun p => (⟨p, none⟩ : Part))) := by
  refine ⟨?_, ?_⟩
  · rintro ⟨f, hm, hbad, _⟩
    obtain ⟨p, hp, rfl⟩ := List.mem_map.1 hm
    obtain ⟨d, hd, hto⟩ := forall₂_mem hf hp
    obtain ⟨o, ho⟩ := hbuilt d hd
    exact (place12 hto).2.2.2 o ho _ _ hbad
  · rcases h with ⟨h1, h2, h3⟩ | ⟨l1, b, l2, rfl, h2, h3⟩
    · refine .inl ⟨fun f hm => ?_, ?_⟩
      · obtain ⟨p, hp, rfl⟩ := List.mem_map.1 hm
        obtain ⟨d, hd, hto⟩ := forall₂_mem hf hp
        obtain ⟨g1, g2, g3, g4⟩ := (place12 hto).2.2.1 (h1 d hd)
        by_cases hpl : placeOf p = .plain
        · exact .inl (by simp [Part.isPlain, hpl])
        · have hin : inForm lower d = true := by
            cases hq : inForm lower d with
            | true => rfl
            | false => exact absurd (g2.2 hq) hpl
          obtain ⟨⟨n, k1⟩, k2⟩ := h2 d hd hin
          refine .inr ⟨(isPart_iff g1).2 hpl, ⟨n, (hto.1.1 _ (by decide)).trans k1⟩, g4 hpl, ?_, fun l hl => ?_⟩
          · unfold given; dsimp only; rw [g3]; rfl
          · exact k2 l ((hto.1.1 _ (by decide)).symm.trans hl)
      · rintro ⟨t, ht⟩
        apply ht
        have hs : ((((ps.map (fun p => (⟨p, none⟩ : Part))).filter Part.isPart).filter (fun f => t ∈ partTypes consumes f.file)).map Part.name).Sublist
            (((ps.map (fun p => (⟨p, none⟩ : Part))).filter Part.isPart).map Part.name) := List.filter_sublist.map _
        rw [part_names hf h1] at hs
        exact h3.sublist hs
    · obtain ⟨r1, p, r2, rfl, g1, g2, g3⟩ := forall₂_split hf
      refine .inr ⟨r1.map (fun p => ⟨p, none⟩), ⟨p, none⟩, r2.map (fun p => ⟨p, none⟩), by simp, ((place12 g2).2.1 h2).1, ((place12 g2).2.1 h2).2, fun g hg => ?_⟩
      have : ∃ d ∈ l1 ++ l2, ∃ q, g = ⟨q, none⟩ ∧ ParameterTo num lower sep path d q := by
        rcases List.mem_append.1 hg with hg | hg
        · obtain ⟨q, hq, rfl⟩ := List.mem_map.1 hg
          obtain ⟨d, hd, hto⟩ := forall₂_mem g1 hq
          exact ⟨d, List.mem_append.2 (.inl hd), q, rfl, hto⟩
        · obtain ⟨q, hq, rfl⟩ := List.mem_map.1 hg
          obtain ⟨d, hd, hto⟩ := forall₂_mem g3 hq
          exact ⟨d, List.mem_append.2 (.inr hd), q, rfl, hto⟩
      obtain ⟨d, hd, q, rfl, hto⟩ := this
      obtain ⟨k1, k2⟩ := h3 d hd
      have := ((place12 hto).2.2.1 k1).2.1.2 k2
      simp [Part.isPlain, this]

theorem paths_at {paths : Dict (Dict Json)} (h1 : Dict.get? doc (s% "paths") = some (objectsOf paths)) (hw : (Json.obj doc).wf = true) {k : Str} {e : Dict Json}
    (h : (k, .obj e) ∈ objAt doc (s% "paths")) : Dict.get? paths k = some e := by
  have ho : objAt doc (s% "paths") = paths.map (fun kv => (kv.1, Json.obj kv.2)) := by unfold objAt; rw [h1]; rfl
  have hn := Dict.get?_of_mem (wf_nodup (wf_at hw h1)) (show (k, Json.obj e) ∈ paths.map (fun kv => (kv.1, Json.obj kv.2)) by rw [← ho]; exact h)
  rw [get?_objectsOf] at hn
  cases hg : Dict.get? paths k with
  | none => rw [hg] at hn; cases hn
  | some x => rw [hg] at hn; cases hn; rfl

theorem opsOf_mem {e : Dict Json} {p : Str × Dict Json} (h : p ∈ opsOf e) : Dict.get? e p.1 = some (.obj p.2) := by
  obtain ⟨m, _, hm⟩ := List.mem_filterMap.1 h
  split at hm
  · cases hm; assumption
  · cases hm

/-- The operations of the path items of an upgraded document. -/
theorem op_at {paths : Dict (Dict Json)} (h2 : PathsTo12 num lower sep ops paths) {k : Str} {e : Dict Json} (hi : Dict.get? paths k = some e)
    (ha : Among lower ds ops) {p : Str × Dict Json} (hp : p ∈ opsOf e) :
    ∃ y ∈ allOps lower ds, OperationTo12 num lower sep y.decl y.op p.2 := by
  obtain ⟨x, hx, _, _, r, e1, hr⟩ := item_member h2 hi (opsOf_mem hp)
  obtain ⟨y, hy, _, e2, e3⟩ := ha x hx
  cases e1
  rw [e2, e3] at hr
  exact ⟨y, hy, hr⟩

theorem item_params {paths : Dict (Dict Json)} (h2 : PathsTo12 num lower sep ops paths) {k : Str} {e : Dict Json} (hi : Dict.get? paths k = some e)
    (ha : Among lower ds ops) (hp : ∀ x ∈ allOps lower ds, x.method ≠ s% "parameters") : listAt e (s% "parameters") = [] := by
  unfold listAt
  cases hg : Dict.get? e (s% "parameters") with
  | none => rfl
  | some v =>
    obtain ⟨x, hx, _, hm, _⟩ := item_member h2 hi hg
    obtain ⟨y, hy, e1, _⟩ := ha x hx
    exact absurd (e1.symm.trans hm) (hp y hy)

theorem op_params {refs : Refs} {decl op r : Dict Json} (h : OperationTo12 num lower sep decl op r) :
    ∃ ps, listAt r (s% "parameters") = ps.map .obj ∧ paramsOf refs r = ps.map (fun p => ⟨p, none⟩) ∧
      List.Forall₂ (ParameterTo num lower sep (resourcePath decl)) (dictsAt op (s% "parameters")) ps ∧
      ∀ p ∈ ps, Dict.get? p (s% "$ref") = none := by
  obtain ⟨_, _, _, _, _, _, _, ⟨ps, h8, h8'⟩, _⟩ := h
  have hl : listAt r (s% "parameters") = ps.map .obj := by unfold listAt; rw [h8]
  have hn : ∀ p ∈ ps, Dict.get? p (s% "$ref") = none := fun p hp => by
    obtain ⟨d, _, hto⟩ := forall₂_mem h8' hp
    exact (place12 hto).1
  refine ⟨ps, hl, ?_, h8', hn⟩
  unfold Spec.paramsOf
  rw [hl, List.map_map]
  refine List.map_congr_left (fun p hp => ?_)
  show behind refs.param (.obj p) = _
  unfold behind
  dsimp only
  rw [hn p hp]

theorem op_responses {decl op r : Dict Json} (h : OperationTo12 num lower sep decl op r) {kv : Str × Json} (hk : kv ∈ objAt r (s% "responses")) :
    ∃ s, kv.2 = .obj s ∧ Dict.get? s (s% "$ref") = none ∧ Dict.get? s (s% "headers") = none := by
  obtain ⟨_, _, _, _, _, _, _, _, _, ⟨s, h10, h11⟩, _⟩ := h
  rw [objAt_some h10] at hk
  have := List.mem_singleton.1 hk
  subst this
  exact ⟨s, rfl, only_none h11.2.2.2 (by decide), only_none h11.2.2.2 (by decide)⟩

theorem docResolves12 (hu : UpgradedTo num lower sep l ds host ops doc) (ha : Among lower ds ops)
    (hp : ∀ x ∈ allOps lower ds, x.method ≠ s% "parameters") (hw : (Json.obj doc).wf = true) (refs : Refs) : DocResolves refs doc := by
  obtain ⟨_, _, paths, h1, h2⟩ := hu
  intro k e hk
  have hi := paths_at h1 hw hk
  refine ⟨fun j hj => ?_, fun p hpm => ?_⟩
  · rw [item_params h2 hi ha hp] at hj; cases hj
  · obtain ⟨y, hy, hto⟩ := op_at h2 hi ha hpm
    refine ⟨fun j hj d v hd hv => ?_, fun kv hkv d v hd hv => ?_⟩
    · obtain ⟨ps, g1, _, _, g4⟩ := op_params (refs := refs) hto
      rw [g1] at hj
      obtain ⟨q, hq, rfl⟩ := List.mem_map.1 hj
      cases hd
      rw [g4 _ hq] at hv
      cases hv
    · obtain ⟨s, e1, e2, _⟩ := op_responses hto hkv
      rw [e1] at hd
      cases hd
      rw [e2] at hv
      cases hv

theorem listAt_get {d : Dict Json} {k : Str} {xs : List Json} (h : Dict.get? d k = some (.arr xs)) : listAt d k = xs := by unfold listAt; rw [h]

theorem startsWith_slash {p r : Str} (h : p = '/' :: r) : Str.startsWith p (s% "x-") = false := by
  subst h; rfl

/-- Upgraded documents can be converted to OpenAPI 3. -/
theorem convertible12 (hu : UpgradedTo num lower sep l ds host ops doc) (hd : Declared ds) (ha : Among lower ds ops)
    (hp : ∀ x ∈ allOps lower ds, x.method ≠ s% "parameters") (hw : (Json.obj doc).wf = true) (hslash : ∀ x ∈ ops, ∃ r, x.path = '/' :: r)
    (hs : Sayable12 lower l ds) (refs : Refs) (ok : Str → Bool) : Convertible refs ok doc := by
  have hall := hu
  obtain ⟨hdoc, hhost, paths, h1, h2⟩ := hu
  refine ⟨⟨host, .inl (look_get hhost)⟩, ⟨[], .inl (look_get hdoc.basePath)⟩, listAt_get (hdoc.noCommon _ (by decide)), ?_, ?_, ?_, ?_⟩
  · intro k e hk
    have hi := paths_at h1 hw hk
    refine ⟨?_, fun p hpm => ?_, .inl ⟨?_, ?_, fun p hpm => ?_⟩⟩
    · obtain ⟨x, hx, rfl⟩ := (h2.1 k).1 (by rw [hi]; simp)
      obtain ⟨r, hr⟩ := hslash x hx
      exact startsWith_slash hr
    · obtain ⟨y, hy, hto⟩ := op_at h2 hi ha hpm
      refine ⟨fun kv hkv => ?_, .inl ?_⟩
      · obtain ⟨s, e1, e2, e3⟩ := op_responses hto hkv
        rw [e1]
        unfold behind
        dsimp only
        rw [e2]
        intro k d hkd
        dsimp only at hkd
        unfold objAt at hkd
        rw [e3] at hkd
        cases hkd
      · unfold listAt
        rw [only_none hto.2.2.2.2.2.2.2.2.2.2 (by decide)]
    · intro f hf
      unfold Spec.paramsOf at hf
      rw [item_params h2 hi ha hp] at hf
      cases hf
    · rintro ⟨f, hf, _⟩
      unfold Spec.paramsOf at hf
      rw [item_params h2 hi ha hp] at hf
      cases hf
    · obtain ⟨y, hy, hto⟩ := op_at h2 hi ha hpm
      obtain ⟨ps, _, g2, g3, _⟩ := op_params (refs := refs) hto
      rw [g2]
      exact params_fit g3 (fun d hdm => param_built hd hy hdm) (hs.params y hy)
  · intro k e hk
    rw [objAt_some (hdoc.noShared _ (by decide))] at hk
    cases hk
  · intro k e hk
    rw [objAt_some (hdoc.noShared _ (by decide))] at hk
    cases hk
  · intro k e hk ht
    obtain ⟨sd, g1, g2⟩ := hdoc.security
    rw [objAt_some g1] at hk
    have hget := Dict.get?_of_mem (wf_nodup (wf_at hw g1)) hk
    have := g2 k
    rw [hget] at this
    obtain ⟨n, d, r, _, hn, hr, hto⟩ := this
    cases hr
    obtain ⟨q1, _, q3, _⟩ := hto
    have htd : look d (s% "type") = .str (s% "oauth2") := by
      rw [look_get q1] at ht
      split at ht
      · exact absurd ht (by decide)
      · exact ht
    have hflow := (q3 htd).2.2.1
    rcases hs.grants n d hn htd with ⟨k1, _⟩ | ⟨k1, k2⟩
    · rw [if_pos k1] at hflow
      exact ⟨_, look_get hflow, by decide⟩
    · rw [if_neg (by simp [k1]), if_pos k2] at hflow
      exact ⟨_, look_get hflow, by decide⟩

theorem scopes12 (hdoc : DocumentTo12 num sep l ds doc) (hw : (Json.obj doc).wf = true) (hok : ListingOk l) (hs : Sayable12 lower l ds) :
    ∀ k e, (k, .obj e) ∈ objAt doc (s% "securityDefinitions") → ScopesGiven e := by
  intro k e hk ht
  obtain ⟨sd, g1, g2⟩ := hdoc.security
  rw [objAt_some g1] at hk
  have hget := Dict.get?_of_mem (wf_nodup (wf_at hw g1)) hk
  have := g2 k
  rw [hget] at this
  obtain ⟨n, d, r, _, hn, hr, hto⟩ := this
  cases hr
  obtain ⟨q1, ⟨sc, q2, q2'⟩, q3, _⟩ := hto
  have htd : look d (s% "type") = .str (s% "oauth2") := by
    rw [look_get q1] at ht
    split at ht
    · exact absurd ht (by decide)
    · exact ht
  have hflow := (q3 htd).2.2.1
  rcases hs.grants n d hn htd with ⟨_, k1⟩ | ⟨k1, k2⟩
  · left
    rw [objAt_some q2]
    rintro rfl
    cases hds : dictsAt d (s% "scopes") with
    | nil => exact k1 hds
    | cons s ss =>
      obtain ⟨⟨t, ht⟩, _⟩ := ((hok.2.2.2) n d (Dict.mem_of_get? hn)).1 s (by rw [hds]; exact List.mem_cons_self ..)
      have := q2' t
      rw [Dict.get?_nil] at this
      have hne := (List.getLast?_eq_none_iff.1 this.symm)
      have hm : look s (s% "description") ∈ (dictsAt d (s% "scopes")).filterMap (fun s =>
          if look s (s% "scope") = .str t then some (look s (s% "description")) else none) :=
        List.mem_filterMap.2 ⟨s, by rw [hds]; exact List.mem_cons_self .., by rw [if_pos (look_get ht)]⟩
      rw [hne] at hm
      cases hm
  · right
    intro f hf
    rw [if_neg (by simp [k1]), if_pos k2] at hflow
    rw [look_get hflow]
    intro h
    cases h
    exact absurd hf (by decide)

theorem names12 (hdoc : DocumentTo12 num sep l ds doc) : NamesOk doc := by
  intro n e hn
  rw [objAt_some (hdoc.noShared _ (by decide))] at hn
  cases hn

end Pyopenapi.Main
