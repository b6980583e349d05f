import Verif.Lemmas.Scan
import Verif.Props.Override
import Verif.Lemmas.ObjEq

/-! What lies inside a loaded object was loaded too. -/

namespace Pyopenapi
open Spec Obj
variable {T : Table}

/-- A set of builders that contains whatever its members use. -/
structure Closed (T : Table) (B : Builder → Prop) : Prop where
  cls : ∀ c, B (.cls c) → ∀ k cd, (k, cd) ∈ (T c).children → B cd.builder
  list : ∀ b, B (.listOf b) → B b
  map : ∀ b, B (.mapOf b) → B b
  ref : ∀ r b, B (.ifNotRef r b) → B (.cls r) ∧ B b
  bool : ∀ b, B (.ifNotBool b) → B b

/-- Loaded by one of these builders from a parsed document. -/
def Loaded (T : Table) (B : Builder → Prop) (m : Obj) : Prop :=
  ∃ b j p, B b ∧ j.wf = true ∧ build T b j p [] = .ok m

/-- Which builder made an object, behind the wrappers. -/
def BuiltAs (T : Table) (B : Builder → Prop) (j : Json) (p : Option Str) (o : Obj) : Obj → Prop
  | .prim j' => j' = j
  | .base c p' s _ => p' = p ∧ s = j ∧ B (.cls c) ∧ build T (.cls c) j p [] = .ok o
  | .list b' p' s _ => p' = p ∧ s = j ∧ B (.listOf b') ∧ build T (.listOf b') j p [] = .ok o
  | .map b' p' s _ => p' = p ∧ s = j ∧ B (.mapOf b') ∧ build T (.mapOf b') j p [] = .ok o

theorem build_inv {B : Builder → Prop} (hB : Closed T B) {b : Builder} {j : Json} {p : Option Str} {o : Obj}
    (hb : B b) (h : build T b j p [] = .ok o) : BuiltAs T B j p o o := by
  induction b generalizing o with
  | cls c =>
    have h0 := h
    rw [build_cls] at h
    split at h
    · simp at h
    · simp only [Except.ok.injEq] at h; subst h; exact ⟨rfl, rfl, hb, h0⟩
  | isStr => rw [build_isStr] at h; cases j <;> simp at h; subst h; rfl
  | isStrOrInt => rw [build_isStrOrInt] at h; cases j <;> simp at h <;> (subst h; rfl)
  | listOf b _ =>
    cases j with
    | arr l =>
      have h0 := h
      rw [build_list] at h
      split at h
      · simp at h
      · simp only [Except.ok.injEq] at h; subst h; exact ⟨rfl, rfl, hb, h0⟩
    | _ => rw [build_list_other _ _ _ (by simp)] at h; simp at h
  | mapOf b _ =>
    cases j with
    | obj l =>
      have h0 := h
      rw [build_map] at h
      split at h
      · simp at h
      · simp only [Except.ok.injEq] at h; subst h; exact ⟨rfl, rfl, hb, h0⟩
    | _ => rw [build_map_other _ _ _ (by simp)] at h; simp at h
  | ifNotRef r b ih =>
    rw [build_ifNotRef] at h
    split at h
    · simp at h
    · have h0 := h
      rw [build_cls] at h
      split at h
      · simp at h
      · simp only [Except.ok.injEq] at h; subst h
        exact ⟨rfl, rfl, (hB.ref r b hb).1, h0⟩
    · exact ih (hB.ref r b hb).2 h
  | ifNotBool b ih =>
    rw [build_ifNotBool] at h
    split at h
    · simp only [Except.ok.injEq] at h; subst h; rfl
    · exact ih (hB.bool b hb) h

theorem base_kids {c : Str} {j s : Json} {p p' : Option Str} {ks : Dict Obj}
    (h : build T (.cls c) j p [] = .ok (.base c p' s ks)) :
    ks = (T c).children.filterMap (fun kv => (Dict.kept (fun k cd => buildKid T k cd j p []) kv.1 kv.2).map (fun o => (kv.1, o))) ∧
    ∀ k o, (k, o) ∈ ks → ∃ cd d v, (k, cd) ∈ (T c).children ∧ j = .obj d ∧ Dict.get? d k = some v ∧
      build T cd.builder v (some (jpCompose [k] p)) [] = .ok o := by
  rw [build_cls] at h
  split at h
  · simp at h
  · rename_i kids hk
    simp only [Except.ok.injEq, Obj.base.injEq] at h
    obtain ⟨_, _, _, rfl⟩ := h
    refine ⟨(Dict.collect_iff.1 hk).2, ?_⟩
    intro k o hm
    rw [(Dict.collect_iff.1 hk).2, List.mem_filterMap] at hm
    obtain ⟨⟨k', cd⟩, hm1, hm2⟩ := hm
    simp only [Option.map_eq_some_iff, Prod.mk.injEq] at hm2
    obtain ⟨o', h1, rfl, rfl⟩ := hm2
    obtain ⟨d, v, rfl, hv, _, hb⟩ := kid_some.1 (kept_some.1 h1)
    exact ⟨cd, d, v, hm1, rfl, hv, hb⟩

theorem map_elems {b b' : Builder} {j s : Json} {p p' : Option Str} {es : Dict Obj}
    (h : build T (.mapOf b) j p [] = .ok (.map b' p' s es)) :
    ∃ d, j = .obj d ∧ Dict.keys es = Dict.keys d ∧
      ∀ k o, (k, o) ∈ es → ∃ x q, (k, x) ∈ d ∧ build T b x q [] = .ok o := by
  cases j with
  | obj d =>
    rw [build_map] at h
    split at h
    · simp at h
    · rename_i es' hes
      simp only [Except.ok.injEq, Obj.map.injEq] at h
      obtain ⟨_, _, _, rfl⟩ := h
      rw [buildItems_eq] at hes
      refine ⟨d, rfl, Dict.mapM_keys hes, ?_⟩
      intro k o ho
      obtain ⟨⟨k', x⟩, hx, hkk, hq⟩ := forall₂_mem_right (Dict.mapM_ok hes) ho
      simp only at hkk hq
      rw [buildAt_nil] at hq
      exact ⟨x, _, hkk ▸ hx, hq⟩
  | _ => rw [build_map_other _ _ _ (by simp)] at h; simp at h

theorem list_elems {b b' : Builder} {j s : Json} {p p' : Option Str} {es : List Obj}
    (h : build T (.listOf b) j p [] = .ok (.list b' p' s es)) :
    ∃ l, j = .arr l ∧ ∀ o ∈ es, ∃ x ∈ l, ∃ q, build T b x q [] = .ok o := by
  cases j with
  | arr l =>
    rw [build_list] at h
    split at h
    · simp at h
    · rename_i es' hes
      simp only [Except.ok.injEq, Obj.list.injEq] at h
      obtain ⟨_, _, _, rfl⟩ := h
      refine ⟨l, rfl, fun o ho => ?_⟩
      obtain ⟨x, hx, q, hq⟩ := forall₂_mem_right (buildElems_forall₂ hes) ho
      exact ⟨x, hx, q, hq⟩
  | _ => rw [build_list_other _ _ _ (by simp)] at h; simp at h

theorem loaded_slot {B : Builder → Prop} (hB : Closed T B) {m x : Obj} {k : Str} (hm : Loaded T B m)
    (hs : Slot m k x) : Loaded T B x := by
  obtain ⟨b, j, p, hb, hwf, h⟩ := hm
  have hi := build_inv hB hb h
  cases hs with
  | child hm =>
    obtain ⟨_, _, hc, h⟩ := hi
    obtain ⟨cd, d, v, h1, rfl, h3, h4⟩ := (base_kids h).2 _ _ hm
    exact ⟨cd.builder, v, _, hB.cls _ hc _ cd h1, wf_get hwf h3, h4⟩
  | item hm =>
    obtain ⟨_, _, hc, h⟩ := hi
    obtain ⟨d, rfl, _, h2⟩ := map_elems h
    obtain ⟨y, q, hy, h3⟩ := h2 _ _ hm
    simp only [Json.wf, Bool.and_eq_true, decide_eq_true_eq] at hwf
    exact ⟨_, y, q, hB.map _ hc, wf_of_memD hwf.2 hy, h3⟩
  | elem hm =>
    obtain ⟨_, _, hc, h⟩ := hi
    obtain ⟨l, rfl, h2⟩ := list_elems h
    obtain ⟨y, hy, q, h3⟩ := h2 _ (List.mem_of_getElem? hm)
    exact ⟨_, y, q, hB.list _ hc, wf_of_memL (by simpa [Json.wf] using hwf) hy, h3⟩

theorem loaded_inside {B : Builder → Prop} (hB : Closed T B) {o m : Obj} (ho : Loaded T B o)
    (hm : Inside o m) : Loaded T B m := by
  induction hm with
  | here => exact ho
  | child h _ ih => exact ih (loaded_slot hB ho (.child h))
  | elem h _ ih =>
    obtain ⟨i, hi, he⟩ := List.getElem_of_mem h
    exact ih (loaded_slot hB ho (.elem (i := i) (by rw [List.getElem?_eq_getElem hi, he])))
  | item h _ ih => exact ih (loaded_slot hB ho (.item h))

theorem closed_all : Closed T (fun _ => True) :=
  ⟨fun _ _ _ _ _ => trivial, fun _ _ => trivial, fun _ _ => trivial, fun _ _ _ => ⟨trivial, trivial⟩, fun _ _ => trivial⟩

/-- Loaded objects have unique keys. -/
theorem loaded_keyed (hT : OkTable T) {B : Builder → Prop} (hB : Closed T B) {o : Obj} (ho : Loaded T B o) :
    Keyed o := by
  intro m hm
  obtain ⟨b, j, p, hb, hwf, h⟩ := loaded_inside hB ho hm
  have hi := build_inv hB hb h
  cases m with
  | prim j => trivial
  | list b p s es => trivial
  | base c p' s ks =>
    obtain ⟨_, _, hc, h⟩ := hi
    dsimp only
    rw [(base_kids h).1]
    exact Dict.nodupKeys_filterMap (hT.cls c).children
  | map b' p' s es =>
    obtain ⟨_, _, hc, h⟩ := hi
    obtain ⟨d, rfl, hkeys, _⟩ := map_elems h
    simp only [Json.wf, Bool.and_eq_true, decide_eq_true_eq] at hwf
    dsimp only [Dict.NodupKeys]
    rw [hkeys]
    exact hwf.1

/-- Loaded objects have declared children only. -/
theorem loaded_declared {B : Builder → Prop} (hB : Closed T B) {o : Obj} (ho : Loaded T B o) :
    Declared T o := by
  intro m hm
  obtain ⟨b, j, p, hb, hwf, h⟩ := loaded_inside hB ho hm
  have hi := build_inv hB hb h
  cases m with
  | base c p' s ks =>
    obtain ⟨_, _, hc, h⟩ := hi
    intro k o hk
    obtain ⟨cd, d, v, h1, _⟩ := (base_kids h).2 k o hk
    exact Dict.has_iff.2 (List.mem_map_of_mem (f := Prod.fst) h1)
  | _ => trivial

end Pyopenapi
