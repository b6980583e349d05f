import Verif.Lemmas.ConvLoads2
import Verif.Props.Refs

/-!
# The objects of what a converter has made
-/

namespace Pyopenapi
open Spec Obj

variable {S : Bool → Json → Prop}

/-- The classes of OpenAPI 3. -/
def v3 (c : Str) : Bool := ofVersion (s% "v3_0_0.") c

def evenB (b : Builder) : Bool := flatB b || contB b

/-- An object made of a document of a converter. -/
def FineObj (S : Bool → Json → Prop) (m : Obj) : Prop :=
  ∃ b j p, within v3 evenB b = true ∧ Fine S b j ∧ j.wf = true ∧ build pkg b j p [] = .ok m

/-- The same, by the kind of the object. -/
def FineAs (S : Bool → Json → Prop) (o : Obj) : Obj → Prop
  | .prim _ => True
  | .base c p s _ => v3 c = true ∧ Fine S (.cls c) s ∧ s.wf = true ∧ build pkg (.cls c) s p [] = .ok o
  | .list b p s _ => within v3 evenB (.listOf b) = true ∧ Fine S (.listOf b) s ∧ s.wf = true ∧ build pkg (.listOf b) s p [] = .ok o
  | .map b p s _ => within v3 evenB (.mapOf b) = true ∧ Fine S (.mapOf b) s ∧ s.wf = true ∧ build pkg (.mapOf b) s p [] = .ok o

theorem fineAs_of {b : Builder} {j : Json} {p : Option Str} {o : Obj} (hw : within v3 evenB b = true) (hf : Fine S b j)
    (hj : j.wf = true) (h : build pkg b j p [] = .ok o) : FineAs S o o := by
  induction b generalizing o with
  | cls c =>
    have h0 := h
    rw [build_cls] at h
    split at h
    · simp at h
    · simp only [Except.ok.injEq] at h; subst h; exact ⟨hw, hf, hj, h0⟩
  | isStr => rw [build_isStr] at h; cases j <;> simp at h; subst h; trivial
  | isStrOrInt => rw [build_isStrOrInt] at h; cases j <;> simp at h <;> (subst h; trivial)
  | listOf b _ =>
    cases j with
    | arr l =>
      have h0 := h
      rw [build_list] at h
      split at h
      · simp at h
      · simp only [Except.ok.injEq] at h; subst h; exact ⟨hw, hf, hj, h0⟩
    | _ => rw [build_list_other _ _ _ (by simp)] at h; simp at h
  | mapOf b _ =>
    cases j with
    | obj l =>
      have h0 := h
      rw [build_map] at h
      split at h
      · simp at h
      · simp only [Except.ok.injEq] at h; subst h; exact ⟨hw, hf, hj, h0⟩
    | _ => rw [build_map_other _ _ _ (by simp)] at h; simp at h
  | ifNotRef r b ih =>
    rw [build_ifNotRef] at h
    simp only [within, Bool.and_eq_true] at hw
    cases hf with
    | @ref _ _ d v hg hf =>
      have : specHas (.obj d) (s% "$ref") = .ok true := by simp [specHas, Dict.has, hg]
      rw [this] at h
      dsimp only at h
      have h0 := h
      rw [build_cls] at h
      split at h
      · simp at h
      · simp only [Except.ok.injEq] at h; subst h; exact ⟨hw.1, hf, hj, h0⟩
    | @notRef _ _ d hg hf =>
      have : specHas (.obj d) (s% "$ref") = .ok false := by simp [specHas, Dict.has, hg]
      rw [this] at h
      exact ih hw.2 hf h
  | ifNotBool b ih =>
    rw [build_ifNotBool] at h
    cases hf with
    | @bool _ v => rw [if_pos (show isBool (.bool v) = true from rfl)] at h; cases h; trivial
    | notBool hn hf =>
      split at h
      · rename_i hv
        cases j with
        | bool v => exact absurd rfl (hn v)
        | _ => cases hv
      · exact ih hw hf h

theorem fine_kids {c : Str} {j s : Json} {p p' : Option Str} {ks : Dict Obj}
    (h : build pkg (.cls c) j p [] = .ok (.base c p' s ks)) :
    ∀ k o, (k, o) ∈ ks → ∃ cd d v, (k, cd) ∈ (pkg c).children ∧ j = .obj d ∧ Dict.get? d k = some v ∧ v ≠ .null ∧
      build pkg cd.builder v (some (jpCompose [k] p)) [] = .ok o := by
  rw [build_cls] at h
  split at h
  · simp at h
  · rename_i kids hk
    simp only [Except.ok.injEq, Obj.base.injEq] at h
    obtain ⟨_, _, _, rfl⟩ := h
    intro k o hm
    rw [(Dict.collect_iff.1 hk).2, List.mem_filterMap] at hm
    obtain ⟨⟨k', cd⟩, hm1, hm2⟩ := hm
    simp only [Option.map_eq_some_iff, Prod.mk.injEq] at hm2
    obtain ⟨o', h1, rfl, rfl⟩ := hm2
    obtain ⟨d, v, rfl, hv, hn, hb⟩ := kid_some.1 (kept_some.1 h1)
    exact ⟨cd, d, v, hm1, rfl, hv, hn, hb⟩

/-- The children that may be written lead to no mixture. -/
theorem v3_children (c : Str) (hc : v3 c = true) (k : Str) (cd : ChildDef) (hm : (k, cd) ∈ (pkg c).children)
    (hk : keyOk k = true ∨ k = s% "$ref" ∨ c = s% "v3_0_0.OAuthFlows") : within v3 evenB cd.builder = true := by
  have h := pkg_children (p := fun c kc => !v3 c || !(keyOk kc.1 || kc.1 == s% "$ref" || c == s% "v3_0_0.OAuthFlows") ||
    within v3 evenB kc.2.builder) (by decide +kernel) c
  have := List.all_eq_true.1 h _ hm
  simp only [hc, Bool.not_true, Bool.false_or, Bool.or_eq_true, Bool.not_eq_true', Bool.or_eq_false_iff] at this
  rcases this with ⟨⟨h1, h2⟩, h3⟩ | h
  · rcases hk with hk | hk | hk
    · rw [hk] at h1; cases h1
    · subst hk; cases h2
    · subst hk; cases h3
  · exact h

theorem fine_as {m : Obj} (h : FineObj S m) : FineAs S m m := by
  obtain ⟨b, j, p, h1, h2, h3, h4⟩ := h
  exact fineAs_of h1 h2 h3 h4

theorem fine_slot {m x : Obj} {k : Str} (hm : FineObj S m) (hs : Slot m k x) : FineObj S x := by
  have hm := fine_as hm
  cases hs with
  | child hk =>
    obtain ⟨h1, h2, h3, h4⟩ := hm
    obtain ⟨cd, d, v, g1, rfl, g3, g4, g5⟩ := fine_kids h4 _ _ hk
    cases h2 with
    | cls f1 _ f3 =>
      refine ⟨cd.builder, v, _, v3_children _ h1 _ cd g1 ?_, f3 _ cd v g1 g3 g4, wf_get h3 g3, g5⟩
      rcases f1 _ v g3 with h | ⟨h, _⟩ | h
      · exact .inl h
      · exact .inr (.inl h)
      · exact .inr (.inr h)
  | item hk =>
    obtain ⟨h1, h2, h3, h4⟩ := hm
    obtain ⟨d, rfl, _, hd⟩ := map_elems h4
    obtain ⟨y, q, hy, hq⟩ := hd _ _ hk
    cases h2 with
    | map f =>
      simp only [within, Bool.and_eq_true] at h1
      exact ⟨_, y, q, h1.2, f _ _ hy, wf_member h3 hy, hq⟩
  | elem hk =>
    obtain ⟨h1, h2, h3, h4⟩ := hm
    obtain ⟨l, rfl, hd⟩ := list_elems h4
    obtain ⟨y, hy, q, hq⟩ := hd _ (List.mem_of_getElem? hk)
    cases h2 with
    | list f =>
      simp only [within, Bool.and_eq_true] at h1
      obtain ⟨n, hn, he⟩ := List.getElem_of_mem hy
      exact ⟨_, y, q, h1.2, f _ hy, wf_elem h3 (by rw [List.getElem?_eq_getElem hn, he]), hq⟩

theorem fine_inside {o m : Obj} (ho : FineObj S o) (hm : Inside o m) : FineObj S m := by
  induction hm with
  | here => exact ho
  | child h _ ih => exact ih (fine_slot ho (.child h))
  | elem h _ ih =>
    obtain ⟨i, hi, he⟩ := List.getElem_of_mem h
    exact ih (fine_slot ho (.elem (i := i) (by rw [List.getElem?_eq_getElem hi, he])))
  | item h _ ih => exact ih (fine_slot ho (.item h))

/-- Nothing is mixed. -/
theorem fine_noMix {o : Obj} (ho : FineObj S o) : NoMix o := by
  intro m hm
  have hf := fine_as (fine_inside ho hm)
  cases m with
  | base c p' s ks =>
    obtain ⟨_, _, _, h⟩ := hf
    intro k o hk
    obtain ⟨cd, d, v, h1, _⟩ := fine_kids h k o hk
    exact plain_no_slash (plainNames_pkg c k (List.mem_map_of_mem (f := Prod.fst) h1))
  | map b' p' s es =>
    obtain ⟨hc, _, _, h⟩ := hf
    simp only [within, evenB, Bool.and_eq_true, Bool.or_eq_true] at hc
    dsimp only
    rcases hc.1 with hq | hq
    · left
      intro k x hx
      obtain ⟨y, q, hy⟩ := elem_built (.item hx) (.inr h) rfl
      exact build_flat hq hy
    · right
      intro k x hx
      obtain ⟨y, q, hy⟩ := elem_built (.item hx) (.inr h) rfl
      exact build_cont hq hy
  | _ => trivial

theorem fine_visited {root x : Obj} {ts : List Str} (h : FineObj S root) (hb : root.isBase = true) (hv : Visited [] root ts x) :
    ∃ c q d kids, x = .base c q (.obj d) kids ∧ v3 c = true ∧ Keys S c d ∧
      build pkg (.cls c) (.obj d) q [] = .ok (.base c q (.obj d) kids) := by
  have hx := fine_as (fine_inside h (visited_inside hv x (.here x)))
  have hbx : x.isBase = true := by
    cases hv with
    | root => exact hb
    | child _ _ hl => exact leads_base hl
  cases x with
  | base c q s kids =>
    obtain ⟨h1, h2, _, h4⟩ := hx
    cases h2 with
    | cls f _ _ => exact ⟨c, q, _, kids, rfl, h1, f, h4⟩
  | _ => cases hbx

/-- No `examples`. -/
theorem fine_noExamples {root : Obj} (h : FineObj S root) (hb : root.isBase = true) : Refs.Spec.NoExamples root := by
  intro ts q spec kids hv
  obtain ⟨c, q', d, kids', e, _, hk, hbd⟩ := fine_visited h hb hv
  cases e
  cases hg : Dict.get? kids (s% "examples") with
  | none => rfl
  | some x =>
    obtain ⟨cd, d', v, _, e, hd, _⟩ := fine_kids hbd _ _ (Dict.mem_of_get? hg)
    cases e
    rcases hk _ v hd with h | ⟨h, _⟩ | h
    · exact absurd h (by decide)
    · exact absurd h (by decide)
    · exact absurd h (by decide)

theorem fine_scanned {c : Str} {j : Json} {p : Option Str} {root : Obj} (hc : v3 c = true) (hf : Fine S (.cls c) j) (hj : j.wf = true)
    (h : build pkg (.cls c) j p [] = .ok root) : FineObj S root ∧ Refs.Spec.Scanned root (walk [] (nodes root) root) := by
  have ho : FineObj S root := ⟨_, j, p, by simpa [within] using hc, hf, hj, h⟩
  exact ⟨ho, Refs.scanned_walk (loaded_keyed okTable_pkg closed_all (B := fun _ => True) ⟨_, j, p, trivial, hj, h⟩) (fine_noMix ho)⟩

end Pyopenapi
