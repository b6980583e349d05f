import Verif.Lemmas.FineObj

/-!
# Objects of the class of references have a `$ref`
-/

namespace Pyopenapi
open Spec Obj

/-- References are made only of documents with a `$ref`. -/
def onlyRef (R : Str) : Builder → Bool
  | .cls c => c ≠ R
  | .isStr | .isStrOrInt => true
  | .listOf b | .mapOf b | .ifNotBool b | .ifNotRef _ b => onlyRef R b

/-- By the kind of object. -/
def HasAs (R : Str) (o : Obj) : Obj → Prop
  | .prim _ => True
  | .base c p s _ => build pkg (.cls c) s p [] = .ok o ∧ (c = R → specHas s (s% "$ref") = .ok true)
  | .list b p s _ => onlyRef R b = true ∧ build pkg (.listOf b) s p [] = .ok o
  | .map b p s _ => onlyRef R b = true ∧ build pkg (.mapOf b) s p [] = .ok o

theorem hasAs_of {R : Str} {b : Builder} {j : Json} {p : Option Str} {o : Obj} (hb : onlyRef R b = true)
    (h : build pkg b j p [] = .ok o) : HasAs R o o := by
  induction b generalizing o with
  | cls c =>
    have h0 := h
    rw [build_cls] at h
    split at h
    · simp at h
    · simp only [Except.ok.injEq] at h; subst h; exact ⟨h0, fun e => by simp [onlyRef, e] at hb⟩
  | isStr => rw [build_isStr] at h; cases j <;> simp at h; subst h; trivial
  | isStrOrInt => rw [build_isStrOrInt] at h; cases j <;> simp at h <;> (subst h; trivial)
  | listOf b _ =>
    cases j with
    | arr l =>
      have h0 := h
      rw [build_list] at h
      split at h
      · simp at h
      · simp only [Except.ok.injEq] at h; subst h; exact ⟨hb, h0⟩
    | _ => rw [build_list_other _ _ _ (by simp)] at h; simp at h
  | mapOf b _ =>
    cases j with
    | obj l =>
      have h0 := h
      rw [build_map] at h
      split at h
      · simp at h
      · simp only [Except.ok.injEq] at h; subst h; exact ⟨hb, h0⟩
    | _ => rw [build_map_other _ _ _ (by simp)] at h; simp at h
  | ifNotRef r b ih =>
    rw [build_ifNotRef] at h
    split at h
    · cases h
    · rename_i hs
      have h0 := h
      rw [build_cls] at h
      split at h
      · simp at h
      · simp only [Except.ok.injEq] at h; subst h; exact ⟨h0, fun _ => hs⟩
    · exact ih hb h
  | ifNotBool b ih =>
    rw [build_ifNotBool] at h
    split at h
    · cases h; trivial
    · exact ih hb h

theorem hasAs_slot {R : Str} (hR : ∀ c, (pkg c).children.all (fun kc => onlyRef R kc.2.builder) = true) {m x : Obj} {k : Str} (hm : HasAs R m m)
    (hs : Slot m k x) : HasAs R x x := by
  cases hs with
  | child hk =>
    obtain ⟨cd, d, v, h1, rfl, h3, h4⟩ := (base_kids hm.1).2 _ _ hk
    exact hasAs_of (List.all_eq_true.1 (hR _) _ h1) h4
  | item hk =>
    obtain ⟨d, rfl, _, hd⟩ := map_elems hm.2
    obtain ⟨y, q, hy, hq⟩ := hd _ _ hk
    exact hasAs_of hm.1 hq
  | elem hk =>
    obtain ⟨l, rfl, hd⟩ := list_elems hm.2
    obtain ⟨y, hy, q, hq⟩ := hd _ (List.mem_of_getElem? hk)
    exact hasAs_of hm.1 hq

theorem hasAs_inside {R : Str} (hR : ∀ c, (pkg c).children.all (fun kc => onlyRef R kc.2.builder) = true) {o m : Obj} (ho : HasAs R o o)
    (hm : Inside o m) : HasAs R m m := by
  induction hm with
  | here => exact ho
  | child h _ ih => exact ih (hasAs_slot hR ho (.child h))
  | elem h _ ih =>
    obtain ⟨i, hi, he⟩ := List.getElem_of_mem h
    exact ih (hasAs_slot hR ho (.elem (i := i) (by rw [List.getElem?_eq_getElem hi, he])))
  | item h _ ih => exact ih (hasAs_slot hR ho (.item h))

/-- The references of a loaded document of 3.0.0 have a `$ref`. -/
theorem refs_have {c : Str} (hc : c ≠ s% "v3_0_0.Reference") {j : Json} {p : Option Str} {root : Obj} (h : build pkg (.cls c) j p [] = .ok root)
    {q : Option Str} {d : Dict Json} {kids : Dict Obj} (hi : Inside root (.base (s% "v3_0_0.Reference") q (.obj d) kids)) :
    ∃ v, Dict.get? d (s% "$ref") = some v := by
  have hR : ∀ c, (pkg c).children.all (fun kc => onlyRef (s% "v3_0_0.Reference") kc.2.builder) = true :=
    pkg_children (p := fun _ kc => onlyRef (s% "v3_0_0.Reference") kc.2.builder) (by decide +kernel)
  have := (hasAs_inside hR (hasAs_of (b := .cls c) (by simpa [onlyRef] using hc) h) hi).2 rfl
  simp only [specHas, Except.ok.injEq, Dict.has] at this
  exact Option.isSome_iff_exists.1 this

end Pyopenapi
