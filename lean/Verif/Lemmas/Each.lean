import Verif.Lemmas.MainDoc

/-!
# What holds for the text of every schema, reference and path item of a 2.0 document
-/

namespace Pyopenapi
open Spec Obj

/-- The classes of 2.0 in which there are no schemas, references and path items. -/
def freeClasses2 : List Str := [s% "v2_0.XMLObject", s% "v2_0.ExternalDocumentation", s% "v2_0.Tag", s% "v2_0.Items", s% "v2_0.Contact",
  s% "v2_0.License", s% "v2_0.Info", s% "v2_0.Header", s% "v2_0.SecurityScheme"]

def free2 (b : Builder) : Bool := within (fun c => freeClasses2.contains c) (fun _ => true) b

/-- `P` holds for the class and the text of the schemas, references and path items of a document. -/
inductive Each (P : Str → Dict Json → Prop) : Builder → Json → Prop
  | free {b : Builder} {j : Json} : free2 b = true → Each P b j
  | cls {c : Str} {d : Dict Json} : P c d →
      (∀ k cd v, (k, cd) ∈ (pkg c).children → Dict.get? d k = some v → Each P cd.builder v) → Each P (.cls c) (.obj d)
  | list {b : Builder} {l : List Json} : (∀ x ∈ l, Each P b x) → Each P (.listOf b) (.arr l)
  | map {b : Builder} {d : Dict Json} : (∀ k x, Dict.get? d k = some x → Each P b x) → Each P (.mapOf b) (.obj d)
  | notRef {r : Str} {b : Builder} {d : Dict Json} : Dict.get? d (s% "$ref") = none → Each P b (.obj d) → Each P (.ifNotRef r b) (.obj d)

theorem free2_closed : Closed pkg (fun b => free2 b = true) := closed_within (fun c hc => by
  have h := pkg_children (p := fun c kc => !(freeClasses2.contains c) || within (fun c => freeClasses2.contains c) (fun _ => true) kc.2.builder)
    (by decide +kernel) c
  rw [List.all_eq_true] at h ⊢
  intro x hx
  have := h x hx
  rw [hc] at this
  exact this)

theorem free2_apart {c : Str} (h : free2 (.cls c) = true) : c ∉ Refs.normClasses2 := by
  intro hc
  have : Refs.normClasses2.all (fun c => !free2 (.cls c)) = true := by decide +kernel
  have := List.all_eq_true.1 this c hc
  rw [h] at this
  cases this

theorem each_inside {P : Str → Dict Json → Prop} {b : Builder} {j : Json} (h : Each P b j) : ∀ {p : Option Str} {o : Obj},
    j.wf = true → build pkg b j p [] = .ok o → ∀ {c q spec kids}, Inside o (.base c q spec kids) → c ∈ Refs.normClasses2 →
      ∃ e, spec = .obj e ∧ P c e := by
  induction h with
  | free hf =>
    intro p o hj hb c q spec kids hi hc
    obtain ⟨b', j', p', hB, _, hb'⟩ := loaded_inside free2_closed ⟨_, _, _, hf, hj, hb⟩ hi
    have := build_inv free2_closed hB hb'
    exact absurd hc (free2_apart this.2.2.1)
  | @cls c d hP _ ih =>
    intro p o hj hb c' q spec kids hi hc
    obtain ⟨ks, rfl⟩ := Refs.build_class hb
    generalize hx : Obj.base c' q spec kids = x at hi
    cases hi with
    | here => cases hx; exact ⟨d, rfl, hP⟩
    | child hk hi =>
      subst hx
      obtain ⟨cd, d', v, hm, hd, hv, hbk⟩ := (base_kids hb).2 _ _ hk
      cases hd
      exact ih _ cd v hm hv (wf_at hj hv) hbk hi hc
  | @list b l _ ih =>
    intro p o hj hb c' q spec kids hi hc
    have h0 := hb
    rw [build_list] at h0
    split at h0
    · cases h0
    cases h0
    generalize hx : Obj.base c' q spec kids = x at hi
    cases hi with
    | here => cases hx
    | elem hk hi =>
      subst hx
      obtain ⟨l', hl, he⟩ := list_elems hb
      cases hl
      obtain ⟨x, hx, q', hbx⟩ := he _ hk
      exact ih x hx (wf_list hj hx) hbx hi hc
  | @map b d _ ih =>
    intro p o hj hb c' q spec kids hi hc
    have h0 := hb
    rw [build_map] at h0
    split at h0
    · cases h0
    cases h0
    generalize hx : Obj.base c' q spec kids = x at hi
    cases hi with
    | here => cases hx
    | item hk hi =>
      subst hx
      obtain ⟨d', hd, _, he⟩ := map_elems hb
      cases hd
      obtain ⟨x, q', hx, hbx⟩ := he _ _ hk
      exact ih _ x (Dict.get?_of_mem (wf_nodup hj) hx) (wf_member hj hx) hbx hi hc
  | @notRef r b d hr _ ih =>
    intro p o hj hb c' q spec kids hi hc
    rw [build_ifNotRef] at hb
    have : specHas (.obj d) (s% "$ref") = .ok false := by simp [specHas, Dict.has, hr]
    rw [this] at hb
    exact ih hj hb hi hc

/-- The members of an object, by the list of those it may have. -/
theorem each_cls {P : Str → Dict Json → Prop} {c : Str} {d : Dict Json} (ks : List Str) (special : List (Str × Builder)) (hP : P c d)
    (ho : Only ks d) (ht : (pkg c).children.all (fun kc => !(ks.elem kc.1) || free2 kc.2.builder || special.elem (kc.1, kc.2.builder)) = true)
    (hs : ∀ kb ∈ special, ∀ v, Dict.get? d kb.1 = some v → Each P kb.2 v) : Each P (.cls c) (.obj d) := by
  refine .cls hP (fun k cd v hm hv => ?_)
  have := List.all_eq_true.1 ht _ hm
  simp only [Bool.or_eq_true, Bool.not_eq_true'] at this
  rcases this with (h | h) | h
  · have hk := ho k (by rw [hv]; simp)
    rw [← List.elem_iff] at hk
    rw [hk] at h
    cases h
  · exact .free h
  · exact hs _ (List.elem_iff.1 h) v hv

end Pyopenapi
