import Verif.Lemmas.Inside
import Verif.Lemmas.Tables

/-! Which kinds of objects the builders of a table produce inside one another. -/

namespace Pyopenapi
open Spec Obj
variable {T : Table}

/-- Never a list or a map. -/
def flatB : Builder → Bool
  | .cls _ | .isStr | .isStrOrInt => true
  | .listOf _ | .mapOf _ => false
  | .ifNotRef _ b | .ifNotBool b => flatB b

/-- Never an object of a class. -/
def contB : Builder → Bool
  | .isStr | .isStrOrInt | .listOf _ | .mapOf _ => true
  | .cls _ | .ifNotRef _ _ => false
  | .ifNotBool b => contB b

/-- No object of a class inside. -/
def leafB : Builder → Bool
  | .isStr | .isStrOrInt => true
  | .listOf b | .mapOf b | .ifNotBool b => leafB b
  | .cls _ | .ifNotRef _ _ => false

/-- Only classes of `C`, and every element builder of a list or map passes `q`. -/
def within (C : Str → Bool) (q : Builder → Bool) : Builder → Bool
  | .cls c => C c
  | .isStr | .isStrOrInt => true
  | .listOf b | .mapOf b => q b && within C q b
  | .ifNotRef r b => C r && within C q b
  | .ifNotBool b => within C q b

theorem closed_within {C : Str → Bool} {q : Builder → Bool}
    (h : ∀ c, C c = true → (T c).children.all (fun kc => within C q kc.2.builder) = true) :
    Closed T (fun b => within C q b = true) where
  cls c hc k cd hm := List.all_eq_true.1 (h c (by simpa [within] using hc)) _ hm
  list b hb := by simp only [within, Bool.and_eq_true] at hb; exact hb.2
  map b hb := by simp only [within, Bool.and_eq_true] at hb; exact hb.2
  ref r b hb := by simp only [within, Bool.and_eq_true] at hb; simpa [within] using hb
  bool b hb := by simpa [within] using hb

theorem build_flat {b : Builder} {j : Json} {p : Option Str} {o : Obj} (hb : flatB b = true)
    (h : build T b j p [] = .ok o) : o.isBase = true ∨ o.isPrim = true := by
  induction b generalizing o with
  | cls c =>
    rw [build_cls] at h
    split at h
    · simp at h
    · simp only [Except.ok.injEq] at h; subst h; exact .inl rfl
  | isStr => rw [build_isStr] at h; cases j <;> simp at h; subst h; exact .inr rfl
  | isStrOrInt => rw [build_isStrOrInt] at h; cases j <;> simp at h <;> (subst h; exact .inr rfl)
  | listOf b _ => simp [flatB] at hb
  | mapOf b _ => simp [flatB] at hb
  | ifNotRef r b ih =>
    rw [build_ifNotRef] at h
    split at h
    · simp at h
    · rw [build_cls] at h
      split at h
      · simp at h
      · simp only [Except.ok.injEq] at h; subst h; exact .inl rfl
    · exact ih hb h
  | ifNotBool b ih =>
    rw [build_ifNotBool] at h
    split at h
    · simp only [Except.ok.injEq] at h; subst h; exact .inr rfl
    · exact ih hb h

theorem build_cont {b : Builder} {j : Json} {p : Option Str} {o : Obj} (hb : contB b = true)
    (h : build T b j p [] = .ok o) : o.isBase = false := by
  induction b generalizing o with
  | cls c => simp [contB] at hb
  | isStr => rw [build_isStr] at h; cases j <;> simp at h; subst h; rfl
  | isStrOrInt => rw [build_isStrOrInt] at h; cases j <;> simp at h <;> (subst h; rfl)
  | listOf b _ =>
    cases j with
    | arr l =>
      rw [build_list] at h
      split at h
      · simp at h
      · simp only [Except.ok.injEq] at h; subst h; rfl
    | _ => rw [build_list_other _ _ _ (by simp)] at h; simp at h
  | mapOf b _ =>
    cases j with
    | obj l =>
      rw [build_map] at h
      split at h
      · simp at h
      · simp only [Except.ok.injEq] at h; subst h; rfl
    | _ => rw [build_map_other _ _ _ (by simp)] at h; simp at h
  | ifNotRef r b ih => simp [contB] at hb
  | ifNotBool b ih =>
    rw [build_ifNotBool] at h
    split at h
    · simp only [Except.ok.injEq] at h; subst h; rfl
    · exact ih hb h

theorem leafB_contB {b : Builder} (h : leafB b = true) : contB b = true := by
  induction b with
  | ifNotBool b ih => exact ih h
  | _ => simp_all [leafB, contB]

/-- The elements of a loaded list or map were loaded by its element builder. -/
theorem elem_built {b : Builder} {j : Json} {p : Option Str} {m x : Obj} {k : Str} (hs : Slot m k x)
    (h : build T (.listOf b) j p [] = .ok m ∨ build T (.mapOf b) j p [] = .ok m) (hm : m.isBase = false) :
    ∃ y q, build T b y q [] = .ok x := by
  cases hs with
  | child h => simp [isBase] at hm
  | item hx =>
    rcases h with h | h
    · cases j with
      | arr l => rw [build_list] at h; split at h <;> simp at h
      | _ => rw [build_list_other _ _ _ (by simp)] at h; simp at h
    · obtain ⟨d, rfl, _, h2⟩ := map_elems h
      obtain ⟨y, q, _, h3⟩ := h2 _ _ hx
      exact ⟨y, q, h3⟩
  | elem hx =>
    rcases h with h | h
    · obtain ⟨l, rfl, h2⟩ := list_elems h
      obtain ⟨y, hy, q, h3⟩ := h2 _ (List.mem_of_getElem? hx)
      exact ⟨y, q, h3⟩
    · cases j with
      | obj l => rw [build_map] at h; split at h <;> simp at h
      | _ => rw [build_map_other _ _ _ (by simp)] at h; simp at h

theorem leads_prim {o x : Obj} {ts : List Str} (ho : o.isPrim = true) : ¬ Leads o ts x := by
  intro h
  cases h with
  | direct h _ => cases h <;> simp [isPrim] at ho
  | through h _ _ => cases h <;> simp [isPrim] at ho

theorem build_leaf {b : Builder} {j : Json} {p : Option Str} {o x : Obj} {ts : List Str} (hb : leafB b = true)
    (h : build T b j p [] = .ok o) : ¬ Leads o ts x := by
  induction b generalizing o ts j p x with
  | cls c => simp [leafB] at hb
  | isStr => rw [build_isStr] at h; cases j <;> simp at h; subst h; exact leads_prim rfl
  | isStrOrInt => rw [build_isStrOrInt] at h; cases j <;> simp at h <;> (subst h; exact leads_prim rfl)
  | listOf b ih =>
    have hnb := build_cont (T := T) (leafB_contB hb) h
    intro hl
    cases hl with
    | direct hs hx =>
      obtain ⟨y, q, hy⟩ := elem_built hs (.inl h) hnb
      rw [build_cont (leafB_contB (b := b) hb) hy] at hx
      simp at hx
    | through hs _ hl =>
      obtain ⟨y, q, hy⟩ := elem_built hs (.inl h) hnb
      exact ih hb hy hl
  | mapOf b ih =>
    have hnb := build_cont (T := T) (leafB_contB hb) h
    intro hl
    cases hl with
    | direct hs hx =>
      obtain ⟨y, q, hy⟩ := elem_built hs (.inr h) hnb
      rw [build_cont (leafB_contB (b := b) hb) hy] at hx
      simp at hx
    | through hs _ hl =>
      obtain ⟨y, q, hy⟩ := elem_built hs (.inr h) hnb
      exact ih hb hy hl
  | ifNotRef r b ih => simp [leafB] at hb
  | ifNotBool b ih =>
    rw [build_ifNotBool] at h
    split at h
    · simp only [Except.ok.injEq] at h; subst h; exact leads_prim rfl
    · exact ih hb h

/-- All child names of the classes of a table are plain. -/
def PlainNames (T : Table) : Prop := ∀ c k, k ∈ Dict.keys (T c).children → jpEncode k = k

theorem plain_no_slash {k : Str} (h : jpEncode k = k) : '/' ∉ k := h ▸ slash_not_mem_jpEncode k

/-- Maps whose elements are all of one kind: nothing is mixed. -/
theorem loaded_noMix {C : Str → Bool} (hP : PlainNames T)
    (hC : ∀ c, C c = true → (T c).children.all (fun kc => within C (fun b => flatB b || contB b) kc.2.builder) = true)
    {o : Obj} (ho : Loaded T (fun b => within C (fun b => flatB b || contB b) b = true) o) : NoMix o := by
  intro m hm
  have hB := closed_within hC
  obtain ⟨b, j, p, hb, hwf, h⟩ := loaded_inside hB ho hm
  have hi := build_inv hB hb h
  cases m with
  | base c p' s ks =>
    obtain ⟨_, _, hc, h⟩ := hi
    intro k o hk
    obtain ⟨cd, d, v, h1, _⟩ := (base_kids h).2 k o hk
    exact plain_no_slash (hP c k (List.mem_map_of_mem (f := Prod.fst) h1))
  | map b' p' s es =>
    obtain ⟨_, _, hc, h⟩ := hi
    simp only [within, Bool.and_eq_true, Bool.or_eq_true] at hc
    dsimp only
    rcases hc.1 with hq | hq
    · left
      intro k x hx
      obtain ⟨y, q, hy⟩ := elem_built (.item hx) (.inr h) rfl
      exact build_flat hq hy
    · right
      intro k x hx
      obtain ⟨y, q, hy⟩ := elem_built (.item hx) (.inr h) rfl
      exact build_cont hq hy
  | _ => trivial

/-- The classes of a version. -/
def ofVersion (v : Str) (c : Str) : Bool := v.isPrefixOf c

theorem pkg_children {p : Str → Str × ChildDef → Bool}
    (h : classes.all (fun kc => kc.2.children.all (p kc.1)) = true) (c : Str) :
    (pkg c).children.all (p c) = true := by
  unfold pkg
  cases hg : Dict.get? classes c with
  | none => rfl
  | some cd => exact List.all_eq_true.1 h _ (Dict.mem_of_get? hg)

theorem plainNames_pkg : PlainNames pkg := by
  intro c k hk
  have h := pkg_children (p := fun _ kc => decide (jpEncode kc.1 = kc.1)) (by decide +kernel) c
  obtain ⟨⟨k', cd⟩, hm, rfl⟩ := List.mem_map.1 hk
  exact of_decide_eq_true (List.all_eq_true.1 h _ hm)

end Pyopenapi
