import Verif.Lemmas.RefNorm

/-! # Where `_resolve` is called -/

namespace Pyopenapi.Refs
open _root_.Pyopenapi.Spec _root_.Pyopenapi.Refs.Spec Obj

variable {α W : Type}

theorem loaded_leads {T : Table} {B : Builder → Prop} (hB : Closed T B) {o x : Obj} {us : List Str} (ho : Loaded T B o)
    (h : Leads o us x) : Loaded T B x := by
  induction h with
  | direct hs _ => exact loaded_slot hB ho hs
  | through hs _ _ ih => exact ih (loaded_slot hB ho hs)

theorem loaded_visited {T : Table} {B : Builder → Prop} (hB : Closed T B) {o x : Obj} {ts : List Str} (ho : Loaded T B o)
    (h : Visited [] o ts x) : Loaded T B x := by
  induction h with
  | root => exact ho
  | child _ _ hl ih => exact loaded_leads hB ih hl

/-- A document as loaded. -/
def Doc (root : Obj) : Prop := root.isBase = true ∧ Loaded pkg (fun _ => True) root

theorem doc_of_build {c : Str} {j : Json} {p : Option Str} {root : Obj} (hj : j.wf = true)
    (h : build pkg (.cls c) j p [] = .ok root) : Doc root := by
  refine ⟨?_, _, j, p, trivial, hj, h⟩
  obtain ⟨_, rfl⟩ := build_class h
  rfl

theorem visited_doc {root x : Obj} {ts : List Str} (hd : Doc root) (h : Visited [] root ts x) : Doc x := by
  refine ⟨?_, loaded_visited closed_all hd.2 h⟩
  cases h with
  | root => exact hd.1
  | child _ _ hl => exact leads_base hl

theorem doc_keyed {x : Obj} (hd : Doc x) : Keyed x := loaded_keyed okTable_pkg closed_all hd.2

theorem doc_base {x : Obj} (hd : Doc x) : ∃ c q spec kids, x = .base c q spec kids ∧
    build pkg (.cls c) spec q [] = .ok (.base c q spec kids) ∧ Dict.NodupKeys kids := by
  have hk := doc_keyed hd x (.here x)
  obtain ⟨hb, b, j, p, _, _, h⟩ := hd
  have hi := build_inv (T := pkg) closed_all (B := fun _ => True) trivial h
  cases x with
  | base c q spec kids =>
    obtain ⟨rfl, rfl, _, h⟩ := hi
    exact ⟨c, q, spec, kids, rfl, h, hk⟩
  | _ => cases hb

/-- The object around a place below it. -/
theorem parent_unique (n : Nat) : ∀ {root a a' x x' : Obj} {ts ts' us us' : List Str}, nodes root ≤ n → Keyed root → Visited [] root ts a →
    Leads a us x → Visited [] root ts' a' → Leads a' us' x' → ts ++ us = ts' ++ us' → ts = ts' := by
  induction n with
  | zero => intro root a a' x x' ts ts' us us' hn; cases root <;> simp [nodes] at hn
  | succ n ih =>
    intro root a a' x x' ts ts' us us' hn hk hv hl hv' hl' he
    rcases visited_iff.1 hv with ⟨rfl, rfl⟩ | ⟨_, u, y, r, hy, hyr, rfl⟩ <;>
    rcases visited_iff.1 hv' with ⟨rfl, h⟩ | ⟨_, u', y', r', hy', hyr', rfl⟩
    · rfl
    · rw [List.nil_append, List.append_assoc] at he
      subst he
      have := (leads_prefix hk hy' hl).1
      exact absurd (List.append_eq_nil_iff.1 this).2 (leads_ne_nil hl')
    · subst h
      rw [List.nil_append, List.append_assoc] at he
      subst he
      have := (leads_prefix hk hy hl').1
      exact absurd (List.append_eq_nil_iff.1 this).2 (leads_ne_nil hl)
    · rw [List.append_assoc, List.append_assoc] at he
      have hyy : u = u' ∧ y = y' := by
        rcases List.append_eq_append_iff.1 he with ⟨b, h1, _⟩ | ⟨b, h1, _⟩
        · subst h1
          obtain ⟨rfl, e⟩ := leads_prefix hk hy hy'
          exact ⟨(List.append_nil _).symm, e⟩
        · subst h1
          obtain ⟨rfl, e⟩ := leads_prefix hk hy' hy
          exact ⟨List.append_nil _, e.symm⟩
      obtain ⟨rfl, rfl⟩ := hyy
      have := ih (root := y) (by have := nodes_leads hy; omega) (fun m hm => hk m (inside_leads hy hm)) hyr hl hyr' hl'
        (List.append_cancel_left he)
      rw [this]

/-- The classes of the objects a builder makes itself. -/
def topClasses : Builder → List Str
  | .cls c => [c]
  | .isStr | .isStrOrInt | .listOf _ | .mapOf _ => []
  | .ifNotRef r b => r :: topClasses b
  | .ifNotBool b => topClasses b

theorem build_top {T : Table} {b : Builder} {j : Json} {p : Option Str} {x : Obj} {c : Str} (h : build T b j p [] = .ok x)
    (hc : x.className? = some c) : c ∈ topClasses b := by
  induction b with
  | cls c' =>
    obtain ⟨kids, rfl⟩ := build_class h
    simp [className?] at hc; simp [topClasses, hc]
  | isStr => rw [build_isStr] at h; cases j <;> simp at h; subst h; cases hc
  | isStrOrInt => rw [build_isStrOrInt] at h; cases j <;> simp at h <;> subst h <;> cases hc
  | listOf b => have := build_cont (b := .listOf b) rfl h; cases x <;> simp_all [isBase, className?]
  | mapOf b => have := build_cont (b := .mapOf b) rfl h; cases x <;> simp_all [isBase, className?]
  | ifNotRef r b ih =>
    rw [build_ifNotRef] at h
    split at h
    · cases h
    · obtain ⟨kids, rfl⟩ := build_class h
      simp [className?] at hc; simp [topClasses, hc]
    · exact List.mem_cons_of_mem _ (ih h)
  | ifNotBool b ih =>
    rw [build_ifNotBool] at h
    split at h
    · cases h; cases hc
    · exact ih h

/-- The loop fits the child it goes through. -/
def fits (st : Step) (b : Builder) : Bool := match st.shape with
  | .one => b = st.parser || b = .ifNotBool st.parser
  | .list => b = .listOf st.parser
  | .map => b = .mapOf st.parser

def isOrRef : Builder → Bool
  | .ifNotRef _ _ => true
  | _ => false

/-- All loops over this child fit it (or raise), and pass a parser for an object or a reference. -/
def stepsFit (steps : Str → List Step) (c : Str) (kc : Str × ChildDef) : Bool :=
  (steps c).all (fun st => isOrRef st.parser && (st.child ≠ kc.1 || fits st kc.2.builder || badStep st kc.2.builder))

theorem held_fits {steps : Str → List Step} {c : Str} {q : Option Str} {spec : Json} {kids : Dict Obj} {st : Step} {us : List Str} {x : Obj}
    (hc : (pkg c).children.all (stepsFit steps c) = true) (h : build pkg (.cls c) spec q [] = .ok (.base c q spec kids))
    (hst : st ∈ steps c) (hm : (us, x) ∈ heldL kids st) (hb : x.isBase = true) :
    ∃ vs cd, us = st.child :: vs ∧ (st.child, cd) ∈ (pkg c).children ∧ BuilderAt cd.builder vs st.parser ∧ isOrRef st.parser = true ∧
      ∃ y q', build pkg st.parser y q' [] = .ok x := by
  unfold heldL held at hm
  cases hg : Dict.get? kids st.child with
  | none => rw [hg] at hm; cases hm
  | some m =>
    obtain ⟨cd, d, v, hcd, rfl, hv, hbm⟩ := (base_kids h).2 _ _ (Dict.mem_of_get? hg)
    have hfit := List.all_eq_true.1 (List.all_eq_true.1 hc _ hcd) _ hst
    simp only [Bool.and_eq_true, Bool.or_eq_true, decide_eq_true_eq, ne_eq, not_true_eq_false, false_or] at hfit
    obtain ⟨hor, hfit⟩ := hfit
    rw [hg] at hm
    simp only at hm
    cases hs : st.shape with
    | one =>
      rw [hs] at hm
      simp at hm
      obtain ⟨rfl, rfl⟩ := hm
      rcases hfit with hfit | hfit
      · unfold fits at hfit
        rw [hs] at hfit
        simp only [Bool.or_eq_true, decide_eq_true_eq] at hfit
        refine ⟨[], cd, rfl, hcd, ?_, hor, ?_⟩
        · rcases hfit with e | e
          · rw [e]; exact .here
          · rw [e]; exact .bool .here
        · rcases hfit with e | e
          · rw [e] at hbm; exact ⟨_, _, hbm⟩
          · rw [e, build_ifNotBool] at hbm
            split at hbm
            · cases hbm; cases hb
            · exact ⟨_, _, hbm⟩
      · unfold badStep at hfit; rw [hs] at hfit; cases hfit
    | list =>
      rw [hs] at hm
      simp only at hm
      rcases hfit with hfit | hfit
      · unfold fits at hfit
        rw [hs] at hfit
        simp only [decide_eq_true_eq] at hfit
        rw [hfit] at hbm
        by_cases ht : m.truthy = true
        · rw [if_pos ht] at hm
          cases m with
          | list b p s es =>
            obtain ⟨n, h1, rfl⟩ := enumFrom_mem hm
            refine ⟨_, cd, rfl, hcd, by rw [hfit]; exact .elem .here, hor, ?_⟩
            exact elem_built (.elem h1) (.inl hbm) rfl
          | _ => simp at hm
        · rw [if_neg ht] at hm; simp at hm
      · unfold badStep at hfit; rw [hs] at hfit; cases hfit
    | map =>
      rw [hs] at hm
      simp only at hm
      by_cases ht : m.truthy = true
      · rw [if_pos ht] at hm
        cases m with
        | map b p s es =>
          simp only [List.mem_map, Prod.mk.injEq] at hm
          obtain ⟨e, he, rfl, rfl⟩ := hm
          rcases hfit with hfit | hfit
          · unfold fits at hfit
            rw [hs] at hfit
            simp only [decide_eq_true_eq] at hfit
            rw [hfit] at hbm
            refine ⟨_, cd, rfl, hcd, by rw [hfit]; exact .entry .here, hor, ?_⟩
            exact elem_built (.item he) (.inr hbm) rfl
          · exfalso
            unfold badStep at hfit
            rw [Bool.and_eq_true] at hfit
            obtain ⟨_, hfit⟩ := hfit
            split at hfit
            · rename_i hbe
              rw [hbe, build_ifNotRef] at hbm
              split at hbm
              · cases hbm
              · obtain ⟨_, e⟩ := build_class hbm; cases e
              · obtain ⟨_, e⟩ := build_class hbm; cases e
            · cases hfit
        | _ => simp at hm
      · rw [if_neg ht] at hm; simp at hm

end Pyopenapi.Refs
