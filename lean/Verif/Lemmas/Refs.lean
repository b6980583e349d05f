import Verif.Spec.Refs
import Verif.Lemmas.Kinds
import Verif.Props.Scan

/-! # Lemmas about the reference scanners -/

namespace Pyopenapi.Refs
open _root_.Pyopenapi.Spec _root_.Pyopenapi.Refs.Spec Obj

variable {α W : Type}

/-- Never an object of class `R`, nor one inside (behind lists and maps). -/
def noRefB (R : Str) : Builder → Bool
  | .cls c => c ≠ R
  | .isStr | .isStrOrInt => true
  | .listOf b | .mapOf b | .ifNotBool b => noRefB R b
  | .ifNotRef r b => r ≠ R && noRefB R b

theorem build_class {T : Table} {c : Str} {j : Json} {p : Option Str} {o : Obj} (h : build T (.cls c) j p [] = .ok o) :
    ∃ kids, o = .base c p j kids := by
  rw [build_cls] at h
  split at h
  · cases h
  · cases h; exact ⟨_, rfl⟩

theorem build_noRef {T : Table} {R : Str} {b : Builder} : ∀ {j : Json} {p : Option Str} {m x : Obj} {us : List Str}, noRefB R b = true →
    build T b j p [] = .ok m → ((m = x) ∨ (m.isBase = false ∧ Leads m us x)) → x.className? ≠ some R := by
  induction b with
  | cls c =>
    intro j p m x us hb h hx
    obtain ⟨kids, rfl⟩ := build_class h
    rcases hx with rfl | ⟨h0, _⟩
    · simp [noRefB] at hb; simp [className?, hb]
    · cases h0
  | isStr =>
    intro j p m x us hb h hx
    rw [build_isStr] at h; cases j <;> simp at h; subst h
    rcases hx with rfl | ⟨_, hl⟩
    · simp [className?]
    · exact absurd hl (leads_prim rfl)
  | isStrOrInt =>
    intro j p m x us hb h hx
    rw [build_isStrOrInt] at h; cases j <;> simp at h <;>
    · subst h
      rcases hx with rfl | ⟨_, hl⟩
      · simp [className?]
      · exact absurd hl (leads_prim rfl)
  | listOf b ih =>
    intro j p m x us hb h hx
    have hnb := build_cont (T := T) (b := .listOf b) rfl h
    rcases hx with rfl | ⟨_, hl⟩
    · cases m <;> simp_all [isBase, className?]
    · cases hl with
      | direct hs hx =>
        obtain ⟨y, q, hy⟩ := elem_built hs (.inl h) hnb
        exact ih (us := []) hb hy (.inl rfl)
      | through hs h0 hl =>
        obtain ⟨y, q, hy⟩ := elem_built hs (.inl h) hnb
        exact ih hb hy (.inr ⟨h0, hl⟩)
  | mapOf b ih =>
    intro j p m x us hb h hx
    have hnb := build_cont (T := T) (b := .mapOf b) rfl h
    rcases hx with rfl | ⟨_, hl⟩
    · cases m <;> simp_all [isBase, className?]
    · cases hl with
      | direct hs hx =>
        obtain ⟨y, q, hy⟩ := elem_built hs (.inr h) hnb
        exact ih (us := []) hb hy (.inl rfl)
      | through hs h0 hl =>
        obtain ⟨y, q, hy⟩ := elem_built hs (.inr h) hnb
        exact ih hb hy (.inr ⟨h0, hl⟩)
  | ifNotRef r b ih =>
    intro j p m x us hb h hx
    simp only [noRefB, Bool.and_eq_true] at hb
    rw [build_ifNotRef] at h
    split at h
    · cases h
    · obtain ⟨kids, rfl⟩ := build_class h
      rcases hx with rfl | ⟨h0, _⟩
      · have := hb.1; simp at this; simp [className?, this]
      · cases h0
    · exact ih hb.2 h hx
  | ifNotBool b ih =>
    intro j p m x us hb h hx
    rw [build_ifNotBool] at h
    split at h
    · cases h
      rcases hx with rfl | ⟨_, hl⟩
      · simp [className?]
      · exact absurd hl (leads_prim rfl)
    · exact ih hb h hx

/-- A reference, or an object without any inside. -/
def topRef (R : Str) : Builder → Bool
  | .ifNotRef r b => r = R && noRefB R b
  | _ => false

theorem build_topRef {T : Table} {R : Str} {b : Builder} {j : Json} {p : Option Str} {m x : Obj} {us : List Str} (hb : topRef R b = true)
    (h : build T b j p [] = .ok m) (h0 : m.isBase = false) (hl : Leads m us x) : x.className? ≠ some R := by
  cases b with
  | ifNotRef r b =>
    simp only [topRef, Bool.and_eq_true] at hb
    rw [build_ifNotRef] at h
    split at h
    · cases h
    · obtain ⟨kids, rfl⟩ := build_class h
      cases h0
    · exact build_noRef hb.2 h (.inr ⟨h0, hl⟩)
  | _ => cases hb

/-- The loop `st` goes through a child made by `b`, and finds the references there. -/
def okStep (R : Str) (st : Step) (b : Builder) : Bool :=
  topRef R st.parser && match st.shape with
    | .one => b = st.parser || b = .ifNotBool st.parser
    | .list => b = .listOf st.parser
    | .map => b = .mapOf st.parser

/-- The loop `st` always raises on a child made by `b`. -/
def badStep (st : Step) (b : Builder) : Bool := st.shape = .map && match b with
  | .ifNotRef _ (.cls _) => true
  | _ => false

/-- What the handler of a class finds below an object (nothing where it raises). -/
def heldL (kids : Dict Obj) (st : Step) : List (List Str × Obj) := match held kids st with
  | .ok l => l
  | .error _ => []

theorem mem_enumFrom {k : Str} : ∀ {l : List Obj} {i n : Nat} {x : Obj}, l[n]? = some x →
    ([k, Str.ofNat (i + n)], x) ∈ enumFrom k i l := by
  intro l
  induction l with
  | nil => intro i n x h; simp at h
  | cons y l ih =>
    intro i n x h
    cases n with
    | zero => simp at h; subst h; simp [enumFrom]
    | succ n =>
      simp at h
      have := ih (i := i + 1) h
      rw [show i + 1 + n = i + (n + 1) by omega] at this
      exact List.mem_cons_of_mem _ this

theorem enumFrom_mem {k : Str} : ∀ {l : List Obj} {i : Nat} {us : List Str} {x : Obj}, (us, x) ∈ enumFrom k i l →
    ∃ n, l[n]? = some x ∧ us = [k, Str.ofNat (i + n)] := by
  intro l
  induction l with
  | nil => intro i us x h; simp [enumFrom] at h
  | cons y l ih =>
    intro i us x h
    rw [enumFrom, List.mem_cons] at h
    rcases h with h | h
    · cases h; exact ⟨0, rfl, rfl⟩
    · obtain ⟨n, h1, h2⟩ := ih h
      exact ⟨n + 1, by simpa using h1, by rw [h2]; congr 3; omega⟩

/-- Everything a handler goes through is held by the object, at that place. -/
theorem held_leads {c : Str} {q : Option Str} {spec : Json} {kids : Dict Obj} {st : Step} {us : List Str} {x : Obj}
    (h : (us, x) ∈ heldL kids st) (hb : x.isBase = true) : Leads (.base c q spec kids) us x := by
  unfold heldL held at h
  cases hg : Dict.get? kids st.child with
  | none => rw [hg] at h; simp at h
  | some m =>
    have hm : (st.child, m) ∈ kids := Dict.mem_of_get? hg
    rw [hg] at h
    simp only at h
    cases hs : st.shape with
    | one =>
      rw [hs] at h
      simp at h
      obtain ⟨rfl, rfl⟩ := h
      exact .direct (.child hm) hb
    | list =>
      rw [hs] at h
      simp only at h
      by_cases ht : m.truthy = true
      · rw [if_pos ht] at h
        cases m with
        | list b p s es =>
          obtain ⟨n, h1, rfl⟩ := enumFrom_mem h
          rw [Nat.zero_add]
          exact .through (.child hm) rfl (.direct (.elem h1) hb)
        | _ => simp at h
      · rw [if_neg ht] at h; simp at h
    | map =>
      rw [hs] at h
      simp only at h
      by_cases ht : m.truthy = true
      · rw [if_pos ht] at h
        cases m with
        | map b p s es =>
          simp only [List.mem_map, Prod.mk.injEq] at h
          obtain ⟨e, he, rfl, rfl⟩ := h
          exact .through (.child hm) rfl (.direct (.item he) hb)
        | _ => simp at h
      · rw [if_neg ht] at h; simp at h

/-- Every child in which references may stand is gone through. -/
def covers (R : Str) (steps : Str → List Step) (c : Str) (kc : Str × ChildDef) : Bool :=
  noRefB R kc.2.builder || (steps c).any (fun st => st.child = kc.1 && (okStep R st kc.2.builder || badStep st kc.2.builder))

theorem cover_leads {R : Str} {steps : Str → List Step} {c : Str} {q q' : Option Str} {j spec : Json} {kids : Dict Obj} {us : List Str} {x : Obj}
    (hkeys : Dict.NodupKeys kids)
    (hc : (pkg c).children.all (covers R steps c) = true) (h : build pkg (.cls c) j q [] = .ok (.base c q' spec kids))
    (hl : Leads (.base c q' spec kids) us x) (hx : x.className? = some R)
    (hok : ∀ st ∈ steps c, ∀ e, held kids st ≠ .error e) :
    ∃ st ∈ steps c, (us, x) ∈ heldL kids st ∧ ∃ k cd vs, us = k :: vs ∧ (k, cd) ∈ (pkg c).children ∧
      BuilderAt cd.builder vs st.parser ∧ topRef R st.parser = true := by
  have hslot : ∃ k m vs, us = k :: vs ∧ (k, m) ∈ kids ∧ ((vs = [] ∧ m = x) ∨ (m.isBase = false ∧ Leads m vs x)) := by
    cases hl with
    | direct hs hb => cases hs with | child hm => exact ⟨_, _, [], rfl, hm, .inl ⟨rfl, rfl⟩⟩
    | through hs h0 hl => cases hs with | child hm => exact ⟨_, _, _, rfl, hm, .inr ⟨h0, hl⟩⟩
  obtain ⟨k, m, vs, rfl, hm, hmx⟩ := hslot
  obtain ⟨_, hkid⟩ := base_kids h
  obtain ⟨cd, d, v, hcd, _, _, hbm⟩ := hkid k m hm
  have hcov := List.all_eq_true.1 hc _ hcd
  unfold covers at hcov
  rw [Bool.or_eq_true] at hcov
  rcases hcov with hno | hany
  · refine absurd hx (build_noRef (us := vs) hno hbm ?_)
    rcases hmx with ⟨_, e⟩ | e
    · exact .inl e
    · exact .inr e
  · obtain ⟨st, hst, hs⟩ := List.any_eq_true.1 hany
    simp only [Bool.and_eq_true, decide_eq_true_eq] at hs
    obtain ⟨hck, hs⟩ := hs
    have hget : Dict.get? kids st.child = some m := Dict.get?_of_mem hkeys (hck ▸ hm)
    rw [Bool.or_eq_true] at hs
    rcases hs with hs | hs
    · refine ⟨st, hst, ?_, k, cd, vs, rfl, hcd, ?_⟩
      · unfold okStep at hs
        rw [Bool.and_eq_true] at hs
        obtain ⟨htop, hs⟩ := hs
        unfold heldL held
        rw [hget]
        cases hsh : st.shape with
        | one =>
          rw [hsh] at hs
          simp only at hs ⊢
          rcases hmx with ⟨rfl, rfl⟩ | ⟨h0, hlx⟩
          · simp [hck]
          · exfalso
            rw [Bool.or_eq_true] at hs
            simp only [decide_eq_true_eq] at hs
            rcases hs with hs | hs
            · rw [hs] at hbm
              exact build_topRef htop hbm h0 hlx hx
            · rw [hs, build_ifNotBool] at hbm
              split at hbm
              · cases hbm; exact leads_prim rfl hlx
              · exact build_topRef htop hbm h0 hlx hx
        | list =>
          rw [hsh] at hs
          simp only [decide_eq_true_eq] at hs ⊢
          rw [hs] at hbm
          have hnb := build_cont (b := .listOf st.parser) rfl hbm
          rcases hmx with ⟨rfl, rfl⟩ | ⟨h0, hlx⟩
          · rw [show Obj.className? m = none by cases m <;> simp_all [isBase, className?]] at hx; cases hx
          · have hmm : ∃ b p s es, m = .list b p s es := by
              have := build_inv (T := pkg) closed_all (B := fun _ => True) trivial hbm
              cases v with
              | arr l => rw [build_list] at hbm; split at hbm; cases hbm; cases hbm; exact ⟨_, _, _, _, rfl⟩
              | _ => rw [build_list_other _ _ _ (by simp)] at hbm; cases hbm
            obtain ⟨b, p, s, es, rfl⟩ := hmm
            cases hlx with
            | direct hsl hbx =>
              cases hsl with
              | elem hi =>
                have ht : (Obj.list b p s es).truthy = true := by
                  cases es with
                  | nil => simp at hi
                  | cons _ _ => rfl
                rw [if_pos ht]
                have := mem_enumFrom (k := st.child) (i := 0) hi
                rw [Nat.zero_add] at this
                simpa [hck] using this
            | through hsl h1 hlx =>
              obtain ⟨y, q1, hy⟩ := elem_built hsl (.inl hbm) hnb
              exact absurd hx (build_topRef htop hy h1 hlx)
        | map =>
          rw [hsh] at hs
          simp only [decide_eq_true_eq] at hs ⊢
          rw [hs] at hbm
          have hnb := build_cont (b := .mapOf st.parser) rfl hbm
          rcases hmx with ⟨rfl, rfl⟩ | ⟨h0, hlx⟩
          · rw [show Obj.className? m = none by cases m <;> simp_all [isBase, className?]] at hx; cases hx
          · have hmm : ∃ b p s es, m = .map b p s es := by
              cases v with
              | obj l => rw [build_map] at hbm; split at hbm; cases hbm; cases hbm; exact ⟨_, _, _, _, rfl⟩
              | _ => rw [build_map_other _ _ _ (by simp)] at hbm; cases hbm
            obtain ⟨b, p, s, es, rfl⟩ := hmm
            cases hlx with
            | direct hsl hbx =>
              cases hsl with
              | item hi =>
                have ht : (Obj.map b p s es).truthy = true := by
                  cases es with
                  | nil => simp at hi
                  | cons _ _ => rfl
                rw [if_pos ht]
                simp only [List.mem_map, Prod.mk.injEq, List.cons.injEq, and_true]
                exact ⟨_, hi, ⟨hck, rfl⟩, rfl⟩
            | through hsl h1 hlx =>
              obtain ⟨y, q1, hy⟩ := elem_built hsl (.inr hbm) hnb
              exact absurd hx (build_topRef htop hy h1 hlx)
      · unfold okStep at hs
        rw [Bool.and_eq_true] at hs
        obtain ⟨htop, hs⟩ := hs
        refine ⟨?_, htop⟩
        cases hsh : st.shape with
        | one =>
          rw [hsh] at hs
          simp only at hs
          rw [Bool.or_eq_true] at hs
          simp only [decide_eq_true_eq] at hs
          have hvs : vs = [] := by
            rcases hmx with ⟨rfl, rfl⟩ | ⟨h0, hlx⟩
            · rfl
            · exfalso
              rcases hs with hs | hs
              · rw [hs] at hbm
                exact build_topRef htop hbm h0 hlx hx
              · rw [hs, build_ifNotBool] at hbm
                split at hbm
                · cases hbm; exact leads_prim rfl hlx
                · exact build_topRef htop hbm h0 hlx hx
          subst hvs
          rcases hs with hs | hs
          · rw [hs]; exact .here
          · rw [hs]; exact .bool .here
        | list =>
          rw [hsh] at hs
          simp only [decide_eq_true_eq] at hs
          rw [hs] at hbm ⊢
          have hnb := build_cont (b := .listOf st.parser) rfl hbm
          rcases hmx with ⟨rfl, rfl⟩ | ⟨h0, hlx⟩
          · rw [show Obj.className? m = none by cases m <;> simp_all [isBase, className?]] at hx; cases hx
          · cases hlx with
            | direct hsl hbx => exact .elem .here
            | through hsl h1 hlx =>
              obtain ⟨y, q1, hy⟩ := elem_built hsl (.inl hbm) hnb
              exact absurd hx (build_topRef htop hy h1 hlx)
        | map =>
          rw [hsh] at hs
          simp only [decide_eq_true_eq] at hs
          rw [hs] at hbm ⊢
          have hnb := build_cont (b := .mapOf st.parser) rfl hbm
          rcases hmx with ⟨rfl, rfl⟩ | ⟨h0, hlx⟩
          · rw [show Obj.className? m = none by cases m <;> simp_all [isBase, className?]] at hx; cases hx
          · cases hlx with
            | direct hsl hbx => exact .entry .here
            | through hsl h1 hlx =>
              obtain ⟨y, q1, hy⟩ := elem_built hsl (.inr hbm) hnb
              exact absurd hx (build_topRef htop hy h1 hlx)
    · exfalso
      unfold badStep at hs
      simp only [Bool.and_eq_true, decide_eq_true_eq] at hs
      obtain ⟨hsh, hb⟩ := hs
      split at hb
      · rename_i r c' hbe
        rw [hbe, build_ifNotRef] at hbm
        have : ∃ c1 kids1 p1 s1, m = .base c1 p1 s1 kids1 := by
          split at hbm
          · cases hbm
          · obtain ⟨kids1, e⟩ := build_class hbm; exact ⟨_, _, _, _, e⟩
          · obtain ⟨kids1, e⟩ := build_class hbm; exact ⟨_, _, _, _, e⟩
        obtain ⟨c1, kids1, p1, s1, rfl⟩ := this
        refine hok st hst .attributeError ?_
        unfold held
        rw [hget, hsh]
        rfl
      · cases hb

end Pyopenapi.Refs
