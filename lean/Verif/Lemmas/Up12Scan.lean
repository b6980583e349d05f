import Verif.Lemmas.Up12Models
import Verif.Props.Scan

/-! The scans of the 1.2 documents: what the handlers are called with. -/

namespace Pyopenapi
open Spec Obj Conv

/-- Everything visited lies below something on the stack. -/
theorem traverseLoop_sound (leaves : List Str) : ∀ st p o, (p, o) ∈ traverseLoop leaves st →
    ∃ p' o' ts, (p', o') ∈ st ∧ Visited leaves o' ts o := by
  intro st
  fun_induction traverseLoop leaves st with
  | case1 => simp
  | case2 q o' st ih =>
    intro p o hm
    rcases List.mem_cons.1 hm with h | h
    · cases h; exact ⟨q, o', [], List.mem_cons_self, .root⟩
    · obtain ⟨p1, o1, ts, h1, hv⟩ := ih p o h
      simp only [dite_eq_ite] at h1
      rcases List.mem_append.1 h1 with h1 | h1
      · split at h1
        · simp at h1
        next hl =>
          simp only [List.mem_reverse, List.mem_map, Prod.exists, Prod.mk.injEq] at h1
          obtain ⟨nm, y, hy, _, rfl⟩ := h1
          obtain ⟨us, hlead, _⟩ := kids_sound _ o' (Nat.le_refl _) nm y hy
          exact ⟨q, o', us ++ ts, by simp,
            visited_iff.2 (.inr ⟨by simpa using hl, us, y, ts, hlead, hv, rfl⟩)⟩
      · exact ⟨p1, o1, ts, List.mem_cons_of_mem _ h1, hv⟩

namespace Up12

/-- No class for which something is registered. -/
def unrouted (c : Str) : Bool := ![s% "v1_2.ResourceListing", s% "v1_2.ApiDeclaration", s% "v1_2.Authorization"].contains c

/-- Builders of other classes. -/
def Inner (b : Builder) : Prop := within unrouted (fun _ => true) b = true

theorem inner_children {c : Str} (hc : c ≠ s% "v1_2.ResourceListing") {k : Str} {cd : ChildDef} (h : (k, cd) ∈ (pkg c).children) :
    Inner cd.builder := by
  have h1 := pkg_children (p := fun c kc => decide (c = s% "v1_2.ResourceListing") || within unrouted (fun _ => true) kc.2.builder)
    (by decide +kernel) c
  have h2 := List.all_eq_true.1 h1 _ h
  rw [decide_eq_false hc, Bool.false_or] at h2
  exact h2

theorem closed_inner : Closed pkg Inner := by
  refine closed_within (fun c hc => ?_)
  rw [List.all_eq_true]
  rintro ⟨k, cd⟩ hm
  refine inner_children ?_ hm
  rintro rfl
  revert hc
  decide

/-- What is registered for the class of an object does nothing for these. -/
theorem inner_unrouted {o : Obj} (h : Loaded pkg Inner o) {c : Str} (hc : o.className? = some c) : unrouted c = true := by
  obtain ⟨b, j, p, hb, _, hbuild⟩ := h
  have := build_inv closed_inner hb hbuild
  cases o with
  | base c' p s ks =>
    cases hc
    obtain ⟨_, _, h, _⟩ := this
    simpa [Inner, within] using h
  | _ => cases hc

/-- What is registered for the class of one object. -/
def act (env : Env) (st : Option State) (po : Str × Obj) : R (Option State) :=
  match po.2.className? with
  | some c =>
    if c = s% "v1_2.ResourceListing" then (resourceListing po.2).map some
    else if c = s% "v1_2.ApiDeclaration" then apiDeclaration env st po.2
    else if c = s% "v1_2.Authorization" then authorization st po.1 po.2
    else .ok st
  | none => .ok st

theorem handle_act (env : Env) (st : Option State) (po : Str × Obj) :
    (buildRoute [[some (dispatcher env)]]).foldlM (handleCls po.1 po.2) st = act env st po := by
  have e1 : buildRoute [[some (dispatcher env)]] = [dispatcher env] := rfl
  rw [e1]
  simp only [List.foldlM_cons, List.foldlM_nil, act, handleCls]
  cases po.2.className? with
  | none => rfl
  | some c =>
    simp only [Option.bind_some, dispatcher, Dict.get?]
    by_cases h1 : c = s% "v1_2.ResourceListing"
    · rw [if_pos h1, if_pos h1.symm]
      simp only [List.foldlM_cons, List.foldlM_nil, callHandler]
      cases resourceListing po.2 <;> rfl
    · rw [if_neg h1, if_neg (Ne.symm h1)]
      by_cases h2 : c = s% "v1_2.ApiDeclaration"
      · rw [if_pos h2, if_pos h2.symm]
        simp only [List.foldlM_cons, List.foldlM_nil, callHandler]
        cases apiDeclaration env st po.2 <;> rfl
      · rw [if_neg h2, if_neg (Ne.symm h2)]
        by_cases h3 : c = s% "v1_2.Authorization"
        · rw [if_pos h3, if_pos h3.symm]
          simp only [List.foldlM_cons, List.foldlM_nil, callHandler]
          cases authorization st po.1 po.2 <;> rfl
        · rw [if_neg h3, if_neg (Ne.symm h3)]
          rfl

theorem scan_act (env : Env) (root : Obj) (st : Option State) :
    scan [[some (dispatcher env)]] (some root) [] st = (traverse [] root).foldlM (act env) st := by
  unfold scan
  simp only [handle_act]

theorem act_unrouted {env : Env} {st : Option State} {po : Str × Obj} (h : ∀ c, po.2.className? = some c → unrouted c = true) :
    act env st po = .ok st := by
  unfold act
  cases hc : po.2.className? with
  | none => rfl
  | some c =>
    have := h c hc
    simp only [unrouted, Bool.not_eq_true', List.contains_eq_mem, decide_eq_false_iff_not, List.mem_cons, List.not_mem_nil,
      or_false, not_or] at this
    simp only [this, if_false]

theorem fold_unrouted {env : Env} {st : Option State} {l : List (Str × Obj)}
    (h : ∀ po ∈ l, ∀ c, po.2.className? = some c → unrouted c = true) : l.foldlM (act env) st = .ok st := by
  induction l with
  | nil => rfl
  | cons po l ih =>
    rw [List.foldlM_cons, act_unrouted (h po (by simp))]
    exact ih (fun po hm => h po (List.mem_cons_of_mem _ hm))

/-- Below an object loaded by a class other than that of the listing nothing is registered. -/
theorem leads_inner {c : Str} (hc : c ≠ s% "v1_2.ResourceListing") {j : Json} (hj : j.wf = true) {p : Option Str} {o x : Obj}
    (h : build pkg (.cls c) j p [] = .ok o) {ts : List Str} (hl : Leads o ts x) : Loaded pkg Inner x := by
  have key : ∀ k m, Slot o k m → Loaded pkg Inner m := by
    intro k m hs
    have hb := build_inv (closed_all (T := pkg)) (b := .cls c) trivial h
    cases hs with
    | child hm =>
      rw [build_cls] at h
      split at h
      · cases h
      rename_i kids hk
      cases h
      obtain ⟨_, _, _, h⟩ := hb
      obtain ⟨cd, d, v, h1, rfl, h3, h4⟩ := (base_kids h).2 _ _ hm
      exact ⟨cd.builder, v, _, inner_children hc h1, wf_at hj h3, h4⟩
    | item hm =>
      rw [build_cls] at h
      split at h <;> cases h
    | elem hm =>
      rw [build_cls] at h
      split at h <;> cases h
  cases hl with
  | direct hs _ => exact key _ _ hs
  | through hs _ hl => exact loaded_inside closed_inner (key _ _ hs) (inside_leads hl (.here _))

/-- The visits of an object, and of what is below it. -/
theorem fold_one {env : Env} {st : Option State} {c : Str} (hc : c ≠ s% "v1_2.ResourceListing") {j : Json} (hj : j.wf = true)
    {p : Option Str} {o : Obj} (h : build pkg (.cls c) j p [] = .ok o) (q : Str) :
    (traverseLoop [] [(q, o)]).foldlM (act env) st = act env st (q, o) := by
  rw [traverseLoop_one, List.foldlM_cons]
  have e : ∀ l : List (Str × Obj), (∀ po ∈ l, ∀ c, po.2.className? = some c → unrouted c = true) →
      (act env st (q, o) >>= fun s => l.foldlM (act env) s) = act env st (q, o) := by
    intro l hl
    cases act env st (q, o) with
    | error e => rfl
    | ok s => exact fold_unrouted hl
  refine e _ ?_
  rintro ⟨p', x⟩ hx c' hc'
  split at hx
  · cases hx
  obtain ⟨⟨s1, s2⟩, hs, hx⟩ := List.mem_flatMap.1 hx
  obtain ⟨p1, o1, ts, h1, hv⟩ := traverseLoop_sound _ _ _ _ hx
  simp only [List.mem_singleton, Prod.mk.injEq] at h1
  obtain ⟨rfl, rfl⟩ := h1
  simp only [List.mem_reverse, List.mem_map, Prod.exists, Prod.mk.injEq] at hs
  obtain ⟨nm, y, hy, _, rfl⟩ := hs
  obtain ⟨us, hlead, _⟩ := kids_sound _ o (Nat.le_refl _) nm y hy
  exact inner_unrouted (loaded_inside closed_inner (leads_inner hc hj h hlead) (visited_inside hv _ (.here _))) hc'

/-- The scan of a resource. -/
theorem scan_resource {env : Env} {st : Option State} {e : Dict Json} {decl : Obj}
    (h : Built (.cls (s% "v1_2.ApiDeclaration")) (.obj e) decl) :
    scan [[some (dispatcher env)]] (some decl) [] st = apiDeclaration env st decl := by
  rw [scan_act]
  obtain ⟨hr, hw, p, hb⟩ := h
  unfold traverse
  rw [fold_one (by decide) hw hb]
  have : decl.className? = some (s% "v1_2.ApiDeclaration") := by
    rw [build_cls] at hb
    split at hb <;> cases hb
    rfl
  simp [act, this]

end Up12
end Pyopenapi
