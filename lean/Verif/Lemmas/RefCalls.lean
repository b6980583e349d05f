import Verif.Lemmas.Refs
import Verif.Lemmas.Up12

/-! # The reference scanners as a sequence of calls of `_resolve` -/

namespace Pyopenapi.Refs
open _root_.Pyopenapi.Spec _root_.Pyopenapi.Refs.Spec Obj

variable {α W : Type}

abbrev Call := Builder × List Str × Obj

/-- The calls of `_resolve` below an object, in order. -/
def slotCalls (steps : List Step) (ts : List Str) (kids : Dict Obj) : List Call :=
  steps.flatMap (fun st => (heldL kids st).map (fun x => (st.parser, ts ++ x.1, x.2)))

def ownCalls (own : Str → Option Builder) (c : Str) (ts : List Str) (x : Obj) : List Call :=
  match own c with
  | some p => [(p, ts, x)]
  | none => []

def calls (own : Str → Option Builder) (steps : Str → List Step) (v : List Str × Obj) : List Call :=
  match v.2 with
  | .base c _ _ kids => ownCalls own c v.1 v.2 ++ slotCalls (steps c) v.1 kids
  | _ => []

def HeldOk (steps : Str → List Step) (v : List Str × Obj) : Prop :=
  ∀ c q s kids, v.2 = .base c q s kids → ∀ st ∈ steps c, ∀ e, held kids st ≠ .error e

theorem foldlM_map {β γ σ : Type} (f : σ → γ → R σ) (g : β → γ) : ∀ (l : List β) (s : σ),
    (l.map g).foldlM f s = l.foldlM (fun s x => f s (g x)) s := by
  intro l
  induction l with
  | nil => intro s; rfl
  | cons a l ih => intro s; simp only [List.map_cons, List.foldlM_cons]; congr 1; funext s'; exact ih s'

theorem foldlM_flatMap {β γ σ : Type} (f : σ → γ → R σ) (g : β → List γ) : ∀ (l : List β) (s : σ),
    (l.flatMap g).foldlM f s = l.foldlM (fun s x => (g x).foldlM f s) s := by
  intro l
  induction l with
  | nil => intro s; rfl
  | cons a l ih =>
    intro s
    simp only [List.flatMap_cons, List.foldlM_append, List.foldlM_cons]
    congr 1; funext s'; exact ih s'

theorem foldlM_congr' {β σ : Type} {f g : σ → β → R σ} : ∀ {l : List β} {s : σ}, (∀ x ∈ l, ∀ s, f s x = g s x) →
    l.foldlM f s = l.foldlM g s := by
  intro l
  induction l with
  | nil => intro s _; rfl
  | cons a l ih =>
    intro s h
    simp only [List.foldlM_cons]
    rw [h a List.mem_cons_self]
    congr 1; funext s'; exact ih (fun x hx => h x (List.mem_cons_of_mem _ hx))

def stepCall (res : Builder → List Str → Obj → St α W → R (St α W)) (s : St α W) (c : Call) : R (St α W) :=
  res c.1 c.2.1 c.2.2 s

theorem handle_calls {res : Builder → List Str → Obj → St α W → R (St α W)} {own : Str → Option Builder} {steps : Str → List Step}
    {s : St α W} {v : List Str × Obj} (hh : HeldOk steps v) :
    handle res own steps s v = (calls own steps v).foldlM (stepCall res) s := by
  unfold handle calls
  obtain ⟨ts, o⟩ := v
  cases o with
  | base c q spec kids =>
    simp only
    rw [List.foldlM_append]
    have h1 : handleOwn res (own c) ts (.base c q spec kids) s =
        (ownCalls own c ts (.base c q spec kids)).foldlM (stepCall res) s := by
      unfold ownCalls handleOwn
      cases own c with
      | none => rfl
      | some p => simp [stepCall]
    rw [h1]
    congr 1
    funext s'
    unfold slotCalls
    rw [foldlM_flatMap]
    refine foldlM_congr' (fun st hst s => ?_)
    rw [foldlM_map]
    unfold heldL
    cases hd : held kids st with
    | error e => exact absurd hd (hh c q spec kids rfl st hst e)
    | ok l => rfl
  | _ => rfl

theorem foldlM_error_free {β σ : Type} {f : σ → β → R σ} {P : β → Prop} (hP : ∀ x s s', f s x = .ok s' → P x) :
    ∀ {l : List β} {s s' : σ}, l.foldlM f s = .ok s' → ∀ x ∈ l, P x := by
  intro l
  induction l with
  | nil => intro s s' _ x hx; cases hx
  | cons a l ih =>
    intro s s' h x hx
    rw [List.foldlM_cons] at h
    obtain ⟨s1, h1, h2⟩ := bindOk h
    rcases List.mem_cons.1 hx with rfl | hx
    · exact hP _ _ _ h1
    · exact ih h2 x hx

theorem handle_held {res : Builder → List Str → Obj → St α W → R (St α W)} {own : Str → Option Builder} {steps : Str → List Step}
    {s s' : St α W} {v : List Str × Obj} (h : handle res own steps s v = .ok s') : HeldOk steps v := by
  intro c q sp kids hv st hst e he
  unfold handle at h
  rw [hv] at h
  simp only at h
  obtain ⟨s1, _, h⟩ := bindOk h
  refine foldlM_error_free (P := fun st => ∀ e, held kids st ≠ .error e) ?_ h st hst e he
  intro st s s' h e he
  rw [he] at h
  simp [bind, Except.bind] at h

/-- A scan that raises nothing is a sequence of calls of `_resolve`. -/
theorem scan_calls {res : Builder → List Str → Obj → St α W → R (St α W)} {own : Str → Option Builder} {steps : Str → List Step}
    {L : List (List Str × Obj)} {s s' : St α W} (h : L.foldlM (handle res own steps) s = .ok s') :
    (∀ v ∈ L, HeldOk steps v) ∧ (L.flatMap (calls own steps)).foldlM (stepCall res) s = .ok s' := by
  have hh := foldlM_error_free (P := HeldOk steps) (fun x s s' h => handle_held h) h
  refine ⟨hh, ?_⟩
  rw [foldlM_flatMap, ← h]
  exact foldlM_congr' (fun v hv s => (handle_calls (hh v hv)).symm)

end Pyopenapi.Refs
