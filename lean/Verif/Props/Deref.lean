import Verif.Model.Deref
import Batteries.Data.List.Perm

/-!
# C06: deref terminates, returns the end of the chain, reports cycles exactly
-/

namespace Pyopenapi

namespace Spec
/-- The object that `x` refers to: only an object with a `$ref` refers, and only to what it has been resolved to. -/
def refersTo (h : RefHeap) (x : Nat) : Option Nat :=
  match h x with
  | ⟨true, some y⟩ => some y
  | _ => none

/-- The `i`-th object of the reference chain starting at `s`. -/
def chain (next : Nat → Option Nat) (s : Nat) : Nat → Option Nat
  | 0 => some s
  | i + 1 => match chain next s i with
    | none => none
    | some x => next x
end Spec

open Spec

theorem chain_shift (next : Nat → Option Nat) (s t : Nat) (h : next s = some t) (i : Nat) :
    chain next s (i + 1) = chain next t i := by
  induction i with
  | zero => simp [chain, h]
  | succ i ih => rw [chain, ih, chain]

/-- Loop invariant: `visited` are the objects passed so far, the last of them being `cur`. -/
theorem derefLoop_spec (h : RefHeap) (S : List Nat)
    (hS : ∀ x ∈ S, ∀ y, h.next x = some y → y ∈ S) (start : Nat) :
    ∀ (fuel : Nat) (visited : List Nat) (cur : Nat), cur ∈ S → visited.Nodup →
      (∀ x ∈ visited, x ∈ S) → cur ∈ visited →
      S.length + 1 ≤ fuel + visited.length →
      (∃ n, n + 1 = visited.length ∧ chain h.next start n = some cur ∧
        ∀ i x, chain h.next start i = some x → i ≤ n → visited[i]? = some x) →
      (∀ x ∈ visited, ∃ i < visited.length, chain h.next start i = some x) →
      (∃ x n, derefLoop h fuel visited cur = some (.ok x) ∧ chain h.next start n = some x ∧
        h.next x = none) ∨
      (derefLoop h fuel visited cur = some (.error .cycle) ∧
        ∃ i j x, i < j ∧ chain h.next start i = some x ∧ chain h.next start j = some x) := by
  intro fuel
  induction fuel with
  | zero =>
    intro visited cur _ hnd hsub _ hlen
    exfalso
    have : visited.length ≤ S.length := (List.subperm_of_subset hnd hsub).length_le
    omega
  | succ fuel ih =>
    intro visited cur hcS hnd hsub hcv hlen ⟨n, hn, hchain, hidx⟩ hvis
    simp only [derefLoop]
    cases hnx : h.next cur with
    | none => left; exact ⟨cur, n, rfl, hchain, hnx⟩
    | some nxt =>
      have hc1 : chain h.next start (n + 1) = some nxt := by simp [chain, hchain, hnx]
      by_cases hmem : nxt ∈ visited
      · right
        simp only [guardUpdate, hmem, if_true, true_and]
        obtain ⟨i, hi, hci⟩ := hvis nxt hmem
        exact ⟨i, n + 1, nxt, by omega, hci, hc1⟩
      · simp only [guardUpdate, hmem, if_false]
        apply ih
        · exact hS cur hcS nxt hnx
        · rw [List.nodup_append]; refine ⟨hnd, by simp, ?_⟩
          intro a ha b hb; simp at hb; subst hb; rintro rfl; exact hmem ha
        · intro x hx
          rcases List.mem_append.1 hx with hx | hx
          · exact hsub x hx
          · simp at hx; subst hx; exact hS cur hcS _ hnx
        · simp
        · simp; omega
        · refine ⟨n + 1, by simp [hn], hc1, ?_⟩
          intro i x hcx hi
          rcases Nat.lt_or_ge i (n + 1) with h1 | h1
          · rw [List.getElem?_append_left (by omega)]
            exact hidx i x hcx (by omega)
          · have : i = n + 1 := by omega
            subst this
            rw [hc1] at hcx
            rw [List.getElem?_append_right (by omega)]
            simp [hn]; simpa using hcx
        · intro x hx
          rcases List.mem_append.1 hx with hx | hx
          · obtain ⟨i, hi, hci⟩ := hvis x hx
            exact ⟨i, by simp; omega, hci⟩
          · simp at hx; subst hx
            exact ⟨n + 1, by simp; omega, hc1⟩

theorem deref_spec (h : RefHeap) (S : List Nat)
    (hS : ∀ x ∈ S, ∀ y, h.next x = some y → y ∈ S) (start : Nat) (hs : start ∈ S)
    (fuel : Nat) (hf : S.length ≤ fuel) :
    (∃ x n, deref h fuel start = some (.ok x) ∧ chain h.next start n = some x ∧ h.next x = none) ∨
    (deref h fuel start = some (.error .cycle) ∧
      ∃ i j x, i < j ∧ chain h.next start i = some x ∧ chain h.next start j = some x) := by
  have := derefLoop_spec h S hS start fuel [start] start hs (by simp) (by simpa using hs) (by simp)
    (by simp; omega)
    ⟨0, by simp, rfl, by
      intro i x hc hi
      have : i = 0 := by omega
      subst this
      simpa [chain] using hc⟩
    (by intro x hx; simp at hx; subst hx; exact ⟨0, by simp, rfl⟩)
  simpa [deref, guardUpdate] using this

theorem chain_add (next : Nat → Option Nat) (s x : Nat) (i k : Nat) (h : chain next s i = some x) :
    chain next s (i + k) = chain next x k := by
  induction k with
  | zero => simpa [chain] using h
  | succ k ih => rw [← Nat.add_assoc, chain, ih, chain]

theorem chain_none_of_le {next : Nat → Option Nat} {s i : Nat} (h : chain next s i = none) {j : Nat}
    (hij : i ≤ j) : chain next s j = none := by
  obtain ⟨k, rfl⟩ := Nat.exists_eq_add_of_le hij
  induction k with
  | zero => exact h
  | succ k ih => rw [← Nat.add_assoc, chain, ih (by omega)]

/-- A chain that repeats an object never ends. -/
theorem chain_repeat_no_end {next : Nat → Option Nat} {s i j x : Nat} (hij : i < j)
    (hi : chain next s i = some x) (hj : chain next s j = some x) (n : Nat) :
    chain next s n ≠ none := by
  obtain ⟨p, rfl⟩ := Nat.exists_eq_add_of_lt hij
  have hper : ∀ m, ∃ y, chain next x (m * (p + 1)) = some y ∧ y = x := by
    intro m
    induction m with
    | zero => exact ⟨x, by simp [chain], rfl⟩
    | succ m ih =>
      obtain ⟨y, hy, rfl⟩ := ih
      refine ⟨y, ?_, rfl⟩
      rw [Nat.succ_mul, chain_add next y y _ _ hy]
      have := chain_add next s y i (p + 1) hi
      rw [← this, show i + (p + 1) = i + p + 1 by omega, hj]
  intro hn
  obtain ⟨y, hy, _⟩ := hper (n + 1)
  have h2 := chain_add next s x i ((n + 1) * (p + 1)) hi
  rw [hy] at h2
  have : chain next s (i + (n + 1) * (p + 1)) = none := by
    apply chain_none_of_le hn
    have : n + 1 ≤ (n + 1) * (p + 1) := Nat.le_mul_of_pos_right _ (by omega)
    omega
  rw [this] at h2
  simp at h2

theorem next_eq (h : RefHeap) : h.next = refersTo h := by
  funext x
  unfold RefHeap.next refersTo
  cases hx : h x with
  | mk a b => cases a <;> cases b <;> rfl

theorem deref_refers (h : RefHeap) (S : List Nat)
    (hS : ∀ x ∈ S, ∀ y, refersTo h x = some y → y ∈ S) (start : Nat) (hs : start ∈ S)
    (fuel : Nat) (hf : S.length ≤ fuel) :
    (∃ x n, deref h fuel start = some (.ok x) ∧ chain (refersTo h) start n = some x ∧ refersTo h x = none) ∨
    (deref h fuel start = some (.error .cycle) ∧
      ∃ i j x, i < j ∧ chain (refersTo h) start i = some x ∧ chain (refersTo h) start j = some x) := by
  rw [← next_eq] at hS ⊢
  exact deref_spec h S hS start hs fuel hf

/-- C06, termination: on every finite set of objects closed under references, the loop of `deref`
ends after at most as many steps as there are objects. -/
theorem C06_deref_terminates (h : RefHeap) (S : List Nat)
    (hS : ∀ x ∈ S, ∀ y, refersTo h x = some y → y ∈ S) (start : Nat) (hs : start ∈ S)
    (fuel : Nat) (hf : S.length ≤ fuel) : (deref h fuel start).isSome = true := by
  rcases deref_refers h S hS start hs fuel hf with ⟨x, n, hx, _⟩ | ⟨hx, _⟩ <;> simp [hx]

/-- C06: `deref` returns `x` exactly when the reference chain ends in `x`. -/
theorem C06_deref_ok_iff (h : RefHeap) (S : List Nat)
    (hS : ∀ x ∈ S, ∀ y, refersTo h x = some y → y ∈ S) (start : Nat) (hs : start ∈ S)
    (fuel : Nat) (hf : S.length ≤ fuel) (x : Nat) :
    deref h fuel start = some (.ok x) ↔
      ∃ n, chain (refersTo h) start n = some x ∧ refersTo h x = none := by
  rcases deref_refers h S hS start hs fuel hf with ⟨y, n, hy, hn, hend⟩ | ⟨hy, i, j, y, hij, hi, hj⟩
  · constructor
    · intro hx
      rw [hy] at hx
      simp only [Option.some.injEq, Except.ok.injEq] at hx
      subst hx
      exact ⟨n, hn, hend⟩
    · rintro ⟨m, hm, hmend⟩
      have hxy : x = y := by
        rcases Nat.lt_trichotomy m n with h1 | h1 | h1
        · have : chain (refersTo h) start (m + 1) = none := by rw [chain, hm]; exact hmend
          rw [chain_none_of_le this h1] at hn; simp at hn
        · subst h1; rw [hm] at hn; simpa using hn
        · have : chain (refersTo h) start (n + 1) = none := by rw [chain, hn]; exact hend
          rw [chain_none_of_le this h1] at hm; simp at hm
      rw [hy, hxy]
  · constructor
    · intro hx; rw [hy] at hx; simp at hx
    · rintro ⟨m, hm, hmend⟩
      have : chain (refersTo h) start (m + 1) = none := by rw [chain, hm]; exact hmend
      exact absurd this (chain_repeat_no_end hij hi hj _)

/-- C06: `deref` raises CycleDetectionError exactly when the chain comes back to an object
it has already passed. -/
theorem C06_deref_cycle_iff (h : RefHeap) (S : List Nat)
    (hS : ∀ x ∈ S, ∀ y, refersTo h x = some y → y ∈ S) (start : Nat) (hs : start ∈ S)
    (fuel : Nat) (hf : S.length ≤ fuel) :
    deref h fuel start = some (.error .cycle) ↔
      ∃ i j x, i < j ∧ chain (refersTo h) start i = some x ∧ chain (refersTo h) start j = some x := by
  rcases deref_refers h S hS start hs fuel hf with ⟨y, n, hy, hn, hend⟩ | ⟨hy, hw⟩
  · constructor
    · intro hx; rw [hy] at hx; simp at hx
    · rintro ⟨i, j, x, hij, hi, hj⟩
      have : chain (refersTo h) start (n + 1) = none := by rw [chain, hn]; exact hend
      exact absurd this (chain_repeat_no_end hij hi hj _)
  · exact ⟨fun _ => hw, fun _ => hy⟩

/-- No other exception. -/
theorem C06_deref_no_other_error (h : RefHeap) (S : List Nat)
    (hS : ∀ x ∈ S, ∀ y, refersTo h x = some y → y ∈ S) (start : Nat) (hs : start ∈ S)
    (fuel : Nat) (hf : S.length ≤ fuel) (e : Err) (he : deref h fuel start = some (.error e)) :
    e = .cycle := by
  rcases deref_refers h S hS start hs fuel hf with ⟨y, n, hy, _⟩ | ⟨hy, _⟩ <;> rw [hy] at he <;>
    simp_all

/-- A rho-shaped graph 0 → 1 → 2 → 1 and a chain 3 → 4. -/
def exampleRefHeap : RefHeap := fun n => match n with
  | 0 => ⟨true, some 1⟩ | 1 => ⟨true, some 2⟩ | 2 => ⟨true, some 1⟩
  | 3 => ⟨true, some 4⟩ | _ => ⟨false, none⟩

example : deref exampleRefHeap 5 0 = some (.error .cycle) ∧
    deref exampleRefHeap 5 3 = some (.ok 4) := by decide
example : ∀ x ∈ [0, 1, 2, 3, 4], ∀ y, refersTo exampleRefHeap x = some y → y ∈ [0, 1, 2, 3, 4] := by
  intro x hx y hy
  simp at hx
  rcases hx with rfl | rfl | rfl | rfl | rfl <;> simp [refersTo, exampleRefHeap] at hy <;>
    subst hy <;> simp

end Pyopenapi
