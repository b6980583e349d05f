import Verif.Lemmas.MainDoc

/-!
# Checking by computation that the references of a 2.0 document follow the conventions
-/

namespace Pyopenapi.Main
open _root_.Pyopenapi.Spec _root_.Pyopenapi.Refs.Spec Obj

/-- `Fits`. -/
def fitsB (c sec : Str) : Bool :=
  (decide (c = s% "v2_0.Schema") && decide (sec = s% "definitions")) ||
  (decide (c = s% "v2_0.Reference") && (decide (sec = s% "parameters") || decide (sec = s% "responses")))

/-- `Conventional`, for one object. -/
def conventionalB (d : Dict Json) (x : Obj) : Bool :=
  match x with
  | .base c _ spec _ => !decide (c ∈ Refs.normClasses2) || (match spec with
    | .obj e => match Dict.get? e (s% "$ref") with
      | none => true
      | some (.str r) => match tokens r with
        | [sec, n] => decide (pointer [sec, n] = r) && r.all (fun c => !Url.unsafeChar c) && (Dict.get? (objAt d sec) n).isSome && fitsB c sec
        | _ => false
      | some _ => false
    | _ => false)
  | _ => true

theorem conventional_check {root : Obj} {d : Dict Json} (hL : Scanned root (visits root))
    (h : (visits root).all (fun v => conventionalB d v.2) = true) : Conventional root d := by
  intro ts c q spec kids hv hc
  have := List.all_eq_true.1 h _ ((hL.2.2 _ _).2 hv)
  unfold conventionalB at this
  simp only [hc, decide_true, Bool.not_true, Bool.false_or] at this
  split at this
  · rename_i e
    refine ⟨e, rfl, ?_⟩
    split at this
    · rename_i hg; exact .inl hg
    · rename_i r hg
      split at this
      · rename_i sec n ht
        simp only [Bool.and_eq_true, decide_eq_true_eq] at this
        obtain ⟨⟨⟨h1, h2⟩, h3⟩, h4⟩ := this
        obtain ⟨w, hw⟩ := Option.isSome_iff_exists.1 h3
        refine .inr ⟨_, hg, sec, n, w, by rw [h1], ?_, hw, ?_⟩
        · intro c hc
          rw [h1] at hc
          simpa using List.all_eq_true.1 h2 c hc
        · simpa [fitsB, Fits] using h4
      · cases this
    · cases this
  · cases this

/-- The `$ref` of an object. -/
def refB (x : Obj) : Option Str :=
  match x with
  | .base c _ (.obj e) _ => if c ∈ Refs.normClasses2 then match Dict.get? e (s% "$ref") with
    | some (.str r) => if r = [] then none else some r
    | _ => none
    else none
  | _ => none

theorem refB_iff {x : Obj} {r : Str} : refB x = some r ↔ Refers Refs.normClasses2 x r := by
  constructor
  · intro h
    unfold refB at h
    split at h
    · rename_i c q e kids
      split at h
      · rename_i hc
        split at h
        · rename_i r' hg
          split at h
          · cases h
          · rename_i hr
            cases h
            exact ⟨c, q, e, kids, rfl, hc, hg, hr⟩
        · cases h
      · cases h
    · cases h
  · rintro ⟨c, q, e, kids, rfl, hc, hg, hr⟩
    simp only [refB, if_pos hc, hg, if_neg hr]

/-- `Chain`, of at most `n` steps. -/
def chainB (root : Obj) : Nat → Obj → Bool
  | n, x => match refB x with
    | none => true
    | some r => match n with
      | 0 => false
      | n + 1 => decide (pointer (tokens r) = r) && (match Obj.resolve pkg (tokens r) root with
        | .ok y => y.isBase && chainB root n y
        | .error _ => false)

theorem chain_check {root : Obj} : ∀ {n : Nat} {x : Obj}, chainB root n x = true → ∃ k z, k ≤ n ∧ Chain root k x z
  | n, x, h => by
    unfold chainB at h
    split at h
    · rename_i hr
      exact ⟨0, x, Nat.zero_le _, .stop (fun r hn => by rw [refB_iff.2 hn] at hr; cases hr)⟩
    · rename_i r hr
      split at h
      · cases h
      · rename_i n'
        simp only [Bool.and_eq_true, decide_eq_true_eq] at h
        obtain ⟨h1, h2⟩ := h
        split at h2
        · rename_i y hy
          simp only [Bool.and_eq_true] at h2
          obtain ⟨k, z, hk, hc⟩ := chain_check h2.2
          exact ⟨k + 1, z, Nat.succ_le_succ hk, .step (us := tokens r) (by rw [h1]; exact refB_iff.1 hr) ⟨hy, h2.1⟩ hc⟩
        · cases h2

theorem grounded_check {root : Obj} {K : Nat} (hL : Scanned root (visits root))
    (h : (visits root).all (fun v => chainB root K v.2) = true) : Grounded root K :=
  fun _ _ hv => chain_check (List.all_eq_true.1 h _ ((hL.2.2 _ _).2 hv))

end Pyopenapi.Main
