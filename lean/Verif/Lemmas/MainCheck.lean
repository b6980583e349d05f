import Verif.Lemmas.MainLoad

/-!
# Checking by computation that a document refers to nothing but itself
-/

namespace Pyopenapi.Main
open _root_.Pyopenapi.Spec _root_.Pyopenapi.Refs.Spec Obj

/-- The tokens of a pointer. -/
def tokens (r : Str) : List Str := (jpSplit r).drop 1

/-- `Linked`, for one object. -/
def linkedB (root : Obj) (classes needed : List Str) (x : Obj) : Bool :=
  match x with
  | .base c _ spec _ => !decide (c ∈ classes) || (match spec with
    | .obj d => match Dict.get? d (s% "$ref") with
      | none => !decide (c ∈ needed)
      | some (.str r) => decide (pointer (tokens r) = r) && !(tokens r).isEmpty && r.all (fun c => !Url.unsafeChar c) &&
          (match Obj.resolve pkg (tokens r) root with
            | .ok y => y.isBase
            | .error _ => false)
      | some _ => false
    | _ => false)
  | _ => true

theorem linked_check {root : Obj} {classes needed : List Str} (hL : Scanned root (visits root))
    (h : (visits root).all (fun v => linkedB root classes needed v.2) = true) : Linked root classes needed := by
  intro ts c q spec kids hv hc
  have := List.all_eq_true.1 h _ ((hL.2.2 _ _).2 hv)
  unfold linkedB at this
  simp only [hc, decide_true, Bool.not_true, Bool.false_or] at this
  split at this
  · rename_i d
    refine ⟨d, rfl, ?_⟩
    split at this
    · rename_i hg
      exact .inl ⟨hg, by simpa using this⟩
    · rename_i r hg
      simp only [Bool.and_eq_true, decide_eq_true_eq] at this
      obtain ⟨⟨⟨h1, h2⟩, h3⟩, h4⟩ := this
      split at h4
      · rename_i y hy
        cases ht : tokens r with
        | nil => rw [ht] at h2; simp at h2
        | cons t us =>
          rw [ht] at h1 hy
          refine .inr ⟨t, us, y, by rw [h1]; exact hg, ?_, hy, h4⟩
          intro c hc
          rw [h1] at hc
          simpa using List.all_eq_true.1 h3 c hc
      · cases h4
    · cases this
  · cases this

/-- `NoPathRef`, for one object. -/
def noRefB (cls : Str) (x : Obj) : Bool :=
  match x with
  | .base c _ (.obj d) _ => !decide (c = cls) || (Dict.get? d (s% "$ref")).isNone
  | _ => true

theorem noRef_check {root : Obj} {cls : Str} (hL : Scanned root (visits root))
    (h : (visits root).all (fun v => noRefB cls v.2) = true) : NoPathRef root cls := by
  intro ts q d kids hv
  have := List.all_eq_true.1 h _ ((hL.2.2 _ _).2 hv)
  simpa [noRefB] using this

/-- `NoExamples`, for one object. -/
def noExB (x : Obj) : Bool :=
  match x with
  | .base c _ _ kids => !decide (c = s% "v3_0_0.MediaType") || (Dict.get? kids (s% "examples")).isNone
  | _ => true

theorem noEx_check {root : Obj} (hL : Scanned root (visits root)) (h : (visits root).all (fun v => noExB v.2) = true) :
    NoExamples root := by
  intro ts q d kids hv
  have := List.all_eq_true.1 h _ ((hL.2.2 _ _).2 hv)
  simpa [noExB] using this

/-- `NoMix`, for objects nested at most `n` deep. -/
def noMixB : Nat → Obj → Bool
  | 0, _ => false
  | _ + 1, .prim _ => true
  | n + 1, .base _ _ _ ks => ks.all (fun e => !decide ('/' ∈ e.1) && noMixB n e.2)
  | n + 1, .list _ _ _ es => es.all (noMixB n)
  | n + 1, .map _ _ _ es => (es.all (fun e => e.2.isBase || e.2.isPrim) || es.all (fun e => !e.2.isBase)) && es.all (fun e => noMixB n e.2)

theorem noMix_check {n : Nat} {root : Obj} (h : noMixB n root = true) : NoMix root := by
  intro m hm
  induction hm generalizing n with
  | here o =>
    cases n with
    | zero => cases h
    | succ n =>
      cases o with
      | prim _ => trivial
      | list _ _ _ _ => trivial
      | base c p s ks =>
        intro k o hk
        have := List.all_eq_true.1 h _ hk
        simp only [Bool.and_eq_true, Bool.not_eq_true', decide_eq_false_iff_not] at this
        exact this.1
      | map b p s es =>
        simp only [noMixB, Bool.and_eq_true, Bool.or_eq_true] at h
        rcases h.1 with h | h
        · exact .inl (fun k o hk => by simpa using List.all_eq_true.1 h _ hk)
        · exact .inr (fun k o hk => by simpa using List.all_eq_true.1 h _ hk)
  | child hk _ ih =>
    cases n with
    | zero => cases h
    | succ n =>
      have := List.all_eq_true.1 h _ hk
      simp only [Bool.and_eq_true] at this
      exact ih this.2
  | elem hk _ ih =>
    cases n with
    | zero => cases h
    | succ n => exact ih (List.all_eq_true.1 h _ hk)
  | item hk _ ih =>
    cases n with
    | zero => cases h
    | succ n =>
      simp only [noMixB, Bool.and_eq_true] at h
      exact ih (List.all_eq_true.1 h.2 _ hk)

end Pyopenapi.Main
