import Verif.Props.ConvPathReloc

/-!
# References to path items, when a 2.0 document is converted
-/

namespace Pyopenapi.Conv
open _root_.Pyopenapi.Spec Obj

theorem pointer_path (k : Str) : pointer [s% "paths", k] = '#' :: '/' :: (s% "paths" ++ '/' :: escape k) := by
  rw [pointer_cons, tail'_cons]
  have h1 : escape (s% "paths") = s% "paths" := by decide
  rw [h1]
  simp [tail']

/-- The place of a path item is the same in the converted document. -/
theorem path_fixed {rl pr : Routes} (hnd : Dict.NodupKeys rl) (hks : ∀ f ∈ Dict.keys rl, f ∈ sections)
    (hpath : Dict.get? rl (s% "paths") = (if pr = [] then none else some (.nested pr)))
    (hall : ∀ f t, (f, t) ∈ pr → ∃ k' idx, f = escape k' ∧ t = .nested (itemRoutes idx)) (k : Str) :
    patchJp (pointer [s% "paths", k]) [(s% "#", .nested rl)] = pointer [s% "paths", k] := by
  have key : patchLoop [(s% "#", .nested rl)] [] (pointer [s% "paths", k]) = none := by
    rw [pointer_path]
    by_cases hpr : pr = []
    · rw [if_pos hpr] at hpath
      exact patchLoop_nopaths hks hpath _
    · rw [if_neg hpr] at hpath
      rw [patchLoop_paths hnd hks hpr (Dict.mem_of_get? hpath), patchLoop_unfold]
      cases hp : pickRoute (escape k) pr none with
      | none => rfl
      | some x =>
        obtain ⟨g, t⟩ := x
        obtain ⟨hm, ⟨s, hs⟩, _⟩ := pickRoute_some hp
        obtain ⟨k', idx', rfl, rfl⟩ := hall g t hm
        dsimp only
        split
        · rfl
        · have hsl : '/' ∉ s := fun h => slash_escape k (by rw [hs]; exact List.mem_append.2 (.inr h))
          rw [hs, List.drop_left]
          have : Str.startsWith s ['/'] = false := by
            cases s with
            | nil => rfl
            | cons c s =>
              have hc : c ≠ '/' := by rintro rfl; exact hsl List.mem_cons_self
              show ('/' == c && List.isPrefixOf [] s) = false
              rw [beq_eq_false_iff_ne.2 (Ne.symm hc)]
              rfl
          rw [this, if_neg (by simp), patchLoop_unfold, pickRoute_of_none]
          rintro f t hm ⟨r, hr⟩
          obtain ⟨i, _, he⟩ := List.mem_map.1 hm
          cases he
          refine hsl ?_
          rw [if_neg (by simp)] at hr
          rw [hr]
          exact List.mem_append.2 (.inl (List.mem_append.2 (.inl (by decide))))
  unfold patchJp
  rw [key]

end Pyopenapi.Conv
