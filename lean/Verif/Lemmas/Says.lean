import Verif.Spec.Says
import Verif.Model.App

/-!
# The version a document tells
-/

namespace Pyopenapi
open Spec

instance (j : Json) (v : Option Str) : Decidable (SaysVersion j v) := by
  unfold SaysVersion
  split <;> infer_instance

theorem specVersion_says {j : Json} {v : Option Str} (h : SaysVersion j v) : App.specVersion j = .ok v := by
  unfold SaysVersion at h
  split at h
  · rename_i _ _ d
    have hs : ∀ x : Json, some x = v.map Json.str → ∃ t, v = some t ∧ x = .str t := by
      intro x hx
      cases v with
      | none => cases hx
      | some t => cases hx; exact ⟨t, rfl, rfl⟩
    have hn : none = v.map Json.str → v = none := by
      intro hx
      cases v with
      | none => rfl
      | some t => cases hx
    unfold versionKeys at h
    rw [List.findSome?_cons, List.findSome?_cons, List.findSome?_cons, List.findSome?_nil] at h
    unfold App.specVersion
    dsimp only
    unfold getSwaggerVersion Dict.has
    cases h1 : Dict.get? d (s% "swaggerVersion") with
    | some x =>
      rw [h1] at h
      obtain ⟨t, rfl, rfl⟩ := hs _ h
      rfl
    | none =>
      rw [h1] at h
      cases h2 : Dict.get? d (s% "swagger") with
      | some x =>
        rw [h2] at h
        obtain ⟨t, rfl, rfl⟩ := hs _ h
        rfl
      | none =>
        rw [h2] at h
        cases h3 : Dict.get? d (s% "openapi") with
        | some x =>
          rw [h3] at h
          obtain ⟨t, rfl, rfl⟩ := hs _ h
          rfl
        | none =>
          rw [h3] at h
          cases hn h
          rfl
  · exact h.elim

end Pyopenapi
