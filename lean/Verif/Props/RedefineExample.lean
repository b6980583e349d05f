import Verif.Props.Redefine
import Verif.Props.MainUpExample

/-!
# Instances of C107
-/

namespace Pyopenapi
open Spec Obj Conv Main

/-! ### Path items that meet the hypotheses -/

def renewA (in_ t : Str) : Json := .obj [(s% "name", .str (s% "a")), (s% "in", .str in_), (s% "type", .str t)]
def renewBody : Json := .obj [(s% "name", .str (s% "b")), (s% "in", .str (s% "body")), (s% "schema", .obj [(s% "type", .str (s% "object"))])]
def renewOk : Json := .obj [(s% "200", .obj [(s% "description", .str (s% "ok"))])]
def renewDoc (p q : Json) : Dict Json := [(s% "parameters", .arr [p, renewA (s% "header") (s% "string")]), (s% "get", .obj [(s% "parameters", .arr [q]), (s% "responses", renewOk)])]

theorem renew_resolves {p q : Json} (hp : Resolves noRefs.param p) (hq : Resolves noRefs.param q) : PathResolves noRefs (renewDoc p q) := by
  refine ⟨fun j hj => ?_, fun x hx => ?_⟩
  · have : j ∈ [p, renewA (s% "header") (s% "string")] := hj
    rcases List.mem_cons.1 this with rfl | this
    · exact hp
    · rw [List.mem_singleton] at this
      subst this
      intro d v hd hv
      cases hd
      cases hv
  · have : x ∈ [(s% "get", [(s% "parameters", .arr [q]), (s% "responses", renewOk)])] := hx
    rw [List.mem_singleton] at this
    subst this
    refine ⟨fun j hj => ?_, fun kv hkv d v hd hv => ?_⟩
    · have : j ∈ [q] := hj
      rw [List.mem_singleton] at this
      subst this
      exact hq
    · have : kv ∈ [(s% "200", Json.obj [(s% "description", .str (s% "ok"))])] := hkv
      rw [List.mem_singleton] at this
      subst this
      cases hd
      cases hv

theorem renewA_resolves (in_ t : Str) : Resolves noRefs.param (renewA in_ t) := by
  intro d v hd hv
  cases hd
  cases hv

theorem renewBody_resolves : Resolves noRefs.param renewBody := by
  intro d v hd hv
  cases hd
  cases hv

/-- A query parameter that is redefined: it is converted, and the operation has its own one and the header of the path. -/
example : ∃ o r rl x, Built (.cls (s% "v2_0.PathItem")) (.obj (renewDoc (renewA (s% "query") (s% "string")) (renewA (s% "query") (s% "integer")))) o ∧
    toPathItem plainEnv o [] [] [] = .ok (r, rl) ∧ Dict.get? r (s% "get") = some (.obj x) ∧
    (effective ident3 (listAt r (s% "parameters")) (listAt x (s% "parameters"))).map ident3 =
      [(.str (s% "a"), .str (s% "query")), (.str (s% "a"), .str (s% "header"))] := by
  obtain ⟨o, _, h⟩ := built_exists (regularB_sound 9 (.cls (s% "v2_0.PathItem"))
    (.obj (renewDoc (renewA (s% "query") (s% "string")) (renewA (s% "query") (s% "integer")))) (by decide +kernel)) (by decide +kernel) none
  obtain ⟨⟨r, rl⟩, hr⟩ : ∃ r, toPathItem plainEnv o [] [] [] = .ok r := by
    refine toPathItem_fits (d := []) plainEnv_ok (fun p hp => ?_) h (renew_resolves (renewA_resolves _ _) (renewA_resolves _ _))
      ⟨fun p hp => ?_, .inl ⟨by decide, noStyle_of (by decide), fun p hp => ?_⟩⟩ <;>
    · have : p ∈ [(s% "get", [(s% "parameters", .arr [renewA (s% "query") (s% "integer")]), (s% "responses", renewOk)])] := hp
      rw [List.mem_singleton] at this
      subst this
      first
        | exact .inl rfl
        | (refine ⟨fun kv hkv k d hd => ?_, .inl rfl⟩
           have : kv ∈ [(s% "200", Json.obj [(s% "description", .str (s% "ok"))])] := hkv
           rw [List.mem_singleton] at this
           subst this
           cases hd)
        | exact ⟨noStyle_of (by decide), .inl ⟨fun f hf => .inl ((show ∀ f ∈ paramsOf noRefs [(s% "parameters", .arr [renewA (s% "query") (s% "integer")]), (s% "responses", renewOk)], f.isPlain = true by decide) f hf), fun ⟨t, ht⟩ => ht List.nodup_nil⟩⟩
  obtain ⟨x, h1, h2⟩ := C107_plain_partial plainEnv_ok _ o h (renew_resolves (renewA_resolves _ _) (renewA_resolves _ _)) [] [] [] r rl hr (s% "get") _ (.head _)
    (by decide) (by decide)
  exact ⟨o, r, rl, x, h, hr, h1, (plains_idents h2 (by decide)).trans (by decide)⟩

example : ∃ o, Built (.cls (s% "v2_0.PathItem")) (.obj (renewDoc renewBody renewBody)) o ∧ ¬ ∃ r, toPathItem plainEnv o [] [] [] = .ok r := by
  obtain ⟨o, _, h⟩ := built_exists (regularB_sound 9 (.cls (s% "v2_0.PathItem")) (.obj (renewDoc renewBody renewBody)) (by decide +kernel)) (by decide +kernel) none
  refine ⟨o, h, C107_body_violation plainEnv_ok _ o h (renew_resolves renewBody_resolves renewBody_resolves) [] [] [] _ _ (.head _) (by decide) (s% "get") _ (.head _)
    (.head _) (by decide) ⟨fun hp => absurd hp (by decide), fun _ s hs hf => ?_⟩⟩
  cases hs
  obtain ⟨e, he, ht⟩ := hf
  cases he
  exact absurd ht (by decide)

/-- A part of a form that is redefined. -/
example : ∃ o, Built (.cls (s% "v2_0.PathItem")) (.obj (renewDoc (renewA (s% "formData") (s% "string")) (renewA (s% "formData") (s% "integer")))) o ∧
    ¬ ∃ r, toPathItem plainEnv o [] [] [] = .ok r := by
  obtain ⟨o, _, h⟩ := built_exists (regularB_sound 9 (.cls (s% "v2_0.PathItem"))
    (.obj (renewDoc (renewA (s% "formData") (s% "string")) (renewA (s% "formData") (s% "integer")))) (by decide +kernel)) (by decide +kernel) none
  have hval : ∀ t, Part.Valid ⟨[(s% "name", .str (s% "a")), (s% "in", .str (s% "formData")), (s% "type", .str t)], none⟩ := fun t => ⟨⟨s% "a", rfl⟩, .inr rfl, rfl, fun l hl => by cases hl⟩
  refine ⟨o, h, C107_form_violation plainEnv_ok _ o h (renew_resolves (renewA_resolves _ _) (renewA_resolves _ _)) [] [] [] (by decide) (fun f hf => ?_) (fun p hp => ?_)
    _ _ (.head _) (s% "get") _ (.head _) (.head _) (by decide) (by decide)⟩
  · have : f ∈ [(⟨[(s% "name", .str (s% "a")), (s% "in", .str (s% "formData")), (s% "type", .str (s% "string"))], none⟩ : Part),
        ⟨[(s% "name", .str (s% "a")), (s% "in", .str (s% "header")), (s% "type", .str (s% "string"))], none⟩] := hf
    rcases List.mem_cons.1 this with rfl | this
    · exact .inr ⟨by decide, hval _⟩
    · rw [List.mem_singleton] at this
      subst this
      exact .inl (by decide)
  · have : p ∈ [(s% "get", [(s% "parameters", .arr [renewA (s% "formData") (s% "integer")]), (s% "responses", renewOk)])] := hp
    rw [List.mem_singleton] at this
    subst this
    intro f hf
    have : f ∈ [(⟨[(s% "name", .str (s% "a")), (s% "in", .str (s% "formData")), (s% "type", .str (s% "integer"))], none⟩ : Part)] := hf
    rw [List.mem_singleton] at this
    subst this
    exact .inr ⟨by decide, hval _⟩

end Pyopenapi
