import Verif.Lemmas.Conv

/-!
# A check of the shape of a document, for examples
-/

namespace Pyopenapi
open Spec

/-- `Regular`, computed, as deep as `n`. -/
def regularB : Nat → Builder → Json → Bool
  | 0, _, _ => false
  | n + 1, .cls c, .obj d =>
    (pkg c).children.all (fun kc => (!kc.2.required || (Dict.get? d kc.1).isSome) &&
      (match Dict.get? d kc.1 with
        | none => true
        | some .null => true
        | some v => regularB n kc.2.builder v))
  | _ + 1, .isStr, .str _ => true
  | _ + 1, .isStrOrInt, .str _ => true
  | _ + 1, .isStrOrInt, .int _ => true
  | n + 1, .listOf b, .arr l => l.all (fun x => regularB n b x)
  | n + 1, .mapOf b, .obj d => d.all (fun kx => regularB n b kx.2)
  | n + 1, .ifNotRef r b, .obj d =>
    match Dict.get? d (s% "$ref") with
    | some _ => regularB n (.cls r) (.obj d)
    | none => regularB n b (.obj d)
  | _ + 1, .ifNotBool _, .bool _ => true
  | n + 1, .ifNotBool b, j => regularB n b j
  | _ + 1, _, _ => false

theorem regularB_sound : ∀ (n : Nat) (b : Builder) (j : Json), regularB n b j = true → Regular pkg b j := by
  intro n
  induction n with
  | zero => intro b j h; simp [regularB] at h
  | succ n ih =>
    intro b j h
    cases b with
    | cls c =>
      cases j with
      | obj d =>
        simp only [regularB, List.all_eq_true, Bool.and_eq_true] at h
        refine .cls (fun k cd hm hr => ?_) (fun k cd v hm hv hn => ?_)
        · have := (h _ hm).1
          simp only [hr, Bool.not_true, Bool.false_or] at this
          intro hg; rw [hg] at this; cases this
        · have := (h _ hm).2
          simp only [hv] at this
          cases v <;> first | exact absurd rfl hn | exact ih _ _ this
      | _ => simp [regularB] at h
    | isStr => cases j <;> first | exact .isStr | (simp [regularB] at h)
    | isStrOrInt => cases j <;> first | exact .str | exact .int | (simp [regularB] at h)
    | listOf b =>
      cases j with
      | arr l => simp only [regularB, List.all_eq_true] at h; exact .list (fun x hx => ih _ _ (h x hx))
      | _ => simp [regularB] at h
    | mapOf b =>
      cases j with
      | obj d => simp only [regularB, List.all_eq_true] at h; exact .map (fun k x hx => ih _ _ (h (k, x) hx))
      | _ => simp [regularB] at h
    | ifNotRef r b =>
      cases j with
      | obj d =>
        simp only [regularB] at h
        cases hg : Dict.get? d (s% "$ref") with
        | some v => rw [hg] at h; exact .ref hg (ih _ _ h)
        | none => rw [hg] at h; exact .notRef hg (ih _ _ h)
      | _ => simp [regularB] at h
    | ifNotBool b =>
      cases j with
      | bool v => exact .bool
      | _ => simp only [regularB] at h; exact .notBool (fun v hv => by cases hv) (ih _ _ h)

end Pyopenapi
