import Verif.Props.Compare
import Verif.Lemmas.Eval
import Verif.Lemmas.ObjEq

/-!
# C29, C30: a concrete object that meets the hypotheses
-/
namespace Pyopenapi

open Obj Spec

/-- Whether something holds of every object inside a given one, looked for at most `n` deep. -/
def insideB (f : Obj → Bool) : Nat → Obj → Bool
  | 0, _ => false
  | n + 1, o => f o && match o with
    | .prim _ => true
    | .base _ _ _ kids => kids.all (fun e => insideB f n e.2)
    | .list _ _ _ es => es.all (fun e => insideB f n e)
    | .map _ _ _ es => es.all (fun e => insideB f n e.2)

theorem insideB_sound {f : Obj → Bool} {a : Obj} : ∀ {o : Obj}, Inside o a → ∀ {n : Nat}, insideB f n o = true → f a = true := by
  intro o h
  induction h with
  | here o =>
    intro n hn
    cases n with
    | zero => exact absurd hn (by simp [insideB])
    | succ n => simp only [insideB, Bool.and_eq_true] at hn; exact hn.1
  | child hm _ ih | item hm _ ih =>
    intro n hn
    cases n with
    | zero => exact absurd hn (by simp [insideB])
    | succ n =>
      simp only [insideB, Bool.and_eq_true] at hn
      exact ih (List.all_eq_true.1 hn.2 _ hm)
  | elem hm _ ih =>
    intro n hn
    cases n with
    | zero => exact absurd hn (by simp [insideB])
    | succ n =>
      simp only [insideB, Bool.and_eq_true] at hn
      exact ih (List.all_eq_true.1 hn.2 _ hm)

/-- `Readable`, computed. -/
def readableB (T : Table) : Obj → Bool
  | .base c _ s _ => (T c).fields.all (fun e => (Obj.readField e.2 s e.1).isOk)
  | _ => true

theorem readableB_sound {T : Table} {o : Obj} (h : readableB T o = true) : Readable T o := by
  cases o with
  | base c p s kids =>
    intro k fd hm
    have := List.all_eq_true.1 h _ hm
    revert this
    dsimp only
    cases Obj.readField fd s k with
    | ok u => intro _; exact ⟨u, rfl⟩
    | error e => intro h; exact absurd h (by simp [Except.isOk, Except.toBool])
  | _ => trivial

/-- `FewStrings` of one list or map, computed. -/
def fewB : Obj → Bool
  | .list _ _ _ es => es.all (fun e => !e.isPrim) || Nat.ble es.length 1
  | .map _ _ _ es => es.all (fun e => !e.2.isPrim) || Nat.ble es.length 1
  | _ => true

theorem fewB_sound {o : Obj} {n : Nat} (h : insideB fewB n o = true) : Spec.FewStrings o := by
  intro a ha
  have := insideB_sound ha h
  cases a with
  | list b p s es =>
    intro ⟨j, hj⟩
    rcases Bool.or_eq_true_iff.1 this with h | h
    · exact absurd (List.all_eq_true.1 h _ hj) (by simp [Obj.isPrim])
    · exact Nat.le_of_ble_eq_true h
  | map b p s es =>
    intro ⟨k, j, hj⟩
    rcases Bool.or_eq_true_iff.1 this with h | h
    · exact absurd (List.all_eq_true.1 h _ hj) (by simp [Obj.isPrim])
    · exact Nat.le_of_ble_eq_true h
  | _ => trivial

/-- A document with an operation that has a tag, a parameter and a response. -/
def compareDoc (title : Str) : Json :=
  .obj [(s% "openapi", .str (s% "3.0.0")),
    (s% "info", .obj [(s% "title", .str title), (s% "version", .str (s% "1"))]),
    (s% "paths", .obj [(s% "/a", .obj [(s% "get", .obj [(s% "tags", .arr [.str (s% "t")]),
      (s% "parameters", .arr [.obj [(s% "name", .str (s% "n")), (s% "in", .str (s% "query")),
        (s% "schema", .obj [(s% "type", .str (s% "string"))])]]),
      (s% "responses", .obj [(s% "200", .obj [(s% "description", .str (s% "d"))])])])])])]

/-- Keys in another order. -/
def compareDoc' : Json :=
  .obj [(s% "info", .obj [(s% "version", .str (s% "1")), (s% "title", .str (s% "T"))]),
    (s% "openapi", .str (s% "3.0.0")),
    (s% "paths", .obj [(s% "/a", .obj [(s% "get", .obj [
      (s% "responses", .obj [(s% "200", .obj [(s% "description", .str (s% "d"))])]),
      (s% "parameters", .arr [.obj [(s% "in", .str (s% "query")), (s% "name", .str (s% "n")),
        (s% "schema", .obj [(s% "type", .str (s% "string"))])]]),
      (s% "tags", .arr [.str (s% "t")])])])])]

/-- The object loaded from a document. -/
def compareObj (j : Json) : Obj :=
  match buildF pkg 30 (.cls (s% "v3_0_0.OpenApi")) j none with
  | .ok o => o
  | .error _ => .prim .null

theorem compareObj_loaded : build pkg (.cls (s% "v3_0_0.OpenApi")) (compareDoc (s% "T")) none [] = .ok (compareObj (compareDoc (s% "T"))) :=
  buildF_sound 30 _ _ _ _ (by decide +kernel)

theorem compareObj'_loaded : build pkg (.cls (s% "v3_0_0.OpenApi")) compareDoc' none [] = .ok (compareObj compareDoc') :=
  buildF_sound 30 _ _ _ _ (by decide +kernel)

/-- C29: every hypothesis holds of the whole document, so that it is the same as itself. -/
example : Yes (compare pkg (compareObj (compareDoc (s% "T"))) (compareObj (compareDoc (s% "T"))) none) :=
  C29_reflexive_pkg (by decide +kernel) (by decide +kernel) compareObj_loaded (by decide +kernel)
    (fun _ ha => readableB_sound (insideB_sound ha (n := 30) (by decide +kernel))) none

/-- C30: every hypothesis holds of the two documents, which differ in the order of their keys. -/
example : Same pkg (compareObj (compareDoc (s% "T"))) (compareObj compareDoc') :=
  C30_same_partial okTable_pkg defaultsWf_pkg (by decide +kernel) (by decide +kernel) (by decide +kernel)
    (by decide +kernel) compareObj_loaded compareObj'_loaded (by decide +kernel) (by decide +kernel)
    (fewB_sound (n := 30) (by decide +kernel)) (base := none) (base' := none) ⟨[], by decide +kernel⟩ ⟨[], by decide +kernel⟩

/-- With another title the answer is no. -/
example : No (compare pkg (compareObj (compareDoc (s% "T"))) (compareObj (compareDoc (s% "U"))) none) :=
  ⟨s% "info/title", by decide +kernel⟩

end Pyopenapi
