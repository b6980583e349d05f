import Verif.Props.Container
import Verif.Props.Dump

/-!
# C19: lists of lists

`sorted` compares lists of dicts as wholes: with the keys that are not to count.
-/

namespace Pyopenapi
open Spec

theorem Spec.JEq.symm {a b : Json} (h : JEq a b) : JEq b a := by
  induction h with
  | refl j => exact .refl j
  | nil => exact .nil
  | cons _ _ h1 h2 => exact .cons h1 h2
  | obj hk _ ih => exact .obj (fun k => (hk k).symm) (fun k x y h1 h2 => ih k y x h2 h1)

theorem Spec.JEq.trans {a b c : Json} (h : JEq a b) (h' : JEq b c) : JEq a c := by
  induction h generalizing c with
  | refl j => exact h'
  | nil => exact h'
  | cons _ _ h1 h2 =>
    obtain ⟨m, rfl, h3⟩ := jeq_arr_inv h'
    cases h3 with
    | cons h4 h5 => exact .cons (h1 h4) (h2 (jeq_arr h5))
  | @obj d e hk hv ih =>
    obtain ⟨f, rfl, h1, h2⟩ := jeq_obj_inv h'
    refine .obj (fun k => (hk k).trans (h1 k)) (fun k x z hx hz => ?_)
    cases hy : Dict.get? e k with
    | none => rw [(hk k).2 hy] at hx; cases hx
    | some y => exact ih k x y hx hy (h2 k y z hy hz)

/-- Two dicts with another value, below one key. -/
def nestedDoc : Json := .arr [.arr [.obj [(s% "a", .int 1), (s% "x", .int 1)]], .arr [.obj [(s% "a", .int 1), (s% "x", .int 2)]]]

/-- **C19** is false of lists of lists that hold dicts: with a `sorted` that raises TypeError when it has to tell which of two
different dicts is less (as CPython's does), excluding `x` does not keep the values of `x` from raising an exception: without
them nothing is raised or reported. -/
theorem C19_nested_violation (S : Sorter)
    (hdiff : S.sort [.arr [.obj [(s% "a", .int 1), (s% "x", .int 1)]], .arr [.obj [(s% "a", .int 1), (s% "x", .int 2)]]] = .error .typeError)
    (hsame : S.sort [.arr [.obj [(s% "a", .int 1)]], .arr [.obj [(s% "a", .int 1)]]] =
      .ok [.arr [.obj [(s% "a", .int 1)]], .arr [.obj [(s% "a", .int 1)]]]) :
    compareContainer S [] [s% "x"] nestedDoc nestedDoc [] = .error .typeError ∧
    compareContainer S [] [s% "x"] (prune (Counts [] [s% "x"] ·) nestedDoc) (prune (Counts [] [s% "x"] ·) nestedDoc) [] = .ok [] := by
  have hp : prune (Counts [] [s% "x"] ·) nestedDoc = .arr [.arr [.obj [(s% "a", .int 1)]], .arr [.obj [(s% "a", .int 1)]]] := by
    decide +kernel
  rw [hp]
  constructor
  · unfold compareContainer nestedDoc
    rw [show Json.height _ = 3 + 1 from rfl, cmpC]
    simp only [sameTypes, kindsAgree, toSort, Json.isObj, Json.typeName, hdiff]
    rfl
  · unfold compareContainer
    rw [show Json.height _ = 3 + 1 from rfl, cmpC]
    simp only [sameTypes, kindsAgree, toSort, Json.isObj, Json.typeName, hsame]
    rfl

open Classical in
/-- Sorts strings or numbers; other lists only when all elements are the same. -/
noncomputable def equalSort (l : List Json) : R (List Json) :=
  if l.all Json.isStr = true ∨ l.all (fun j => j.num?.isSome) = true then simpleSort l
  else if ∀ x ∈ l, ∀ y ∈ l, JEq x y then .ok l
  else .error .typeError

theorem forall₂_left {P : Json → Json → Prop} {l m : List Json} (h : List.Forall₂ P l m) : ∀ x ∈ l, ∃ y ∈ m, P x y := by
  induction h with
  | nil => intro x hx; cases hx
  | cons hx _ ih =>
    intro z hz
    rcases List.mem_cons.1 hz with rfl | hz
    · exact ⟨_, List.mem_cons_self, hx⟩
    · obtain ⟨y, h1, h2⟩ := ih z hz
      exact ⟨y, List.mem_cons_of_mem _ h1, h2⟩

theorem forall₂_swap {l m : List Json} (h : List.Forall₂ JEq l m) : List.Forall₂ JEq m l := by
  induction h with
  | nil => exact .nil
  | cons hx _ ih => exact .cons hx.symm ih

theorem allEq_swap {l m : List Json} (h : List.Forall₂ JEq l m) (ha : ∀ x ∈ l, ∀ y ∈ l, JEq x y) : ∀ x ∈ m, ∀ y ∈ m, JEq x y := by
  intro x hx y hy
  obtain ⟨x', h1, h2⟩ := forall₂_left (forall₂_swap h) x hx
  obtain ⟨y', h3, h4⟩ := forall₂_left (forall₂_swap h) y hy
  exact h2.trans ((ha x' h1 y' h3).trans h4.symm)

noncomputable def equalSorter : Sorter where
  sort := equalSort
  perm := by
    intro l m h
    unfold equalSort at h
    split at h
    · exact simpleSorter.perm h
    · split at h
      · cases h; exact .refl _
      · cases h
  typeError := by
    intro l e h
    unfold equalSort at h
    split at h
    · exact simpleSorter.typeError h
    · split at h
      · cases h
      · cases h; rfl
  reorder := by
    intro l m h
    unfold equalSort
    rw [forall₂_all (fun a b => jeq_isStr) h, forall₂_all (p := fun j => j.num?.isSome) (fun a b hj => by rw [jeq_num hj]) h]
    split
    · exact simpleSorter.reorder h
    · split
      · rename_i ha
        rw [if_pos (allEq_swap h ha)]
        exact .inl ⟨_, _, rfl, rfl, h⟩
      · rename_i ha
        rw [if_neg (fun hb => ha (allEq_swap (forall₂_swap h) hb))]
        exact .inr ⟨rfl, rfl⟩
  strings := by
    intro l m hs hp
    have h1 : l.all Json.isStr = true := List.all_eq_true.2 (fun x hx => by obtain ⟨s, rfl⟩ := hs x hx; rfl)
    have h2 : m.all Json.isStr = true := List.all_eq_true.2 (fun x hx => by
      obtain ⟨s, rfl⟩ := hs x (hp.symm.subset hx); rfl)
    unfold equalSort
    rw [if_pos (.inl h1), if_pos (.inl h2)]
    exact simpleSorter.strings hs hp

example : compareContainer equalSorter [] [s% "x"] nestedDoc nestedDoc [] = .error .typeError := by
  refine (C19_nested_violation equalSorter ?_ ?_).1
  · unfold equalSorter; dsimp only
    unfold equalSort
    rw [if_neg (by decide +kernel), if_neg]
    intro h
    have := h _ List.mem_cons_self _ (List.mem_cons_of_mem _ List.mem_cons_self)
    obtain ⟨m, e, h1⟩ := jeq_arr_inv this
    cases e
    cases h1 with
    | cons h1 _ =>
      obtain ⟨e, h2, _, h3⟩ := jeq_obj_inv h1
      cases h2
      have := jeq_scalar_inv (a := .int 1) (b := .int 2) trivial (h3 (s% "x") _ _ (by decide +kernel) (by decide +kernel))
      cases this
  · unfold equalSorter; dsimp only
    unfold equalSort
    rw [if_neg (by decide +kernel), if_pos]
    intro x hx y hy
    have : ∀ z ∈ ([.arr [.obj [(s% "a", .int 1)]], .arr [.obj [(s% "a", .int 1)]]] : List Json), z = .arr [.obj [(s% "a", .int 1)]] := by
      decide +kernel
    rw [this x hx, this y hy]
    exact .refl _

end Pyopenapi
