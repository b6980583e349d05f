import Verif.Spec.Container
import Verif.Lemmas.Dict

/-! Unfolding `compare_container`. -/

namespace Pyopenapi

theorem heightL_le {x : Json} {l : List Json} (h : x ∈ l) : x.height ≤ Json.heightL l := by
  induction l with
  | nil => simp at h
  | cons y l ih =>
    rw [Json.heightL]
    rcases List.mem_cons.1 h with rfl | h
    · omega
    · have := ih h; omega

theorem heightD_le {k : Str} {x : Json} {d : Dict Json} (h : Dict.get? d k = some x) : x.height ≤ Json.heightD d := by
  have := Dict.mem_of_get? h
  clear h
  induction d with
  | nil => simp at this
  | cons y d ih =>
    obtain ⟨k', y⟩ := y
    rw [Json.heightD]
    rcases List.mem_cons.1 this with h | h
    · cases h; omega
    · have := ih h; omega

theorem at_eq {d : Dict Json} {k : Str} (h : k ∈ Dict.keys d) : Dict.get? d k = some (Json.at d k) := by
  unfold Json.at
  have := Dict.get?_isSome_iff.2 h
  cases hg : Dict.get? d k with
  | none => rw [hg] at this; simp at this
  | some v => rfl

theorem at_of_get {d : Dict Json} {k : Str} {v : Json} (h : Dict.get? d k = some v) : Json.at d k = v := by
  unfold Json.at; rw [h]; rfl

theorem height_pos (j : Json) : 0 < j.height := by cases j <;> simp [Json.height]

theorem toSort_perm {S : Sorter} {x : Json} {l m : List Json} (h : toSort S x l = .ok m) : m.Perm l := by
  unfold toSort at h
  split at h
  · cases h; exact .refl _
  · exact S.perm h

theorem concatM_ok {l : List (R (List Diff))} {r : List Diff} (h : concatM l = .ok r) :
    ∀ x ∈ l, ∃ a, x = .ok a ∧ ∀ d ∈ a, d ∈ r := by
  induction l generalizing r with
  | nil => simp
  | cons x l ih =>
    cases x with
    | error e => cases h
    | ok a =>
      cases hb : concatM l with
      | error e => simp only [concatM, bind, Except.bind, hb] at h; cases h
      | ok b =>
        simp only [concatM, bind, Except.bind, hb] at h
        cases h
        intro y hy
        rcases List.mem_cons.1 hy with rfl | hy
        · exact ⟨a, rfl, fun d hd => List.mem_append_left _ hd⟩
        · obtain ⟨c, hc, hd⟩ := ih hb y hy
          exact ⟨c, hc, fun d hd' => List.mem_append_right _ (hd d hd')⟩

theorem concatM_nil {l : List (R (List Diff))} : concatM l = .ok [] ↔ ∀ x ∈ l, x = .ok [] := by
  constructor
  · intro h x hx
    obtain ⟨a, ha, hd⟩ := concatM_ok h x hx
    cases a with
    | nil => exact ha
    | cons d a => exact absurd (hd d List.mem_cons_self) (by simp)
  · intro h
    induction l with
    | nil => rfl
    | cons x l ih =>
      simp only [concatM, bind, Except.bind]
      rw [h x List.mem_cons_self, ih (fun y hy => h y (List.mem_cons_of_mem _ hy))]
      rfl

theorem concatM_error {l : List (R (List Diff))} {e : Err} (h : concatM l = .error e) : ∃ x ∈ l, x = .error e := by
  induction l with
  | nil => simp [concatM] at h
  | cons x l ih =>
    cases x with
    | error e' => cases h; exact ⟨_, List.mem_cons_self, rfl⟩
    | ok a =>
      cases hb : concatM l with
      | error e' =>
        simp only [concatM, bind, Except.bind, hb] at h
        cases h
        obtain ⟨y, hy, hye⟩ := ih hb
        exact ⟨y, List.mem_cons_of_mem _ hy, hye⟩
      | ok b => simp only [concatM, bind, Except.bind, hb] at h; cases h

theorem concatM_has_error {l : List (R (List Diff))} {x : R (List Diff)} {e : Err} (hx : x ∈ l) (h : x = .error e) :
    ∃ e', concatM l = .error e' := by
  cases hc : concatM l with
  | error e' => exact ⟨e', rfl⟩
  | ok r =>
    obtain ⟨a, ha, _⟩ := concatM_ok hc x hx
    rw [h] at ha; cases ha

/-- Enough fuel is enough. -/
theorem cmpC_fuel (S : Sorter) (inc exc : List Str) : ∀ (n m : Nat) (a b : Json) (base : Str),
    a.height ≤ n → a.height ≤ m → cmpC S inc exc n a b base = cmpC S inc exc m a b base := by
  intro n
  induction n with
  | zero => intro m a b base h; have := height_pos a; omega
  | succ n ih =>
    intro m a b base hn hm
    cases m with
    | zero => have := height_pos a; omega
    | succ m =>
      cases a with
      | obj d =>
        cases b with
        | obj e =>
          simp only [cmpC]
          congr 2
          refine List.map_congr_left (fun k hk => ?_)
          have hk' : k ∈ Dict.keys d := (List.mem_filter.1 (List.mem_filter.1 hk).1).1
          have := heightD_le (at_eq hk')
          rw [Json.height] at hn hm
          exact ih m _ _ _ (by omega) (by omega)
        | _ => rfl
      | arr l =>
        cases b with
        | arr l2 =>
          cases l with
          | nil => cases l2 <;> simp [cmpC]
          | cons x l =>
            cases l2 with
            | nil => simp [cmpC]
            | cons y l2 =>
              simp only [cmpC]
              split
              · rfl
              split
              · rfl
              split
              · rfl
              cases h1 : toSort S x (x :: l) with
              | error e => rfl
              | ok l' =>
                cases h2 : toSort S x (y :: l2) with
                | error e => rfl
                | ok m' =>
                  simp only [bind, Except.bind]
                  refine congrArg _ (List.map_congr_left (fun p hp => ?_))
                  have hp1 : p.1 ∈ List.zip l' m' := by
                    obtain ⟨p, i⟩ := p
                    have := List.mem_zipIdx hp
                    simp only [Nat.zero_add, Nat.sub_zero] at this
                    rw [this.2.2]; exact List.getElem_mem _
                  have hp2 : p.1.1 ∈ x :: l := (toSort_perm h1).subset (List.of_mem_zip hp1).1
                  have := heightL_le hp2
                  rw [Json.height] at hn hm
                  exact ih m _ _ _ (by omega) (by omega)
        | _ => rfl
      | _ => rfl

variable {S : Sorter} {inc exc : List Str}

theorem cc_obj (d e : Dict Json) (base : Str) : compareContainer S inc exc (.obj d) (.obj e) base = (do
    let ks := (Dict.keys d).filter (keepKey inc exc)
    let kd := (Dict.keys e).filter (keepKey inc exc)
    let added := (kd.filter (fun k => !ks.contains k)).map (fun k => (jpCompose [k] (some base), Seen.nothing, Seen.nothing))
    let removed := (ks.filter (fun k => !kd.contains k)).map (fun k => (jpCompose [k] (some base), Seen.nothing, Seen.nothing))
    let same ← concatM ((ks.filter (fun k => kd.contains k)).map (fun k =>
      compareContainer S inc exc (Json.at d k) (Json.at e k) (jpCompose [k] (some base))))
    .ok (added ++ removed ++ same)) := by
  have : compareContainer S inc exc (.obj d) (.obj e) base = cmpC S inc exc (Json.heightD d + 1) (.obj d) (.obj e) base := rfl
  rw [this]
  simp only [cmpC]
  congr 2
  refine List.map_congr_left (fun k hk => ?_)
  have hk' : k ∈ Dict.keys d := (List.mem_filter.1 (List.mem_filter.1 hk).1).1
  have := heightD_le (at_eq hk')
  exact cmpC_fuel S inc exc _ _ _ _ _ (by omega) (by omega)

theorem cc_arr (x y : Json) (l m : List Json) (base : Str) :
    compareContainer S inc exc (.arr (x :: l)) (.arr (y :: m)) base =
    if (x :: l).length ≠ (y :: m).length then .ok [(base, .len (x :: l).length, .len (y :: m).length)]
    else if !sameTypes (x :: l) || !sameTypes (y :: m) then .error .valueError
    else if !kindsAgree x y then
      .ok [(base, .type (s% "<class '" ++ x.typeName ++ s% "'>"), .type (s% "<class '" ++ y.typeName ++ s% "'>"))]
    else (do
      let l' ← toSort S x (x :: l)
      let m' ← toSort S x (y :: m)
      concatM ((List.zip l' m').zipIdx.map (fun p =>
        compareContainer S inc exc p.1.1 p.1.2 (jpCompose [Str.ofNat p.2] (some base))))) := by
  have : compareContainer S inc exc (.arr (x :: l)) (.arr (y :: m)) base =
    cmpC S inc exc (Json.heightL (x :: l) + 1) (.arr (x :: l)) (.arr (y :: m)) base := rfl
  rw [this]
  simp only [cmpC]
  split
  · rfl
  split
  · rfl
  split
  · rfl
  cases h1 : toSort S x (x :: l) with
  | error e => rfl
  | ok l' =>
    cases h2 : toSort S x (y :: m) with
    | error e => rfl
    | ok m' =>
      simp only [bind, Except.bind]
      refine congrArg _ (List.map_congr_left (fun p hp => ?_))
      have hp1 : p.1 ∈ List.zip l' m' := by
        obtain ⟨p, i⟩ := p
        have := List.mem_zipIdx hp
        simp only [Nat.zero_add, Nat.sub_zero] at this
        rw [this.2.2]; exact List.getElem_mem _
      have hp2 : p.1.1 ∈ x :: l := (toSort_perm h1).subset (List.of_mem_zip hp1).1
      have := heightL_le hp2
      exact cmpC_fuel S inc exc _ _ _ _ _ (by omega) (by omega)

theorem cc_nil (base : Str) : compareContainer S inc exc (.arr []) (.arr []) base = .ok [] := rfl

theorem cc_nil_cons (y : Json) (m : List Json) (base : Str) :
    compareContainer S inc exc (.arr []) (.arr (y :: m)) base = .ok [(base, .len 0, .len (m.length + 1))] := rfl

theorem cc_cons_nil (x : Json) (l : List Json) (base : Str) :
    compareContainer S inc exc (.arr (x :: l)) (.arr []) base = .ok [(base, .len (l.length + 1), .len 0)] := by
  have : compareContainer S inc exc (.arr (x :: l)) (.arr []) base =
    cmpC S inc exc (Json.heightL (x :: l) + 1) (.arr (x :: l)) (.arr []) base := rfl
  rw [this]
  simp [cmpC]

theorem cc_scalar {a : Json} (h : Spec.Scalar a) (b : Json) (base : Str) :
    compareContainer S inc exc a b base = if Json.scalarEq a b then .ok [] else .ok [(base, .val a, .val b)] := by
  cases a <;> first | rfl | exact absurd h (by simp [Spec.Scalar])

theorem cc_obj_other (d : Dict Json) {b : Json} (h : ∀ e, b ≠ .obj e) (base : Str) :
    compareContainer S inc exc (.obj d) b base = .ok [(base, .type (s% "dict"), .type b.typeName)] := by
  cases b <;> first | rfl | exact absurd rfl (h _)

theorem cc_arr_other (l : List Json) {b : Json} (h : ∀ e, b ≠ .arr e) (base : Str) :
    compareContainer S inc exc (.arr l) b base = .ok [(base, .type (s% "list"), .type b.typeName)] := by
  cases b <;> first | rfl | exact absurd rfl (h _)

theorem sameTypes_iff {l : List Json} : sameTypes l = true ↔ ∀ x ∈ l, ∀ y ∈ l, x.typeName = y.typeName := by
  cases l with
  | nil => simp [sameTypes]
  | cons x l =>
    simp only [sameTypes, List.all_eq_true, decide_eq_true_eq]
    constructor
    · intro h a ha b hb
      have : ∀ y ∈ x :: l, y.typeName = x.typeName := by
        intro y hy
        rcases List.mem_cons.1 hy with rfl | hy
        · rfl
        · exact h y hy
      rw [this a ha, this b hb]
    · intro h y hy
      exact h y (List.mem_cons_of_mem _ hy) x List.mem_cons_self

end Pyopenapi
