import Verif.Spec.Compare
import Verif.Lemmas.Dump

namespace Pyopenapi
open Spec Obj
variable {T : Table}

theorem yes_ok {b : Bool} {s : Str} : Yes (.ok (b, s)) ↔ b = true := by
  constructor
  · rintro ⟨loc, h⟩; cases h; rfl
  · rintro rfl; exact ⟨s, rfl⟩

theorem yes_error {e : Err} : ¬ Yes (.error e) := by rintro ⟨_, h⟩; cases h

theorem no_error {e : Err} : ¬ No (.error e) := by rintro ⟨_, h⟩; cases h

theorem no_ok {b : Bool} {s : Str} : No (.ok (b, s)) ↔ b = false := by
  constructor
  · rintro ⟨loc, h⟩; cases h; rfl
  · rintro rfl; exact ⟨s, rfl⟩

/-- `same, _ = r; if not same: return ...; go on`. -/
theorem yes_step {r : R (Bool × Str)} {k : R (Bool × Str)} :
    Yes (do let x ← r; if x.1 then k else .ok x) ↔ Yes r ∧ Yes k := by
  cases r with
  | error e => simp [bind, Except.bind, yes_error]
  | ok x =>
    obtain ⟨b, s⟩ := x
    cases b
    · simp [bind, Except.bind, yes_ok]
    · simp [bind, Except.bind, yes_ok]

theorem no_step {r : R (Bool × Str)} {k : R (Bool × Str)} :
    No (do let x ← r; if x.1 then k else .ok x) ↔ No r ∨ (Yes r ∧ No k) := by
  cases r with
  | error e => simp [bind, Except.bind, no_error, yes_error]
  | ok x =>
    obtain ⟨b, s⟩ := x
    cases b
    · simp [bind, Except.bind, no_ok]
    · simp [bind, Except.bind, no_ok, yes_ok]

theorem yes_allSame {α : Type} {f : α → R (Bool × Str)} {l : List α} :
    Yes (allSame f l) ↔ ∀ x ∈ l, Yes (f x) := by
  induction l with
  | nil => simp [allSame, yes_ok]
  | cons x l ih =>
    rw [allSame, yes_step, ih]
    simp

theorem no_allSame {α : Type} {f : α → R (Bool × Str)} {l : List α} (h : No (allSame f l)) :
    ∃ x ∈ l, No (f x) := by
  induction l with
  | nil => simp [allSame, no_ok] at h
  | cons x l ih =>
    rw [allSame, no_step] at h
    rcases h with h | ⟨_, h⟩
    · exact ⟨x, by simp, h⟩
    · obtain ⟨y, hy, h⟩ := ih h; exact ⟨y, by simp [hy], h⟩

theorem missingKey_none {α β : Type} {d : Dict α} {e : Dict β} :
    missingKey d e = none ↔ ∀ k, Dict.get? e k = none → Dict.get? d k = none := by
  simp only [missingKey, List.find?_eq_none, Bool.not_eq_true', Bool.not_eq_false]
  constructor
  · intro h k hk
    refine Dict.get?_eq_none_iff.2 (fun hd => ?_)
    have := h k hd
    simp [Dict.has, hk] at this
  · intro h k hk
    simp only [Dict.has]
    cases hg : Dict.get? e k with
    | some _ => rfl
    | none => exact absurd hk (Dict.get?_eq_none_iff.1 (h k hg))

/-! ### raw values -/

theorem numEq_iff {x y : Int × Nat} : numEq x y = true ↔ x.1 * (10 : Int) ^ y.2 = y.1 * (10 : Int) ^ x.2 := by
  simp [numEq]

theorem number?_eq (u : Json) : number? u = u.num? := by
  cases u with
  | bool b => cases b <;> rfl
  | _ => rfl

theorem scalarEq_iff {u v : Json} (hu : isStrInt u = true ∨ ∃ m e, u = .flt m e) :
    Json.scalarEq u v = true ↔ PyEq u v := by
  constructor
  · intro h
    unfold Json.scalarEq at h
    split at h
    · rename_i x y hx hy
      exact PyEq.num ((number?_eq _).trans hx) ((number?_eq _).trans hy) (numEq_iff.1 h)
    · split at h
      · simp at h; subst h; exact PyEq.str _
      · exact PyEq.null
      · simp at h
  · intro h
    cases h with
    | num hx hy h =>
      rw [number?_eq] at hx hy
      simp only [Json.scalarEq, hx, hy]; exact numEq_iff.2 h
    | str => simp [Json.scalarEq, Json.num?]
    | null => rfl
    | arr => rcases hu with h | ⟨m, e, h⟩ <;> simp [isStrInt] at h
    | obj => rcases hu with h | ⟨m, e, h⟩ <;> simp [isStrInt] at h

theorem yes_cmpRawL {name : Str} {l m : List Json} {i : Nat}
    (ih : ∀ x ∈ l, ∀ nm y, Yes (cmpRaw nm x y) ↔ RawAgree x y) :
    Yes (cmpRawL name l m i) ↔ i + l.length ≤ max m.length i ∧
      ∀ (n : Nat) x y, l[n]? = some x → m[i + n]? = some y → RawAgree x y := by
  induction l generalizing i with
  | nil => simp [cmpRawL, yes_ok]; omega
  | cons x l ihl =>
    rw [cmpRawL]
    cases hm : m[i]? with
    | none =>
      have : m.length ≤ i := by simpa using hm
      simp only [yes_error, false_iff, List.length_cons]
      rintro ⟨h, _⟩; omega
    | some y =>
      have hlt : i < m.length := (List.getElem?_eq_some_iff.1 hm).1
      simp only
      rw [yes_step, ih x (by simp), ihl (fun z hz => ih z (by simp [hz]))]
      constructor
      · rintro ⟨hxy, hlen, hrest⟩
        refine ⟨by simp only [List.length_cons]; omega, ?_⟩
        intro n x' y' hx hy
        cases n with
        | zero => simp at hx hy; subst hx; rw [hm] at hy; cases hy; exact hxy
        | succ n =>
          simp at hx
          refine hrest n x' y' hx ?_
          rw [← hy]; congr 1; omega
      · rintro ⟨hlen, hrest⟩
        simp only [List.length_cons] at hlen
        refine ⟨hrest 0 x y (by simp) (by simpa using hm), by omega, ?_⟩
        intro n x' y' hx hy
        refine hrest (n + 1) x' y' (by simpa using hx) ?_
        rw [← hy]; congr 1; omega

theorem yes_cmpRawD {name : Str} {d : List (Str × Json)} {e : Dict Json}
    (ih : ∀ p ∈ d, ∀ nm y, Yes (cmpRaw nm p.2 y) ↔ RawAgree p.2 y) :
    Yes (cmpRawD name d e) ↔ ∀ k x, (k, x) ∈ d → ∃ y, Dict.get? e k = some y ∧ RawAgree x y := by
  induction d with
  | nil => simp [cmpRawD, yes_ok]
  | cons p d ihd =>
    obtain ⟨a, b⟩ := p
    rw [cmpRawD]
    cases he : Dict.get? e a with
    | none =>
      simp only [yes_error, false_iff]
      intro h
      obtain ⟨y, hy, _⟩ := h a b (by simp)
      rw [he] at hy; cases hy
    | some y =>
      simp only
      rw [yes_step, ih (a, b) (by simp), ihd (fun q hq => ih q (by simp [hq]))]
      constructor
      · rintro ⟨h1, h2⟩ k x hm
        rcases List.mem_cons.1 hm with h | h
        · cases h; exact ⟨y, he, h1⟩
        · exact h2 k x h
      · intro h
        refine ⟨?_, fun k x hm => h k x (by simp [hm])⟩
        obtain ⟨y', hy, h1⟩ := h a b (by simp)
        rw [he] at hy; cases hy; exact h1

/-- `_cmp_` on raw values is `RawAgree`. -/
theorem yes_cmpRaw (name : Str) (u v : Json) : Yes (cmpRaw name u v) ↔ RawAgree u v := by
  match u with
  | .null =>
    simp only [cmpRaw, yes_ok, decide_eq_true_eq]
    constructor
    · rintro rfl; exact .null
    · intro h
      cases h with
      | scalar h => simp [isStrInt] at h
      | null => rfl
  | .bool x =>
    simp only [cmpRaw, yes_ok]
    rw [scalarEq_iff (.inl rfl)]
    exact ⟨fun h => .scalar rfl h, fun h => by cases h; assumption⟩
  | .int x =>
    simp only [cmpRaw, yes_ok]
    rw [scalarEq_iff (.inl rfl)]
    exact ⟨fun h => .scalar rfl h, fun h => by cases h; assumption⟩
  | .str x =>
    simp only [cmpRaw, yes_ok]
    rw [scalarEq_iff (.inl rfl)]
    exact ⟨fun h => .scalar rfl h, fun h => by cases h; assumption⟩
  | .flt m e =>
    cases v with
    | flt m' e' =>
      simp only [cmpRaw, yes_ok]
      rw [scalarEq_iff (.inr ⟨m, e, rfl⟩)]
      exact ⟨fun h => .flt h, fun h => by cases h <;> assumption⟩
    | _ =>
      simp only [cmpRaw, yes_ok]
      constructor
      · intro h; cases h
      · intro h; cases h with
        | scalar h => simp [isStrInt] at h
  | .arr l =>
    cases v with
    | arr m =>
      simp only [cmpRaw]
      rw [yes_cmpRawL (fun x hx nm y => yes_cmpRaw nm x y)]
      simp only [Nat.zero_add, Nat.zero_le, Nat.max_eq_left]
      exact ⟨fun ⟨h1, h2⟩ => .arr h1 h2, fun h => by cases h with
        | scalar h => simp [isStrInt] at h
        | arr h1 h2 => exact ⟨h1, h2⟩⟩
    | _ =>
      simp only [cmpRaw, yes_ok]
      constructor
      · intro h; cases h
      · intro h; cases h with
        | scalar h => simp [isStrInt] at h
  | .obj d =>
    cases v with
    | obj e =>
      simp only [cmpRaw]
      have hinv : RawAgree (.obj d) (.obj e) ↔ (∀ k, Dict.get? d k = none ↔ Dict.get? e k = none) ∧
          (∀ k x y, (k, x) ∈ d → Dict.get? e k = some y → RawAgree x y) :=
        ⟨fun h => by cases h with
          | scalar h => simp [isStrInt] at h
          | obj h1 h2 => exact ⟨h1, h2⟩, fun ⟨h1, h2⟩ => .obj h1 h2⟩
      rw [hinv]
      cases h1 : missingKey d e with
      | some k =>
        simp only [yes_ok]
        constructor
        · intro h; cases h
        · rintro ⟨hk, _⟩
          have : missingKey d e = none := missingKey_none.2 (fun k h => (hk k).2 h)
          rw [h1] at this; cases this
      | none =>
        cases h2 : missingKey e d with
        | some k =>
          simp only [yes_ok]
          constructor
          · intro h; cases h
          · rintro ⟨hk, _⟩
            have : missingKey e d = none := missingKey_none.2 (fun k h => (hk k).1 h)
            rw [h2] at this; cases this
        | none =>
          simp only
          rw [yes_cmpRawD (fun p hp nm y => yes_cmpRaw nm p.2 y)]
          have hkk : ∀ k, Dict.get? d k = none ↔ Dict.get? e k = none :=
            fun k => ⟨missingKey_none.1 h2 k, missingKey_none.1 h1 k⟩
          constructor
          · intro h
            refine ⟨hkk, ?_⟩
            intro k x y hm hy
            obtain ⟨y', hy', hr⟩ := h k x hm
            rw [hy] at hy'; cases hy'; exact hr
          · rintro ⟨_, h⟩ k x hm
            cases he : Dict.get? e k with
            | none =>
              have := (hkk k).2 he
              exact absurd (List.mem_map_of_mem (f := Prod.fst) hm) (Dict.get?_eq_none_iff.1 this)
            | some y => exact ⟨y, rfl, h k x y hm he⟩
    | _ =>
      simp only [cmpRaw, yes_ok]
      constructor
      · intro h; cases h
      · intro h; cases h with
        | scalar h => simp [isStrInt] at h
termination_by sizeOf u
decreasing_by
  · have := size_elem hx; simpa using this
  · have : (p.1, p.2) ∈ d := hp
    have := size_item this; simpa using this

/-! ### objects -/

theorem cmpKid_eq (k : Str) (kids kids' : Dict Obj) (base : Option Str) :
    Yes (cmpKid T k kids kids' base) ↔ Yes (cmpVal T (jpCompose [k] base)
      ((Dict.get? kids k).getD (.prim .null)) ((Dict.get? kids' k).getD (.prim .null))) := by
  rw [cmpKid]
  split
  · rename_i h
    rw [h]
    simp only [Option.getD_none]
    cases Dict.get? kids' k with
    | none => simp [cmpVal, cmpRaw, yes_ok]
    | some y =>
      cases y with
      | prim j => cases j <;> simp [cmpVal, cmpRaw, yes_ok]
      | _ => simp [cmpVal, yes_ok]
  · rename_i x h
    rw [h]; simp

theorem size_kid {c : Str} {p : Option Str} {s : Json} {kids : Dict Obj} {k : Str} {x : Obj}
    (h : Dict.get? kids k = some x) : sizeOf x < sizeOf (Obj.base c p s kids) := by
  have := List.sizeOf_lt_of_mem (Dict.mem_of_get? h)
  simp at this ⊢
  omega

theorem size_oelem {b : Builder} {p : Option Str} {s : Json} {es : List Obj} {x : Obj}
    (h : x ∈ es) : sizeOf x < sizeOf (Obj.list b p s es) := by
  have := List.sizeOf_lt_of_mem h
  simp
  omega

theorem size_oitem {b : Builder} {p : Option Str} {s : Json} {es : Dict Obj} {k : Str} {x : Obj}
    (h : (k, x) ∈ es) : sizeOf x < sizeOf (Obj.map b p s es) := by
  have := List.sizeOf_lt_of_mem h
  simp at this ⊢
  omega

theorem agree_sameType {x y : Obj} (hx : x.isPrim = false) (h : Agree T x y) : sameType x y = true := by
  cases h <;> simp [sameType, Obj.isPrim] at hx ⊢

theorem yes_cmpVal {name : Str} {x y : Obj}
    (ih : x.isPrim = false → ∀ base, Yes (compare T x y base) ↔ Agree T x y) :
    Yes (cmpVal T name x y) ↔ Agree T x y := by
  rw [cmpVal.eq_def]
  cases x with
  | prim u =>
    cases y with
    | prim v =>
      simp only
      rw [yes_cmpRaw]
      exact ⟨fun h => .prim h, fun h => by cases h; assumption⟩
    | _ =>
      simp only [yes_ok]
      exact ⟨fun h => (by cases h), fun h => (by cases h)⟩
  | _ =>
    simp only
    split
    · exact ih rfl _
    · rename_i hst
      simp only [yes_ok]
      constructor
      · intro h; cases h
      · intro h; exact absurd (agree_sameType rfl h) hst

/-- The first `n` elements are objects that agree, and the comparison ends at `n`. -/
def AgreeElems (T : Table) (es es' : List Obj) : Prop :=
  ∃ n : Nat, (∀ (i : Nat) x, i < n → es[i]? = some x → x.isPrim = false) ∧
    (∀ (i : Nat) x y, i < n → es[i]? = some x → es'[i]? = some y → Agree T x y) ∧
    (n = es.length ∨ ∃ u y, es[n]? = some (.prim u) ∧ es'[n]? = some y ∧
        Obj.isStrInt u = true ∧ ∃ v, y = .prim v ∧ PyEq u v)

theorem eqAny_iff {j : Json} {y : Obj} (hj : isStrInt j = true) :
    eqAny j y = true ↔ ∃ v, y = .prim v ∧ PyEq j v := by
  cases y with
  | prim v => simp [eqAny, scalarEq_iff (.inl hj)]
  | _ => simp [eqAny]

theorem agreeElems_cons {x y : Obj} {es es' : List Obj} (hx : x.isPrim = false) :
    AgreeElems T (x :: es) (y :: es') ↔ Agree T x y ∧ AgreeElems T es es' := by
  constructor
  · rintro ⟨n, h1, h2, h3⟩
    cases n with
    | zero =>
      rcases h3 with h3 | ⟨u, y', h3, _⟩
      · simp at h3
      · simp at h3; subst h3; simp [Obj.isPrim] at hx
    | succ n =>
      refine ⟨h2 0 x y (by omega) rfl rfl, n, ?_, ?_, ?_⟩
      · intro i z hi hz; exact h1 (i + 1) z (by omega) (by simpa using hz)
      · intro i z w hi hz hw; exact h2 (i + 1) z w (by omega) (by simpa using hz) (by simpa using hw)
      · rcases h3 with h3 | h3
        · left; simpa using h3
        · right; simpa using h3
  · rintro ⟨hxy, n, h1, h2, h3⟩
    refine ⟨n + 1, ?_, ?_, ?_⟩
    · intro i z hi hz
      cases i with
      | zero => simp at hz; subst hz; exact hx
      | succ i => exact h1 i z (by omega) (by simpa using hz)
    · intro i z w hi hz hw
      cases i with
      | zero => simp at hz hw; subst hz; subst hw; exact hxy
      | succ i => exact h2 i z w (by omega) (by simpa using hz) (by simpa using hw)
    · rcases h3 with h3 | h3
      · left; simpa using h3
      · right; simpa using h3

theorem agreeElems_prim {j : Json} {y : Obj} {es es' : List Obj} :
    AgreeElems T (.prim j :: es) (y :: es') ↔ isStrInt j = true ∧ ∃ v, y = .prim v ∧ PyEq j v := by
  constructor
  · rintro ⟨n, h1, h2, h3⟩
    cases n with
    | zero =>
      rcases h3 with h3 | ⟨u, y', h3, h4, h5, h6⟩
      · simp at h3
      · simp at h3 h4; subst h3; subst h4; exact ⟨h5, h6⟩
    | succ n => have := h1 0 (.prim j) (by omega) rfl; simp [Obj.isPrim] at this
  · rintro ⟨h1, h2⟩
    exact ⟨0, by omega, by omega, .inr ⟨j, y, rfl, rfl, h1, h2⟩⟩

theorem yes_cmpElems {es es' : List Obj} (i : Nat) (base : Option Str) (hlen : es.length = es'.length)
    (ih : ∀ x ∈ es, x.isPrim = false → ∀ y base, Yes (compare T x y base) ↔ Agree T x y) :
    Yes (cmpElems T es es' i base) ↔ AgreeElems T es es' := by
  induction es generalizing es' i with
  | nil =>
    rw [cmpElems.eq_def]
    simp only [yes_ok, true_iff]
    exact ⟨0, by omega, by omega, .inl rfl⟩
  | cons x es ihe =>
    cases es' with
    | nil => simp at hlen
    | cons y es' =>
      simp only [List.length_cons, Nat.add_right_cancel_iff] at hlen
      rw [cmpElems.eq_def]
      simp only
      cases x with
      | prim j =>
        simp only
        rw [agreeElems_prim]
        by_cases hj : isStrInt j = true
        · simp only [hj, if_true, yes_ok, eqAny_iff hj, true_and]
        · simp [hj, yes_error]
      | _ =>
        simp only
        rw [yes_step, ih _ (by simp) rfl, agreeElems_cons rfl, ihe _ hlen (fun z hz => ih z (by simp [hz]))]

/-- The same for the entries of a map. -/
def AgreeItems (T : Table) (es es' : Dict Obj) : Prop :=
  ∃ n : Nat, (∀ (i : Nat) k x, i < n → es[i]? = some (k, x) → x.isPrim = false) ∧
    (∀ (i : Nat) k x y, i < n → es[i]? = some (k, x) → Dict.get? es' k = some y → Agree T x y) ∧
    (n = es.length ∨ ∃ k u y, es[n]? = some (k, .prim u) ∧ Dict.get? es' k = some y ∧
        Obj.isStrInt u = true ∧ ∃ v, y = .prim v ∧ PyEq u v)

theorem agreeItems_cons {k : Str} {x y : Obj} {es es' : Dict Obj} (hx : x.isPrim = false)
    (hy : Dict.get? es' k = some y) :
    AgreeItems T ((k, x) :: es) es' ↔ Agree T x y ∧ AgreeItems T es es' := by
  constructor
  · rintro ⟨n, h1, h2, h3⟩
    cases n with
    | zero =>
      rcases h3 with h3 | ⟨k', u, y', h3, _⟩
      · simp at h3
      · simp at h3; obtain ⟨-, h3⟩ := h3; subst h3; simp [Obj.isPrim] at hx
    | succ n =>
      refine ⟨h2 0 k x y (by omega) rfl hy, n, ?_, ?_, ?_⟩
      · intro i k' z hi hz; exact h1 (i + 1) k' z (by omega) (by simpa using hz)
      · intro i k' z w hi hz hw; exact h2 (i + 1) k' z w (by omega) (by simpa using hz) hw
      · rcases h3 with h3 | h3
        · left; simpa using h3
        · right; simpa using h3
  · rintro ⟨hxy, n, h1, h2, h3⟩
    refine ⟨n + 1, ?_, ?_, ?_⟩
    · intro i k' z hi hz
      cases i with
      | zero => simp at hz; obtain ⟨rfl, rfl⟩ := hz; exact hx
      | succ i => exact h1 i k' z (by omega) (by simpa using hz)
    · intro i k' z w hi hz hw
      cases i with
      | zero =>
        simp at hz; obtain ⟨rfl, rfl⟩ := hz
        rw [hy] at hw; cases hw; exact hxy
      | succ i => exact h2 i k' z w (by omega) (by simpa using hz) hw
    · rcases h3 with h3 | h3
      · left; simpa using h3
      · right; simpa using h3

theorem agreeItems_prim {k : Str} {j : Json} {y : Obj} {es es' : Dict Obj} (hy : Dict.get? es' k = some y) :
    AgreeItems T ((k, .prim j) :: es) es' ↔ isStrInt j = true ∧ ∃ v, y = .prim v ∧ PyEq j v := by
  constructor
  · rintro ⟨n, h1, h2, h3⟩
    cases n with
    | zero =>
      rcases h3 with h3 | ⟨k', u, y', h3, h4, h5, h6⟩
      · simp at h3
      · simp at h3; obtain ⟨rfl, rfl⟩ := h3
        rw [hy] at h4; cases h4; exact ⟨h5, h6⟩
    | succ n => have := h1 0 k (.prim j) (by omega) rfl; simp [Obj.isPrim] at this
  · rintro ⟨h1, h2⟩
    exact ⟨0, by omega, by omega, .inr ⟨k, j, y, rfl, hy, h1, h2⟩⟩

theorem yes_cmpItems {es es' : Dict Obj} (base : Option Str)
    (hk : ∀ k, Dict.get? es' k = none → k ∉ Dict.keys es)
    (ih : ∀ k x, (k, x) ∈ es → x.isPrim = false → ∀ y base, Yes (compare T x y base) ↔ Agree T x y) :
    Yes (cmpItems T es es' base) ↔ AgreeItems T es es' := by
  induction es with
  | nil =>
    rw [cmpItems.eq_def]
    simp only [yes_ok, true_iff]
    exact ⟨0, by omega, by omega, .inl rfl⟩
  | cons p es ihe =>
    obtain ⟨k, x⟩ := p
    rw [cmpItems.eq_def]
    simp only
    cases hy : Dict.get? es' k with
    | none => exact absurd (by simp [Dict.keys]) (hk k hy)
    | some y =>
      simp only
      cases x with
      | prim j =>
        simp only
        rw [agreeItems_prim hy]
        by_cases hj : isStrInt j = true
        · simp only [hj, if_true, yes_ok, eqAny_iff hj, true_and]
        · simp [hj, yes_error]
      | _ =>
        simp only
        rw [yes_step, ih k _ (by simp) rfl, agreeItems_cons rfl hy,
          ihe (fun k' h hm => hk k' h (by simp [Dict.keys] at hm ⊢; exact .inr hm))
            (fun k' z hz => ih k' z (by simp [hz]))]

/-- `compare` says "same" exactly when the two objects agree on what it looks at. -/
theorem yes_compare {a : Obj} (ha : a.isPrim = false) (b : Obj) (base : Option Str) :
    Yes (compare T a b base) ↔ Agree T a b := by
  match a with
  | .prim _ => simp [Obj.isPrim] at ha
  | .base c p s kids =>
    rw [compare.eq_def]
    simp only
    cases b with
    | base c' p' s' kids' =>
      simp only
      by_cases hc : c = c'
      · subst hc
        rw [if_pos rfl, yes_step, yes_allSame, yes_allSame]
        have hkid : ∀ k, Yes (cmpKid T k kids kids' base) ↔
            Agree T ((Dict.get? kids k).getD (.prim .null)) ((Dict.get? kids' k).getD (.prim .null)) := by
          intro k
          rw [cmpKid_eq, yes_cmpVal]
          intro hp base'
          cases hg : Dict.get? kids k with
          | none => rw [hg] at hp; simp [Obj.isPrim] at hp
          | some x =>
            rw [hg] at hp
            exact yes_compare hp _ _
        have hfield : ∀ kf : Str × FieldDef, Yes (cmpField s s' base kf) ↔
            ∃ u v, readField kf.2 s kf.1 = .ok u ∧ readField kf.2 s' kf.1 = .ok v ∧ RawAgree u v := by
          intro kf
          simp only [cmpField, bind, Except.bind]
          cases readField kf.2 s kf.1 with
          | error e => simp [yes_error]
          | ok u =>
            cases readField kf.2 s' kf.1 with
            | error e => simp [yes_error]
            | ok v => simp [yes_cmpRaw]
        constructor
        · rintro ⟨h1, h2⟩
          exact .base (fun k fd hm => (hfield _).1 (h1 (k, fd) hm)) (fun k hk => (hkid k).1 (h2 k hk))
        · intro h
          cases h with
          | base h1 h2 =>
            exact ⟨fun kf hm => (hfield kf).2 (h1 kf.1 kf.2 hm), fun k hk => (hkid k).2 (h2 k hk)⟩
      · rw [if_neg hc]
        simp only [yes_ok]
        exact ⟨fun h => (by cases h), fun h => (by cases h; exact absurd rfl hc)⟩
    | _ =>
      simp only [yes_ok]
      exact ⟨fun h => (by cases h), fun h => (by cases h)⟩
  | .list bd p s es =>
    rw [compare.eq_def]
    simp only
    cases b with
    | list bd' p' s' es' =>
      simp only
      by_cases hc : bd = bd' ∧ es.length = es'.length
      · rw [if_pos hc, yes_cmpElems 0 base hc.2 (fun x hx hp y base' => yes_compare hp y base')]
        obtain ⟨rfl, hlen⟩ := hc
        constructor
        · rintro ⟨n, h1, h2, h3⟩; exact .list n hlen h1 h2 h3
        · intro h
          cases h with
          | list n _ h1 h2 h3 => exact ⟨n, h1, h2, h3⟩
      · rw [if_neg hc]
        simp only [yes_ok]
        constructor
        · intro h; cases h
        · intro h
          cases h with
          | list n hl _ _ _ => exact absurd ⟨rfl, hl⟩ hc
    | _ =>
      simp only [yes_ok]
      exact ⟨fun h => (by cases h), fun h => (by cases h)⟩
  | .map bd p s es =>
    rw [compare.eq_def]
    simp only
    cases b with
    | map bd' p' s' es' =>
      simp only
      by_cases hc : bd = bd'
      · subst hc
        rw [if_pos rfl]
        cases h1 : missingKey es es' with
        | some k =>
          simp only [yes_ok]
          constructor
          · intro h; cases h
          · intro h
            cases h with
            | map n hk _ _ _ =>
              have : missingKey es es' = none := missingKey_none.2 (fun k h => (hk k).2 h)
              rw [h1] at this; cases this
        | none =>
          cases h2 : missingKey es' es with
          | some k =>
            simp only [yes_ok]
            constructor
            · intro h; cases h
            · intro h
              cases h with
              | map n hk _ _ _ =>
                have : missingKey es' es = none := missingKey_none.2 (fun k h => (hk k).1 h)
                rw [h2] at this; cases this
          | none =>
            simp only
            have hkk : ∀ k, Dict.get? es k = none ↔ Dict.get? es' k = none :=
              fun k => ⟨missingKey_none.1 h2 k, missingKey_none.1 h1 k⟩
            rw [yes_cmpItems base (fun k h => Dict.get?_eq_none_iff.1 ((hkk k).2 h))
              (fun k x hx hp y base' => yes_compare hp y base')]
            constructor
            · rintro ⟨n, h1, h2, h3⟩; exact .map n hkk h1 h2 h3
            · intro h
              cases h with
              | map n _ h1 h2 h3 => exact ⟨n, h1, h2, h3⟩
      · rw [if_neg hc]
        simp only [yes_ok]
        exact ⟨fun h => (by cases h), fun h => (by cases h; exact absurd rfl hc)⟩
    | _ =>
      simp only [yes_ok]
      exact ⟨fun h => (by cases h), fun h => (by cases h)⟩
termination_by sizeOf a
decreasing_by
  · exact size_kid hg
  · exact size_oelem hx
  · exact size_oitem hx

end Pyopenapi
