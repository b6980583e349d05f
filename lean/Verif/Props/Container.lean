import Verif.Lemmas.Container
import Verif.Lemmas.Compare
import Verif.Lemmas.Sort

/-!
# C17-C19: compare_container
-/

namespace Pyopenapi
open Spec

variable {S : Sorter} {inc exc : List Str}

theorem keepKey_iff {k : Str} : keepKey inc exc k = true ↔ Counts inc exc k := by
  unfold keepKey Counts
  simp

theorem keep_keys {d : Dict Json} {k : Str} :
    k ∈ (Dict.keys d).filter (keepKey inc exc) ↔ Counts inc exc k ∧ Dict.get? d k ≠ none := by
  rw [List.mem_filter, keepKey_iff, Ne, Dict.get?_eq_none_iff, Classical.not_not, and_comm]

/-- No report and no exception, for two dicts. -/
theorem cc_obj_nil {d e : Dict Json} {base : Str} : compareContainer S inc exc (.obj d) (.obj e) base = .ok [] ↔
    (∀ k, Counts inc exc k → (Dict.get? d k = none ↔ Dict.get? e k = none)) ∧
    (∀ k x y, Counts inc exc k → Dict.get? d k = some x → Dict.get? e k = some y →
      compareContainer S inc exc x y (jpCompose [k] (some base)) = .ok []) := by
  rw [cc_obj]
  have hks := @keep_keys inc exc d
  have hkd := @keep_keys inc exc e
  generalize (Dict.keys d).filter (keepKey inc exc) = ks at hks
  generalize (Dict.keys e).filter (keepKey inc exc) = kd at hkd
  have hcc : concatM ((ks.filter (fun k => kd.contains k)).map (fun k =>
      compareContainer S inc exc (Json.at d k) (Json.at e k) (jpCompose [k] (some base)))) = .ok [] ↔
      (∀ k x y, Counts inc exc k → Dict.get? d k = some x → Dict.get? e k = some y →
      compareContainer S inc exc x y (jpCompose [k] (some base)) = .ok []) := by
    rw [concatM_nil]
    constructor
    · intro h k x y hk hx hy
      have := h (compareContainer S inc exc (Json.at d k) (Json.at e k) (jpCompose [k] (some base)))
        (List.mem_map.2 ⟨k, List.mem_filter.2 ⟨hks.2 ⟨hk, by rw [hx]; simp⟩, by
          rw [List.contains_iff_mem]; exact hkd.2 ⟨hk, by rw [hy]; simp⟩⟩, rfl⟩)
      rwa [at_of_get hx, at_of_get hy] at this
    · intro h r hr
      obtain ⟨k, hk, rfl⟩ := List.mem_map.1 hr
      rw [List.mem_filter, List.contains_iff_mem] at hk
      have h1 := hks.1 hk.1
      have h2 := hkd.1 hk.2
      cases hx : Dict.get? d k with
      | none => exact absurd hx h1.2
      | some x =>
        cases hy : Dict.get? e k with
        | none => exact absurd hy h2.2
        | some y => rw [at_of_get hx, at_of_get hy]; exact h k x y h1.1 hx hy
  have hdiff : (∀ k, Counts inc exc k → (Dict.get? d k = none ↔ Dict.get? e k = none)) ↔
      (kd.filter (fun k => !ks.contains k) = [] ∧ ks.filter (fun k => !kd.contains k) = []) := by
    simp only [List.filter_eq_nil_iff, Bool.not_eq_true, Bool.not_eq_false', List.contains_iff_mem]
    constructor
    · intro h
      constructor
      · intro k hk
        have := hkd.1 hk
        exact hks.2 ⟨this.1, fun hn => this.2 ((h k this.1).1 hn)⟩
      · intro k hk
        have := hks.1 hk
        exact hkd.2 ⟨this.1, fun hn => this.2 ((h k this.1).2 hn)⟩
    · intro h k hk
      constructor
      · intro hn
        cases he : Dict.get? e k with
        | none => rfl
        | some y => exact absurd hn (hks.1 (h.1 k (hkd.2 ⟨hk, by rw [he]; simp⟩))).2
      · intro hn
        cases hd : Dict.get? d k with
        | none => rfl
        | some y => exact absurd hn (hkd.1 (h.2 k (hks.2 ⟨hk, by rw [hd]; simp⟩))).2
  rw [hdiff, ← hcc]
  dsimp only
  generalize concatM _ = r
  cases r with
  | error e => simp [bind, Except.bind]
  | ok r => simp [bind, Except.bind, and_assoc]

/-- No report and no exception, for two lists. -/
theorem cc_arr_nil {x y : Json} {l m : List Json} {base : Str} :
    compareContainer S inc exc (.arr (x :: l)) (.arr (y :: m)) base = .ok [] ↔
    (x :: l).length = (y :: m).length ∧ sameTypes (x :: l) = true ∧ sameTypes (y :: m) = true ∧
    kindsAgree x y = true ∧ ∃ l' m', toSort S x (x :: l) = .ok l' ∧ toSort S x (y :: m) = .ok m' ∧
      ∀ (i : Nat) a b, l'[i]? = some a → m'[i]? = some b →
        compareContainer S inc exc a b (jpCompose [Str.ofNat i] (some base)) = .ok [] := by
  rw [cc_arr]
  by_cases h1 : (x :: l).length = (y :: m).length
  · rw [if_neg (by simpa using h1)]
    by_cases h2 : sameTypes (x :: l) = true
    · by_cases h3 : sameTypes (y :: m) = true
      · rw [h2, h3]
        by_cases h4 : kindsAgree x y = true
        · rw [h4]
          cases h5 : toSort S x (x :: l) with
          | error e => simp [bind, Except.bind]
          | ok l' =>
            cases h6 : toSort S x (y :: m) with
            | error e => simp [bind, Except.bind]
            | ok m' =>
              have : (concatM ((List.zip l' m').zipIdx.map (fun p =>
                  compareContainer S inc exc p.1.1 p.1.2 (jpCompose [Str.ofNat p.2] (some base)))) = .ok []) ↔
                  ∀ (i : Nat) a b, l'[i]? = some a → m'[i]? = some b →
                    compareContainer S inc exc a b (jpCompose [Str.ofNat i] (some base)) = .ok [] := by
                rw [concatM_nil]
                constructor
                · intro h i a b ha hb
                  refine h _ (List.mem_map.2 ⟨((a, b), i), ?_, rfl⟩)
                  rw [List.mem_zipIdx_iff_getElem?]
                  exact List.getElem?_zip_eq_some.2 ⟨ha, hb⟩
                · intro h r hr
                  obtain ⟨⟨⟨a, b⟩, i⟩, hp, rfl⟩ := List.mem_map.1 hr
                  rw [List.mem_zipIdx_iff_getElem?] at hp
                  have := List.getElem?_zip_eq_some.1 hp
                  exact h i a b this.1 this.2
              simp only [bind, Except.bind, Bool.not_true, Bool.or_false, Bool.false_eq_true, if_false]
              rw [this]
              simp only [Except.ok.injEq, exists_and_left, exists_eq_left', h1, true_and]
        · have h4' : kindsAgree x y = false := by simpa using h4
          rw [h4']
          simp
      · have h3' : sameTypes (y :: m) = false := by simpa using h3
        rw [h3']; simp
    · have h2' : sameTypes (x :: l) = false := by simpa using h2
      rw [h2']; simp
  · rw [if_pos h1]
    simp only [Except.ok.injEq, reduceCtorEq, false_iff]
    exact fun h => absurd h.1 h1

/-! ### C18 -/

theorem scalarEq_pyEq {a b : Json} (ha : Scalar a) : Json.scalarEq a b = true ↔ PyEq a b := by
  constructor
  · intro h
    unfold Json.scalarEq at h
    split at h
    · rename_i x y hx hy
      exact .num ((number?_eq _).trans hx) ((number?_eq _).trans hy) (numEq_iff.1 h)
    · split at h
      · simp at h; subst h; exact .str _
      · exact .null
      · simp at h
  · intro h
    cases h with
    | num hx hy h =>
      rw [number?_eq] at hx hy
      unfold Json.scalarEq; simp only [hx, hy]; exact numEq_iff.2 h
    | str s => simp [Json.scalarEq, Json.num?]
    | null => rfl
    | arr _ _ => exact absurd ha (by simp [Scalar])
    | obj _ _ => exact absurd ha (by simp [Scalar])

theorem kindsAgree_obj {x y : Json} (hx : x.isObj = true) (h : kindsAgree x y = true) : y.isObj = true := by
  cases x <;> simp [Json.isObj] at hx
  cases y <;> first | rfl | (simp [kindsAgree, Json.typeName, Json.isStr, Json.isInt] at h)

theorem sameTypes_obj {x : Json} {l : List Json} (hx : x.isObj = true) (h : sameTypes (x :: l) = true) :
    ∀ a ∈ x :: l, ∃ d, a = .obj d := by
  intro a ha
  have := sameTypes_iff.1 h a ha x List.mem_cons_self
  cases x <;> simp [Json.isObj] at hx
  cases a <;> first | exact ⟨_, rfl⟩ | (simp [Json.typeName] at this)

/-- **C18**: when nothing is reported, the two values agree in everything that counts. -/
theorem C18_nothing_reported (S : Sorter) (inc exc : List Str) (a b : Json) (base : Str)
    (h : compareContainer S inc exc a b base = .ok []) : Alike (Counts inc exc) a b := by
  suffices H : ∀ n a b base, a.height ≤ n → compareContainer S inc exc a b base = .ok [] → Alike (Counts inc exc) a b from
    H _ a b base (Nat.le_refl _) h
  intro n
  induction n with
  | zero => intro a b base hn; have := height_pos a; omega
  | succ n ih =>
    intro a b base hn h
    cases ha : a with
    | obj d =>
      subst ha
      cases b with
      | obj e =>
        obtain ⟨h1, h2⟩ := cc_obj_nil.1 h
        refine .obj h1 (fun k x y hk hx hy => ih x y _ ?_ (h2 k x y hk hx hy))
        have := heightD_le hx
        rw [Json.height] at hn; omega
      | _ => rw [cc_obj_other _ (by simp)] at h; simp at h
    | arr l =>
      subst ha
      cases b with
      | arr m =>
        cases l with
        | nil =>
          cases m with
          | nil => exact .inOrder (by simp) rfl (by simp)
          | cons y m => rw [cc_nil_cons] at h; simp at h
        | cons x l =>
          cases m with
          | nil => rw [cc_cons_nil] at h; simp at h
          | cons y m =>
            obtain ⟨h1, h2, h3, h4, l', m', h5, h6, h7⟩ := cc_arr_nil.1 h
            have hel : ∀ (i : Nat) a b, l'[i]? = some a → m'[i]? = some b → Alike (Counts inc exc) a b := by
              intro i a b ha hb
              refine ih a b _ ?_ (h7 i a b ha hb)
              have hm : a ∈ x :: l := (toSort_perm h5).subset (List.mem_of_getElem? ha)
              have := heightL_le hm
              rw [Json.height] at hn; omega
            by_cases hx : x.isObj = true
            · simp only [toSort, hx, if_true, Except.ok.injEq] at h5 h6
              subst h5 h6
              exact .inOrder (sameTypes_obj hx h2) h1 hel
            · refine .anyOrder (toSort_perm h5) (toSort_perm h6) ?_ hel
              rw [(toSort_perm h5).length_eq, (toSort_perm h6).length_eq, h1]
      | _ => rw [cc_arr_other _ (by simp)] at h; simp at h
    | _ =>
      subst ha
      rw [cc_scalar (by simp [Scalar])] at h
      split at h
      · rename_i he
        exact .scalar (by simp [Scalar]) ((scalarEq_pyEq (by simp [Scalar])).1 he)
      · simp at h

/-- **C18**: two lists of strings are reported equal exactly when one is a reordering of the other. -/
theorem C18_string_lists (S : Sorter) (inc exc : List Str) (l m : List Str) (base : Str) :
    compareContainer S inc exc (.arr (l.map .str)) (.arr (m.map .str)) base = .ok [] ↔ l.Perm m := by
  constructor
  · intro h
    cases l with
    | nil =>
      cases m with
      | nil => exact .refl _
      | cons y m => rw [List.map_cons, List.map_nil, cc_nil_cons] at h; simp at h
    | cons x l =>
      cases m with
      | nil => rw [List.map_cons, List.map_nil, cc_cons_nil] at h; simp at h
      | cons y m =>
        rw [List.map_cons, List.map_cons] at h
        obtain ⟨h1, h2, h3, h4, l', m', h5, h6, h7⟩ := cc_arr_nil.1 h
        have p1 := toSort_perm h5
        have p2 := toSort_perm h6
        have : l' = m' := by
          apply List.ext_getElem?
          intro i
          have hlen : l'.length = m'.length := by rw [p1.length_eq, p2.length_eq, h1]
          cases ha : l'[i]? with
          | none =>
            rw [List.getElem?_eq_none_iff] at ha
            rw [eq_comm, List.getElem?_eq_none_iff]; omega
          | some a =>
            cases hb : m'[i]? with
            | none =>
              rw [List.getElem?_eq_none_iff] at hb
              have := (List.getElem?_eq_some_iff.1 ha).1
              omega
            | some b =>
              have ha' : a ∈ List.map Json.str (x :: l) := p1.subset (List.mem_of_getElem? ha)
              have hb' : b ∈ List.map Json.str (y :: m) := p2.subset (List.mem_of_getElem? hb)
              obtain ⟨s, _, rfl⟩ := List.mem_map.1 ha'
              obtain ⟨t, _, rfl⟩ := List.mem_map.1 hb'
              have := h7 i _ _ ha hb
              rw [cc_scalar (by simp [Scalar])] at this
              split at this
              · rename_i he
                simp [Json.scalarEq, Json.num?] at he
                rw [he]
              · simp at this
        subst this
        have := p1.symm.trans p2
        rw [← List.map_cons (f := Json.str), ← List.map_cons (f := Json.str)] at this
        have := this.map (fun j => match j with | .str s => s | _ => [])
        simpa [Function.comp_def] using this
  · intro hp
    cases l with
    | nil => rw [List.nil_perm.1 hp]; rfl
    | cons x l =>
      cases m with
      | nil => exact absurd hp (by simp)
      | cons y m =>
        obtain ⟨r, hr1, hr2⟩ := S.strings (l := (x :: l).map .str) (m := (y :: m).map .str)
          (fun a ha => by obtain ⟨s, _, rfl⟩ := List.mem_map.1 ha; exact ⟨s, rfl⟩) (hp.map _)
        have hst : ∀ z : List Str, sameTypes (z.map Json.str) = true := by
          intro z
          rw [sameTypes_iff]
          intro a ha b hb
          obtain ⟨s, _, rfl⟩ := List.mem_map.1 ha
          obtain ⟨t, _, rfl⟩ := List.mem_map.1 hb
          rfl
        rw [List.map_cons, List.map_cons]
        refine cc_arr_nil.2 ⟨by simpa using hp.length_eq, hst (x :: l), hst (y :: m), rfl, r, r, hr1, hr2, ?_⟩
        intro i a b ha hb
        rw [ha] at hb
        cases hb
        have ha' : a ∈ List.map Json.str (x :: l) := (S.perm hr1).subset (List.mem_of_getElem? ha)
        obtain ⟨s, _, rfl⟩ := List.mem_map.1 ha'
        rw [cc_scalar (by simp [Scalar])]
        simp [Json.scalarEq, Json.num?]

/-! ### C17 -/

theorem jeq_arr_inv {l : List Json} {b : Json} (h : JEq (.arr l) b) : ∃ m, b = .arr m ∧ List.Forall₂ JEq l m := by
  generalize ha : Json.arr l = a at h
  induction h generalizing l with
  | refl j =>
    subst ha
    refine ⟨l, rfl, ?_⟩
    induction l with
    | nil => exact .nil
    | cons x l ih => exact .cons (.refl x) ih
  | nil => cases ha; exact ⟨[], rfl, .nil⟩
  | cons h1 _ _ ih =>
    cases ha
    obtain ⟨m, hm, hf⟩ := ih rfl
    cases hm
    exact ⟨_, rfl, .cons h1 hf⟩
  | obj _ _ _ => cases ha

theorem jeq_obj_inv {d : Dict Json} {b : Json} (h : JEq (.obj d) b) : ∃ e, b = .obj e ∧
    (∀ k, Dict.get? d k = none ↔ Dict.get? e k = none) ∧
    (∀ k x y, Dict.get? d k = some x → Dict.get? e k = some y → JEq x y) := by
  cases h with
  | refl => exact ⟨d, rfl, fun _ => Iff.rfl, fun k x y hx hy => by rw [hx] at hy; cases hy; exact .refl _⟩
  | obj h1 h2 => exact ⟨_, rfl, h1, h2⟩

theorem jeq_scalar_inv {a b : Json} (ha : Scalar a) (h : JEq a b) : b = a := by
  cases h with
  | refl => rfl
  | nil => rfl
  | cons _ _ => exact absurd ha (by simp [Scalar])
  | obj _ _ => exact absurd ha (by simp [Scalar])

theorem jeq_type {a b : Json} (h : JEq a b) : b.typeName = a.typeName := by cases h <;> rfl

theorem forall₂_get {R : Json → Json → Prop} {l m : List Json} (h : List.Forall₂ R l m) (i : Nat) (a : Json)
    (ha : l[i]? = some a) : ∃ b, m[i]? = some b ∧ R a b := by
  induction h generalizing i with
  | nil => simp at ha
  | cons h _ ih =>
    cases i with
    | zero => simp at ha; subst ha; exact ⟨_, rfl, h⟩
    | succ i => simpa using ih i (by simpa using ha)

theorem jeq_sameTypes {l m : List Json} (h : List.Forall₂ JEq l m) : sameTypes m = sameTypes l := by
  cases h with
  | nil => rfl
  | cons h hs =>
    simp only [sameTypes]
    induction hs with
    | nil => rfl
    | cons h2 _ ih => rw [List.all_cons, List.all_cons, ih, jeq_type h2, jeq_type h]

theorem jeq_kinds {a b : Json} (h : JEq a b) : kindsAgree a b = true := by
  unfold kindsAgree
  simp [jeq_type h]

theorem jeq_length {l m : List Json} (h : List.Forall₂ JEq l m) : l.length = m.length := by
  induction h with
  | nil => rfl
  | cons _ _ ih => simp [ih]

theorem toSort_jeq (S : Sorter) (x : Json) {l m : List Json} (h : List.Forall₂ JEq l m) :
    (∃ l' m', toSort S x l = .ok l' ∧ toSort S x m = .ok m' ∧ List.Forall₂ JEq l' m') ∨
    (x.isObj = false ∧ toSort S x l = .error .typeError ∧ toSort S x m = .error .typeError) := by
  unfold toSort
  split
  · exact .inl ⟨l, m, rfl, rfl, h⟩
  · rename_i hx
    rcases S.reorder h with h | h
    · exact .inl h
    · exact .inr ⟨by simpa using hx, h⟩

/-- **C17**: comparing a value with itself, or with the same value in any key order, never reports a
difference; the only exceptions are ValueError (and then some list inside mixes types) and the TypeError of
`sorted` (and then some list inside cannot be sorted). -/
theorem C17_never_different (S : Sorter) (inc exc : List Str) (a b : Json) (base : Str) (h : JEq a b) :
    compareContainer S inc exc a b base = .ok [] ∨
    (compareContainer S inc exc a b base = .error .valueError ∧ ¬ Uniform a) ∨
    (compareContainer S inc exc a b base = .error .typeError ∧ ¬ Sortable S a) := by
  suffices H : ∀ n a b base, a.height ≤ n → JEq a b → compareContainer S inc exc a b base = .ok [] ∨
      (compareContainer S inc exc a b base = .error .valueError ∧ ¬ Uniform a) ∨
      (compareContainer S inc exc a b base = .error .typeError ∧ ¬ Sortable S a) from H _ a b base (Nat.le_refl _) h
  intro n
  induction n with
  | zero => intro a b base hn; have := height_pos a; omega
  | succ n ih =>
    intro a b base hn h
    cases ha : a with
    | obj d =>
      subst ha
      obtain ⟨e, rfl, h1, h2⟩ := jeq_obj_inv h
      have hk : ∀ k, k ∈ (Dict.keys d).filter (keepKey inc exc) ↔ k ∈ (Dict.keys e).filter (keepKey inc exc) := by
        intro k
        rw [keep_keys, keep_keys, Ne, Ne, h1]
      rw [cc_obj]
      have e1 : ((Dict.keys e).filter (keepKey inc exc)).filter
          (fun k => !((Dict.keys d).filter (keepKey inc exc)).contains k) = [] := by
        rw [List.filter_eq_nil_iff]
        intro k hk'
        simp only [Bool.not_eq_true, Bool.not_eq_false', List.contains_iff_mem]
        exact (hk k).2 hk'
      have e2 : ((Dict.keys d).filter (keepKey inc exc)).filter
          (fun k => !((Dict.keys e).filter (keepKey inc exc)).contains k) = [] := by
        rw [List.filter_eq_nil_iff]
        intro k hk'
        simp only [Bool.not_eq_true, Bool.not_eq_false', List.contains_iff_mem]
        exact (hk k).1 hk'
      dsimp only
      rw [e1, e2]
      have hel : ∀ r ∈ (((Dict.keys d).filter (keepKey inc exc)).filter
          (fun k => ((Dict.keys e).filter (keepKey inc exc)).contains k)).map (fun k =>
            compareContainer S inc exc (Json.at d k) (Json.at e k) (jpCompose [k] (some base))),
          r = .ok [] ∨ (r = .error .valueError ∧ ¬ Uniform (.obj d)) ∨ (r = .error .typeError ∧ ¬ Sortable S (.obj d)) := by
        intro r hr
        obtain ⟨k, hk', rfl⟩ := List.mem_map.1 hr
        rw [List.mem_filter, List.contains_iff_mem] at hk'
        have g1 := at_eq (List.mem_filter.1 hk'.1).1
        have g2 := at_eq (List.mem_filter.1 hk'.2).1
        have hh := heightD_le g1
        rcases ih (Json.at d k) (Json.at e k) (jpCompose [k] (some base)) (by rw [Json.height] at hn; omega) (h2 k _ _ g1 g2)
          with h | ⟨h, h'⟩ | ⟨h, h'⟩
        · exact .inl h
        · exact .inr (.inl ⟨h, fun hu => h' (fun l hl => hu l (.key g1 hl))⟩)
        · exact .inr (.inr ⟨h, fun hu => h' (fun l hl => hu l (.key g1 hl))⟩)
      generalize List.map _ _ = rs at hel
      cases hc : concatM rs with
      | error er =>
        obtain ⟨x, hx, rfl⟩ := concatM_error hc
        rcases hel _ hx with h | ⟨h, h'⟩ | ⟨h, h'⟩
        · cases h
        · cases h; exact .inr (.inl ⟨rfl, h'⟩)
        · cases h; exact .inr (.inr ⟨rfl, h'⟩)
      | ok r =>
        have : concatM rs = .ok [] := by
          rw [concatM_nil]
          intro x hx
          obtain ⟨a, ha, _⟩ := concatM_ok hc x hx
          rcases hel _ hx with h | ⟨h, h'⟩ | ⟨h, h'⟩
          · exact h
          · rw [ha] at h; cases h
          · rw [ha] at h; cases h
        rw [this] at hc
        cases hc
        exact .inl rfl
    | arr l =>
      subst ha
      obtain ⟨m, rfl, hf⟩ := jeq_arr_inv h
      cases l with
      | nil => cases hf; exact .inl rfl
      | cons x l =>
        cases m with
        | nil => cases hf
        | cons y m =>
          rw [cc_arr, if_neg (by simpa using jeq_length hf), jeq_sameTypes hf]
          by_cases h2 : sameTypes (x :: l) = true
          · have hxy : JEq x y := by cases hf; assumption
            simp only [h2, jeq_kinds hxy, Bool.not_true, Bool.or_false, Bool.false_eq_true, if_false]
            rcases toSort_jeq S x hf with ⟨l', m', g1, g2, g3⟩ | ⟨g0, g1, g2⟩
            · rw [g1, g2]
              simp only [bind, Except.bind]
              have hel : ∀ r ∈ (List.zip l' m').zipIdx.map (fun p =>
                  compareContainer S inc exc p.1.1 p.1.2 (jpCompose [Str.ofNat p.2] (some base))),
                  r = .ok [] ∨ (r = .error .valueError ∧ ¬ Uniform (.arr (x :: l))) ∨
                  (r = .error .typeError ∧ ¬ Sortable S (.arr (x :: l))) := by
                intro r hr
                obtain ⟨⟨⟨a, b⟩, i⟩, hp, rfl⟩ := List.mem_map.1 hr
                rw [List.mem_zipIdx_iff_getElem?] at hp
                have hp := List.getElem?_zip_eq_some.1 hp
                have hm : a ∈ x :: l := (toSort_perm g1).subset (List.mem_of_getElem? hp.1)
                obtain ⟨b', hb', hj⟩ := forall₂_get g3 i a hp.1
                rw [hp.2] at hb'
                cases hb'
                have hh := heightL_le hm
                rcases ih a b (jpCompose [Str.ofNat i] (some base)) (by rw [Json.height] at hn; omega) hj
                  with h | ⟨h, h'⟩ | ⟨h, h'⟩
                · exact .inl h
                · exact .inr (.inl ⟨h, fun hu => h' (fun l hl => hu l (.elem hm hl))⟩)
                · exact .inr (.inr ⟨h, fun hu => h' (fun l hl => hu l (.elem hm hl))⟩)
              generalize List.map _ _ = rs at hel
              cases hc : concatM rs with
              | error er =>
                obtain ⟨x, hx, rfl⟩ := concatM_error hc
                rcases hel _ hx with h | ⟨h, h'⟩ | ⟨h, h'⟩
                · cases h
                · cases h; exact .inr (.inl ⟨rfl, h'⟩)
                · cases h; exact .inr (.inr ⟨rfl, h'⟩)
              | ok r =>
                left
                have : concatM rs = .ok [] := by
                  rw [concatM_nil]
                  intro x hx
                  obtain ⟨a, ha, _⟩ := concatM_ok hc x hx
                  rcases hel _ hx with h | ⟨h, h'⟩ | ⟨h, h'⟩
                  · exact h
                  · rw [ha] at h; cases h
                  · rw [ha] at h; cases h
                rw [← hc, this]
            · rw [g1]
              refine .inr (.inr ⟨rfl, fun hs => ?_⟩)
              have : ∀ a ∈ x :: l, ∀ d, a ≠ .obj d := by
                rintro a ha d rfl
                have := sameTypes_iff.1 h2 _ ha x List.mem_cons_self
                cases x <;> simp [Json.typeName, Json.isObj] at this g0
              obtain ⟨r, hr⟩ := hs (x :: l) (.here _) (by simp) this
              rw [toSort, g0] at g1
              simp only [Bool.false_eq_true, if_false] at g1
              rw [hr] at g1; cases g1
          · have h2' : sameTypes (x :: l) = false := by simpa using h2
            rw [if_pos (by simp [h2'])]
            exact .inr (.inl ⟨rfl, fun hu => h2 (sameTypes_iff.2 (hu _ (.here _)))⟩)
    | _ =>
      subst ha
      have := jeq_scalar_inv (by simp [Scalar]) h
      subst this
      left
      rw [cc_scalar (by simp [Scalar])]
      first | rfl | simp [Json.scalarEq, Json.num?, numEq]

/-- **C17**: a value whose lists are uniform and sortable equals itself in any key order. -/
theorem C17_reflexive (S : Sorter) (inc exc : List Str) (a b : Json) (base : Str) (h : JEq a b)
    (hu : Uniform a) (hs : Sortable S a) : compareContainer S inc exc a b base = .ok [] := by
  rcases C17_never_different S inc exc a b base h with h | h | h
  · exact h
  · exact absurd hu h.2
  · exact absurd hs h.2

/-- **C17**: conversely, without `include` and `exclude`, a list that mixes types or cannot be sorted,
anywhere inside, makes the comparison of a value with itself raise. -/
theorem C17_raises (S : Sorter) (a b : Json) (base : Str) (h : JEq a b) (hns : ¬ (Uniform a ∧ Sortable S a)) :
    compareContainer S [] [] a b base = .error .valueError ∨ compareContainer S [] [] a b base = .error .typeError := by
  rcases C17_never_different S [] [] a b base h with he | he | he
  · exfalso
    apply hns
    have key : ∀ a w, InJ a w → ∀ b base, JEq a b → compareContainer S [] [] a b base = .ok [] →
        ∃ b' base', JEq w b' ∧ compareContainer S [] [] w b' base' = .ok [] := by
      intro a w hw
      clear hns he h
      induction hw with
      | here j => exact fun b base h1 h2 => ⟨b, base, h1, h2⟩
      | key hg _ ih =>
        intro b base h1 h2
        obtain ⟨e, rfl, h3, h4⟩ := jeq_obj_inv h1
        rename_i d k v w _
        cases hy : Dict.get? e k with
        | none => rw [(h3 k).2 hy] at hg; cases hg
        | some y => exact ih y _ (h4 k _ _ hg hy) ((cc_obj_nil.1 h2).2 k _ _ ⟨.inl rfl, by simp⟩ hg hy)
      | elem hm _ ih =>
        intro b base h1 h2
        obtain ⟨m, rfl, hf⟩ := jeq_arr_inv h1
        rename_i l v w _
        cases l with
        | nil => simp at hm
        | cons x l =>
          cases m with
          | nil => cases hf
          | cons y m =>
            obtain ⟨_, _, _, _, l', m', h5, h6, h7⟩ := cc_arr_nil.1 h2
            have hf' : List.Forall₂ JEq l' m' := by
              rcases toSort_jeq S x hf with ⟨l2, m2, g1, g2, g3⟩ | ⟨_, g1, _⟩
              · rw [h5] at g1; rw [h6] at g2; cases g1; cases g2; exact g3
              · rw [h5] at g1; cases g1
            have hm' : v ∈ l' := (toSort_perm h5).symm.subset hm
            obtain ⟨i, hi⟩ := List.getElem?_of_mem hm'
            obtain ⟨y', hy', hj⟩ := forall₂_get hf' i v hi
            exact ih y' _ hj (h7 i v y' hi hy')
    constructor
    · intro l hl
      obtain ⟨b', base', h1, h2⟩ := key _ _ hl b base h he
      obtain ⟨m, rfl, hf⟩ := jeq_arr_inv h1
      cases l with
      | nil => simp
      | cons x l =>
        cases m with
        | nil => cases hf
        | cons y m => exact sameTypes_iff.1 (cc_arr_nil.1 h2).2.1
    · intro l hl hne hno
      obtain ⟨b', base', h1, h2⟩ := key _ _ hl b base h he
      obtain ⟨m, rfl, hf⟩ := jeq_arr_inv h1
      cases l with
      | nil => exact absurd rfl hne
      | cons x l =>
        cases m with
        | nil => cases hf
        | cons y m =>
          obtain ⟨_, _, _, _, l', m', h5, h6, h7⟩ := cc_arr_nil.1 h2
          have : x.isObj = false := by
            have := hno x List.mem_cons_self
            cases x <;> first | rfl | exact absurd rfl (this _)
          rw [toSort, this] at h5
          exact ⟨l', h5⟩
  · exact .inl he.1
  · exact .inr he.1

/-! ### C19 -/

theorem pruneL_map (K : Str → Bool) (l : List Json) : pruneL K l = l.map (prune K) := by
  induction l with
  | nil => rfl
  | cons x l ih => simp [pruneL, ih]

theorem pruneD_keys (K : Str → Bool) (d : Dict Json) : Dict.keys (pruneD K d) = (Dict.keys d).filter K := by
  induction d with
  | nil => rfl
  | cons kv d ih =>
    obtain ⟨k, v⟩ := kv
    rw [pruneD]
    by_cases h : K k = true
    · simp [Dict.keys, h] at ih ⊢; exact ih
    · simp [Dict.keys, h] at ih ⊢; exact ih

theorem pruneD_get (K : Str → Bool) (d : Dict Json) (k : Str) (h : K k = true) :
    Dict.get? (pruneD K d) k = (Dict.get? d k).map (prune K) := by
  induction d with
  | nil => rfl
  | cons kv d ih =>
    obtain ⟨k', v⟩ := kv
    rw [pruneD]
    by_cases hk : k' = k
    · subst hk
      rw [if_pos h, Dict.get?_cons, Dict.get?_cons, if_pos rfl, if_pos rfl]; rfl
    · rw [Dict.get?_cons, if_neg hk]
      split
      · rw [Dict.get?_cons, if_neg hk]; exact ih
      · exact ih

theorem prune_type (K : Str → Bool) (j : Json) : (prune K j).typeName = j.typeName := by cases j <;> rfl

theorem prune_isObj (K : Str → Bool) (j : Json) : (prune K j).isObj = j.isObj := by cases j <;> rfl

theorem prune_kinds (K : Str → Bool) (x y : Json) : kindsAgree (prune K x) (prune K y) = kindsAgree x y := by
  have h1 : ∀ j, (prune K j).isStr = j.isStr := by intro j; cases j <;> rfl
  have h2 : ∀ j, (prune K j).isInt = j.isInt := by intro j; cases j <;> rfl
  simp only [kindsAgree, h1, h2, prune_type]

theorem prune_sameTypes (K : Str → Bool) (l : List Json) : sameTypes (l.map (prune K)) = sameTypes l := by
  cases l with
  | nil => rfl
  | cons x l => simp only [List.map_cons, sameTypes, List.all_map, Function.comp_def, prune_type]

theorem prune_noObj (K : Str → Bool) : ∀ (n : Nat) (j : Json), j.height ≤ n → (∀ d, ¬ InJ j (.obj d)) → prune K j = j := by
  intro n
  induction n with
  | zero => intro j hj; have := height_pos j; omega
  | succ n ih =>
    intro j hj h
    cases j with
    | obj d => exact absurd (.here _) (h d)
    | arr l =>
      rw [prune, pruneL_map]
      congr 1
      have : l.map (prune K) = l.map id := List.map_congr_left (fun x hx => ih x (by
        have := heightL_le hx; rw [Json.height] at hj; omega) (fun d hd => h d (.elem hx hd)))
      rw [this, List.map_id]
    | _ => rfl

theorem flat_key {d : Dict Json} {k : Str} {v : Json} (h : FlatLists (.obj d)) (hg : Dict.get? d k = some v) : FlatLists v :=
  fun l hl => h l (.key hg hl)

theorem flat_elem {l : List Json} {v : Json} (h : FlatLists (.arr l)) (hg : v ∈ l) : FlatLists v :=
  fun l hl => h l (.elem hg hl)

/-- The report about pruned values. -/
def pruneDiff (K : Str → Bool) (d : Diff) : Diff := (d.1, pruneSeen K d.2.1, pruneSeen K d.2.2)

/-- The outcome about pruned values. -/
def pruneOut (K : Str → Bool) (r : R (List Diff)) : R (List Diff) :=
  match r with
  | .ok ds => .ok (ds.map (pruneDiff K))
  | .error e => .error e

theorem pruneOut_concatM (K : Str → Bool) (rs : List (R (List Diff))) :
    concatM (rs.map (pruneOut K)) = pruneOut K (concatM rs) := by
  induction rs with
  | nil => rfl
  | cons x rs ih =>
    rw [List.map_cons, concatM, concatM, ih]
    cases x with
    | error e => rfl
    | ok a =>
      cases concatM rs with
      | error e => rfl
      | ok b => simp [pruneOut, bind, Except.bind]

theorem prune_scalarEq (K : Str → Bool) (a b : Json) (ha : Scalar a) : Json.scalarEq a (prune K b) = Json.scalarEq a b := by
  cases b with
  | arr l => cases a <;> first | rfl | exact absurd ha (by simp [Scalar])
  | obj l => cases a <;> first | rfl | exact absurd ha (by simp [Scalar])
  | _ => rfl

/-- **C19**: keys outside `include`, or inside `exclude`, never influence the outcome, at any depth: without
them, the reports are the same (a value quoted in a report comes without them, too) and so are the
exceptions.  Partial: not for lists of lists that hold dicts, because those are sorted by all their contents. -/
theorem C19_keys_ignored_partial (S : Sorter) (inc exc : List Str) (a b : Json) (base : Str)
    (ha : FlatLists a) (hb : FlatLists b) :
    compareContainer S inc exc (prune (Counts inc exc ·) a) (prune (Counts inc exc ·) b) base =
      pruneOut (Counts inc exc ·) (compareContainer S inc exc a b base) := by
  have hcounts : (fun k => decide (Counts inc exc k)) = keepKey inc exc := by
    funext k
    rw [Bool.eq_iff_iff, decide_eq_true_iff, keepKey_iff]
  rw [hcounts]
  generalize hK : keepKey inc exc = K
  suffices H : ∀ n a b base, a.height ≤ n → FlatLists a → FlatLists b →
      compareContainer S inc exc (prune K a) (prune K b) base = pruneOut K (compareContainer S inc exc a b base) from
    H _ a b base (Nat.le_refl _) ha hb
  intro n
  induction n with
  | zero => intro a b base hn; have := height_pos a; omega
  | succ n ih =>
    intro a b base hn ha hb
    cases a with
    | obj d =>
      cases b with
      | obj e =>
        rw [prune, prune, cc_obj, cc_obj, pruneD_keys, pruneD_keys, hK]
        have hff : ∀ l : List Str, (l.filter K).filter K = l.filter K := by intro l; simp [List.filter_filter]
        dsimp only
        rw [hff, hff]
        have hmap : (((Dict.keys d).filter K).filter (fun k => ((Dict.keys e).filter K).contains k)).map (fun k =>
              compareContainer S inc exc (Json.at (pruneD K d) k) (Json.at (pruneD K e) k) (jpCompose [k] (some base))) =
            ((((Dict.keys d).filter K).filter (fun k => ((Dict.keys e).filter K).contains k)).map (fun k =>
              compareContainer S inc exc (Json.at d k) (Json.at e k) (jpCompose [k] (some base)))).map (pruneOut K) := by
          rw [List.map_map]
          refine List.map_congr_left (fun k hk => ?_)
          rw [List.mem_filter, List.contains_iff_mem] at hk
          have k1 := List.mem_filter.1 hk.1
          have k2 := List.mem_filter.1 hk.2
          have g1 := at_eq k1.1
          have g2 := at_eq k2.1
          have p1 : Json.at (pruneD K d) k = prune K (Json.at d k) := at_of_get (by rw [pruneD_get _ _ _ k1.2, g1]; rfl)
          have p2 : Json.at (pruneD K e) k = prune K (Json.at e k) := at_of_get (by rw [pruneD_get _ _ _ k2.2, g2]; rfl)
          rw [p1, p2, Function.comp_apply]
          refine ih _ _ _ ?_ (flat_key ha g1) (flat_key hb g2)
          have := heightD_le g1
          rw [Json.height] at hn; omega
        rw [hmap, pruneOut_concatM]
        cases concatM _ with
        | error e => rfl
        | ok r => simp [pruneOut, bind, Except.bind, pruneDiff, pruneSeen, Function.comp_def]
      | _ =>
        rw [show prune K (.obj d) = .obj (pruneD K d) from rfl, cc_obj_other _ (by simp [prune]), cc_obj_other _ (by simp)]
        simp [pruneOut, pruneDiff, pruneSeen, prune_type]
    | arr l =>
      cases b with
      | arr m =>
        cases l with
        | nil =>
          cases m with
          | nil => rfl
          | cons y m =>
            rw [prune, prune, pruneL, pruneL, cc_nil_cons, cc_nil_cons, pruneL_map]
            simp [pruneOut, pruneDiff, pruneSeen]
        | cons x l =>
          cases m with
          | nil =>
            rw [prune, prune, pruneL, pruneL, cc_cons_nil, cc_cons_nil, pruneL_map]
            simp [pruneOut, pruneDiff, pruneSeen]
          | cons y m =>
            rw [prune, prune, pruneL_map, pruneL_map, List.map_cons, List.map_cons, cc_arr, cc_arr]
            by_cases h1 : (x :: l).length ≠ (y :: m).length
            · rw [if_pos (by simpa using h1), if_pos h1]
              simp [pruneOut, pruneDiff, pruneSeen]
            · rw [if_neg (by simpa using h1), if_neg h1]
              have t1 := prune_sameTypes K (x :: l)
              have t2 := prune_sameTypes K (y :: m)
              rw [List.map_cons] at t1 t2
              rw [t1, t2, prune_kinds]
              by_cases h2 : (!sameTypes (x :: l) || !sameTypes (y :: m)) = true
              · rw [if_pos h2, if_pos h2]; rfl
              · rw [if_neg h2, if_neg h2]
                by_cases h3 : (!kindsAgree x y) = true
                · rw [if_pos h3, if_pos h3]; simp [pruneOut, pruneDiff, pruneSeen, prune_type]
                · rw [if_neg h3, if_neg h3]
                  have h2' : sameTypes (x :: l) = true ∧ sameTypes (y :: m) = true := by simpa using h2
                  have h3' : kindsAgree x y = true := by simpa using h3
                  have hsort : ∀ z : List Json, FlatLists (.arr z) → (x.isObj = false → ∀ a ∈ z, a.isObj = false) →
                      toSort S (prune K x) (z.map (prune K)) = (toSort S x z).map (List.map (prune K)) := by
                    intro z hz hzo
                    unfold toSort
                    rw [prune_isObj]
                    by_cases hx : x.isObj = true
                    · rw [if_pos hx, if_pos hx]; rfl
                    · rw [if_neg hx, if_neg hx]
                      have hfix : ∀ a ∈ z, prune K a = a := by
                        intro a ha
                        cases a with
                        | obj d => exact absurd (hzo (by simpa using hx) _ ha) (by simp [Json.isObj])
                        | arr m => exact prune_noObj K _ _ (Nat.le_refl _) (hz z (.here _) _ ha m rfl)
                        | _ => rfl
                      have : z.map (prune K) = z := by
                        have : z.map (prune K) = z.map id := List.map_congr_left hfix
                        rw [this, List.map_id]
                      rw [this]
                      cases hs : S.sort z with
                      | error e => rfl
                      | ok r =>
                        simp only [Except.map]
                        have : r.map (prune K) = r.map id := List.map_congr_left (fun a ha => hfix a ((S.perm hs).subset ha))
                        rw [this, List.map_id]
                  have hobj : ∀ (w : Json) (z : List Json), sameTypes (w :: z) = true → w.isObj = false → ∀ a ∈ w :: z, a.isObj = false := by
                    intro w z hz hw a ha
                    have := sameTypes_iff.1 hz a ha w List.mem_cons_self
                    cases a with
                    | obj d => cases w <;> simp [Json.typeName, Json.isObj] at this hw
                    | _ => rfl
                  have hxy : x.isObj = false → y.isObj = false := by
                    intro hx
                    cases y with
                    | obj d => cases x <;> simp [Json.isObj, kindsAgree, Json.typeName, Json.isStr, Json.isInt] at hx h3'
                    | _ => rfl
                  have s1 := hsort (x :: l) ha (hobj x l h2'.1)
                  have s2 := hsort (y :: m) hb (fun hx => hobj y m h2'.2 (hxy hx))
                  rw [List.map_cons] at s1 s2
                  rw [s1, s2]
                  cases e1 : toSort S x (x :: l) with
                  | error e => rfl
                  | ok l' =>
                    cases e2 : toSort S x (y :: m) with
                    | error e => rfl
                    | ok m' =>
                      simp only [Except.map, bind, Except.bind]
                      rw [← pruneOut_concatM, List.map_map, List.zip_map, List.zipIdx_map, List.map_map]
                      refine congrArg _ (List.map_congr_left (fun p hp => ?_))
                      obtain ⟨⟨a, b⟩, i⟩ := p
                      rw [List.mem_zipIdx_iff_getElem?] at hp
                      have hp := List.getElem?_zip_eq_some.1 hp
                      have m1 : a ∈ x :: l := (toSort_perm e1).subset (List.mem_of_getElem? hp.1)
                      have m2 : b ∈ y :: m := (toSort_perm e2).subset (List.mem_of_getElem? hp.2)
                      refine ih a b _ ?_ (flat_elem ha m1) (flat_elem hb m2)
                      have := heightL_le m1
                      rw [Json.height] at hn; omega
      | _ =>
        rw [show prune K (.arr l) = .arr (pruneL K l) from rfl, cc_arr_other _ (by simp [prune]), cc_arr_other _ (by simp)]
        simp [pruneOut, pruneDiff, pruneSeen, prune_type]
    | _ =>
      simp only [prune]
      rw [cc_scalar (by simp [Scalar]), cc_scalar (by simp [Scalar]), prune_scalarEq _ _ _ (by simp [Scalar])]
      split
      · rfl
      · simp [pruneOut, pruneDiff, pruneSeen, prune]

/-! ### A sorter, and instances -/

/-- Numeric order. -/
def numLt (a b : Json) : Bool :=
  match a.num?, b.num? with
  | some x, some y => decide (x.1 * (10 : Int) ^ y.2 < y.1 * (10 : Int) ^ x.2)
  | _, _ => false

/-- Sorts strings or numbers; other lists only when there is nothing to compare. -/
def simpleSort (l : List Json) : R (List Json) :=
  if l.all Json.isStr then .ok ((sortBy (fun a b => decide (a < b)) (l.filterMap Json.asStr?)).map .str)
  else if l.all (fun j => j.num?.isSome) then .ok (sortBy numLt l)
  else if l.length ≤ 1 then .ok l
  else .error .typeError

theorem jeq_isStr {a b : Json} (h : JEq a b) : b.isStr = a.isStr := by cases h <;> rfl

theorem jeq_num {a b : Json} (h : JEq a b) : b.num? = a.num? := by cases h <;> rfl

theorem forall₂_all {p : Json → Bool} (hp : ∀ a b, JEq a b → p b = p a) {l m : List Json} (h : List.Forall₂ JEq l m) :
    m.all p = l.all p := by
  induction h with
  | nil => rfl
  | cons h _ ih => rw [List.all_cons, List.all_cons, ih, hp _ _ h]

theorem forall₂_scalar {l m : List Json} (h : List.Forall₂ JEq l m) (hs : ∀ x ∈ l, Scalar x) : m = l := by
  induction h with
  | nil => rfl
  | cons h _ ih =>
    rw [jeq_scalar_inv (hs _ List.mem_cons_self) h, ih (fun x hx => hs x (List.mem_cons_of_mem _ hx))]

theorem forall₂_refl (l : List Json) : List.Forall₂ JEq l l := by
  induction l with
  | nil => exact .nil
  | cons x l ih => exact .cons (.refl x) ih

theorem strLt_weak : StrictWeak (fun a b : Str => decide (a < b)) where
  asymm a b h := by
    simp only [decide_eq_true_eq, decide_eq_false_iff_not] at h ⊢
    exact List.lt_asymm h
  negtrans a b c h1 h2 := by
    simp only [decide_eq_false_iff_not] at h1 h2 ⊢
    exact List.le_trans (l₁ := c) (l₂ := b) (l₃ := a) h2 h1

theorem allStr_map {l : List Json} (h : l.all Json.isStr = true) : (l.filterMap Json.asStr?).map Json.str = l := by
  induction l with
  | nil => rfl
  | cons x l ih =>
    rw [List.all_cons, Bool.and_eq_true] at h
    cases x <;> simp [Json.isStr] at h
    simp [Json.asStr?, ih (List.all_eq_true.2 h)]

/-- The sorter behaves as CPython's on strings and numbers. -/
def simpleSorter : Sorter where
  sort := simpleSort
  perm := by
    intro l m h
    unfold simpleSort at h
    split at h
    · rename_i hs
      cases h
      have := (sortBy_perm (fun a b : Str => decide (a < b)) (l.filterMap Json.asStr?)).map Json.str
      rwa [allStr_map hs] at this
    · split at h
      · cases h; exact sortBy_perm _ _
      · split at h
        · cases h; exact .refl _
        · cases h
  typeError := by
    intro l e h
    unfold simpleSort at h
    split at h
    · cases h
    · split at h
      · cases h
      · split at h
        · cases h
        · cases h; rfl
  reorder := by
    intro l m h
    unfold simpleSort
    rw [forall₂_all (fun a b => jeq_isStr) h, forall₂_all (p := fun j => j.num?.isSome) (fun a b hj => by rw [jeq_num hj]) h,
      ← jeq_length h]
    split
    · rename_i hs
      have : m = l := forall₂_scalar h (fun x hx => by
        have := List.all_eq_true.1 hs x hx
        cases x <;> simp [Json.isStr] at this
        trivial)
      subst this
      exact .inl ⟨_, _, rfl, rfl, forall₂_refl _⟩
    · split
      · rename_i hs
        have : m = l := forall₂_scalar h (fun x hx => by
          have := List.all_eq_true.1 hs x hx
          cases x <;> first | trivial | simp [Json.num?] at this)
        subst this
        exact .inl ⟨_, _, rfl, rfl, forall₂_refl _⟩
      · split
        · exact .inl ⟨_, _, rfl, rfl, h⟩
        · exact .inr ⟨rfl, rfl⟩
  strings := by
    intro l m hs hp
    have h1 : l.all Json.isStr = true := List.all_eq_true.2 (fun x hx => by obtain ⟨s, rfl⟩ := hs x hx; rfl)
    have h2 : m.all Json.isStr = true := List.all_eq_true.2 (fun x hx => by
      obtain ⟨s, rfl⟩ := hs x (hp.symm.subset hx); rfl)
    refine ⟨(sortBy (fun a b => decide (a < b)) (l.filterMap Json.asStr?)).map .str, ?_, ?_⟩
    · unfold simpleSort; rw [if_pos h1]
    · unfold simpleSort; rw [if_pos h2]
      congr 2
      have p := ((sortBy_perm (fun a b : Str => decide (a < b)) (m.filterMap Json.asStr?)).trans
        ((hp.filterMap Json.asStr?).symm)).trans
        (sortBy_perm (fun a b : Str => decide (a < b)) (l.filterMap Json.asStr?)).symm
      refine List.Perm.eq_of_pairwise ?_ (sortBy_sorted strLt_weak _) (sortBy_sorted strLt_weak _) p
      intro a b _ _ hab hba
      simp only [decide_eq_false_iff_not] at hab hba
      exact List.le_antisymm hab hba

/-- A document for the instances below. -/
def containerDoc : Json := .obj [(s% "a", .arr [.str (s% "y"), .str (s% "x")]), (s% "b", .arr [.obj [(s% "c", .int 1)]]), (s% "d", .null)]

/-- The same in another key order. -/
def containerDoc' : Json := .obj [(s% "d", .null), (s% "b", .arr [.obj [(s% "c", .int 1)]]), (s% "a", .arr [.str (s% "y"), .str (s% "x")])]

example : compareContainer simpleSorter [] [] containerDoc containerDoc' [] = .ok [] := by decide +kernel

/-- Mixed types raise, even in equal values. -/
theorem C17_mixed_raises : compareContainer simpleSorter [] [] (.arr [.int 1, .str (s% "a")]) (.arr [.int 1, .str (s% "a")]) [] =
    .error .valueError := by decide +kernel

/-- The reports, in another document: an added key, a removed key, a changed value, a length. -/
example : compareContainer simpleSorter [] []
    (.obj [(s% "a", .int 1), (s% "b", .int 2), (s% "l", .arr [.int 1])])
    (.obj [(s% "a", .int 3), (s% "c", .int 2), (s% "l", .arr [])]) (s% "#") =
    .ok [(s% "#/c", .nothing, .nothing), (s% "#/b", .nothing, .nothing), (s% "#/a", .val (.int 1), .val (.int 3)),
      (s% "#/l", .len 1, .len 0)] := by decide +kernel

example : compareContainer simpleSorter [] [s% "x"]
    (.obj [(s% "x", .int 1), (s% "b", .obj [(s% "x", .int 1)])]) (.obj [(s% "b", .obj [])]) [] = .ok [] := by decide +kernel

/-- A bool and the integer it equals are not told apart. -/
theorem C18_bool_violation : compareContainer simpleSorter [] [] (.arr [.bool true]) (.arr [.int 1]) [] = .ok [] := by
  decide +kernel

end Pyopenapi
