import Verif.Lemmas.RefCalls

/-! # What the normalization of references leaves -/

namespace Pyopenapi.Refs
open _root_.Pyopenapi.Spec _root_.Pyopenapi.Refs.Spec Obj

variable {α W : Type}

/-- The class has a plain field `$ref`. -/
def refField (c : Str) : Bool := !Dict.has (pkg c).children (s% "$ref") &&
  match Dict.get? (pkg c).fields (s% "$ref") with
  | some fd => !fd.restricted && fd.default = .null
  | none => false

theorem refField2 {c : Str} (h : c ∈ normClasses2) : refField c = true :=
  List.all_eq_true.1 (show normClasses2.all refField = true by decide +kernel) c h

theorem refField3 {c : Str} (h : c ∈ normClasses3) : refField c = true :=
  List.all_eq_true.1 (show normClasses3.all refField = true by decide +kernel) c h

theorem refOf_get {c : Str} {q : Option Str} {d : Dict Json} {kids : Dict Obj} {v : Json} (hc : refField c = true)
    (h : Dict.get? d (s% "$ref") = some v) : refOf (.base c q (.obj d) kids) = .ok v := by
  unfold refField at hc
  rw [Bool.and_eq_true] at hc
  obtain ⟨h1, h2⟩ := hc
  simp only [refOf, Obj.getattr]
  rw [if_neg (by simpa using h1)]
  cases hg : Dict.get? (pkg c).fields (s% "$ref") with
  | none => rw [hg] at h2; cases h2
  | some fd =>
    rw [hg] at h2
    simp only [Bool.and_eq_true] at h2
    simp only [readField, specGet, h]
    rw [if_neg (by simpa using h2.1)]
    rfl

theorem refOf_str {c : Str} {q : Option Str} {spec : Json} {kids : Dict Obj} {r : Str} (hc : refField c = true)
    (h : refOf (.base c q spec kids) = .ok (.str r)) : ∃ d, spec = .obj d ∧ Dict.get? d (s% "$ref") = some (.str r) := by
  unfold refField at hc
  rw [Bool.and_eq_true] at hc
  obtain ⟨h1, h2⟩ := hc
  simp only [refOf, Obj.getattr] at h
  rw [if_neg (by simpa using h1)] at h
  cases hg : Dict.get? (pkg c).fields (s% "$ref") with
  | none => rw [hg] at h2; cases h2
  | some fd =>
    rw [hg] at h2 h
    simp only [Bool.and_eq_true, decide_eq_true_eq] at h2
    simp only at h
    cases hr : readField fd spec (s% "$ref") with
    | error e => rw [hr] at h; cases h
    | ok v =>
      rw [hr] at h
      simp only [bind, Except.bind, Except.ok.injEq] at h
      subst h
      unfold readField at hr
      cases hs : specGet spec (s% "$ref") with
      | error e => rw [hs] at hr; cases hr
      | ok o =>
        rw [hs] at hr
        cases o with
        | none =>
          simp only at hr
          split at hr
          · cases hr
          · rw [h2.2] at hr; cases hr
        | some v =>
          simp only at hr
          split at hr
          · cases hr
          · cases hr
            cases spec with
            | obj d => simp only [specGet, Except.ok.injEq] at hs; exact ⟨d, rfl, hs⟩
            | arr l => simp only [specGet] at hs; split at hs <;> cases hs
            | str l => simp only [specGet] at hs; split at hs <;> cases hs
            | _ => simp [specGet] at hs

theorem put_self (s : St α W) (ts : List Str) (a : Attrs α) : (s.put ts a).attrs ts = a := by simp [St.put]

theorem put_ne (s : St α W) {ts us : List Str} (a : Attrs α) (h : us ≠ ts) : (s.put ts a).attrs us = s.attrs us := by
  simp [St.put, h]

/-- What the scan leaves at the place of one object. -/
def NormAt (env : Env α W) (classes : List Str) (x : Obj) (a a' : Attrs α) : Prop :=
  (∀ r, Refers classes x r → ∃ n, normalizeJr env.ok (some r) (some env.url) = .ok n ∧ a' = { a with normalized := n }) ∧
  ((∀ r, ¬ Refers classes x r) → a' = a)

/-- The handler of an object. -/
def normStep (env : Env α W) (classes : List Str) (s : St α W) (v : List Str × Obj) : R (St α W) :=
  match v.2.className? with
  | some c => if c ∈ classes then normalizeOne env v.1 v.2 s else .ok s
  | none => .ok s

theorem normalizeAll_eq (env : Env α W) (classes : List Str) (L : List (List Str × Obj)) (s : St α W) :
    normalizeAll env classes L s = L.foldlM (normStep env classes) s := rfl

theorem normStep_ok {env : Env α W} {classes : List Str} (hf : ∀ c ∈ classes, refField c = true) {s s' : St α W} {ts : List Str} {x : Obj}
    (h : normStep env classes s (ts, x) = .ok s') :
    s'.world = s.world ∧ (∀ us, us ≠ ts → s'.attrs us = s.attrs us) ∧ NormAt env classes x (s.attrs ts) (s'.attrs ts) := by
  have skip : s' = s → (∀ r, ¬ Refers classes x r) → s'.world = s.world ∧ (∀ us, us ≠ ts → s'.attrs us = s.attrs us) ∧
      NormAt env classes x (s.attrs ts) (s'.attrs ts) := by
    rintro rfl hn
    exact ⟨rfl, fun _ _ => rfl, fun r hr => absurd hr (hn r), fun _ => rfl⟩
  unfold normStep at h
  cases x with
  | base c q spec kids =>
    simp only [className?] at h
    by_cases hc : c ∈ classes
    · rw [if_pos hc] at h
      unfold normalizeOne at h
      obtain ⟨v, hv, h⟩ := bindOk h
      by_cases ht : v.truthy = true
      · rw [if_pos ht] at h
        cases v with
        | str r =>
          simp only at h
          obtain ⟨n, hn, h⟩ := bindOk h
          cases h
          obtain ⟨d, rfl, hd⟩ := refOf_str (hf c hc) hv
          have hr : Refers classes (.base c q (.obj d) kids) r := ⟨c, q, d, kids, rfl, hc, hd, by
            rintro rfl; cases ht⟩
          refine ⟨rfl, fun us hu => put_ne _ _ hu, ?_, fun hno => absurd hr (hno r)⟩
          rintro r' ⟨c', q', d', kids', he, _, hd', _⟩
          cases he
          rw [hd] at hd'; cases hd'
          exact ⟨n, hn, put_self _ _ _⟩
        | _ => cases h
      · rw [if_neg ht] at h
        cases h
        refine skip rfl ?_
        rintro r ⟨c', q', d', kids', he, _, hd', hr⟩
        cases he
        rw [refOf_get (hf c hc) hd'] at hv
        cases hv
        cases r with
        | nil => exact hr rfl
        | cons _ _ => exact ht rfl
    · rw [if_neg hc] at h
      cases h
      refine skip rfl ?_
      rintro r ⟨c', q', d', kids', he, hc', _⟩
      cases he; exact hc hc'
  | _ =>
    cases h
    refine skip rfl ?_
    rintro r ⟨c', q', d', kids', he, hc', _⟩
    cases he

/-- `NormalizeRef` on a whole document. -/
theorem normalizeAll_at {env : Env α W} {classes : List Str} (hf : ∀ c ∈ classes, refField c = true) :
    ∀ {L : List (List Str × Obj)} {s s' : St α W}, (L.map Prod.fst).Nodup → normalizeAll env classes L s = .ok s' →
    s'.world = s.world ∧ (∀ ts x, (ts, x) ∈ L → NormAt env classes x (s.attrs ts) (s'.attrs ts)) ∧
      (∀ ts, ts ∉ L.map Prod.fst → s'.attrs ts = s.attrs ts) := by
  intro L
  induction L with
  | nil =>
    intro s s' _ h
    rw [normalizeAll_eq] at h; cases h
    exact ⟨rfl, by simp, fun _ _ => rfl⟩
  | cons v L ih =>
    intro s s' hnd h
    rw [normalizeAll_eq, List.foldlM_cons] at h
    obtain ⟨s1, h1, h2⟩ := bindOk h
    rw [← normalizeAll_eq] at h2
    obtain ⟨ts0, x0⟩ := v
    rw [List.map_cons, List.nodup_cons] at hnd
    obtain ⟨hw, hout, hat⟩ := normStep_ok hf h1
    obtain ⟨hw', hat', hout'⟩ := ih hnd.2 h2
    refine ⟨hw'.trans hw, ?_, ?_⟩
    · intro ts x hm
      rcases List.mem_cons.1 hm with e | hm2
      · cases e; rw [hout' _ hnd.1]; exact hat
      · have hne : ts ≠ ts0 := by
          intro e
          have hm3 := List.mem_map_of_mem (f := Prod.fst) hm2
          rw [e] at hm3
          exact hnd.1 hm3
        rw [← hout ts hne]
        exact hat' ts x hm2
    · intro ts hn
      rw [List.map_cons, List.mem_cons, not_or] at hn
      rw [hout' ts hn.2, hout ts hn.1]

end Pyopenapi.Refs
