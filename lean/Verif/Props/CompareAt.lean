import Verif.Spec.CompareAt
import Verif.Props.Compare
import Verif.Lemmas.Pieces

/-!
# C114: where `compare` says two objects differ, they do
-/

namespace Pyopenapi
open Obj Spec

variable {T : Table}

theorem step_false {r k : R (Bool × Str)} {loc : Str}
    (h : (do let r ← r; if r.1 then k else .ok r) = .ok (false, loc)) : r = .ok (false, loc) ∨ k = .ok (false, loc) := by
  cases r with
  | error e => cases h
  | ok q =>
    obtain ⟨b, s⟩ := q
    cases b with
    | false => exact .inl h
    | true => exact .inr h

theorem allSame_false {α : Type} {f : α → R (Bool × Str)} {l : List α} {loc : Str} (h : allSame f l = .ok (false, loc)) :
    ∃ x ∈ l, f x = .ok (false, loc) := by
  induction l with
  | nil => simp [allSame] at h
  | cons x l ih =>
    rw [allSame] at h
    rcases step_false h with h | h
    · exact ⟨x, by simp, h⟩
    · obtain ⟨y, hy, h⟩ := ih h; exact ⟨y, List.mem_cons_of_mem _ hy, h⟩

theorem missingKey_some {α β : Type} {d : Dict α} {e : Dict β} {k : Str} (h : missingKey d e = some k) :
    Dict.get? d k ≠ none ∧ Dict.get? e k = none := by
  obtain ⟨h1, h2⟩ := List.find?_eq_some_iff_append.1 h
  refine ⟨fun hn => Dict.get?_eq_none_iff.1 hn (List.mem_of_find?_eq_some h), ?_⟩
  simp only [Dict.has] at h1
  cases hg : Dict.get? e k with
  | none => rfl
  | some v => rw [hg] at h1; simp at h1

theorem scalar_false {u v : Json} (hu : isStrInt u = true ∨ ∃ m e, u = .flt m e) (h : Json.scalarEq u v = false) : ¬ PyEq u v :=
  fun hp => by rw [(scalarEq_iff hu).2 hp] at h; cases h

theorem rawL_false {name loc : Str} {l m : List Json} {i : Nat}
    (ih : ∀ x ∈ l, ∀ nm y loc, cmpRaw nm x y = .ok (false, loc) → ∃ ts, RawDiffers x y ts ∧ loc = placeAt (some nm) ts)
    (h : cmpRawL name l m i = .ok (false, loc)) :
    ∃ (n : Nat) (x y : Json) (ts : List Str), l[n]? = some x ∧ m[i + n]? = some y ∧ RawDiffers x y ts ∧
      loc = placeAt (some name) (Str.ofNat (i + n) :: ts) := by
  induction l generalizing i with
  | nil => simp [cmpRawL] at h
  | cons x l ihl =>
    rw [cmpRawL] at h
    cases hm : m[i]? with
    | none => rw [hm] at h; cases h
    | some y =>
      rw [hm] at h
      rcases step_false h with h | h
      · obtain ⟨ts, h1, h2⟩ := ih x (by simp) _ _ _ h
        exact ⟨0, x, y, ts, by simp, by simpa using hm, h1, by simpa [placeAt] using h2⟩
      · obtain ⟨n, x', y', ts, h1, h2, h3, h4⟩ := ihl (fun z hz => ih z (List.mem_cons_of_mem _ hz)) h
        have e : i + 1 + n = i + (n + 1) := by omega
        exact ⟨n + 1, x', y', ts, by simpa using h1, by rw [← e]; exact h2, h3, by rw [← e]; exact h4⟩

theorem rawD_false {name loc : Str} {d : List (Str × Json)} {e : Dict Json}
    (ih : ∀ q ∈ d, ∀ nm y loc, cmpRaw nm q.2 y = .ok (false, loc) → ∃ ts, RawDiffers q.2 y ts ∧ loc = placeAt (some nm) ts)
    (h : cmpRawD name d e = .ok (false, loc)) :
    ∃ k x y ts, (k, x) ∈ d ∧ Dict.get? e k = some y ∧ RawDiffers x y ts ∧ loc = placeAt (some name) (k :: ts) := by
  induction d with
  | nil => simp [cmpRawD] at h
  | cons q d ihd =>
    obtain ⟨k, x⟩ := q
    rw [cmpRawD] at h
    cases he : Dict.get? e k with
    | none => rw [he] at h; cases h
    | some y =>
      rw [he] at h
      rcases step_false h with h | h
      · obtain ⟨ts, h1, h2⟩ := ih (k, x) (by simp) _ _ _ h
        exact ⟨k, x, y, ts, by simp, he, h1, h2⟩
      · obtain ⟨k', x', y', ts, h1, h2⟩ := ihd (fun z hz => ih z (List.mem_cons_of_mem _ hz)) h
        exact ⟨k', x', y', ts, List.mem_cons_of_mem _ h1, h2⟩

/-- Where `_cmp_` says two raw values differ, they do. -/
theorem raw_false (name : Str) (u v : Json) (loc : Str) (h : cmpRaw name u v = .ok (false, loc)) :
    ∃ ts, RawDiffers u v ts ∧ loc = placeAt (some name) ts := by
  match u with
  | .null =>
    simp only [cmpRaw, Except.ok.injEq, Prod.mk.injEq, decide_eq_false_iff_not] at h
    refine ⟨[], .value (.inl fun hp => ?_), h.2.symm⟩
    cases hp with
    | num h1 => simp [number?] at h1
    | null => exact h.1 rfl
  | .bool x =>
    simp only [cmpRaw, Except.ok.injEq, Prod.mk.injEq] at h
    exact ⟨[], .value (.inl (scalar_false (.inl rfl) h.1)), h.2.symm⟩
  | .int x =>
    simp only [cmpRaw, Except.ok.injEq, Prod.mk.injEq] at h
    exact ⟨[], .value (.inl (scalar_false (.inl rfl) h.1)), h.2.symm⟩
  | .str x =>
    simp only [cmpRaw, Except.ok.injEq, Prod.mk.injEq] at h
    exact ⟨[], .value (.inl (scalar_false (.inl rfl) h.1)), h.2.symm⟩
  | .flt m e =>
    cases v with
    | flt m' e' =>
      simp only [cmpRaw, Except.ok.injEq, Prod.mk.injEq] at h
      exact ⟨[], .value (.inl (scalar_false (.inr ⟨m, e, rfl⟩) h.1)), h.2.symm⟩
    | _ =>
      simp only [cmpRaw, Except.ok.injEq, Prod.mk.injEq] at h
      exact ⟨[], .value (.inr (by intro hh; simp [Json.typeName] at hh)), h.2.symm⟩
  | .arr l =>
    cases v with
    | arr m =>
      simp only [cmpRaw] at h
      obtain ⟨n, x, y, ts, h1, h2, h3, h4⟩ := rawL_false (fun x hx nm y loc => raw_false nm x y loc) h
      rw [Nat.zero_add] at h2 h4
      exact ⟨_, .elem h1 h2 h3, h4⟩
    | _ =>
      simp only [cmpRaw, Except.ok.injEq, Prod.mk.injEq] at h
      exact ⟨[], .value (.inr (by intro hh; simp [Json.typeName] at hh)), h.2.symm⟩
  | .obj d =>
    cases v with
    | obj e =>
      simp only [cmpRaw] at h
      cases h1 : missingKey d e with
      | some k =>
        rw [h1] at h
        obtain ⟨h2, h3⟩ := missingKey_some h1
        cases h
        exact ⟨[k], .onlyLeft h2 h3, rfl⟩
      | none =>
        rw [h1] at h
        cases h2 : missingKey e d with
        | some k =>
          rw [h2] at h
          obtain ⟨h3, h4⟩ := missingKey_some h2
          cases h
          exact ⟨[k], .onlyRight h4 h3, rfl⟩
        | none =>
          rw [h2] at h
          obtain ⟨k, x, y, ts, h3, h4, h5, h6⟩ := rawD_false (fun q hq nm y loc => raw_false nm q.2 y loc) h
          exact ⟨_, .key h3 h4 h5, h6⟩
    | _ =>
      simp only [cmpRaw, Except.ok.injEq, Prod.mk.injEq] at h
      exact ⟨[], .value (.inr (by intro hh; simp [Json.typeName] at hh)), h.2.symm⟩
termination_by sizeOf u
decreasing_by
  · have := size_elem hx; simpa using this
  · have : (q.1, q.2) ∈ d := hq
    have := size_item this; simpa using this

/-- The place that has been said, or none where two lists of another length or elements of another kind are, or the two
objects themselves are of another kind. -/
def Said (T : Table) (x y : Obj) (base : Option Str) (loc : Str) : Prop :=
  (∃ ts, ApartAt T (Different T) x y ts ∧ loc = placeAt base ts) ∨ (loc = [] ∧ ((∃ ts, ApartAt T Misshapen x y ts) ∨ ¬ OfOneKind x y))

/-- As `Said`, for two values of one kind. -/
def SaidIn (T : Table) (x y : Obj) (base : Option Str) (loc : Str) : Prop :=
  (∃ ts, ApartAt T (Different T) x y ts ∧ loc = placeAt base ts) ∨ (loc = [] ∧ ∃ ts, ApartAt T Misshapen x y ts)

theorem SaidIn.said {x y : Obj} {base : Option Str} {loc : Str} (h : SaidIn T x y base loc) : Said T x y base loc :=
  h.imp_right fun h => ⟨h.1, .inl h.2⟩

theorem sameType_true {x y : Obj} (h : sameType x y = true) : OfOneKind x y := by
  cases x <;> cases y <;> simp [sameType] at h <;> (try subst h) <;> constructor

theorem sameType_false {x y : Obj} (h : sameType x y = false) (hx : x.isPrim = false) : ¬ OfOneKind x y := by
  intro ha
  cases ha <;> simp [sameType, Obj.isPrim] at h hx

theorem val_false {name loc : Str} {x y : Obj}
    (ih : x.isPrim = false → ∀ base loc, compare T x y base = .ok (false, loc) → Said T x y base loc)
    (h : cmpVal T name x y = .ok (false, loc)) : SaidIn T x y (some name) loc := by
  rw [cmpVal.eq_def] at h
  have other : x.isPrim = false → (if sameType x y then compare T x y (some name) else .ok (false, name)) = .ok (false, loc) →
      SaidIn T x y (some name) loc := by
    intro hx h
    by_cases hs : sameType x y = true
    · rw [if_pos hs] at h
      exact (ih hx _ _ h).imp_right fun hh => ⟨hh.1, hh.2.resolve_right fun hn => hn (sameType_true hs)⟩
    · rw [if_neg hs] at h
      cases h
      exact .inl ⟨[], .here (.kind (sameType_false (by simpa using hs) hx)), rfl⟩
  cases x with
  | prim u =>
    cases y with
    | prim v =>
      obtain ⟨ts, h1, h2⟩ := raw_false _ _ _ _ h
      exact .inl ⟨ts, .here (.raw h1), h2⟩
    | _ =>
      simp only [Except.ok.injEq, Prod.mk.injEq, true_and] at h
      subst h
      exact .inl ⟨[], .here (.kind (by intro h; cases h)), rfl⟩
  | base _ _ _ _ => exact other rfl h
  | list _ _ _ _ => exact other rfl h
  | map _ _ _ _ => exact other rfl h

theorem eqAny_false {j : Json} {y : Obj} (hj : isStrInt j = true) (h : eqAny j y = false) : Different T (.prim j) y [] := by
  cases y with
  | prim v => exact .raw (.value (.inl (scalar_false (.inl hj) h)))
  | _ => exact .kind (by intro h; cases h)

theorem elems_false {es es' : List Obj} {i : Nat} {base : Option Str} {loc : Str}
    (ih : ∀ x ∈ es, x.isPrim = false → ∀ y base loc, compare T x y base = .ok (false, loc) → Said T x y base loc)
    (h : cmpElems T es es' i base = .ok (false, loc)) :
    ∃ (n : Nat) (x y : Obj), es[n]? = some x ∧ es'[n]? = some y ∧ Said T x y (some (jpCompose [Str.ofNat (i + n)] base)) loc := by
  induction es generalizing es' i with
  | nil => rw [cmpElems.eq_def] at h; simp at h
  | cons x es ihe =>
    cases es' with
    | nil => rw [cmpElems.eq_def] at h; simp at h
    | cons y es' =>
      rw [cmpElems.eq_def] at h
      have obj : x.isPrim = false → (do let r ← compare T x y (some (jpCompose [Str.ofNat i] base)); if r.1 then cmpElems T es es' (i + 1) base else .ok r) =
          .ok (false, loc) → ∃ (n : Nat) (x1 y1 : Obj), (x :: es)[n]? = some x1 ∧ (y :: es')[n]? = some y1 ∧
            Said T x1 y1 (some (jpCompose [Str.ofNat (i + n)] base)) loc := by
        intro hx h
        rcases step_false h with h | h
        · exact ⟨0, x, y, rfl, rfl, ih x (by simp) hx _ _ _ h⟩
        · obtain ⟨n, x1, y1, h1, h2, h3⟩ := ihe (fun z hz => ih z (List.mem_cons_of_mem _ hz)) h
          have e : i + 1 + n = i + (n + 1) := by omega
          exact ⟨n + 1, x1, y1, by simpa using h1, by simpa using h2, by rw [← e]; exact h3⟩
      cases x with
      | prim j =>
        simp only at h
        split at h
        · rename_i hj
          simp only [Except.ok.injEq, Prod.mk.injEq] at h
          exact ⟨0, _, _, rfl, rfl, .inl ⟨[], .here (eqAny_false hj h.1), h.2.symm⟩⟩
        · cases h
      | base _ _ _ _ => exact obj rfl h
      | list _ _ _ _ => exact obj rfl h
      | map _ _ _ _ => exact obj rfl h

theorem items_false {es es' : Dict Obj} {base : Option Str} {loc : Str}
    (ih : ∀ k x, (k, x) ∈ es → x.isPrim = false → ∀ y base loc, compare T x y base = .ok (false, loc) → Said T x y base loc)
    (h : cmpItems T es es' base = .ok (false, loc)) :
    ∃ k x y, (k, x) ∈ es ∧ Dict.get? es' k = some y ∧ Said T x y (some (jpCompose [k] base)) loc := by
  induction es with
  | nil => rw [cmpItems.eq_def] at h; simp at h
  | cons q es ihe =>
    obtain ⟨k, x⟩ := q
    rw [cmpItems.eq_def] at h
    simp only at h
    cases hg : Dict.get? es' k with
    | none => rw [hg] at h; cases h
    | some y =>
      rw [hg] at h
      have obj : x.isPrim = false → (do let r ← compare T x y (some (jpCompose [k] base)); if r.1 then cmpItems T es es' base else .ok r) =
          .ok (false, loc) → ∃ k1 x1 y1, (k1, x1) ∈ (k, x) :: es ∧ Dict.get? es' k1 = some y1 ∧ Said T x1 y1 (some (jpCompose [k1] base)) loc := by
        intro hx h
        rcases step_false h with h | h
        · exact ⟨k, x, y, by simp, hg, ih k x (by simp) hx _ _ _ h⟩
        · obtain ⟨k1, x1, y1, h1, h2⟩ := ihe (fun k z hz => ih k z (List.mem_cons_of_mem _ hz)) h
          exact ⟨k1, x1, y1, List.mem_cons_of_mem _ h1, h2⟩
      cases x with
      | prim j =>
        simp only at h
        split at h
        · rename_i hj
          simp only [Except.ok.injEq, Prod.mk.injEq] at h
          exact ⟨k, _, y, by simp, hg, .inl ⟨[], .here (eqAny_false hj h.1), h.2.symm⟩⟩
        · cases h
      | base _ _ _ _ => exact obj rfl h
      | list _ _ _ _ => exact obj rfl h
      | map _ _ _ _ => exact obj rfl h

theorem SaidIn.up {x y x' y' : Obj} {t : Str} {base : Option Str} {loc : Str} (h : SaidIn T x y (some (jpCompose [t] base)) loc)
    (hup : ∀ {leaf : Obj → Obj → List Str → Prop} {ts}, ApartAt T leaf x y ts → ApartAt T leaf x' y' (t :: ts)) : SaidIn T x' y' base loc := by
  rcases h with ⟨ts, h1, h2⟩ | ⟨h1, ts, h2⟩
  · exact .inl ⟨t :: ts, hup h1, h2⟩
  · exact .inr ⟨h1, _, hup h2⟩

theorem Said.up {x y x' y' : Obj} {t : Str} {base : Option Str} {loc : Str} (h : Said T x y (some (jpCompose [t] base)) loc)
    (hup : ∀ {leaf : Obj → Obj → List Str → Prop} {ts}, ApartAt T leaf x y ts → ApartAt T leaf x' y' (t :: ts))
    (hkind : ¬ OfOneKind x y → Misshapen x' y' [t]) : Said T x' y' base loc := by
  rcases h with h | ⟨h1, h | h⟩
  · exact (SaidIn.up (.inl h) hup).said
  · exact (SaidIn.up (.inr ⟨h1, h⟩) hup).said
  · exact .inr ⟨h1, .inl ⟨_, .here (hkind h)⟩⟩

/-- Where `compare` says two objects differ, they do. -/
theorem place_said (a b : Obj) (base : Option Str) (loc : Str) (h : compare T a b base = .ok (false, loc)) : Said T a b base loc := by
  match a with
  | .prim _ => rw [compare.eq_def] at h; cases h
  | .base c p s kids =>
    rw [compare.eq_def] at h
    have lost : ¬ OfOneKind (.base c p s kids) b → .ok (false, []) = (Except.ok (false, loc) : R (Bool × Str)) → Said T (.base c p s kids) b base loc := by
      intro hn h
      cases h
      exact .inr ⟨rfl, .inr hn⟩
    cases b with
    | base c' p' s' kids' =>
      simp only at h
      by_cases hc : c = c'
      · subst hc
        rw [if_pos rfl] at h
        rcases step_false h with h | h
        · obtain ⟨⟨k, fd⟩, hm, h⟩ := allSame_false h
          simp only [cmpField, bind, Except.bind] at h
          cases hu : readField fd s k with
          | error e => rw [hu] at h; cases h
          | ok u =>
            rw [hu] at h
            cases hv : readField fd s' k with
            | error e => rw [hv] at h; cases h
            | ok v =>
              rw [hv] at h
              obtain ⟨ts, h1, h2⟩ := raw_false _ _ _ _ h
              exact .inl ⟨k :: ts, .here (.field hm hu hv h1), h2⟩
        · obtain ⟨k, hk, h⟩ := allSame_false h
          have key : SaidIn T ((Dict.get? kids k).getD (.prim .null)) ((Dict.get? kids' k).getD (.prim .null)) (some (jpCompose [k] base)) loc := by
            rw [cmpKid] at h
            split at h
            · rename_i hg
              rw [hg, Option.getD_none]
              cases hg' : Dict.get? kids' k with
              | none => rw [hg'] at h; simp at h
              | some y =>
                rw [Option.getD_some]
                have : loc = jpCompose [k] base := by
                  rw [hg'] at h
                  split at h
                  · cases h
                  · cases h
                  · cases h; rfl
                subst this
                cases y with
                | prim j =>
                  refine .inl ⟨[], .here (.raw (.value (.inl ?_))), rfl⟩
                  intro hp
                  cases hp with
                  | num h1 => simp [number?] at h1
                  | null => rw [hg'] at h; cases h
                | _ => exact .inl ⟨[], .here (.kind (by intro h; cases h)), rfl⟩
            · rename_i x hg
              rw [hg, Option.getD_some]
              refine val_false (fun hx base' loc' h' => place_said x _ base' loc' h') h
          exact (key.up fun hh => .child hk hh).said
      · rw [if_neg hc] at h
        exact lost (by intro ha; cases ha; exact hc rfl) h
    | _ => exact lost (by intro ha; cases ha) h
  | .list bd p s es =>
    rw [compare.eq_def] at h
    have lost : ¬ OfOneKind (.list bd p s es) b → .ok (false, []) = (Except.ok (false, loc) : R (Bool × Str)) → Said T (.list bd p s es) b base loc := by
      intro hn h
      cases h
      exact .inr ⟨rfl, .inr hn⟩
    cases b with
    | list bd' p' s' es' =>
      simp only at h
      by_cases hb : bd = bd'
      · subst hb
        by_cases hl : es.length = es'.length
        · rw [if_pos ⟨rfl, hl⟩] at h
          obtain ⟨n, x, y, h1, h2, h3⟩ := elems_false (fun x hx hp y base loc h' => place_said x y base loc h') h
          rw [Nat.zero_add] at h3
          exact h3.up (fun hh => .elem h1 h2 hh) fun hn => .elem h1 h2 hn
        · rw [if_neg (fun hh => hl hh.2)] at h
          cases h
          exact .inr ⟨rfl, .inl ⟨[], .here (.length hl)⟩⟩
      · rw [if_neg (fun hh => hb hh.1)] at h
        exact lost (by intro ha; cases ha; exact hb rfl) h
    | _ => exact lost (by intro ha; cases ha) h
  | .map bd p s es =>
    rw [compare.eq_def] at h
    have lost : ¬ OfOneKind (.map bd p s es) b → .ok (false, []) = (Except.ok (false, loc) : R (Bool × Str)) → Said T (.map bd p s es) b base loc := by
      intro hn h
      cases h
      exact .inr ⟨rfl, .inr hn⟩
    cases b with
    | map bd' p' s' es' =>
      simp only at h
      by_cases hb : bd = bd'
      · subst hb
        rw [if_pos rfl] at h
        cases h1 : missingKey es es' with
        | some k =>
          rw [h1] at h
          cases h
          obtain ⟨h2, h3⟩ := missingKey_some h1
          exact .inl ⟨[k], .here (.onlyLeft h2 h3), rfl⟩
        | none =>
          rw [h1] at h
          cases h2 : missingKey es' es with
          | some k =>
            rw [h2] at h
            cases h
            obtain ⟨h3, h4⟩ := missingKey_some h2
            exact .inl ⟨[k], .here (.onlyRight h4 h3), rfl⟩
          | none =>
            rw [h2] at h
            obtain ⟨k, x, y, h3, h4, h5⟩ := items_false (fun k x hx hp y base loc h' => place_said x y base loc h') h
            exact h5.up (fun hh => .item h3 h4 hh) fun hn => .item h3 h4 hn
      · rw [if_neg hb] at h
        exact lost (by intro ha; cases ha; exact hb rfl) h
    | _ => exact lost (by intro ha; cases ha) h
termination_by sizeOf a
decreasing_by
  · exact size_kid (by assumption)
  · exact size_oelem hx
  · exact size_oitem hx

theorem placeAt_compose {b : Str} (hb : b ≠ []) (ts : List Str) : placeAt (some b) ts = jpCompose ts (some b) := by
  induction ts generalizing b with
  | nil => cases b with
    | nil => exact absurd rfl hb
    | cons c b => simp [placeAt, jpCompose, Str.joinC]
  | cons t ts ih =>
    have hne : jpCompose [t] (some b) ≠ [] := by rw [compose_one hb]; simp [hb]
    rw [placeAt, ih hne, Main.jpCompose_tail hne, compose_one hb, Main.jpCompose_tail hb, List.append_assoc, ← tail_append]
    rfl

/-- C114: when `a.compare(b, base)` reports a difference, the two differ, and at the place that is reported - or nothing is
reported as the place, and the two are themselves of another kind, or at some place they have lists of another length, or elements
of another kind. -/
theorem C114_place_partial {a b : Obj} {base : Option Str} {loc : Str} (h : compare T a b base = .ok (false, loc)) :
    (∃ ts, ApartAt T (Different T) a b ts ∧ loc = placeAt base ts) ∨
      (loc = [] ∧ ((∃ ts, ApartAt T Misshapen a b ts) ∨ ¬ OfOneKind a b)) :=
  place_said a b base loc h

/-- C114: from a base, the place that is reported is the base with the pointer to the difference. -/
theorem C114_pointer_partial {a b : Obj} {base loc : Str} (hb : base ≠ []) (hl : loc ≠ [])
    (h : compare T a b (some base) = .ok (false, loc)) : ∃ ts, ApartAt T (Different T) a b ts ∧ loc = jpCompose ts (some base) := by
  rcases place_said a b _ loc h with ⟨ts, h1, h2⟩ | ⟨h1, _⟩
  · exact ⟨ts, h1, h2.trans (placeAt_compose hb ts)⟩
  · exact absurd h1 hl

/-- C114 (violation): that two operations have another number of tags is reported without a place, wherever they are. -/
theorem C114_lost_violation :
    (build pkg (.cls (s% "v3_0_0.Operation")) (.obj [(s% "responses", .obj []), (s% "tags", .arr [.str (s% "a")])]) none []).bind (fun o =>
      (build pkg (.cls (s% "v3_0_0.Operation")) (.obj [(s% "responses", .obj []), (s% "tags", .arr [])]) none []).bind (fun o' =>
        compare pkg o o' (some (s% "#/paths/~1a/get")))) = .ok (false, []) := by
  decide +kernel

/-- Instance: the second parameter of an operation differs, and it is said where. -/
theorem C114_example :
    (build pkg (.cls (s% "v2_0.Operation")) (.obj [(s% "responses", .obj []), (s% "parameters", .arr [
        .obj [(s% "name", .str (s% "a")), (s% "in", .str (s% "query"))], .obj [(s% "name", .str (s% "b")), (s% "in", .str (s% "query"))]])]) none []).bind (fun o =>
      (build pkg (.cls (s% "v2_0.Operation")) (.obj [(s% "responses", .obj []), (s% "parameters", .arr [
        .obj [(s% "name", .str (s% "a")), (s% "in", .str (s% "query"))], .obj [(s% "name", .str (s% "b")), (s% "in", .str (s% "path"))]])]) none []).bind (fun o' =>
        compare pkg o o' (some (s% "#")))) = .ok (false, s% "#/parameters/1/in") := by
  decide +kernel

end Pyopenapi
