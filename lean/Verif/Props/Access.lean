import Verif.Model.Access
import Verif.Lemmas.Inside
import Verif.Lemmas.Conv
import Verif.Lemmas.Eval
import Verif.Model.Tables

/-!
# C101: lists and maps of a document act as its JSON lists and objects
-/

namespace Pyopenapi.Access

open Obj

variable {T : Table}

theorem closed_any : Closed T (fun _ => True) :=
  ⟨fun _ _ _ _ _ => trivial, fun _ _ => trivial, fun _ _ => trivial, fun _ _ _ => ⟨trivial, trivial⟩,
   fun _ _ => trivial⟩

/-- What a map was loaded from. -/
theorem map_from {b b' : Builder} {j s : Json} {p p' : Option Str} {es : Dict Obj}
    (h : build T b j p [] = .ok (.map b' p' s es)) :
    ∃ d, j = .obj d ∧ p' = p ∧ Dict.mapM (fun k x => build T b' x (some (jpCompose [k] p)) []) d = .ok es := by
  obtain ⟨rfl, rfl, _, h⟩ := build_inv closed_any trivial h
  cases s with
  | obj d =>
    rw [build_map, buildItems_eq] at h
    simp only [buildAt_nil] at h
    cases hm : Dict.mapM (fun k x => build T b' x (some (jpCompose [k] p')) []) d with
    | error e => rw [hm] at h; cases h
    | ok es' => rw [hm] at h; cases h; exact ⟨d, rfl, rfl, hm⟩
  | _ => rw [build_map_other b' _ _ (fun l hl => by cases hl)] at h; cases h

/-- What a list was loaded from. -/
theorem list_from {b b' : Builder} {j s : Json} {p p' : Option Str} {es : List Obj}
    (h : build T b j p [] = .ok (.list b' p' s es)) :
    ∃ l, j = .arr l ∧ p' = p ∧ es.length = l.length ∧ ∀ (n : Nat) (x : Json) (o : Obj), l[n]? = some x → es[n]? = some o →
      build T b' x (some (jpCompose [Str.ofNat n] p)) [] = .ok o := by
  obtain ⟨rfl, rfl, _, h⟩ := build_inv closed_any trivial h
  cases s with
  | arr l =>
    rw [build_list] at h
    cases hm : buildElems T b' l 0 p' [] with
    | error e => rw [hm] at h; cases h
    | ok es' =>
      rw [hm] at h; cases h
      obtain ⟨h1, h2⟩ := buildElems_iff.1 hm
      refine ⟨l, rfl, rfl, h1, fun n x o hx ho => ?_⟩
      have := h2 n x o hx ho
      rwa [buildAt_nil, Nat.zero_add] at this
  | _ => rw [build_list_other b' _ _ (fun l hl => by cases hl)] at h; cases h

/-- **C101, maps.** A map of a loaded document answers like the JSON object it was loaded from: the same keys in the
same order, the same length, the same `in`; `m[k]` and `m.get(k)` give what was loaded from the value under `k`, with
the path of that value, and for another key KeyError and the default. -/
theorem C101_map {b b' : Builder} {j s : Json} {p p' : Option Str} {es : Dict Obj}
    (h : build T b j p [] = .ok (.map b' p' s es)) :
    ∃ d, j = .obj d ∧ keys (.map b' p' s es) = .ok (d.map Prod.fst) ∧ len (.map b' p' s es) = .ok d.length ∧
      (∃ is, items (.map b' p' s es) = .ok is ∧ is.map Prod.fst = d.map Prod.fst ∧ ∀ (n : Nat) k x o, d[n]? = some (k, x) →
        is[n]? = some (k, o) → build T b' x (some (jpCompose [k] p)) [] = .ok o) ∧
      (∀ k x, Dict.get? d k = some x → has (.map b' p' s es) k = .ok true ∧
        ∃ o, build T b' x (some (jpCompose [k] p)) [] = .ok o ∧ item (.map b' p' s es) k = .ok o ∧
          ∀ dflt, getD (.map b' p' s es) k dflt = .ok o) ∧
      (∀ k, Dict.get? d k = none → has (.map b' p' s es) k = .ok false ∧ item (.map b' p' s es) k = .error .keyError ∧
        ∀ dflt, getD (.map b' p' s es) k dflt = .ok dflt) := by
  obtain ⟨d, rfl, rfl, hm⟩ := map_from h
  have hk := Dict.mapM_keys hm
  have hf := Dict.mapM_ok hm
  refine ⟨d, rfl, congrArg Except.ok hk, congrArg Except.ok ?_, ⟨es, rfl, hk, fun n k x o hx ho => ?_⟩,
    fun k x hx => ?_, fun k hx => ?_⟩
  · have := congrArg List.length hk
    simpa [Dict.keys] using this
  · clear hk hm h
    induction hf generalizing n with
    | nil => simp at hx
    | cons hab _ ih =>
      cases n with
      | zero =>
        simp at hx ho
        subst hx ho
        exact hab.2
      | succ n => exact ih n (by simpa using hx) (by simpa using ho)
  · rcases Dict.get?_mapM hm k with ⟨h1, _⟩ | ⟨v, w, h1, h2, h3⟩
    · rw [h1] at hx; cases hx
    · rw [h1] at hx; cases hx
      refine ⟨by simp [has, Dict.has, h2], w, h3, by simp [item, Dict.get!, h2], fun dflt => by simp [getD, h2]⟩
  · rcases Dict.get?_mapM hm k with ⟨_, h2⟩ | ⟨v, w, h1, h2, h3⟩
    · exact ⟨by simp [has, Dict.has, h2], by simp [item, Dict.get!, h2], fun dflt => by simp [getD, h2]⟩
    · rw [h1] at hx; cases hx

/-- **C101, lists.** A list of a loaded document answers like the JSON list: the same length; the elements, in order,
are what was loaded from its elements; `l[i]` gives the `i`-th, `l[-i]` the `i`-th from the end, and anything else is
an IndexError. -/
theorem C101_list {b b' : Builder} {j s : Json} {p p' : Option Str} {es : List Obj}
    (h : build T b j p [] = .ok (.list b' p' s es)) :
    ∃ l, j = .arr l ∧ len (.list b' p' s es) = .ok l.length ∧
      (∃ xs, iterate (.list b' p' s es) = .ok xs ∧ xs.length = l.length ∧ ∀ (n : Nat) x o, l[n]? = some x →
        xs[n]? = some o → build T b' x (some (jpCompose [Str.ofNat n] p)) [] = .ok o) ∧
      (∀ (n : Nat) x, l[n]? = some x → ∃ o, build T b' x (some (jpCompose [Str.ofNat n] p)) [] = .ok o ∧
        index (.list b' p' s es) n = .ok o ∧ index (.list b' p' s es) ((n : Int) - l.length) = .ok o) ∧
      (∀ i : Int, i < -(l.length : Int) ∨ (l.length : Int) ≤ i → index (.list b' p' s es) i = .error .indexError) := by
  obtain ⟨l, rfl, rfl, hl, he⟩ := list_from h
  refine ⟨l, rfl, congrArg Except.ok hl, ⟨es, rfl, hl, fun n x o hx ho => he n x o hx ho⟩, fun n x hx => ?_, fun i hi => ?_⟩
  · have hn : n < l.length := (List.getElem?_eq_some_iff.1 hx).1
    have ho : es[n]? = some es[n] := List.getElem?_eq_getElem (by omega)
    refine ⟨_, he n x _ hx ho, ?_, ?_⟩
    · have h0 : ¬ ((n : Int) < 0) := by omega
      simp only [index, pyIndex, if_neg h0, Int.toNat_natCast, ho]
    · have h0 : (n : Int) - l.length < 0 := by omega
      have h1 : (n : Int) - l.length + es.length = n := by omega
      have h2 : ¬ ((n : Int) < 0) := by omega
      simp only [index, pyIndex, if_pos h0, h1, if_neg h2, Int.toNat_natCast, ho]
  · simp only [index, pyIndex]
    rcases hi with hi | hi
    · rw [if_pos (show i < 0 by omega), if_pos (show i + (es.length : Int) < 0 by omega)]
    · rw [if_neg (show ¬ i < 0 by omega), if_neg (show ¬ i < 0 by omega),
        List.getElem?_eq_none (by omega)]

theorem put_all {b : Builder} {p : Option Str} {s : Json} {es : Dict Obj} (ws : List (Str × Obj)) :
    ∃ es', putAll (.map b p s es) ws = .ok (.map b p s es') ∧
      (∀ k, Dict.get? es' k = match ws.reverse.find? (fun w => w.1 = k) with
        | some w => some w.2
        | none => Dict.get? es k) ∧
      (∃ new, keys (.map b p s es') = .ok (es.map Prod.fst ++ new) ∧ new.Sublist (ws.map Prod.fst) ∧
        (∀ k, k ∈ new ↔ k ∉ es.map Prod.fst ∧ k ∈ ws.map Prod.fst) ∧ new.Nodup) := by
  induction ws generalizing es with
  | nil => exact ⟨es, rfl, fun k => rfl, [], by simp [keys, Dict.keys], List.nil_sublist _, by simp, List.nodup_nil⟩
  | cons w ws ih =>
    obtain ⟨k₀, x⟩ := w
    obtain ⟨es', h1, h2, new, h3, h4, h5, h6⟩ := ih (es := Dict.set es k₀ x)
    refine ⟨es', h1, fun k => ?_, ?_⟩
    · rw [h2 k, List.reverse_cons, List.find?_append]
      cases hf : ws.reverse.find? (fun w => w.1 = k) with
      | some w => rfl
      | none =>
        by_cases hk : k₀ = k
        · subst hk; simp [Dict.get?_set_self]
        · simp [hk, Dict.get?_set_ne _ _ hk]
    · by_cases hm : k₀ ∈ es.map Prod.fst
      · have hkeys : (Dict.set es k₀ x).map Prod.fst = es.map Prod.fst := by
          have := Dict.keys_set es k₀ x
          rw [if_pos (show k₀ ∈ Dict.keys es from hm)] at this
          exact this
        rw [hkeys] at h3 h5
        refine ⟨new, h3, h4.trans (List.sublist_cons_self _ _), fun k => ?_, h6⟩
        rw [h5 k]
        simp only [List.map_cons, List.mem_cons]
        constructor
        · rintro ⟨ha, hb⟩; exact ⟨ha, .inr hb⟩
        · rintro ⟨ha, rfl | hb⟩
          · exact absurd hm ha
          · exact ⟨ha, hb⟩
      · have hset : Dict.set es k₀ x = es ++ [(k₀, x)] := Dict.set_of_not_mem _ hm
        have hkeys : (Dict.set es k₀ x).map Prod.fst = es.map Prod.fst ++ [k₀] := by rw [hset]; simp
        rw [hkeys] at h3 h5
        refine ⟨k₀ :: new, by rw [h3]; simp, by simpa using h4, fun k => ?_, ?_⟩
        · simp only [List.mem_cons, h5 k, List.map_cons, List.mem_append, List.mem_singleton, not_or]
          constructor
          · rintro (rfl | ⟨⟨ha, hb⟩, hc⟩)
            · exact ⟨hm, .inl rfl⟩
            · exact ⟨ha, .inr hc⟩
          · rintro ⟨ha, hb⟩
            by_cases hk : k = k₀
            · exact .inl hk
            · exact .inr ⟨⟨ha, by simpa using hk⟩, hb.resolve_left hk⟩
        · refine List.nodup_cons.2 ⟨fun hn => ?_, h6⟩
          have := ((h5 k₀).1 hn).1
          simp at this

/-- **C101, changing a map.** After any assignments `m[k] = x`, a key answers what was assigned to it last, or what it
answered before; the keys are the former ones, then the new ones in the order of their first assignment. -/
theorem C101_put {m : Obj} {ks : List Str} (hk : keys m = .ok ks) (ws : List (Str × Obj)) :
    ∃ m' new, putAll m ws = .ok m' ∧
      (∀ k, item m' k = match ws.reverse.find? (fun w => w.1 = k) with
        | some w => .ok w.2
        | none => item m k) ∧
      keys m' = .ok (ks ++ new) ∧ new.Sublist (ws.map Prod.fst) ∧ new.Nodup ∧
      ∀ k, k ∈ new ↔ k ∉ ks ∧ k ∈ ws.map Prod.fst := by
  cases m with
  | map b p s es =>
    cases hk
    obtain ⟨es', h1, h2, new, h3, h4, h5, h6⟩ := put_all (b := b) (p := p) (s := s) (es := es) ws
    refine ⟨_, new, h1, fun k => ?_, h3, h4, h6, h5⟩
    have := h2 k
    cases hf : ws.reverse.find? (fun w => w.1 = k) with
    | some w => rw [hf] at this; simp [item, Dict.get!, this]
    | none => rw [hf] at this; simp only [item, Dict.get!, this]
  | _ => cases hk

/-- **C101, growing a list.** After `l.extend(xs)` (and `l.append(x)`, one element) the elements are the former ones
and those. -/
theorem C101_extend {l : Obj} {es : List Obj} (h : iterate l = .ok es) (xs : List Obj) :
    ∃ l', extend l xs = .ok l' ∧ iterate l' = .ok (es ++ xs) := by
  cases l with
  | list b p s es' => cases h; exact ⟨_, rfl, rfl⟩
  | map => cases h
  | _ => cases h

/-- No object of a class in a value: strings, numbers, and lists and maps of such. -/
inductive Plain : Obj → Prop
  | prim (j : Json) : Plain (.prim j)
  | list {b : Builder} {p : Option Str} {s : Json} {es : List Obj} : (∀ o ∈ es, Plain o) → Plain (.list b p s es)
  | map {b : Builder} {p : Option Str} {s : Json} {es : Dict Obj} : (∀ k o, (k, o) ∈ es → Plain o) → Plain (.map b p s es)

theorem scalar_refl : (j : Json) → (∀ l, j ≠ .arr l) → (∀ d, j ≠ .obj d) → Json.scalarEq j j = true
  | .null, _, _ => rfl
  | .bool b, _, _ => by cases b <;> rfl
  | .int n, _, _ => by simp [Json.scalarEq, Json.num?, numEq]
  | .flt m e, _, _ => by simp [Json.scalarEq, Json.num?, numEq]
  | .str s, _, _ => by simp [Json.scalarEq, Json.num?]
  | .arr l, h, _ => absurd rfl (h l)
  | .obj d, _, h => absurd rfl (h d)

theorem rawEqL_refl : (l : List Json) → (∀ x ∈ l, rawEq x x = true) → rawEqL l l = true
  | [], _ => rfl
  | x :: l, h => by
    rw [rawEqL, h x (by simp), rawEqL_refl l (fun y hy => h y (List.mem_cons_of_mem _ hy))]; rfl

theorem rawEqD_refl {d' : Dict Json} (hn : Dict.NodupKeys d') : (d : List (Str × Json)) → (∀ k x, (k, x) ∈ d → (k, x) ∈ d') →
    (∀ k x, (k, x) ∈ d → rawEq x x = true) → rawEqD d d' = true
  | [], _, _ => rfl
  | (k, x) :: d, hs, h => by
    rw [rawEqD, Dict.get?_of_mem hn (hs k x (by simp)),
      rawEqD_refl hn d (fun k y hy => hs k y (List.mem_cons_of_mem _ hy)) (fun k y hy => h k y (List.mem_cons_of_mem _ hy))]
    simp [h k x (by simp)]

/-- A raw value equals itself. -/
theorem rawEq_refl_lt (n : Nat) (j : Json) (hlt : sizeOf j < n) (hw : j.wf = true) : rawEq j j = true := by
  induction n generalizing j with
  | zero => omega
  | succ n ih =>
  cases j with
  | arr l => exact rawEqL_refl l (fun x hx => have := List.sizeOf_lt_of_mem hx; ih x (by simp at *; omega) (wf_list hw hx))
  | obj d =>
    rw [rawEq]
    simp only [decide_true, Bool.true_and]
    exact rawEqD_refl (wf_nodup hw) d (fun _ _ h => h)
      (fun k x hx => have := List.sizeOf_lt_of_mem hx; ih x (by simp at *; omega) (wf_member hw hx))
  | null => rfl
  | bool b => cases b <;> rfl
  | int i => exact scalar_refl (.int i) (by simp) (by simp)
  | flt m e => exact scalar_refl (.flt m e) (by simp) (by simp)
  | str s => exact scalar_refl (.str s) (by simp) (by simp)

theorem rawEq_refl (j : Json) (hw : j.wf = true) : rawEq j j = true := rawEq_refl_lt _ j (Nat.lt_succ_self _) hw

/-- What `==` says of an object loaded from `x`. -/
def Says (x : Json) (o : Obj) : Prop := ∀ y, eqRaw o y = true ↔ Plain o ∧ rawEq x y = true

theorem eqRawL_iff {es : List Obj} {l : List Json} (h : List.Forall₂ Says l es) (l' : List Json) :
    eqRawL es l' = true ↔ (∀ o ∈ es, Plain o) ∧ rawEqL l l' = true := by
  induction h generalizing l' with
  | nil => cases l' <;> simp [eqRawL, rawEqL]
  | cons hxo _ ih =>
    cases l' with
    | nil => simp [eqRawL, rawEqL]
    | cons y l' =>
      rw [eqRawL, rawEqL, Bool.and_eq_true, Bool.and_eq_true, ih l', hxo y, List.forall_mem_cons]
      constructor
      · rintro ⟨⟨h1, h2⟩, h3, h4⟩; exact ⟨⟨h1, h3⟩, h2, h4⟩
      · rintro ⟨⟨h1, h3⟩, h2, h4⟩; exact ⟨⟨h1, h2⟩, h3, h4⟩

theorem eqRawD_iff {es : List (Str × Obj)} {d : List (Str × Json)}
    (h : List.Forall₂ (fun p q => p.1 = q.1 ∧ Says p.2 q.2) d es) (d' : Dict Json) :
    eqRawD es d' = true ↔ (∀ k o, (k, o) ∈ es → Plain o) ∧ rawEqD d d' = true := by
  induction h with
  | nil => simp [eqRawD, rawEqD]
  | @cons p q _ _ hpq _ ih =>
    obtain ⟨k, x⟩ := p
    obtain ⟨k', o⟩ := q
    obtain ⟨hk, hxo⟩ := hpq
    dsimp only at hk hxo
    subst hk
    rw [eqRawD, rawEqD, Bool.and_eq_true, Bool.and_eq_true, ih]
    cases Dict.get? d' k with
    | none => simp
    | some y =>
      dsimp only
      rw [hxo y]
      constructor
      · rintro ⟨⟨h1, h2⟩, h3, h4⟩
        refine ⟨fun k' o' hm => ?_, h2, h4⟩
        rcases List.mem_cons.1 hm with hm | hm
        · injection hm with _ hb; rw [hb]; exact h1
        · exact h3 k' o' hm
      · rintro ⟨h1, h2, h4⟩
        exact ⟨⟨h1 k o (by simp), h2⟩, fun k' o' hm => h1 k' o' (List.mem_cons_of_mem _ hm), h4⟩

theorem forall₂_of {α β : Type} {P : α → β → Prop} : (l : List α) → (l' : List β) → l'.length = l.length →
    (∀ (n : Nat) x y, l[n]? = some x → l'[n]? = some y → P x y) → List.Forall₂ P l l'
  | [], [], _, _ => .nil
  | x :: l, y :: l', hl, h => .cons (h 0 x y rfl rfl)
      (forall₂_of l l' (by simpa using hl) (fun n x y hx hy => h (n + 1) x y (by simpa using hx) (by simpa using hy)))

theorem says_lt (N : Nat) {b : Builder} {j : Json} {p : Option Str} {o : Obj} (hN : sizeOf j < N)
    (h : build T b j p [] = .ok o) : Says j o := by
  induction N generalizing b j p o with
  | zero => omega
  | succ N ih =>
  cases o with
  | prim j' =>
    have : j' = j := build_inv closed_any trivial h
    subst this
    exact fun y => ⟨fun h => ⟨.prim _, h⟩, fun h => h.2⟩
  | base c q s ks => exact fun y => ⟨fun h => by simp [eqRaw] at h, fun h => by cases h.1⟩
  | list b' q s es =>
    obtain ⟨l, rfl, rfl, hl, he⟩ := list_from h
    have hf : List.Forall₂ Says l es := forall₂_of l es hl (fun n x o hx ho => by
      have := List.sizeOf_lt_of_mem (List.mem_of_getElem? hx)
      exact ih (by simp at *; omega) (he n x o hx ho))
    intro y
    cases y with
    | arr l' =>
      rw [eqRaw, rawEq, eqRawL_iff hf]
      exact ⟨fun ⟨h1, h2⟩ => ⟨.list h1, h2⟩, fun ⟨h1, h2⟩ => ⟨by cases h1 with | list h => exact h, h2⟩⟩
    | _ => simp [eqRaw, rawEq]
  | map b' q s es =>
    obtain ⟨d, rfl, rfl, hm⟩ := map_from h
    have hlen : es.length = d.length := by
      have := congrArg List.length (Dict.mapM_keys hm)
      simpa [Dict.keys] using this
    have hsub : ∀ q ∈ d, sizeOf q.2 < sizeOf (Json.obj d) := fun q hq => by
      have := List.sizeOf_lt_of_mem hq
      obtain ⟨k, x⟩ := q
      simp at *
      omega
    have hf : List.Forall₂ (fun p q => p.1 = q.1 ∧ Says p.2 q.2) d es := by
      have hf := Dict.mapM_ok hm
      clear hm hlen h
      revert hsub
      generalize sizeOf (Json.obj d) = S at hN
      intro hsub
      induction hf with
      | nil => exact .nil
      | cons hab _ ih' =>
        exact .cons ⟨hab.1, ih (by have := hsub _ (List.mem_cons_self ..); omega) hab.2⟩
          (ih' (fun q hq => hsub q (List.mem_cons_of_mem _ hq)))
    intro y
    cases y with
    | obj d' =>
      rw [eqRaw, rawEq, Bool.and_eq_true, Bool.and_eq_true, eqRawD_iff hf, hlen]
      exact ⟨fun ⟨h0, h1, h2⟩ => ⟨.map h1, h0, h2⟩,
        fun ⟨h1, h0, h2⟩ => ⟨h0, by cases h1 with | map h => exact h, h2⟩⟩
    | _ => simp [eqRaw, rawEq]

/-- **C101, equality.** `o == raw` holds exactly when there is no object of a class in `o` and `raw` equals what `o` was
loaded from. -/
theorem C101_equal {b : Builder} {j : Json} {p : Option Str} {o : Obj} (h : build T b j p [] = .ok o) (raw : Json) :
    eqRaw o raw = true ↔ Plain o ∧ rawEq j raw = true :=
  says_lt _ (Nat.lt_succ_self (sizeOf j)) h raw

/-- In particular it equals what it was loaded from when no object of a class is in it, and only then. -/
theorem C101_equal_self {b : Builder} {j : Json} {p : Option Str} {o : Obj} (hw : j.wf = true)
    (h : build T b j p [] = .ok o) : eqRaw o j = true ↔ Plain o :=
  (C101_equal h j).trans (and_iff_left (rawEq_refl j hw))

/-- **A map cannot be iterated over**: `for k in m` raises KeyError, whatever the map. -/
theorem C101_iterate_violation {b b' : Builder} {j s : Json} {p p' : Option Str} {es : Dict Obj}
    (_ : build T b j p [] = .ok (.map b' p' s es)) : iterate (.map b' p' s es) = .error .keyError := rfl

/-! ## Examples -/

/-- A security requirement: a map of lists of strings. -/
def need : Json := .obj [(s% "o", .arr [.str (s% "w"), .str (s% "r")]), (s% "k", .arr [])]

def needB : Builder := .mapOf (.listOf .isStr)

def needObj : Obj := match buildF pkg 5 needB need none with
  | .ok o => o
  | .error _ => .prim .null

theorem needObj_built : build pkg needB need none [] = .ok needObj := buildF_sound 5 _ _ _ _ (by decide +kernel)

/-- It equals the raw value, keys in any order, and has its keys. -/
example : eqRaw needObj need = true ∧ eqRaw needObj (.obj [(s% "k", .arr []), (s% "o", .arr [.str (s% "w"), .str (s% "r")])]) = true ∧
    keys needObj = .ok [s% "o", s% "k"] ∧ has needObj (s% "o") = .ok true ∧ has needObj (s% "x") = .ok false ∧
    iterate needObj = .error .keyError := by decide +kernel

/-- Non-vacuity: the map is a map, with a list in it. -/
example : (∃ b p s es, needObj = .map b p s es) ∧ need.wf = true ∧ ∃ l, item needObj (s% "o") = .ok l ∧ len l = .ok 2 ∧
    index l (-1) = .ok (.prim (.str (s% "r"))) ∧ index l 2 = .error .indexError :=
  ⟨⟨_, _, _, _, rfl⟩, by decide +kernel, _, rfl, by decide +kernel, by decide +kernel, by decide +kernel⟩

end Pyopenapi.Access
