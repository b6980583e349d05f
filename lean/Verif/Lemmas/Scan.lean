import Verif.Spec.Scan
import Verif.Lemmas.Pointer
import Verif.Lemmas.Str

namespace Pyopenapi
open Spec Obj

/-- The values an object holds, with their tokens. -/
def enumO : Nat → List Obj → List (Str × Obj)
  | _, [] => []
  | i, o :: es => (Str.ofNat i, o) :: enumO (i + 1) es

def slotsOf : Obj → List (Str × Obj)
  | .prim _ => []
  | .base _ _ _ ks => ks
  | .list _ _ _ es => enumO 0 es
  | .map _ _ _ es => es

theorem enumO_iff {es : List Obj} {i : Nat} {k : Str} {v : Obj} :
    (k, v) ∈ enumO i es ↔ ∃ j : Nat, es[j]? = some v ∧ k = Str.ofNat (i + j) := by
  induction es generalizing i with
  | nil => simp [enumO]
  | cons x es ih =>
    simp only [enumO, List.mem_cons, Prod.mk.injEq, ih]
    constructor
    · rintro (⟨rfl, rfl⟩ | ⟨j, hj, rfl⟩)
      · exact ⟨0, by simp, rfl⟩
      · exact ⟨j + 1, by simpa using hj, by congr 1; omega⟩
    · rintro ⟨j, hj, rfl⟩
      cases j with
      | zero => left; simp at hj; exact ⟨rfl, hj.symm⟩
      | succ j => right; exact ⟨j, by simpa using hj, by congr 1; omega⟩

theorem slot_iff {o x : Obj} {k : Str} : Slot o k x ↔ (k, x) ∈ slotsOf o := by
  constructor
  · intro h
    cases h with
    | child h => exact h
    | item h => exact h
    | elem h => exact enumO_iff.2 ⟨_, h, by simp⟩
  · intro h
    cases o with
    | prim j => simp [slotsOf] at h
    | base c p s ks => exact .child h
    | map b p s es => exact .item h
    | list b p s es =>
      obtain ⟨j, hj, rfl⟩ := enumO_iff.1 h
      rw [Nat.zero_add]
      exact .elem hj

theorem addElems_eq (es : List Obj) (i : Nat) (ret : Dict Obj) :
    addElems es i ret = addKids (enumO i es) ret := by
  induction es generalizing i ret with
  | nil => simp [addElems, enumO, addKids]
  | cons o es ih => rw [addElems, enumO, addKids, ih]

theorem kids_eq (o : Obj) : kids o = addKids (slotsOf o) [] := by
  cases o with
  | prim j => simp [kids, slotsOf, addKids]
  | base c p s ks => rw [kids, slotsOf]
  | map b p s es => rw [kids, slotsOf]
  | list b p s es => rw [kids, slotsOf, addElems_eq]

theorem nodes_slot {o x : Obj} {k : Str} (h : (k, x) ∈ slotsOf o) : nodes x < nodes o := by
  have hD : ∀ l : List (Str × Obj), (k, x) ∈ l → nodes x ≤ nodesD l := by
    intro l
    induction l with
    | nil => simp
    | cons y l ih =>
      intro hm
      obtain ⟨k', o'⟩ := y
      simp only [nodesD]
      rcases List.mem_cons.1 hm with h | h
      · cases h; omega
      · have := ih h; omega
  cases o with
  | prim j => simp [slotsOf] at h
  | base c p s ks => have := hD _ h; simp only [slotsOf] at this; simp only [nodes]; omega
  | map b p s es => have := hD _ h; simp only [slotsOf] at this; simp only [nodes]; omega
  | list b p s es =>
    have hL : ∀ (l : List Obj) (i : Nat), nodesD (enumO i l) = nodesL l := by
      intro l
      induction l with
      | nil => intro i; rfl
      | cons y l ih => intro i; simp [enumO, nodesD, nodesL, ih]
    have := hD _ h
    rw [slotsOf, hL] at this
    simp only [nodes]; omega

/-- The name `get_children` gives to a child. -/
def nameOf : List Str → Str
  | [] => []
  | [k] => k
  | k :: t :: ts => jpCompose [k, nameOf (t :: ts)] none

theorem jpCompose2 (k n : Str) : jpCompose [k, n] none = jpEncode k ++ '/' :: jpEncode n := by
  simp [jpCompose, Str.joinC]

theorem jpCompose2_inj {k k' n n' : Str} (h : jpCompose [k, n] none = jpCompose [k', n'] none) :
    k = k' ∧ n = n' := by
  rw [jpCompose2, jpCompose2] at h
  have h1 := congrArg (Str.cut '/') h
  rw [Str.cut_append _ (slash_not_mem_jpEncode k), Str.cut_append _ (slash_not_mem_jpEncode k')] at h1
  simp only [Prod.mk.injEq, Option.some.injEq] at h1
  exact ⟨jpEncode_injective h1.1, jpEncode_injective h1.2⟩

theorem nameOf_cons {k : Str} {ts : List Str} (h : ts ≠ []) : nameOf (k :: ts) = jpCompose [k, nameOf ts] none := by
  cases ts with
  | nil => exact absurd rfl h
  | cons t ts => rfl

theorem leads_ne_nil {o x : Obj} {ts : List Str} (h : Leads o ts x) : ts ≠ [] := by cases h <;> simp

theorem leads_base {o x : Obj} {ts : List Str} (h : Leads o ts x) : x.isBase = true := by
  induction h with
  | direct _ h => exact h
  | through _ _ _ ih => exact ih

theorem nodes_leads {o x : Obj} {ts : List Str} (h : Leads o ts x) : nodes x < nodes o := by
  induction h with
  | direct h _ => exact nodes_slot (slot_iff.1 h)
  | through h _ _ ih => exact Nat.lt_trans ih (nodes_slot (slot_iff.1 h))

theorem inside_slot {o x m : Obj} {k : Str} (h : Slot o k x) (hm : Inside x m) : Inside o m := by
  cases h with
  | child h => exact .child h hm
  | item h => exact .item h hm
  | elem h => exact .elem (List.mem_of_getElem? h) hm

theorem inside_leads {o x m : Obj} {ts : List Str} (h : Leads o ts x) (hm : Inside x m) : Inside o m := by
  induction h with
  | direct h _ => exact inside_slot h hm
  | through h _ _ ih => exact inside_slot h (ih hm)

/-! ### Soundness of `get_children` -/

theorem mem_set {d : Dict Obj} {k n : Str} {v x : Obj} (h : (n, x) ∈ Dict.set d k v) :
    (n, x) ∈ d ∨ (n = k ∧ x = v) := by
  induction d with
  | nil =>
    simp [Dict.set] at h
    exact .inr h
  | cons y d ih =>
    obtain ⟨k', v'⟩ := y
    rw [Dict.set] at h
    split at h
    · rename_i hk
      rcases List.mem_cons.1 h with h | h
      · cases h; exact .inr ⟨hk, rfl⟩
      · exact .inl (List.mem_cons_of_mem _ h)
    · rcases List.mem_cons.1 h with h | h
      · cases h; exact .inl (by simp)
      · rcases ih h with h | h
        · exact .inl (List.mem_cons_of_mem _ h)
        · exact .inr h

theorem mem_addAll {ch ret : Dict Obj} {k n : Str} {x : Obj} (h : (n, x) ∈ addAll ret k ch) :
    (n, x) ∈ ret ∨ ∃ m, n = jpCompose [k, m] none ∧ (m, x) ∈ ch := by
  induction ch generalizing ret with
  | nil => exact .inl h
  | cons y ch ih =>
    rcases ih (ret := Dict.set ret (jpCompose [k, y.1] none) y.2) h with h | ⟨m, hm, hx⟩
    · rcases mem_set h with h | ⟨h1, h2⟩
      · exact .inl h
      · exact .inr ⟨y.1, h1, by rw [h2]; simp⟩
    · exact .inr ⟨m, hm, List.mem_cons_of_mem _ hx⟩

theorem mem_addKids {l : List (Str × Obj)} {ret : Dict Obj} {n : Str} {x : Obj}
    (ih : ∀ k o, (k, o) ∈ l → ∀ n x, (n, x) ∈ kids o → ∃ ts, Leads o ts x ∧ n = nameOf ts)
    (h : (n, x) ∈ addKids l ret) :
    (n, x) ∈ ret ∨ ∃ k o, (k, o) ∈ l ∧ ((o.isBase = true ∧ n = k ∧ x = o) ∨
      (o.isBase = false ∧ ∃ ts, Leads o ts x ∧ n = nameOf (k :: ts))) := by
  induction l generalizing ret with
  | nil => rw [addKids] at h; exact .inl h
  | cons y l ihl =>
    obtain ⟨k, o⟩ := y
    rw [addKids] at h
    have ih' : ∀ k o, (k, o) ∈ l → ∀ n x, (n, x) ∈ kids o → ∃ ts, Leads o ts x ∧ n = nameOf ts :=
      fun k o hm => ih k o (List.mem_cons_of_mem _ hm)
    rcases ihl ih' h with h | ⟨k', o', hm, h⟩
    · split at h
      next hb =>
        rcases mem_set h with h | ⟨h1, h2⟩
        · exact .inl h
        · exact .inr ⟨k, o, by simp, .inl ⟨hb, h1, h2⟩⟩
      next hb =>
        rcases mem_addAll h with h | ⟨m, hm, hx⟩
        · exact .inl h
        · obtain ⟨ts, h1, h2⟩ := ih k o (by simp) m x hx
          refine .inr ⟨k, o, by simp, .inr ⟨by simpa using hb, ts, h1, ?_⟩⟩
          rw [nameOf_cons (leads_ne_nil h1), ← h2]
          exact hm
    · exact .inr ⟨k', o', List.mem_cons_of_mem _ hm, h⟩

/-- Whatever `get_children` lists is a child, under its name. -/
theorem kids_sound (n : Nat) : ∀ o, nodes o ≤ n → ∀ nm x, (nm, x) ∈ kids o → ∃ ts, Leads o ts x ∧ nm = nameOf ts := by
  induction n with
  | zero => intro o h; cases o <;> simp [nodes] at h
  | succ n ih =>
    intro o ho nm x hx
    rw [kids_eq] at hx
    have := mem_addKids (l := slotsOf o) (ret := [])
      (fun k y hm => ih y (by have := nodes_slot hm; omega)) hx
    rcases this with h | ⟨k, y, hm, ⟨hb, rfl, rfl⟩ | ⟨hb, ts, hl, rfl⟩⟩
    · simp at h
    · exact ⟨[nm], .direct (slot_iff.2 hm) hb, rfl⟩
    · exact ⟨k :: ts, .through (slot_iff.2 hm) hb hl, rfl⟩

/-! ### All children, with their tokens -/

/-- Children of an object with their tokens (the first argument bounds the depth). -/
def lab : Nat → Obj → List (List Str × Obj)
  | 0, _ => []
  | n + 1, o => (slotsOf o).flatMap (fun s =>
      if s.2.isBase then [([s.1], s.2)] else (lab n s.2).map (fun c => (s.1 :: c.1, c.2)))

theorem mem_lab (n : Nat) : ∀ o, nodes o ≤ n → ∀ ts x, (ts, x) ∈ lab n o ↔ Leads o ts x := by
  induction n with
  | zero => intro o h; cases o <;> simp [nodes] at h
  | succ n ih =>
    intro o ho ts x
    rw [lab, List.mem_flatMap]
    constructor
    · rintro ⟨⟨k, y⟩, hs, hm⟩
      have hlt := nodes_slot hs
      dsimp only at hm
      split at hm
      next hb =>
        simp only [List.mem_singleton, Prod.mk.injEq] at hm
        obtain ⟨rfl, rfl⟩ := hm
        exact .direct (slot_iff.2 hs) hb
      next hb =>
        simp only [List.mem_map, Prod.exists, Prod.mk.injEq] at hm
        obtain ⟨us, z, hz, rfl, rfl⟩ := hm
        exact .through (slot_iff.2 hs) (by simpa using hb) ((ih y (by omega) us z).1 hz)
    · intro h
      cases h with
      | direct hs hb => exact ⟨_, slot_iff.1 hs, by simp [hb]⟩
      | through hs hb hl =>
        have hlt := nodes_slot (slot_iff.1 hs)
        refine ⟨_, slot_iff.1 hs, ?_⟩
        simp only [hb, Bool.false_eq_true, if_false, List.mem_map, Prod.exists, Prod.mk.injEq]
        exact ⟨_, _, (ih _ (by omega) _ _).2 hl, rfl, rfl⟩

/-- Tokens and names. -/
def labN (c : List Str × Obj) : Str × Obj := (nameOf c.1, c.2)

theorem addAll_append {ret ch : Dict Obj} {k : Str}
    (h : (Dict.keys ret ++ ch.map (fun c => jpCompose [k, c.1] none)).Nodup) :
    addAll ret k ch = ret ++ ch.map (fun c => (jpCompose [k, c.1] none, c.2)) := by
  induction ch generalizing ret with
  | nil => simp [addAll]
  | cons y ch ih =>
    simp only [List.map_cons] at h
    have hnot : jpCompose [k, y.1] none ∉ Dict.keys ret := by
      intro hm
      rw [List.nodup_append] at h
      exact h.2.2 _ hm _ (by simp) rfl
    have e : addAll ret k (y :: ch) = addAll (Dict.set ret (jpCompose [k, y.1] none) y.2) k ch := rfl
    rw [e, Dict.set_of_not_mem _ hnot, ih]
    · simp
    · simp only [Dict.keys, List.map_append, List.map_cons, List.map_nil] at h ⊢
      simpa using h

theorem addKids_append {n : Nat} {l : List (Str × Obj)} {ret : Dict Obj}
    (ih : ∀ k o, (k, o) ∈ l → ((lab n o).map (fun c => nameOf c.1)).Nodup → kids o = (lab n o).map labN)
    (hne : ∀ k o, (k, o) ∈ l → ∀ c ∈ lab n o, c.1 ≠ [])
    (h : (Dict.keys ret ++ (l.flatMap (fun s => if s.2.isBase then [([s.1], s.2)]
      else (lab n s.2).map (fun c => (s.1 :: c.1, c.2)))).map (fun c => nameOf c.1)).Nodup) :
    addKids l ret = ret ++ (l.flatMap (fun s => if s.2.isBase then [([s.1], s.2)]
      else (lab n s.2).map (fun c => (s.1 :: c.1, c.2)))).map labN := by
  induction l generalizing ret with
  | nil => simp [addKids]
  | cons y l ihl =>
    obtain ⟨k, o⟩ := y
    have ih' := fun k' o' hm => ih k' o' (List.mem_cons_of_mem (k, o) hm)
    have hne' := fun k' o' hm => hne k' o' (List.mem_cons_of_mem (k, o) hm)
    rw [addKids]
    simp only [List.flatMap_cons, List.map_append] at h ⊢
    cases hb : o.isBase with
    | true =>
      simp only [hb, if_true, List.map_cons, List.map_nil, List.singleton_append] at h ⊢
      have hnot : k ∉ Dict.keys ret := by
        intro hm
        rw [List.nodup_append] at h
        exact h.2.2 _ hm _ (by simp [nameOf]) rfl
      rw [Dict.set_of_not_mem _ hnot, ihl ih' hne']
      · simp [labN, nameOf]
      · simp only [Dict.keys, List.map_append, List.map_cons, List.map_nil] at h ⊢
        simpa [nameOf] using h
    | false =>
      simp only [hb, Bool.false_eq_true, if_false, List.map_map] at h ⊢
      have hmap : (lab n o).map ((fun c => nameOf c.1) ∘ fun c => (k :: c.1, c.2)) =
          (lab n o).map (fun c => jpCompose [k, nameOf c.1] none) := by
        apply List.map_congr_left
        intro c hc
        exact nameOf_cons (hne k o (by simp) c hc)
      rw [hmap] at h
      have hnd : ((lab n o).map (fun c => nameOf c.1)).Nodup := by
        have h2 : ((lab n o).map (fun c => jpCompose [k, nameOf c.1] none)).Nodup := by
          rw [List.nodup_append] at h
          have := h.2.1
          rw [List.nodup_append] at this
          exact this.1
        have e : (lab n o).map (fun c => jpCompose [k, nameOf c.1] none) =
            ((lab n o).map (fun c => nameOf c.1)).map (fun m => jpCompose [k, m] none) := by
          rw [List.map_map]; rfl
        rw [e] at h2
        exact (List.pairwise_map.1 h2).imp (fun hne he => hne (by rw [he]))
      have hk := ih k o (by simp) hnd
      rw [hk, addAll_append]
      · rw [ihl ih' hne']
        · simp only [List.map_map, List.append_assoc]
          congr 2
          apply List.map_congr_left
          intro c hc
          simp [labN, nameOf_cons (hne k o (by simp) c hc)]
        · rw [← List.append_assoc] at h
          simp only [Dict.keys, List.map_append, List.map_map] at h ⊢
          exact h
      · rw [← List.append_assoc, List.nodup_append] at h
        rw [List.map_map]
        exact h.1

/-- When all names are different, `get_children` lists exactly the children. -/
theorem kids_lab (n : Nat) : ∀ o, nodes o ≤ n → ((lab n o).map (fun c => nameOf c.1)).Nodup →
    kids o = (lab n o).map labN := by
  induction n with
  | zero => intro o h; cases o <;> simp [nodes] at h
  | succ n ih =>
    intro o ho hnd
    rw [kids_eq, lab]
    have := addKids_append (n := n) (l := slotsOf o) (ret := [])
      (fun k x hm => ih x (by have := nodes_slot hm; omega))
      (fun k x hm c hc => leads_ne_nil ((mem_lab n x (by have := nodes_slot hm; omega) c.1 c.2).1 hc))
      (by rw [lab] at hnd; simpa [Dict.keys] using hnd)
    simpa using this

/-! ### Different children have different names -/

theorem slash_not_mem_ofNat (n : Nat) : '/' ∉ Str.ofNat n := by
  intro h
  have := Nat.isDigit_of_mem_toDigits (b := 10) (by omega) (by omega) h
  simp at this

theorem ofNat_inj {a b : Nat} (h : Str.ofNat a = Str.ofNat b) : a = b := by
  have := congrArg (fun s => Nat.ofDigitChars 10 s 0) h
  simpa [Str.ofNat, Nat.ofDigitChars_ten_toDigits] using this

theorem slots_nodup {o : Obj} (hk : match o with
    | .base _ _ _ ks => Dict.NodupKeys ks
    | .map _ _ _ es => Dict.NodupKeys es
    | _ => True) : (slotsOf o).Pairwise (fun a b => a.1 ≠ b.1) := by
  cases o with
  | prim j => simp [slotsOf]
  | base c p s ks => exact List.pairwise_map.1 hk
  | map b p s es => exact List.pairwise_map.1 hk
  | list b p s es =>
    have : ∀ (l : List Obj) (i : Nat), (enumO i l).Pairwise (fun a b => a.1 ≠ b.1) := by
      intro l
      induction l with
      | nil => intro i; simp [enumO]
      | cons y l ih =>
        intro i
        rw [enumO, List.pairwise_cons]
        refine ⟨?_, ih _⟩
        rintro ⟨k, v⟩ hm
        obtain ⟨j, _, rfl⟩ := enumO_iff.1 hm
        intro he
        have := ofNat_inj he
        omega
    exact this es 0

theorem keyed_slot {o x : Obj} {k : Str} (h : Slot o k x) (hk : Keyed o) : Keyed x :=
  fun m hm => hk m (inside_slot h hm)

theorem noMix_slot {o x : Obj} {k : Str} (h : Slot o k x) (hk : NoMix o) : NoMix x :=
  fun m hm => hk m (inside_slot h hm)

theorem lab_names_nodup (n : Nat) : ∀ o, nodes o ≤ n → Keyed o → NoMix o →
    ((lab n o).map (fun c => nameOf c.1)).Nodup := by
  induction n with
  | zero => intro o h; cases o <;> simp [nodes] at h
  | succ n ih =>
    intro o ho hk hm
    rw [lab, List.map_flatMap, List.Nodup, List.pairwise_flatMap]
    constructor
    · rintro ⟨k, x⟩ hs
      have hlt := nodes_slot hs
      dsimp only
      cases hb : x.isBase with
      | true => simp
      | false =>
        simp only [Bool.false_eq_true, if_false, List.map_map]
        have hnd := ih x (by omega) (keyed_slot (slot_iff.2 hs) hk) (noMix_slot (slot_iff.2 hs) hm)
        have e : (lab n x).map ((fun c => nameOf c.1) ∘ fun c => (k :: c.1, c.2)) =
            ((lab n x).map (fun c => nameOf c.1)).map (fun m => jpCompose [k, m] none) := by
          rw [List.map_map]
          apply List.map_congr_left
          intro c hc
          exact nameOf_cons (leads_ne_nil ((mem_lab n x (by omega) c.1 c.2).1 hc))
        rw [e]
        exact List.pairwise_map.2 (hnd.imp (fun hne he => hne (jpCompose2_inj he).2))
    · have hself := hk o (.here o)
      refine (slots_nodup hself).imp_of_mem ?_
      rintro ⟨k, x⟩ ⟨k', x'⟩ hs hs' hne n1 h1 n2 h2 heq
      -- which names a slot gives
      have names : ∀ k x, (k, x) ∈ slotsOf o → ∀ nm, nm ∈ List.map (fun c => nameOf c.1)
          (if x.isBase then [([k], x)] else (lab n x).map (fun c => (k :: c.1, c.2))) →
          (x.isBase = true ∧ nm = k) ∨ (x.isBase = false ∧ x.isPrim = false ∧ ∃ m, nm = jpCompose [k, m] none) := by
        intro k x hs nm hnm
        cases hb : x.isBase with
        | true => left; simpa [hb, nameOf] using hnm
        | false =>
          right
          have hlt := nodes_slot hs
          simp only [hb, Bool.false_eq_true, if_false, List.map_map, List.mem_map] at hnm
          obtain ⟨c, hc, rfl⟩ := hnm
          have hl := (mem_lab n x (by omega) c.1 c.2).1 hc
          refine ⟨rfl, ?_, nameOf c.1, nameOf_cons (leads_ne_nil hl)⟩
          cases x with
          | prim j =>
            generalize c.1 = q at hl
            cases hl with
            | direct hs _ => cases hs
            | through hs _ _ => cases hs
          | _ => rfl
      dsimp only at hne h1 h2
      -- a plain name is different from a composed one
      have mixed : ∀ k x k' x', (k, x) ∈ slotsOf o → (k', x') ∈ slotsOf o → x.isBase = true →
          x'.isBase = false → x'.isPrim = false → ∀ m, k ≠ jpCompose [k', m] none := by
        intro k x k' x' hs hs' hb hb' hp m he
        have hslash : '/' ∈ k := by rw [he, jpCompose2]; simp
        have hmo := hm o (.here o)
        cases o with
        | prim j => simp [slotsOf] at hs
        | base c p s ks => exact hmo k x hs hslash
        | list b p s es =>
          obtain ⟨j, _, rfl⟩ := enumO_iff.1 hs
          exact slash_not_mem_ofNat _ hslash
        | map b p s es =>
          rcases hmo with h | h
          · rcases h k' x' hs' with h | h
            · rw [hb'] at h; cases h
            · rw [hp] at h; cases h
          · rw [h k x hs] at hb; cases hb
      rcases names k x hs n1 h1 with ⟨b1, e1⟩ | ⟨b1, p1, m1, e1⟩ <;>
        rcases names k' x' hs' n2 h2 with ⟨b2, e2⟩ | ⟨b2, p2, m2, e2⟩
      · exact hne (by rw [← e1, ← e2, heq])
      · exact mixed k x k' x' hs hs' b1 b2 p2 m2 (by rw [← e1, ← e2, heq])
      · exact mixed k' x' k x hs' hs b2 b1 p1 m1 (by rw [← e1, ← e2, heq])
      · exact hne (jpCompose2_inj (by rw [← e1, ← e2, heq])).1

theorem slot_unique {o x x' : Obj} {k : Str} (hk : Keyed o) (h : Slot o k x) (h' : Slot o k x') : x = x' := by
  have hself := hk o (.here o)
  cases h with
  | child h =>
    cases h' with
    | child h' => exact Option.some.inj ((Dict.get?_of_mem hself h).symm.trans (Dict.get?_of_mem hself h'))
  | item h =>
    cases h' with
    | item h' => exact Option.some.inj ((Dict.get?_of_mem hself h).symm.trans (Dict.get?_of_mem hself h'))
  | @elem _ _ _ _ i _ h =>
    generalize hq : Str.ofNat i = q at h'
    cases h' with
    | elem h' =>
      have := ofNat_inj hq
      subst this
      exact Option.some.inj (h.symm.trans h')

/-- Tokens that lead to a child do not go on inside it. -/
theorem leads_prefix {o x y : Obj} {ts r : List Str} (hk : Keyed o) (h : Leads o ts x)
    (h' : Leads o (ts ++ r) y) : r = [] ∧ x = y := by
  induction h with
  | direct hs hb =>
    rw [List.singleton_append] at h'
    cases h' with
    | direct hs' _ => exact ⟨rfl, slot_unique hk hs hs'⟩
    | through hs' hb' _ => rw [slot_unique hk hs' hs] at hb'; rw [hb] at hb'; cases hb'
  | through hs hb hl ih =>
    rw [List.cons_append] at h'
    generalize hq : _ ++ r = q at h'
    cases h' with
    | direct hs' hb' => rw [slot_unique hk hs' hs] at hb'; rw [hb] at hb'; cases hb'
    | through hs' _ hl' =>
      have := slot_unique hk hs' hs
      subst this
      subst hq
      exact ih (keyed_slot hs hk) hl'

/-! ### The traversal -/

theorem traverseLoop_append (leaves : List Str) (a b : List (Str × Obj)) :
    traverseLoop leaves (a ++ b) = traverseLoop leaves a ++ traverseLoop leaves b := by
  fun_induction traverseLoop leaves a with
  | case1 => simp
  | case2 p o st ih =>
    rw [List.cons_append, traverseLoop.eq_def]
    simp only [List.cons_append, List.cons.injEq, true_and]
    simp only [dite_eq_ite] at ih
    rw [← ih, List.append_assoc]

theorem traverseLoop_flatMap (leaves : List Str) (l : List (Str × Obj)) :
    traverseLoop leaves l = l.flatMap (fun s => traverseLoop leaves [s]) := by
  induction l with
  | nil => rw [traverseLoop.eq_def]; rfl
  | cons s l ih =>
    have : s :: l = [s] ++ l := rfl
    rw [this, traverseLoop_append, ih]
    rfl

theorem traverseLoop_one (leaves : List Str) (p : Str) (o : Obj) :
    traverseLoop leaves [(p, o)] = (p, o) :: if isLeaf leaves o then [] else
      (((kids o).map (fun c => (p ++ '/' :: c.1, c.2))).reverse).flatMap (fun s => traverseLoop leaves [s]) := by
  rw [traverseLoop.eq_def]
  simp only [List.append_nil, List.cons.injEq, true_and]
  split
  · rw [traverseLoop.eq_def]
  · exact traverseLoop_flatMap _ _

end Pyopenapi
