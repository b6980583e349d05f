import Verif.Lemmas.Parent

/-! # Who holds whom in the memory a constructor leaves -/

namespace Pyopenapi.Parent

open Pyopenapi.Heap (Val Body)
open Spec

/-- The memory holds the objects of `L` from address `n` on. -/
def Seg (M : Mem) (n : Nat) (L : Mem) : Prop := ∀ i, i < L.length → M[n + i]? = L[i]?

theorem Seg.left {M : Mem} {n : Nat} {L L' : Mem} (h : Seg M n (L ++ L')) : Seg M n L := by
  intro i hi
  rw [h i (by simp; omega), List.getElem?_append_left hi]

theorem Seg.right {M : Mem} {n : Nat} {L L' : Mem} (h : Seg M n (L ++ L')) : Seg M (n + L.length) L' := by
  intro i hi
  have := h (L.length + i) (by simp; omega)
  rw [List.getElem?_append_right (by omega)] at this
  rw [Nat.add_assoc, this]
  congr 1
  omega

theorem Seg.head {M : Mem} {n : Nat} {x : Node} {L : Mem} (h : Seg M n (x :: L)) : M[n]? = some x :=
  h 0 (by simp)

theorem Seg.tail {M : Mem} {n : Nat} {x : Node} {L : Mem} (h : Seg M n (x :: L)) : Seg M (n + 1) L := by
  intro i hi
  have := h (i + 1) (by simp; omega)
  rw [Nat.add_assoc, Nat.add_comm 1 i, this]
  rfl

/-! ## A tree is in memory -/

mutual
theorem shows_layout {M : Mem} {p : Option Nat} {n : Nat} : (o : Obj) → Seg M n (layout p n o) →
    Shows M (valOf n o) o
  | .prim j, _ => rfl
  | .base c path spec ks, h => ⟨_, _, h.head, rfl, rfl, rfl, showsKids_layout ks h.tail⟩
  | .list b path spec es, h => ⟨_, _, h.head, rfl, rfl, rfl, showsElems_layout es h.tail⟩
  | .map b path spec es, h => ⟨_, _, h.head, rfl, rfl, rfl, showsItems_layout es h.tail⟩
theorem showsKids_layout {M : Mem} {a n : Nat} : (os : List (Str × Obj)) →
    Seg M n (layoutKids a n os) → ShowsItems M (valItems n os) os
  | [], _ => trivial
  | (k, o) :: os, h => ⟨rfl, shows_layout o h.left, showsKids_layout os (layout_length _ n o ▸ h.right)⟩
theorem showsElems_layout {M : Mem} {a n : Nat} : (os : List Obj) →
    Seg M n (layoutElems a n os) → ShowsElems M (vals n os) os
  | [], _ => trivial
  | o :: os, h => ⟨shows_layout o h.left, showsElems_layout os (layout_length _ n o ▸ h.right)⟩
theorem showsItems_layout {M : Mem} {a n : Nat} : (os : List (Str × Obj)) →
    Seg M n (layoutItems a n os) → ShowsItems M (valItems n os) os
  | [], _ => trivial
  | (k, o) :: os, h => ⟨rfl, shows_layout o h.left, showsItems_layout os (layout_length _ n o ▸ h.right)⟩
end

/-! ## Children, entries and elements alike -/

/-- `enumerate`, the index printed. -/
def enumO (i : Nat) : List Obj → List (Str × Obj)
  | [] => []
  | o :: os => (Str.ofNat i, o) :: enumO (i + 1) os

/-- What a value holds. -/
def slots : Obj → List (Str × Obj)
  | .prim _ => []
  | .base _ _ _ ks => ks
  | .list _ _ _ es => enumO 0 es
  | .map _ _ _ es => es

/-- The parent that an object of the kind of `o` at address `a` gives to what it holds. -/
def par (o : Obj) (a : Nat) (x : Obj) : Option Nat :=
  match o with
  | .base _ _ _ _ => if x.truthy then some a else none
  | _ => some a

def layoutAll (p : Obj → Option Nat) (n : Nat) : List (Str × Obj) → Mem
  | [] => []
  | (_, o) :: os => layout (p o) n o ++ layoutAll p (n + size o) os

theorem layoutKids_all (a : Nat) : (os : List (Str × Obj)) → (n : Nat) →
    layoutKids a n os = layoutAll (fun x => if x.truthy then some a else none) n os
  | [], _ => rfl
  | (_, o) :: os, n => by rw [layoutKids, layoutAll, layoutKids_all a os]

theorem layoutItems_all (a : Nat) : (os : List (Str × Obj)) → (n : Nat) →
    layoutItems a n os = layoutAll (fun _ => some a) n os
  | [], _ => rfl
  | (_, o) :: os, n => by rw [layoutItems, layoutAll, layoutItems_all a os]

theorem layoutElems_all (a : Nat) : (os : List Obj) → (n i : Nat) →
    layoutElems a n os = layoutAll (fun _ => some a) n (enumO i os)
  | [], _, _ => rfl
  | o :: os, n, i => by rw [layoutElems, enumO, layoutAll, layoutElems_all a os _ (i + 1)]

theorem layoutAll_length (p : Obj → Option Nat) : (os : List (Str × Obj)) → (n : Nat) →
    (layoutAll p n os).length = sizeItems os
  | [], _ => rfl
  | (_, o) :: os, n => by
    simp [layoutAll, sizeItems, layout_length _ n o, layoutAll_length p os (n + size o)]

theorem sizeElems_enum : (os : List Obj) → (i : Nat) → sizeItems (enumO i os) = sizeElems os
  | [], _ => rfl
  | o :: os, i => by rw [enumO, sizeItems, sizeElems, sizeElems_enum os (i + 1)]

theorem vals_enum : (os : List Obj) → (n i j : Nat) → (v : Val) → (vals n os)[j]? = some v →
    (Str.ofNat (i + j), v) ∈ valItems n (enumO i os)
  | [], _, _, _, _, h => by simp [vals] at h
  | o :: os, n, i, 0, v, h => by
    simp [vals] at h
    simp [enumO, valItems, h]
  | o :: os, n, i, j + 1, v, h => by
    simp [vals] at h
    have := vals_enum os (n + size o) (i + 1) j v h
    rw [Nat.add_assoc, Nat.add_comm 1 j] at this
    exact List.mem_cons_of_mem _ this

theorem enum_vals : (os : List Obj) → (n i : Nat) → (k : Str) → (v : Val) →
    (k, v) ∈ valItems n (enumO i os) → ∃ j, k = Str.ofNat (i + j) ∧ (vals n os)[j]? = some v
  | [], _, _, _, _, h => by simp [enumO, valItems] at h
  | o :: os, n, i, k, v, h => by
    rw [enumO, valItems] at h
    rcases List.mem_cons.1 h with h | h
    · injection h with h1 h2
      exact ⟨0, h1, by simp [vals, h2]⟩
    · obtain ⟨j, hj, hv⟩ := enum_vals os (n + size o) (i + 1) k v h
      exact ⟨j + 1, by rw [hj]; congr 1; omega, by simpa [vals] using hv⟩

/-- A value that is no object. -/
def IsPrim (o : Obj) : Prop := ∃ j, o = .prim j

theorem valOf_ref {n : Nat} {o : Obj} (h : ¬ IsPrim o) : valOf n o = .ref n := by
  cases o with
  | prim j => exact absurd ⟨j, rfl⟩ h
  | _ => rfl

theorem size_slots {o : Obj} (h : ¬ IsPrim o) : size o = 1 + sizeItems (slots o) := by
  cases o with
  | prim j => exact absurd ⟨j, rfl⟩ h
  | base => rfl
  | list b p s es => rw [size, slots, sizeElems_enum]
  | map => rfl

/-- An object in memory: what it holds is laid out behind it. -/
theorem layout_slots {M : Mem} {p : Option Nat} {n : Nat} {o : Obj} (hp : ¬ IsPrim o)
    (h : Seg M n (layout p n o)) :
    getParent M n = p ∧ Seg M (n + 1) (layoutAll (par o n) (n + 1) (slots o)) ∧
    (∀ k v, Holds M n k v ↔ (k, v) ∈ valItems (n + 1) (slots o)) ∧
    (o.truthy = false → Empty M n) ∧
    (∀ x a, par o a x = none → x.truthy = false ∧ IsBase M n) ∧ (∀ x a b, par o a x = some b → b = a) := by
  cases o with
  | prim j => exact absurd ⟨j, rfl⟩ hp
  | base c path spec ks =>
    have h0 := h.head
    refine ⟨by simp [getParent, h0], by have := h.tail; rw [layoutKids_all] at this; exact this,
      fun k v => ⟨fun hh => ?_, fun hh => .child h0 rfl hh⟩, fun ht => by simp [Obj.truthy] at ht,
      fun x a hx => ⟨?_, _, _, _, h0, rfl⟩, fun x a b hx => ?_⟩
    · cases hh with
      | child h1 h2 h3 => rw [h0] at h1; cases h1; cases h2; exact h3
      | item h1 h2 h3 => rw [h0] at h1; cases h1; cases h2
      | elem h1 h2 h3 => rw [h0] at h1; cases h1; cases h2
    · simp only [par] at hx
      split at hx
      · cases hx
      · next hn => simpa using hn
    · simp only [par] at hx
      split at hx
      · exact (Option.some.inj hx).symm
      · cases hx
  | list b path spec es =>
    have h0 := h.head
    refine ⟨by simp [getParent, h0], by have := h.tail; rw [layoutElems_all _ _ _ 0] at this; exact this,
      fun k v => ⟨fun hh => ?_, fun hh => ?_⟩, fun ht => ?_, fun x a hx => by simp [par] at hx,
      fun x a b hx => by simp [par] at hx; exact hx.symm⟩
    · cases hh with
      | child h1 h2 h3 => rw [h0] at h1; cases h1; cases h2
      | item h1 h2 h3 => rw [h0] at h1; cases h1; cases h2
      | elem h1 h2 h3 =>
        rw [h0] at h1; cases h1; cases h2
        have := vals_enum es (n + 1) 0 _ v h3
        rwa [Nat.zero_add] at this
    · obtain ⟨j, hj, hv⟩ := enum_vals es (n + 1) 0 k v hh
      rw [hj, Nat.zero_add]
      exact .elem h0 rfl hv
    · cases es with
      | nil => exact ⟨_, h0, .inl rfl⟩
      | cons e es => simp [Obj.truthy] at ht
  | map b path spec ks =>
    have h0 := h.head
    refine ⟨by simp [getParent, h0], by have := h.tail; rw [layoutItems_all] at this; exact this,
      fun k v => ⟨fun hh => ?_, fun hh => .item h0 rfl hh⟩, fun ht => ?_,
      fun x a hx => by simp [par] at hx, fun x a b hx => by simp [par] at hx; exact hx.symm⟩
    · cases hh with
      | child h1 h2 h3 => rw [h0] at h1; cases h1; cases h2
      | item h1 h2 h3 => rw [h0] at h1; cases h1; cases h2; exact h3
      | elem h1 h2 h3 => rw [h0] at h1; cases h1; cases h2
    · cases ks with
      | nil => exact ⟨_, h0, .inr rfl⟩
      | cons e es => simp [Obj.truthy] at ht

/-- What holds inside the addresses from `n` to `e`. -/
structure Tidy (M : Mem) (n e : Nat) : Prop where
  range : ∀ a k b, n ≤ a → a < e → Holds M a k (.ref b) → a < b ∧ b < e
  parent : ∀ a k b, n ≤ a → a < e → Holds M a k (.ref b) →
    getParent M b = some a ∨ IsBase M a ∧ Empty M b ∧ getParent M b = none
  once : ∀ a k a' k' b, n ≤ a → a < e → n ≤ a' → a' < e → Holds M a k (.ref b) →
    Holds M a' k' (.ref b) → a = a' ∧ k = k'

/-- What holds for a list of trees laid out from address `n` on. -/
structure Row (M : Mem) (p : Obj → Option Nat) (n : Nat) (os : List (Str × Obj)) : Prop where
  tidy : Tidy M n (n + sizeItems os)
  start : ∀ k b, (k, Val.ref b) ∈ valItems n os → n ≤ b ∧ b < n + sizeItems os ∧
    ∃ o, getParent M b = p o ∧ (o.truthy = false → Empty M b)
  startOnce : ∀ k k' b, (k, Val.ref b) ∈ valItems n os → (k', Val.ref b) ∈ valItems n os → k = k'
  apart : ∀ k b a k', (k, Val.ref b) ∈ valItems n os → n ≤ a → a < n + sizeItems os →
    ¬ Holds M a k' (.ref b)
  all : ∀ b, n ≤ b → b < n + sizeItems os → (∃ k, (k, Val.ref b) ∈ valItems n os) ∨
    ∃ a k, n ≤ a ∧ a < n + sizeItems os ∧ Holds M a k (.ref b)

/-- What holds for one tree. -/
structure Block (M : Mem) (p : Option Nat) (n : Nat) (o : Obj) : Prop where
  tidy : Tidy M n (n + size o)
  parent : getParent M n = p
  empty : o.truthy = false → Empty M n
  all : ∀ b, n < b → b < n + size o → ∃ a k, n ≤ a ∧ a < n + size o ∧ Holds M a k (.ref b)

theorem row_of {M : Mem} {p : Obj → Option Nat} : (os : List (Str × Obj)) → (n : Nat) →
    (∀ k o, (k, o) ∈ os → ∀ n, ¬ IsPrim o → Seg M n (layout (p o) n o) → Block M (p o) n o) →
    Seg M n (layoutAll p n os) → Row M p n os
  | [], n, _, _ => by
    refine ⟨⟨?_, ?_, ?_⟩, ?_, ?_, ?_, ?_⟩
    · intro a k b h1 h2; simp [sizeItems] at h2; omega
    · intro a k b h1 h2; simp [sizeItems] at h2; omega
    · intro a k a' k' b h1 h2; simp [sizeItems] at h2; omega
    · intro k b h; simp [valItems] at h
    · intro k k' b h; simp [valItems] at h
    · intro k b a k' h; simp [valItems] at h
    · intro b h1 h2; simp [sizeItems] at h2; omega
  | (k₀, o) :: os, n, ih, h => by
    have R := row_of os (n + size o) (fun k x hx => ih k x (List.mem_cons_of_mem _ hx))
      (by have := h.right; rwa [layout_length] at this)
    have hs : sizeItems ((k₀, o) :: os) = size o + sizeItems os := rfl
    by_cases hp : IsPrim o
    · obtain ⟨j, rfl⟩ := hp
      have e0 : size (.prim j) = 0 := rfl
      rw [e0, Nat.add_zero] at R
      have hv : ∀ {k b}, (k, Val.ref b) ∈ valItems n ((k₀, .prim j) :: os) →
          (k, Val.ref b) ∈ valItems n os := by
        intro k b hm
        rw [valItems] at hm
        rcases List.mem_cons.1 hm with hm | hm
        · injection hm with _ h2; simp [valOf] at h2
        · exact hm
      have es : sizeItems ((k₀, Obj.prim j) :: os) = sizeItems os := by rw [hs, e0, Nat.zero_add]
      refine ⟨es ▸ R.tidy, fun k b hm => es ▸ R.start k b (hv hm),
        fun k k' b hm hm' => R.startOnce k k' b (hv hm) (hv hm'),
        fun k b a k' hm h1 h2 => R.apart k b a k' (hv hm) h1 (es ▸ h2), fun b h1 h2 => ?_⟩
      rcases R.all b h1 (es ▸ h2) with ⟨k, hk⟩ | ⟨a, k, h1, h2, h3⟩
      · exact .inl ⟨k, List.mem_cons_of_mem _ hk⟩
      · exact .inr ⟨a, k, h1, es ▸ h2, h3⟩
    · have B := ih k₀ o (by simp) n hp h.left
      have hpos : 0 < size o := by rw [size_slots hp]; omega
      have hv : ∀ {k b}, (k, Val.ref b) ∈ valItems n ((k₀, o) :: os) →
          (k = k₀ ∧ b = n) ∨ (k, Val.ref b) ∈ valItems (n + size o) os := by
        intro k b hm
        rw [valItems] at hm
        rcases List.mem_cons.1 hm with hm | hm
        · rw [valOf_ref hp] at hm
          injection hm with h1 h2
          exact .inl ⟨h1, Val.ref.inj h2⟩
        · exact .inr hm
      have split : ∀ {a}, n ≤ a → a < n + sizeItems ((k₀, o) :: os) →
          (n ≤ a ∧ a < n + size o) ∨ (n + size o ≤ a ∧ a < n + size o + sizeItems os) := by
        intro a h1 h2; rw [hs] at h2; omega
      refine ⟨⟨?_, ?_, ?_⟩, ?_, ?_, ?_, ?_⟩
      · intro a k b h1 h2 hh
        rcases split h1 h2 with ⟨h1, h2⟩ | ⟨h1, h2⟩
        · have := B.tidy.range a k b h1 h2 hh; rw [hs]; omega
        · have := R.tidy.range a k b h1 h2 hh; rw [hs]; omega
      · intro a k b h1 h2 hh
        rcases split h1 h2 with ⟨h1, h2⟩ | ⟨h1, h2⟩
        · exact B.tidy.parent a k b h1 h2 hh
        · exact R.tidy.parent a k b h1 h2 hh
      · intro a k a' k' b h1 h2 h1' h2' hh hh'
        rcases split h1 h2 with ⟨h1, h2⟩ | ⟨h1, h2⟩ <;> rcases split h1' h2' with ⟨h1', h2'⟩ | ⟨h1', h2'⟩
        · exact B.tidy.once a k a' k' b h1 h2 h1' h2' hh hh'
        · have := B.tidy.range a k b h1 h2 hh
          have := R.tidy.range a' k' b h1' h2' hh'
          omega
        · have := R.tidy.range a k b h1 h2 hh
          have := B.tidy.range a' k' b h1' h2' hh'
          omega
        · exact R.tidy.once a k a' k' b h1 h2 h1' h2' hh hh'
      · intro k b hm
        rcases hv hm with ⟨_, rfl⟩ | hm
        · exact ⟨Nat.le_refl _, by rw [hs]; omega, o, B.parent, B.empty⟩
        · obtain ⟨h1, h2, h3⟩ := R.start k b hm
          exact ⟨by omega, by rw [hs]; omega, h3⟩
      · intro k k' b hm hm'
        rcases hv hm with ⟨hk, hb⟩ | hq <;> rcases hv hm' with ⟨hk', hb'⟩ | hq'
        · rw [hk, hk']
        · have := R.start _ _ hq'; omega
        · have := R.start _ _ hq; omega
        · exact R.startOnce k k' b hq hq'
      · intro k b a k' hm h1 h2 hh
        rcases hv hm with ⟨rfl, rfl⟩ | hm <;> rcases split h1 h2 with ⟨h1, h2⟩ | ⟨h1, h2⟩
        · have := B.tidy.range _ _ _ h1 h2 hh; omega
        · have := R.tidy.range _ _ _ h1 h2 hh; omega
        · have := B.tidy.range _ _ _ h1 h2 hh
          have := R.start _ _ hm; omega
        · exact R.apart k b a k' hm h1 h2 hh
      · intro b h1 h2
        rcases split h1 h2 with ⟨h1, h2⟩ | ⟨h1, h2⟩
        · by_cases hb : b = n
          · subst hb
            exact .inl ⟨k₀, by rw [valItems, valOf_ref hp]; exact List.mem_cons_self ..⟩
          · obtain ⟨a, k, h3, h4, h5⟩ := B.all b (by omega) h2
            exact .inr ⟨a, k, h3, by rw [hs]; omega, h5⟩
        · rcases R.all b h1 h2 with ⟨k, hk⟩ | ⟨a, k, h3, h4, h5⟩
          · exact .inl ⟨k, List.mem_cons_of_mem _ hk⟩
          · exact .inr ⟨a, k, by omega, by rw [hs]; omega, h5⟩

theorem size_mem {k : Str} {o : Obj} : {os : List (Str × Obj)} → (k, o) ∈ os → size o ≤ sizeItems os
  | (k', o') :: os, h => by
    rcases List.mem_cons.1 h with h | h
    · injection h with _ h2; subst h2; simp [sizeItems]
    · have := size_mem h; simp [sizeItems]; omega

/-- **A tree in memory is tidy.** -/
theorem block_of {M : Mem} (o : Obj) (p : Option Nat) (n : Nat) (hp : ¬ IsPrim o)
    (h : Seg M n (layout p n o)) : Block M p n o := by
  obtain ⟨h1, h2, h3, h4, h5, h6⟩ := layout_slots hp h
  have hsz := size_slots hp
  have R := row_of (p := par o n) (slots o) (n + 1)
    (fun k x hx n' hx' hs => have := size_mem hx; block_of x _ n' hx' hs) h2
  have hend : n + 1 + sizeItems (slots o) = n + size o := by omega
  have T := hend ▸ R.tidy
  have split : ∀ {a}, n ≤ a → a < n + size o → a = n ∨ (n + 1 ≤ a ∧ a < n + size o) := by
    intro a h1 h2; omega
  refine ⟨⟨?_, ?_, ?_⟩, h1, h4, ?_⟩
  · intro a k b ha hb hh
    rcases split ha hb with rfl | ⟨ha, hb⟩
    · have := R.start k b ((h3 k _).1 hh); omega
    · exact T.range a k b ha hb hh
  · intro a k b ha hb hh
    rcases split ha hb with rfl | ⟨ha, hb⟩
    · obtain ⟨_, _, x, hx, hxe⟩ := R.start k b ((h3 k _).1 hh)
      cases hq : par o a x with
      | none =>
        obtain ⟨ht, hbase⟩ := h5 x a hq
        exact .inr ⟨hbase, hxe ht, hx.trans hq⟩
      | some c => exact .inl (hx.trans (hq.trans (congrArg some (h6 x a c hq))))
    · exact T.parent a k b ha hb hh
  · intro a k a' k' b ha hb ha' hb' hh hh'
    rcases split ha hb with rfl | ⟨ha, hb⟩ <;> rcases split ha' hb' with rfl | ⟨ha', hb'⟩
    · exact ⟨rfl, R.startOnce k k' b ((h3 k _).1 hh) ((h3 k' _).1 hh')⟩
    · exact absurd hh' (R.apart k b a' k' ((h3 k _).1 hh) ha' (by omega))
    · exact absurd hh (R.apart k' b a k ((h3 k' _).1 hh') ha (by omega))
    · exact T.once a k a' k' b ha hb ha' hb' hh hh'
  · intro b hb hb'
    rcases R.all b (by omega) (by omega) with ⟨k, hk⟩ | ⟨a, k, h7, h8, h9⟩
    · exact ⟨n, k, Nat.le_refl _, by omega, (h3 k _).2 hk⟩
    · exact ⟨a, k, by omega, by omega, h9⟩
termination_by size o
decreasing_by omega

end Pyopenapi.Parent
