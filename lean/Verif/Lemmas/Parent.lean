import Verif.Spec.Parent
import Verif.Lemmas.Obj

/-! # The memory a constructor leaves: the objects of the tree, one after the other -/

namespace Pyopenapi.Parent

open Pyopenapi.Heap (Val Body)

mutual
/-- How many objects a tree has. -/
def size : Obj → Nat
  | .prim _ => 0
  | .base _ _ _ ks => 1 + sizeItems ks
  | .list _ _ _ es => 1 + sizeElems es
  | .map _ _ _ es => 1 + sizeItems es
def sizeItems : List (Str × Obj) → Nat
  | [] => 0
  | (_, o) :: os => size o + sizeItems os
def sizeElems : List Obj → Nat
  | [] => 0
  | o :: os => size o + sizeElems os
end

/-- The value standing for a tree laid out from address `n` on. -/
def valOf (n : Nat) : Obj → Val
  | .prim j => .raw j
  | _ => .ref n

def vals (n : Nat) : List Obj → List Val
  | [] => []
  | o :: os => valOf n o :: vals (n + size o) os

def valItems (n : Nat) : List (Str × Obj) → Dict Val
  | [] => []
  | (k, o) :: os => (k, valOf n o) :: valItems (n + size o) os

mutual
/-- The objects of a tree, laid out from address `n` on; `p` is the parent of the first. -/
def layout (p : Option Nat) (n : Nat) : Obj → Mem
  | .prim _ => []
  | .base c path spec ks =>
    { body := .base c (valItems (n + 1) ks), path := path, spec := spec, parent := p } ::
      layoutKids n (n + 1) ks
  | .list _ path spec es =>
    { body := .list (vals (n + 1) es), path := path, spec := spec, parent := p } ::
      layoutElems n (n + 1) es
  | .map _ path spec es =>
    { body := .map (valItems (n + 1) es), path := path, spec := spec, parent := p } ::
      layoutItems n (n + 1) es
def layoutKids (a n : Nat) : List (Str × Obj) → Mem
  | [] => []
  | (_, o) :: os => layout (if o.truthy then some a else none) n o ++ layoutKids a (n + size o) os
def layoutElems (a n : Nat) : List Obj → Mem
  | [] => []
  | o :: os => layout (some a) n o ++ layoutElems a (n + size o) os
def layoutItems (a n : Nat) : List (Str × Obj) → Mem
  | [] => []
  | (_, o) :: os => layout (some a) n o ++ layoutItems a (n + size o) os
end

mutual
theorem layout_length (p : Option Nat) (n : Nat) : (o : Obj) → (layout p n o).length = size o
  | .prim _ => rfl
  | .base _ _ _ ks => by simp [layout, size, layoutKids_length n (n + 1) ks, Nat.add_comm]
  | .list _ _ _ es => by simp [layout, size, layoutElems_length n (n + 1) es, Nat.add_comm]
  | .map _ _ _ es => by simp [layout, size, layoutItems_length n (n + 1) es, Nat.add_comm]
theorem layoutKids_length (a n : Nat) : (os : List (Str × Obj)) → (layoutKids a n os).length = sizeItems os
  | [] => rfl
  | (_, o) :: os => by
    simp [layoutKids, sizeItems, layout_length _ n o, layoutKids_length a (n + size o) os]
theorem layoutElems_length (a n : Nat) : (os : List Obj) → (layoutElems a n os).length = sizeElems os
  | [] => rfl
  | o :: os => by
    simp [layoutElems, sizeElems, layout_length _ n o, layoutElems_length a (n + size o) os]
theorem layoutItems_length (a n : Nat) : (os : List (Str × Obj)) → (layoutItems a n os).length = sizeItems os
  | [] => rfl
  | (_, o) :: os => by
    simp [layoutItems, sizeItems, layout_length _ n o, layoutItems_length a (n + size o) os]
end

theorem modify_at {α : Type} (f : α → α) (n : α) (r : List α) :
    (m : List α) → (m ++ n :: r).modify m.length f = m ++ f n :: r
  | [] => rfl
  | x :: m => by simp [modify_at f n r m]

/-- The address of the first object of a tree that is one. -/
theorem adopt_layout (m : Mem) (o : Obj) (a : Nat) :
    adopt (m ++ layout none m.length o) (valOf m.length o) a =
      m ++ layout (if o.truthy then some a else none) m.length o := by
  cases o with
  | prim j => simp [valOf, adopt, layout]
  | base c path spec ks =>
    simp [valOf, adopt, layout, truthy, setParent, modify_at, Obj.truthy]
  | list b path spec es =>
    cases es with
    | nil => simp [valOf, adopt, layout, truthy, Obj.truthy, vals]
    | cons e es => simp [valOf, adopt, layout, truthy, setParent, modify_at, Obj.truthy, vals]
  | map b path spec es =>
    cases es with
    | nil => simp [valOf, adopt, layout, truthy, Obj.truthy, valItems]
    | cons e es => simp [valOf, adopt, layout, truthy, setParent, modify_at, Obj.truthy, valItems]

theorem adoptAny_layout (m : Mem) (o : Obj) (a : Nat) :
    adoptAny (m ++ layout none m.length o) (valOf m.length o) a = m ++ layout (some a) m.length o := by
  cases o with
  | prim j => simp [valOf, adoptAny, layout]
  | base c path spec ks => simp [valOf, adoptAny, layout, setParent, modify_at]
  | list b path spec es => simp [valOf, adoptAny, layout, setParent, modify_at]
  | map b path spec es => simp [valOf, adoptAny, layout, setParent, modify_at]

/-- Making `x` in memory `m` is building it, and laying it out. -/
def Same (T : Table) (x : Json) : Prop := ∀ b path m,
  make T b x path m = (build T b x path []).map (fun o => (valOf m.length o, m ++ layout none m.length o))

variable {T : Table}

theorem makeKid_eq {j : Json} (k : Str) (cd : ChildDef) (path : Option Str) (self : Nat) (m : Mem)
    (ih : ∀ v, specGet j k = .ok (some v) → Same T v) :
    makeKid T k cd j path self m = (buildKid T k cd j path []).map (fun r => match r with
      | none => (none, m)
      | some o => (some (valOf m.length o),
          m ++ layout (if o.truthy then some self else none) m.length o)) := by
  rw [makeKid, buildKid_eq]
  split
  · next e he => rw [he]; rfl
  · next he => rw [he]; dsimp only; split <;> rfl
  · next v he =>
    rw [he]
    dsimp only
    by_cases hv : v = .null
    · rw [if_pos hv, if_pos hv]; rfl
    · rw [if_neg hv, if_neg hv, ih v he]
      cases hb : build T cd.builder v (some (jpCompose [k] path)) [] with
      | error e => rfl
      | ok o =>
        show Except.ok _ = Except.ok _
        rw [adopt_layout]

theorem collectM_eq {j : Json} (path : Option Str) (self : Nat)
    (ih : ∀ k v, specGet j k = .ok (some v) → Same T v) : (cs : Dict ChildDef) → (m : Mem) →
    collectM (fun k cd m' => makeKid T k cd j path self m') cs m =
      (Dict.collect (fun k cd => buildKid T k cd j path []) cs).map
        (fun ks => (valItems m.length ks, m ++ layoutKids self m.length ks))
  | [], m => by simp [collectM, Dict.collect, valItems, layoutKids, Except.map, pure, Except.pure]
  | (k, cd) :: cs, m => by
    rw [collectM, makeKid_eq k cd path self m (ih k)]
    cases hk : buildKid T k cd j path [] with
    | error e => simp [Dict.collect, hk, bind, Except.bind, Except.map]
    | ok r =>
      cases r with
      | none =>
        simp only [Dict.collect, hk, bind, Except.bind, Except.map]
        rw [collectM_eq path self ih cs m]
        cases Dict.collect (fun k cd => buildKid T k cd j path []) cs <;> rfl
      | some o =>
        simp only [Dict.collect, hk, bind, Except.bind, Except.map]
        rw [collectM_eq path self ih cs]
        cases Dict.collect (fun k cd => buildKid T k cd j path []) cs with
        | error e => rfl
        | ok ks => simp [Except.map, valItems, layoutKids, layout_length]

theorem makeElems_eq {b : Builder} (path : Option Str) (self : Nat) : (l : List Json) →
    (∀ x ∈ l, Same T x) → (i : Nat) → (m : Mem) →
    makeElems T b l i path self m = (buildElems T b l i path []).map
      (fun es => (vals m.length es, m ++ layoutElems self m.length es))
  | [], _, i, m => by rw [makeElems, buildElems]; simp [Except.map, vals, layoutElems]
  | x :: l, ih, i, m => by
    rw [makeElems, buildElems, buildAt_nil, ih x (by simp)]
    cases hb : build T b x (some (jpCompose [Str.ofNat i] path)) [] with
    | error e => rfl
    | ok o =>
      simp only [bind, Except.bind, Except.map, adoptAny_layout]
      rw [makeElems_eq path self l (fun y hy => ih y (List.mem_cons_of_mem _ hy))]
      cases buildElems T b l (i + 1) path [] with
      | error e => rfl
      | ok es => simp [Except.map, vals, layoutElems, layout_length]

theorem makeItems_eq {b : Builder} (path : Option Str) (self : Nat) : (d : List (Str × Json)) →
    (∀ k x, (k, x) ∈ d → Same T x) → (m : Mem) →
    makeItems T b d path self m = (buildItems T b d path []).map
      (fun es => (valItems m.length es, m ++ layoutItems self m.length es))
  | [], _, m => by rw [makeItems, buildItems]; simp [Except.map, valItems, layoutItems]
  | (k, x) :: d, ih, m => by
    rw [makeItems, buildItems, buildAt_nil, ih k x (by simp)]
    cases hb : build T b x (some (jpCompose [k] path)) [] with
    | error e => rfl
    | ok o =>
      simp only [bind, Except.bind, Except.map, adoptAny_layout]
      rw [makeItems_eq path self d (fun k y hy => ih k y (List.mem_cons_of_mem _ hy))]
      cases buildItems T b d path [] with
      | error e => rfl
      | ok es => simp [Except.map, valItems, layoutItems, layout_length]

/-- **Constructing is building and laying out.** -/
theorem make_eq (j : Json) : Same T j := by
  intro b path m
  rw [make, build]
  cases hh : b.head j with
  | error e => rfl
  | ok hd =>
    simp only [bind, Except.bind]
    cases hd with
    | raw => simp [Except.map, valOf, layout]
    | cls c =>
      simp only [splitOverride_nil]
      rw [collectM_eq path m.length (fun k v hv => have := specGet_size hv; make_eq v)]
      cases Dict.collect (fun k cd => buildKid T k cd j path []) (T c).children with
      | error e => rfl
      | ok ks =>
        simp [Except.map, valOf, layout, setBody, modify_at]
    | isStr => cases j <;> simp [isStr, Except.map, valOf, layout]
    | isStrOrInt => cases j <;> simp [isStrOrInt, Except.map, valOf, layout]
    | listOf b' =>
      simp only [splitOverride_nil]
      cases j with
      | arr l =>
        dsimp only
        rw [makeElems_eq path m.length l (fun x hx => make_eq x)]
        cases buildElems T b' l 0 path [] with
        | error e => rfl
        | ok es => simp [Except.map, valOf, layout, setBody, modify_at]
      | _ => rfl
    | mapOf b' =>
      simp only [splitOverride_nil]
      cases j with
      | obj d =>
        dsimp only
        rw [makeItems_eq path m.length d (fun k x hx => make_eq x)]
        cases buildItems T b' d path [] with
        | error e => rfl
        | ok es => simp [Except.map, valOf, layout, setBody, modify_at]
      | _ => rfl
termination_by sizeOf j
decreasing_by
  · exact this
  · have := List.sizeOf_lt_of_mem hx; simp; omega
  · have := List.sizeOf_lt_of_mem hx; simp at this ⊢; omega

end Pyopenapi.Parent
