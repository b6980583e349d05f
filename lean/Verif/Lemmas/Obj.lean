import Verif.Spec.Obj
import Verif.Lemmas.Pointer

namespace Pyopenapi
open Spec
variable {T : Table}

/-- Induction following the recursion of `build`: on the value, then on the builder. -/
theorem build_ind {P : Builder → Json → Prop}
    (hcls : ∀ c j, (∀ b v, sizeOf v < sizeOf j → P b v) → P (.cls c) j)
    (hstr : ∀ j, P .isStr j) (hsi : ∀ j, P .isStrOrInt j)
    (hlist : ∀ b j, (∀ v, sizeOf v < sizeOf j → P b v) → P (.listOf b) j)
    (hmap : ∀ b j, (∀ v, sizeOf v < sizeOf j → P b v) → P (.mapOf b) j)
    (href : ∀ r b j, P (.cls r) j → P b j → P (.ifNotRef r b) j)
    (hbool : ∀ b j, P b j → P (.ifNotBool b) j) : ∀ b j, P b j := by
  have key : ∀ n j, sizeOf j = n → ∀ b, P b j := by
    intro n
    induction n using Nat.strongRecOn with
    | _ n ih =>
      intro j hj b
      have ih' : ∀ b v, sizeOf v < sizeOf j → P b v := fun b v h => ih (sizeOf v) (hj ▸ h) v rfl b
      have hc : ∀ c, P (.cls c) j := fun c => hcls c j ih'
      induction b with
      | cls c => exact hc c
      | isStr => exact hstr j
      | isStrOrInt => exact hsi j
      | listOf b _ => exact hlist b j (ih' b)
      | mapOf b _ => exact hmap b j (ih' b)
      | ifNotRef r b ihb => exact href r b j (hc r) ihb
      | ifNotBool b ihb => exact hbool b j ihb
  exact fun b j => key _ j rfl b

theorem size_elem {l : List Json} {x : Json} (h : x ∈ l) : sizeOf x < sizeOf (Json.arr l) := by
  have := List.sizeOf_lt_of_mem h
  simp; omega

theorem size_item {d : Dict Json} {k : Str} {x : Json} (h : (k, x) ∈ d) :
    sizeOf x < sizeOf (Json.obj d) := by
  have := List.sizeOf_lt_of_mem h
  simp at this ⊢; omega

theorem size_get {d : Dict Json} {k : Str} {x : Json} (h : Dict.get? d k = some x) :
    sizeOf x < sizeOf (Json.obj d) := size_item (Dict.mem_of_get? h)

/-! ### without overrides -/

@[simp] theorem splitOverride_nil : splitOverride [] = .ok [] := rfl
@[simp] theorem ovFor_nil (k : Str) : ovFor [] k = [] := rfl
@[simp] theorem ovHere_nil : ovHere [] = none := rfl

theorem buildKid_eq (k : Str) (cd : ChildDef) (j : Json) (path : Option Str) :
    buildKid T k cd j path [] = match specGet j k with
      | .error e => .error e
      | .ok none => if cd.required then .error .fieldNotExist else .ok none
      | .ok (some v) => if v = .null then .ok none
        else match build T cd.builder v (some (jpCompose [k] path)) [] with
          | .error e => .error e
          | .ok o => .ok (some o) := by
  rw [buildKid]
  simp only [ovFor_nil, ovHere_nil]
  split
  · rename_i e h; rw [h]
  · rename_i h; rw [h]
  · rename_i v h; rw [h]; rfl

theorem build_cls_ov (c : Str) (j : Json) (path : Option Str) (ov : Dict Obj) :
    build T (.cls c) j path ov = match splitOverride ov with
      | .error e => .error e
      | .ok ovs => match Dict.collect (fun k cd => buildKid T k cd j path ovs) (T c).children with
        | .error e => .error e
        | .ok kids => .ok (.base c path j kids) := by
  rw [build]; simp only [Builder.head, bind, Except.bind]
  cases splitOverride ov with
  | error e => rfl
  | ok ovs => simp only; cases Dict.collect (fun k cd => buildKid T k cd j path ovs) (T c).children <;> rfl

theorem build_cls (c : Str) (j : Json) (path : Option Str) :
    build T (.cls c) j path [] = match Dict.collect (fun k cd => buildKid T k cd j path []) (T c).children with
      | .error e => .error e
      | .ok kids => .ok (.base c path j kids) := by
  rw [build_cls_ov]; simp

theorem build_isStr (j : Json) (path : Option Str) :
    build T .isStr j path [] = match j with
      | .str _ => .ok (.prim j)
      | _ => .error .generic := by
  rw [build]; cases j <;> simp [Builder.head, bind, Except.bind, isStr, isStrOrInt]

theorem build_isStrOrInt (j : Json) (path : Option Str) :
    build T .isStrOrInt j path [] = match j with
      | .str _ => .ok (.prim j)
      | .int _ => .ok (.prim j)
      | .bool _ => .ok (.prim j)
      | _ => .error .generic := by
  rw [build]; cases j <;> simp [Builder.head, bind, Except.bind, isStr, isStrOrInt]

theorem build_list_ov (b : Builder) (l : List Json) (path : Option Str) (ov : Dict Obj) :
    build T (.listOf b) (.arr l) path ov = match splitOverride ov with
      | .error e => .error e
      | .ok ovs => match buildElems T b l 0 path ovs with
        | .error e => .error e
        | .ok es => .ok (.list b path (.arr l) es) := by
  rw [build]; simp only [Builder.head, bind, Except.bind]
  cases splitOverride ov with
  | error e => rfl
  | ok ovs => simp only; cases buildElems T b l 0 path ovs <;> rfl

theorem build_list (b : Builder) (l : List Json) (path : Option Str) :
    build T (.listOf b) (.arr l) path [] = match buildElems T b l 0 path [] with
      | .error e => .error e
      | .ok es => .ok (.list b path (.arr l) es) := by
  rw [build_list_ov]; simp

theorem build_list_other (b : Builder) (j : Json) (path : Option Str) (h : ∀ l, j ≠ .arr l) :
    build T (.listOf b) j path [] = .error .generic := by
  rw [build]
  cases j <;> simp_all [Builder.head, splitOverride_nil, bind, Except.bind]

theorem build_map_ov (b : Builder) (d : Dict Json) (path : Option Str) (ov : Dict Obj) :
    build T (.mapOf b) (.obj d) path ov = match splitOverride ov with
      | .error e => .error e
      | .ok ovs => match buildItems T b d path ovs with
        | .error e => .error e
        | .ok es => .ok (.map b path (.obj d) es) := by
  rw [build]; simp only [Builder.head, bind, Except.bind]
  cases splitOverride ov with
  | error e => rfl
  | ok ovs => simp only; cases buildItems T b d path ovs <;> rfl

theorem build_map (b : Builder) (d : Dict Json) (path : Option Str) :
    build T (.mapOf b) (.obj d) path [] = match buildItems T b d path [] with
      | .error e => .error e
      | .ok es => .ok (.map b path (.obj d) es) := by
  rw [build_map_ov]; simp

theorem build_map_other (b : Builder) (j : Json) (path : Option Str) (h : ∀ l, j ≠ .obj l) :
    build T (.mapOf b) j path [] = .error .generic := by
  rw [build]
  cases j <;> simp_all [Builder.head, splitOverride_nil, bind, Except.bind]

theorem build_head_congr {b b' : Builder} {j : Json} (h : b.head j = b'.head j) (path : Option Str)
    (ov : Dict Obj) : build T b j path ov = build T b' j path ov := by
  conv => lhs; rw [build]
  conv => rhs; rw [build]
  rw [h]

theorem build_head_error {b : Builder} {j : Json} {e : Err} (h : b.head j = .error e)
    (path : Option Str) (ov : Dict Obj) : build T b j path ov = .error e := by
  rw [build, h]; rfl

theorem build_ifNotRef (r : Str) (b : Builder) (j : Json) (path : Option Str) (ov : Dict Obj) :
    build T (.ifNotRef r b) j path ov = match specHas j (s% "$ref") with
      | .error e => .error e
      | .ok true => build T (.cls r) j path ov
      | .ok false => build T b j path ov := by
  cases h : specHas j (s% "$ref") with
  | error e => exact build_head_error (by simp [Builder.head, h, bind, Except.bind]) _ _
  | ok v =>
    cases v with
    | true => exact build_head_congr (by simp [Builder.head, h, bind, Except.bind]) _ _
    | false => exact build_head_congr (by simp [Builder.head, h, bind, Except.bind]) _ _

theorem build_ifNotBool (b : Builder) (j : Json) (path : Option Str) (ov : Dict Obj) :
    build T (.ifNotBool b) j path ov = if isBool j then .ok (.prim j) else build T b j path ov := by
  cases h : isBool j with
  | true => rw [build]; simp [Builder.head, h, bind, Except.bind]
  | false => exact build_head_congr (by simp [Builder.head, h]) _ _

theorem isBool_iff {j : Json} : isBool j = true ↔ ∃ v, j = .bool v := by
  cases j <;> simp [isBool]

theorem isBool_false {j : Json} : isBool j = false ↔ ∀ v, j ≠ .bool v := by
  cases j <;> simp [isBool]

/-! ### children, elements, items -/

@[simp] theorem buildAt_nil (b : Builder) (k : Str) (x : Json) (path : Option Str) :
    buildAt T b k x path [] = build T b x (some (jpCompose [k] path)) [] := by
  rw [buildAt]; rfl

theorem buildElems_iff {b : Builder} {l : List Json} {i : Nat} {path : Option Str}
    {ovs : Dict (Dict Obj)} {es : List Obj} :
    buildElems T b l i path ovs = .ok es ↔
      es.length = l.length ∧ ∀ n x o, l[n]? = some x → es[n]? = some o →
        buildAt T b (Str.ofNat (i + n)) x path ovs = .ok o := by
  induction l generalizing i es with
  | nil => rw [buildElems]; cases es <;> simp
  | cons x l ih =>
    rw [buildElems]
    simp only [bind, Except.bind]
    cases ha : buildAt T b (Str.ofNat i) x path ovs with
    | error e =>
      simp only [reduceCtorEq, false_iff]
      rintro ⟨h1, h2⟩
      cases es with
      | nil => simp at h1
      | cons o es =>
        have := h2 0 x o rfl rfl
        simp only [Nat.add_zero] at this
        rw [ha] at this; simp at this
    | ok o =>
      simp only
      cases hr : buildElems T b l (i + 1) path ovs with
      | error e =>
        simp only [reduceCtorEq, false_iff]
        rintro ⟨h1, h2⟩
        cases es with
        | nil => simp at h1
        | cons o' es =>
          have := ih (i := i + 1) (es := es) |>.2 ⟨by simpa using h1, by
            intro n x' o'' hx ho
            have := h2 (n + 1) x' o'' (by simpa using hx) (by simpa using ho)
            rw [show i + 1 + n = i + (n + 1) by omega]; exact this⟩
          rw [hr] at this; simp at this
      | ok r =>
        simp only [Except.ok.injEq]
        constructor
        · rintro rfl
          obtain ⟨h1, h2⟩ := (ih (i := i + 1)).1 hr
          refine ⟨by simp [h1], ?_⟩
          intro n x' o' hx ho
          cases n with
          | zero => simp at hx ho; subst hx ho; simpa using ha
          | succ n =>
            rw [show i + (n + 1) = i + 1 + n by omega]
            exact h2 n x' o' (by simpa using hx) (by simpa using ho)
        · rintro ⟨h1, h2⟩
          cases es with
          | nil => simp at h1
          | cons o' es =>
            have h0 := h2 0 x o' rfl rfl
            simp only [Nat.add_zero] at h0
            rw [ha] at h0
            have h0' := Except.ok.inj h0
            have := ih (i := i + 1) (es := es) |>.2 ⟨by simpa using h1, by
              intro n x' o'' hx ho
              have := h2 (n + 1) x' o'' (by simpa using hx) (by simpa using ho)
              rw [show i + 1 + n = i + (n + 1) by omega]; exact this⟩
            rw [hr] at this
            rw [h0', Except.ok.inj this]

theorem buildItems_eq {b : Builder} {d : Dict Json} {path : Option Str} {ovs : Dict (Dict Obj)} :
    buildItems T b d path ovs = Dict.mapM (fun k x => buildAt T b k x path ovs) d := by
  induction d with
  | nil => rw [buildItems]; rfl
  | cons p d ih =>
    obtain ⟨k, x⟩ := p
    rw [buildItems, Dict.mapM, ih]
    rfl

theorem specGet_obj (d : Dict Json) (k : Str) : specGet (.obj d) k = .ok (Dict.get? d k) := rfl

theorem contains_iff {s x : Str} : Str.contains s x = true ↔ ∃ a b, s = a ++ x ++ b := by
  induction s with
  | nil =>
    simp only [Str.contains, List.isPrefixOf_iff_prefix, List.prefix_nil]
    constructor
    · rintro rfl; exact ⟨[], [], rfl⟩
    · rintro ⟨a, b, h⟩
      have := congrArg List.length h
      simp at this
      exact List.eq_nil_of_length_eq_zero (by omega)
  | cons c s ih =>
    simp only [Str.contains, Bool.or_eq_true, List.isPrefixOf_iff_prefix, ih]
    constructor
    · rintro (⟨t, ht⟩ | ⟨a, b, h⟩)
      · exact ⟨[], t, by simpa using ht.symm⟩
      · exact ⟨c :: a, b, by simp [h]⟩
    · rintro ⟨a, b, h⟩
      cases a with
      | nil => left; exact ⟨b, by simpa using h.symm⟩
      | cons a as =>
        right
        simp only [List.cons_append, List.cons.injEq] at h
        exact ⟨as, b, h.2⟩

theorem specHas_true {j : Json} {k : Str} : specHas j k = .ok true ↔ Within k j := by
  cases j with
  | obj d =>
    simp only [specHas, Within, Except.ok.injEq, Dict.has]
    cases Dict.get? d k <;> simp
  | arr l => simp [specHas, Within]
  | str s => simp only [specHas, Within, Except.ok.injEq, contains_iff]
  | null => simp [specHas, Within]
  | bool b => simp [specHas, Within]
  | int n => simp [specHas, Within]
  | flt m e => simp [specHas, Within]

theorem specHas_false {j : Json} {k : Str} : specHas j k = .ok false ↔ Iterable j ∧ ¬ Within k j := by
  rw [← specHas_true]
  cases j <;> simp only [specHas, Iterable, Except.ok.injEq, true_and, Bool.not_eq_true, false_and,
    reduceCtorEq]

theorem specGet_none {j : Json} {k : Str} :
    specGet j k = .ok none ↔ Iterable j ∧ ¬ Within k j := by
  cases j with
  | obj d =>
    simp only [specGet, Within, Except.ok.injEq, Iterable, true_and]
    cases Dict.get? d k <;> simp
  | arr l => simp only [specGet, Within, Iterable, true_and]; split <;> simp_all
  | str s =>
    simp only [specGet, Within, Iterable, true_and, ← contains_iff]; split <;> simp_all
  | null => simp [specGet, Iterable]
  | bool b => simp [specGet, Iterable]
  | int n => simp [specGet, Iterable]
  | flt m e => simp [specGet, Iterable]

theorem specGet_some {j : Json} {k : Str} {v : Json} :
    specGet j k = .ok (some v) ↔ ∃ d, j = .obj d ∧ Dict.get? d k = some v := by
  cases j with
  | obj d => simp [specGet]
  | arr l => simp only [specGet]; split <;> simp
  | str s => simp only [specGet]; split <;> simp
  | null => simp [specGet]
  | bool b => simp [specGet]
  | int n => simp [specGet]
  | flt m e => simp [specGet]

end Pyopenapi
