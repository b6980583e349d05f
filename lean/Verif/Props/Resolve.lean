import Verif.Lemmas.Dump
import Verif.Lemmas.Tables
import Verif.Lemmas.Version
import Verif.Lemmas.PyInt
import Verif.Props.Pointer

/-!
# C25, C26: resolving tokens inside a loaded object, and the path of what is found
-/

namespace Pyopenapi
open Spec
variable {T : Table}

/-- The path of what lies below an object with path `p`, after the tokens `ts`. -/
def pathTo (p : Option Str) (ts : List Str) : Option Str :=
  ts.foldl (fun p t => some (jpCompose [t] p)) p

theorem pyInt_ofNat (n : Nat) : Obj.pyInt (Str.ofNat n) = .ok (n : Int) := (pyInt_signed n).1

theorem pyIndex_nat {α : Type} (l : List α) (n : Nat) (x : α) (h : l[n]? = some x) :
    Obj.pyIndex l (n : Int) = .ok x := by
  unfold Obj.pyIndex
  have h0 : ¬ ((n : Int) < 0) := by omega
  simp only [h0, if_false]
  rw [Int.toNat_natCast, h]

/-- The children of a loaded object, by name. -/
theorem kid_of_cls (hT : OkTable T) {c : Str} {d : Dict Json} {p : Option Str} {o : Obj}
    (hb : build T (.cls c) (.obj d) p [] = .ok o) {k : Str} {cd : ChildDef} {v : Json}
    (hk : Dict.get? (T c).children k = some cd) (hv : Dict.get? d k = some v) (hn : v ≠ .null) :
    ∃ kids oc, o = .base c p (.obj d) kids ∧ Dict.get? kids k = some oc ∧
      build T cd.builder v (some (jpCompose [k] p)) [] = .ok oc := by
  rw [build_cls] at hb
  split at hb
  · simp at hb
  · rename_i kids hkids
    simp only [Except.ok.injEq] at hb
    obtain ⟨okid, hokid⟩ := (Dict.collect_iff.1 hkids).1 (k, cd) (Dict.mem_of_get? hk)
    cases okid with
    | none =>
      rcases kid_none.1 hokid with ⟨h2, _⟩ | h2
      · rw [specGet_obj, hv] at h2; simp at h2
      · rw [specGet_obj, hv] at h2; simp at h2; exact absurd h2 hn
    | some oc =>
      obtain ⟨d0, v0, hd0, hv0, _, hbv⟩ := kid_some.1 hokid
      cases hd0
      rw [hv] at hv0
      cases hv0
      refine ⟨kids, oc, hb.symm, ?_, hbv⟩
      rw [Dict.get?_collect (hT.cls c).children hkids, hk, Option.bind_some, kept_some]
      exact hokid

/-- Tokens that lead somewhere through declared children and container elements lead to the same
place in the raw document. -/
theorem C25_reach_is_raw {b b' : Builder} {j w : Json} {ts : List Str} (h : Reach T b j ts b' w) :
    RawAt j ts w := by
  induction h with
  | here => exact RawAt.here _
  | child _ hd _ _ ih => exact RawAt.key hd ih
  | elem hl _ ih => exact RawAt.idx hl ih
  | item hd _ ih => exact RawAt.key hd ih
  | ref _ _ ih => exact ih
  | notRef _ _ ih => exact ih
  | notBool _ _ ih => exact ih

theorem reach_prim {b b' : Builder} {j w : Json} {ts : List Str} (h : Reach T b j ts b' w)
    (hb : primBuilder b = true) : ts = [] ∧ b' = b ∧ w = j := by
  simp only [primBuilder, Bool.or_eq_true, beq_iff_eq] at hb
  cases h <;> simp_all

theorem reach_bool {b b' : Builder} {v : Bool} {w : Json} {ts : List Str}
    (h : Reach T b (.bool v) ts b' w) : ts = [] ∧ b' = b ∧ w = .bool v := by
  cases h with
  | here => exact ⟨rfl, rfl, rfl⟩
  | notBool h _ => exact absurd rfl (h v)

theorem build_child_prim {b : Builder} {v : Json} {p : Option Str} {j : Json}
    (hc : childBuilder T b = true) (hb : build T b v p [] = .ok (.prim j)) :
    v = j ∧ ∃ x, v = .bool x := by
  have hcls : ∀ b, objBuilder b = true → build T b v p [] = .ok (.prim j) → False := by
    intro b ho h
    have := build_isPrim ho h
    simp [Obj.isPrim] at this
  unfold childBuilder at hc
  split at hc
  · exact (hcls _ rfl hb).elim
  · exact (hcls _ rfl hb).elim
  · exact (hcls _ rfl hb).elim
  · exact (hcls _ rfl hb).elim
  · rw [build_ifNotBool] at hb
    split at hb
    · rename_i h; simp only [Except.ok.injEq, Obj.prim.injEq] at hb
      exact ⟨hb, isBool_iff.1 h⟩
    · exact (hcls _ rfl hb).elim
  · rw [build_ifNotBool] at hb
    split at hb
    · rename_i h; simp only [Except.ok.injEq, Obj.prim.injEq] at hb
      exact ⟨hb, isBool_iff.1 h⟩
    · exact (hcls (.ifNotRef _ (.cls _)) rfl hb).elim
  · simp at hc

/-- C25 and C26: tokens that lead from a document `j` to a value `w` (through declared children,
list elements and map entries) lead `resolve` from the object loaded from `j` to the object loaded
from `w`, whose path is that of the first extended with the tokens.  Strings in lists and maps are
excluded, see `C25_string_element`. -/
theorem C25_resolve (hT : OkTable T) {b b' : Builder} {j w : Json} {ts : List Str}
    (h : Reach T b j ts b' w) (hb' : primBuilder b' = false) :
    okBuilder T b = true → ∀ (p : Option Str) (o : Obj), build T b j p [] = .ok o →
      ∃ o', Obj.resolve T ts o = .ok o' ∧ build T b' w (pathTo p ts) [] = .ok o' := by
  induction h with
  | @here b j =>
    intro _ p o hb
    exact ⟨o, by cases o <;> rfl, hb⟩
  | @child c d k cd v w ts b' hk hv hn hreach ih =>
    intro _ p o hb
    obtain ⟨kids, oc, rfl, hkid, hbc⟩ := kid_of_cls hT hb hk hv hn
    have hcb := (hT.cls c).child k cd (Dict.mem_of_get? hk)
    have hget : Obj.getattr T c (.obj d) kids k = .ok oc := by
      simp [Obj.getattr, Dict.has, hk, hkid]
    obtain ⟨o', ho1, ho2⟩ := ih hb' (childBuilder_ok hcb) _ _ hbc
    refine ⟨o', ?_, ho2⟩
    cases oc with
    | prim j =>
      obtain ⟨rfl, x, rfl⟩ := build_child_prim hcb hbc
      obtain ⟨rfl, _, _⟩ := reach_bool hreach
      simp only [Obj.resolve, hget, bind, Except.bind, Obj.resolvePrim] at ho1 ⊢
      exact ho1
    | _ => simp only [Obj.resolve, hget, bind, Except.bind]; exact ho1
  | @elem b l n v w ts b' hl hreach ih =>
    intro hok p o hb
    obtain ⟨hokb, hkind⟩ := elem_kind hok
    rw [build_list] at hb
    split at hb
    · simp at hb
    · rename_i es hes
      simp only [Except.ok.injEq] at hb
      subst hb
      obtain ⟨hlen, hel⟩ := buildElems_iff.1 hes
      have hlt : n < l.length := (List.getElem?_eq_some_iff.1 hl).1
      have hes' : es[n]? = some es[n] := List.getElem?_eq_getElem (by omega)
      have hbe := hel n v _ hl hes'
      rw [buildAt_nil, Nat.zero_add] at hbe
      rcases hkind with hob | hpb
      · obtain ⟨o', ho1, ho2⟩ := ih hb' hokb _ _ hbe
        refine ⟨o', ?_, ho2⟩
        have hnp := build_isPrim hob hbe
        simp only [Obj.resolve, pyInt_ofNat, bind, Except.bind, pyIndex_nat es n _ hes']
        cases he : es[n] with
        | prim j => rw [he] at hnp; simp [Obj.isPrim] at hnp
        | _ => simp only; rw [he] at ho1; exact ho1
      · obtain ⟨_, rfl, _⟩ := reach_prim hreach hpb
        rw [hb'] at hpb; simp at hpb
  | @item b d k v w ts b' hd hreach ih =>
    intro hok p o hb
    obtain ⟨hokb, hkind⟩ := item_kind hok
    rw [build_map] at hb
    split at hb
    · simp at hb
    · rename_i es hes
      simp only [Except.ok.injEq] at hb
      subst hb
      rw [buildItems_eq] at hes
      rcases Dict.get?_mapM hes k with ⟨h1, _⟩ | ⟨v', oe, h1, h2, hbe⟩
      · rw [hd] at h1; simp at h1
      · rw [hd] at h1
        cases h1
        rw [buildAt_nil] at hbe
        rcases hkind with hob | hpb
        · obtain ⟨o', ho1, ho2⟩ := ih hb' hokb _ _ hbe
          refine ⟨o', ?_, ho2⟩
          have hnp := build_isPrim hob hbe
          simp only [Obj.resolve, bind, Except.bind, Dict.get!_ok.2 h2]
          cases oe with
          | prim j => simp [Obj.isPrim] at hnp
          | _ => simp only; exact ho1
        · obtain ⟨_, rfl, _⟩ := reach_prim hreach hpb
          rw [hb'] at hpb; simp at hpb
  | @ref r b d t ts b' w v hv hreach ih =>
    intro hok p o hb
    have hw : specHas (.obj d) (s% "$ref") = .ok true := by simp [specHas, Dict.has, hv]
    rw [build_ifNotRef, hw] at hb
    exact ih hb' rfl p o hb
  | @notRef r b d t ts b' w hv hreach ih =>
    intro hok p o hb
    simp only [okBuilder, Bool.and_eq_true] at hok
    have hw : specHas (.obj d) (s% "$ref") = .ok false := by simp [specHas, Dict.has, hv]
    rw [build_ifNotRef, hw] at hb
    exact ih hb' hok.1.2 p o hb
  | @notBool b j t ts b' w hv hreach ih =>
    intro hok p o hb
    simp only [okBuilder, Bool.and_eq_true] at hok
    rw [build_ifNotBool, isBool_false.2 hv] at hb
    exact ih hb' hok.1 p o hb

/-- C25 (deviation): a string inside a list or map of strings cannot be resolved: AttributeError. -/
theorem C25_string_element {b : Builder} (hpb : primBuilder b = true) {p : Option Str} {o : Obj} :
    (∀ l n v, l[n]? = some v → build T (.listOf b) (.arr l) p [] = .ok o →
      Obj.resolve T [Str.ofNat n] o = .error .attributeError) ∧
    (∀ d k v, Dict.get? d k = some v → build T (.mapOf b) (.obj d) p [] = .ok o →
      Obj.resolve T [k] o = .error .attributeError) := by
  constructor
  · intro l n v hl hb
    rw [build_list] at hb
    split at hb
    · simp at hb
    · rename_i es hes
      simp only [Except.ok.injEq] at hb
      subst hb
      obtain ⟨hlen, hel⟩ := buildElems_iff.1 hes
      have hlt : n < l.length := (List.getElem?_eq_some_iff.1 hl).1
      have hes' : es[n]? = some es[n] := List.getElem?_eq_getElem (by omega)
      have hbe := hel n v _ hl hes'
      rw [buildAt_nil, Nat.zero_add] at hbe
      simp only [Obj.resolve, pyInt_ofNat, bind, Except.bind, pyIndex_nat es n _ hes',
        build_prim hpb hbe]
  · intro d k v hd hb
    rw [build_map] at hb
    split at hb
    · simp at hb
    · rename_i es hes
      simp only [Except.ok.injEq] at hb
      subst hb
      rw [buildItems_eq] at hes
      rcases Dict.get?_mapM hes k with ⟨h1, _⟩ | ⟨v', oe, h1, h2, hbe⟩
      · rw [hd] at h1; simp at h1
      · rw [buildAt_nil] at hbe
        simp only [Obj.resolve, bind, Except.bind, Dict.get!_ok.2 h2, build_prim hpb hbe]

/-- Steps inside a raw value. -/
theorem resolvePrim_rawAt {v w : Json} {ts : List Str} (h : RawAt v ts w) :
    Obj.resolvePrim v ts = .ok w := by
  induction h with
  | here => rfl
  | key hd _ ih =>
    simp only [Obj.resolvePrim, Obj.primStep, Dict.get!_ok.2 hd, bind, Except.bind]
    exact ih
  | idx hl _ ih =>
    simp only [Obj.resolvePrim, Obj.primStep, pyInt_ofNat, pyIndex_nat _ _ _ hl, bind, Except.bind]
    exact ih

/-- C25: a declared field is followed as in the raw document, to any depth. -/
theorem C25_resolve_field {c : Str} {d : Dict Json} {p : Option Str} {o : Obj}
    (hb : build T (.cls c) (.obj d) p [] = .ok o) {k : Str} {fd : FieldDef} {v w : Json} {ts : List Str}
    (hc : Dict.get? (T c).children k = none) (hf : Dict.get? (T c).fields k = some fd)
    (hr : fd.restricted = false) (hv : Dict.get? d k = some v) (hw : RawAt v ts w) :
    Obj.resolve T (k :: ts) o = .ok (.prim w) := by
  rw [build_cls] at hb
  split at hb
  · simp at hb
  · simp only [Except.ok.injEq] at hb
    subst hb
    simp [Obj.resolve, Obj.getattr, Dict.has, hc, hf, Obj.readField, specGet, hv, hr, bind, Except.bind,
      resolvePrim_rawAt hw]

/-- C25 (deviation): tokens after a string, number, bool or null are ignored instead of raising. -/
theorem C25_tokens_swallowed {j : Json} (h1 : ∀ l, j ≠ .arr l) (h2 : ∀ d, j ≠ .obj d) (ts : List Str) :
    Obj.resolvePrim j ts = .ok j := by
  induction ts with
  | nil => rfl
  | cons t ts ih =>
    cases j with
    | arr l => exact absurd rfl (h1 l)
    | obj d => exact absurd rfl (h2 d)
    | _ => simp only [Obj.resolvePrim, Obj.primStep, bind, Except.bind]; exact ih

/-- C25: an undeclared name raises. -/
theorem C25_undeclared_raises {c : Str} {p : Option Str} {j : Json} {o : Obj}
    (hb : build T (.cls c) j p [] = .ok o) {k : Str} {ts : List Str}
    (hc : k ∉ Dict.keys (T c).children) (hf : k ∉ Dict.keys (T c).fields) :
    Obj.resolve T (k :: ts) o = .error .attributeError := by
  rw [build_cls] at hb
  split at hb
  · simp at hb
  · simp only [Except.ok.injEq] at hb
    subst hb
    simp [Obj.resolve, Obj.getattr, Dict.has, Dict.get?_eq_none_iff.2 hc, Dict.get?_eq_none_iff.2 hf,
      bind, Except.bind]

/-- C25 (deviation): a signed number is an index as well: `+n` is `n`, and `-n` is the `n`-th element from the end,
in a list of objects and in a raw one, where a JSON pointer allows neither. -/
theorem C25_signed_index (n : Nat) (ts : List Str) :
    (∀ b p spec (l : List Obj), Obj.resolve T ((s% "+" ++ Str.ofNat n) :: ts) (.list b p spec l) =
      Obj.resolve T (Str.ofNat n :: ts) (.list b p spec l)) ∧
    (∀ b p spec (l : List Obj), 0 < n → n ≤ l.length →
      Obj.resolve T ((s% "-" ++ Str.ofNat n) :: ts) (.list b p spec l) =
      Obj.resolve T (Str.ofNat (l.length - n) :: ts) (.list b p spec l)) ∧
    (∀ l : List Json, Obj.resolvePrim (.arr l) ((s% "+" ++ Str.ofNat n) :: ts) =
      Obj.resolvePrim (.arr l) (Str.ofNat n :: ts)) ∧
    (∀ l : List Json, 0 < n → n ≤ l.length → Obj.resolvePrim (.arr l) ((s% "-" ++ Str.ofNat n) :: ts) =
      Obj.resolvePrim (.arr l) (Str.ofNat (l.length - n) :: ts)) := by
  have hplus : Obj.pyInt (s% "+" ++ Str.ofNat n) = .ok (n : Int) := (pyInt_signed n).2.1
  have hminus : Obj.pyInt (s% "-" ++ Str.ofNat n) = .ok (-(n : Int)) := (pyInt_signed n).2.2
  have hidx : ∀ {α : Type} (l : List α), 0 < n → n ≤ l.length →
      Obj.pyIndex l (-(n : Int)) = Obj.pyIndex l ((l.length - n : Nat) : Int) := by
    intro α l h0 hl
    unfold Obj.pyIndex
    have e1 : (-(n : Int)) < 0 := by omega
    have e2 : ¬ (((l.length - n : Nat) : Int) < 0) := by omega
    have e3 : -(n : Int) + l.length = ((l.length - n : Nat) : Int) := by omega
    simp only [e1, e2, if_true, if_false, e3]
  refine ⟨fun b p spec l => ?_, fun b p spec l h0 hl => ?_, fun l => ?_, fun l h0 hl => ?_⟩
  · simp only [Obj.resolve, hplus, pyInt_ofNat, bind, Except.bind]
  · simp only [Obj.resolve, hminus, pyInt_ofNat, bind, Except.bind, hidx l h0 hl]
  · simp only [Obj.resolvePrim, Obj.primStep, hplus, pyInt_ofNat, bind, Except.bind]
  · simp only [Obj.resolvePrim, Obj.primStep, hminus, pyInt_ofNat, bind, Except.bind, hidx l h0 hl]

/-- C25 (deviation): the index of an element, of a list of objects or a raw one, is anything Python takes for a whole number: white
space around it, a sign, underscores between digits, leading zeros and the digits of any script; all texts of one number lead
to the same. -/
theorem C25_index_violation {t u : Str} {i : Int} (ht : IntText t i) (hu : IntText u i) (ts : List Str) :
    (∀ b p spec (l : List Obj), Obj.resolve T (t :: ts) (.list b p spec l) = Obj.resolve T (u :: ts) (.list b p spec l)) ∧
    (∀ l : List Json, Obj.resolvePrim (.arr l) (t :: ts) = Obj.resolvePrim (.arr l) (u :: ts)) := by
  refine ⟨fun b p spec l => ?_, fun l => ?_⟩
  · simp only [Obj.resolve, pyInt_iff.2 ht, pyInt_iff.2 hu]
  · simp only [Obj.resolvePrim, Obj.primStep, pyInt_iff.2 ht, pyInt_iff.2 hu]

/-- C25: what is no whole number raises, at a list. -/
theorem C25_no_index {t : Str} (ht : ¬ ∃ i, IntText t i) (ts : List Str) :
    (∀ b p spec (l : List Obj), Obj.resolve T (t :: ts) (.list b p spec l) = .error .valueError) ∧
    (∀ l : List Json, Obj.resolvePrim (.arr l) (t :: ts) = .error .valueError) := by
  refine ⟨fun b p spec l => ?_, fun l => ?_⟩
  · simp only [Obj.resolve, pyInt_error ht, bind, Except.bind]
  · simp only [Obj.resolvePrim, Obj.primStep, pyInt_error ht, bind, Except.bind]

/-- Such texts: `" 1_0 "` and the Arabic-Indic `"١٠"` are both 10; `"1__0"`, `"1_"`, `"- 1"` and `""` are no numbers. -/
theorem C25_index_example : IntText (s% " 1_0 ") 10 ∧ IntText ['١', '٠'] 10 ∧ IntText (s% "-007") (-7) ∧
    (¬ ∃ i, IntText (s% "1__0") i) ∧ (¬ ∃ i, IntText (s% "1_") i) ∧ (¬ ∃ i, IntText (s% "- 1") i) ∧ ¬ ∃ i, IntText [] i := by
  have no : ∀ {t : Str}, Obj.pyInt t = .error .valueError → ¬ ∃ i, IntText t i := by
    rintro t h ⟨i, hi⟩
    rw [pyInt_iff.2 hi] at h
    cases h
  exact ⟨pyInt_iff.1 (by decide +kernel), pyInt_iff.1 (by decide +kernel), pyInt_iff.1 (by decide +kernel), no (by decide +kernel),
    no (by decide +kernel), no (by decide +kernel), no (by decide +kernel)⟩

/-! ## C26 -/

/-- C26: the path of an object with path `p ≠ ''` extended token by token is the JSON pointer composed
at once. -/
theorem pathTo_eq (b : Str) (hb : b ≠ []) (ts : List Str) : pathTo (some b) ts = some (jpCompose ts (some b)) := by
  have key : ∀ (ts us : List Str), ts.foldl (fun p t => some (jpCompose [t] p)) (some (jpCompose us (some b))) =
      some (jpCompose (us ++ ts) (some b)) := by
    intro ts
    induction ts with
    | nil => intro us; simp
    | cons t ts ih =>
      intro us
      rw [List.foldl_cons, C02_jp_compose_incremental us [t] b hb, ih]
      simp
  have h0 : jpCompose [] (some b) = b := by
    rw [jpCompose_base hb]; simp [Str.joinC]
  have := key ts []
  rw [h0] at this
  simpa [pathTo] using this

/-- The path a loaded object reports. -/
theorem build_path {b : Builder} {j : Json} {p : Option Str} {o : Obj} (h : build T b j p [] = .ok o)
    (hn : o.isPrim = false) : o.path? = p := by
  induction b generalizing o with
  | cls c =>
    rw [build_cls] at h
    split at h
    · simp at h
    · simp only [Except.ok.injEq] at h; subst h; rfl
  | isStr => rw [build_prim (b := .isStr) rfl h] at hn; simp [Obj.isPrim] at hn
  | isStrOrInt => rw [build_prim (b := .isStrOrInt) rfl h] at hn; simp [Obj.isPrim] at hn
  | listOf b _ =>
    by_cases hj : ∃ l, j = .arr l
    · obtain ⟨l, rfl⟩ := hj
      rw [build_list] at h
      split at h
      · simp at h
      · simp only [Except.ok.injEq] at h; subst h; rfl
    · rw [build_list_other b j p (fun l hl => hj ⟨l, hl⟩)] at h; simp at h
  | mapOf b _ =>
    by_cases hj : ∃ l, j = .obj l
    · obtain ⟨l, rfl⟩ := hj
      rw [build_map] at h
      split at h
      · simp at h
      · simp only [Except.ok.injEq] at h; subst h; rfl
    · rw [build_map_other b j p (fun l hl => hj ⟨l, hl⟩)] at h; simp at h
  | ifNotRef r b ih =>
    rw [build_ifNotRef] at h
    split at h
    · simp at h
    · rw [build_cls] at h
      split at h
      · simp at h
      · simp only [Except.ok.injEq] at h; subst h; rfl
    · exact ih h hn
  | ifNotBool b ih =>
    rw [build_ifNotBool] at h
    split at h
    · simp only [Except.ok.injEq] at h; subst h; simp [Obj.isPrim] at hn
    · exact ih h hn

/-- C26: every object inside a loaded document reports as its path the JSON pointer made of the
document's own path and the tokens that lead to it; so splitting that path gives those tokens back. -/
theorem C26_path (hT : OkTable T) {b b' : Builder} (hok : okBuilder T b = true) {j w : Json}
    {ts : List Str} (h : Reach T b j ts b' w) (hb' : primBuilder b' = false) {base : Str} (hbase : base ≠ [])
    {o : Obj} (hb : build T b j (some base) [] = .ok o) :
    ∃ o', Obj.resolve T ts o = .ok o' ∧
      (o'.isPrim = false → o'.path? = some (jpCompose ts (some base)) ∧
        ∃ path, o'.path? = some path ∧ jpSplit path = jpSplit base ++ ts) := by
  obtain ⟨o', h1, h2⟩ := C25_resolve hT h hb' hok _ _ hb
  refine ⟨o', h1, fun hn => ?_⟩
  have := build_path h2 hn
  rw [pathTo_eq base hbase] at this
  exact ⟨this, _, this, C01_jp_roundtrip_base ts base hbase⟩

/-- C26 (deviation): without a base path, an empty key at the top is lost from the paths below. -/
theorem C26_empty_key_lost : pathTo none [[], s% "a"] = some (s% "a") ∧
    pathTo none [[], s% "a"] ≠ some (jpCompose [[], s% "a"] none) := by decide

/-- Instance: a path item of a Swagger document, its operation's first parameter. -/
def petDoc : Json := .obj [(s% "paths", .obj [(s% "/pet", .obj [(s% "get", .obj [(s% "parameters",
  .arr [.obj [(s% "name", .str (s% "q"))]])])])])]

example : Reach pkg (.cls (s% "v2_0.Swagger")) petDoc
    [s% "paths", s% "/pet", s% "get", s% "parameters", Str.ofNat 0]
    (.ifNotRef (s% "v2_0.Reference") (.cls (s% "v2_0.Parameter"))) (.obj [(s% "name", .str (s% "q"))]) :=
  .child (cd := ⟨.mapOf (.cls (s% "v2_0.PathItem")), false⟩) (by decide +kernel) rfl (by simp)
    (.item rfl (.child (cd := ⟨.cls (s% "v2_0.Operation"), false⟩) (by decide +kernel) rfl (by simp)
      (.child (cd := ⟨.listOf (.ifNotRef (s% "v2_0.Reference") (.cls (s% "v2_0.Parameter"))), false⟩)
        (by decide +kernel) rfl (by simp) (.elem (n := 0) rfl .here))))

example : ((build pkg (.cls (s% "v2_0.Swagger")) petDoc (some (s% "#")) []).bind (fun o =>
    (Obj.resolve pkg [s% "paths", s% "/pet", s% "get", s% "parameters", s% "0"] o).map Obj.path?)) =
    .ok (some (s% "#/paths/~1pet/get/parameters/0")) := by decide +kernel

end Pyopenapi
