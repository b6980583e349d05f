import Verif.Spec.Conv
import Verif.Model.Conv
import Verif.Lemmas.Inside
import Verif.Lemmas.Tables
import Verif.Props.Load
import Batteries.Data.List.Basic

/-! Reading objects loaded from documents of regular shape. -/

namespace Pyopenapi
open Spec Obj Conv

theorem regular_shaped {T : Table} {b : Builder} {j : Json} (h : Regular T b j) : Shaped T b j := by
  induction h with
  | cls h1 _ ih => exact .clsObj h1 ih
  | isStr => exact .isStr
  | str => exact .str
  | int => exact .int
  | list _ ih => exact .list ih
  | map _ ih => exact .map ih
  | ref hv _ ih => exact .ref ⟨_, hv⟩ ih
  | notRef hn _ ih => exact .notRef trivial (fun ⟨v, hv⟩ => by rw [hn] at hv; cases hv) ih
  | bool => exact .bool
  | notBool h _ ih => exact .notBool h ih

/-- `o` is what the package makes of the document `j`, a parsed one of regular shape. -/
structure Built (b : Builder) (j : Json) (o : Obj) : Prop where
  reg : Regular pkg b j
  wf : j.wf = true
  path : ∃ p, build pkg b j p [] = .ok o

theorem built_exists {b : Builder} {j : Json} (hr : Regular pkg b j) (hw : j.wf = true) (p : Option Str) :
    ∃ o, build pkg b j p [] = .ok o ∧ Built b j o := by
  obtain ⟨o, ho⟩ := (C21_build_iff_shaped b j p).2 (regular_shaped hr)
  exact ⟨o, ho, hr, hw, p, ho⟩

theorem regular_ref {r : Str} {b : Builder} {d : Dict Json} {v : Json} (h : Regular pkg (.ifNotRef r b) (.obj d))
    (hv : Dict.get? d (s% "$ref") = some v) : Regular pkg (.cls r) (.obj d) := by
  cases h with
  | ref _ h => exact h
  | notRef hn _ => rw [hn] at hv; cases hv

theorem regular_notRef {r : Str} {b : Builder} {d : Dict Json} (h : Regular pkg (.ifNotRef r b) (.obj d))
    (hv : Dict.get? d (s% "$ref") = none) : Regular pkg b (.obj d) := by
  cases h with
  | ref hn _ => rw [hn] at hv; cases hv
  | notRef _ h => exact h

/-- The value of a field of an object of class `c` whose document is `d`. -/
def valOf (c : Str) (d : Dict Json) (k : Str) : Json :=
  match Dict.get? (pkg c).fields k with
  | some fd => (Dict.get? d k).getD fd.default
  | none => .null

/-- No field of the class is required or restricted. -/
def plainClass (c : Str) : Bool := (pkg c).fields.all (fun kf => !kf.2.required && !kf.2.restricted)

theorem built_cls {c : Str} {j : Json} {o : Obj} (h : Built (.cls c) j o) :
    ∃ d p kids, j = .obj d ∧ o = .base c p (.obj d) kids ∧
      Dict.collect (fun k cd => buildKid pkg k cd (.obj d) p []) (pkg c).children = .ok kids := by
  obtain ⟨hr, _, p, hb⟩ := h
  cases hr with
  | @cls _ d _ _ =>
    rw [build_cls] at hb
    split at hb
    · cases hb
    · rename_i kids hk
      cases hb
      exact ⟨d, p, kids, rfl, rfl, hk⟩

theorem built_fld {c : Str} {d : Dict Json} {o : Obj} (h : Built (.cls c) (.obj d) o) (hp : plainClass c = true)
    (k : Str) : fld o k = .ok (valOf c d k) := by
  obtain ⟨d', p, kids, hd, rfl, _⟩ := built_cls h
  cases hd
  cases hf : Dict.get? (pkg c).fields k with
  | none => simp only [fld, valOf, hf]
  | some fd =>
    have := List.all_eq_true.1 hp _ (Dict.mem_of_get? hf)
    simp only [Bool.and_eq_true, Bool.not_eq_true'] at this
    simp only [fld, valOf, hf, readField, specGet]
    cases Dict.get? d k <;> simp [this.1, this.2]

theorem built_isSet {c : Str} {d : Dict Json} {o : Obj} (h : Built (.cls c) (.obj d) o) (k : Str) :
    isSet o k = .ok (Dict.has d k) := by
  obtain ⟨d', p, kids, hd, rfl, _⟩ := built_cls h
  cases hd
  rfl

theorem given_some {d : Dict Json} {k : Str} {v : Json} :
    given d k = some v ↔ Dict.get? d k = some v ∧ v ≠ .null := by
  unfold given
  cases Dict.get? d k with
  | none => simp
  | some w =>
    rw [Option.filter_some]
    by_cases hw : w = .null
    · subst hw
      simp only [ne_eq, not_true_eq_false, decide_false, Bool.false_eq_true, if_false, reduceCtorEq, false_iff]
      rintro ⟨h1, h2⟩; exact h2 (Option.some.inj h1).symm
    · simp only [decide_eq_true hw, if_true, Option.some.injEq]
      constructor
      · rintro rfl; exact ⟨rfl, hw⟩
      · exact fun h => h.1

theorem given_none {d : Dict Json} {k : Str} :
    given d k = none ↔ Dict.get? d k = none ∨ Dict.get? d k = some .null := by
  unfold given
  cases Dict.get? d k with
  | none => simp
  | some w =>
    rw [Option.filter_some]
    by_cases hw : w = .null <;> simp [hw]

theorem wf_member {d : Dict Json} {k : Str} {v : Json} (hw : (Json.obj d).wf = true) (hv : (k, v) ∈ d) :
    v.wf = true := by
  simp only [Json.wf, Bool.and_eq_true] at hw
  exact wf_of_memD hw.2 hv

theorem wf_at {d : Dict Json} {k : Str} {v : Json} (hw : (Json.obj d).wf = true) (hv : Dict.get? d k = some v) :
    v.wf = true := wf_member hw (Dict.mem_of_get? hv)

theorem wf_list {l : List Json} {x : Json} (hw : (Json.arr l).wf = true) (hx : x ∈ l) : x.wf = true := by
  have hw' : Json.wfL l = true := by simpa [Json.wf] using hw
  induction l with
  | nil => cases hx
  | cons y l ih =>
    simp only [Json.wfL, Bool.and_eq_true] at hw'
    rcases List.mem_cons.1 hx with rfl | h
    · exact hw'.1
    · exact ih (by simpa [Json.wf] using hw'.2) h hw'.2

theorem wf_nodup {d : Dict Json} (hw : (Json.obj d).wf = true) : Dict.NodupKeys d := by
  simp only [Json.wf, Bool.and_eq_true] at hw
  exact of_decide_eq_true hw.1

/-- A child that is absent or `null` is `None`. -/
theorem built_kid_none {c : Str} {d : Dict Json} {o : Obj} (h : Built (.cls c) (.obj d) o) {k : Str}
    (hv : given d k = none) : kid o k = none := by
  obtain ⟨d', p, kids, hd, rfl, hk⟩ := built_cls h
  cases hd
  simp only [kid]
  rw [Dict.get?_collect (okTable_pkg.cls c).children hk]
  cases hc : Dict.get? (pkg c).children k with
  | none => rfl
  | some cd =>
    simp only [Option.bind_some]
    cases hx : Dict.kept (fun k cd => buildKid pkg k cd (.obj d) p []) k cd with
    | none => rfl
    | some x =>
      obtain ⟨d', v, hd', hv', hn, _⟩ := kid_some.1 (kept_some.1 hx)
      cases hd'
      rw [given_some.2 ⟨hv', hn⟩] at hv
      cases hv

/-- Any other child is what its builder makes of the value. -/
theorem built_kid_some {c : Str} {d : Dict Json} {o : Obj} (h : Built (.cls c) (.obj d) o) {k : Str} {cd : ChildDef}
    {v : Json} (hc : Dict.get? (pkg c).children k = some cd) (hv : given d k = some v) :
    ∃ x, kid o k = some x ∧ Built cd.builder v x := by
  have hreg := h.reg
  have hwf := h.wf
  obtain ⟨d', p, kids, hd, rfl, hk⟩ := built_cls h
  cases hd
  obtain ⟨hv1, hv2⟩ := given_some.1 hv
  obtain ⟨o, ho⟩ := (Dict.collect_iff.1 hk).1 _ (Dict.mem_of_get? hc)
  have hreg' : Regular pkg cd.builder v := by
    cases hreg with
    | cls _ h2 => exact h2 k cd v (Dict.mem_of_get? hc) hv1 hv2
  simp only [kid]
  rw [Dict.get?_collect (okTable_pkg.cls c).children hk, hc, Option.bind_some]
  rw [buildKid_eq, specGet_obj, hv1] at ho
  simp only [hv2, if_false] at ho
  cases hb : build pkg cd.builder v (some (jpCompose [k] p)) [] with
  | error e => rw [hb] at ho; cases ho
  | ok x =>
    refine ⟨x, kept_some.2 (kid_some.2 ⟨d, v, rfl, hv1, hv2, hb⟩), hreg', wf_member hwf (Dict.mem_of_get? hv1), _, hb⟩

theorem built_list {b : Builder} {j : Json} {o : Obj} (h : Built (.listOf b) j o) :
    ∃ l es, j = .arr l ∧ elems (some o) = es ∧ o.truthy = !l.isEmpty ∧ List.Forall₂ (Built b) l es := by
  obtain ⟨hr, hw, p, hb⟩ := h
  cases hr with
  | @list _ l hall =>
    rw [build_list] at hb
    split at hb
    · cases hb
    · rename_i es hes
      cases hb
      have hf := buildElems_forall₂ hes
      have hlen := (buildElems_iff.1 hes).1
      refine ⟨l, es, rfl, rfl, ?_, ?_⟩
      · simp only [Obj.truthy]
        cases l <;> cases es <;> simp_all
      · have hw' : Json.wfL l = true := by simpa [Json.wf] using hw
        clear hes hlen hw
        induction hf with
        | nil => exact .nil
        | @cons x o l es hx _ ih =>
          simp only [Json.wfL, Bool.and_eq_true] at hw'
          obtain ⟨q, hq⟩ := hx
          exact .cons ⟨hall x (by simp), hw'.1, q, hq⟩ (ih (fun y hy => hall y (by simp [hy])) hw'.2)

theorem built_map {b : Builder} {j : Json} {o : Obj} (h : Built (.mapOf b) j o) :
    ∃ d es, j = .obj d ∧ entries (some o) = es ∧ o.truthy = !d.isEmpty ∧
      List.Forall₂ (fun x y => x.1 = y.1 ∧ Built b x.2 y.2) d es := by
  obtain ⟨hr, hw, p, hb⟩ := h
  cases hr with
  | @map _ d hall =>
    rw [build_map] at hb
    split at hb
    · cases hb
    · rename_i es hes
      cases hb
      rw [buildItems_eq] at hes
      have hf := Dict.mapM_ok hes
      have hlen := Dict.mapM_keys hes
      refine ⟨d, es, rfl, rfl, ?_, ?_⟩
      · simp only [Obj.truthy]
        cases d <;> cases es <;> simp_all [Dict.keys]
      · have hw' : Json.wfD d = true := by
          simp only [Json.wf, Bool.and_eq_true] at hw; exact hw.2
        clear hes hlen hw
        induction hf with
        | nil => exact .nil
        | @cons x o l es hx _ ih =>
          obtain ⟨k, v⟩ := x
          simp only [Json.wfD, Bool.and_eq_true] at hw'
          simp only [buildAt_nil] at hx
          exact .cons ⟨hx.1, hall k v (by simp), hw'.1, _, hx.2⟩ (ih (fun k x hy => hall k x (by simp [hy])) hw'.2)

end Pyopenapi

namespace Pyopenapi
open Spec Obj Conv

theorem wfD_set {d : Dict Json} {k : Str} {v : Json} (h : Json.wfD d = true) (hv : v.wf = true) :
    Json.wfD (Dict.set d k v) = true := by
  induction d with
  | nil => simp [Dict.set, Json.wfD, hv]
  | cons p d ih =>
    obtain ⟨k', w⟩ := p
    simp only [Json.wfD, Bool.and_eq_true] at h
    rw [Dict.set]
    split
    · simp [Json.wfD, hv, h.2]
    · simp [Json.wfD, h.1, ih h.2]

theorem wf_set_obj {d : Dict Json} {k : Str} {v : Json} (h : (Json.obj d).wf = true) (hv : v.wf = true) :
    (Json.obj (Dict.set d k v)).wf = true := by
  simp only [Json.wf, Bool.and_eq_true, decide_eq_true_eq] at h ⊢
  exact ⟨Dict.nodupKeys_set h.1 k v, wfD_set h.2 hv⟩

theorem defaults_wf {c k : Str} {fd : FieldDef} (h : Dict.get? (pkg c).fields k = some fd) : fd.default.wf = true := by
  have hall : classes.all (fun kc => kc.2.fields.all (fun kf => kf.2.default.wf)) = true := by decide +kernel
  unfold pkg at h
  cases hg : Dict.get? classes c with
  | none => rw [hg] at h; cases h
  | some cd =>
    rw [hg] at h
    exact List.all_eq_true.1 (List.all_eq_true.1 hall _ (Dict.mem_of_get? hg)) _ (Dict.mem_of_get? h)

theorem valOf_wf {c : Str} {d : Dict Json} (hd : (Json.obj d).wf = true) (k : Str) : (valOf c d k).wf = true := by
  unfold valOf
  cases hf : Dict.get? (pkg c).fields k with
  | none => rfl
  | some fd =>
    simp only
    cases hg : Dict.get? d k with
    | none => exact defaults_wf hf
    | some v => exact wf_member hd (Dict.mem_of_get? hg)

theorem genFields_built {c : Str} {d : Dict Json} {o : Obj} (h : Built (.cls c) (.obj d) o) (hp : plainClass c = true)
    (names : List Str) (ret : Dict Json) : ∃ ret', genFields o names ret = .ok ret' ∧
      (∀ k, Dict.get? ret' k = if k ∈ names ∧ valOf c d k ≠ .null then some (valOf c d k) else Dict.get? ret k) ∧
      ((Json.obj ret).wf = true → (Json.obj ret').wf = true) := by
  induction names generalizing ret with
  | nil => exact ⟨ret, rfl, by simp, id⟩
  | cons n ns ih =>
    simp only [genFields, built_fld h hp, bind, Except.bind]
    obtain ⟨ret', h1, h2, h3⟩ := ih (if valOf c d n = .null then ret else Dict.set ret n (valOf c d n))
    refine ⟨ret', h1, fun k => ?_, fun hn => h3 ?_⟩
    · rw [h2 k]
      by_cases hv : valOf c d n = .null
      · simp only [hv, if_true]
        by_cases hk : k = n
        · subst hk; simp [hv]
        · simp [hk]
      · simp only [hv, if_false, Dict.get?_set]
        by_cases hk : k = n
        · subst hk; simp [hv]
        · simp [hk, Ne.symm hk]
    · split
      · exact hn
      · exact wf_set_obj hn (valOf_wf h.wf _)

/-- A field without a default. -/
theorem valOf_plain {c : Str} {k : Str} (hk : (Dict.get? (pkg c).fields k).map (fun fd => fd.default) = some .null)
    (d : Dict Json) : valOf c d k = look d k := by
  unfold valOf look
  cases hf : Dict.get? (pkg c).fields k with
  | none => rw [hf] at hk; cases hk
  | some fd =>
    rw [hf] at hk
    simp only [Option.map_some, Option.some.injEq] at hk
    simp [hk]

theorem valOf_absent {c : Str} {k : Str} (hk : Dict.get? (pkg c).fields k = none) (d : Dict Json) :
    valOf c d k = .null := by
  unfold valOf; rw [hk]

theorem given_look {d : Dict Json} {k : Str} :
    given d k = if look d k = .null then none else some (look d k) := by
  unfold given look
  cases Dict.get? d k with
  | none => simp
  | some v => rw [Option.filter_some]; by_cases hv : v = .null <;> simp [hv]

theorem putAllOf_eq (o : Obj) (ret : Dict Json) : putAllOf o ret = match kidT o (s% "allOf") with
    | some l => do
      let r ← toSchemaList (elems (some l))
      .ok (Dict.set ret (s% "allOf") (.arr r))
    | none => .ok ret := by
  rw [putAllOf]; split <;> simp_all

theorem putItems_eq (fi : Bool) (o : Obj) (ret : Dict Json) : putItems fi o ret = match kidT o (s% "items") with
    | some it => do
      let r ← if fi then fromItems it else toSchema false it
      .ok (Dict.set ret (s% "items") r)
    | none => .ok ret := by
  rw [putItems]; split <;> simp_all

theorem putProperties_eq (fi : Bool) (o : Obj) (ret : Dict Json) :
    putProperties fi o ret = match kidT o (s% "properties") with
    | some d => do
      let r ← toSchemaProps fi (entries (some d)) []
      .ok (Dict.set ret (s% "properties") (.obj r))
    | none => .ok ret := by
  rw [putProperties]; split <;> simp_all

theorem putAdditional_eq (o : Obj) (ret : Dict Json) :
    putAdditional o ret = match kid o (s% "additionalProperties") with
    | some (.prim (.bool b)) => .ok (if b then ret else Dict.set ret (s% "additionalProperties") (.bool false))
    | some ap => do
      let r ← toSchema false ap
      .ok (Dict.set ret (s% "additionalProperties") r)
    | none => .ok ret := by
  rw [putAdditional]; split <;> simp_all

end Pyopenapi

namespace Pyopenapi
open Spec Obj Conv

theorem kidT_of_kid {o x : Obj} {k : Str} (h : kid o k = some x) (ht : x.truthy = true) : kidT o k = some x := by
  unfold kidT; rw [h, Option.filter_some, if_pos ht]

theorem kidT_none_of {o : Obj} {k : Str} (h : kid o k = none) : kidT o k = none := by
  unfold kidT; rw [h]; rfl

theorem kidT_falsy {o x : Obj} {k : Str} (h : kid o k = some x) (ht : x.truthy = false) : kidT o k = none := by
  unfold kidT; rw [h, Option.filter_some, ht]; rfl

/-- A child of a class. -/
theorem built_kid_cls {c c' : Str} {d : Dict Json} {o : Obj} (h : Built (.cls c) (.obj d) o) {k : Str}
    (hc : (Dict.get? (pkg c).children k).map (fun cd => cd.builder) = some (.cls c')) :
    (given d k = none ∧ kidT o k = none ∧ kid o k = none) ∨
    (∃ e x, given d k = some (.obj e) ∧ kidT o k = some x ∧ kid o k = some x ∧ Built (.cls c') (.obj e) x) := by
  cases hg : given d k with
  | none =>
    have := built_kid_none h hg
    exact .inl ⟨rfl, kidT_none_of this, this⟩
  | some v =>
    obtain ⟨cd, hcd, hb⟩ := Option.map_eq_some_iff.1 hc
    obtain ⟨x, hx, hbx⟩ := built_kid_some h hcd hg
    rw [hb] at hbx
    obtain ⟨e, p, kids, rfl, rfl, _⟩ := built_cls hbx
    exact .inr ⟨e, _, rfl, kidT_of_kid hx rfl, hx, hbx⟩

/-- A list child. -/
theorem built_kid_list {c : Str} {b : Builder} {d : Dict Json} {o : Obj} (h : Built (.cls c) (.obj d) o) {k : Str}
    (hc : (Dict.get? (pkg c).children k).map (fun cd => cd.builder) = some (.listOf b)) :
    ((∀ x l, Dict.get? d k ≠ some (.arr (x :: l))) ∧ kidT o k = none ∧ elems (kid o k) = []) ∨
    (∃ x l y, Dict.get? d k = some (.arr (x :: l)) ∧ kidT o k = some y ∧ kid o k = some y ∧
      List.Forall₂ (Built b) (x :: l) (elems (some y))) := by
  cases hg : given d k with
  | none =>
    have := built_kid_none h hg
    refine .inl ⟨fun x l hx => ?_, kidT_none_of this, by rw [this]; rfl⟩
    rw [given_some.2 ⟨hx, by simp⟩] at hg
    cases hg
  | some v =>
    obtain ⟨cd, hcd, hb⟩ := Option.map_eq_some_iff.1 hc
    obtain ⟨y, hy, hby⟩ := built_kid_some h hcd hg
    rw [hb] at hby
    obtain ⟨l, es, rfl, rfl, ht, hf⟩ := built_list hby
    have hg' := (given_some.1 hg).1
    cases l with
    | nil =>
      refine .inl ⟨fun x l hx => ?_, kidT_falsy hy (by simpa using ht), ?_⟩
      · rw [hg'] at hx; cases hx
      · rw [hy]; generalize elems (some y) = es at hf; cases hf; rfl
    | cons x l => exact .inr ⟨x, l, y, hg', kidT_of_kid hy (by simpa using ht), hy, hf⟩

/-- A map child. -/
theorem built_kid_map {c : Str} {b : Builder} {d : Dict Json} {o : Obj} (h : Built (.cls c) (.obj d) o) {k : Str}
    (hc : (Dict.get? (pkg c).children k).map (fun cd => cd.builder) = some (.mapOf b)) :
    ((∀ x l, Dict.get? d k ≠ some (.obj (x :: l))) ∧ kidT o k = none ∧ entries (kid o k) = []) ∨
    (∃ x l y, Dict.get? d k = some (.obj (x :: l)) ∧ kidT o k = some y ∧ kid o k = some y ∧
      List.Forall₂ (fun x y => x.1 = y.1 ∧ Built b x.2 y.2) (x :: l) (entries (some y))) := by
  cases hg : given d k with
  | none =>
    have := built_kid_none h hg
    refine .inl ⟨fun x l hx => ?_, kidT_none_of this, by rw [this]; rfl⟩
    rw [given_some.2 ⟨hx, by simp⟩] at hg
    cases hg
  | some v =>
    obtain ⟨cd, hcd, hb⟩ := Option.map_eq_some_iff.1 hc
    obtain ⟨y, hy, hby⟩ := built_kid_some h hcd hg
    rw [hb] at hby
    obtain ⟨l, es, rfl, rfl, ht, hf⟩ := built_map hby
    have hg' := (given_some.1 hg).1
    cases l with
    | nil =>
      refine .inl ⟨fun x l hx => ?_, kidT_falsy hy (by simpa using ht), ?_⟩
      · rw [hg'] at hx; cases hx
      · rw [hy]; generalize entries (some y) = es at hf; cases hf; rfl
    | cons x l => exact .inr ⟨x, l, y, hg', kidT_of_kid hy (by simpa using ht), hy, hf⟩

/-- Fields of a class that can be copied: declared, with default `null`. -/
def plainFields (c : Str) (ks : List Str) : Bool :=
  plainClass c && ks.all (fun k => decide ((Dict.get? (pkg c).fields k).map (fun fd => fd.default) = some .null))

theorem plainFields_val {c : Str} {ks : List Str} (h : plainFields c ks = true) {k : Str} (hk : k ∈ ks)
    (d : Dict Json) : valOf c d k = look d k := by
  simp only [plainFields, Bool.and_eq_true] at h
  exact valOf_plain (of_decide_eq_true (List.all_eq_true.1 h.2 k hk)) d

theorem plainFields_cls {c : Str} {ks : List Str} (h : plainFields c ks = true) : plainClass c = true := by
  simp only [plainFields, Bool.and_eq_true] at h; exact h.1

/-- `_generate_fields` copies the members that are not `null`. -/
theorem genFields_copied {c : Str} {d : Dict Json} {o : Obj} {ks : List Str} (h : Built (.cls c) (.obj d) o)
    (hp : plainFields c ks = true) (ret : Dict Json) (hr : ∀ k ∈ ks, Dict.get? ret k = none) :
    ∃ ret', genFields o ks ret = .ok ret' ∧ Copied ks d ret' ∧ (∀ k, k ∉ ks → Dict.get? ret' k = Dict.get? ret k) ∧
      ((Json.obj ret).wf = true → (Json.obj ret').wf = true) := by
  obtain ⟨ret', h1, h2, h3⟩ := genFields_built h (plainFields_cls hp) ks ret
  refine ⟨ret', h1, fun k hk => ?_, fun k hk => ?_, h3⟩
  · rw [h2 k, given_look, plainFields_val hp hk]
    by_cases hn : look d k = .null
    · simp [hn, hr k hk]
    · simp [hn, hk]
  · rw [h2 k]; simp [hk]

theorem toXml_built {d : Dict Json} {o : Obj} (h : Built (.cls (s% "v2_0.XMLObject")) (.obj d) o) :
    ∃ r, toXml o = .ok r ∧ XmlTo d (.obj r) ∧ (Json.obj r).wf = true := by
  obtain ⟨r, h1, h2, h3, h4⟩ := genFields_copied (ks := [s% "name", s% "namespace", s% "prefix", s% "attribute",
    s% "wrapped"]) h (by decide +kernel) [] (by simp)
  refine ⟨r, h1, ⟨r, rfl, h2, fun k hk => ?_⟩, h4 rfl⟩
  refine Decidable.byContradiction (fun hn => hk ?_)
  rw [h3 k hn]; rfl

theorem toExternalDocs_built {d : Dict Json} {o : Obj} (h : Built (.cls (s% "v2_0.ExternalDocumentation")) (.obj d) o) :
    ∃ r, toExternalDocs o = .ok r ∧ DocsTo d (.obj r) ∧ (Json.obj r).wf = true := by
  have hp : plainFields (s% "v2_0.ExternalDocumentation") [s% "url", s% "description"] = true := by decide +kernel
  have hu := plainFields_val hp (k := s% "url") (by simp) d
  have hd := plainFields_val hp (k := s% "description") (by simp) d
  simp only [toExternalDocs, built_fld h (plainFields_cls hp), hu, hd, bind, Except.bind]
  refine ⟨_, rfl, ⟨_, rfl, ?_, ?_, ?_⟩, ?_⟩
  · split <;> rfl
  · rw [given_look]
    by_cases ht : (look d (s% "description")).truthy = true
    · have hn : look d (s% "description") ≠ .null := by rintro he; rw [he] at ht; cases ht
      rw [if_pos ht, if_neg hn, Option.filter_some, if_pos ht]; rfl
    · rw [if_neg ht]
      by_cases hn : look d (s% "description") = .null
      · rw [if_pos hn]; rfl
      · rw [if_neg hn, Option.filter_some, if_neg ht]; rfl
  · intro k hk
    refine Decidable.byContradiction (fun hn => hk ?_)
    simp only [List.mem_cons, List.not_mem_nil, or_false, not_or] at hn
    split <;> simp [Dict.get?_cons, Ne.symm hn.1, Ne.symm hn.2]
  · have h1 := valOf_wf (c := s% "v2_0.ExternalDocumentation") h.wf (s% "url")
    have h2 := valOf_wf (c := s% "v2_0.ExternalDocumentation") h.wf (s% "description")
    rw [hu] at h1
    rw [hd] at h2
    split
    · exact wf_set_obj (d := [(s% "url", look d (s% "url"))]) (k := s% "description") (wf_set_obj (d := []) rfl h1) h2
    · exact wf_set_obj (d := []) rfl h1

end Pyopenapi

namespace Pyopenapi
open Spec Obj Conv

/-- `ret'` is `ret` except at `key`, and still a dictionary. -/
structure Step (key : Str) (ret ret' : Dict Json) : Prop where
  frame : ∀ k, k ≠ key → Dict.get? ret' k = Dict.get? ret k
  wf : (Json.obj ret).wf = true → (Json.obj ret').wf = true

theorem Step.refl (key : Str) (ret : Dict Json) : Step key ret ret := ⟨fun _ _ => rfl, id⟩

theorem Step.set (key : Str) (ret : Dict Json) {v : Json} (hv : v.wf = true) : Step key ret (Dict.set ret key v) :=
  ⟨fun _ hk => Dict.get?_set_ne _ _ (Ne.symm hk), fun h => wf_set_obj h hv⟩

theorem putExternalDocs_built {c : Str} {d : Dict Json} {o : Obj} (h : Built (.cls c) (.obj d) o)
    (hc : (Dict.get? (pkg c).children (s% "externalDocs")).map (fun cd => cd.builder) =
      some (.cls (s% "v2_0.ExternalDocumentation"))) (ret : Dict Json)
    (hr : Dict.get? ret (s% "externalDocs") = none) :
    ∃ ret', putExternalDocs o ret = .ok ret' ∧ Both d (s% "externalDocs") ret' DocsTo ∧
      Step (s% "externalDocs") ret ret' := by
  unfold putExternalDocs
  rcases built_kid_cls h hc with ⟨h1, h2, _⟩ | ⟨e, x, h1, h2, _, h3⟩
  · rw [h2]
    exact ⟨ret, rfl, ⟨fun _ => hr, fun v hv => by rw [h1] at hv; cases hv⟩, .refl _ _⟩
  · obtain ⟨r, h4, h5, h6⟩ := toExternalDocs_built h3
    simp only [h2, h4, bind, Except.bind]
    refine ⟨_, rfl, ⟨(fun hn => by rw [h1] at hn; cases hn), fun v hv => ?_⟩, .set _ _ h6⟩
    rw [h1] at hv
    cases hv
    exact ⟨e, _, rfl, Dict.get?_set_self _ _ _, h5⟩

theorem putRequired_built {d : Dict Json} {o : Obj} (h : Built (.cls (s% "v2_0.Schema")) (.obj d) o)
    (ret : Dict Json) (hr : Dict.get? ret (s% "required") = none) :
    ∃ ret', putRequired o ret = .ok ret' ∧ Dict.get? ret' (s% "required") = (match Dict.get? d (s% "required") with
      | some (.arr (x :: l)) => some (.arr (x :: l))
      | _ => none) ∧ Step (s% "required") ret ret' := by
  have hv : valOf (s% "v2_0.Schema") d (s% "required") = (Dict.get? d (s% "required")).getD (.arr []) := rfl
  have hw := valOf_wf (c := s% "v2_0.Schema") h.wf (s% "required")
  simp only [putRequired, built_fld h (show plainClass (s% "v2_0.Schema") = true by decide +kernel), hv, bind, Except.bind]
  rw [hv] at hw
  cases hg : Dict.get? d (s% "required") with
  | none => exact ⟨ret, rfl, hr, .refl _ _⟩
  | some v =>
    rw [hg] at hw
    cases v with
    | arr l =>
      cases l with
      | nil => exact ⟨ret, rfl, hr, .refl _ _⟩
      | cons x l => exact ⟨_, rfl, Dict.get?_set_self _ _ _, .set _ _ hw⟩
    | _ => exact ⟨ret, rfl, hr, .refl _ _⟩

/-- The discriminator. -/
def discTo (d : Dict Json) : Option Json :=
  match given d (s% "discriminator") with
  | some v => if v.truthy then some (.obj [(s% "propertyName", v)]) else none
  | none => none

theorem putRest_built {d : Dict Json} {o : Obj} (h : Built (.cls (s% "v2_0.Schema")) (.obj d) o)
    (ret : Dict Json) (h1 : Dict.get? ret (s% "discriminator") = none) (h2 : Dict.get? ret (s% "xml") = none)
    (h3 : Dict.get? ret (s% "externalDocs") = none) :
    ∃ ret', putRest o ret = .ok ret' ∧ Dict.get? ret' (s% "discriminator") = discTo d ∧
      Both d (s% "xml") ret' XmlTo ∧ Both d (s% "externalDocs") ret' DocsTo ∧
      (∀ k, k ≠ s% "discriminator" → k ≠ s% "xml" → k ≠ s% "externalDocs" → Dict.get? ret' k = Dict.get? ret k) ∧
      ((Json.obj ret).wf = true → (Json.obj ret').wf = true) := by
  have hp : plainFields (s% "v2_0.Schema") [s% "discriminator"] = true := by decide +kernel
  have hv := plainFields_val hp (k := s% "discriminator") (by simp) d
  have hw := valOf_wf (c := s% "v2_0.Schema") h.wf (s% "discriminator")
  rw [hv] at hw
  unfold putRest
  rw [built_fld h (plainFields_cls hp), hv]
  simp only [bind, Except.bind]
  -- discriminator
  have step1 : ∃ r1, r1 = (if (look d (s% "discriminator")).truthy = true then
        Dict.set ret (s% "discriminator") (.obj [(s% "propertyName", look d (s% "discriminator"))]) else ret) ∧
      Dict.get? r1 (s% "discriminator") = discTo d ∧ Step (s% "discriminator") ret r1 := by
    refine ⟨_, rfl, ?_⟩
    unfold discTo
    rw [given_look]
    by_cases ht : (look d (s% "discriminator")).truthy = true
    · have hn : look d (s% "discriminator") ≠ .null := by rintro he; rw [he] at ht; cases ht
      rw [if_pos ht, if_neg hn]
      simp only [ht, if_true]
      exact ⟨Dict.get?_set_self _ _ _, .set _ _ (wf_set_obj (d := []) (k := s% "propertyName") rfl hw)⟩
    · rw [if_neg ht]
      refine ⟨?_, .refl _ _⟩
      rw [h1]
      split
      · rename_i heq
        split at heq
        · cases heq
        · cases heq; rw [if_neg ht]
      · rfl
  obtain ⟨r1, hr1, hd1, hs1⟩ := step1
  rw [← hr1]
  -- xml
  have step2 : ∃ r2, putXml o r1 = .ok r2 ∧ Both d (s% "xml") r2 XmlTo ∧ Step (s% "xml") r1 r2 := by
    unfold putXml
    have hx1 : Dict.get? r1 (s% "xml") = none := by rw [hs1.frame _ (by decide)]; exact h2
    rcases built_kid_cls h (k := s% "xml") (c' := s% "v2_0.XMLObject") rfl with ⟨g1, g2, _⟩ | ⟨e, x, g1, g2, _, g3⟩
    · rw [g2]
      exact ⟨r1, rfl, ⟨fun _ => hx1, fun v hv => by rw [g1] at hv; cases hv⟩, .refl _ _⟩
    · obtain ⟨r, g4, g5, g6⟩ := toXml_built g3
      simp only [g2, g4, bind, Except.bind]
      refine ⟨_, rfl, ⟨(fun hn => by rw [g1] at hn; cases hn), fun v hv => ?_⟩, .set _ _ g6⟩
      rw [g1] at hv
      cases hv
      exact ⟨e, _, rfl, Dict.get?_set_self _ _ _, g5⟩
  obtain ⟨r2, hr2, hx2, hs2⟩ := step2
  simp only [hr2]
  -- externalDocs
  obtain ⟨r3, hr3, hx3, hs3⟩ := putExternalDocs_built h rfl r2
    (by rw [hs2.frame _ (by decide), hs1.frame _ (by decide)]; exact h3)
  refine ⟨r3, hr3, ?_, ?_, hx3, ?_, fun hw => hs3.wf (hs2.wf (hs1.wf hw))⟩
  · rw [hs3.frame _ (by decide), hs2.frame _ (by decide)]; exact hd1
  · unfold Both; rw [hs3.frame _ (by decide)]; exact hx2
  · intro k k1 k2 k3
    rw [hs3.frame _ k3, hs2.frame _ k2, hs1.frame _ k1]

end Pyopenapi

namespace Pyopenapi
open Spec Obj Conv

/-- The loop `for k, v in d: ret[k] = f(v)`. -/
def setAll (f : Obj → R Json) : List (Str × Obj) → Dict Json → R (Dict Json)
  | [], ret => .ok ret
  | (k, o) :: l, ret =>
    match f o with
    | .error e => .error e
    | .ok j => setAll f l (Dict.set ret k j)

theorem toSchemaProps_eq (fi : Bool) (l : List (Str × Obj)) (ret : Dict Json) :
    toSchemaProps fi l ret = setAll (toSchema fi) l ret := by
  induction l generalizing ret with
  | nil => rw [toSchemaProps]; rfl
  | cons p l ih =>
    obtain ⟨k, o⟩ := p
    rw [toSchemaProps, setAll]
    simp only [bind, Except.bind, ih]
    cases toSchema fi o <;> rfl

theorem set_append_new {d : Dict Json} {k : Str} {v : Json} (h : k ∉ Dict.keys d) : Dict.set d k v = d ++ [(k, v)] := by
  induction d with
  | nil => rfl
  | cons p d ih =>
    obtain ⟨k', w⟩ := p
    simp only [Dict.keys, List.map_cons, List.mem_cons, not_or] at h
    rw [Dict.set, if_neg (Ne.symm h.1), ih h.2]; rfl

theorem setAll_ok {P : Json → Json → Prop} {f : Obj → R Json} {d : List (Str × Json)} {es : List (Str × Obj)}
    (h : List.Forall₂ (fun x y => x.1 = y.1 ∧ ∃ r, f y.2 = .ok r ∧ P x.2 r) d es) (ret : Dict Json)
    (hn : (Dict.keys ret ++ Dict.keys d).Nodup) :
    ∃ rs, setAll f es ret = .ok (ret ++ rs) ∧ List.Forall₂ (fun x y => x.1 = y.1 ∧ P x.2 y.2) d rs := by
  induction h generalizing ret with
  | nil => exact ⟨[], by simp [setAll], .nil⟩
  | @cons x y d es hx _ ih =>
    obtain ⟨k, v⟩ := x
    obtain ⟨k', o⟩ := y
    obtain ⟨hk, r, hr, hp⟩ := hx
    simp only at hk hr hp
    subst hk
    have hnot : k ∉ Dict.keys ret := by
      intro hk
      rw [List.nodup_append] at hn
      exact hn.2.2 k hk k (by simp [Dict.keys]) rfl
    rw [setAll, hr]
    simp only
    rw [set_append_new hnot]
    obtain ⟨rs, h1, h2⟩ := ih (ret ++ [(k, r)]) (by simpa [Dict.keys] using hn)
    exact ⟨(k, r) :: rs, by rw [h1]; simp, .cons ⟨rfl, hp⟩ h2⟩

theorem toSchemaList_ok {P : Json → Json → Prop} {l : List Json} {es : List Obj}
    (h : List.Forall₂ (fun x y => ∃ r, toSchema false y = .ok r ∧ P x r) l es) :
    ∃ rs, toSchemaList es = .ok rs ∧ List.Forall₂ P l rs := by
  induction h with
  | nil => exact ⟨[], by rw [toSchemaList], .nil⟩
  | cons hx _ ih =>
    obtain ⟨r, hr, hp⟩ := hx
    obtain ⟨rs, h1, h2⟩ := ih
    exact ⟨r :: rs, by rw [toSchemaList, hr, h1]; rfl, .cons hp h2⟩

theorem forall₂_weaken {α β : Type} {P Q : α → β → Prop} {l : List α} {m : List β}
    (h : List.Forall₂ P l m) (hi : ∀ x ∈ l, ∀ y, P x y → Q x y) : List.Forall₂ Q l m := by
  induction h with
  | nil => exact .nil
  | cons hx _ ih => exact .cons (hi _ (by simp) _ hx) (ih (fun x hm => hi x (by simp [hm])))

theorem forall₂_wfL {P : Json → Json → Prop} {l rs : List Json} (h : List.Forall₂ P l rs)
    (hp : ∀ x y, P x y → y.wf = true) : (Json.arr rs).wf = true := by
  induction h with
  | nil => rfl
  | cons hx _ ih => simp only [Json.wf, Json.wfL, Bool.and_eq_true] at ih ⊢; exact ⟨hp _ _ hx, ih⟩

theorem forall₂_keys {P : Json → Json → Prop} {l rs : List (Str × Json)}
    (h : List.Forall₂ (fun x y => x.1 = y.1 ∧ P x.2 y.2) l rs) : Dict.keys rs = Dict.keys l := by
  induction h with
  | nil => rfl
  | cons hx _ ih =>
    simp only [Dict.keys, List.map_cons, List.cons.injEq] at ih ⊢
    exact ⟨hx.1.symm, ih⟩

theorem forall₂_wfD {P : Json → Json → Prop} {l rs : List (Str × Json)}
    (h : List.Forall₂ (fun x y => x.1 = y.1 ∧ P x.2 y.2) l rs) (hn : Dict.NodupKeys l)
    (hp : ∀ x y, P x y → y.wf = true) : (Json.obj rs).wf = true := by
  simp only [Json.wf, Bool.and_eq_true, decide_eq_true_eq]
  refine ⟨by unfold Dict.NodupKeys; rw [forall₂_keys h]; exact hn, ?_⟩
  clear hn
  induction h with
  | nil => rfl
  | @cons x y _ _ hx _ ih =>
    obtain ⟨k, v⟩ := y
    simp only [Json.wfD, Bool.and_eq_true]
    exact ⟨hp _ _ hx.2, ih⟩

theorem forall₂_lookup {P : Json → Json → Prop} {l rs : List (Str × Json)}
    (h : List.Forall₂ (fun x y => x.1 = y.1 ∧ P x.2 y.2) l rs) {k : Str} {v w : Json}
    (hv : Dict.get? l k = some v) (hw : Dict.get? rs k = some w) : P v w := by
  induction h with
  | nil => cases hv
  | @cons x y _ _ hx _ ih =>
    obtain ⟨k1, v1⟩ := x
    obtain ⟨k2, v2⟩ := y
    obtain ⟨h1, h2⟩ := hx
    simp only at h1 h2
    subst h1
    rw [Dict.get?_cons] at hv hw
    split at hv
    · rename_i hk
      rw [if_pos hk] at hw
      cases hv; cases hw; exact h2
    · rename_i hk
      rw [if_neg hk] at hw
      exact ih hv hw

theorem forall₂_index {α β : Type} {P : α → β → Prop} {l : List α} {rs : List β} (h : List.Forall₂ P l rs) {n : Nat}
    {x : α} {y : β} (hx : l[n]? = some x) (hy : rs[n]? = some y) : P x y := by
  induction h generalizing n with
  | nil => cases hx
  | cons h1 _ ih =>
    cases n with
    | zero => simp at hx hy; subst hx hy; exact h1
    | succ n => exact ih (by simpa using hx) (by simpa using hy)

theorem forall₂_len {α β : Type} {P : α → β → Prop} {l : List α} {rs : List β} (h : List.Forall₂ P l rs) :
    rs.length = l.length := by
  induction h with
  | nil => rfl
  | cons _ _ ih => simp [ih]

theorem forall₂_mem {α β : Type} {P : α → β → Prop} {l : List α} {rs : List β} (h : List.Forall₂ P l rs) {y : β}
    (hy : y ∈ rs) : ∃ x ∈ l, P x y := by
  induction h with
  | nil => cases hy
  | cons h1 _ ih =>
    rcases List.mem_cons.1 hy with rfl | hy
    · exact ⟨_, by simp, h1⟩
    · obtain ⟨x, hx, hp⟩ := ih hy
      exact ⟨x, by simp [hx], hp⟩

theorem toSchema_built : ∀ (n : Nat) (j : Json) (o : Obj), sizeOf j ≤ n → Built (.cls (s% "v2_0.Schema")) j o →
    ∃ r, toSchema false o = .ok r ∧ SchemaTo j r ∧ r.wf = true := by
  intro n
  induction n with
  | zero => intro j o hs _; cases j <;> simp at hs
  | succ n ih =>
    intro j o hs h
    obtain ⟨d, p, kids, rfl, ho, _⟩ := built_cls h
    have hpc : plainClass (s% "v2_0.Schema") = true := by decide +kernel
    have hk : plainFields (s% "v2_0.Schema") ([s% "$ref"] ++ schemaKeywords) = true := by decide +kernel
    have hwd := h.wf
    have small : ∀ k v, Dict.get? d k = some v → sizeOf v ≤ n := by
      intro k v hv; have := size_get hv; omega
    have ih' : ∀ j o, sizeOf j ≤ n → Built (.cls (s% "v2_0.Schema")) j o →
        ∃ r, toSchema false o = .ok r ∧ (SchemaTo j r ∧ r.wf = true) := ih
    rw [toSchema]
    rw [built_fld h hpc, built_fld h hpc, plainFields_val hk (k := s% "$ref") (by decide) d,
      plainFields_val hk (k := s% "type") (by decide) d]
    simp only [bind, Except.bind]
    by_cases href : (look d (s% "$ref")).truthy = true
    · rw [if_pos href]
      have hv : Dict.get? d (s% "$ref") = some (look d (s% "$ref")) := by
        unfold look at href ⊢
        cases hg : Dict.get? d (s% "$ref") with
        | none => rw [hg] at href; cases href
        | some v => rfl
      refine ⟨_, rfl, .ref hv href, wf_set_obj (d := []) (k := s% "$ref") rfl (wf_at hwd hv)⟩
    rw [if_neg href]
    by_cases hfile : look d (s% "type") = .str (s% "file")
    · rw [if_pos hfile]
      refine ⟨_, rfl, .file href ?_, by decide +kernel⟩
      unfold look at hfile
      cases hg : Dict.get? d (s% "type") with
      | none => rw [hg] at hfile; cases hfile
      | some v => rw [hg] at hfile; simpa using hfile
    rw [if_neg hfile]
    -- keywords
    obtain ⟨r0, e0, c0, f0⟩ := genFields_built h hpc schemaFields []
    rw [e0]
    simp only
    have hcop : Copied schemaKeywords d r0 := by
      intro k hkm
      have hks : k ∈ schemaFields := by
        revert hkm; revert k; decide
      rw [c0 k, given_look, plainFields_val hk (List.mem_append_right _ hkm)]
      by_cases hn : look d k = .null <;> simp [hn, hks]
    have honly : ∀ k, k ∉ schemaKeywords → Dict.get? r0 k = none := by
      intro k hkm
      rw [c0 k]
      by_cases hks : k ∈ schemaFields
      · have : k = s% "writeOnly" := by
          have hall : ∀ k ∈ schemaFields, k ∈ schemaKeywords ∨ k = s% "writeOnly" := by decide
          exact (hall k hks).resolve_left hkm
        subst this
        rw [valOf_absent (by decide +kernel) d]
        simp
      · simp [hks]
    have w0 : (Json.obj r0).wf = true := f0 rfl
    -- required
    obtain ⟨r1, e1, c1, s1⟩ := putRequired_built h r0 (honly _ (by decide))
    simp only [e1]
    -- allOf
    have h2 : ∃ r2, putAllOf o r1 = .ok r2 ∧ Step (s% "allOf") r1 r2 ∧
        ((∀ x l, Dict.get? d (s% "allOf") ≠ some (.arr (x :: l))) → Dict.get? r2 (s% "allOf") = none) ∧
        (∀ x l, Dict.get? d (s% "allOf") = some (.arr (x :: l)) →
          ∃ l', Dict.get? r2 (s% "allOf") = some (.arr l') ∧
            List.Forall₂ (fun x r => SchemaTo x r ∧ r.wf = true) (x :: l) l') := by
      rw [putAllOf_eq]
      have hr : Dict.get? r1 (s% "allOf") = none := by rw [s1.frame _ (by decide)]; exact honly _ (by decide)
      rcases built_kid_list h (k := s% "allOf") (b := .cls (s% "v2_0.Schema")) rfl with
        ⟨g1, g2, _⟩ | ⟨x, l, y, g1, g2, _, g3⟩
      · rw [g2]
        exact ⟨r1, rfl, .refl _ _, fun _ => hr, fun x l hx => absurd hx (g1 x l)⟩
      · rw [g2]
        have hsm := small _ _ g1
        obtain ⟨rs, a1, a2⟩ := toSchemaList_ok (forall₂_weaken g3 (Q := fun x y => ∃ r, toSchema false y = .ok r ∧
          (SchemaTo x r ∧ r.wf = true)) (fun z hz y hy => ih' z y (by have := size_elem hz; omega) hy))
        simp only [a1, bind, Except.bind]
        refine ⟨_, rfl, .set _ _ (forall₂_wfL a2 (fun _ _ hp => hp.2)), fun hn => absurd g1 (hn x l), ?_⟩
        intro x' l' hx'
        rw [g1] at hx'
        cases hx'
        exact ⟨rs, Dict.get?_set_self _ _ _, a2⟩
    obtain ⟨r2, e2, s2, c2a, c2b⟩ := h2
    simp only [e2]
    -- items
    have h3 : ∃ r3, putItems false o r2 = .ok r3 ∧ Step (s% "items") r2 r3 ∧
        (given d (s% "items") = none → Dict.get? r3 (s% "items") = none) ∧
        (∀ v, given d (s% "items") = some v →
          ∃ w, Dict.get? r3 (s% "items") = some w ∧ (SchemaTo v w ∧ w.wf = true)) := by
      rw [putItems_eq]
      have hr : Dict.get? r2 (s% "items") = none := by
        rw [s2.frame _ (by decide), s1.frame _ (by decide)]; exact honly _ (by decide)
      rcases built_kid_cls h (k := s% "items") (c' := s% "v2_0.Schema") rfl with ⟨g1, g2, _⟩ | ⟨e, x, g1, g2, _, g3⟩
      · rw [g2]
        exact ⟨r2, rfl, .refl _ _, fun _ => hr, fun v hv => by rw [g1] at hv; cases hv⟩
      · rw [g2]
        obtain ⟨w, a1, a2⟩ := ih' _ x (small _ _ (given_some.1 g1).1) g3
        simp only [a1, bind, Except.bind, Bool.false_eq_true, if_false]
        refine ⟨_, rfl, .set _ _ a2.2, (fun hn => by rw [g1] at hn; cases hn), ?_⟩
        intro v hv
        rw [g1] at hv
        cases hv
        exact ⟨w, Dict.get?_set_self _ _ _, a2⟩
    obtain ⟨r3, e3, s3, c3a, c3b⟩ := h3
    simp only [e3]
    -- properties
    have h4 : ∃ r4, putProperties false o r3 = .ok r4 ∧ Step (s% "properties") r3 r4 ∧
        ((∀ x l, Dict.get? d (s% "properties") ≠ some (.obj (x :: l))) → Dict.get? r4 (s% "properties") = none) ∧
        (∀ x l, Dict.get? d (s% "properties") = some (.obj (x :: l)) →
          ∃ l', Dict.get? r4 (s% "properties") = some (.obj l') ∧
            List.Forall₂ (fun x y => x.1 = y.1 ∧ (SchemaTo x.2 y.2 ∧ y.2.wf = true)) (x :: l) l') := by
      rw [putProperties_eq]
      have hr : Dict.get? r3 (s% "properties") = none := by
        rw [s3.frame _ (by decide), s2.frame _ (by decide), s1.frame _ (by decide)]; exact honly _ (by decide)
      rcases built_kid_map h (k := s% "properties") (b := .cls (s% "v2_0.Schema")) rfl with
        ⟨g1, g2, _⟩ | ⟨x, l, y, g1, g2, _, g3⟩
      · rw [g2]
        exact ⟨r3, rfl, .refl _ _, fun _ => hr, fun x l hx => absurd hx (g1 x l)⟩
      · rw [g2]
        have hsm := small _ _ g1
        have hnd : Dict.NodupKeys (x :: l) := by
          have := wf_at hwd g1
          simp only [Json.wf, Bool.and_eq_true, decide_eq_true_eq] at this
          exact this.1
        obtain ⟨rs, a1, a2⟩ := setAll_ok (P := fun x r => SchemaTo x r ∧ r.wf = true) (f := toSchema false)
          (forall₂_weaken g3 (fun z hz y hy => ⟨hy.1, ih' z.2 y.2 (by
            obtain ⟨zk, zv⟩ := z
            have := size_item hz; simp only; omega) hy.2⟩)) []
          (by exact hnd)
        simp only [toSchemaProps_eq, a1, bind, Except.bind, List.nil_append]
        refine ⟨_, rfl, .set _ _ (forall₂_wfD (P := fun x y => SchemaTo x y ∧ y.wf = true) a2 hnd (fun _ _ hp => hp.2)), fun hn => absurd g1 (hn x l), ?_⟩
        intro x' l' hx'
        rw [g1] at hx'
        cases hx'
        exact ⟨rs, Dict.get?_set_self _ _ _, a2⟩
    obtain ⟨r4, e4, s4, c4a, c4b⟩ := h4
    simp only [e4]
    -- additionalProperties
    have h5 : ∃ r5, putAdditional o r4 = .ok r5 ∧ Step (s% "additionalProperties") r4 r5 ∧
        (given d (s% "additionalProperties") = none ∨ Dict.get? d (s% "additionalProperties") = some (.bool true) →
          Dict.get? r5 (s% "additionalProperties") = none) ∧
        (Dict.get? d (s% "additionalProperties") = some (.bool false) →
          Dict.get? r5 (s% "additionalProperties") = some (.bool false)) ∧
        (∀ v, given d (s% "additionalProperties") = some v → (∀ b, v ≠ .bool b) →
          ∃ w, Dict.get? r5 (s% "additionalProperties") = some w ∧ (SchemaTo v w ∧ w.wf = true)) := by
      rw [putAdditional_eq]
      have hr : Dict.get? r4 (s% "additionalProperties") = none := by
        rw [s4.frame _ (by decide), s3.frame _ (by decide), s2.frame _ (by decide), s1.frame _ (by decide)]
        exact honly _ (by decide)
      cases hg : given d (s% "additionalProperties") with
      | none =>
        rw [built_kid_none h hg]
        refine ⟨r4, rfl, .refl _ _, fun _ => hr, fun hf => ?_, fun v hv => by cases hv⟩
        rw [given_some.2 ⟨hf, by simp⟩] at hg
        cases hg
      | some v =>
        obtain ⟨x, hx, hbx⟩ := built_kid_some h (k := s% "additionalProperties") (by rfl) hg
        obtain ⟨hv1, hv2⟩ := given_some.1 hg
        have hreg := hbx.reg
        obtain ⟨q, hq⟩ := hbx.path
        rw [build_ifNotBool] at hq
        rw [hx, hv1]
        cases hreg with
        | @bool _ b =>
          simp only [isBool, if_true, Except.ok.injEq] at hq
          subst hq
          cases b with
          | true =>
            refine ⟨r4, rfl, .refl _ _, fun _ => hr, (fun hf => by cases hf), fun v hv hb => ?_⟩
            cases hv; exact absurd rfl (hb true)
          | false =>
            refine ⟨_, rfl, .set _ _ rfl, fun hf => ?_, fun _ => Dict.get?_set_self _ _ _, fun v hv hb => ?_⟩
            · rcases hf with hf | hf <;> cases hf
            · cases hv; exact absurd rfl (hb false)
        | notBool hnb hreg =>
          rw [isBool_false.2 hnb] at hq
          have hb' : Built (.cls (s% "v2_0.Schema")) v x := ⟨hreg, hbx.wf, q, hq⟩
          obtain ⟨w, a1, a2⟩ := ih' _ x (small _ _ hv1) hb'
          obtain ⟨e, _, _, _, rfl, _⟩ := built_cls hb'
          simp only [a1, bind, Except.bind]
          refine ⟨_, rfl, .set _ _ a2.2, fun hf => ?_, (fun hf => by cases hf; exact absurd rfl (hnb _)), ?_⟩
          · rcases hf with hf | hf
            · cases hf
            · cases hf; exact absurd rfl (hnb _)
          · intro v' hv' _
            cases hv'
            exact ⟨w, Dict.get?_set_self _ _ _, a2⟩
    obtain ⟨r5, e5, s5, c5a, c5b, c5c⟩ := h5
    simp only [e5]
    -- the rest
    have low : ∀ k, k ≠ s% "additionalProperties" → k ≠ s% "properties" → k ≠ s% "items" → k ≠ s% "allOf" →
        k ≠ s% "required" → Dict.get? r5 k = Dict.get? r0 k := by
      intro k k1 k2 k3 k4 k5
      rw [s5.frame _ k1, s4.frame _ k2, s3.frame _ k3, s2.frame _ k4, s1.frame _ k5]
    obtain ⟨r6, e6, c6a, c6b, c6c, s6, w6⟩ := putRest_built h r5
      (by rw [low _ (by decide) (by decide) (by decide) (by decide) (by decide)]; exact honly _ (by decide))
      (by rw [low _ (by decide) (by decide) (by decide) (by decide) (by decide)]; exact honly _ (by decide))
      (by rw [low _ (by decide) (by decide) (by decide) (by decide) (by decide)]; exact honly _ (by decide))
    simp only [e6]
    have q5 : Dict.get? r6 (s% "additionalProperties") = Dict.get? r5 (s% "additionalProperties") :=
      s6 _ (by decide) (by decide) (by decide)
    have q4 : Dict.get? r6 (s% "properties") = Dict.get? r4 (s% "properties") := by
      rw [s6 _ (by decide) (by decide) (by decide), s5.frame _ (by decide)]
    have q3 : Dict.get? r6 (s% "items") = Dict.get? r3 (s% "items") := by
      rw [s6 _ (by decide) (by decide) (by decide), s5.frame _ (by decide), s4.frame _ (by decide)]
    have q2 : Dict.get? r6 (s% "allOf") = Dict.get? r2 (s% "allOf") := by
      rw [s6 _ (by decide) (by decide) (by decide), s5.frame _ (by decide), s4.frame _ (by decide), s3.frame _ (by decide)]
    have q1 : Dict.get? r6 (s% "required") = Dict.get? r1 (s% "required") := by
      rw [s6 _ (by decide) (by decide) (by decide), s5.frame _ (by decide), s4.frame _ (by decide), s3.frame _ (by decide),
        s2.frame _ (by decide)]
    have hflat : SchemaFlat d r6 := by
      refine ⟨?_, by rw [q1]; exact c1, c6a, c6b, c6c, ?_⟩
      · intro k hkm
        have hne : k ≠ s% "discriminator" ∧ k ≠ s% "xml" ∧ k ≠ s% "externalDocs" ∧ k ≠ s% "additionalProperties" ∧
            k ≠ s% "properties" ∧ k ≠ s% "items" ∧ k ≠ s% "allOf" ∧ k ≠ s% "required" := by
          revert hkm; revert k; decide
        obtain ⟨n1, n2, n3, n4, n5, n6, n7, n8⟩ := hne
        rw [s6 k n1 n2 n3, low k n4 n5 n6 n7 n8]
        exact hcop k hkm
      · intro k hkn
        refine Decidable.byContradiction (fun hnm => hkn ?_)
        simp only [List.mem_append, List.mem_cons, List.not_mem_nil, or_false, not_or] at hnm
        obtain ⟨m0, m1, m2, m3, m4, m5, m6, m7, m8⟩ := hnm
        rw [s6 k m6 m7 m8, low k m5 m4 m3 m2 m1]
        exact honly k m0
    have hw6 : (Json.obj r6).wf = true := w6 (s5.wf (s4.wf (s3.wf (s2.wf (s1.wf w0)))))
    refine ⟨_, rfl, .plain href ?_ hflat ?_ ?_ ?_ ?_ ?_ ?_ ?_ ?_ ?_ ?_ ?_, hw6⟩
    · intro ht; apply hfile; unfold look; rw [ht]; rfl
    · rw [q2]; exact c2a
    · intro x l hx
      obtain ⟨l', a1, a2⟩ := c2b x l hx
      exact ⟨l', by rw [q2]; exact a1, forall₂_len a2⟩
    · intro l l' n x y hl hl' hx hy
      cases l with
      | nil => cases hx
      | cons z l =>
        obtain ⟨l'', a1, a2⟩ := c2b z l hl
        rw [q2, a1] at hl'
        cases hl'
        exact (forall₂_index a2 hx hy).1
    · rw [q3]
      constructor
      · exact c3a
      · intro hn
        cases hg : given d (s% "items") with
        | none => rfl
        | some v => obtain ⟨w, a1, _⟩ := c3b v hg; rw [a1] at hn; cases hn
    · intro v w hv hw
      obtain ⟨w', a1, a2⟩ := c3b v hv
      rw [q3, a1] at hw
      cases hw
      exact a2.1
    · rw [q4]; exact c4a
    · intro x l hx
      obtain ⟨l', a1, a2⟩ := c4b x l hx
      exact ⟨l', by rw [q4]; exact a1, forall₂_keys (P := fun x y => SchemaTo x y ∧ y.wf = true) a2⟩
    · intro ps qs k v w hps hqs hv hw
      cases ps with
      | nil => cases hv
      | cons z ps =>
        obtain ⟨l'', a1, a2⟩ := c4b z ps hps
        rw [q4, a1] at hqs
        cases hqs
        exact (forall₂_lookup (P := fun x y => SchemaTo x y ∧ y.wf = true) a2 hv hw).1
    · rw [q5]
      constructor
      · exact c5a
      · intro hn
        cases hg : given d (s% "additionalProperties") with
        | none => exact .inl rfl
        | some v =>
          by_cases hb : ∃ b, v = .bool b
          · obtain ⟨b, rfl⟩ := hb
            cases b with
            | true => exact .inr (given_some.1 hg).1
            | false => rw [c5b (given_some.1 hg).1] at hn; cases hn
          · obtain ⟨w, a1, _⟩ := c5c v hg (fun b hb' => hb ⟨b, hb'⟩)
            rw [a1] at hn; cases hn
    · rw [q5]; exact c5b
    · intro v w hv hb hw
      obtain ⟨w', a1, a2⟩ := c5c v hv hb
      rw [q5, a1] at hw
      cases hw
      exact a2.1

end Pyopenapi
