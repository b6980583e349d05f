import Verif.Lemmas.Obj
import Verif.Model.Tables

/-!
# C20, C21: reading fields, and which documents load
-/

namespace Pyopenapi
open Spec
variable {T : Table}

/-! ## C20 field access -/

/-- C20: reading a declared field of an object loaded from the JSON object `d`: the value in the
document when present (an error when the field is restricted), else an error when it is required,
else its default. -/
theorem C20_field_contract (c : Str) (d : Dict Json) (path : Option Str) (kids : Dict Obj) (k : Str)
    (fd : FieldDef) (hf : Dict.get? (T c).fields k = some fd) (hc : Dict.get? (T c).children k = none)
    (o : Obj) (ho : o = .base c path (.obj d) kids) (hb : build T (.cls c) (.obj d) path [] = .ok o) :
    (∀ v, Dict.get? d k = some v → fd.restricted = false →
      Obj.resolve T [k] o = .ok (.prim v)) ∧
    (∀ v, Dict.get? d k = some v → fd.restricted = true → Obj.resolve T [k] o = .error .generic) ∧
    (Dict.get? d k = none → fd.required = true → Obj.resolve T [k] o = .error .generic) ∧
    (Dict.get? d k = none → fd.required = false → Obj.resolve T [k] o = .ok (.prim fd.default)) := by
  subst ho
  have hh : Dict.has (T c).children k = false := by simp [Dict.has, hc]
  refine ⟨?_, ?_, ?_, ?_⟩
  · intro v hv hr
    simp [Obj.resolve, Obj.getattr, hh, hf, Obj.readField, specGet, hv, hr, Obj.resolvePrim,
      bind, Except.bind]
  · intro v hv hr
    simp [Obj.resolve, Obj.getattr, hh, hf, Obj.readField, specGet, hv, hr,
      bind, Except.bind]
  · intro hv hr
    simp [Obj.resolve, Obj.getattr, hh, hf, Obj.readField, specGet, hv, hr,
      bind, Except.bind]
  · intro hv hr
    simp [Obj.resolve, Obj.getattr, hh, hf, Obj.readField, specGet, hv, hr, Obj.resolvePrim,
      bind, Except.bind]

/-- C20: a writable field reads back what was written and leaves the others alone; a read-only one
cannot be written. -/
theorem C20_field_write (fd : FieldDef) (d : Dict Json) (k : Str) (v : Json) (spec : Json)
    (h : Obj.writeField fd (.obj d) k v = .ok spec) :
    fd.readonly = false ∧ (fd.restricted = false → Obj.readField fd spec k = .ok v) ∧
    ∀ k' fd', k' ≠ k → Obj.readField fd' spec k' = Obj.readField fd' (.obj d) k' := by
  unfold Obj.writeField at h
  cases hr : fd.readonly with
  | true => simp [hr] at h
  | false =>
    simp only [hr, Bool.false_eq_true, if_false, Except.ok.injEq] at h
    subst h
    refine ⟨rfl, ?_, ?_⟩
    · intro hx
      simp [Obj.readField, specGet, Dict.get?_set_self, hx]
    · intro k' fd' hk
      simp only [Obj.readField, specGet, Dict.get?_set_ne _ _ (Ne.symm hk)]

/-- Instance: the default of a Swagger 2.0 parameter's collectionFormat, the requiredness of an
OpenAPI 3 parameter's name, and the restriction of a header's. -/
example : ((build pkg (.cls (s% "v2_0.Parameter")) (.obj [(s% "name", .str (s% "n"))]) none []).bind
      (fun o => (Obj.resolve pkg [s% "collectionFormat"] o).bind fun r => match r with
        | .prim j => .ok j
        | _ => .error .generic)) = .ok (.str (s% "csv")) := by
  decide +kernel

/-! ## C21 which documents load -/

/-- C21: loading succeeds exactly on the documents `Shaped` describes; otherwise it raises. -/
theorem C21_build_iff_shaped (b : Builder) (j : Json) (path : Option Str) :
    (∃ o, build T b j path [] = .ok o) ↔ Shaped T b j := by
  revert path
  refine build_ind (P := fun b j => ∀ path, (∃ o, build T b j path [] = .ok o) ↔ Shaped T b j)
    ?_ ?_ ?_ ?_ ?_ ?_ ?_ b j
  · -- classes
    intro c j ih path
    rw [build_cls]
    have hkids : (∃ o, (match Dict.collect (fun k cd => buildKid T k cd j path []) (T c).children with
        | .error e => .error e
        | .ok kids => .ok (Obj.base c path j kids) : R Obj) = .ok o) ↔
        ∀ p ∈ (T c).children, ∃ o, buildKid T p.1 p.2 j path [] = .ok o := by
      cases hk : Dict.collect (fun k cd => buildKid T k cd j path []) (T c).children with
      | ok kids => simp only [Except.ok.injEq, exists_eq', true_iff]; exact (Dict.collect_iff.1 hk).1
      | error e =>
        simp only [reduceCtorEq, exists_false, false_iff]
        intro h
        have := (Dict.collect_iff (f := fun k cd => buildKid T k cd j path []) (r := _)).2 ⟨h, rfl⟩
        rw [hk] at this; simp at this
    refine Iff.trans hkids ?_
    constructor
    · intro h
      cases j with
      | obj d =>
        refine Shaped.clsObj ?_ ?_
        · intro k cd hm hr hn
          obtain ⟨o, ho⟩ := h (k, cd) hm
          rw [buildKid_eq, specGet_obj, hn] at ho
          simp [hr] at ho
        · intro k cd v hm hv hnn
          obtain ⟨o, ho⟩ := h (k, cd) hm
          rw [buildKid_eq, specGet_obj, hv] at ho
          simp only [hnn, if_false] at ho
          apply (ih cd.builder v (size_get hv) (some (jpCompose [k] path))).1
          cases hb : build T cd.builder v (some (jpCompose [k] path)) [] with
          | ok o' => exact ⟨o', rfl⟩
          | error e => rw [hb] at ho; simp at ho
      | _ =>
        by_cases hc : (T c).children = []
        · exact Shaped.clsLeaf hc
        · refine Shaped.clsOther (by simp) ?_ ?_
          · obtain ⟨p, cs, hp⟩ := List.exists_cons_of_ne_nil hc
            obtain ⟨o, ho⟩ := h p (by rw [hp]; simp)
            rw [buildKid_eq] at ho
            first
              | exact trivial
              | (simp [specGet] at ho)
          · intro k cd hm
            obtain ⟨o, ho⟩ := h (k, cd) hm
            rw [buildKid_eq] at ho
            split at ho
            · simp at ho
            · rename_i hg
              cases hr : cd.required with
              | true => simp [hr] at ho
              | false => exact ⟨rfl, (specGet_none.1 hg).2⟩
            · rename_i hg
              obtain ⟨d, hd, _⟩ := specGet_some.1 hg
              simp at hd
    · intro hs p hp
      obtain ⟨k, cd⟩ := p
      cases hs with
      | @clsObj _ d h1 h2 =>
        simp only [buildKid_eq, specGet_obj]
        cases hg : Dict.get? d k with
        | none =>
          cases hr : cd.required with
          | true => exact absurd hg (h1 k cd hp hr)
          | false => exact ⟨none, by simp⟩
        | some v =>
          by_cases hv : v = .null
          · exact ⟨none, by simp [hv]⟩
          · obtain ⟨o, ho⟩ := (ih cd.builder v (size_get hg) (some (jpCompose [k] path))).2
              (h2 k cd v hp hg hv)
            exact ⟨some o, by simp [hv, ho]⟩
      | clsLeaf h => rw [h] at hp; simp at hp
      | clsOther h1 h2 h3 =>
        obtain ⟨hr, hw⟩ := h3 k cd hp
        simp only [buildKid_eq, specGet_none.2 ⟨h2, hw⟩, hr]
        exact ⟨none, by simp⟩
  · intro j path
    rw [build_isStr]
    constructor
    · rintro ⟨o, ho⟩
      cases j <;> simp at ho
      exact Shaped.isStr
    · intro h; cases h; exact ⟨_, rfl⟩
  · intro j path
    rw [build_isStrOrInt]
    constructor
    · rintro ⟨o, ho⟩
      cases j <;> simp at ho
      · exact Shaped.intBool
      · exact Shaped.int
      · exact Shaped.str
    · intro h; cases h <;> exact ⟨_, rfl⟩
  · -- lists
    intro b j ih path
    cases j with
    | arr l =>
      rw [build_list]
      constructor
      · rintro ⟨o, ho⟩
        cases he : buildElems T b l 0 path [] with
        | error e => rw [he] at ho; simp at ho
        | ok es =>
          obtain ⟨h1, h2⟩ := buildElems_iff.1 he
          refine Shaped.list ?_
          intro x hx
          obtain ⟨n, hn⟩ := List.getElem?_of_mem hx
          have hlt : n < l.length := by
            rw [List.getElem?_eq_some_iff] at hn; exact hn.1
          have := h2 n x es[n] hn (List.getElem?_eq_getElem (by omega))
          rw [buildAt_nil] at this
          exact (ih x (size_elem hx) _).1 ⟨_, this⟩
      · intro hs
        cases hs with
        | list hall =>
          have hex : ∀ (l : List Json) (i : Nat), (∀ x ∈ l, ∀ p, ∃ o, build T b x p [] = .ok o) →
              ∃ es, buildElems T b l i path [] = .ok es := by
            intro l
            induction l with
            | nil => intro i _; rw [buildElems]; exact ⟨_, rfl⟩
            | cons x l ihl =>
              intro i h
              obtain ⟨o, ho⟩ := h x (by simp) (some (jpCompose [Str.ofNat i] path))
              obtain ⟨es, hes⟩ := ihl (i + 1) (fun y hy => h y (by simp [hy]))
              rw [buildElems, buildAt_nil, ho, hes]
              exact ⟨_, rfl⟩
          obtain ⟨es, hes⟩ := hex l 0 (fun x hx p => (ih x (size_elem hx) p).2 (hall x hx))
          rw [hes]; exact ⟨_, rfl⟩
    | _ =>
      rw [build_list_other b _ path (by simp)]
      simp only [reduceCtorEq, exists_false, false_iff]
      intro h; cases h
  · -- maps
    intro b j ih path
    cases j with
    | obj d =>
      rw [build_map, buildItems_eq]
      constructor
      · rintro ⟨o, ho⟩
        cases he : Dict.mapM (fun k x => buildAt T b k x path []) d with
        | error e => rw [he] at ho; simp at ho
        | ok es =>
          refine Shaped.map ?_
          have hf := Dict.mapM_ok he
          intro k x hx
          have hex : ∃ o, buildAt T b k x path [] = .ok o := by
            clear ho he ih
            induction hf with
            | nil => simp at hx
            | @cons a e d es hh _ ihf =>
              rcases List.mem_cons.1 hx with hx | hx
              · subst hx; exact ⟨_, hh.2⟩
              · exact ihf hx
          rw [buildAt_nil] at hex
          exact (ih x (size_item hx) _).1 hex
      · intro hs
        cases hs with
        | map hall =>
          have hex : ∀ (d : Dict Json), (∀ k x, (k, x) ∈ d → ∀ p, ∃ o, build T b x p [] = .ok o) →
              ∃ es, Dict.mapM (fun k x => buildAt T b k x path []) d = .ok es := by
            intro d
            induction d with
            | nil => intro _; exact ⟨_, rfl⟩
            | cons q d ihd =>
              obtain ⟨k, x⟩ := q
              intro h
              obtain ⟨o, ho⟩ := h k x (by simp) (some (jpCompose [k] path))
              obtain ⟨es, hes⟩ := ihd (fun k' y hy => h k' y (by simp [hy]))
              rw [Dict.mapM, buildAt_nil, ho, hes]
              exact ⟨_, rfl⟩
          obtain ⟨es, hes⟩ := hex d (fun k x hx p => (ih x (size_item hx) p).2 (hall k x hx))
          rw [hes]; exact ⟨_, rfl⟩
    | _ =>
      rw [build_map_other b _ path (by simp)]
      simp only [reduceCtorEq, exists_false, false_iff]
      intro h; cases h
  · intro r b j ihr ihb path
    rw [build_ifNotRef]
    cases hh : specHas j (s% "$ref") with
    | error e =>
      simp only [reduceCtorEq, exists_false, false_iff]
      intro h
      cases h with
      | ref hw _ => rw [specHas_true.2 hw] at hh; simp at hh
      | notRef hi hw _ => rw [specHas_false.2 ⟨hi, hw⟩] at hh; simp at hh
    | ok v =>
      cases v with
      | true =>
        simp only [ihr path]
        constructor
        · exact fun h => Shaped.ref (specHas_true.1 hh) h
        · intro h
          cases h with
          | ref _ h => exact h
          | notRef _ hw _ => exact absurd (specHas_true.1 hh) hw
      | false =>
        simp only [ihb path]
        obtain ⟨hi, hw⟩ := specHas_false.1 hh
        constructor
        · exact fun h => Shaped.notRef hi hw h
        · intro h
          cases h with
          | ref hw' _ => exact absurd hw' hw
          | notRef _ _ h => exact h
  · intro b j ih path
    rw [build_ifNotBool]
    cases hb : isBool j with
    | true =>
      simp only [if_true, Except.ok.injEq, exists_eq', true_iff]
      obtain ⟨v, rfl⟩ := isBool_iff.1 hb
      exact Shaped.bool
    | false =>
      simp only [Bool.false_eq_true, if_false, ih path]
      have hnb := isBool_false.1 hb
      constructor
      · exact fun h => Shaped.notBool hnb h
      · intro h
        cases h with
        | bool => exact absurd rfl (hnb _)
        | notBool _ h => exact h

/-- Whether a document loads does not depend on where it is placed. -/
theorem C21_path_irrelevant (b : Builder) (j : Json) (p q : Option Str) :
    (∃ o, build T b j p [] = .ok o) ↔ (∃ o, build T b j q [] = .ok o) := by
  rw [C21_build_iff_shaped, C21_build_iff_shaped]

/-- C21 (deviation): a string is accepted where an Info object is due, and a number where a Contact
object is; only what has children is looked into. -/
theorem C21_accepts_non_objects :
    Shaped pkg (.cls (s% "v2_0.Info")) (.str (s% "x")) ∧
    Shaped pkg (.cls (s% "v2_0.Contact")) (.int 3) := by
  constructor
  · refine Shaped.clsOther (by simp) trivial ?_
    intro k cd hm
    have hch : (pkg (s% "v2_0.Info")).children =
      [(s% "contact", ⟨.cls (s% "v2_0.Contact"), false⟩), (s% "license", ⟨.cls (s% "v2_0.License"), false⟩)] := by
      decide +kernel
    rw [hch] at hm
    simp only [List.mem_cons, Prod.mk.injEq, List.not_mem_nil, or_false] at hm
    rcases hm with ⟨rfl, rfl⟩ | ⟨rfl, rfl⟩
    · refine ⟨rfl, ?_⟩
      rintro ⟨a, b, h⟩
      have := congrArg List.length h
      simp at this; omega
    · refine ⟨rfl, ?_⟩
      rintro ⟨a, b, h⟩
      have := congrArg List.length h
      simp at this; omega
  · exact Shaped.clsLeaf (by decide +kernel)

/-- A document of some depth that loads, and variants that do not. -/
example : (build pkg (.cls (s% "v3_0_0.RequestBody")) (.obj [(s% "content", .obj [(s% "application/json",
      .obj [(s% "schema", .obj [(s% "$ref", .str (s% "#/components/schemas/Pet"))])])])]) none []).isOk = true ∧
    (build pkg (.cls (s% "v3_0_0.RequestBody")) (.obj []) none []).isOk = false ∧
    (build pkg (.cls (s% "v3_0_0.RequestBody")) (.obj [(s% "content", .arr [])]) none []).isOk = false := by
  decide +kernel

end Pyopenapi
