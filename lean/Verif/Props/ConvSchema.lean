import Verif.Lemmas.ConvCheck

/-!
# C46, C47, C71: schemas of Swagger 2.0 as OpenAPI 3.0
-/

namespace Pyopenapi
open Spec Obj Conv

/-- C46: every Swagger 2.0 schema of regular shape loads and converts, and the conversion says the same (`SchemaTo`):
every keyword with its value, at every depth, and nothing else. -/
theorem C46_schema_kept (j : Json) (p : Option Str) (hr : Regular pkg (.cls (s% "v2_0.Schema")) j) (hw : j.wf = true) :
    ∃ o r, build pkg (.cls (s% "v2_0.Schema")) j p [] = .ok o ∧ toSchema false o = .ok r ∧ SchemaTo j r := by
  obtain ⟨o, ho, hb⟩ := built_exists hr hw p
  obtain ⟨r, h1, h2, _⟩ := toSchema_built _ j o (Nat.le_refl _) hb
  exact ⟨o, r, ho, h1, h2⟩

/-- The tokens below a schema that lead to schemas. -/
inductive SchemaAt : Json → List Str → Json → Prop
  | here (j : Json) : SchemaAt j [] j
  | allOf {d : Dict Json} {l : List Json} {n : Nat} {x w : Json} {ts : List Str} :
      Dict.get? d (s% "allOf") = some (.arr l) → l[n]? = some x → SchemaAt x ts w →
      SchemaAt (.obj d) (s% "allOf" :: Str.ofNat n :: ts) w
  | items {d : Dict Json} {x w : Json} {ts : List Str} :
      Dict.get? d (s% "items") = some x → x ≠ .null → SchemaAt x ts w → SchemaAt (.obj d) (s% "items" :: ts) w
  | property {d ps : Dict Json} {k : Str} {x w : Json} {ts : List Str} :
      Dict.get? d (s% "properties") = some (.obj ps) → Dict.get? ps k = some x → SchemaAt x ts w →
      SchemaAt (.obj d) (s% "properties" :: k :: ts) w
  | additional {d : Dict Json} {x w : Json} {ts : List Str} :
      Dict.get? d (s% "additionalProperties") = some x → x ≠ .null → (∀ b, x ≠ .bool b) → SchemaAt x ts w →
      SchemaAt (.obj d) (s% "additionalProperties" :: ts) w

/-- The same pointer is in both documents: from the schema `j` one gets to `w` by `ts`, unless a reference or a file
is met on the way, whose members are left out. -/
inductive CutOff : Json → List Str → Prop
  | ref {d : Dict Json} {t : Str} {ts : List Str} : IsRef d → CutOff (.obj d) (t :: ts)
  | file {d : Dict Json} {t : Str} {ts : List Str} : Dict.get? d (s% "type") = some (.str (s% "file")) →
      CutOff (.obj d) (t :: ts)
  | deeper {j x : Json} {ts us : List Str} : SchemaAt j ts x → CutOff x us → CutOff j (ts ++ us)

/-- C46: at every depth the pointer to a subschema is a pointer, in the conversion, to its conversion. -/
theorem C46_every_depth {j r w : Json} {ts : List Str} (h : SchemaTo j r) (ha : SchemaAt j ts w) :
    CutOff j ts ∨ ∃ w', RawAt r ts w' ∧ SchemaTo w w' := by
  induction ha generalizing r with
  | here j => exact .inr ⟨r, .here r, h⟩
  | @allOf d l n x w ts hl hx _ ih =>
    cases h with
    | ref hv ht => exact .inl (.ref (by simp [IsRef, look, hv, ht]))
    | file _ ht => exact .inl (.file ht)
    | plain _ _ _ _ h2 h3 =>
      cases l with
      | nil => cases hx
      | cons z l =>
        obtain ⟨l', a1, a2⟩ := h2 z l hl
        have hlt : n < l'.length := by rw [a2]; exact (List.getElem?_eq_some_iff.1 hx).1
        have hy := List.getElem?_eq_getElem hlt
        rcases ih (h3 _ _ n x _ hl a1 hx hy) with hb | ⟨w', b1, b2⟩
        · exact .inl (.deeper (ts := [s% "allOf", Str.ofNat n]) (.allOf hl hx (.here x)) hb)
        · exact .inr ⟨w', .key a1 (.idx hy b1), b2⟩
  | @items d x w ts hx hn _ ih =>
    cases h with
    | ref hv ht => exact .inl (.ref (by simp [IsRef, look, hv, ht]))
    | file _ ht => exact .inl (.file ht)
    | @plain _ r _ _ _ _ _ _ h4 h5 =>
      have hg := given_some.2 ⟨hx, hn⟩
      cases hy : Dict.get? r (s% "items") with
      | none => rw [h4.2 hy] at hg; cases hg
      | some y =>
        rcases ih (h5 x y hg hy) with hb | ⟨w', b1, b2⟩
        · exact .inl (.deeper (ts := [s% "items"]) (.items hx hn (.here x)) hb)
        · exact .inr ⟨w', .key hy b1, b2⟩
  | @property d ps k x w ts hps hx _ ih =>
    cases h with
    | ref hv ht => exact .inl (.ref (by simp [IsRef, look, hv, ht]))
    | file _ ht => exact .inl (.file ht)
    | plain _ _ _ _ _ _ _ _ _ h7 h8 =>
      cases ps with
      | nil => cases hx
      | cons z ps =>
        obtain ⟨qs, a1, a2⟩ := h7 z ps hps
        have hk : k ∈ Dict.keys qs := by
          rw [a2]; exact Dict.get?_isSome_iff.1 (by rw [hx]; rfl)
        obtain ⟨y, hy⟩ := Option.isSome_iff_exists.1 (Dict.get?_isSome_iff.2 hk)
        rcases ih (h8 _ _ k x y hps a1 hx hy) with hb | ⟨w', b1, b2⟩
        · exact .inl (.deeper (ts := [s% "properties", k]) (.property hps hx (.here x)) hb)
        · exact .inr ⟨w', .key a1 (.key hy b1), b2⟩
  | @additional d x w ts hx hn hb _ ih =>
    cases h with
    | ref hv ht => exact .inl (.ref (by simp [IsRef, look, hv, ht]))
    | file _ ht => exact .inl (.file ht)
    | @plain _ r _ _ _ _ _ _ _ _ _ _ _ h9 _ h11 =>
      have hg := given_some.2 ⟨hx, hn⟩
      cases hy : Dict.get? r (s% "additionalProperties") with
      | none =>
        rcases h9.2 hy with h | h
        · rw [h] at hg; cases hg
        · rw [h] at hx; cases hx; exact absurd rfl (hb true)
      | some y =>
        rcases ih (h11 x y hg hb hy) with hb' | ⟨w', b1, b2⟩
        · exact .inl (.deeper (ts := [s% "additionalProperties"]) (.additional hx hn hb (.here x)) hb')
        · exact .inr ⟨w', .key hy b1, b2⟩

/-- C47: a schema with `$ref` converts to that reference alone, whatever else it has. -/
theorem C47_reference (fi : Bool) (d : Dict Json) (o : Obj) (v : Json) (hb : Built (.cls (s% "v2_0.Schema")) (.obj d) o)
    (hv : Dict.get? d (s% "$ref") = some v) (ht : v.truthy = true) :
    toSchema fi o = .ok (.obj [(s% "$ref", v)]) := by
  have hpc : plainClass (s% "v2_0.Schema") = true := by decide +kernel
  have hk : plainFields (s% "v2_0.Schema") ([s% "$ref", s% "type"]) = true := by decide +kernel
  have hl : look d (s% "$ref") = v := by simp [look, hv]
  rw [toSchema, built_fld hb hpc, built_fld hb hpc, plainFields_val hk (k := s% "$ref") (by simp) d, hl]
  simp [bind, Except.bind, ht]

/-- C47: a file schema converts to a binary string. -/
theorem C47_file (fi : Bool) (d : Dict Json) (o : Obj) (hb : Built (.cls (s% "v2_0.Schema")) (.obj d) o)
    (hr : ¬ IsRef d) (ht : Dict.get? d (s% "type") = some (.str (s% "file"))) :
    toSchema fi o = .ok (.obj [(s% "type", .str (s% "string")), (s% "format", .str (s% "binary"))]) := by
  have hpc : plainClass (s% "v2_0.Schema") = true := by decide +kernel
  have hk : plainFields (s% "v2_0.Schema") ([s% "$ref", s% "type"]) = true := by decide +kernel
  have hl : look d (s% "type") = .str (s% "file") := by simp [look, ht]
  rw [toSchema, built_fld hb hpc, built_fld hb hpc, plainFields_val hk (k := s% "$ref") (by simp) d,
    plainFields_val hk (k := s% "type") (by simp) d, hl]
  simp only [bind, Except.bind]
  rw [if_neg (show ¬ (look d (s% "$ref")).truthy = true from hr), if_pos trivial]

/-- The builder of the places that hold a schema in OpenAPI 3.0. -/
def schema3 : Builder := .ifNotRef (s% "v3_0_0.Reference") (.cls (s% "v3_0_0.Schema"))

theorem regular_leaf {c : Str} (hc : (pkg c).children = []) (d : Dict Json) : Regular pkg (.cls c) (.obj d) :=
  .cls (fun k cd h => by rw [hc] at h; cases h) (fun k cd v h => by rw [hc] at h; cases h)

theorem regular_reference (v : Json) : Regular pkg schema3 (.obj [(s% "$ref", v)]) :=
  .ref (by rfl) (regular_leaf (by decide +kernel) _)

theorem given_get {d : Dict Json} {k : Str} {v : Json} (h : given d k = some v) : Dict.get? d k = some v :=
  (given_some.1 h).1

/-- C71: the conversion of a schema is a document OpenAPI 3.0 objects can be loaded from. -/
theorem C71_schema_loads {j r : Json} (h : SchemaTo j r) (hw : r.wf = true) : Regular pkg schema3 r := by
  induction h with
  | ref hv ht => exact regular_reference _
  | file _ _ =>
    refine .notRef (by decide +kernel) (.cls ?_ ?_)
    · intro k cd hm hreq
      have hall : (pkg (s% "v3_0_0.Schema")).children.all (fun kc => !kc.2.required) = true := by decide +kernel
      have := List.all_eq_true.1 hall _ hm
      simp [hreq] at this
    · intro k cd v hm hv
      have hall : (pkg (s% "v3_0_0.Schema")).children.all (fun kc => decide (Dict.get? [(s% "type",
        Json.str (s% "string")), (s% "format", Json.str (s% "binary"))] kc.1 = none)) = true := by decide +kernel
      have := of_decide_eq_true (List.all_eq_true.1 hall _ hm)
      simp only at this
      rw [hv] at this; cases this
  | @plain d r hr ht hflat ha1 ha2 ha3 hi1 hi2 hp1 hp2 hp3 hd1 hd2 hd3 iha ihi ihp ihd =>
    obtain ⟨hcop, hreq, hdisc, hxml, hdocs, honly⟩ := hflat
    refine .notRef ?_ (.cls ?_ ?_)
    · cases hg : Dict.get? r (s% "$ref") with
      | none => rfl
      | some v => exact absurd (honly _ (by rw [hg]; simp)) (by decide)
    · intro k cd hm hreq
      have hall : (pkg (s% "v3_0_0.Schema")).children.all (fun kc => !kc.2.required) = true := by decide +kernel
      have := List.all_eq_true.1 hall _ hm
      simp [hreq] at this
    · intro k cd v hm hv hn
      have hk := honly k (by rw [hv]; simp)
      have hkids : Dict.get? (pkg (s% "v3_0_0.Schema")).children k = some cd :=
        Dict.get?_of_mem (okTable_pkg.cls _).children hm
      have hks : k ∈ Dict.keys (pkg (s% "v3_0_0.Schema")).children := Dict.get?_isSome_iff.1 (by rw [hkids]; rfl)
      have hcases : k = s% "discriminator" ∨ k = s% "xml" ∨ k = s% "externalDocs" ∨ k = s% "allOf" ∨ k = s% "items" ∨
          k = s% "properties" ∨ k = s% "additionalProperties" := by
        have hall : ∀ k ∈ Dict.keys (pkg (s% "v3_0_0.Schema")).children, k ∈ schemaKeywords ++ [s% "required", s% "allOf",
          s% "items", s% "properties", s% "additionalProperties", s% "discriminator", s% "xml", s% "externalDocs"] →
          k = s% "discriminator" ∨ k = s% "xml" ∨ k = s% "externalDocs" ∨ k = s% "allOf" ∨ k = s% "items" ∨
          k = s% "properties" ∨ k = s% "additionalProperties" := by decide +kernel
        exact hall k hks hk
      rcases hcases with rfl | rfl | rfl | rfl | rfl | rfl | rfl
      · cases hkids
        rw [hv] at hdisc
        cases hg : given d (s% "discriminator") with
        | none => rw [hg] at hdisc; cases hdisc
        | some w =>
          rw [hg] at hdisc
          simp only at hdisc
          split at hdisc
          · cases hdisc
            refine .cls ?_ ?_
            · intro k cd hm hreq
              have hall : (pkg (s% "v3_0_0.Discriminator")).children.all (fun kc => !kc.2.required) = true := by
                decide +kernel
              have := List.all_eq_true.1 hall _ hm
              simp [hreq] at this
            · intro k cd v hm hv
              have hall : (pkg (s% "v3_0_0.Discriminator")).children.all (fun kc => decide (kc.1 ≠
                s% "propertyName")) = true := by decide +kernel
              have := of_decide_eq_true (List.all_eq_true.1 hall _ hm)
              simp only at this
              rw [Dict.get?_cons, if_neg (Ne.symm this)] at hv; cases hv
          · cases hdisc
      · cases hkids
        cases hg : given d (s% "xml") with
        | none => rw [hxml.1 hg] at hv; cases hv
        | some w =>
          obtain ⟨e, x, _, hx, e', rfl, _⟩ := hxml.2 w hg
          rw [hv] at hx
          cases hx
          exact regular_leaf (by decide +kernel) _
      · cases hkids
        cases hg : given d (s% "externalDocs") with
        | none => rw [hdocs.1 hg] at hv; cases hv
        | some w =>
          obtain ⟨e, x, _, hx, e', rfl, _⟩ := hdocs.2 w hg
          rw [hv] at hx
          cases hx
          exact regular_leaf (by decide +kernel) _
      · cases hkids
        have hex : ∃ x l, Dict.get? d (s% "allOf") = some (.arr (x :: l)) := by
          refine Classical.byContradiction (fun hne => ?_)
          rw [ha1 (fun x l h => hne ⟨x, l, h⟩)] at hv
          cases hv
        obtain ⟨x, l, hl⟩ := hex
        obtain ⟨l', a1, a2⟩ := ha2 x l hl
        rw [hv] at a1
        cases a1
        refine .list (fun y hy => ?_)
        obtain ⟨n, hn1, hn2⟩ := List.getElem_of_mem hy
        have hy' : l'[n]? = some y := by rw [List.getElem?_eq_getElem hn1, hn2]
        have hlt : n < (x :: l).length := by rw [← a2]; exact hn1
        exact iha (x :: l) l' n _ y hl hv (List.getElem?_eq_getElem hlt) hy' (wf_list (wf_at hw hv) hy)
      · cases hkids
        cases hg : given d (s% "items") with
        | none => rw [hi1.1 hg] at hv; cases hv
        | some w => exact ihi w v hg hv (wf_at hw hv)
      · cases hkids
        have hex : ∃ x l, Dict.get? d (s% "properties") = some (.obj (x :: l)) := by
          refine Classical.byContradiction (fun hne => ?_)
          rw [hp1 (fun x l h => hne ⟨x, l, h⟩)] at hv
          cases hv
        obtain ⟨x, l, hl⟩ := hex
        obtain ⟨qs, a1, a2⟩ := hp2 x l hl
        rw [hv] at a1
        cases a1
        have hwq := wf_at hw hv
        refine .map (fun k y hy => ?_)
        have hq : Dict.get? qs k = some y := Dict.get?_of_mem (wf_nodup hwq) hy
        have hk : k ∈ Dict.keys (x :: l) := by
          rw [← a2]; exact Dict.get?_isSome_iff.1 (by rw [hq]; rfl)
        obtain ⟨w, hw'⟩ := Option.isSome_iff_exists.1 (Dict.get?_isSome_iff.2 hk)
        exact ihp _ _ k w y hl hv hw' hq (wf_at hwq hq)
      · cases hkids
        cases hg : given d (s% "additionalProperties") with
        | none => rw [hd1.1 (.inl hg)] at hv; cases hv
        | some w =>
          by_cases hb : ∃ b, w = .bool b
          · obtain ⟨b, rfl⟩ := hb
            cases b with
            | true => rw [hd1.1 (.inr (given_get hg))] at hv; cases hv
            | false => rw [hd2 (given_get hg)] at hv; cases hv; exact .bool
          · have hr := ihd w v hg (fun b h => hb ⟨b, h⟩) hv (wf_at hw hv)
            refine .notBool (fun b h => ?_) hr
            rw [h] at hr
            cases hr

/-- C71: load, convert, load again: every Swagger 2.0 schema of regular shape goes through. -/
theorem C71_schema (j : Json) (p q : Option Str) (hr : Regular pkg (.cls (s% "v2_0.Schema")) j) (hw : j.wf = true) :
    ∃ o r o', build pkg (.cls (s% "v2_0.Schema")) j p [] = .ok o ∧ toSchema false o = .ok r ∧
      build pkg schema3 r q [] = .ok o' := by
  obtain ⟨o, ho, hb⟩ := built_exists hr hw p
  obtain ⟨r, h1, h2, h3⟩ := toSchema_built _ j o (Nat.le_refl _) hb
  obtain ⟨o', ho', _⟩ := built_exists (C71_schema_loads h2 h3) h3 q
  exact ⟨o, r, o', ho, h1, ho'⟩

/-! ### a case -/

/-- A schema with something at every kind of place. -/
def sampleSchema : Json := .obj [(s% "type", .str (s% "object")), (s% "required", .arr [.str (s% "id")]),
  (s% "minProperties", .int 0),
  (s% "allOf", .arr [.obj [(s% "$ref", .str (s% "#/definitions/Base"))], .obj [(s% "type", .str (s% "file"))]]),
  (s% "properties", .obj [(s% "id", .obj [(s% "type", .str (s% "integer")), (s% "minimum", .int 0)]),
    (s% "tags", .obj [(s% "type", .str (s% "array")), (s% "items", .obj [(s% "type", .str (s% "string")),
      (s% "xml", .obj [(s% "name", .str (s% "tag"))])])])]),
  (s% "additionalProperties", .obj [(s% "maxLength", .int 3)]),
  (s% "discriminator", .str (s% "id")),
  (s% "externalDocs", .obj [(s% "url", .str (s% "http://x"))])]

theorem sampleSchema_regular : Regular pkg (.cls (s% "v2_0.Schema")) sampleSchema :=
  regularB_sound 9 _ _ (by decide +kernel)

example : ∃ o r, build pkg (.cls (s% "v2_0.Schema")) sampleSchema none [] = .ok o ∧ toSchema false o = .ok r ∧
    SchemaTo sampleSchema r := C46_schema_kept sampleSchema none sampleSchema_regular (by decide +kernel)

example : SchemaAt sampleSchema [s% "properties", s% "tags", s% "items"] (.obj [(s% "type", .str (s% "string")),
    (s% "xml", .obj [(s% "name", .str (s% "tag"))])]) :=
  .property (by rfl) (by rfl) (.items (by rfl) (by decide) (.here _))

example : ∃ o r o', build pkg (.cls (s% "v2_0.Schema")) sampleSchema none [] = .ok o ∧ toSchema false o = .ok r ∧
    build pkg schema3 r none [] = .ok o' := C71_schema sampleSchema none none sampleSchema_regular (by decide +kernel)

end Pyopenapi
