import Verif.Lemmas.ConvParam
import Verif.Lemmas.ConvCheck

/-!
# C45: how arrays are sent; parameters and headers
-/

namespace Pyopenapi
open Spec Obj Conv

/-- C45: the conversion raises, with `SchemaError`, exactly for spaces and pipes outside of arrays in queries. -/
theorem C45_raises (cf in_ type_ : Json) :
    ((∃ e, toStyleExplode cf in_ type_ = .error e) ↔
      (cf = .str (s% "ssv") ∨ cf = .str (s% "pipes")) ∧ (in_ ≠ .str (s% "query") ∨ type_ ≠ .str (s% "array"))) ∧
    (∀ e, toStyleExplode cf in_ type_ = .error e → e = .schemaError) :=
  ⟨toStyleExplode_error, fun _ h => toStyleExplode_schemaError h⟩

/-- C45 (partial: `tsv`, and forms, are lost — see the violations): for query, path and header, style and explode
send arrays as `collectionFormat` says. -/
theorem C45_table_partial (cf in_ : Str) (type_ : Json) (se : Option Str × Option Bool) (w : Wire)
    (hin : in_ ∈ [s% "query", s% "path", s% "header"]) (ht : cf ≠ s% "tsv") (hw : wire2 cf in_ = some w)
    (he : toStyleExplode (.str cf) (.str in_) type_ = .ok se) : wireOf in_ (putStyle se []) = some w :=
  style_table he hw ht hin (get_putStyle se [] rfl rfl).1 (get_putStyle se [] rfl rfl).2.1

/-- C45: a style that is given is one that OpenAPI 3 has for parameters at that place, and `explode` is only given with
one. -/
theorem C45_allowed (cf in_ : Str) (type_ : Json) (se : Option Str × Option Bool)
    (he : toStyleExplode (.str cf) (.str in_) type_ = .ok se) :
    (∀ s, se.1 = some s → s ∈ stylesAt in_) ∧ (se.1 = none → se.2 = none) := by
  unfold toStyleExplode at he
  repeat' split at he
  all_goals first | cases he
  all_goals
    refine ⟨fun s hs => ?_, fun hs => ?_⟩ <;> cases hs <;> try rfl
  all_goals simp_all [stylesAt]
  rename_i h
  rcases h with rfl | rfl <;> decide

example : toStyleExplode (.str (s% "pipes")) (.str (s% "query")) (.str (s% "array")) = .ok (some (s% "pipeDelimited"), none) := by decide

/-- C45 (partial, likewise): every parameter of regular shape loads, and converts to a parameter that says the
same (`ParamTo`), or raises `SchemaError` when it asks for spaces or pipes outside of arrays in queries. -/
theorem C45_parameter_partial (d : Dict Json) (p : Option Str)
    (hr : Regular pkg (.cls (s% "v2_0.Parameter")) (.obj d)) (hw : (Json.obj d).wf = true) :
    ∃ o, build pkg (.cls (s% "v2_0.Parameter")) (.obj d) p [] = .ok o ∧
      ((BadStyle d (look d (s% "in")) (look d (s% "type")) ∧ toParameter o = .error .schemaError) ∨
       (¬ BadStyle d (look d (s% "in")) (look d (s% "type")) ∧ ∃ r, toParameter o = .ok (.obj r) ∧ ParamTo d r)) := by
  obtain ⟨o, ho, hb⟩ := built_exists hr hw p
  refine ⟨o, ho, ?_⟩
  rcases toParameter_built hb with h | ⟨h1, r, h2, h3, _⟩
  · exact .inl h
  · exact .inr ⟨h1, r, h2, h3⟩

/-- C45: the same for headers. -/
theorem C45_header (d : Dict Json) (p : Option Str)
    (hr : Regular pkg (.cls (s% "v2_0.Header")) (.obj d)) (hw : (Json.obj d).wf = true) :
    ∃ o, build pkg (.cls (s% "v2_0.Header")) (.obj d) p [] = .ok o ∧
      ((BadStyle d (.str (s% "header")) (look d (s% "type")) ∧ toHeader o = .error .schemaError) ∨
       (¬ BadStyle d (.str (s% "header")) (look d (s% "type")) ∧ ∃ r, toHeader o = .ok (.obj r) ∧ HeaderTo d r)) := by
  obtain ⟨o, ho, hb⟩ := built_exists hr hw p
  refine ⟨o, ho, ?_⟩
  rcases toHeader_built hb with h | ⟨h1, r, h2, h3, _⟩
  · exact .inl h
  · exact .inr ⟨h1, r, h2, h3⟩

/-- C45 is false for tabs: no style is given, and no location sends tabs by default. -/
theorem C45_tsv_violation (in_ : Str) (type_ : Json) :
    ∃ se, toStyleExplode (.str (s% "tsv")) (.str in_) type_ = .ok se ∧
      wireOf in_ (putStyle se []) ≠ wire2 (s% "tsv") in_ := by
  refine ⟨(none, none), rfl, ?_⟩
  have h2 : wire2 (s% "tsv") in_ = some (.joined '\t') := rfl
  show wire3 (defaultStyle in_) none ≠ _
  rw [h2]
  unfold defaultStyle
  split <;> decide

/-- C45 is false for the default of forms, commas: no style is given, and forms repeat by default. -/
theorem C45_form_violation (type_ : Json) :
    ∃ se, toStyleExplode (.str (s% "csv")) (.str (s% "formData")) type_ = .ok se ∧
      wireOf (s% "formData") (putStyle se []) = some .repeated ∧
      wire2 (s% "csv") (s% "formData") = some (.joined ',') := ⟨(none, none), rfl, by decide, by decide⟩

/-- C45 is false for the default of queries: Swagger 2.0 sends commas when there is no `collectionFormat`; the
conversion of every such query parameter repeats it. -/
theorem C45_default_violation (d : Dict Json) (p : Option Str)
    (hr : Regular pkg (.cls (s% "v2_0.Parameter")) (.obj d)) (hw : (Json.obj d).wf = true)
    (_hin : Dict.get? d (s% "in") = some (.str (s% "query"))) (hcf : Dict.get? d (s% "collectionFormat") = none) :
    ∃ o r, build pkg (.cls (s% "v2_0.Parameter")) (.obj d) p [] = .ok o ∧ toParameter o = .ok (.obj r) ∧
      wireOf (s% "query") r = some .repeated ∧ wire2 (s% "csv") (s% "query") = some (.joined ',') := by
  obtain ⟨o, ho, h⟩ := C45_parameter_partial d p hr hw
  rcases h with ⟨⟨h | h, _⟩, _⟩ | ⟨_, r, h2, h3⟩
  · rw [hcf] at h; cases h
  · rw [hcf] at h; cases h
  · obtain ⟨h4, h5⟩ := h3.2.2.2.2.2.2.1 hcf
    refine ⟨o, r, ho, h2, ?_, by decide⟩
    unfold wireOf
    rw [h4, h5]
    decide

/-! ### cases -/

def sampleQuery : Dict Json := [(s% "name", .str (s% "ids")), (s% "in", .str (s% "query")), (s% "type", .str (s% "array")),
  (s% "required", .bool true), (s% "items", .obj [(s% "type", .str (s% "array")), (s% "items", .obj [(s% "type",
    .str (s% "integer")), (s% "maximum", .int 7)])]), (s% "collectionFormat", .str (s% "pipes"))]

theorem sampleQuery_regular : Regular pkg (.cls (s% "v2_0.Parameter")) (.obj sampleQuery) :=
  regularB_sound 9 _ _ (by decide +kernel)

example : ∃ o r, build pkg (.cls (s% "v2_0.Parameter")) (.obj sampleQuery) none [] = .ok o ∧ toParameter o = .ok (.obj r) ∧
    ParamTo sampleQuery r ∧ wireOf (s% "query") r = some (.joined '|') := by
  obtain ⟨o, ho, h⟩ := C45_parameter_partial sampleQuery none sampleQuery_regular (by decide +kernel)
  rcases h with ⟨⟨_, h | h⟩, _⟩ | ⟨_, r, h2, h3⟩
  · exact absurd rfl h
  · exact absurd rfl h
  · exact ⟨o, r, ho, h2, h3, h3.2.2.2.2.2.1 (s% "query") rfl (by decide) (s% "pipes") (.joined '|') rfl (by decide) (by decide)⟩

example : BadStyle [(s% "type", .str (s% "array")), (s% "collectionFormat", .str (s% "ssv"))] (.str (s% "header"))
    (.str (s% "array")) := ⟨.inl rfl, .inl (by decide)⟩

end Pyopenapi
