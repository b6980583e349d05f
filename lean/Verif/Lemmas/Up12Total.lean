import Verif.Lemmas.Up12Host

/-! When the conversion from 1.2 succeeds. -/

namespace Pyopenapi
open Spec Obj Conv
namespace Up12

theorem textOf_of {j : Json} (h : j.truthy = true → ∃ t, j = .str t) (ht : j.truthy = true) : ∃ t, textOf j = some t := by
  obtain ⟨t, rfl⟩ := h ht
  exact ⟨t, textOf_some.2 ⟨rfl, truthy_str.1 ht⟩⟩

theorem updateTypeAndRef_total {env : Env} {path c : Str} {d : Dict Json} {o : Obj} (h : Built (.cls c) (.obj d) o)
    (h1 : looseField c (s% "type") = true) (h2 : looseField c (s% "$ref") = true) (hd : TypeOk d) (dst : Dict Json) :
    ∃ r, updateTypeAndRef env (path.drop 1) o dst = .ok r := by
  unfold updateTypeAndRef
  obtain ⟨d1, e1⟩ := setRef_total (env := env) (path := path) (dst := dst) (textOf_of (hd (s% "$ref") (by simp)))
  simp only [built_look h h1, built_look h h2, bind, Except.bind, e1]
  split
  · rename_i hp
    obtain ⟨t, ht, _⟩ := isPrimitive_iff.1 hp
    rw [ht]
    exact ⟨_, rfl⟩
  · exact setRef_total (textOf_of (hd (s% "type") (by simp)))

theorem fromStr_total {env : Env} {c : Str} {d : Dict Json} {o : Obj} (h : Built (.cls c) (.obj d) o)
    {k : Str} (h1 : looseField c (s% "type") = true) (h2 : looseField c k = true) (hb : BoundOk env.numbers d k) (dst : Dict Json) :
    ∃ r, fromStr env o k dst = .ok r := by
  unfold fromStr
  simp only [built_look h h1, built_look h h2, bind, Except.bind]
  split
  · rename_i ht
    rcases hb ht with ⟨e, n, f, h3, h4⟩ | ⟨e, n, h3⟩
    · rw [if_pos e, h3]
      dsimp only
      rw [h4]
      exact ⟨_, rfl⟩
    · rw [if_neg (by rw [e]; decide), if_pos e]
      have h3 : env.float (look d k) = .ok n := h3
      rw [h3]
      exact ⟨_, rfl⟩
  · exact ⟨_, rfl⟩

theorem convertMinMax_total {env : Env} {c : Str} (hc : dataClass c = true) {d : Dict Json} {o : Obj} (h : Built (.cls c) (.obj d) o)
    (h1 : BoundOk env.numbers d (s% "minimum")) (h2 : BoundOk env.numbers d (s% "maximum")) (dst : Dict Json) :
    ∃ r, convertMinMax env o dst = .ok r := by
  unfold convertMinMax
  obtain ⟨r1, e1⟩ := fromStr_total (env := env) h (dataClass_field hc (by simp)) (dataClass_field hc (by simp)) h1 dst
  obtain ⟨r2, e2⟩ := fromStr_total (env := env) h (dataClass_field hc (by simp)) (dataClass_field hc (by simp)) h2 r1
  simp only [e1, e2, bind, Except.bind]
  exact ⟨_, rfl⟩

theorem copySet_total {c : Str} {d : Dict Json} {o : Obj} (h : Built (.cls c) (.obj d) o) {src : Str}
    (hk : looseField c src = true ∨ requiredField c src = true) (name : Str) (dst : Dict Json) :
    ∃ r, copySet o src name dst = .ok r := by
  obtain ⟨r, h, _⟩ := copySet_built h hk name dst
  exact ⟨r, h⟩

theorem itemsOf_total {env : Env} {path c : Str} (hc : dataClass c = true) {d : Dict Json} {o : Obj} (h : Built (.cls c) (.obj d) o)
    (hi : ∀ e, given d (s% "items") = some (.obj e) → TypeOk e) (dst : Dict Json) :
    ∃ r, itemsOf env (path.drop 1) o dst = .ok r := by
  unfold itemsOf
  rcases built_kid_cls h (dataClass_items hc) with ⟨_, h2, _⟩ | ⟨e, x, h1, h2, _, h4⟩
  · rw [h2]; exact ⟨_, rfl⟩
  · rw [h2]
    obtain ⟨r, e1⟩ := updateTypeAndRef_total (env := env) (path := path) h4 (by decide +kernel) (by decide +kernel) (hi e h1) []
    dsimp only
    simp only [e1, built_look h4 (show looseField (s% "v1_2.Items") (s% "format") = true by decide +kernel), bind, Except.bind]
    exact ⟨_, rfl⟩

theorem schemaOf_total {env : Env} {path c : Str} (hc : dataClass c = true) {d : Dict Json} {o : Obj}
    (h : Built (.cls c) (.obj d) o) (hd : DataTypeOk env.numbers d) : ∃ r, schemaOf env (path.drop 1) o = .ok r := by
  obtain ⟨h1, h2, h3, h4⟩ := hd
  unfold schemaOf
  obtain ⟨r1, e1⟩ := updateTypeAndRef_total (env := env) (path := path) h (dataClass_field hc (by simp)) (dataClass_field hc (by simp)) h1 []
  obtain ⟨r2, e2⟩ := copySet_total h (.inl (dataClass_field hc (k := s% "format") (by simp))) (s% "format") r1
  obtain ⟨r3, e3⟩ := copySet_total h (.inl (dataClass_field hc (k := s% "defaultValue") (by simp))) (s% "default") r2
  obtain ⟨r4, e4⟩ := convertMinMax_total (env := env) hc h h2 h3 r3
  simp only [e1, e2, e3, e4, built_look h (dataClass_field hc (k := s% "uniqueItems") (by simp)),
    built_look h (dataClass_field hc (k := s% "enum") (by simp)), bind, Except.bind]
  exact itemsOf_total hc h h4 _

theorem convertItems_total {env : Env} {c : Str} {d : Dict Json} {o : Obj} (h : Built (.cls c) (.obj d) o)
    (h1 : looseField c (s% "type") = true) (h2 : looseField c (s% "$ref") = true) (h3 : looseField c (s% "format") = true)
    (hd : PrimitiveOk d) : ∃ r, convertItems env o = .ok r := by
  obtain ⟨hr, t, ht, hp⟩ := hd
  unfold convertItems
  simp only [built_look h h1, built_look h h2, bind, Except.bind, hr, if_neg (show ¬ false = true by simp)]
  rw [if_pos (isPrimitive_iff.2 ⟨t, ht, hp⟩), ht]
  exact copySet_total h (.inl h3) _ _

theorem convertParameter_total {env : Env} {path : Str} {d : Dict Json} {o : Obj}
    (h : Built (.cls (s% "v1_2.Parameter")) (.obj d) o) (hd : ParameterOk env.numbers d) :
    ∃ r, convertParameter env (path.drop 1) o = .ok r := by
  obtain ⟨hp, hbody, hplain⟩ := hd
  have hc := dataClass_parameter
  unfold convertParameter paramHead
  obtain ⟨r1, e1⟩ := copySet_total h (.inr (show requiredField (s% "v1_2.Parameter") (s% "name") = true by decide +kernel)) (s% "name") []
  obtain ⟨r2, e2⟩ := copySet_total h (.inl (show looseField (s% "v1_2.Parameter") (s% "required") = true by decide +kernel)) (s% "required") r1
  obtain ⟨r3, e3⟩ := copySet_total h (.inl (show looseField (s% "v1_2.Parameter") (s% "description") = true by decide +kernel)) (s% "description") r2
  have e4 : fld o (s% "paramType") = .ok (look d (s% "paramType")) := by
    rw [built_required h (by decide +kernel)]
    unfold look
    cases hg : Dict.get? d (s% "paramType") with
    | none => exact absurd hg hp
    | some v => rfl
  simp only [e1, e2, e3, e4, bind, Except.bind]
  change ∃ r, (if placeTo (look d (s% "paramType")) = _ then _ else plainParam env o (Dict.set r3 (s% "in") (placeTo (look d (s% "paramType"))))) = _
  have hb : placeTo (look d (s% "paramType")) = .str (s% "body") ↔ look d (s% "paramType") = .str (s% "body") := by
    unfold placeTo
    split
    · rename_i e; rw [e]; decide
    · exact Iff.rfl
  split
  · rename_i hx
    obtain ⟨s, es⟩ := schemaOf_total (env := env) (path := path) hc h (hbody (hb.1 hx))
    rw [es]
    exact ⟨_, rfl⟩
  · rename_i hx
    obtain ⟨q1, q2, q3, q4⟩ := hplain (fun e => hx (hb.2 e))
    generalize Dict.set r3 (s% "in") (placeTo (look d (s% "paramType"))) = m0
    unfold plainParam
    simp only [built_look h (dataClass_field hc (k := s% "$ref") (by simp)), bind, Except.bind, q1, if_neg (show ¬ false = true by simp)]
    rw [built_look h (show looseField (s% "v1_2.Parameter") (s% "allowMultiple") = true by decide +kernel)]
    dsimp only
    have hk : kid o (s% "items") = none ↔ given d (s% "items") = none := by
      rcases built_kid_cls h (dataClass_items hc) with ⟨h1, _, h3⟩ | ⟨e, x, h1, _, h3, _⟩
      · rw [h1, h3]; simp
      · rw [h1, h3]; simp
    have step : ∃ m1, (if look d (s% "allowMultiple") = .bool true ∧ kid o (s% "items") = none then repeated env o m0 else single env o m0) = .ok m1 := by
      by_cases hr : Repeats d
      · rw [if_pos ⟨hr.1, hk.2 hr.2⟩]
        unfold repeated
        obtain ⟨a1, f1⟩ := copySet_total h (.inl (dataClass_field hc (k := s% "uniqueItems") (by simp))) (s% "uniqueItems")
          (Dict.set (Dict.set m0 (s% "type") (.str (s% "array"))) (s% "collectionFormat") (.str (s% "csv")))
        obtain ⟨a2, f2⟩ := convertItems_total (env := env) h (dataClass_field hc (k := s% "type") (by simp))
          (dataClass_field hc (k := s% "$ref") (by simp)) (dataClass_field hc (k := s% "format") (by simp)) (q2 hr)
        simp only [f1, f2, built_isSet h, built_look h (dataClass_field hc (k := s% "defaultValue") (by simp)),
          built_look h (dataClass_field hc (k := s% "enum") (by simp)), bind, Except.bind]
        exact ⟨_, rfl⟩
      · rw [if_neg (fun hh => hr ⟨hh.1, hk.1 hh.2⟩)]
        obtain ⟨⟨t, ht⟩, b1, b2⟩ := q3 hr
        unfold single
        rw [built_look h (dataClass_field hc (k := s% "type") (by simp)), ht]
        obtain ⟨a1, f1⟩ := copySet_total h (.inl (dataClass_field hc (k := s% "format") (by simp))) (s% "format")
          (Dict.set m0 (s% "type") (.str (env.lower t)))
        obtain ⟨a2, f2⟩ := copySet_total h (.inl (dataClass_field hc (k := s% "defaultValue") (by simp))) (s% "default") a1
        obtain ⟨a3, f3⟩ := convertMinMax_total (env := env) hc h b1 b2 a2
        simp only [asText, f1, f2, f3, built_look h (dataClass_field hc (k := s% "enum") (by simp)), bind, Except.bind]
        exact ⟨_, rfl⟩
    obtain ⟨m1, em⟩ := step
    rw [em]
    dsimp only
    unfold paramItems
    rcases built_kid_cls h (dataClass_items hc) with ⟨_, h2, _⟩ | ⟨e, x, h1, h2, _, h4⟩
    · rw [h2]; exact ⟨_, rfl⟩
    · rw [h2]
      dsimp only
      obtain ⟨a1, f1⟩ := copySet_total h (.inl (dataClass_field hc (k := s% "uniqueItems") (by simp))) (s% "uniqueItems")
        (Dict.set m1 (s% "collectionFormat") (.str (s% "csv")))
      obtain ⟨a2, f2⟩ := convertItems_total (env := env) h4 (by decide +kernel) (by decide +kernel) (by decide +kernel) (q4 e h1)
      simp only [f1, f2, bind, Except.bind]
      exact ⟨_, rfl⟩

end Up12
end Pyopenapi
