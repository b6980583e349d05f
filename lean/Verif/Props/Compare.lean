import Verif.Lemmas.Compare
import Verif.Lemmas.Tables
import Verif.Props.Override

/-!
# C29, C30: compare
-/

namespace Pyopenapi
open Spec Obj
variable {T : Table}

/-- The defaults of the fields are well-formed JSON. -/
def DefaultsWf (T : Table) : Prop := ∀ c k fd, (k, fd) ∈ (T c).fields → fd.default.wf = true

theorem defaultsWf_pkg : DefaultsWf pkg := by
  have h : classes.all (fun kc => kc.2.fields.all (fun kf => kf.2.default.wf)) = true := by decide +kernel
  intro c k fd hm
  unfold pkg at hm
  cases hg : Dict.get? classes c with
  | none => rw [hg] at hm; simp at hm
  | some cd =>
    rw [hg, Option.getD_some] at hm
    have h1 := List.all_eq_true.1 h _ (Dict.mem_of_get? hg)
    exact List.all_eq_true.1 h1 _ hm

theorem readField_wf {fd : FieldDef} {s : Json} {k : Str} {u : Json} (hd : fd.default.wf = true)
    (hs : s.wf = true) (h : readField fd s k = .ok u) : u.wf = true := by
  unfold readField at h
  split at h
  · simp at h
  · rename_i v hv
    obtain ⟨d, rfl, hg⟩ := specGet_some.1 hv
    split at h
    · simp at h
    · simp only [Except.ok.injEq] at h; subst h; exact wf_get hs hg
  · split at h
    · simp at h
    · simp only [Except.ok.injEq] at h; subst h; exact hd

theorem pyEq_refl_num {u : Json} {x : Int × Nat} (h : u.num? = some x) : PyEq u u :=
  .num ((number?_eq u).trans h) ((number?_eq u).trans h) rfl

theorem rawAgree_refl {u : Json} (h : u.wf = true) : RawAgree u u := by
  match u with
  | .null => exact .null
  | .bool b => exact .scalar rfl (pyEq_refl_num rfl)
  | .int n => exact .scalar rfl (pyEq_refl_num rfl)
  | .flt m e => exact .flt (pyEq_refl_num rfl)
  | .str s => exact .scalar rfl (.str s)
  | .arr l =>
    refine .arr (Nat.le_refl _) ?_
    intro i x y hx hy
    rw [hx] at hy; cases hy
    exact rawAgree_refl (wf_elem h hx)
  | .obj d =>
    refine .obj (fun _ => Iff.rfl) ?_
    intro k x y hm hy
    have hn : Dict.NodupKeys d := by
      simp only [Json.wf, Bool.and_eq_true, decide_eq_true_eq] at h; exact h.1
    rw [Dict.get?_of_mem hn hm] at hy; cases hy
    exact rawAgree_refl (wf_get h (Dict.get?_of_mem hn hm))
termination_by sizeOf u
decreasing_by
  · exact size_elem (List.mem_of_getElem? hx)
  · exact size_item hm

/-- Objects loaded from parsed documents are tidy. -/
theorem tidy_build (hT : OkTable T) : ∀ b j, okBuilder T b = true → j.wf = true → ∀ p o,
    build T b j p [] = .ok o → Tidy o := by
  apply build_ind
  · intro c j ih _ hwf p o h
    rw [build_cls] at h
    split at h
    · simp at h
    · rename_i kids hk
      simp only [Except.ok.injEq] at h; subst h
      refine .base hwf ?_
      intro k o hm
      rw [(Dict.collect_iff.1 hk).2, List.mem_filterMap] at hm
      obtain ⟨⟨k', cd⟩, hm1, hm2⟩ := hm
      simp only [Option.map_eq_some_iff, Prod.mk.injEq] at hm2
      obtain ⟨o', h1, rfl, rfl⟩ := hm2
      obtain ⟨d, v, rfl, hv, _, hb⟩ := kid_some.1 (kept_some.1 h1)
      exact ih cd.builder v (size_get hv) (childBuilder_ok ((hT.cls c).child _ cd hm1)) (wf_get hwf hv) _ _ hb
  · intro j _ hwf p o h
    have := build_prim (b := .isStr) rfl h; subst this
    exact .prim hwf
  · intro j _ hwf p o h
    have := build_prim (b := .isStrOrInt) rfl h; subst this
    exact .prim hwf
  · intro b j ih hok hwf p o h
    cases j with
    | arr l =>
      obtain ⟨hokb, hkind⟩ := elem_kind hok
      rw [build_list] at h
      split at h
      · simp at h
      · rename_i es hes
        simp only [Except.ok.injEq] at h; subst h
        have hf := buildElems_forall₂ hes
        refine .list ?_ ?_
        · intro o ho
          obtain ⟨x, hx, q, hq⟩ := forall₂_mem_right hf ho
          exact ih x (size_elem hx) hokb (wf_of_memL (by simpa [Json.wf] using hwf) hx) _ _ hq
        · intro j hj
          obtain ⟨x, hx, q, hq⟩ := forall₂_mem_right hf hj
          rcases hkind with hk | hk
          · have := build_isPrim hk hq; simp [Obj.isPrim] at this
          · have := build_prim hk hq
            cases this
            simp only [primBuilder, Bool.or_eq_true, beq_iff_eq] at hk
            rcases hk with rfl | rfl
            · rw [build_isStr] at hq; cases j <;> simp at hq <;> rfl
            · rw [build_isStrOrInt] at hq; cases j <;> simp at hq <;> rfl
    | _ => rw [build_list_other _ _ _ (by simp)] at h; simp at h
  · intro b j ih hok hwf p o h
    cases j with
    | obj d =>
      obtain ⟨hokb, hkind⟩ := item_kind hok
      have hwf' := hwf
      simp only [Json.wf, Bool.and_eq_true, decide_eq_true_eq] at hwf'
      rw [build_map] at h
      split at h
      · simp at h
      · rename_i es hes
        simp only [Except.ok.injEq] at h; subst h
        rw [buildItems_eq] at hes
        have hf := Dict.mapM_ok hes
        refine .map ?_ ?_ ?_
        · unfold Dict.NodupKeys; rw [Dict.mapM_keys hes]; exact hwf'.1
        · intro k o ho
          obtain ⟨⟨k', x⟩, hx, hkk, hq⟩ := forall₂_mem_right hf ho
          simp only at hkk hq
          rw [buildAt_nil] at hq
          exact ih x (size_item hx) hokb (wf_of_memD hwf'.2 hx) _ _ hq
        · intro k j hj
          obtain ⟨⟨k', x⟩, hx, hkk, hq⟩ := forall₂_mem_right hf hj
          simp only at hkk hq
          rw [buildAt_nil] at hq
          rcases hkind with hk | hk
          · have := build_isPrim hk hq; simp [Obj.isPrim] at this
          · have := build_prim hk hq
            cases this
            simp only [primBuilder, Bool.or_eq_true, beq_iff_eq] at hk
            rcases hk with rfl | rfl
            · rw [build_isStr] at hq; cases j <;> simp at hq <;> rfl
            · rw [build_isStrOrInt] at hq; cases j <;> simp at hq <;> rfl
    | _ => rw [build_map_other _ _ _ (by simp)] at h; simp at h
  · intro r b j ih1 ih2 hok hwf p o h
    simp only [okBuilder, Bool.and_eq_true] at hok
    rw [build_ifNotRef] at h
    split at h
    · simp at h
    · exact ih1 rfl hwf p o h
    · exact ih2 hok.1.2 hwf p o h
  · intro b j ih hok hwf p o h
    simp only [okBuilder, Bool.and_eq_true] at hok
    rw [build_ifNotBool] at h
    split at h
    · simp only [Except.ok.injEq] at h; subst h; exact .prim hwf
    · exact ih hok.1 hwf p o h

theorem takeWhile_obj (es : List Obj) : ∃ n, (∀ (i : Nat) x, i < n → es[i]? = some x → x.isPrim = false) ∧
    (n = es.length ∨ ∃ u, es[n]? = some (.prim u)) := by
  induction es with
  | nil => exact ⟨0, by omega, .inl rfl⟩
  | cons x es ih =>
    cases x with
    | prim u => exact ⟨0, by omega, .inr ⟨u, rfl⟩⟩
    | _ =>
      obtain ⟨n, h1, h2⟩ := ih
      refine ⟨n + 1, ?_, ?_⟩
      · intro i z hi hz
        cases i with
        | zero => simp at hz; subst hz; rfl
        | succ i => exact h1 i z (by omega) (by simpa using hz)
      · rcases h2 with h2 | ⟨u, h2⟩
        · left; simp [h2]
        · right; exact ⟨u, by simpa using h2⟩

theorem takeWhile_obj2 (es : Dict Obj) : ∃ n, (∀ (i : Nat) k x, i < n → es[i]? = some (k, x) → x.isPrim = false) ∧
    (n = es.length ∨ ∃ k u, es[n]? = some (k, .prim u)) := by
  obtain ⟨n, h1, h2⟩ := takeWhile_obj (es.map Prod.snd)
  refine ⟨n, ?_, ?_⟩
  · intro i k x hi hx; exact h1 i x hi (by simp [hx])
  · rcases h2 with h2 | ⟨u, h2⟩
    · left; simpa using h2
    · right
      rw [List.getElem?_map, Option.map_eq_some_iff] at h2
      obtain ⟨⟨k, x⟩, h3, h4⟩ := h2
      simp only at h4; subst h4
      exact ⟨k, u, h3⟩

theorem isStrInt_refl {u : Json} (h : isStrInt u = true) : PyEq u u := by
  cases u <;> simp [isStrInt] at h
  · exact pyEq_refl_num rfl
  · exact pyEq_refl_num rfl
  · exact .str _

theorem agree_refl (hD : DefaultsWf T) {o : Obj} (ht : Tidy o) :
    (∀ a, Inside o a → Readable T a) → Agree T o o := by
  induction ht with
  | prim h => intro _; exact .prim (rawAgree_refl h)
  | @base c p s kids hs hk ih =>
    intro hr
    refine .base ?_ ?_
    · intro k fd hm
      obtain ⟨u, hu⟩ := hr _ (.here _) k fd hm
      exact ⟨u, u, hu, hu, rawAgree_refl (readField_wf (hD c k fd hm) hs hu)⟩
    · intro k _
      cases hg : Dict.get? kids k with
      | none => exact .prim .null
      | some x =>
        have hm := Dict.mem_of_get? hg
        exact ih k x hm (fun a ha => hr a (.child hm ha))
  | @list b p s es hes hprim ih =>
    intro hr
    obtain ⟨n, h1, h2⟩ := takeWhile_obj es
    refine .list n rfl h1 ?_ ?_
    · intro i x y hi hx hy
      rw [hx] at hy; cases hy
      have hm := List.mem_of_getElem? hx
      exact ih x hm (fun a ha => hr a (.elem hm ha))
    · rcases h2 with h2 | ⟨u, h2⟩
      · exact .inl h2
      · have := hprim u (List.mem_of_getElem? h2)
        exact .inr ⟨u, _, h2, h2, this, u, rfl, isStrInt_refl this⟩
  | @map b p s es hn hes hprim ih =>
    intro hr
    obtain ⟨n, h1, h2⟩ := takeWhile_obj2 es
    refine .map n (fun _ => Iff.rfl) h1 ?_ ?_
    · intro i k x y hi hx hy
      have hm := List.mem_of_getElem? hx
      rw [Dict.get?_of_mem hn hm] at hy; cases hy
      exact ih k x hm (fun a ha => hr a (.item hm ha))
    · rcases h2 with h2 | ⟨k, u, h2⟩
      · exact .inl h2
      · have hm := List.mem_of_getElem? h2
        have := hprim k u hm
        exact .inr ⟨k, u, _, h2, Dict.get?_of_mem hn hm, this, u, rfl, isStrInt_refl this⟩

/-- C29: a loaded object compared with itself is the same, when in every object inside it the required
fields are set and no restricted one is (loading does not check that, see
`C29_missing_field_raises`). -/
theorem C29_reflexive (hT : OkTable T) (hD : DefaultsWf T) {b : Builder} {j : Json} {p : Option Str} {o : Obj}
    (hok : okBuilder T b = true) (hwf : j.wf = true) (h : build T b j p [] = .ok o) (ho : o.isPrim = false)
    (hr : ∀ a, Inside o a → Readable T a) (base : Option Str) : Yes (compare T o o base) :=
  (yes_compare ho o base).2 (agree_refl hD (tidy_build hT b j hok hwf p o h) hr)

theorem yes_not_no {r : R (Bool × Str)} (h : Yes r) : ¬ No r := by
  rintro ⟨loc, h'⟩
  obtain ⟨loc', h⟩ := h
  rw [h] at h'; cases h'

theorem not_no_cmpElems {es : List Obj} (i : Nat) (base : Option Str)
    (ih : ∀ x ∈ es, x.isPrim = false → ∀ base, ¬ No (compare T x x base)) :
    ¬ No (cmpElems T es es i base) := by
  induction es generalizing i with
  | nil => rw [cmpElems.eq_def]; simp [no_ok]
  | cons x es ihe =>
    rw [cmpElems.eq_def]
    simp only
    cases x with
    | prim j =>
      simp only
      by_cases hj : isStrInt j = true
      · rw [if_pos hj, no_ok]
        have : eqAny j (.prim j) = true := (eqAny_iff hj).2 ⟨j, rfl, isStrInt_refl hj⟩
        rw [this]; simp
      · rw [if_neg hj]; exact no_error
    | _ =>
      simp only
      rw [no_step]
      rintro (h | ⟨_, h⟩)
      · exact ih _ (by simp) rfl _ h
      · exact ihe _ (fun z hz => ih z (by simp [hz])) h

theorem not_no_cmpItems {es es' : Dict Obj} (base : Option Str)
    (hg : ∀ k x, (k, x) ∈ es → Dict.get? es' k = some x)
    (ih : ∀ k x, (k, x) ∈ es → x.isPrim = false → ∀ base, ¬ No (compare T x x base)) :
    ¬ No (cmpItems T es es' base) := by
  induction es with
  | nil => rw [cmpItems.eq_def]; simp [no_ok]
  | cons q es ihe =>
    obtain ⟨k, x⟩ := q
    rw [cmpItems.eq_def]
    simp only [hg k x (by simp)]
    cases x with
    | prim j =>
      simp only
      by_cases hj : isStrInt j = true
      · rw [if_pos hj, no_ok]
        have : eqAny j (.prim j) = true := (eqAny_iff hj).2 ⟨j, rfl, isStrInt_refl hj⟩
        rw [this]; simp
      · rw [if_neg hj]; exact no_error
    | _ =>
      simp only
      rw [no_step]
      rintro (h | ⟨_, h⟩)
      · exact ih k _ (by simp) rfl _ h
      · exact ihe (fun k' z hz => hg k' z (by simp [hz])) (fun k' z hz => ih k' z (by simp [hz])) h

theorem not_no_compare (hD : DefaultsWf T) {o : Obj} (ht : Tidy o) :
    ∀ base, ¬ No (compare T o o base) := by
  induction ht with
  | prim h => intro base; rw [compare.eq_def]; exact no_error
  | @base c p s kids hs hk ih =>
    intro base hno
    rw [compare.eq_def] at hno
    simp only [if_true] at hno
    rw [no_step] at hno
    rcases hno with hno | ⟨_, hno⟩
    · obtain ⟨⟨k, fd⟩, hm, hno⟩ := no_allSame hno
      simp only [cmpField, bind, Except.bind] at hno
      cases hu : readField fd s k with
      | error e => rw [hu] at hno; exact no_error hno
      | ok u =>
        rw [hu] at hno
        simp only at hno
        exact yes_not_no ((yes_cmpRaw _ _ _).2 (rawAgree_refl (readField_wf (hD c k fd hm) hs hu))) hno
    · obtain ⟨k, _, hno⟩ := no_allSame hno
      rw [cmpKid] at hno
      split at hno
      · rename_i hg; rw [hg] at hno; simp [no_ok] at hno
      · rename_i x hg
        rw [hg, Option.getD_some] at hno
        have hm := Dict.mem_of_get? hg
        rw [cmpVal.eq_def] at hno
        cases x with
        | prim u =>
          simp only at hno
          cases hk k _ hm with
          | prim hu => exact yes_not_no ((yes_cmpRaw _ _ _).2 (rawAgree_refl hu)) hno
        | _ =>
          simp only [sameType, decide_true, if_true] at hno
          exact ih k _ hm _ hno
  | @list b p s es hes hprim ih =>
    intro base hno
    rw [compare.eq_def] at hno
    simp only [and_self, if_true] at hno
    exact not_no_cmpElems 0 base (fun x hx _ base => ih x hx base) hno
  | @map b p s es hn hes hprim ih =>
    intro base hno
    rw [compare.eq_def] at hno
    have hm : missingKey es es = none := missingKey_none.2 (fun _ h => h)
    simp only [if_true, hm] at hno
    exact not_no_cmpItems base (fun k x hx => Dict.get?_of_mem hn hx) (fun k x hx _ base => ih k x hx base) hno

/-- C29: whatever fields are missing, a loaded object is never reported different from itself: the
answer is "same" or an exception. -/
theorem C29_never_different (hT : OkTable T) (hD : DefaultsWf T) {b : Builder} {j : Json} {p : Option Str} {o : Obj}
    (hok : okBuilder T b = true) (hwf : j.wf = true) (h : build T b j p [] = .ok o) (base : Option Str) :
    ¬ No (compare T o o base) :=
  not_no_compare hD (tidy_build hT b j hok hwf p o h) base

/-- C29 for the classes of the package. -/
theorem C29_reflexive_pkg {b : Builder} {j : Json} {p : Option Str} {o : Obj}
    (hok : okBuilder pkg b = true) (hwf : j.wf = true) (h : build pkg b j p [] = .ok o) (ho : o.isPrim = false)
    (hr : ∀ a, Inside o a → Readable pkg a) (base : Option Str) : Yes (compare pkg o o base) :=
  C29_reflexive okTable_pkg defaultsWf_pkg hok hwf h ho hr base

/-- C29 (deviation): an Info object without a title loads, and comparing it, even with itself, raises. -/
theorem C29_missing_field_raises :
    ((build pkg (.cls (s% "v3_0_0.Info")) (.obj []) none []).bind (fun o => compare pkg o o none)) =
      .error .generic := by decide +kernel

/-! ### C30 -/

/-- C30: exactly what `a.compare(b)` establishes. -/
theorem C30_compare_iff {a : Obj} (ha : a.isPrim = false) (b : Obj) (base : Option Str) :
    Yes (compare T a b base) ↔ Agree T a b := yes_compare ha b base

/-- No list or map inside has a raw element and a second element. -/
def Spec.FewStrings (o : Obj) : Prop := ∀ a, Inside o a → match a with
  | .list _ _ _ es => (∃ j, .prim j ∈ es) → es.length ≤ 1
  | .map _ _ _ es => (∃ k j, (k, .prim j) ∈ es) → es.length ≤ 1
  | _ => True

theorem rawAgree_both {u v : Json} (hu : u.wf = true) (hv : v.wf = true) (h1 : RawAgree u v)
    (h2 : RawAgree v u) : PyEq u v := by
  match u, v, h1 with
  | _, _, .scalar _ h => exact h
  | _, _, .flt h => exact h
  | _, _, .null => exact .null
  | .arr l, .arr m, .arr hl hlm =>
    cases h2 with
    | scalar h => simp [isStrInt] at h
    | arr hl' hml =>
      refine .arr (Nat.le_antisymm hl hl') ?_
      intro i x y hx hy
      exact rawAgree_both (wf_elem hu hx) (wf_elem hv hy) (hlm i x y hx hy) (hml i y x hy hx)
  | .obj d, .obj e, .obj hk hde =>
    cases h2 with
    | scalar h => simp [isStrInt] at h
    | obj hk' hed =>
      refine .obj hk ?_
      intro k x y hx hy
      exact rawAgree_both (wf_get hu hx) (wf_get hv hy) (hde k x y (Dict.mem_of_get? hx) hy)
        (hed k y x (Dict.mem_of_get? hy) hx)
termination_by sizeOf u
decreasing_by
  · exact size_elem (List.mem_of_getElem? hx)
  · exact size_item (Dict.mem_of_get? hx)

theorem agree_same (hD : DefaultsWf T) {a b : Obj} (ha : Tidy a) (hb : Tidy b) (hf : Spec.FewStrings a)
    (h1 : Agree T a b) (h2 : Agree T b a) : Same T a b := by
  induction ha generalizing b with
  | @prim u hu =>
    cases h1 with
    | prim h1 => cases h2 with
      | prim h2 => cases hb with
        | prim hv => exact .prim (rawAgree_both hu hv h1 h2)
  | @base c p s kids hs hk ih =>
    cases h1 with
    | base f1 k1 => cases h2 with
      | base f2 k2 => cases hb with
        | base hs' hk' =>
          rename_i p' s' kids'
          refine .base ?_ ?_
          · intro k fd hm
            obtain ⟨u, v, hu, hv, huv⟩ := f1 k fd hm
            obtain ⟨v', u', hv', hu', hvu⟩ := f2 k fd hm
            rw [hu] at hu'; cases hu'
            rw [hv] at hv'; cases hv'
            exact ⟨u, v, hu, hv, rawAgree_both (readField_wf (hD c k fd hm) hs hu)
              (readField_wf (hD c k fd hm) hs' hv) huv hvu⟩
          · intro k hkm
            have g1 := k1 k hkm
            have g2 := k2 k hkm
            have hby : Tidy ((Dict.get? kids' k).getD (.prim .null)) := by
              cases hg : Dict.get? kids' k with
              | none => exact .prim rfl
              | some y => exact hk' k y (Dict.mem_of_get? hg)
            cases hg : Dict.get? kids k with
            | none =>
              rw [hg] at g1 g2
              simp only [Option.getD_none] at g1 g2 ⊢
              generalize (Dict.get? kids' k).getD (.prim .null) = y at g1 g2 hby
              cases g1 with
              | prim g1 => cases g2 with
                | prim g2 => cases hby with
                  | prim hv => exact .prim (rawAgree_both rfl hv g1 g2)
            | some x =>
              rw [hg] at g1 g2
              simp only [Option.getD_some] at g1 g2 ⊢
              have hm := Dict.mem_of_get? hg
              exact ih k x hm hby (fun a ha => hf a (.child hm ha)) g1 g2
  | @list bd p s es hes hprim ih =>
    cases h1 with
    | list n hlen o1 a1 e1 => cases h2 with
      | list n' _ o2 a2 e2 => cases hb with
        | list hes' hprim' =>
          rename_i p' s' es'
          refine .list hlen ?_
          intro i x y hx hy
          by_cases hlt : i < n ∧ i < n'
          · exact ih x (List.mem_of_getElem? hx) (hes' y (List.mem_of_getElem? hy))
              (fun a ha => hf a (.elem (List.mem_of_getElem? hx) ha)) (a1 i x y hlt.1 hx hy) (a2 i y x hlt.2 hy hx)
          · have hi : i < es.length := (List.getElem?_eq_some_iff.1 hx).1
            -- some raw element: the list has one element only
            have hsome : ∃ u, es[n]? = some (.prim u) := by
              rcases e1 with e1 | ⟨u, _, e1, _⟩
              · rcases e2 with e2 | ⟨u, y', e2, e3, _, v, e4, _⟩
                · omega
                · subst e4
                  have hn' : n' < es.length := (List.getElem?_eq_some_iff.1 e3).1
                  have := o1 n' _ (by omega) e3
                  simp [Obj.isPrim] at this
              · exact ⟨u, e1⟩
            obtain ⟨u, hu⟩ := hsome
            have hfew := hf _ (.here _)
            simp only at hfew
            have hle := hfew ⟨u, List.mem_of_getElem? hu⟩
            have hnlt : n < es.length := (List.getElem?_eq_some_iff.1 hu).1
            have : i = n := by omega
            subst this
            rcases e1 with e1 | ⟨u', y', e1, e2', e3, v, e4, e5⟩
            · omega
            · rw [hx] at e1; cases e1
              rw [hy] at e2'; cases e2'
              subst e4
              exact .prim e5
  | @map bd p s es hn hes hprim ih =>
    cases h1 with
    | map n hkk o1 a1 e1 => cases h2 with
      | map n' hkk' o2 a2 e2 => cases hb with
        | map hn2 hes' hprim' =>
          rename_i p' s' es'
          refine .map hkk ?_
          intro k x y hx hy
          have hmx := Dict.mem_of_get? hx
          have hmy := Dict.mem_of_get? hy
          by_cases hraw : ∃ k j, (k, Obj.prim j) ∈ es
          · have hfew := hf _ (.here _)
            simp only at hfew
            have hle := hfew hraw
            match es, hle with
            | [], _ => simp at hx
            | [(k0, x0)], _ =>
              simp only [List.mem_singleton, Prod.mk.injEq] at hmx
              obtain ⟨rfl, rfl⟩ := hmx
              obtain ⟨k', j, hj⟩ := hraw
              simp only [List.mem_singleton, Prod.mk.injEq] at hj
              obtain ⟨rfl, rfl⟩ := hj
              rcases e1 with e1 | ⟨k', u, y', e1, e2', e3, v, e4, e5⟩
              · simp only [List.length_singleton] at e1
                subst e1
                have := o1 0 _ _ (by omega) rfl
                simp [Obj.isPrim] at this
              · have hn0 : n < 1 := by simpa using (List.getElem?_eq_some_iff.1 e1).1
                have : n = 0 := by omega
                subst this
                simp only [List.length_singleton, Nat.lt_add_one, getElem?_pos, List.getElem_cons_zero, Option.some.injEq,
                  Prod.mk.injEq, Obj.prim.injEq] at e1
                obtain ⟨rfl, rfl⟩ := e1
                rw [hy] at e2'; cases e2'
                subst e4
                exact .prim e5
          · have hnlen : n = es.length := by
              rcases e1 with e1 | ⟨k', u, _, e1, _⟩
              · exact e1
              · exact absurd ⟨k', u, List.mem_of_getElem? e1⟩ hraw
            have hn'len : n' = es'.length := by
              rcases e2 with e2 | ⟨k', u, y', e2, e3, _, v, e4, _⟩
              · exact e2
              · subst e4
                exact absurd ⟨k', v, Dict.mem_of_get? e3⟩ hraw
            obtain ⟨i, hi⟩ := List.getElem?_of_mem hmx
            obtain ⟨i', hi'⟩ := List.getElem?_of_mem hmy
            exact ih k x hmx (hes' k y hmy) (fun a ha => hf a (.item hmx ha))
              (a1 i k x y (by rw [hnlen]; exact (List.getElem?_eq_some_iff.1 hi).1) hi hy)
              (a2 i' k y x (by rw [hn'len]; exact (List.getElem?_eq_some_iff.1 hi').1) hi' hx)

/-- C30: if `a.compare(b)` and `b.compare(a)` both say "same", then `a` and `b` have the same fields and
children, at every depth.

Missing from the full claim: one direction is not enough (`C30_list_prefix_violation`), and lists or
maps of strings are compared in their first element only (`C30_strings_violation`), so they must not
have two. -/
theorem C30_same_partial (hT : OkTable T) (hD : DefaultsWf T) {bd bd' : Builder} {j j' : Json} {p p' : Option Str}
    {a b : Obj} (hok : okBuilder T bd = true) (hok' : okBuilder T bd' = true) (hwf : j.wf = true)
    (hwf' : j'.wf = true) (ha : build T bd j p [] = .ok a) (hb : build T bd' j' p' [] = .ok b)
    (hpa : a.isPrim = false) (hpb : b.isPrim = false) (hf : Spec.FewStrings a) {base base' : Option Str}
    (h1 : Yes (compare T a b base)) (h2 : Yes (compare T b a base')) : Same T a b :=
  agree_same hD (tidy_build hT bd j hok hwf p a ha) (tidy_build hT bd' j' hok' hwf' p' b hb) hf
    ((yes_compare hpa b base).1 h1) ((yes_compare hpb a base').1 h2)

/-- Both objects, loaded without path, compared. -/
def compareDocs (b : Builder) (j j' : Json) : R (Bool × Str) :=
  (build pkg b j none []).bind (fun o => (build pkg b j' none []).bind (fun o' => compare pkg o o' none))

/-- C30 (violation): two operations whose second tag differs are reported as the same, in both
directions. -/
theorem C30_strings_violation :
    compareDocs (.cls (s% "v3_0_0.Operation"))
      (.obj [(s% "responses", .obj []), (s% "tags", .arr [.str (s% "a"), .str (s% "b")])])
      (.obj [(s% "responses", .obj []), (s% "tags", .arr [.str (s% "a"), .str (s% "c")])]) = .ok (true, []) ∧
    compareDocs (.cls (s% "v3_0_0.Operation"))
      (.obj [(s% "responses", .obj []), (s% "tags", .arr [.str (s% "a"), .str (s% "c")])])
      (.obj [(s% "responses", .obj []), (s% "tags", .arr [.str (s% "a"), .str (s% "b")])]) = .ok (true, []) := by
  decide +kernel

/-- C30 (violation): a schema with fewer required properties is reported as the same; the other way
round an exception is raised. -/
theorem C30_list_prefix_violation :
    compareDocs (.cls (s% "v2_0.Schema")) (.obj [(s% "required", .arr [.str (s% "a")])])
      (.obj [(s% "required", .arr [.str (s% "a"), .str (s% "b")])]) = .ok (true, []) ∧
    compareDocs (.cls (s% "v2_0.Schema")) (.obj [(s% "required", .arr [.str (s% "a"), .str (s% "b")])])
      (.obj [(s% "required", .arr [.str (s% "a")])]) = .error .indexError := by
  decide +kernel

/-- Instances: a difference that is found and where; equal documents with keys in another order. -/
example : compareDocs (.mapOf (.cls (s% "v2_0.Schema")))
      (.obj [(s% "Pet", .obj [(s% "properties", .obj [(s% "id", .obj [(s% "type", .str (s% "integer"))])])])])
      (.obj [(s% "Pet", .obj [(s% "properties", .obj [(s% "id", .obj [(s% "type", .str (s% "string"))])])])]) =
      .ok (false, s% "Pet/properties/id/type") ∧
    compareDocs (.cls (s% "v2_0.Schema")) (.obj [(s% "type", .str (s% "object")), (s% "title", .str (s% "t"))])
      (.obj [(s% "title", .str (s% "t")), (s% "type", .str (s% "object"))]) = .ok (true, []) := by
  decide +kernel

end Pyopenapi
