import Verif.Lemmas.Dump
import Verif.Lemmas.Tables
import Verif.Props.Load

/-!
# C22, C23, C24: dumping loaded objects
-/

namespace Pyopenapi
open Spec
variable {T : Table}

theorem dumpField_some {spec : Json} {cs : Dict Json} {k : Str} {fd : FieldDef} {v : Json}
    (h : Obj.dumpField spec cs k fd = .ok (some v)) :
    Dict.has cs k = false ∧ fd.restricted = false ∧ v ≠ .null ∧
      ∃ d, spec = .obj d ∧ Dict.get? d k = some v := by
  unfold Obj.dumpField at h
  cases hh : Dict.has cs k with
  | true => simp [hh] at h
  | false =>
    simp only [hh, Bool.false_eq_true, if_false, bind, Except.bind] at h
    split at h
    · simp at h
    · rename_i b hb
      cases b with
      | false => simp at h
      | true =>
        simp only [if_true] at h
        unfold Obj.readField at h
        have hg : ∀ r, specGet spec k = .ok r → r ≠ none := by
          intro r hr hn
          subst hn
          exact (specGet_none.1 hr).2 (specHas_true.1 hb)
        cases hs : specGet spec k with
        | error e => simp [hs] at h
        | ok r =>
          cases r with
          | none => exact absurd rfl (hg _ hs)
          | some w =>
            obtain ⟨d, hd1, hd2⟩ := specGet_some.1 hs
            rw [hs] at h
            cases hr : fd.restricted with
            | true => simp [hr] at h
            | false =>
              simp only [hr, Bool.false_eq_true, if_false] at h
              by_cases hw : w = .null
              · simp [hw] at h
              · simp only [hw, if_false, Except.ok.injEq, Option.some.injEq] at h
                subst h
                exact ⟨rfl, rfl, hw, d, hd1, hd2⟩

theorem dumpField_set {d cs : Dict Json} {k : Str} {fd : FieldDef} {v : Json}
    (hc : Dict.has cs k = false) (hr : fd.restricted = false) (hg : Dict.get? d k = some v)
    (hv : v ≠ .null) : Obj.dumpField (.obj d) cs k fd = .ok (some v) := by
  have h2 : Dict.get? cs k = none := by
    cases h : Dict.get? cs k with
    | none => rfl
    | some x => simp [Dict.has, h] at hc
  simp [Obj.dumpField, h2, specHas, Dict.has, hg, Obj.readField, specGet, hr, hv, bind, Except.bind]

theorem dumpField_unset {d cs : Dict Json} {k : Str} {fd : FieldDef}
    (hg : Dict.get? d k = none) : Obj.dumpField (.obj d) cs k fd = .ok none := by
  simp [Obj.dumpField, specHas, Dict.has, hg, bind, Except.bind]

/-- Loading an empty object and dumping it gives an empty object. -/
theorem build_empty {b : Builder} {p : Option Str} {o : Obj}
    (hb : clsOrMap b = true)
    (h : build T b (.obj []) p [] = .ok o) : Obj.dump T o = .ok (.obj []) := by
  cases b with
  | cls c =>
    rw [build_cls] at h
    split at h
    · simp at h
    · rename_i kids hk
      simp only [Except.ok.injEq] at h
      subst h
      have hkn : kids = [] := by
        rw [(Dict.collect_iff.1 hk).2]
        apply List.filterMap_eq_nil_iff.2
        intro q hq
        obtain ⟨o, ho⟩ := (Dict.collect_iff.1 hk).1 q hq
        cases o with
        | none => simp [Dict.kept, ho]
        | some o => obtain ⟨d, v, hd, hv, _⟩ := kid_some.1 ho; cases hd; simp at hv
      subst hkn
      rw [dump_base]
      have : Dict.collect (Obj.dumpField (.obj []) []) (T c).fields = .ok [] := by
        rw [Dict.collect_iff]
        refine ⟨fun q _ => ⟨none, dumpField_unset rfl⟩, ?_⟩
        symm
        apply List.filterMap_eq_nil_iff.2
        intro q _
        simp [Dict.kept, dumpField_unset (d := []) (k := q.1) rfl]
      simp [Obj.dumpKids, this]
  | mapOf b =>
    rw [build_map, buildItems_eq] at h
    simp [Dict.mapM] at h
    subst h
    simp [dump_map, Dict.mapM]
  | _ => simp [clsOrMap] at hb

/-- The dump of an object without `$ref` has no `$ref`. -/
theorem dump_noref (hT : OkTable T) {b : Builder} {d : Json} {p : Option Str} {o : Obj} {j' : Json}
    (hb : clsOrMap b = true)
    (hw : ¬ Within (s% "$ref") d)
    (h : build T b d p [] = .ok o) (hd : Obj.dump T o = .ok j') : ∃ d', j' = .obj d' ∧ Dict.get? d' (s% "$ref") = none := by
  cases b with
  | cls c =>
    obtain ⟨cs, fs, kids, _, rfl, hk, hcs, hfs, hget, _, _⟩ := dump_cls_get (hT.cls c) h hd
    refine ⟨_, rfl, ?_⟩
    rw [hget, Dict.get?_eq_none_iff.2 (hT.cls c).noref]
    simp only [Option.bind_none, Option.none_or]
    cases hf : Dict.get? (T c).fields (s% "$ref") with
    | none => rfl
    | some fd =>
      cases hkf : Dict.kept (Obj.dumpField d cs) (s% "$ref") fd with
      | none => exact hkf
      | some v =>
        obtain ⟨_, _, _, d'', rfl, hg⟩ := dumpField_some (kept_some.1 hkf)
        exact absurd ⟨v, hg⟩ hw
  | mapOf b =>
    by_cases hj : ∃ l, d = .obj l
    · obtain ⟨l, rfl⟩ := hj
      rw [build_map] at h
      split at h
      · simp at h
      · rename_i es hes
        simp only [Except.ok.injEq] at h
        subst h
        rw [dump_map] at hd
        split at hd
        · simp at hd
        · rename_i r hr
          simp only [Except.ok.injEq] at hd
          subst hd
          refine ⟨_, rfl, ?_⟩
          rw [buildItems_eq] at hes
          rw [Dict.get?_eq_none_iff, Dict.mapM_keys hr, Dict.mapM_keys hes, ← Dict.get?_eq_none_iff]
          cases hg : Dict.get? l (s% "$ref") with
          | none => rfl
          | some v => exact absurd ⟨v, hg⟩ hw
    · rw [build_map_other b d p (fun l hl => hj ⟨l, hl⟩)] at h; simp at h
  | _ => simp [clsOrMap] at hb

/-- C23: when the dump of a loaded document can be loaded again, dumping that gives exactly the same
dump. -/
theorem C23_dump_load_fixpoint_aux (hT : OkTable T) (b : Builder) (j : Json) :
    okBuilder T b = true → ∀ (p p' : Option Str) (o o' : Obj) (j' : Json),
    build T b j p [] = .ok o → Obj.dump T o = .ok j' → build T b j' p' [] = .ok o' →
    Obj.dump T o' = .ok j' ∧ (childBuilder T b = true → o.truthy = true → o'.truthy = true) := by
  refine build_ind (P := fun b j => okBuilder T b = true → ∀ (p p' : Option Str) (o o' : Obj) (j' : Json),
    build T b j p [] = .ok o → Obj.dump T o = .ok j' → build T b j' p' [] = .ok o' →
    Obj.dump T o' = .ok j' ∧ (childBuilder T b = true → o.truthy = true → o'.truthy = true))
    ?_ ?_ ?_ ?_ ?_ ?_ ?_ b j
  · -- classes
    intro c j ih _ p p' o o' j' hb hd hb'
    have hc := hT.cls c
    obtain ⟨cs, fs, kids, rfl, rfl, hk, hcs, hfs, hget, hsub, hsubf⟩ := dump_cls_get hc hb hd
    rw [build_cls] at hb'
    split at hb'
    · simp at hb'
    · rename_i kids' hk'
      simp only [Except.ok.injEq] at hb'
      subst hb'
      refine ⟨?_, fun _ _ => rfl⟩
      -- the value under a declared child
      have hgc : ∀ k cd, (k, cd) ∈ (T c).children → Dict.get? (cs ++ fs) k =
          (Dict.kept (fun k cd => buildKid T k cd j p []) k cd).bind (Dict.kept (dk T) k) := by
        intro k cd hm
        rw [hget, Dict.get?_of_mem hc.children hm,
          Dict.get?_eq_none_iff.2 (hc.disj k (List.mem_map.2 ⟨_, hm, rfl⟩))]
        simp
      -- a rebuilt child dumps to what it was loaded from
      have hchild : ∀ k cd o', (k, cd) ∈ (T c).children →
          buildKid T k cd (.obj (cs ++ fs)) p' [] = .ok (some o') →
          ∃ jk, Dict.get? (cs ++ fs) k = some jk ∧ dk T k o' = .ok (some jk) := by
        intro k cd o' hm ho'
        obtain ⟨d, v, hdd, hv, hvn, hbv⟩ := kid_some.1 ho'
        cases hdd
        refine ⟨v, hv, ?_⟩
        have h1 := hgc k cd hm
        rw [hv] at h1
        obtain ⟨ok, hok1, hok2⟩ := Option.bind_eq_some_iff.1 h1.symm
        obtain ⟨d0, v0, hd0, hv0, _, hb0⟩ := kid_some.1 (kept_some.1 hok1)
        obtain ⟨ht, hdump⟩ := dk_some.1 (kept_some.1 hok2)
        subst hd0
        obtain ⟨hres, htr⟩ := ih cd.builder v0 (size_get hv0) (childBuilder_ok (hc.child k cd hm)) _ _ _ _ _ hb0 hdump hbv
        exact dk_some.2 ⟨htr (hc.child k cd hm) ht, hres⟩
      have hcs' : Dict.collect (dk T) kids' = .ok cs := by
        rw [Dict.collect_iff]
        rw [(Dict.collect_iff.1 hk').2]
        constructor
        · intro q hq
          obtain ⟨⟨k, cd⟩, hm, hq2⟩ := List.mem_filterMap.1 hq
          simp only [Option.map_eq_some_iff] at hq2
          obtain ⟨o1, ho1, rfl⟩ := hq2
          obtain ⟨jk, _, hjk⟩ := hchild k cd o1 hm (kept_some.1 ho1)
          exact ⟨_, hjk⟩
        · have e1 := (Dict.collect_iff.1 hcs).2
          rw [(Dict.collect_iff.1 hk).2, List.filterMap_filterMap] at e1
          refine e1.trans ?_
          rw [List.filterMap_filterMap]
          apply filterMap_congr
          rintro ⟨k, cd⟩ hm
          have h1 := hgc k cd hm
          -- original side
          have hl : ((Dict.kept (fun k cd => buildKid T k cd j p []) k cd).map (fun o => (k, o))).bind
              (fun q => (Dict.kept (dk T) q.1 q.2).map (fun o => (q.1, o))) =
              (Dict.get? (cs ++ fs) k).map (fun o => (k, o)) := by
            rw [h1]
            cases Dict.kept (fun k cd => buildKid T k cd j p []) k cd <;> simp
          refine Eq.trans hl ?_
          obtain ⟨okid, hokid⟩ := (Dict.collect_iff.1 hk').1 (k, cd) hm
          cases okid with
          | none =>
            have hnone : Dict.kept (fun k cd => buildKid T k cd (.obj (cs ++ fs)) p' []) k cd = none := by
              simp only [Dict.kept, hokid]
            simp only [hnone]
            rcases kid_none.1 hokid with ⟨h2, _⟩ | h2
            · rw [specGet_obj] at h2
              rw [Except.ok.inj h2]
              rfl
            · rw [specGet_obj] at h2
              have h3 := Except.ok.inj h2
              simp only at h3
              rw [h3] at h1
              obtain ⟨ok, hok1, hok2⟩ := Option.bind_eq_some_iff.1 h1.symm
              exact absurd rfl (dump_not_null (dk_some.1 (kept_some.1 hok2)).2)
          | some o1 =>
            obtain ⟨jk, hjk1, hjk2⟩ := hchild k cd o1 hm hokid
            have hsome : Dict.kept (fun k cd => buildKid T k cd (.obj (cs ++ fs)) p' []) k cd = some o1 :=
              kept_some.2 hokid
            simp only [hsome, hjk1, Option.map_some, Option.bind_some, kept_some.2 hjk2]
      have hfield : ∀ k fd, (k, fd) ∈ (T c).fields →
          Obj.dumpField (.obj (cs ++ fs)) cs k fd = .ok (Dict.kept (Obj.dumpField j cs) k fd) := by
        intro k fd hm
        have hnc : k ∉ Dict.keys (T c).children := fun h => hc.disj k h (List.mem_map.2 ⟨_, hm, rfl⟩)
        have hg : Dict.get? (cs ++ fs) k = Dict.kept (Obj.dumpField j cs) k fd := by
          rw [hget, Dict.get?_eq_none_iff.2 hnc, Dict.get?_of_mem hc.fields hm]
          rfl
        cases hkf : Dict.kept (Obj.dumpField j cs) k fd with
        | none => exact dumpField_unset (by rw [hg, hkf])
        | some v =>
          obtain ⟨h1, h2, h3, _⟩ := dumpField_some (kept_some.1 hkf)
          exact dumpField_set h1 h2 (by rw [hg, hkf]) h3
      have hfs' : Dict.collect (Obj.dumpField (.obj (cs ++ fs)) cs) (T c).fields = .ok fs := by
        rw [Dict.collect_iff]
        refine ⟨fun q hq => ⟨_, hfield q.1 q.2 hq⟩, ?_⟩
        refine (Dict.collect_iff.1 hfs).2.trans ?_
        apply filterMap_congr
        rintro ⟨k, fd⟩ hm
        have : Dict.kept (Obj.dumpField (.obj (cs ++ fs)) cs) k fd = Dict.kept (Obj.dumpField j cs) k fd := by
          conv => lhs; unfold Dict.kept
          rw [hfield k fd hm]
          cases Dict.kept (Obj.dumpField j cs) k fd <;> rfl
        simp only [this]
      rw [dump_base, dumpKids_eq]
      have hcs'' : Dict.collect (fun _ o => if o.truthy then (Obj.dump T o).map some else .ok none) kids' = .ok cs := hcs'
      rw [hcs'']
      simp only [hfs']
  · intro j _ p p' o o' j' hb hd
    rw [build_prim (b := .isStr) rfl hb] at hd
    simp [Obj.dump] at hd
  · intro j _ p p' o o' j' hb hd
    rw [build_prim (b := .isStrOrInt) rfl hb] at hd
    simp [Obj.dump] at hd
  · -- lists
    intro b j ih hok p p' o o' j' hb hd hb'
    obtain ⟨hokb, hkind⟩ := elem_kind hok
    by_cases hj : ∃ l, j = .arr l
    · obtain ⟨l, rfl⟩ := hj
      rw [build_list] at hb
      split at hb
      · simp at hb
      · rename_i es hes
        simp only [Except.ok.injEq] at hb
        subst hb
        have hf := buildElems_forall₂ hes
        rcases buildElems_kind hkind hes with ⟨hob, hnp⟩ | ⟨hpb, hprim⟩
        · rw [dump_list_obj b p _ hnp] at hd
          split at hd
          · simp at hd
          · rename_i r hr
            simp only [Except.ok.injEq] at hd
            subst hd
            rw [build_list] at hb'
            split at hb'
            · simp at hb'
            · rename_i es' hes'
              simp only [Except.ok.injEq] at hb'
              subst hb'
              have hf' := buildElems_forall₂ hes'
              have hnp' : ∀ o ∈ es', o.isPrim = false := by
                intro o ho
                obtain ⟨x, _, q, hq⟩ := forall₂_mem_right hf' ho
                exact build_isPrim hob hq
              have hchain : List.Forall₂ (fun o y => Obj.dump T o = .ok y) es' r :=
                forall₂_chain hf (dumpList_iff.1 hr) hf' (by
                  rintro x hx o y o' ⟨q, hq⟩ hoy ⟨q', hq'⟩
                  exact (ih x (size_elem hx) hokb _ _ _ _ _ hq hoy hq').1)
              refine ⟨?_, ?_⟩
              · rw [dump_list_obj b p' _ hnp', dumpList_iff.2 hchain]
              · intro _ ht
                have h1 := forall₂_length (dumpList_iff.1 hr)
                have h2 := forall₂_length hf'
                simp only [Obj.truthy, Bool.not_eq_true', List.isEmpty_eq_false_iff] at ht ⊢
                intro hn
                apply ht
                apply List.eq_nil_of_length_eq_zero
                rw [hn] at h2
                simp at h2
                rw [h2] at h1
                simpa using h1
        · subst hprim
          rw [dump_list_prim] at hd
          simp only [Except.ok.injEq] at hd
          subst hd
          rw [build_list] at hb'
          split at hb'
          · simp at hb'
          · rename_i es' hes'
            simp only [Except.ok.injEq] at hb'
            subst hb'
            have hf' := buildElems_forall₂ hes'
            have : es' = l.map Obj.prim := forall₂_prims (forall₂_imp hf' (by
              rintro x o ⟨q, hq⟩
              exact build_prim hpb hq))
            subst this
            exact ⟨dump_list_prim _ _ _ _, fun _ ht => ht⟩
    · rw [build_list_other b j p (fun l hl => hj ⟨l, hl⟩)] at hb; simp at hb
  · -- maps
    intro b j ih hok p p' o o' j' hb hd hb'
    obtain ⟨hokb, hkind⟩ := item_kind hok
    by_cases hj : ∃ l, j = .obj l
    · obtain ⟨d, rfl⟩ := hj
      rw [build_map] at hb
      split at hb
      · simp at hb
      · rename_i es hes
        simp only [Except.ok.injEq] at hb
        subst hb
        have hf := buildItems_forall₂ hes
        rw [dump_map] at hd
        split at hd
        · simp at hd
        · rename_i r hr
          simp only [Except.ok.injEq] at hd
          subst hd
          rw [build_map] at hb'
          split at hb'
          · simp at hb'
          · rename_i es' hes'
            simp only [Except.ok.injEq] at hb'
            subst hb'
            have hf' := buildItems_forall₂ hes'
            have hchain : List.Forall₂ (fun o y => o.1 = y.1 ∧ Obj.dumpElem T o.2 = .ok y.2) es' r :=
              forall₂_chain hf (Dict.mapM_ok hr) hf' (by
                rintro ⟨k, x⟩ hx ⟨k1, o⟩ ⟨k2, y⟩ ⟨k3, o'⟩ ⟨hk1, q, hq⟩ ⟨hk2, hoy⟩ ⟨hk3, q', hq'⟩
                simp only at hk1 hk2 hk3 hq hoy hq'
                subst hk1 hk2 hk3
                refine ⟨rfl, ?_⟩
                simp only
                rcases hkind with hob | hpb
                · rw [dumpElem_obj (build_isPrim hob hq')]
                  rw [dumpElem_obj (build_isPrim hob hq)] at hoy
                  exact (ih x (size_item hx) hokb _ _ _ _ _ hq hoy hq').1
                · rw [build_prim hpb hq']; rfl)
            refine ⟨?_, ?_⟩
            · rw [dump_map, Dict.mapM_of_forall₂ hchain]
            · intro _ ht
              have h1 := forall₂_length (Dict.mapM_ok hr)
              have h2 := forall₂_length hf'
              simp only [Obj.truthy, Bool.not_eq_true', List.isEmpty_eq_false_iff] at ht ⊢
              intro hn
              apply ht
              apply List.eq_nil_of_length_eq_zero
              rw [hn] at h2
              simp at h2
              rw [h2] at h1
              simpa using h1
    · rw [build_map_other b j p (fun l hl => hj ⟨l, hl⟩)] at hb; simp at hb
  · -- references
    intro r b j ihr ihb hok p p' o o' j' hb hd hb'
    simp only [okBuilder, Bool.and_eq_true] at hok
    obtain ⟨⟨href, hokb⟩, hbk⟩ := hok
    have htruthy : childBuilder T (.ifNotRef r b) = true → o'.truthy = true := by
      intro hcb
      rw [build_ifNotRef] at hb'
      have : ∀ c, build T (.cls c) j' p' [] = .ok o' → o'.truthy = true := by
        intro c h
        rw [build_cls] at h
        split at h
        · simp at h
        · simp only [Except.ok.injEq] at h; subst h; rfl
      split at hb'
      · simp at hb'
      · exact this _ hb'
      · cases b with
        | cls c => exact this _ hb'
        | _ => simp [childBuilder] at hcb
    refine ⟨?_, fun h _ => htruthy h⟩
    rw [build_ifNotRef] at hb hb'
    split at hb
    · simp at hb
    · -- a reference
      rename_i hw
      split at hb'
      · simp at hb'
      · exact (ihr rfl _ _ _ _ _ hb hd hb').1
      · rename_i hnw
        -- its dump has no `$ref` left: it is empty
        obtain ⟨cs, fs, kids, _, rfl, hk, hcs, hfs, hget, hsub, hsubf⟩ := dump_cls_get (hT.cls r) hb hd
        have hempty : cs ++ fs = [] := by
          simp only [refClass, Bool.and_eq_true, List.isEmpty_iff] at href
          obtain ⟨hch, hfd⟩ := href
          have hcs0 : cs = [] := by
            cases cs with
            | nil => rfl
            | cons q cs =>
              have := hsub q.1 (by simp [Dict.keys])
              rw [hch] at this
              simp [Dict.keys] at this
          subst hcs0
          cases fs with
          | nil => rfl
          | cons q fs =>
            exfalso
            have hq := hsubf q.1 (by simp [Dict.keys])
            split at hfd
            · rename_i k fd hfe
              rw [hfe] at hq
              simp only [Bool.and_eq_true, beq_iff_eq] at hfd
              simp only [Dict.keys, List.map_cons, List.map_nil, List.mem_singleton] at hq
              rw [hfd.1] at hq
              have := (specHas_false.1 hnw).2
              apply this
              obtain ⟨k, v⟩ := q
              simp only at hq
              subst hq
              exact ⟨v, by simp [Dict.get?_cons]⟩
            · simp at hfd
        rw [hempty] at hb' ⊢
        exact build_empty hbk hb'
    · -- no reference
      rename_i hw
      obtain ⟨d', rfl, hd'⟩ := dump_noref hT hbk (specHas_false.1 hw).2 hb hd
      have : specHas (.obj d') (s% "$ref") = .ok false := by simp [specHas, Dict.has, hd']
      rw [this] at hb'
      exact (ihb hokb _ _ _ _ _ hb hd hb').1
  · -- bool or object
    intro b j ih hok p p' o o' j' hb hd hb'
    simp only [okBuilder, Bool.and_eq_true] at hok
    rw [build_ifNotBool] at hb hb'
    split at hb
    · simp only [Except.ok.injEq] at hb; subst hb; simp [Obj.dump] at hd
    · have hnb : isBool j' = false := by
        rcases dump_kind hd with ⟨l, rfl⟩ | ⟨d, rfl⟩ <;> rfl
      simp only [hnb, Bool.false_eq_true, if_false] at hb'
      obtain ⟨h1, h2⟩ := ih hok.1 _ _ _ _ _ hb hd hb'
      refine ⟨h1, fun hcb ht => h2 ?_ ht⟩
      unfold childBuilder at hcb
      split at hcb <;> simp_all [childBuilder]

/-- C23: when the dump of a loaded document can be loaded again (see `C23_reload`), dumping that
gives exactly the same dump. -/
theorem C23_dump_load_fixpoint (hT : OkTable T) {b : Builder} (hb : okBuilder T b = true) {j j' : Json}
    {p p' : Option Str} {o o' : Obj}
    (h1 : build T b j p [] = .ok o) (h2 : Obj.dump T o = .ok j') (h3 : build T b j' p' [] = .ok o') :
    Obj.dump T o' = .ok j' := (C23_dump_load_fixpoint_aux hT b j hb p p' o o' j' h1 h2 h3).1

/-! ## C22 -/

theorem clean_shaped {b : Builder} {j : Json} (hT : OkTable T) (h : Clean T b j) : Shaped T b j := by
  induction h with
  | cls _ h2 h3 _ _ ih =>
    refine Shaped.clsObj h2 ?_
    intro k cd v hm hv _
    exact ih k cd v (Dict.get?_of_mem (hT.cls _).children hm) hv
  | isStr => exact Shaped.isStr
  | str => exact Shaped.str
  | int => exact Shaped.int
  | intBool => exact Shaped.intBool
  | list _ ih => exact Shaped.list ih
  | map _ _ ih => exact Shaped.map ih
  | ref h1 _ ih => exact Shaped.ref ⟨_, h1⟩ ih
  | notRef h1 _ ih => exact Shaped.notRef trivial (by rintro ⟨v, hv⟩; rw [h1] at hv; simp at hv) ih
  | notBool h1 _ ih => exact Shaped.notBool h1 ih

theorem jeq_arr {l r : List Json} (h : List.Forall₂ JEq l r) : JEq (.arr l) (.arr r) := by
  induction h with
  | nil => exact JEq.nil
  | cons h _ ih => exact JEq.cons h ih

theorem forall₂_comp {α β γ : Type} {A : α → β → Prop} {B : β → γ → Prop} {C : α → γ → Prop}
    {l : List α} {m : List β} {n : List γ} (h1 : List.Forall₂ A l m) (h2 : List.Forall₂ B m n)
    (h : ∀ x ∈ l, ∀ y z, A x y → B y z → C x z) : List.Forall₂ C l n := by
  induction h1 generalizing n with
  | nil => cases h2; exact .nil
  | cons ha _ ih =>
    cases h2 with
    | cons hb h2 => exact .cons (h _ (by simp) _ _ ha hb) (ih h2 (fun x hx => h x (by simp [hx])))

theorem dump_clean {b : Builder} {j : Json} (hT : OkTable T) (h : Clean T b j) :
    okBuilder T b = true → ∀ p o, build T b j p [] = .ok o →
      (¬ Hidden b j → primBuilder b = false → o.truthy = true) ∧
      (primBuilder b = false → ∃ j', Obj.dump T o = .ok j' ∧ JEq j j') := by
  induction h with
  | @cls c d hnd hreq hnull hclean hfield ih =>
    intro _ p o hb
    have hc := hT.cls c
    have hb0 := hb
    rw [build_cls] at hb
    split at hb
    · simp at hb
    · rename_i kids hk
      simp only [Except.ok.injEq] at hb
      subst hb
      refine ⟨fun _ _ => rfl, fun _ => ?_⟩
      -- every child dumps to an equal document
      have hkid : ∀ k cd o, (k, cd) ∈ (T c).children → buildKid T k cd (.obj d) p [] = .ok (some o) →
          ∃ v j', Dict.get? d k = some v ∧ dk T k o = .ok (some j') ∧ JEq v j' := by
        intro k cd o hm ho
        obtain ⟨d', v, hd', hv, hvn, hbv⟩ := kid_some.1 ho
        cases hd'
        have hg := Dict.get?_of_mem hc.children hm
        have hcb := hc.child k cd hm
        have hnp : primBuilder cd.builder = false := by
          cases hcd : cd.builder <;> simp_all [childBuilder, primBuilder]
        obtain ⟨h1, h2⟩ := ih k cd v hg hv (childBuilder_ok hcb) _ _ hbv
        obtain ⟨j', hj1, hj2⟩ := h2 hnp
        exact ⟨v, j', hv, dk_some.2 ⟨h1 (hnull k cd v hg hv).2 hnp, hj1⟩, hj2⟩
      have hcs : ∃ cs, Dict.collect (dk T) kids = .ok cs := by
        refine ⟨_, Dict.collect_iff.2 ⟨?_, rfl⟩⟩
        intro q hq
        rw [(Dict.collect_iff.1 hk).2] at hq
        obtain ⟨⟨k, cd⟩, hm, hq2⟩ := List.mem_filterMap.1 hq
        simp only [Option.map_eq_some_iff] at hq2
        obtain ⟨o1, ho1, rfl⟩ := hq2
        obtain ⟨v, j', _, hjk, _⟩ := hkid k cd o1 hm (kept_some.1 ho1)
        exact ⟨_, hjk⟩
      obtain ⟨cs, hcs⟩ := hcs
      have hsub : ∀ k, k ∈ Dict.keys cs → k ∈ Dict.keys (T c).children :=
        fun k h => Dict.keys_collect_sub hk (Dict.keys_collect_sub hcs h)
      have hfd : ∀ k fd, (k, fd) ∈ (T c).fields →
          Obj.dumpField (.obj d) cs k fd = .ok (Dict.get? d k) := by
        intro k fd hm
        have hkf : k ∈ Dict.keys (T c).fields := List.mem_map.2 ⟨_, hm, rfl⟩
        have hnc : k ∉ Dict.keys (T c).children := fun h => hc.disj k h hkf
        cases hg : Dict.get? d k with
        | none => exact dumpField_unset hg
        | some v =>
          obtain ⟨hvn, fd', hfd', hr⟩ := hfield k v hg (Dict.get?_eq_none_iff.2 hnc)
          rw [Dict.get?_of_mem hc.fields hm] at hfd'
          cases hfd'
          refine dumpField_set ?_ hr hg hvn
          cases hh : Dict.has cs k with
          | false => rfl
          | true => exact absurd (hsub k (Dict.has_iff.1 hh)) hnc
      have hfs : ∃ fs, Dict.collect (Obj.dumpField (.obj d) cs) (T c).fields = .ok fs :=
        ⟨_, Dict.collect_iff.2 ⟨fun q hq => ⟨_, hfd q.1 q.2 hq⟩, rfl⟩⟩
      obtain ⟨fs, hfs⟩ := hfs
      have hdump : Obj.dump T (.base c p (.obj d) kids) = .ok (.obj (cs ++ fs)) := by
        rw [dump_base, dumpKids_eq]
        have hcs' : Dict.collect (fun _ o => if o.truthy then (Obj.dump T o).map some else .ok none) kids = .ok cs := hcs
        rw [hcs']
        simp only [hfs]
      refine ⟨_, hdump, ?_⟩
      have hget : ∀ k, Dict.get? (cs ++ fs) k = ((Dict.get? (T c).children k).bind fun cd =>
          (Dict.kept (fun k cd => buildKid T k cd (.obj d) p []) k cd).bind (Dict.kept (dk T) k)).or
          ((Dict.get? (T c).fields k).bind (Dict.kept (Obj.dumpField (.obj d) cs) k)) := by
        intro k
        rw [Dict.get?_append, Dict.get?_collect (Dict.nodupKeys_collect hc.children hk) hcs,
          Dict.get?_collect hc.children hk, Dict.get?_collect hc.fields hfs, Option.bind_assoc]
      have hval : ∀ k, (Dict.get? d k = none ∧ Dict.get? (cs ++ fs) k = none) ∨
          ∃ v j', Dict.get? d k = some v ∧ Dict.get? (cs ++ fs) k = some j' ∧ JEq v j' := by
        intro k
        cases hck : Dict.get? (T c).children k with
        | some cd =>
          have hm := Dict.mem_of_get? hck
          have hnf : Dict.get? (T c).fields k = none :=
            Dict.get?_eq_none_iff.2 (hc.disj k (List.mem_map.2 ⟨_, hm, rfl⟩))
          have hgk : Dict.get? (cs ++ fs) k =
              (Dict.kept (fun k cd => buildKid T k cd (.obj d) p []) k cd).bind (Dict.kept (dk T) k) := by
            rw [hget, hck, hnf]; simp
          obtain ⟨okid, hokid⟩ := (Dict.collect_iff.1 hk).1 (k, cd) hm
          cases okid with
          | none =>
            left
            rcases kid_none.1 hokid with ⟨h2, _⟩ | h2
            · rw [specGet_obj] at h2
              refine ⟨Except.ok.inj h2, ?_⟩
              rw [hgk]
              simp only [Dict.kept, hokid, Option.bind_none]
            · rw [specGet_obj] at h2
              exact absurd rfl (hnull k cd .null hck (Except.ok.inj h2)).1
          | some o1 =>
            right
            obtain ⟨v, j', h1, h2, h3⟩ := hkid k cd o1 hm hokid
            refine ⟨v, j', h1, ?_, h3⟩
            have hsome : Dict.kept (fun k cd => buildKid T k cd (.obj d) p []) k cd = some o1 :=
              kept_some.2 hokid
            rw [hgk, hsome, Option.bind_some, kept_some.2 h2]
        | none =>
          have hgk : Dict.get? (cs ++ fs) k =
              (Dict.get? (T c).fields k).bind (Dict.kept (Obj.dumpField (.obj d) cs) k) := by
            rw [hget, hck]; simp
          cases hdk : Dict.get? d k with
          | none =>
            left
            refine ⟨rfl, ?_⟩
            rw [hgk]
            cases hfk : Dict.get? (T c).fields k with
            | none => rfl
            | some fd =>
              simp only [Option.bind_some, Dict.kept, dumpField_unset hdk]
          | some v =>
            right
            obtain ⟨_, fd, hfk, _⟩ := hfield k v hdk hck
            refine ⟨v, v, rfl, ?_, JEq.refl v⟩
            rw [hgk, hfk, Option.bind_some, kept_some, hfd k fd (Dict.mem_of_get? hfk), hdk]
      refine JEq.obj ?_ ?_
      · intro k
        rcases hval k with ⟨h1, h2⟩ | ⟨v, j', h1, h2, _⟩ <;> simp [h1, h2]
      · intro k x y hx hy
        rcases hval k with ⟨h1, h2⟩ | ⟨v, j', h1, h2, h3⟩
        · rw [h1] at hx; simp at hx
        · rw [h1] at hx; rw [h2] at hy
          cases hx; cases hy; exact h3
  | isStr => intro _ p o hb; simp [primBuilder]
  | str => intro _ p o hb; simp [primBuilder]
  | int => intro _ p o hb; simp [primBuilder]
  | intBool => intro _ p o hb; simp [primBuilder]
  | @list b l hall ih =>
    intro hok p o hb
    obtain ⟨hokb, hkind⟩ := elem_kind hok
    rw [build_list] at hb
    split at hb
    · simp at hb
    · rename_i es hes
      simp only [Except.ok.injEq] at hb
      subst hb
      have hf := buildElems_forall₂ hes
      refine ⟨?_, fun _ => ?_⟩
      · intro hh _
        simp only [Obj.truthy, Bool.not_eq_true', List.isEmpty_eq_false_iff]
        intro hn
        subst hn
        cases hf
        exact hh Hidden.list
      · rcases buildElems_kind hkind hes with ⟨hob, hnp⟩ | ⟨hpb, hprim⟩
        · have hnb : primBuilder b = false := by cases b <;> simp_all [primBuilder, objBuilder]
          have hex : ∃ r, List.Forall₂ (fun o j => Obj.dump T o = .ok j) es r := by
            apply forall₂_exists
            intro o ho
            obtain ⟨x, hx, q, hq⟩ := forall₂_mem_right hf ho
            obtain ⟨j', hj, _⟩ := (ih x hx hokb q o hq).2 hnb
            exact ⟨j', hj⟩
          obtain ⟨r, hr⟩ := hex
          rw [dump_list_obj b p _ hnp, dumpList_iff.2 hr]
          refine ⟨_, rfl, jeq_arr (forall₂_comp hf hr ?_)⟩
          rintro x hx o j' ⟨q, hq⟩ hj
          obtain ⟨j'', hj1, hj2⟩ := (ih x hx hokb q o hq).2 hnb
          rw [hj] at hj1
          cases hj1; exact hj2
        · subst hprim
          rw [dump_list_prim]
          exact ⟨_, rfl, JEq.refl _⟩
  | @map b d hnd hall ih =>
    intro hok p o hb
    obtain ⟨hokb, hkind⟩ := item_kind hok
    rw [build_map] at hb
    split at hb
    · simp at hb
    · rename_i es hes
      simp only [Except.ok.injEq] at hb
      subst hb
      have hf := buildItems_forall₂ hes
      refine ⟨?_, fun _ => ?_⟩
      · intro hh _
        simp only [Obj.truthy, Bool.not_eq_true', List.isEmpty_eq_false_iff]
        intro hn
        subst hn
        cases hf
        exact hh Hidden.map
      · have hone : ∀ k x q o, (k, x) ∈ d → build T b x q [] = .ok o →
            ∃ j', Obj.dumpElem T o = .ok j' ∧ JEq x j' := by
          intro k x q o hx hq
          rcases hkind with hob | hpb
          · have hnb : primBuilder b = false := by cases b <;> simp_all [primBuilder, objBuilder]
            rw [dumpElem_obj (build_isPrim hob hq)]
            exact (ih k x hx hokb q o hq).2 hnb
          · rw [build_prim hpb hq]; exact ⟨_, rfl, JEq.refl _⟩
        have hex : ∃ r : List (Str × Json), List.Forall₂ (fun o y => o.1 = y.1 ∧ Obj.dumpElem T o.2 = .ok y.2) es r := by
          apply forall₂_exists
          intro o ho
          obtain ⟨x, hx, hxo, q, hq⟩ := forall₂_mem_right hf ho
          obtain ⟨j', hj, _⟩ := hone x.1 x.2 q o.2 hx hq
          exact ⟨(o.1, j'), rfl, hj⟩
        obtain ⟨r, hr⟩ := hex
        rw [dump_map, Dict.mapM_of_forall₂ hr]
        refine ⟨_, rfl, ?_⟩
        have hfr : List.Forall₂ (fun x y => x.1 = y.1 ∧ JEq x.2 y.2) d r := by
          refine forall₂_comp hf hr ?_
          rintro ⟨k, x⟩ hx ⟨k1, o⟩ ⟨k2, y⟩ ⟨h1, q, hq⟩ ⟨h2, hy⟩
          simp only at h1 h2 hq hy
          subst h1 h2
          obtain ⟨j', hj1, hj2⟩ := hone k x q o hx hq
          rw [hj1] at hy
          cases hy
          exact ⟨rfl, hj2⟩
        refine JEq.obj ?_ ?_
        · intro k
          rcases Dict.get?_of_forall₂ hfr (fun _ _ h => h.1) k with ⟨h1, h2⟩ | ⟨v, w, h1, h2, _⟩ <;>
            simp [h1, h2]
        · intro k x y hx hy
          rcases Dict.get?_of_forall₂ hfr (fun _ _ h => h.1) k with ⟨h1, h2⟩ | ⟨v, w, h1, h2, h3⟩
          · rw [h1] at hx; simp at hx
          · rw [h1] at hx; rw [h2] at hy
            cases hx; cases hy; exact h3.2
  | @ref r b d v hv _ ih =>
    intro hok p o hb
    have hw : specHas (.obj d) (s% "$ref") = .ok true := by simp [specHas, Dict.has, hv]
    rw [build_ifNotRef, hw] at hb
    simp only at hb
    obtain ⟨h1, h2⟩ := ih rfl p o hb
    refine ⟨fun _ _ => ?_, fun _ => h2 rfl⟩
    rw [build_cls] at hb
    split at hb
    · simp at hb
    · simp only [Except.ok.injEq] at hb; subst hb; rfl
  | @notRef r b d hv _ ih =>
    intro hok p o hb
    simp only [okBuilder, Bool.and_eq_true] at hok
    have hw : specHas (.obj d) (s% "$ref") = .ok false := by simp [specHas, Dict.has, hv]
    rw [build_ifNotRef, hw] at hb
    have hnb : primBuilder b = false := by cases b <;> simp_all [primBuilder, clsOrMap]
    obtain ⟨h1, h2⟩ := ih hok.1.2 p o hb
    refine ⟨fun hh _ => h1 (fun hb => hh (Hidden.notRef ?_ hb)) hnb, fun _ => h2 hnb⟩
    rintro ⟨v, hv'⟩
    rw [hv] at hv'; simp at hv'
  | @notBool b j hv _ ih =>
    intro hok p o hb
    simp only [okBuilder, Bool.and_eq_true] at hok
    rw [build_ifNotBool, isBool_false.2 hv] at hb
    have hnb : primBuilder b = false := by cases b <;> simp_all [primBuilder, objBuilder]
    obtain ⟨h1, h2⟩ := ih hok.1 p o hb
    exact ⟨fun hh _ => h1 (fun hb => hh (Hidden.notBool hb)) hnb, fun _ => h2 hnb⟩

/-- C22: a document that only uses what the classes declare, and nothing a dump hides, is loaded,
and dumping the loaded object gives it back, up to the order of keys. -/
theorem C22_dump_lossless (hT : OkTable T) {c : Str} {j : Json} (p : Option Str)
    (h : Clean T (.cls c) j) :
    ∃ o j', build T (.cls c) j p [] = .ok o ∧ Obj.dump T o = .ok j' ∧ JEq j j' := by
  obtain ⟨o, ho⟩ := (C21_build_iff_shaped (.cls c) j p).2 (clean_shaped hT h)
  obtain ⟨j', h1, h2⟩ := (dump_clean hT h rfl p o ho).2 rfl
  exact ⟨o, j', ho, h1, h2⟩

/-- C22 for the classes of the package. -/
theorem C22_dump_lossless_pkg {c : Str} {j : Json} (p : Option Str) (h : Clean pkg (.cls c) j) :
    ∃ o j', build pkg (.cls c) j p [] = .ok o ∧ Obj.dump pkg o = .ok j' ∧ JEq j j' :=
  C22_dump_lossless okTable_pkg p h

/-- Instance: an Info object with a contact. -/
def infoDoc : Json := .obj [(s% "title", .str (s% "t")), (s% "version", .str (s% "1")),
  (s% "contact", .obj [(s% "name", .str (s% "me"))])]

theorem infoDoc_clean : Clean pkg (.cls (s% "v2_0.Info")) infoDoc := by
  have hch : (pkg (s% "v2_0.Info")).children =
      [(s% "contact", ⟨.cls (s% "v2_0.Contact"), false⟩), (s% "license", ⟨.cls (s% "v2_0.License"), false⟩)] := by
    decide +kernel
  have hcontact : Clean pkg (.cls (s% "v2_0.Contact")) (.obj [(s% "name", .str (s% "me"))]) := by
    have hc : (pkg (s% "v2_0.Contact")).children = [] := by decide +kernel
    refine Clean.cls (by decide) (by simp [hc]) (by simp [hc]) (by simp [hc]) ?_
    intro k v hv _
    simp only [Dict.get?_cons, Dict.get?_nil] at hv
    split at hv
    · rename_i hk; subst hk; cases hv; exact ⟨by simp, _, rfl, rfl⟩
    · simp at hv
  refine Clean.cls (by decide) ?_ ?_ ?_ ?_
  · intro k cd hm hr
    rw [hch] at hm
    simp only [List.mem_cons, Prod.mk.injEq, List.not_mem_nil, or_false] at hm
    rcases hm with ⟨_, rfl⟩ | ⟨_, rfl⟩ <;> simp at hr
  · intro k cd v hc hv
    rw [hch] at hc
    simp only [Dict.get?_cons, Dict.get?_nil] at hc
    split at hc
    · cases hc; rename_i hk; subst hk
      cases hv
      refine ⟨by simp, ?_⟩
      intro h; cases h
    · split at hc
      · rename_i hk; subst hk; simp [Dict.get?_cons] at hv
      · simp at hc
  · intro k cd v hc hv
    rw [hch] at hc
    simp only [Dict.get?_cons, Dict.get?_nil] at hc
    split at hc
    · cases hc; rename_i hk; subst hk
      cases hv
      exact hcontact
    · split at hc
      · rename_i hk; subst hk; simp [Dict.get?_cons] at hv
      · simp at hc
  · intro k v hv hn
    simp only [Dict.get?_cons, Dict.get?_nil] at hv
    split at hv
    · rename_i hk; subst hk; cases hv; exact ⟨by simp, _, rfl, rfl⟩
    · split at hv
      · rename_i hk; subst hk; cases hv; exact ⟨by simp, _, rfl, rfl⟩
      · split at hv
        · rename_i hk; subst hk; rw [hch] at hn; simp [Dict.get?_cons] at hn
        · simp at hv

example : ∃ o j', build pkg (.cls (s% "v2_0.Info")) infoDoc none [] = .ok o ∧
    Obj.dump pkg o = .ok j' ∧ JEq infoDoc j' := C22_dump_lossless_pkg none infoDoc_clean

/-- C22: what a dump has under the name of a declared child, for any loaded document: the dump of
the child, when the child is there and is neither empty nor `null`. -/
theorem C22_dump_child (hT : OkTable T) {c : Str} {d d' : Dict Json} {p : Option Str} {o : Obj}
    (hb : build T (.cls c) (.obj d) p [] = .ok o) (hd : Obj.dump T o = .ok (.obj d'))
    {k : Str} {cd : ChildDef} (hk : Dict.get? (T c).children k = some cd) (v' : Json) :
    Dict.get? d' k = some v' ↔ ∃ v oc, Dict.get? d k = some v ∧ v ≠ .null ∧
      build T cd.builder v (some (jpCompose [k] p)) [] = .ok oc ∧ oc.truthy = true ∧
      Obj.dump T oc = .ok v' := by
  obtain ⟨cs, fs, kids, _, hj, _, _, _, hget, _, _⟩ := dump_cls_get (hT.cls c) hb hd
  cases hj
  have hnf := Dict.get?_eq_none_iff.2 ((hT.cls c).disj k (List.mem_map.2 ⟨_, Dict.mem_of_get? hk, rfl⟩))
  rw [hget, hk, hnf]
  simp only [Option.bind_some, Option.bind_none, Option.or_none, Option.bind_eq_some_iff, kept_some]
  constructor
  · rintro ⟨oc, hoc, hdk⟩
    obtain ⟨d0, v, hd0, hv, hvn, hbv⟩ := kid_some.1 hoc
    cases hd0
    obtain ⟨h1, h2⟩ := dk_some.1 hdk
    exact ⟨v, oc, hv, hvn, hbv, h1, h2⟩
  · rintro ⟨v, oc, hv, hvn, hbv, h1, h2⟩
    exact ⟨oc, kid_some.2 ⟨d, v, rfl, hv, hvn, hbv⟩, dk_some.2 ⟨h1, h2⟩⟩

/-- C22: what a dump has under the name of a declared field: the value in the document, unless it is
`null`. -/
theorem C22_dump_field (hT : OkTable T) {c : Str} {d d' : Dict Json} {p : Option Str} {o : Obj}
    (hb : build T (.cls c) (.obj d) p [] = .ok o) (hd : Obj.dump T o = .ok (.obj d'))
    {k : Str} {fd : FieldDef} (hk : Dict.get? (T c).fields k = some fd) (v : Json) :
    Dict.get? d' k = some v ↔ Dict.get? d k = some v ∧ v ≠ .null := by
  obtain ⟨cs, fs, kids, _, hj, _, _, hfs, hget, hsub, _⟩ := dump_cls_get (hT.cls c) hb hd
  cases hj
  have hc := hT.cls c
  have hkf : k ∈ Dict.keys (T c).fields := List.mem_map.2 ⟨_, Dict.mem_of_get? hk, rfl⟩
  have hnc : k ∉ Dict.keys (T c).children := fun h => hc.disj k h hkf
  rw [hget, hk, Dict.get?_eq_none_iff.2 hnc]
  simp only [Option.bind_some, Option.bind_none, Option.none_or, kept_some]
  constructor
  · intro h
    obtain ⟨_, _, h3, d0, hd0, h4⟩ := dumpField_some h
    cases hd0
    exact ⟨h4, h3⟩
  · rintro ⟨h1, h2⟩
    obtain ⟨r, hr⟩ := (Dict.collect_iff.1 hfs).1 (k, fd) (Dict.mem_of_get? hk)
    have hh : Dict.has cs k = false := by
      cases hh : Dict.has cs k with
      | false => rfl
      | true => exact absurd (hsub k (Dict.has_iff.1 hh)) hnc
    cases hres : fd.restricted with
    | false => exact dumpField_set hh hres h1 h2
    | true =>
      rw [Obj.dumpField, hh] at hr
      simp [specHas, Dict.has, h1, Obj.readField, specGet, hres, bind, Except.bind] at hr

/-- C22: a dump has nothing but declared names. -/
theorem C22_dump_declared (hT : OkTable T) {c : Str} {j : Json} {d' : Dict Json} {p : Option Str} {o : Obj}
    (hb : build T (.cls c) j p [] = .ok o) (hd : Obj.dump T o = .ok (.obj d')) {k : Str} {v : Json}
    (h : Dict.get? d' k = some v) : k ∈ Dict.keys (T c).children ∨ k ∈ Dict.keys (T c).fields := by
  obtain ⟨cs, fs, kids, _, hj, _, _, _, _, hsub, hsubf⟩ := dump_cls_get (hT.cls c) hb hd
  cases hj
  rcases List.mem_append.1 (Dict.mem_of_get? h) with hm | hm
  · exact Or.inl (hsub k (List.mem_map.2 ⟨_, hm, rfl⟩))
  · exact Or.inr (hsubf k (List.mem_map.2 ⟨_, hm, rfl⟩))

/-! ## C23: when a dump can be loaded again -/

/-- A child that is not hidden is truthy once loaded. -/
theorem truthy_of_not_hidden {b : Builder} {v : Json} {p : Option Str} {o : Obj}
    (hc : childBuilder T b = true) (hh : ¬ Hidden b v) (hb : build T b v p [] = .ok o) :
    o.truthy = true := by
  have hcls : ∀ c, build T (.cls c) v p [] = .ok o → o.truthy = true := by
    intro c h
    rw [build_cls] at h
    split at h
    · simp at h
    · simp only [Except.ok.injEq] at h; subst h; rfl
  have hrefcls : ∀ r c, build T (.ifNotRef r (.cls c)) v p [] = .ok o → o.truthy = true := by
    intro r c h
    rw [build_ifNotRef] at h
    split at h
    · simp at h
    · exact hcls _ h
    · exact hcls _ h
  unfold childBuilder at hc
  split at hc
  · exact hcls _ hb
  · rename_i b
    by_cases hj : ∃ l, v = .arr l
    · obtain ⟨l, rfl⟩ := hj
      rw [build_list] at hb
      split at hb
      · simp at hb
      · rename_i es hes
        simp only [Except.ok.injEq] at hb
        subst hb
        have hf := buildElems_forall₂ hes
        simp only [Obj.truthy, Bool.not_eq_true', List.isEmpty_eq_false_iff]
        rintro rfl
        cases hf
        exact hh Hidden.list
    · rw [build_list_other b v p (fun l hl => hj ⟨l, hl⟩)] at hb; simp at hb
  · rename_i b
    by_cases hj : ∃ l, v = .obj l
    · obtain ⟨l, rfl⟩ := hj
      rw [build_map] at hb
      split at hb
      · simp at hb
      · rename_i es hes
        simp only [Except.ok.injEq] at hb
        subst hb
        have hf := buildItems_forall₂ hes
        simp only [Obj.truthy, Bool.not_eq_true', List.isEmpty_eq_false_iff]
        rintro rfl
        cases hf
        exact hh Hidden.map
    · rw [build_map_other b v p (fun l hl => hj ⟨l, hl⟩)] at hb; simp at hb
  · exact hrefcls _ _ hb
  · rw [build_ifNotBool] at hb
    split at hb
    · rename_i h
      obtain ⟨x, rfl⟩ := isBool_iff.1 h
      exact absurd Hidden.bool hh
    · exact hcls _ hb
  · rw [build_ifNotBool] at hb
    split at hb
    · rename_i h
      obtain ⟨x, rfl⟩ := isBool_iff.1 h
      exact absurd Hidden.bool hh
    · exact hrefcls _ _ hb
  · simp at hc

theorem reload_shaped (hT : OkTable T) {b : Builder} {j : Json} (h : Keeps T b j) :
    okBuilder T b = true → ∀ p o j', build T b j p [] = .ok o → Obj.dump T o = .ok j' → Shaped T b j' := by
  induction h with
  | @clsObj c d hreq hkeep ih =>
    intro _ p o j' hb hd
    obtain ⟨cs, fs, kids, rfl, rfl, hk, hcs, _, _, _, _⟩ := dump_cls_get (hT.cls c) hb hd
    have hc := hT.cls c
    refine Shaped.clsObj ?_ ?_
    · intro k cd hm hr
      obtain ⟨v, hv, hvn, hvh⟩ := hreq k cd hm hr
      obtain ⟨okid, hokid⟩ := (Dict.collect_iff.1 hk).1 (k, cd) hm
      cases okid with
      | none =>
        rcases kid_none.1 hokid with ⟨h2, _⟩ | h2
        · rw [specGet_obj, hv] at h2; simp at h2
        · rw [specGet_obj, hv] at h2; simp at h2; exact absurd h2 hvn
      | some oc =>
        obtain ⟨d0, v0, hd0, hv0, _, hbv⟩ := kid_some.1 hokid
        cases hd0
        rw [hv] at hv0
        cases hv0
        have ht := truthy_of_not_hidden (hc.child k cd hm) hvh hbv
        have hmem : (k, oc) ∈ kids := by
          rw [(Dict.collect_iff.1 hk).2]
          refine List.mem_filterMap.2 ⟨(k, cd), hm, ?_⟩
          have : Dict.kept (fun k cd => buildKid T k cd (.obj d) p []) k cd = some oc := kept_some.2 hokid
          simp [this]
        obtain ⟨od, hod⟩ := (Dict.collect_iff.1 hcs).1 _ hmem
        have : ∃ v', Obj.dump T oc = .ok v' := by
          cases hdo : Obj.dump T oc with
          | ok v' => exact ⟨v', rfl⟩
          | error e => simp [dk, ht, hdo, Except.map] at hod
        obtain ⟨v', hv'⟩ := this
        intro hn
        have := (C22_dump_child hT hb hd (Dict.get?_of_mem hc.children hm) v').2
          ⟨v, oc, hv, hvn, hbv, ht, hv'⟩
        rw [hn] at this; simp at this
    · intro k cd v' hm hv' _
      obtain ⟨v, oc, hv, hvn, hbv, _, hdv⟩ :=
        (C22_dump_child hT hb hd (Dict.get?_of_mem hc.children hm) v').1 hv'
      exact ih k cd v hm hv hvn (childBuilder_ok (hc.child k cd hm)) _ _ _ hbv hdv
  | @clsOther c j hj =>
    intro _ p o j' hb hd
    obtain ⟨cs, fs, kids, rfl, rfl, hk, hcs, _, hget, hsub, _⟩ := dump_cls_get (hT.cls c) hb hd
    have hc := hT.cls c
    refine Shaped.clsObj ?_ ?_
    · intro k cd hm hr
      obtain ⟨okid, hokid⟩ := (Dict.collect_iff.1 hk).1 (k, cd) hm
      cases okid with
      | none =>
        rcases kid_none.1 hokid with ⟨_, h2⟩ | h2
        · rw [hr] at h2; simp at h2
        · obtain ⟨d, hd, _⟩ := specGet_some.1 h2; exact absurd hd (hj d)
      | some oc =>
        obtain ⟨d0, _, hd0, _⟩ := kid_some.1 hokid; exact absurd hd0 (hj d0)
    · intro k cd v' hm hv' _
      rw [hget, Dict.get?_of_mem hc.children hm,
        Dict.get?_eq_none_iff.2 (hc.disj k (List.mem_map.2 ⟨_, hm, rfl⟩))] at hv'
      simp only [Option.bind_some, Option.bind_none, Option.or_none, Option.bind_eq_some_iff, kept_some] at hv'
      obtain ⟨oc, hoc, _⟩ := hv'
      obtain ⟨d0, _, hd0, _⟩ := kid_some.1 hoc; exact absurd hd0 (hj d0)
  | isStr => intro _ p o j' hb hd; rw [build_prim (b := .isStr) rfl hb] at hd; simp [Obj.dump] at hd
  | isStrOrInt => intro _ p o j' hb hd; rw [build_prim (b := .isStrOrInt) rfl hb] at hd; simp [Obj.dump] at hd
  | @list b l _ ih =>
    intro hok p o j' hb hd
    obtain ⟨hokb, hkind⟩ := elem_kind hok
    have hb0 := hb
    rw [build_list] at hb
    split at hb
    · simp at hb
    · rename_i es hes
      simp only [Except.ok.injEq] at hb
      subst hb
      have hf := buildElems_forall₂ hes
      rcases buildElems_kind hkind hes with ⟨hob, hnp⟩ | ⟨hpb, hprim⟩
      · rw [dump_list_obj b p _ hnp] at hd
        split at hd
        · simp at hd
        · rename_i r hr
          simp only [Except.ok.injEq] at hd
          subst hd
          refine Shaped.list ?_
          intro y hy
          obtain ⟨o, ho, hoy⟩ := forall₂_mem_right (dumpList_iff.1 hr) hy
          obtain ⟨x, hx, q, hq⟩ := forall₂_mem_right hf ho
          exact ih x hx hokb q o y hq hoy
      · subst hprim
        rw [dump_list_prim] at hd
        cases hd
        exact (C21_build_iff_shaped _ _ p).1 ⟨_, hb0⟩
  | @map b d _ ih =>
    intro hok p o j' hb hd
    obtain ⟨hokb, hkind⟩ := item_kind hok
    rw [build_map] at hb
    split at hb
    · simp at hb
    · rename_i es hes
      simp only [Except.ok.injEq] at hb
      subst hb
      have hf := buildItems_forall₂ hes
      rw [dump_map] at hd
      split at hd
      · simp at hd
      · rename_i r hr
        simp only [Except.ok.injEq] at hd
        subst hd
        refine Shaped.map ?_
        intro k y hy
        obtain ⟨o, ho, _, hoy⟩ := forall₂_mem_right (Dict.mapM_ok hr) hy
        obtain ⟨x, hx, _, q, hq⟩ := forall₂_mem_right hf ho
        rcases hkind with hob | hpb
        · rw [dumpElem_obj (build_isPrim hob hq)] at hoy
          exact ih x.1 x.2 hx hokb q o.2 y hq hoy
        · rw [build_prim hpb hq] at hoy
          cases hoy
          exact (C21_build_iff_shaped _ _ q).1 ⟨_, hq⟩
  | @ref r b d v hv hvn =>
    intro hok p o j' hb hd
    simp only [okBuilder, Bool.and_eq_true] at hok
    have href := hok.1.1
    simp only [refClass, Bool.and_eq_true, List.isEmpty_iff] at href
    obtain ⟨hch, hfd⟩ := href
    have hw : specHas (.obj d) (s% "$ref") = .ok true := by simp [specHas, Dict.has, hv]
    rw [build_ifNotRef, hw] at hb
    simp only at hb
    obtain ⟨cs, fs, kids, _, rfl, _⟩ := dump_cls_get (hT.cls r) hb hd
    refine Shaped.ref ?_ (Shaped.clsLeaf hch)
    split at hfd
    · rename_i k fd hfe
      simp only [Bool.and_eq_true, beq_iff_eq] at hfd
      refine ⟨v, (C22_dump_field hT hb hd (k := s% "$ref") (fd := fd) ?_ v).2 ⟨hv, hvn⟩⟩
      rw [hfe, hfd.1]; simp [Dict.get?_cons]
    · simp at hfd
  | @notRef r b j hw _ ih =>
    intro hok p o j' hb hd
    simp only [okBuilder, Bool.and_eq_true] at hok
    rw [build_ifNotRef] at hb
    split at hb
    · simp at hb
    · rename_i h; exact absurd (specHas_true.1 h) hw
    · obtain ⟨d', rfl, hd'⟩ := dump_noref hT hok.2 hw hb hd
      refine Shaped.notRef trivial ?_ (ih hok.1.2 p o _ hb hd)
      rintro ⟨v, hv⟩
      rw [hd'] at hv; simp at hv
  | @notBool b j _ ih =>
    intro hok p o j' hb hd
    simp only [okBuilder, Bool.and_eq_true] at hok
    rw [build_ifNotBool] at hb
    split at hb
    · simp only [Except.ok.injEq] at hb; subst hb; simp [Obj.dump] at hd
    · refine Shaped.notBool ?_ (ih hok.1 p o j' hb hd)
      rcases dump_kind hd with ⟨l, rfl⟩ | ⟨d, rfl⟩ <;> simp

/-- C23: if no required child is `null`, empty or a bool, and no `$ref` is `null`, the dump of a loaded
document can be loaded, and dumping that gives exactly the same dump. -/
theorem C23_reload (hT : OkTable T) {b : Builder} (hb : okBuilder T b = true) {j j' : Json}
    {p : Option Str} (p' : Option Str) {o : Obj} (hk : Keeps T b j)
    (h1 : build T b j p [] = .ok o) (h2 : Obj.dump T o = .ok j') :
    ∃ o', build T b j' p' [] = .ok o' ∧ Obj.dump T o' = .ok j' := by
  obtain ⟨o', ho'⟩ := (C21_build_iff_shaped b j' p').2 (reload_shaped hT hk hb p o j' h1 h2)
  exact ⟨o', ho', C23_dump_load_fixpoint hT hb h1 h2 ho'⟩

/-- C23 (deviation): a request body with an empty `content` map loads, but its dump does not. -/
theorem C23_required_empty_lost :
    ∃ o j', build pkg (.cls (s% "v3_0_0.RequestBody")) (.obj [(s% "content", .obj [])]) none [] = .ok o ∧
      Obj.dump pkg o = .ok j' ∧
      ∀ o', build pkg (.cls (s% "v3_0_0.RequestBody")) j' none [] ≠ .ok o' := by
  have h : (build pkg (.cls (s% "v3_0_0.RequestBody")) (.obj [(s% "content", .obj [])]) none []).bind
      (Obj.dump pkg) = .ok (.obj []) := by decide +kernel
  cases hb : build pkg (.cls (s% "v3_0_0.RequestBody")) (.obj [(s% "content", .obj [])]) none [] with
  | error e => rw [hb] at h; simp [Except.bind] at h
  | ok o =>
    rw [hb] at h
    refine ⟨o, .obj [], rfl, h, ?_⟩
    intro o' ho'
    have : (build pkg (.cls (s% "v3_0_0.RequestBody")) (.obj []) none []).isOk = false := by decide +kernel
    rw [ho'] at this
    simp [Except.isOk, Except.toBool] at this

/-- Instance of `C23_reload`: a request body with a media type. -/
example : Keeps pkg (.cls (s% "v3_0_0.RequestBody"))
    (.obj [(s% "content", .obj [(s% "text/plain", .obj [])])]) := by
  have hch : (pkg (s% "v3_0_0.RequestBody")).children =
      [(s% "content", ⟨.mapOf (.cls (s% "v3_0_0.MediaType")), true⟩)] := by decide +kernel
  have hmt : (pkg (s% "v3_0_0.MediaType")).children.all (fun p => !p.2.required) = true := by decide +kernel
  refine Keeps.clsObj ?_ ?_
  · intro k cd hm _
    rw [hch] at hm
    simp only [List.mem_singleton, Prod.mk.injEq] at hm
    obtain ⟨rfl, rfl⟩ := hm
    exact ⟨_, rfl, by simp, by intro h; cases h⟩
  · intro k cd v hm hv _
    rw [hch] at hm
    simp only [List.mem_singleton, Prod.mk.injEq] at hm
    obtain ⟨rfl, rfl⟩ := hm
    cases hv
    refine Keeps.map ?_
    intro k x hx
    simp only [List.mem_singleton, Prod.mk.injEq] at hx
    obtain ⟨rfl, rfl⟩ := hx
    refine Keeps.clsObj ?_ (by simp)
    intro k cd hm hr
    have := List.all_eq_true.1 hmt _ hm
    rw [hr] at this
    simp at this

/-! ## C24 -/

/-- C24 (deviation): `additionalProperties: false` is dropped by a dump, whatever else the schema
says. -/
theorem C24_false_dropped (hT : OkTable T) {c : Str} {d d' : Dict Json} {p : Option Str} {o : Obj}
    (hb : build T (.cls c) (.obj d) p [] = .ok o) (hd : Obj.dump T o = .ok (.obj d')) {k : Str}
    {cd : ChildDef} {b : Builder} (hk : Dict.get? (T c).children k = some cd)
    (hcd : cd.builder = .ifNotBool b) (hf : Dict.get? d k = some (.bool false)) :
    Dict.get? d' k = none := by
  cases hg : Dict.get? d' k with
  | none => rfl
  | some v' =>
    obtain ⟨v, oc, hv, _, hbv, ht, _⟩ := (C22_dump_child hT hb hd hk v').1 hg
    rw [hf] at hv
    cases hv
    rw [hcd, build_ifNotBool] at hbv
    simp only [isBool, if_true, Except.ok.injEq] at hbv
    subst hbv
    simp [Obj.truthy, Json.truthy] at ht

/-- C24 (deviation): with `additionalProperties: true` the dump raises. -/
theorem C24_true_raises (hT : OkTable T) {c : Str} {d : Dict Json} {p : Option Str} {o : Obj}
    (hb : build T (.cls c) (.obj d) p [] = .ok o) {k : Str}
    {cd : ChildDef} {b : Builder} (hk : Dict.get? (T c).children k = some cd)
    (hcd : cd.builder = .ifNotBool b) (hf : Dict.get? d k = some (.bool true)) (j' : Json) :
    Obj.dump T o ≠ .ok j' := by
  intro hd
  obtain ⟨cs, fs, kids, rfl, rfl, hkids, hcs, _⟩ := dump_cls_get (hT.cls c) hb hd
  have hm := Dict.mem_of_get? hk
  have hkid : buildKid T k cd (.obj d) p [] = .ok (some (.prim (.bool true))) :=
    kid_some.2 ⟨d, _, rfl, hf, by simp, by rw [hcd, build_ifNotBool]; rfl⟩
  have hmem : (k, Obj.prim (.bool true)) ∈ kids := by
    rw [(Dict.collect_iff.1 hkids).2]
    refine List.mem_filterMap.2 ⟨(k, cd), hm, ?_⟩
    have : Dict.kept (fun k cd => buildKid T k cd (.obj d) p []) k cd = some (.prim (.bool true)) :=
      kept_some.2 hkid
    simp [this]
  obtain ⟨od, hod⟩ := (Dict.collect_iff.1 hcs).1 _ hmem
  simp [dk, Obj.truthy, Json.truthy, Obj.dump, Except.map] at hod

/-- C24 (the part that holds): an object-valued `additionalProperties` is in the dump, as the dump of
the schema it is; what is missing from the property is the two boolean values, see
`C24_false_dropped` and `C24_true_raises`. -/
theorem C24_object_kept_partial (hT : OkTable T) {c : Str} {d d' e : Dict Json} {p : Option Str} {o : Obj}
    (hb : build T (.cls c) (.obj d) p [] = .ok o) (hd : Obj.dump T o = .ok (.obj d')) {k : Str}
    {cd : ChildDef} {b : Builder} (hk : Dict.get? (T c).children k = some cd)
    (hcd : cd.builder = .ifNotBool b) (hf : Dict.get? d k = some (.obj e)) :
    ∃ v' oc, Dict.get? d' k = some v' ∧ build T b (.obj e) (some (jpCompose [k] p)) [] = .ok oc ∧
      Obj.dump T oc = .ok v' := by
  obtain ⟨cs, fs, kids, rfl, hj, hkids, hcs, _⟩ := dump_cls_get (hT.cls c) hb hd
  cases hj
  have hm := Dict.mem_of_get? hk
  obtain ⟨okid, hokid⟩ := (Dict.collect_iff.1 hkids).1 (k, cd) hm
  cases okid with
  | none =>
    rcases kid_none.1 hokid with ⟨h2, _⟩ | h2
    · rw [specGet_obj, hf] at h2; simp at h2
    · rw [specGet_obj, hf] at h2; simp at h2
  | some oc =>
    obtain ⟨d0, v0, hd0, hv0, _, hbv⟩ := kid_some.1 hokid
    cases hd0
    rw [hf] at hv0
    cases hv0
    have hcb := (hT.cls c).child k cd hm
    have ht := truthy_of_not_hidden hcb (by
      intro h
      rw [hcd] at h hcb
      cases h with
      | notBool h =>
        cases b <;> simp [childBuilder] at hcb
        · cases h
        · rename_i r b
          cases b <;> simp at hcb
          cases h with
          | notRef _ h => cases h) hbv
    have hmem : (k, oc) ∈ kids := by
      rw [(Dict.collect_iff.1 hkids).2]
      refine List.mem_filterMap.2 ⟨(k, cd), hm, ?_⟩
      have : Dict.kept (fun k cd => buildKid T k cd (.obj d) p []) k cd = some oc := kept_some.2 hokid
      simp [this]
    obtain ⟨od, hod⟩ := (Dict.collect_iff.1 hcs).1 _ hmem
    have : ∃ v', Obj.dump T oc = .ok v' := by
      cases hdo : Obj.dump T oc with
      | ok v' => exact ⟨v', rfl⟩
      | error e => simp [dk, ht, hdo, Except.map] at hod
    obtain ⟨v', hv'⟩ := this
    refine ⟨v', oc, (C22_dump_child hT hb hd hk v').2 ⟨_, oc, hf, by simp, hbv, ht, hv'⟩, ?_, hv'⟩
    rw [hcd, build_ifNotBool] at hbv
    simpa [isBool] using hbv

/-- Instance: `additionalProperties` is such a child of the schemas of both versions. -/
example : (Dict.get? (pkg (s% "v2_0.Schema")).children (s% "additionalProperties")).map (·.builder) =
      some (.ifNotBool (.cls (s% "v2_0.Schema"))) ∧
    (build pkg (.cls (s% "v2_0.Schema")) (.obj [(s% "type", .str (s% "object")),
        (s% "additionalProperties", .bool false)]) none []).bind (Obj.dump pkg) =
      .ok (.obj [(s% "type", .str (s% "object"))]) ∧
    (build pkg (.cls (s% "v2_0.Schema")) (.obj [(s% "additionalProperties", .bool true)]) none []).bind
      (Obj.dump pkg) = .error .attributeError := by
  decide +kernel

end Pyopenapi
