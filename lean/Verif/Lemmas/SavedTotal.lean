import Verif.Spec.Saved
import Verif.Lemmas.Saved
import Verif.Props.Load

/-!
# The dump of a rewritten object exists, and can be loaded
-/

namespace Pyopenapi
open Spec Obj

variable {f : Obj → Option Str}

theorem Spec.Whole.inside {o m : Obj} (h : Whole o) (hm : ∀ a, Inside m a → Inside o a) : Whole m :=
  fun c p s kids hi => h c p s kids (hm _ hi)

theorem dumpField_total {d : Dict Json} {cs : Dict Json} {k : Str} {fd : FieldDef} (h : fd.restricted = true → Dict.get? d k = none) :
    ∃ w, Obj.dumpField (.obj d) cs k fd = .ok w := by
  unfold Obj.dumpField
  split
  · exact ⟨_, rfl⟩
  · cases hg : Dict.get? d k with
    | none => exact ⟨none, by simp [specHas, Dict.has, hg, bind, Except.bind]⟩
    | some v =>
      have hr : fd.restricted = false := by
        cases hr : fd.restricted with
        | false => rfl
        | true => rw [h hr] at hg; cases hg
      by_cases hv : v = .null
      · exact ⟨none, by simp [specHas, Dict.has, hg, bind, Except.bind, Obj.readField, specGet, hr, hv]⟩
      · exact ⟨some v, by simp [specHas, Dict.has, hg, bind, Except.bind, Obj.readField, specGet, hr, hv]⟩

/-- `$ref` can be read everywhere. -/
theorem ref_unrestricted {c : Str} {fd : FieldDef} (h : (s% "$ref", fd) ∈ (pkg c).fields) : fd.restricted = false := by
  have key : ∀ x ∈ classes, (x.2.fields.all fun q => !(q.1 == s% "$ref") || !q.2.restricted) = true := by decide +kernel
  cases hg : Dict.get? classes c with
  | none =>
    unfold pkg at h
    rw [hg] at h
    cases h
  | some cd =>
    have h2 : (s% "$ref", fd) ∈ cd.fields := by
      unfold pkg at h
      rw [hg] at h
      exact h
    have := List.all_eq_true.1 (key _ (Dict.mem_of_get? hg)) _ h2
    simpa using this

theorem total_cls (c : Str) (j : Json) (ih : ∀ b v, sizeOf v < sizeOf j → okBuilder pkg b = true → ∀ (p : Option Str) (o : Obj),
      build pkg b v p [] = .ok o → Rewritable f o → Whole o → o.isPrim = false → ∃ j', Obj.dump pkg (rewritten f o) = .ok j' ∧ Shaped pkg b j')
    (p : Option Str) (o : Obj) (hb : build pkg (.cls c) j p [] = .ok o) (hr : Rewritable f o) (hw : Whole o) :
    ∃ j', Obj.dump pkg (rewritten f o) = .ok j' ∧ Shaped pkg (.cls c) j' := by
  have hb0 := hb
  have hc := okTable_pkg.cls c
  rw [build_cls] at hb
  split at hb
  · simp at hb
  · rename_i kids hk
    simp only [Except.ok.injEq] at hb
    subst hb
    obtain ⟨d, rfl, hreq, hprim, hfd⟩ := hw _ _ _ _ (.here _)
    have kid : ∀ k y, (k, y) ∈ kids → y.truthy = true → ∃ cd v, (k, cd) ∈ (pkg c).children ∧
        ∃ j', Obj.dump pkg (rewritten f y) = .ok j' ∧ Dict.get? d k = some v ∧ Shaped pkg cd.builder j' := by
      intro k y hm ht
      have hin : ∀ a, Inside y a → Inside (.base c p (.obj d) kids) a := fun a ha => .child hm ha
      have hm2 := hm
      rw [(Dict.collect_iff.1 hk).2] at hm2
      obtain ⟨⟨k', cd⟩, hcd, he⟩ := List.mem_filterMap.1 hm2
      obtain ⟨y', hy', he⟩ := Option.map_eq_some_iff.1 he
      cases he
      obtain ⟨d0, v, hd0, hv, _, hbv⟩ := kid_some.1 (kept_some.1 hy')
      cases hd0
      have hnp : y.isPrim = false := by
        cases y with
        | prim j => rw [show (Obj.prim j).truthy = j.truthy from rfl, hprim _ _ hm] at ht; cases ht
        | _ => rfl
      obtain ⟨j', h1, h2⟩ := ih cd.builder v (size_get hv) (childBuilder_ok (hc.child _ cd hcd)) _ _ hbv (hr.inside hin) (hw.inside hin) hnp
      exact ⟨cd, v, hcd, j', h1, hv, h2⟩
    have hdump : ∃ j', Obj.dump pkg (rewritten f (.base c p (.obj d) kids)) = .ok j' := by
      rw [rewritten, dump_base, dumpKids_eq]
      have h1 : ∃ cs, Dict.collect (dk pkg) (rewrittenD f kids) = .ok cs := by
        refine ⟨_, Dict.collect_iff.2 ⟨?_, rfl⟩⟩
        rintro ⟨k, y⟩ hy
        rw [rewrittenD_eq] at hy
        obtain ⟨⟨k', z⟩, hz, he⟩ := List.mem_map.1 hy
        cases he
        unfold dk
        dsimp only
        by_cases ht : z.truthy = true
        · obtain ⟨_, _, _, j', hj', _⟩ := kid _ _ hz ht
          exact ⟨some j', by rw [if_pos (by rw [rewritten_truthy]; exact ht), hj']; rfl⟩
        · exact ⟨none, by rw [if_neg (by rw [rewritten_truthy]; exact ht)]⟩
      obtain ⟨cs, hcs⟩ := h1
      have hcs' : Dict.collect (fun _ o => if o.truthy then (Obj.dump pkg o).map some else .ok none) (rewrittenD f kids) = .ok cs := hcs
      rw [hcs']
      dsimp only
      have hput : ∃ d', putRef (f (.base c p (.obj d) kids)) (.obj d) = .obj d' ∧ ∀ k, k ≠ s% "$ref" → Dict.get? d' k = Dict.get? d k := by
        cases f (.base c p (.obj d) kids) with
        | none => exact ⟨d, rfl, fun _ _ => rfl⟩
        | some r => exact ⟨_, rfl, fun k hk => Dict.get?_set_ne _ _ (fun e => hk e.symm)⟩
      obtain ⟨d', hd', hget⟩ := hput
      rw [hd']
      have h2 : ∃ fs, Dict.collect (Obj.dumpField (.obj d') cs) (pkg c).fields = .ok fs := by
        refine ⟨_, Dict.collect_iff.2 ⟨?_, rfl⟩⟩
        rintro ⟨k, fd⟩ hm
        refine dumpField_total fun hres => ?_
        by_cases hk : k = s% "$ref"
        · subst hk
          rw [ref_unrestricted hm] at hres; cases hres
        · rw [hget k hk]; exact hfd k fd hm hres
      obtain ⟨fs, hfs⟩ := h2
      rw [hfs]
      exact ⟨_, rfl⟩
    obtain ⟨j', hj'⟩ := hdump
    refine ⟨j', hj', ?_⟩
    obtain ⟨kids', d', he, rfl, _, hk', hkid, _, _, _⟩ := dump_rewritten hb0 hr hj'
    cases he
    refine Shaped.clsObj ?_ ?_
    · intro k cd hm hrq
      obtain ⟨y, hy, ht⟩ := hreq k cd hm hrq
      obtain ⟨_, _, _, v', hv', _⟩ := kid _ _ (Dict.mem_of_get? hy) ht
      rw [hkid k cd hm, hy]
      intro hn
      have : Dict.kept (dk pkg) k (rewritten f y) = some v' := kept_some.2 (dk_some.2 ⟨by rw [rewritten_truthy]; exact ht, hv'⟩)
      simp only [Option.map_some, Option.bind_some, this] at hn
      cases hn
    · intro k cd v' hm hv' _
      rw [hkid k cd hm] at hv'
      obtain ⟨z, hz, hz2⟩ := Option.bind_eq_some_iff.1 hv'
      obtain ⟨y, hy, rfl⟩ := Option.map_eq_some_iff.1 hz
      obtain ⟨ht, hdv⟩ := dk_some.1 (kept_some.1 hz2)
      obtain ⟨cd', _, hm', j', h1, _, h2⟩ := kid _ _ (Dict.mem_of_get? hy) (by rw [← rewritten_truthy (f := f)]; exact ht)
      have e1 := Dict.get?_of_mem hc.children hm
      have e2 := Dict.get?_of_mem hc.children hm'
      rw [e1] at e2
      cases e2
      rw [h1] at hdv
      cases hdv
      exact h2

theorem total_elems {b : Builder} {l : List Json} (hob : objBuilder b = true)
    (ih : ∀ v, v ∈ l → ∀ (p : Option Str) (o : Obj),
      build pkg b v p [] = .ok o → Rewritable f o → Whole o → o.isPrim = false → ∃ j', Obj.dump pkg (rewritten f o) = .ok j' ∧ Shaped pkg b j')
    {es : List Obj} (hf : List.Forall₂ (fun x o => ∃ q, build pkg b x q [] = .ok o) l es)
    (hr : ∀ o ∈ es, Rewritable f o) (hw : ∀ o ∈ es, Whole o) :
    ∃ r, List.Forall₂ (fun o j => Obj.dump pkg o = .ok j) (es.map (rewritten f)) r ∧ ∀ y ∈ r, Shaped pkg b y := by
  induction hf with
  | nil => exact ⟨[], .nil, by simp⟩
  | @cons x o l es hxo _ ih2 =>
    obtain ⟨q, hq⟩ := hxo
    obtain ⟨j', h1, h2⟩ := ih x (by simp) q o hq (hr o (by simp)) (hw o (by simp)) (build_isPrim hob hq)
    obtain ⟨r, h3, h4⟩ := ih2 (fun v hv => ih v (List.mem_cons_of_mem _ hv)) (fun o ho => hr o (List.mem_cons_of_mem _ ho))
      (fun o ho => hw o (List.mem_cons_of_mem _ ho))
    refine ⟨j' :: r, .cons h1 h3, ?_⟩
    intro y hy
    rcases List.mem_cons.1 hy with rfl | hy
    · exact h2
    · exact h4 y hy

theorem mapM_ok_of {α β : Type} {g : Str → α → R β} {d : Dict α} (h : ∀ k x, (k, x) ∈ d → ∃ y, g k x = .ok y) : ∃ r, Dict.mapM g d = .ok r := by
  induction d with
  | nil => exact ⟨[], rfl⟩
  | cons p d ih =>
    obtain ⟨k, x⟩ := p
    obtain ⟨y, hy⟩ := h k x (by simp)
    obtain ⟨r, hr⟩ := ih fun k x hm => h k x (List.mem_cons_of_mem _ hm)
    exact ⟨(k, y) :: r, by simp [Dict.mapM, hy, hr, bind, Except.bind, pure, Except.pure]⟩

/-- The dump of a whole object, its references rewritten, exists, and can be loaded. -/
theorem total_of (b : Builder) (j : Json) : okBuilder pkg b = true → ∀ (p : Option Str) (o : Obj),
    build pkg b j p [] = .ok o → Rewritable f o → Whole o → o.isPrim = false → ∃ j', Obj.dump pkg (rewritten f o) = .ok j' ∧ Shaped pkg b j' := by
  refine build_ind (P := fun b j => okBuilder pkg b = true → ∀ (p : Option Str) (o : Obj),
    build pkg b j p [] = .ok o → Rewritable f o → Whole o → o.isPrim = false → ∃ j', Obj.dump pkg (rewritten f o) = .ok j' ∧ Shaped pkg b j')
    ?_ ?_ ?_ ?_ ?_ ?_ ?_ b j
  · intro c j ih _ p o hb hr hw _
    exact total_cls c j ih p o hb hr hw
  · intro j _ p o hb _ _ hn
    rw [build_prim (b := .isStr) rfl hb] at hn; cases hn
  · intro j _ p o hb _ _ hn
    rw [build_prim (b := .isStrOrInt) rfl hb] at hn; cases hn
  · intro b j ih hok p o hb hr hw _
    obtain ⟨hokb, hkind⟩ := elem_kind hok
    by_cases hj : ∃ l, j = .arr l
    · obtain ⟨l, rfl⟩ := hj
      have hb0 := hb
      rw [build_list] at hb
      split at hb
      · simp at hb
      · rename_i es hes
        simp only [Except.ok.injEq] at hb
        subst hb
        have hf := buildElems_forall₂ hes
        rw [rewritten, rewrittenL_eq]
        rcases buildElems_kind hkind hes with ⟨hob, hnp⟩ | ⟨hpb, hprim⟩
        · obtain ⟨r, h1, h2⟩ := total_elems (f := f) hob (fun v hv => ih v (size_elem hv) hokb) hf
            (fun o ho => hr.inside fun a ha => .elem ho ha) (fun o ho => hw.inside fun a ha => .elem ho ha)
          rw [dump_list_obj b p _ (by
            intro o ho
            obtain ⟨y, hy, rfl⟩ := List.mem_map.1 ho
            rw [rewritten_isPrim]; exact hnp y hy), dumpList_iff.2 h1]
          exact ⟨_, rfl, Shaped.list h2⟩
        · subst hprim
          have e : (l.map Obj.prim).map (rewritten f) = l.map Obj.prim := by
            rw [List.map_map]; apply List.map_congr_left; intro x _; simp [rewritten]
          rw [e, dump_list_prim]
          exact ⟨_, rfl, (C21_build_iff_shaped _ _ p).1 ⟨_, hb0⟩⟩
    · rw [build_list_other b j p (fun l hl => hj ⟨l, hl⟩)] at hb; simp at hb
  · intro b j ih hok p o hb hr hw _
    obtain ⟨hokb, hkind⟩ := item_kind hok
    by_cases hj : ∃ l, j = .obj l
    · obtain ⟨d, rfl⟩ := hj
      rw [build_map] at hb
      split at hb
      · simp at hb
      · rename_i es hes
        simp only [Except.ok.injEq] at hb
        subst hb
        have hf := buildItems_forall₂ hes
        have key : ∀ k y, (k, y) ∈ es → ∃ v, dumpElem pkg (rewritten f y) = .ok v ∧ Shaped pkg b v := by
          intro k y hy
          obtain ⟨x, hx, _, q, hq⟩ := forall₂_mem_right hf hy
          rcases hkind with hob | hpb
          · have hn := build_isPrim hob hq
            obtain ⟨v, h1, h2⟩ := ih x.2 (size_item (k := x.1) hx) hokb _ _ hq (hr.inside fun a ha => .item hy ha) (hw.inside fun a ha => .item hy ha) hn
            exact ⟨v, by rw [dumpElem_obj (by rw [rewritten_isPrim]; exact hn)]; exact h1, h2⟩
          · have e := build_prim hpb hq
            simp only at e
            subst e
            exact ⟨x.2, rfl, (C21_build_iff_shaped _ _ q).1 ⟨_, hq⟩⟩
        rw [rewritten, dump_map, rewrittenD_eq]
        have hm : ∃ r, Dict.mapM (fun _ o => dumpElem pkg o) (es.map fun q => (q.1, rewritten f q.2)) = .ok r := by
          refine mapM_ok_of ?_
          intro k z hz
          obtain ⟨⟨k', y⟩, hy, he⟩ := List.mem_map.1 hz
          cases he
          obtain ⟨v, hv, _⟩ := key _ _ hy
          exact ⟨v, hv⟩
        obtain ⟨r, hrr⟩ := hm
        rw [hrr]
        refine ⟨_, rfl, Shaped.map ?_⟩
        intro k v hv
        obtain ⟨⟨k1, z⟩, hz, _, hzv⟩ := forall₂_mem_right (Dict.mapM_ok hrr) hv
        obtain ⟨⟨k', y⟩, hy, he⟩ := List.mem_map.1 hz
        cases he
        obtain ⟨v', h1, h2⟩ := key _ _ hy
        rw [h1] at hzv
        cases hzv
        exact h2
    · rw [build_map_other b j p (fun l hl => hj ⟨l, hl⟩)] at hb; simp at hb
  · intro r b j ihr ihb hok p o hb hr hw hn
    simp only [okBuilder, Bool.and_eq_true] at hok
    obtain ⟨⟨href, hokb⟩, hbk⟩ := hok
    rw [build_ifNotRef] at hb
    split at hb
    · simp at hb
    · rename_i hws
      obtain ⟨j', hj', hs⟩ := ihr rfl _ _ hb hr hw hn
      refine ⟨j', hj', ?_⟩
      obtain ⟨kids, d', rfl, rfl, _, hk, _, hfield, _, _⟩ := dump_rewritten hb hr hj'
      obtain ⟨v, hv⟩ := hr _ _ _ _ (.here _) (.inl href)
      have hfd : ∃ fd, (s% "$ref", fd) ∈ (pkg r).fields := by
        simp only [refClass, Bool.and_eq_true] at href
        obtain ⟨_, hfd⟩ := href
        split at hfd
        · rename_i k fd hfe
          simp only [Bool.and_eq_true, beq_iff_eq] at hfd
          rw [hfe, hfd.1]; exact ⟨fd, List.mem_singleton.2 rfl⟩
        · simp at hfd
      obtain ⟨fd, hm⟩ := hfd
      have h := hfield _ _ hm
      rw [if_pos rfl, hv] at h
      refine Shaped.ref ?_ hs
      cases hf : f (.base r p j kids) <;> (rw [hf] at h; exact ⟨_, h⟩)
    · rename_i hws
      obtain ⟨j', hj', hs⟩ := ihb hokb _ _ hb hr hw hn
      refine ⟨j', hj', ?_⟩
      obtain ⟨d', rfl, hd'⟩ := dump_rewritten_noref hbk (specHas_false.1 hws).2 hb hr hj'
      refine Shaped.notRef trivial ?_ hs
      rintro ⟨v, hv⟩
      rw [hd'] at hv; cases hv
  · intro b j ih hok p o hb hr hw hn
    simp only [okBuilder, Bool.and_eq_true] at hok
    rw [build_ifNotBool] at hb
    split at hb
    · simp only [Except.ok.injEq] at hb; subst hb; cases hn
    · obtain ⟨j', hj', hs⟩ := ih hok.1 _ _ hb hr hw hn
      refine ⟨j', hj', Shaped.notBool ?_ hs⟩
      rcases dump_kind hj' with ⟨l, rfl⟩ | ⟨d, rfl⟩ <;> simp

end Pyopenapi
