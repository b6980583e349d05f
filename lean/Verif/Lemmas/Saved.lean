import Verif.Spec.Saved
import Verif.Spec.Scan
import Verif.Props.Dump
import Verif.Lemmas.Conv

/-! # Saving an object and loading it again -/

namespace Pyopenapi
open Spec Obj

variable {f : Obj → Option Str}

theorem rewrittenL_eq (l : List Obj) : rewrittenL f l = l.map (rewritten f) := by
  induction l with
  | nil => rfl
  | cons o l ih => rw [rewrittenL, ih]; rfl

theorem rewrittenD_eq (d : Dict Obj) : rewrittenD f d = d.map (fun q => (q.1, rewritten f q.2)) := by
  induction d with
  | nil => rfl
  | cons o l ih => obtain ⟨k, o⟩ := o; rw [rewrittenD, ih]; rfl

theorem rewrittenD_keys (d : Dict Obj) : Dict.keys (rewrittenD f d) = Dict.keys d := by
  rw [rewrittenD_eq]; simp [Dict.keys, Function.comp_def]

theorem rewrittenD_get (d : Dict Obj) (k : Str) : Dict.get? (rewrittenD f d) k = (Dict.get? d k).map (rewritten f) := by
  induction d with
  | nil => rfl
  | cons o l ih =>
    obtain ⟨k', o⟩ := o
    rw [rewrittenD, Dict.get?_cons, Dict.get?_cons, ih]
    split <;> rfl

theorem rewritten_isPrim (o : Obj) : (rewritten f o).isPrim = o.isPrim := by
  cases o <;> simp [rewritten, Obj.isPrim]

theorem rewritten_truthy (o : Obj) : (rewritten f o).truthy = o.truthy := by
  cases o with
  | prim j => simp [rewritten]
  | base => simp [rewritten, Obj.truthy]
  | list b p s l => simp [rewritten, Obj.truthy, rewrittenL_eq]
  | map b p s l => simp [rewritten, Obj.truthy, rewrittenD_eq]

theorem said_some {k : Str} {s v : Json} : said k s = some v ↔ ∃ d, s = .obj d ∧ Dict.get? d k = some v ∧ v ≠ .null := by
  cases s with
  | obj d =>
    simp only [said, Json.obj.injEq]
    split
    · rename_i h
      simp only [reduceCtorEq, false_iff, not_exists, not_and]
      rintro d' rfl h' hn
      rw [h] at h'; cases h'; exact hn rfl
    · rename_i h
      constructor
      · intro h'
        exact ⟨d, rfl, h', fun e => h (e ▸ h')⟩
      · rintro ⟨d', rfl, h', _⟩; exact h'
  | _ => simp [said]

theorem said_of {k : Str} {s : Json} {d : Dict Json} (h : Dict.get? d k = said k s) : said k (.obj d) = said k s := by
  cases hs : said k s with
  | none =>
    rw [hs] at h
    simp [said, h]
  | some v =>
    rw [hs] at h
    obtain ⟨_, _, _, hn⟩ := said_some.1 hs
    exact said_some.2 ⟨d, rfl, h, hn⟩

theorem said_putRef {r : Option Str} {s : Json} (h : ∀ x, r = some x → ∃ d, s = .obj d) (k : Str) :
    said k (putRef r s) = if k = s% "$ref" then (r.map Json.str).or (said k s) else said k s := by
  cases r with
  | none => simp [putRef]
  | some x =>
    obtain ⟨d, rfl⟩ := h x rfl
    simp only [putRef]
    split
    · rename_i hk
      subst hk
      exact said_some.2 ⟨_, rfl, Dict.get?_set_self _ _ _, by simp⟩
    · rename_i hk
      simp only [said]
      rw [Dict.get?_set_ne _ _ (fun e => hk e.symm)]

theorem dumpField_said {s : Json} {cs : Dict Json} {k : Str} {fd : FieldDef} {w : Option Json} (hc : Dict.has cs k = false)
    (h : Obj.dumpField s cs k fd = .ok w) : w = said k s := by
  cases w with
  | some v =>
    obtain ⟨_, _, hn, d, hd, hg⟩ := dumpField_some h
    exact (said_some.2 ⟨d, hd, hg, hn⟩).symm
  | none =>
    cases hs : said k s with
    | none => rfl
    | some v =>
      obtain ⟨d, rfl, hg, hn⟩ := said_some.1 hs
      have h1 : specHas (.obj d) k = .ok true := by simp [specHas, Dict.has, hg]
      simp only [Obj.dumpField, hc, Bool.false_eq_true, if_false, h1, bind, Except.bind, if_true, Obj.readField, specGet, hg] at h
      cases hr : fd.restricted with
      | true => simp [hr] at h
      | false => simp [hr, hn] at h

/-- What is in the dump of an object of a class. -/
theorem dump_base_get {c : Str} {p : Option Str} {s : Json} {kids : Dict Obj} {j' : Json} (hn : Dict.NodupKeys kids)
    (hs : ∀ k, k ∈ Dict.keys kids → k ∈ Dict.keys (pkg c).children) (h : Obj.dump pkg (.base c p s kids) = .ok j') :
    ∃ d', j' = .obj d' ∧ Dict.NodupKeys d' ∧ (∀ k cd, (k, cd) ∈ (pkg c).children → Dict.get? d' k = (Dict.get? kids k).bind (Dict.kept (dk pkg) k)) ∧
      (∀ k fd, (k, fd) ∈ (pkg c).fields → Dict.get? d' k = said k s) ∧
      (∀ k, k ∈ Dict.keys d' → k ∈ Dict.keys (pkg c).children ∨ k ∈ Dict.keys (pkg c).fields) ∧
      (∀ k o, Dict.get? kids k = some o → ∃ w, dk pkg k o = .ok w) := by
  have hc := okTable_pkg.cls c
  rw [dump_base] at h
  split at h
  · simp at h
  · rename_i cs hcs
    split at h
    · simp at h
    · rename_i fs hfs
      simp only [Except.ok.injEq] at h
      rw [dumpKids_eq] at hcs
      have hcs' : Dict.collect (dk pkg) kids = .ok cs := hcs
      have hsub : ∀ k, k ∈ Dict.keys cs → k ∈ Dict.keys (pkg c).children := fun k hk => hs k (Dict.keys_collect_sub hcs' hk)
      have hsubf : ∀ k, k ∈ Dict.keys fs → k ∈ Dict.keys (pkg c).fields := fun k hk => Dict.keys_collect_sub hfs hk
      refine ⟨_, h.symm, ?_, ?_, ?_, ?_, ?_⟩
      · show (Dict.keys (cs ++ fs)).Nodup
        rw [show Dict.keys (cs ++ fs) = Dict.keys cs ++ Dict.keys fs by simp [Dict.keys]]
        refine List.nodup_append.2 ⟨Dict.nodupKeys_collect hn hcs', Dict.nodupKeys_collect hc.fields hfs, ?_⟩
        rintro a ha b hb rfl
        exact hc.disj _ (hsub _ ha) (hsubf _ hb)
      · intro k cd hm
        have hk : k ∈ Dict.keys (pkg c).children := List.mem_map.2 ⟨_, hm, rfl⟩
        rw [Dict.get?_append, Dict.get?_collect hn hcs', Dict.get?_collect hc.fields hfs, Dict.get?_eq_none_iff.2 (hc.disj k hk)]
        simp
      · intro k fd hm
        have hk : k ∉ Dict.keys cs := fun hh => hc.disj k (hsub k hh) (List.mem_map.2 ⟨_, hm, rfl⟩)
        rw [Dict.get?_append, Dict.get?_eq_none_iff.2 hk, Dict.get?_collect hc.fields hfs, Dict.get?_of_mem hc.fields hm]
        obtain ⟨w, hw⟩ := (Dict.collect_iff.1 hfs).1 _ hm
        have : Dict.has cs k = false := by
          simp [Dict.has, Dict.get?_eq_none_iff.2 hk]
        have e := dumpField_said this hw
        rw [← e]
        simp only [Option.none_or, Option.bind_some, Dict.kept, hw]
        cases w <;> rfl
      · intro k hk
        rw [show Dict.keys (cs ++ fs) = Dict.keys cs ++ Dict.keys fs by simp [Dict.keys]] at hk
        exact (List.mem_append.1 hk).imp (hsub k) (hsubf k)
      · intro k o ho
        exact (Dict.collect_iff.1 hcs').1 _ (Dict.mem_of_get? ho)

theorem Spec.Rewritable.inside {o m : Obj} (h : Rewritable f o) (hm : ∀ a, Inside m a → Inside o a) : Rewritable f m :=
  fun c p s kids hi => h c p s kids (hm _ hi)

theorem putRef_has {o : Obj} (h : Rewritable f o) {c : Str} {p : Option Str} {s : Json} {kids : Dict Obj}
    (hm : Inside o (.base c p s kids)) : ∀ x, f (.base c p s kids) = some x → ∃ d, s = .obj d := by
  intro x hx
  obtain ⟨v, hv⟩ := h c p s kids hm (.inr (by rw [hx]; simp))
  obtain ⟨d, hd, _⟩ := said_some.1 hv
  exact ⟨d, hd⟩

/-- A built object of a class, rewritten and dumped. -/
theorem dump_rewritten {c : Str} {j j' : Json} {p : Option Str} {o : Obj} (hb : build pkg (.cls c) j p [] = .ok o)
    (hr : Rewritable f o) (hd : Obj.dump pkg (rewritten f o) = .ok j') :
    ∃ kids d', o = .base c p j kids ∧ j' = .obj d' ∧ Dict.NodupKeys d' ∧
      Dict.collect (fun k cd => buildKid pkg k cd j p []) (pkg c).children = .ok kids ∧
      (∀ k cd, (k, cd) ∈ (pkg c).children → Dict.get? d' k = ((Dict.get? kids k).map (rewritten f)).bind (Dict.kept (dk pkg) k)) ∧
      (∀ k fd, (k, fd) ∈ (pkg c).fields → Dict.get? d' k = if k = s% "$ref" then ((f o).map Json.str).or (said k j) else said k j) ∧
      (∀ k, k ∈ Dict.keys d' → k ∈ Dict.keys (pkg c).children ∨ k ∈ Dict.keys (pkg c).fields) ∧
      (∀ k y, Dict.get? kids k = some y → y.truthy = true → ∃ v, Obj.dump pkg (rewritten f y) = .ok v) := by
  rw [build_cls] at hb
  split at hb
  · simp at hb
  · rename_i kids hk
    simp only [Except.ok.injEq] at hb
    subst hb
    rw [rewritten] at hd
    have hc := okTable_pkg.cls c
    obtain ⟨d', h1, h2, h3, h4, h5, h6⟩ := dump_base_get (kids := rewrittenD f kids)
      (by show (Dict.keys _).Nodup; rw [rewrittenD_keys]; exact Dict.nodupKeys_collect hc.children hk)
      (by intro k hk'; rw [rewrittenD_keys] at hk'; exact Dict.keys_collect_sub hk hk') hd
    refine ⟨kids, d', rfl, h1, h2, hk, ?_, ?_, h5, ?_⟩
    · intro k cd hm; rw [h3 k cd hm, rewrittenD_get]
    · intro k fd hm; rw [h4 k fd hm, said_putRef (putRef_has hr (.here _))]
    · intro k y hy ht
      obtain ⟨w, hw⟩ := h6 k (rewritten f y) (by rw [rewrittenD_get, hy]; rfl)
      unfold dk at hw
      rw [rewritten_truthy, ht] at hw
      simp only [if_true] at hw
      cases hdu : Obj.dump pkg (rewritten f y) with
      | error e => rw [hdu] at hw; simp [Except.map] at hw
      | ok v => exact ⟨v, rfl⟩

theorem saved_cls (c : Str) (j : Json) (ih : ∀ b v, sizeOf v < sizeOf j → okBuilder pkg b = true → ∀ (p p' : Option Str) (o o' : Obj) (j' : Json),
      build pkg b v p [] = .ok o → Rewritable f o → Obj.dump pkg (rewritten f o) = .ok j' → build pkg b j' p' [] = .ok o' → SavedAs f o o')
    (p p' : Option Str) (o o' : Obj) (j' : Json) (hb : build pkg (.cls c) j p [] = .ok o) (hr : Rewritable f o)
    (hd : Obj.dump pkg (rewritten f o) = .ok j') (hb' : build pkg (.cls c) j' p' [] = .ok o') : SavedAs f o o' := by
  obtain ⟨kids, d', rfl, rfl, _, hk, hkid, hfield, _, hdump⟩ := dump_rewritten hb hr hd
  have hc := okTable_pkg.cls c
  rw [build_cls] at hb'
  split at hb'
  · simp at hb'
  · rename_i kids' hk'
    simp only [Except.ok.injEq] at hb'
    subst hb'
    refine .base ?_ ?_ ?_
    · exact hfield
    · intro k
      rw [Dict.get?_collect hc.children hk']
      constructor
      · rintro ⟨y', hy'⟩
        obtain ⟨cd, hcd, hy⟩ := Option.bind_eq_some_iff.1 hy'
        obtain ⟨d, v, hd, hv, hn, hbv⟩ := kid_some.1 (kept_some.1 hy)
        cases hd
        rw [hkid k cd (Dict.mem_of_get? hcd)] at hv
        obtain ⟨z, hz, hz2⟩ := Option.bind_eq_some_iff.1 hv
        obtain ⟨y, hy, rfl⟩ := Option.map_eq_some_iff.1 hz
        obtain ⟨ht, _⟩ := dk_some.1 (kept_some.1 hz2)
        exact ⟨y, hy, by rw [← rewritten_truthy (f := f)]; exact ht⟩
      · rintro ⟨y, hy, ht⟩
        rw [Dict.get?_collect hc.children hk] at hy
        obtain ⟨cd, hcd, hy2⟩ := Option.bind_eq_some_iff.1 hy
        rw [← Dict.get?_collect hc.children hk] at hy
        obtain ⟨v, hv⟩ := hdump k y hy ht
        have hg : Dict.get? d' k = some v := by
          rw [hkid k cd (Dict.mem_of_get? hcd), hy]
          exact kept_some.2 (dk_some.2 ⟨by rw [rewritten_truthy]; exact ht, hv⟩)
        obtain ⟨r, hr'⟩ := (Dict.collect_iff.1 hk').1 _ (Dict.mem_of_get? hcd)
        cases r with
        | none =>
          rcases kid_none.1 hr' with ⟨h, _⟩ | h
          · rw [specGet_obj, hg] at h; cases h
          · rw [specGet_obj, hg] at h; cases h; exact absurd rfl (dump_not_null hv)
        | some y' => exact ⟨y', by rw [hcd, Option.bind_some]; exact kept_some.2 hr'⟩
    · intro k y y' hy hy'
      have hin : Inside (.base c p j kids) y := .child (Dict.mem_of_get? hy) (.here _)
      rw [Dict.get?_collect hc.children hk] at hy
      obtain ⟨cd, hcd, hy2⟩ := Option.bind_eq_some_iff.1 hy
      rw [← Dict.get?_collect hc.children hk] at hy
      obtain ⟨d0, v0, hd0, hv0, _, hb0⟩ := kid_some.1 (kept_some.1 hy2)
      subst hd0
      rw [Dict.get?_collect hc.children hk', hcd, Option.bind_some] at hy'
      obtain ⟨d, v, hd, hv, hn, hbv⟩ := kid_some.1 (kept_some.1 hy')
      cases hd
      rw [hkid k cd (Dict.mem_of_get? hcd), hy] at hv
      obtain ⟨_, hdv⟩ := dk_some.1 (kept_some.1 hv)
      exact ih cd.builder v0 (size_get hv0) (childBuilder_ok (hc.child k cd (Dict.mem_of_get? hcd))) _ _ _ _ _ hb0
        (hr.inside fun a ha => .child (Dict.mem_of_get? hy) ha) hdv hbv

/-- Two lists that correspond to the same JSON, element by element. -/
theorem forall₂_saved {α β γ δ : Type} {A : α → β → Prop} {B : β → γ → Prop} {C : γ → δ → Prop} {D : β → δ → Prop} {l : List α}
    {es : List β} {r : List γ} {es' : List δ} (h1 : List.Forall₂ A l es) (h2 : List.Forall₂ B es r) (h3 : List.Forall₂ C r es')
    (h : ∀ x ∈ l, ∀ o ∈ es, ∀ y o', A x o → B o y → C y o' → D o o') : List.Forall₂ D es es' := by
  induction h1 generalizing r es' with
  | nil => cases h2; cases h3; exact .nil
  | cons ha _ ih =>
    cases h2 with
    | cons hb h2 =>
      cases h3 with
      | cons hc h3 =>
        exact .cons (h _ (by simp) _ (by simp) _ _ ha hb hc) (ih h2 h3 (fun x hx o ho => h x (by simp [hx]) o (by simp [ho])))

theorem saved_nth {α β : Type} {D : α → β → Prop} {es : List α} {es' : List β} (h : List.Forall₂ D es es') (i : Nat) {y : α} {y' : β}
    (hy : es[i]? = some y) (hy' : es'[i]? = some y') : D y y' := by
  induction h generalizing i with
  | nil => simp at hy
  | cons ha _ ih =>
    cases i with
    | zero => simp only [List.getElem?_cons_zero, Option.some.injEq] at hy hy'; subst hy hy'; exact ha
    | succ i => exact ih i (by simpa using hy) (by simpa using hy')

theorem forall₂_left_map {α α' β : Type} {g : α → α'} {D : α' → β → Prop} {es : List α} {es' : List β} (h : List.Forall₂ D (es.map g) es') :
    List.Forall₂ (fun x y => D (g x) y) es es' := by
  induction es generalizing es' with
  | nil => cases h; exact .nil
  | cons x es ih => cases h with | cons h1 h2 => exact .cons h1 (ih h2)

theorem saved_prims (l : List Json) : List.Forall₂ (SavedAs f) (l.map Obj.prim) (l.map Obj.prim) := by
  induction l with
  | nil => exact .nil
  | cons x l ih => exact .cons (.prim x) ih

theorem saved_entries {es es' : Dict Obj} (hs : List.Forall₂ (fun q q' => q.1 = q'.1 ∧ SavedAs f q.2 q'.2) es es') (k : Str) {y y' : Obj}
    (hy : Dict.get? es k = some y) (hy' : Dict.get? es' k = some y') : SavedAs f y y' := by
  induction hs with
  | nil => simp at hy
  | @cons q q' _ _ h _ ih =>
    obtain ⟨a, b⟩ := q
    obtain ⟨a', b'⟩ := q'
    obtain ⟨rfl, h⟩ := h
    rw [Dict.get?_cons] at hy hy'
    simp only at hy hy' h
    split at hy
    · rename_i he
      rw [if_pos he] at hy'
      cases hy; cases hy'; exact h
    · rename_i he
      rw [if_neg he] at hy'
      exact ih hy hy'

theorem saved_list (b : Builder) (j : Json) (ih : ∀ v, sizeOf v < sizeOf j → okBuilder pkg b = true → ∀ (p p' : Option Str) (o o' : Obj) (j' : Json),
      build pkg b v p [] = .ok o → Rewritable f o → Obj.dump pkg (rewritten f o) = .ok j' → build pkg b j' p' [] = .ok o' → SavedAs f o o')
    (hok : okBuilder pkg (.listOf b) = true)
    (p p' : Option Str) (o o' : Obj) (j' : Json) (hb : build pkg (.listOf b) j p [] = .ok o) (hr : Rewritable f o)
    (hd : Obj.dump pkg (rewritten f o) = .ok j') (hb' : build pkg (.listOf b) j' p' [] = .ok o') : SavedAs f o o' := by
  obtain ⟨hokb, hkind⟩ := elem_kind hok
  by_cases hj : ∃ l, j = .arr l
  · obtain ⟨l, rfl⟩ := hj
    rw [build_list] at hb
    split at hb
    · simp at hb
    · rename_i es hes
      simp only [Except.ok.injEq] at hb
      subst hb
      have hf := buildElems_forall₂ hes
      rw [rewritten] at hd
      suffices hs : List.Forall₂ (SavedAs f) es (match o' with | .list _ _ _ es' => es' | _ => []) ∧ ∃ b' p' s' es', o' = .list b' p' s' es' by
        obtain ⟨hs, b', p', s', es', rfl⟩ := hs
        exact .list (forall₂_length hs).symm fun i y y' hy hy' => saved_nth hs i hy hy'
      rcases buildElems_kind hkind hes with ⟨hob, hnp⟩ | ⟨hpb, hprim⟩
      · rw [dump_list_obj b p _ (by
          intro o ho
          rw [rewrittenL_eq] at ho
          obtain ⟨y, hy, rfl⟩ := List.mem_map.1 ho
          rw [rewritten_isPrim]; exact hnp y hy)] at hd
        split at hd
        · simp at hd
        · rename_i r hrr
          simp only [Except.ok.injEq] at hd
          subst hd
          rw [build_list] at hb'
          split at hb'
          · simp at hb'
          · rename_i es' hes'
            simp only [Except.ok.injEq] at hb'
            subst hb'
            rw [rewrittenL_eq] at hrr
            refine ⟨forall₂_saved hf (forall₂_left_map (dumpList_iff.1 hrr)) (buildElems_forall₂ hes') ?_, _, _, _, _, rfl⟩
            rintro x hx o ho y o' ⟨q, hq⟩ hoy ⟨q', hq'⟩
            exact ih x (size_elem hx) hokb _ _ _ _ _ hq (hr.inside fun a ha => .elem ho ha) hoy hq'
      · subst hprim
        have e : rewrittenL f (l.map Obj.prim) = l.map Obj.prim := by
          rw [rewrittenL_eq, List.map_map]; apply List.map_congr_left; intro x _; simp [rewritten]
        rw [e, dump_list_prim] at hd
        simp only [Except.ok.injEq] at hd
        subst hd
        rw [build_list] at hb'
        split at hb'
        · simp at hb'
        · rename_i es' hes'
          simp only [Except.ok.injEq] at hb'
          subst hb'
          have : es' = l.map Obj.prim := forall₂_prims (forall₂_imp (buildElems_forall₂ hes') (by
            rintro x o ⟨q, hq⟩
            exact build_prim hpb hq))
          subst this
          exact ⟨saved_prims l, _, _, _, _, rfl⟩
  · rw [build_list_other b j p (fun l hl => hj ⟨l, hl⟩)] at hb; simp at hb

theorem saved_map (b : Builder) (j : Json) (ih : ∀ v, sizeOf v < sizeOf j → okBuilder pkg b = true → ∀ (p p' : Option Str) (o o' : Obj) (j' : Json),
      build pkg b v p [] = .ok o → Rewritable f o → Obj.dump pkg (rewritten f o) = .ok j' → build pkg b j' p' [] = .ok o' → SavedAs f o o')
    (hok : okBuilder pkg (.mapOf b) = true)
    (p p' : Option Str) (o o' : Obj) (j' : Json) (hb : build pkg (.mapOf b) j p [] = .ok o) (hr : Rewritable f o)
    (hd : Obj.dump pkg (rewritten f o) = .ok j') (hb' : build pkg (.mapOf b) j' p' [] = .ok o') : SavedAs f o o' := by
  obtain ⟨hokb, hkind⟩ := item_kind hok
  by_cases hj : ∃ l, j = .obj l
  · obtain ⟨d, rfl⟩ := hj
    rw [build_map] at hb
    split at hb
    · simp at hb
    · rename_i es hes
      simp only [Except.ok.injEq] at hb
      subst hb
      have hf := buildItems_forall₂ hes
      rw [rewritten, dump_map] at hd
      split at hd
      · simp at hd
      · rename_i r hrr
        simp only [Except.ok.injEq] at hd
        subst hd
        rw [build_map] at hb'
        split at hb'
        · simp at hb'
        · rename_i es' hes'
          simp only [Except.ok.injEq] at hb'
          subst hb'
          rw [rewrittenD_eq] at hrr
          have hs : List.Forall₂ (fun q q' => q.1 = q'.1 ∧ SavedAs f q.2 q'.2) es es' :=
            forall₂_saved hf (forall₂_left_map (Dict.mapM_ok hrr)) (buildItems_forall₂ hes') (by
              rintro ⟨k, x⟩ hx ⟨k1, o⟩ ho ⟨k2, y⟩ ⟨k3, o'⟩ ⟨hk1, q, hq⟩ ⟨hk2, hoy⟩ ⟨hk3, q', hq'⟩
              simp only at hk1 hk2 hk3 hq hoy hq'
              subst hk1 hk2 hk3
              refine ⟨rfl, ?_⟩
              simp only
              rcases hkind with hob | hpb
              · rw [dumpElem_obj (by rw [rewritten_isPrim]; exact build_isPrim hob hq)] at hoy
                exact ih x (size_item hx) hokb _ _ _ _ _ hq (hr.inside fun a ha => .item ho ha) hoy hq'
              · have e := build_prim hpb hq
                subst e
                rw [rewritten] at hoy
                cases hoy
                rw [build_prim hpb hq']
                exact .prim _)
          refine .map (Dict.keys_of_forall₂ hs fun _ _ h => h.1).symm ?_
          exact fun k y y' => saved_entries hs k
  · rw [build_map_other b j p (fun l hl => hj ⟨l, hl⟩)] at hb; simp at hb

/-- The dump of a rewritten object without `$ref` has no `$ref`. -/
theorem dump_rewritten_noref {b : Builder} {d : Json} {p : Option Str} {o : Obj} {j' : Json} (hb : clsOrMap b = true)
    (hw : ¬ Within (s% "$ref") d) (h : build pkg b d p [] = .ok o) (hr : Rewritable f o) (hd : Obj.dump pkg (rewritten f o) = .ok j') :
    ∃ d', j' = .obj d' ∧ Dict.get? d' (s% "$ref") = none := by
  have hsaid : said (s% "$ref") d = none := by
    cases hs : said (s% "$ref") d with
    | none => rfl
    | some v =>
      obtain ⟨e, rfl, he, _⟩ := said_some.1 hs
      exact absurd ⟨v, he⟩ hw
  cases b with
  | cls c =>
    obtain ⟨kids, d', rfl, rfl, _, _, _, hfield, hsub, _⟩ := dump_rewritten h hr hd
    refine ⟨d', rfl, ?_⟩
    cases hg : Dict.get? d' (s% "$ref") with
    | none => rfl
    | some v =>
      have hk : s% "$ref" ∈ Dict.keys d' := List.mem_map.2 ⟨_, Dict.mem_of_get? hg, rfl⟩
      rcases hsub _ hk with h1 | h1
      · exact absurd h1 (okTable_pkg.cls c).noref
      · obtain ⟨⟨k, fd⟩, hm, hk2⟩ := List.mem_map.1 h1
        simp only at hk2
        subst hk2
        have h2 := hfield _ _ hm
        rw [if_pos rfl, hg, hsaid, Option.or_none] at h2
        cases hf : f (.base c p d kids) with
        | none => rw [hf] at h2; cases h2
        | some x =>
          obtain ⟨w, hw'⟩ := hr c p d kids (.here _) (.inr (by rw [hf]; simp))
          rw [hsaid] at hw'; cases hw'
  | mapOf b =>
    by_cases hj : ∃ l, d = .obj l
    · obtain ⟨l, rfl⟩ := hj
      rw [build_map] at h
      split at h
      · simp at h
      · rename_i es hes
        simp only [Except.ok.injEq] at h
        subst h
        rw [rewritten, dump_map] at hd
        split at hd
        · simp at hd
        · rename_i r hrr
          simp only [Except.ok.injEq] at hd
          subst hd
          refine ⟨_, rfl, ?_⟩
          rw [buildItems_eq] at hes
          rw [Dict.get?_eq_none_iff, Dict.mapM_keys hrr, rewrittenD_keys, Dict.mapM_keys hes, ← Dict.get?_eq_none_iff]
          cases hg : Dict.get? l (s% "$ref") with
          | none => rfl
          | some v => exact absurd ⟨v, hg⟩ hw
    · rw [build_map_other b d p (fun l hl => hj ⟨l, hl⟩)] at h; simp at h
  | _ => simp [clsOrMap] at hb

/-- What an object says after it has been saved and loaded again. -/
theorem savedAs_of (b : Builder) (j : Json) : okBuilder pkg b = true → ∀ (p p' : Option Str) (o o' : Obj) (j' : Json),
    build pkg b j p [] = .ok o → Rewritable f o → Obj.dump pkg (rewritten f o) = .ok j' → build pkg b j' p' [] = .ok o' → SavedAs f o o' := by
  refine build_ind (P := fun b j => okBuilder pkg b = true → ∀ (p p' : Option Str) (o o' : Obj) (j' : Json),
    build pkg b j p [] = .ok o → Rewritable f o → Obj.dump pkg (rewritten f o) = .ok j' → build pkg b j' p' [] = .ok o' → SavedAs f o o')
    ?_ ?_ ?_ ?_ ?_ ?_ ?_ b j
  · intro c j ih _ p p' o o' j' hb hr hd hb'
    exact saved_cls c j ih p p' o o' j' hb hr hd hb'
  · intro j _ p p' o o' j' hb _ hd
    rw [build_prim (b := .isStr) rfl hb] at hd
    simp [rewritten, Obj.dump] at hd
  · intro j _ p p' o o' j' hb _ hd
    rw [build_prim (b := .isStrOrInt) rfl hb] at hd
    simp [rewritten, Obj.dump] at hd
  · intro b j ih hok
    exact saved_list b j ih hok
  · intro b j ih hok
    exact saved_map b j ih hok
  · intro r b j ihr ihb hok p p' o o' j' hb hr hd hb'
    simp only [okBuilder, Bool.and_eq_true] at hok
    obtain ⟨⟨href, hokb⟩, hbk⟩ := hok
    rw [build_ifNotRef] at hb hb'
    split at hb
    · simp at hb
    · rename_i hw
      obtain ⟨kids, d', rfl, rfl, _, hk, _, hfield, _, _⟩ := dump_rewritten hb hr hd
      obtain ⟨v, hv⟩ := hr _ _ _ _ (.here _) (.inl href)
      have : specHas (.obj d') (s% "$ref") = .ok true := by
        have hfd : ∃ fd, (s% "$ref", fd) ∈ (pkg r).fields := by
          simp only [refClass, Bool.and_eq_true] at href
          obtain ⟨_, hfd⟩ := href
          split at hfd
          · rename_i k fd hfe
            simp only [Bool.and_eq_true, beq_iff_eq] at hfd
            rw [hfe, hfd.1]; exact ⟨fd, List.mem_singleton.2 rfl⟩
          · simp at hfd
        obtain ⟨fd, hm⟩ := hfd
        have h := hfield _ _ hm
        rw [if_pos rfl, hv] at h
        cases hf : f (.base r p j kids) <;> (rw [hf] at h; simp [specHas, Dict.has, h])
      rw [this] at hb'
      exact ihr rfl _ _ _ _ _ hb hr hd hb'
    · rename_i hw
      obtain ⟨d', rfl, hd'⟩ := dump_rewritten_noref hbk (specHas_false.1 hw).2 hb hr hd
      have : specHas (.obj d') (s% "$ref") = .ok false := by simp [specHas, Dict.has, hd']
      rw [this] at hb'
      exact ihb hokb _ _ _ _ _ hb hr hd hb'
  · intro b j ih hok p p' o o' j' hb hr hd hb'
    simp only [okBuilder, Bool.and_eq_true] at hok
    rw [build_ifNotBool] at hb hb'
    split at hb
    · simp only [Except.ok.injEq] at hb; subst hb; simp [rewritten, Obj.dump] at hd
    · have hnb : isBool j' = false := by
        rcases dump_kind hd with ⟨l, rfl⟩ | ⟨d, rfl⟩ <;> rfl
      simp only [hnb, Bool.false_eq_true, if_false] at hb'
      exact ih hok.1 _ _ _ _ _ hb hr hd hb'

end Pyopenapi
