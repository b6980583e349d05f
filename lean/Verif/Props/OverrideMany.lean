import Verif.Props.Override

/-!
# C27 for several objects injected at once
-/

namespace Pyopenapi
open Spec
variable {T : Table}

/-- The `override` argument: the pointers, composed, with the objects. -/
def enc (fam : List (List Str × Obj)) : Dict Obj := fam.map (fun p => (jpCompose p.1 none, p.2))

/-- What is left for the child `t`. -/
def under (t : Str) (fam : List (List Str × Obj)) : List (List Str × Obj) :=
  fam.filterMap (fun p => match p.1 with
    | [] => none
    | t' :: ts => if t' = t then some (ts, p.2) else none)

/-- Neither of the places is inside the other one. -/
def Beside (us ts : List Str) : Prop := ¬ us <+: ts ∧ ¬ ts <+: us

/-- Places, none empty, whose later tokens need no escaping, all different. -/
structure Places (fam : List (List Str × Obj)) : Prop where
  ok : ∀ p ∈ fam, ∃ t ts, p.1 = t :: ts ∧ t ≠ [] ∧ ∀ u ∈ ts, Plain u
  nodup : (fam.map (fun p => p.1)).Nodup

theorem compose_ne {t : Str} {ts : List Str} (ht : t ≠ []) : jpCompose (t :: ts) none ≠ [] := by
  intro hc
  simp only [jpCompose, List.map_cons] at hc
  rcases Str.joinC_eq_nil hc with h1 | h1
  · simp at h1
  · simp only [List.cons.injEq] at h1
    have := congrArg jpDecode h1.1
    rw [jpDecode_jpEncode] at this
    exact ht this

theorem compose_plain_inj {ts us : List Str} (h1 : ∀ u ∈ ts, Plain u) (h2 : ∀ u ∈ us, Plain u)
    (h : jpCompose ts none = jpCompose us none) : ts = us := by
  by_cases hts : ts = []
  · subst hts
    exact ((compose_nil_iff h2).1 h.symm).symm
  · have hus : us ≠ [] := by
      rintro rfl
      exact hts ((compose_nil_iff h1).1 h)
    simp only [jpCompose, plain_map h1, plain_map h2] at h
    rw [← Str.splitC_joinC hts (fun p hp => (h1 p hp).2.1), h, Str.splitC_joinC hus (fun p hp => (h2 p hp).2.1)]

theorem split1_compose {t : Str} {ts : List Str} (h : ∀ u ∈ ts, Plain u) (hne : jpCompose (t :: ts) none ≠ []) :
    jpSplit1 (jpCompose (t :: ts) none) = t :: (if ts = [] then [] else [jpCompose ts none]) := by
  unfold jpSplit1
  rw [if_neg hne]
  by_cases hts : ts = []
  · subst hts
    simp only [jpCompose, List.map_cons, List.map_nil, Str.joinC, if_true]
    rw [splitC1_of_not_mem (slash_not_mem_jpEncode t)]
    simp [jpDecode_jpEncode]
  · simp only [jpCompose, List.map_cons, hts, if_false]
    rw [Str.joinC_cons (by simpa using hts), splitC1_append _ (slash_not_mem_jpEncode t)]
    simp only [List.map_cons, List.map_nil, jpDecode_jpEncode]
    rw [plain_map h, jpDecode_eq_unescape, unescape_no_tilde (tilde_joinC (fun u hu => (h u hu).2.2))]

theorem splitOverride_snoc {l : Dict Obj} {acc : Dict (Dict Obj)} (h : splitOverride l = .ok acc) {k t : Str} {rest : List Str}
    (x : Obj) (hk : jpSplit1 k = t :: rest) :
    splitOverride (l ++ [(k, x)]) = .ok (Dict.set acc t (Dict.set (ovFor acc t) (rest.head?.getD []) x)) := by
  unfold splitOverride at h ⊢
  rw [List.foldlM_append, h]
  simp only [bind, Except.bind, List.foldlM, hk, pure, Except.pure, ovFor]

theorem under_append (t : Str) (a b : List (List Str × Obj)) : under t (a ++ b) = under t a ++ under t b := List.filterMap_append

theorem under_self (t : Str) (ts : List Str) (x : Obj) : under t [(t :: ts, x)] = [(ts, x)] := by simp [under]

theorem under_ne {t k : Str} (h : t ≠ k) (ts : List Str) (x : Obj) : under k [(t :: ts, x)] = [] := by simp [under, h]

theorem mem_under {t : Str} {fam : List (List Str × Obj)} {q : List Str × Obj} : q ∈ under t fam ↔ (t :: q.1, q.2) ∈ fam := by
  unfold under
  rw [List.mem_filterMap]
  constructor
  · rintro ⟨p, hp, h⟩
    obtain ⟨us, y⟩ := p
    dsimp only at h
    split at h
    · cases h
    · split at h
      · rename_i e; subst e; cases h; exact hp
      · cases h
  · intro h
    exact ⟨_, h, by simp⟩

theorem places_init {a b : List (List Str × Obj)} (h : Places (a ++ b)) : Places a :=
  ⟨fun p hp => h.ok p (List.mem_append_left _ hp),
    (by have := h.nodup; rw [List.map_append] at this; exact (List.nodup_append.1 this).1)⟩

theorem groups_aux (l : List (List Str × Obj)) : Places l.reverse →
    ∃ acc, splitOverride (enc l.reverse) = .ok acc ∧ ∀ t, ovFor acc t = enc (under t l.reverse) := by
  induction l with
  | nil => intro _; exact ⟨[], rfl, fun t => rfl⟩
  | cons p l ih =>
    rw [List.reverse_cons]
    intro h
    obtain ⟨acc, h1, h2⟩ := ih (places_init h)
    obtain ⟨t, ts, hp, ht, hpl⟩ := h.ok p (by simp)
    obtain ⟨us, x⟩ := p
    dsimp only at hp
    subst hp
    have hs := splitOverride_snoc h1 x (split1_compose hpl (compose_ne (ts := ts) ht))
    have he : enc (l.reverse ++ [(t :: ts, x)]) = enc l.reverse ++ [(jpCompose (t :: ts) none, x)] := by simp [enc]
    have hrest : ((if ts = [] then [] else [jpCompose ts none] : List Str).head?.getD []) = jpCompose ts none := by
      by_cases hts : ts = []
      · subst hts; rfl
      · rw [if_neg hts]; rfl
    rw [hrest] at hs
    refine ⟨_, by rw [he]; exact hs, fun k => ?_⟩
    by_cases hk : t = k
    · subst hk
      rw [under_append, under_self]
      have : ovFor (Dict.set acc t (Dict.set (ovFor acc t) (jpCompose ts none) x)) t = Dict.set (ovFor acc t) (jpCompose ts none) x := by
        rw [ovFor, Dict.get?_set_self]; rfl
      rw [this, h2 t, Dict.set_of_not_mem]
      · simp [enc]
      · intro hm
        obtain ⟨kv, hkv, hk2⟩ := List.mem_map.1 hm
        obtain ⟨q, hq, rfl⟩ := List.mem_map.1 hkv
        have hq' := mem_under.1 hq
        obtain ⟨t', ts', e, _, hpl'⟩ := h.ok _ (List.mem_append_left _ hq')
        cases e
        have : q.1 = ts := compose_plain_inj hpl' hpl hk2
        have hn := h.nodup
        rw [List.map_append, List.nodup_append] at hn
        exact hn.2.2 (t :: ts) (List.mem_map.2 ⟨_, hq', by rw [this]⟩) (t :: ts) (by simp) rfl
    · rw [under_append, under_ne hk, List.append_nil, ← h2 k]
      unfold ovFor
      rw [Dict.get?_set_ne _ _ hk]

theorem groups {fam : List (List Str × Obj)} (h : Places fam) :
    ∃ acc, splitOverride (enc fam) = .ok acc ∧ ∀ t, ovFor acc t = enc (under t fam) := by
  have := groups_aux fam.reverse
  rw [List.reverse_reverse] at this
  exact this h

theorem places_under {fam : List (List Str × Obj)} (h : Places fam) {k : Str} (hk : [k] ∉ fam.map (fun p => p.1)) :
    Places (under k fam) := by
  constructor
  · intro q hq
    have hm := mem_under.1 hq
    obtain ⟨t, ts, e, _, hpl⟩ := h.ok _ hm
    cases e
    cases hq1 : q.1 with
    | nil => rw [hq1] at hm; exact absurd (List.mem_map.2 ⟨_, hm, rfl⟩) hk
    | cons u us =>
      rw [hq1] at hpl
      exact ⟨u, us, rfl, (hpl u (by simp)).1, fun v hv => hpl v (by simp [hv])⟩
  · have hn := h.nodup
    clear hk h
    induction fam with
    | nil => exact List.nodup_nil
    | cons p fam ih =>
      rw [List.map_cons, List.nodup_cons] at hn
      have ih := ih hn.2
      have hc : under k (p :: fam) = under k [p] ++ under k fam := under_append k [p] fam
      rw [hc]
      obtain ⟨us, x⟩ := p
      cases us with
      | nil => exact ih
      | cons t ts =>
        by_cases ht : t = k
        · subst ht
          rw [under_self, List.singleton_append, List.map_cons, List.nodup_cons]
          refine ⟨fun hm => ?_, ih⟩
          obtain ⟨q, hq, e⟩ := List.mem_map.1 hm
          refine hn.1 (List.mem_map.2 ⟨_, mem_under.1 hq, ?_⟩)
          dsimp only at e ⊢
          rw [e]
        · rw [under_ne ht]
          exact ih

theorem beside_under {fam : List (List Str × Obj)} {k : Str} {ts : List Str} (h : ∀ p ∈ fam, Beside p.1 (k :: ts)) :
    [k] ∉ fam.map (fun p => p.1) ∧ (∀ q ∈ under k fam, Beside q.1 ts) ∧ (ts = [] → under k fam = []) := by
  refine ⟨fun hm => ?_, fun q hq => ?_, fun hts => ?_⟩
  · obtain ⟨p, hp, e⟩ := List.mem_map.1 hm
    have := (h p hp).1
    rw [e] at this
    exact this (List.cons_prefix_cons.2 ⟨rfl, List.nil_prefix⟩)
  · have := h _ (mem_under.1 hq)
    exact ⟨fun hp => this.1 (List.cons_prefix_cons.2 ⟨rfl, hp⟩), fun hp => this.2 (List.cons_prefix_cons.2 ⟨rfl, hp⟩)⟩
  · subst hts
    cases hu : under k fam with
    | nil => rfl
    | cons q l =>
      have := h _ (mem_under.1 (show q ∈ under k fam by rw [hu]; simp))
      exact absurd (List.cons_prefix_cons.2 ⟨rfl, List.nil_prefix⟩) this.2

theorem ovHere_enc {fam : List (List Str × Obj)} (h : Places fam) : ovHere (enc fam) = none := by
  unfold ovHere
  have : Dict.get? (enc fam) [] = none := by
    rw [Dict.get?_eq_none_iff]
    intro hm
    obtain ⟨kv, hkv, hk2⟩ := List.mem_map.1 hm
    obtain ⟨q, hq, rfl⟩ := List.mem_map.1 hkv
    obtain ⟨t, ts, e, ht, _⟩ := h.ok _ hq
    dsimp only at hk2
    rw [e] at hk2
    exact compose_ne ht hk2
  rw [this]

/-- One more object: the child, element or entry it is in. -/
theorem one_more {b : Builder} {v : Json} {q : Option Str} {k : Str} {ts : List Str} {x oc : Obj} {fam : List (List Str × Obj)}
    (hxt : x.truthy = true) (hpl : Places fam) (hbes : ∀ p ∈ fam, Beside p.1 (k :: ts))
    (hb : build T b v q (enc (under k fam)) = .ok oc)
    (ih : ts ≠ [] → ∃ o1, build T b v q (enc (under k fam ++ [(ts, x)])) = .ok o1 ∧ PutAt T v ts x oc o1)
    (hP : Places (under k fam ++ [(ts, x)]) ∨ ts = []) :
    ∃ oc', (match ovHere (enc (under k fam ++ [(ts, x)])) with
      | some o => .ok o
      | none => build T b v q (enc (under k fam ++ [(ts, x)]))) = Except.ok oc' ∧ PutBelow T v ts x oc oc' := by
  obtain ⟨h1, h2, h3⟩ := beside_under hbes
  by_cases hts : ts = []
  · rw [h3 hts]
    subst hts
    refine ⟨x, ?_, by simp [PutBelow]⟩
    have : enc ([] ++ [([], x)]) = [([], x)] := rfl
    rw [this, ovHere_self hxt]
  · obtain ⟨o1, ho1, hput⟩ := ih hts
    rcases hP with hP | hP
    · rw [ovHere_enc hP]
      exact ⟨o1, ho1, by rw [PutBelow, if_neg hts]; exact hput⟩
    · exact absurd hP hts

theorem places_snoc {fam : List (List Str × Obj)} (h : Places fam) {ts : List Str} {x : Obj} (hb : ∀ p ∈ fam, Beside p.1 ts)
    (hts : ∃ t us, ts = t :: us ∧ t ≠ [] ∧ ∀ u ∈ us, Plain u) : Places (fam ++ [(ts, x)]) := by
  constructor
  · intro p hp
    rcases List.mem_append.1 hp with hp | hp
    · exact h.ok p hp
    · rw [List.mem_singleton] at hp
      subst hp
      exact hts
  · rw [List.map_append, List.nodup_append]
    refine ⟨h.nodup, by simp, ?_⟩
    rintro a ha b hb' rfl
    obtain ⟨p, hp, rfl⟩ := List.mem_map.1 ha
    rw [List.map_singleton, List.mem_singleton] at hb'
    have := (hb p hp).1
    rw [hb'] at this
    exact this List.prefix_rfl

theorem C27_many_aux (hT : OkTable T) {b b' : Builder} {j w : Json} {ts : List Str} {x : Obj}
    (hxt : x.truthy = true) (hxp : x.isPrim = false) (h : Reach T b j ts b' w) :
    okBuilder T b = true → j.wf = true → (∃ t us, ts = t :: us ∧ t ≠ [] ∧ ∀ u ∈ us, Plain u) →
    ∀ fam, Places fam → (∀ p ∈ fam, Beside p.1 ts) → ∀ p o0, build T b j p (enc fam) = .ok o0 →
      ∃ o1, build T b j p (enc (fam ++ [(ts, x)])) = .ok o1 ∧ PutAt T j ts x o0 o1 := by
  induction h with
  | here => rintro _ _ ⟨_, _, h, _⟩; cases h
  | @child c d k cd v w ts b' hk hv hn hreach ih =>
    intro _ hwf hts fam hfam hbes p o0 hb
    have hall := places_snoc (x := x) hfam hbes hts
    obtain ⟨t0, us0, e0, ht0, hplain⟩ := hts
    cases e0
    have hc := hT.cls c
    have hm := Dict.mem_of_get? hk
    have hcb := hc.child k cd hm
    obtain ⟨u1, u2, u3⟩ := beside_under hbes
    have hPu := places_under hfam u1
    obtain ⟨acc, ha1, ha2⟩ := groups hfam
    obtain ⟨acc', hb1, hb2⟩ := groups hall
    rw [build_cls_ov, ha1] at hb
    dsimp only at hb
    split at hb
    · simp at hb
    rename_i kids0 hk0
    simp only [Except.ok.injEq] at hb
    subst hb
    obtain ⟨okid, hokid⟩ := (Dict.collect_iff.1 hk0).1 (k, cd) hm
    have hokid' := hokid
    dsimp only at hokid
    rw [buildKid_ov, ha2 k, ovHere_enc hPu] at hokid
    dsimp only at hokid
    rw [specGet_obj, hv] at hokid
    dsimp only at hokid
    rw [if_neg hn] at hokid
    split at hokid
    · cases hokid
    rename_i oc hbc
    cases hokid
    have hkid : Dict.get? kids0 k = some oc := by
      rw [Dict.get?_collect hc.children hk0, hk, Option.bind_some, kept_some]
      exact hokid'
    have hPus : Places (under k fam ++ [(ts, x)]) ∨ ts = [] := by
      cases ts with
      | nil => exact .inr rfl
      | cons u us => exact .inl (places_snoc hPu u2 ⟨u, us, rfl, (hplain u (by simp)).1, fun z hz => hplain z (by simp [hz])⟩)
    obtain ⟨oc', hoc, hput⟩ := one_more hxt hfam hbes hbc (fun hts => ih (childBuilder_ok hcb) (wf_get hwf hv)
      (by cases ts with
        | nil => exact absurd rfl hts
        | cons u us => exact ⟨u, us, rfl, (hplain u (by simp)).1, fun z hz => hplain z (by simp [hz])⟩) _ hPu u2 _ _ hbc) hPus
    have hoc' : buildKid T k cd (.obj d) p acc' = .ok (some oc') := by
      rw [buildKid_ov, hb2 k, under_append, under_self]
      split at hoc
      · rename_i o ho; rw [ho]; cases hoc; rfl
      · rename_i ho
        rw [ho]
        dsimp only
        rw [specGet_obj, hv]
        dsimp only
        rw [if_neg hn, hoc]
    have hf1 : ∀ k' cd', k' ≠ k → buildKid T k' cd' (.obj d) p acc' = buildKid T k' cd' (.obj d) p acc := by
      intro k' cd' hne'
      rw [buildKid_ov, buildKid_ov, hb2 k', ha2 k', under_append, under_ne (Ne.symm hne'), List.append_nil]
    have hcol : ∃ kids1, Dict.collect (fun k' cd' => buildKid T k' cd' (.obj d) p acc') (T c).children = .ok kids1 := by
      refine ⟨_, Dict.collect_iff.2 ⟨?_, rfl⟩⟩
      rintro ⟨k', cd'⟩ hm'
      by_cases hkk : k' = k
      · subst hkk
        have : cd' = cd := by
          have := Dict.get?_of_mem hc.children hm'
          rw [hk] at this; exact (Option.some.inj this).symm
        subst this
        exact ⟨_, hoc'⟩
      · rw [hf1 k' cd' hkk]
        exact (Dict.collect_iff.1 hk0).1 (k', cd') hm'
    obtain ⟨kids1, hk1⟩ := hcol
    have hg1 : Dict.get? kids1 k = some oc' := by
      rw [Dict.get?_collect hc.children hk1, hk, Option.bind_some, kept_some]
      exact hoc'
    have hgo : ∀ k', k' ≠ k → Dict.get? kids1 k' = Dict.get? kids0 k' := by
      intro k' hkk
      rw [Dict.get?_collect hc.children hk1, Dict.get?_collect hc.children hk0]
      cases Dict.get? (T c).children k' with
      | none => rfl
      | some cd' => simp only [Option.bind_some, Dict.kept, hf1 k' cd' hkk]
    refine ⟨.base c p (.obj d) kids1, ?_, ?_⟩
    · rw [build_cls_ov, hb1]
      simp only [hk1]
    · have hhas : Dict.has (T c).children k = true := by simp [Dict.has, hk]
      refine putAt_step hput ?_ ?_ ?_ (fun us w hw => rawAt_key hv hw) ?_
      · refine ⟨rfl, rfl, rfl, fun k' => ?_⟩
        by_cases hkk : k' = k
        · subst hkk; rw [hkid, hg1]; simp
        · rw [hgo k' hkk]
      · intro us; exact resolve_base hhas hg1 (hput.isPrim hxp)
      · intro hts us
        refine resolve_base hhas hkid ?_
        unfold PutBelow at hput
        rw [if_neg hts] at hput
        exact (sameHead_isPrim (hput.heads hts)).1
      · intro t' us w hne' _
        simp only [Obj.resolve, Obj.getattr, hgo t' hne']
  | @elem b l n v w ts b' hl hreach ih =>
    intro hok hwf hts fam hfam hbes p o0 hb
    have hall := places_snoc (x := x) hfam hbes hts
    obtain ⟨t0, us0, e0, ht0, hplain⟩ := hts
    cases e0
    obtain ⟨hokb, hkind⟩ := elem_kind hok
    obtain ⟨u1, u2, u3⟩ := beside_under hbes
    have hPu := places_under hfam u1
    obtain ⟨acc, ha1, ha2⟩ := groups hfam
    obtain ⟨acc', hb1, hb2⟩ := groups hall
    rw [build_list_ov, ha1] at hb
    dsimp only at hb
    split at hb
    · simp at hb
    rename_i es hes
    simp only [Except.ok.injEq] at hb
    subst hb
    obtain ⟨hlen, hel⟩ := buildElems_iff.1 hes
    have hlt : n < l.length := (List.getElem?_eq_some_iff.1 hl).1
    have hes' : es[n]? = some es[n] := List.getElem?_eq_getElem (by omega)
    have hbe := hel n v _ hl hes'
    rw [Nat.zero_add, buildAt_ov, ha2, ovHere_enc hPu] at hbe
    dsimp only at hbe
    have hPus : Places (under (Str.ofNat n) fam ++ [(ts, x)]) ∨ ts = [] := by
      cases ts with
      | nil => exact .inr rfl
      | cons u us => exact .inl (places_snoc hPu u2 ⟨u, us, rfl, (hplain u (by simp)).1, fun z hz => hplain z (by simp [hz])⟩)
    obtain ⟨oc', hoc, hput⟩ := one_more hxt hfam hbes hbe (fun hts => ih hokb (wf_elem hwf hl)
      (by cases ts with
        | nil => exact absurd rfl hts
        | cons u us => exact ⟨u, us, rfl, (hplain u (by simp)).1, fun z hz => hplain z (by simp [hz])⟩) _ hPu u2 _ _ hbe) hPus
    have hoc' : buildAt T b (Str.ofNat n) v p acc' = .ok oc' := by
      rw [buildAt_ov, hb2, under_append, under_self]
      exact hoc
    have hes1 : buildElems T b l 0 p acc' = .ok (es.set n oc') := by
      rw [buildElems_iff]
      refine ⟨by simp [hlen], ?_⟩
      intro m y o hy ho
      by_cases hmn : m = n
      · subst hmn
        rw [hl] at hy
        cases hy
        rw [List.getElem?_set_self (by omega)] at ho
        cases ho
        rw [Nat.zero_add]; exact hoc'
      · rw [List.getElem?_set_ne (Ne.symm hmn)] at ho
        have := hel m y o hy ho
        rw [Nat.zero_add] at this ⊢
        rw [buildAt_ov, hb2, under_append, under_ne (fun h => hmn (ofNat_inj h).symm), List.append_nil, ← ha2, ← buildAt_ov]
        exact this
    refine ⟨.list b p (.arr l) (es.set n oc'), ?_, ?_⟩
    · rw [build_list_ov, hb1]
      simp only [hes1]
    · refine putAt_step hput ?_ ?_ ?_ (fun us w hw => rawAt_idx hl hw) ?_
      · exact ⟨rfl, rfl, rfl, by simp⟩
      · intro us
        exact resolve_list (List.getElem?_set_self (by omega)) (hput.isPrim hxp)
      · intro hts us
        refine resolve_list hes' ?_
        unfold PutBelow at hput
        rw [if_neg hts] at hput
        exact (sameHead_isPrim (hput.heads hts)).1
      · intro t' us w hne' hw
        cases hw with
        | @idx _ m v' _ us' h1 h2 =>
          have hmn : m ≠ n := by rintro rfl; exact hne' rfl
          have hml : m < l.length := (List.getElem?_eq_some_iff.1 h1).1
          have e0 : es[m]? = some es[m] := List.getElem?_eq_getElem (by omega)
          have e1 : (es.set n oc')[m]? = some es[m] := by
            rw [List.getElem?_set_ne (Ne.symm hmn)]; exact e0
          simp only [Obj.resolve, pyInt_ofNat, bind, Except.bind, pyIndex_nat _ m _ e1, pyIndex_nat _ m _ e0]
  | @item b d k v w ts b' hd hreach ih =>
    intro hok hwf hts fam hfam hbes p o0 hb
    have hall := places_snoc (x := x) hfam hbes hts
    obtain ⟨t0, us0, e0, ht0, hplain⟩ := hts
    cases e0
    obtain ⟨hokb, hkind⟩ := item_kind hok
    obtain ⟨u1, u2, u3⟩ := beside_under hbes
    have hPu := places_under hfam u1
    obtain ⟨acc, ha1, ha2⟩ := groups hfam
    obtain ⟨acc', hb1, hb2⟩ := groups hall
    rw [build_map_ov, ha1] at hb
    dsimp only at hb
    split at hb
    · simp at hb
    rename_i es hes
    simp only [Except.ok.injEq] at hb
    subst hb
    rw [buildItems_eq] at hes
    rcases Dict.get?_mapM hes k with ⟨h1, _⟩ | ⟨v', oe, h1, hoe, hbe⟩
    · rw [hd] at h1; simp at h1
    rw [hd] at h1
    cases h1
    rw [buildAt_ov, ha2, ovHere_enc hPu] at hbe
    dsimp only at hbe
    have hPus : Places (under k fam ++ [(ts, x)]) ∨ ts = [] := by
      cases ts with
      | nil => exact .inr rfl
      | cons u us => exact .inl (places_snoc hPu u2 ⟨u, us, rfl, (hplain u (by simp)).1, fun z hz => hplain z (by simp [hz])⟩)
    obtain ⟨oc', hoc, hput⟩ := one_more hxt hfam hbes hbe (fun hts => ih hokb (wf_get hwf hd)
      (by cases ts with
        | nil => exact absurd rfl hts
        | cons u us => exact ⟨u, us, rfl, (hplain u (by simp)).1, fun z hz => hplain z (by simp [hz])⟩) _ hPu u2 _ _ hbe) hPus
    have hoc' : buildAt T b k v p acc' = .ok oc' := by
      rw [buildAt_ov, hb2, under_append, under_self]
      exact hoc
    have hset : buildItems T b d p acc' = .ok (Dict.set es k oc') := by
      rw [buildItems_eq]
      refine mapM_set hes (by simp only [Json.wf, Bool.and_eq_true, decide_eq_true_eq] at hwf; exact hwf.1) hd hoc' ?_
      intro k' v' hkk
      rw [buildAt_ov, buildAt_ov, hb2, ha2, under_append, under_ne (Ne.symm hkk), List.append_nil]
    have hkeys : Dict.keys (Dict.set es k oc') = Dict.keys es := by
      rw [Dict.keys_set]
      have : k ∈ Dict.keys es := by
        rw [← Dict.get?_isSome_iff, hoe]; rfl
      simp [this]
    refine ⟨.map b p (.obj d) (Dict.set es k oc'), ?_, ?_⟩
    · rw [build_map_ov, hb1]
      simp only [hset]
    · refine putAt_step hput ?_ ?_ ?_ (fun us w hw => rawAt_key hd hw) ?_
      · exact ⟨rfl, rfl, rfl, hkeys.symm⟩
      · intro us
        exact resolve_map (Dict.get?_set_self _ _ _) (hput.isPrim hxp)
      · intro hts us
        refine resolve_map hoe ?_
        unfold PutBelow at hput
        rw [if_neg hts] at hput
        exact (sameHead_isPrim (hput.heads hts)).1
      · intro t' us w hne' hw
        simp only [Obj.resolve, Dict.get!, Dict.get?_set_ne _ _ (Ne.symm hne')]
  | @ref r b d t ts b' w v hv hreach ih =>
    intro hok hwf hts fam hfam hbes p o hb
    have hw : specHas (.obj d) (s% "$ref") = .ok true := by simp [specHas, Dict.has, hv]
    rw [build_ifNotRef, hw] at hb ⊢
    exact ih rfl hwf hts fam hfam hbes p o hb
  | @notRef r b d t ts b' w hv hreach ih =>
    intro hok hwf hts fam hfam hbes p o hb
    simp only [okBuilder, Bool.and_eq_true] at hok
    have hw : specHas (.obj d) (s% "$ref") = .ok false := by simp [specHas, Dict.has, hv]
    rw [build_ifNotRef, hw] at hb ⊢
    exact ih hok.1.2 hwf hts fam hfam hbes p o hb
  | @notBool b j t ts b' w hv hreach ih =>
    intro hok hwf hts fam hfam hbes p o hb
    simp only [okBuilder, Bool.and_eq_true] at hok
    rw [build_ifNotBool, isBool_false.2 hv] at hb ⊢
    exact ih hok.1 hwf hts fam hfam hbes p o hb

/-- `o1` is `o0` with all of `fam` put at their places, seen through `resolve` (as `PutAt`, of several objects). -/
structure PutAll (T : Table) (j : Json) (fam : List (List Str × Obj)) (o0 o1 : Obj) : Prop where
  inside : ∀ p ∈ fam, ∀ us, Obj.resolve T (p.1 ++ us) o1 = Obj.resolve T us p.2
  beside : ∀ us w, RawAt j us w → (∀ p ∈ fam, Beside p.1 us) → Obj.resolve T us o1 = Obj.resolve T us o0
  above : ∀ p ∈ fam, ∀ us vs, p.1 = us ++ vs → vs ≠ [] → ∃ a0 a1, Obj.resolve T us o0 = .ok a0 ∧
    Obj.resolve T us o1 = .ok a1 ∧ SameHead a0 a1

theorem resolve_then (us : List Str) : ∀ (o a : Obj) (vs : List Str), Obj.resolve T us o = .ok a → a.isPrim = false →
    Obj.resolve T (us ++ vs) o = Obj.resolve T vs a := by
  induction us with
  | nil =>
    intro o a vs h _
    rw [resolve_nil] at h
    cases h
    rfl
  | cons u us ih =>
    intro o a vs h ha
    rw [List.cons_append]
    cases o with
    | prim j => cases h
    | base c p spec kids =>
      simp only [Obj.resolve, bind, Except.bind] at h ⊢
      cases hg : Obj.getattr T c spec kids u with
      | error e => rw [hg] at h; cases h
      | ok y =>
        rw [hg] at h
        dsimp only at h ⊢
        cases y with
        | prim j =>
          dsimp only at h
          cases hr : Obj.resolvePrim j us with
          | error e => rw [hr] at h; cases h
          | ok j' => rw [hr] at h; cases h; cases ha
        | base => exact ih _ _ vs h ha
        | list => exact ih _ _ vs h ha
        | map => exact ih _ _ vs h ha
    | list b p spec l =>
      simp only [Obj.resolve, bind, Except.bind] at h ⊢
      cases hi : Obj.pyInt u with
      | error e => rw [hi] at h; cases h
      | ok n =>
        rw [hi] at h
        dsimp only at h ⊢
        cases hx : Obj.pyIndex l n with
        | error e => rw [hx] at h; cases h
        | ok y =>
          rw [hx] at h
          cases y with
          | prim j => cases h
          | base => exact ih _ _ vs h ha
          | list => exact ih _ _ vs h ha
          | map => exact ih _ _ vs h ha
    | map b p spec d =>
      simp only [Obj.resolve, bind, Except.bind] at h ⊢
      cases hx : Dict.get! d u with
      | error e => rw [hx] at h; cases h
      | ok y =>
        rw [hx] at h
        cases y with
        | prim j => cases h
        | base => exact ih _ _ vs h ha
        | list => exact ih _ _ vs h ha
        | map => exact ih _ _ vs h ha

theorem rawAt_front {j w : Json} {us vs : List Str} (h : RawAt j (us ++ vs) w) : ∃ v, RawAt j us v := by
  induction us generalizing j with
  | nil => exact ⟨j, .here _⟩
  | cons u us ih =>
    rw [List.cons_append] at h
    cases h with
    | key hg h => obtain ⟨v, hv⟩ := ih h; exact ⟨v, .key hg hv⟩
    | idx hn h => obtain ⟨v, hv⟩ := ih h; exact ⟨v, .idx hn hv⟩

theorem sameHead_then {a b c : Obj} (h1 : SameHead a b) (h2 : SameHead b c) : SameHead a c := by
  cases a <;> cases b <;> first | exact h1.elim | skip
  all_goals cases c <;> first | exact h2.elim | skip
  · exact ⟨h1.1.trans h2.1, h1.2.1.trans h2.2.1, h1.2.2.1.trans h2.2.2.1, fun k => (h1.2.2.2 k).trans (h2.2.2.2 k)⟩
  · exact ⟨h1.1.trans h2.1, h1.2.1.trans h2.2.1, h1.2.2.1.trans h2.2.2.1, h1.2.2.2.trans h2.2.2.2⟩
  · exact ⟨h1.1.trans h2.1, h1.2.1.trans h2.2.1, h1.2.2.1.trans h2.2.2.1, h1.2.2.2.trans h2.2.2.2⟩

theorem putAll_snoc {b b' : Builder} {j w : Json} {fam : List (List Str × Obj)} {ts : List Str} {x o0 om o1 : Obj}
    (h : PutAll T j fam o0 om) (hx : PutAt T j ts x om o1) (hr : Reach T b j ts b' w) (hbes : ∀ p ∈ fam, Beside p.1 ts)
    (hfam : ∀ p ∈ fam, p.2.isPrim = false ∧ ∃ b' w, Reach T b j p.1 b' w) : PutAll T j (fam ++ [(ts, x)]) o0 o1 := by
  refine ⟨?_, ?_, ?_⟩
  · intro p hp us
    rcases List.mem_append.1 hp with hp | hp
    · obtain ⟨hq, b2, w2, hr2⟩ := hfam p hp
      have h1 := h.inside p hp []
      rw [List.append_nil, resolve_nil] at h1
      have h2 := hx.beside p.1 w2 (C25_reach_is_raw hr2) (hbes p hp).2 (hbes p hp).1
      rw [h1] at h2
      exact resolve_then _ _ _ us h2 hq
    · rw [List.mem_singleton] at hp
      subst hp
      exact hx.below us
  · intro us v hv hb
    have hl := hb (ts, x) (List.mem_append_right _ (List.mem_singleton.2 rfl))
    rw [hx.beside us v hv hl.1 hl.2]
    exact h.beside us v hv (fun p hp => hb p (List.mem_append_left _ hp))
  · intro p hp us vs e hvs
    rcases List.mem_append.1 hp with hp | hp
    · obtain ⟨a0, am, k0, km, hh⟩ := h.above p hp us vs e hvs
      obtain ⟨_, b2, w2, hr2⟩ := hfam p hp
      have hup : us <+: p.1 := ⟨vs, e.symm⟩
      by_cases hu : us <+: ts
      · obtain ⟨zs, hz⟩ := hu
        have hzn : zs ≠ [] := by
          rintro rfl
          rw [List.append_nil] at hz
          rw [hz] at hup
          exact (hbes p hp).2 hup
        obtain ⟨am', a1, k1, k2, hh'⟩ := hx.above us zs hz.symm hzn
        rw [km] at k1
        cases k1
        exact ⟨a0, a1, k0, k2, sameHead_then hh hh'⟩
      · obtain ⟨v, hv⟩ := rawAt_front (us := us) (vs := vs) (e ▸ C25_reach_is_raw hr2)
        have := hx.beside us v hv (fun h => (hbes p hp).2 (h.trans hup)) hu
        exact ⟨a0, am, k0, this.trans km, hh⟩
    · rw [List.mem_singleton] at hp
      subst hp
      dsimp only at e
      obtain ⟨am, a1, km, k1, hh⟩ := hx.above us vs e hvs
      have hut : us <+: ts := ⟨vs, e.symm⟩
      by_cases hany : ∃ p ∈ fam, us <+: p.1
      · obtain ⟨p, hp, zs, hz⟩ := hany
        have hzn : zs ≠ [] := by
          rintro rfl
          rw [List.append_nil] at hz
          rw [hz] at hut
          exact (hbes p hp).1 hut
        obtain ⟨a0, am', k0, k2, hh'⟩ := h.above p hp us zs hz.symm hzn
        rw [km] at k2
        cases k2
        exact ⟨a0, a1, k0, k1, sameHead_then hh' hh⟩
      · obtain ⟨v, hv⟩ := rawAt_front (us := us) (vs := vs) (e ▸ C25_reach_is_raw hr)
        have := h.beside us v hv (fun p hp => ⟨fun h => (hbes p hp).1 (h.trans hut), fun h => hany ⟨p, hp, h⟩⟩)
        exact ⟨am, a1, by rw [← this]; exact km, k1, hh⟩

theorem many_aux (hT : OkTable T) {b : Builder} {j : Json} (hok : okBuilder T b = true) (hwf : j.wf = true) {p : Option Str} {o0 : Obj}
    (hb : build T b j p [] = .ok o0) (l : List (List Str × Obj)) : Places l.reverse →
    (∀ q ∈ l.reverse, q.2.truthy = true ∧ q.2.isPrim = false ∧ ∃ b' w, Reach T b j q.1 b' w) →
    l.reverse.Pairwise (fun q r => Beside q.1 r.1) →
    ∃ o1, build T b j p (enc l.reverse) = .ok o1 ∧ PutAll T j l.reverse o0 o1 := by
  induction l with
  | nil =>
    intro _ _ _
    exact ⟨o0, hb, ⟨fun _ h => (List.not_mem_nil h).elim, fun _ _ _ _ => rfl, fun _ h => (List.not_mem_nil h).elim⟩⟩
  | cons q l ih =>
    rw [List.reverse_cons]
    intro hP hq hpw
    obtain ⟨h1, _, h2⟩ := List.pairwise_append.1 hpw
    obtain ⟨om, hm, hput⟩ := ih (places_init hP) (fun r hr => hq r (List.mem_append_left _ hr)) h1
    obtain ⟨hxt, hxp, b', w, hr⟩ := hq q (by simp)
    obtain ⟨ts, x⟩ := q
    have hbes : ∀ r ∈ l.reverse, Beside r.1 ts := fun r hr => h2 r hr (ts, x) (by simp)
    obtain ⟨o1, ho1, hx⟩ := C27_many_aux hT hxt hxp hr hok hwf (hP.ok (ts, x) (by simp)) _ (places_init hP) hbes p om hm
    exact ⟨o1, ho1, putAll_snoc hput hx hr hbes (fun r hr => ((hq r (List.mem_append_left _ hr)).2))⟩

/-- **C27** for any number of objects: building with an override of several pointers, none of which is inside another one and all
of which lead somewhere in the document, gives the object built without it, with each of the objects at its pointer (`PutAll`).
What is missing from the full claim is what is missing of `C27_override_partial`. -/
theorem C27_many_partial (hT : OkTable T) {b : Builder} {j : Json} (hok : okBuilder T b = true) (hwf : j.wf = true) {p : Option Str}
    {o0 : Obj} (hb : build T b j p [] = .ok o0) {fam : List (List Str × Obj)}
    (hfam : ∀ q ∈ fam, q.2.truthy = true ∧ q.2.isPrim = false ∧ (∃ t ts, q.1 = t :: ts ∧ t ≠ [] ∧ ∀ u ∈ ts, Plain u) ∧
      ∃ b' w, Reach T b j q.1 b' w)
    (hbes : fam.Pairwise (fun q r => Beside q.1 r.1)) :
    ∃ o1, build T b j p (fam.map (fun q => (jpCompose q.1 none, q.2))) = .ok o1 ∧ PutAll T j fam o0 o1 := by
  have hP : Places fam := ⟨fun q hq => (hfam q hq).2.2.1, by
    unfold List.Nodup
    rw [List.pairwise_map]
    exact hbes.imp (by intro a b h e; exact h.1 (by rw [e]; exact List.prefix_rfl))⟩
  have := many_aux hT hok hwf hb fam.reverse
  rw [List.reverse_reverse] at this
  exact this hP (fun q hq => ⟨(hfam q hq).1, (hfam q hq).2.1, (hfam q hq).2.2.2⟩) hbes

/-- Two objects at once: an operation of one path and an operation of another. -/
theorem C27_many_example : ∃ o0 o1,
    build pkg (.mapOf (.cls (s% "v2_0.PathItem")))
      (.obj [(s% "/pet", .obj [(s% "get", .obj []), (s% "put", .obj [])]), (s% "/a", .obj [(s% "get", .obj [])])]) none [] = .ok o0 ∧
    build pkg (.mapOf (.cls (s% "v2_0.PathItem")))
      (.obj [(s% "/pet", .obj [(s% "get", .obj []), (s% "put", .obj [])]), (s% "/a", .obj [(s% "get", .obj [])])]) none
      [(s% "~1pet/get", opX), (s% "~1a/get", opX)] = .ok o1 ∧
    PutAll pkg (.obj [(s% "/pet", .obj [(s% "get", .obj []), (s% "put", .obj [])]), (s% "/a", .obj [(s% "get", .obj [])])])
      [([s% "/pet", s% "get"], opX), ([s% "/a", s% "get"], opX)] o0 o1 := by
  have hr1 : Reach pkg (.mapOf (.cls (s% "v2_0.PathItem")))
      (.obj [(s% "/pet", .obj [(s% "get", .obj []), (s% "put", .obj [])]), (s% "/a", .obj [(s% "get", .obj [])])])
      [s% "/pet", s% "get"] (.cls (s% "v2_0.Operation")) (.obj []) :=
    .item rfl (.child (cd := ⟨.cls (s% "v2_0.Operation"), false⟩) (by decide +kernel) rfl (by simp) .here)
  have hr2 : Reach pkg (.mapOf (.cls (s% "v2_0.PathItem")))
      (.obj [(s% "/pet", .obj [(s% "get", .obj []), (s% "put", .obj [])]), (s% "/a", .obj [(s% "get", .obj [])])])
      [s% "/a", s% "get"] (.cls (s% "v2_0.Operation")) (.obj []) :=
    .item rfl (.child (cd := ⟨.cls (s% "v2_0.Operation"), false⟩) (by decide +kernel) rfl (by simp) .here)
  have hb : ∃ o0, build pkg (.mapOf (.cls (s% "v2_0.PathItem")))
      (.obj [(s% "/pet", .obj [(s% "get", .obj []), (s% "put", .obj [])]), (s% "/a", .obj [(s% "get", .obj [])])]) none [] = .ok o0 := by
    have h : (build pkg (.mapOf (.cls (s% "v2_0.PathItem")))
      (.obj [(s% "/pet", .obj [(s% "get", .obj []), (s% "put", .obj [])]), (s% "/a", .obj [(s% "get", .obj [])])]) none []).isOk
        = true := by decide +kernel
    cases hh : build pkg (.mapOf (.cls (s% "v2_0.PathItem")))
      (.obj [(s% "/pet", .obj [(s% "get", .obj []), (s% "put", .obj [])]), (s% "/a", .obj [(s% "get", .obj [])])]) none [] with
    | ok o => exact ⟨o, rfl⟩
    | error e => rw [hh] at h; simp [Except.isOk, Except.toBool] at h
  obtain ⟨o0, hb⟩ := hb
  have hpl : ∀ u ∈ [s% "get"], Plain u := by
    intro u hu; simp only [List.mem_singleton] at hu; subst hu; exact ⟨by decide, by decide, by decide⟩
  obtain ⟨o1, h1, h2⟩ := C27_many_partial okTable_pkg (fam := [([s% "/pet", s% "get"], opX), ([s% "/a", s% "get"], opX)]) rfl
    (by decide) hb (by
      intro q hq
      rcases List.mem_cons.1 hq with rfl | hq
      · exact ⟨rfl, rfl, ⟨_, _, rfl, by decide, hpl⟩, _, _, hr1⟩
      · obtain rfl := List.mem_singleton.1 hq
        exact ⟨rfl, rfl, ⟨_, _, rfl, by decide, hpl⟩, _, _, hr2⟩)
    (List.pairwise_pair.2 ⟨by decide, by decide⟩)
  exact ⟨o0, o1, hb, h1, h2⟩

end Pyopenapi
