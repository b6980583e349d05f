import Verif.Spec.Routes
import Verif.Lemmas.Store

namespace Pyopenapi
open Spec

theorem prefix_len_eq {s a b ra rb : Str} (ha : s = a ++ ra) (hb : s = b ++ rb)
    (hl : a.length = b.length) : a = b := by
  subst ha
  exact List.append_inj_left hb hl

/-- Invariant of the scan over the table. -/
theorem pickRoute_longest (remain : Str) (rs : Routes) :
    ∀ (seen : Routes) (best : Option (Str × Route)),
      (best = none → ∀ f t, (f, t) ∈ seen → ¬ ∃ r, remain = f ++ r) →
      (∀ f t, best = some (f, t) → Longest seen remain f t) →
      (pickRoute remain rs best = none → ∀ f t, (f, t) ∈ seen ++ rs → ¬ ∃ r, remain = f ++ r) ∧
      (∀ f t, pickRoute remain rs best = some (f, t) → Longest (seen ++ rs) remain f t) := by
  induction rs with
  | nil => intro seen best h1 h2; simp only [pickRoute, List.append_nil]; exact ⟨h1, h2⟩
  | cons p rs ih =>
    intro seen best h1 h2
    obtain ⟨f, t⟩ := p
    simp only [pickRoute]
    have app : seen ++ (f, t) :: rs = (seen ++ [(f, t)]) ++ rs := by simp
    rw [app]
    by_cases hs : Str.startsWith remain f = true
    · rw [if_pos hs]
      have hpre := Str.startsWith_iff.1 hs
      cases best with
      | none =>
        apply ih (seen ++ [(f, t)]) (some (f, t))
        · simp
        · intro f' t' he
          simp only [Option.some.injEq, Prod.mk.injEq] at he
          obtain ⟨rfl, rfl⟩ := he
          refine ⟨by simp, hpre, ?_⟩
          intro f' t' hm hp
          rcases List.mem_append.1 hm with hm | hm
          · exact absurd hp (h1 rfl f' t' hm)
          · simp only [List.mem_singleton, Prod.mk.injEq] at hm; rw [hm.1]; exact Nat.le_refl _
      | some b =>
        obtain ⟨pf, pt⟩ := b
        obtain ⟨m1, m2, m3⟩ := h2 pf pt rfl
        simp only
        split
        · rename_i hc
          apply ih (seen ++ [(f, t)]) (some (f, t))
          · simp
          · intro f' t' he
            simp only [Option.some.injEq, Prod.mk.injEq] at he
            obtain ⟨rfl, rfl⟩ := he
            refine ⟨by simp, hpre, ?_⟩
            intro f' t' hm hp
            rcases List.mem_append.1 hm with hm | hm
            · have := m3 f' t' hm hp
              rcases hc with hc | hc
              · subst hc; simp at this; simp [this]
              · omega
            · simp only [List.mem_singleton, Prod.mk.injEq] at hm; rw [hm.1]; exact Nat.le_refl _
        · rename_i hc
          apply ih (seen ++ [(f, t)]) (some (pf, pt))
          · simp
          · intro f' t' he
            simp only [Option.some.injEq, Prod.mk.injEq] at he
            obtain ⟨rfl, rfl⟩ := he
            refine ⟨by simp [m1], m2, ?_⟩
            intro f' t' hm hp
            rcases List.mem_append.1 hm with hm | hm
            · exact m3 f' t' hm hp
            · simp only [List.mem_singleton, Prod.mk.injEq] at hm
              rw [hm.1]
              simp only [not_or] at hc
              omega
    · rw [if_neg hs]
      have hnp : ¬ ∃ r, remain = f ++ r := fun h => hs (Str.startsWith_iff.2 h)
      apply ih (seen ++ [(f, t)]) best
      · intro hb f' t' hm hp
        rcases List.mem_append.1 hm with hm | hm
        · exact h1 hb f' t' hm hp
        · simp only [List.mem_singleton, Prod.mk.injEq] at hm; rw [hm.1] at hp; exact hnp hp
      · intro f' t' hb
        obtain ⟨m1, m2, m3⟩ := h2 f' t' hb
        refine ⟨by simp [m1], m2, ?_⟩
        intro f'' t'' hm hp
        rcases List.mem_append.1 hm with hm | hm
        · exact m3 f'' t'' hm hp
        · simp only [List.mem_singleton, Prod.mk.injEq] at hm; rw [hm.1] at hp; exact absurd hp hnp

theorem pickRoute_some {remain : Str} {rs : Routes} {f : Str} {t : Route}
    (h : pickRoute remain rs none = some (f, t)) : Longest rs remain f t := by
  simpa using (pickRoute_longest remain rs [] none (by simp) (by simp)).2 f t h

theorem pickRoute_none {remain : Str} {rs : Routes}
    (h : pickRoute remain rs none = none) : ∀ f t, (f, t) ∈ rs → ¬ ∃ r, remain = f ++ r := by
  simpa using (pickRoute_longest remain rs [] none (by simp) (by simp)).1 h

theorem longest_unique {rs : Routes} (hn : Dict.NodupKeys rs) {s f f' : Str} {t t' : Route}
    (h : Longest rs s f t) (h' : Longest rs s f' t') : f = f' ∧ t = t' := by
  obtain ⟨a1, ⟨r, a2⟩, a3⟩ := h
  obtain ⟨b1, ⟨r', b2⟩, b3⟩ := h'
  have hl : f.length = f'.length := Nat.le_antisymm (b3 f t a1 ⟨r, a2⟩) (a3 f' t' b1 ⟨r', b2⟩)
  have hf := prefix_len_eq a2 b2 hl
  subst hf
  have := Dict.get?_of_mem hn a1
  rw [Dict.get?_of_mem hn b1] at this
  simp at this
  exact ⟨rfl, this.symm⟩

theorem pickRoute_of_longest {rs : Routes} (hn : Dict.NodupKeys rs) {s f : Str} {t : Route}
    (h : Longest rs s f t) : pickRoute s rs none = some (f, t) := by
  cases hp : pickRoute s rs none with
  | none => exact absurd h.2.1 (pickRoute_none hp f t h.1)
  | some x =>
    obtain ⟨f', t'⟩ := x
    obtain ⟨rfl, rfl⟩ := longest_unique hn h (pickRoute_some hp)
    rfl

theorem pickRoute_of_none {rs : Routes} {s : Str}
    (h : ∀ f t, (f, t) ∈ rs → ¬ ∃ r, s = f ++ r) : pickRoute s rs none = none := by
  cases hp : pickRoute s rs none with
  | none => rfl
  | some x =>
    obtain ⟨f', t'⟩ := x
    obtain ⟨h1, h2, _⟩ := pickRoute_some hp
    exact absurd h2 (h f' t' h1)

/-! ### same content, any order -/

theorem sameRoutes_mem {d e : Routes} (h : SameRoutes d e) :
    (∀ f t, (f, t) ∈ d → ∃ t', (f, t') ∈ e ∧ SameRoute t t') ∧
    (∀ f t', (f, t') ∈ e → ∃ t, (f, t) ∈ d ∧ SameRoute t t') := by
  match h with
  | .nil => simp
  | .cons (f := f) (t := t) (t' := t') (e1 := e1) (e2 := e2) hr hd =>
    obtain ⟨i1, i2⟩ := sameRoutes_mem hd
    constructor
    · intro f0 t0 hm
      rcases List.mem_cons.1 hm with he | hm
      · simp only [Prod.mk.injEq] at he
        obtain ⟨rfl, rfl⟩ := he
        exact ⟨t', by simp, hr⟩
      · obtain ⟨x, hx, hs⟩ := i1 f0 t0 hm
        refine ⟨x, ?_, hs⟩
        rcases List.mem_append.1 hx with hx | hx
        · exact List.mem_append.2 (Or.inl hx)
        · exact List.mem_append.2 (Or.inr (List.mem_cons_of_mem _ hx))
    · intro f0 t0 hm
      have : (f0, t0) = (f, t') ∨ (f0, t0) ∈ e1 ++ e2 := by
        rcases List.mem_append.1 hm with hm | hm
        · right; exact List.mem_append.2 (Or.inl hm)
        · rcases List.mem_cons.1 hm with hm | hm
          · exact Or.inl hm
          · right; exact List.mem_append.2 (Or.inr hm)
      rcases this with he | hm
      · simp only [Prod.mk.injEq] at he
        obtain ⟨rfl, rfl⟩ := he
        exact ⟨t, by simp, hr⟩
      · obtain ⟨x, hx, hs⟩ := i2 f0 t0 hm
        exact ⟨x, by simp [hx], hs⟩

theorem sameRoutes_nil {d e : Routes} (h : SameRoutes d e) : d = [] ↔ e = [] := by
  match h with
  | .nil => simp
  | .cons _ _ => simp

theorem longest_same {d e : Routes} (h : SameRoutes d e) {s f : Str} {t : Route}
    (hl : Longest d s f t) : ∃ t', Longest e s f t' ∧ SameRoute t t' := by
  obtain ⟨i1, i2⟩ := sameRoutes_mem h
  obtain ⟨h1, h2, h3⟩ := hl
  obtain ⟨t', ht', hs⟩ := i1 f t h1
  refine ⟨t', ⟨ht', h2, ?_⟩, hs⟩
  intro f' t'' hm hp
  obtain ⟨x, hx, _⟩ := i2 f' t'' hm
  exact h3 f' x hx hp

theorem patchLoop_unfold (routes : Routes) (fixed remain : Str) :
    patchLoop routes fixed remain =
      match pickRoute remain routes none with
      | none => none
      | some (pf, .to s) => if s = [] then none else some (fixed, pf, s)
      | some (pf, .nested d) =>
        if d = [] then none
        else patchLoop d (fixed ++ (if fixed = [] then [] else ['/']) ++ pf)
          (if Str.startsWith (remain.drop pf.length) ['/'] then (remain.drop pf.length).drop 1
            else remain.drop pf.length) := by
  rw [patchLoop]
  split <;> rename_i h <;> simp [h]

theorem patchLoop_same {d e : Routes} (h : SameRoutes d e) (hd : UniqueRoutes d)
    (he : UniqueRoutes e) (fixed remain : Str) :
    patchLoop d fixed remain = patchLoop e fixed remain := by
  have hnd : Dict.NodupKeys d := by cases hd; assumption
  have hne : Dict.NodupKeys e := by cases he; assumption
  rw [patchLoop_unfold d, patchLoop_unfold e]
  cases hp : pickRoute remain d none with
  | none =>
    have h1 := pickRoute_none hp
    have h2 : pickRoute remain e none = none := by
      apply pickRoute_of_none
      intro f t hm hpre
      obtain ⟨x, hx, _⟩ := (sameRoutes_mem h).2 f t hm
      exact h1 f x hx hpre
    simp [h2]
  | some x =>
    obtain ⟨f, t⟩ := x
    have hl := pickRoute_some hp
    obtain ⟨t', hl', hs⟩ := longest_same h hl
    rw [pickRoute_of_longest hne hl']
    cases hs with
    | to s => rfl
    | @nested d' e' hde =>
      have hd' : UniqueRoutes d' := by
        cases hd with
        | mk _ hall => have := hall f _ hl.1; cases this; assumption
      have he' : UniqueRoutes e' := by
        cases he with
        | mk _ hall => have := hall f _ hl'.1; cases this; assumption
      simp only
      by_cases hnil : d' = []
      · have := (sameRoutes_nil hde).1 hnil
        simp [hnil, this]
      · have : ¬ e' = [] := fun h => hnil ((sameRoutes_nil hde).2 h)
        simp only [hnil, this, if_false]
        exact patchLoop_same hde hd' he' _ _
termination_by sizeOf d
decreasing_by exact sizeOf_routes_of_mem hl.1

/-! ### relocate on a sorted table -/

/-- The routes applied: those of the versions in `(from, to]`. -/
def inRange (pv : Str → StrictVersion) (f t : StrictVersion) (v : Str) : Bool :=
  StrictVersion.lt f (pv v) && !StrictVersion.lt t (pv v)

theorem relocateLoop_sorted {table : Dict Routes} {pv : Str → StrictVersion}
    (ho : VersionOrder (Dict.keys table) pv) (f t : StrictVersion) (cur : Str) :
    relocateLoop f t table cur =
      .ok ((table.filter (fun p => inRange pv f t p.1)).foldl (fun c p => patchJp c p.2) cur) := by
  induction table generalizing cur with
  | nil => rfl
  | cons x rest ih =>
    obtain ⟨v, rs⟩ := x
    have ho' : VersionOrder (Dict.keys rest) pv :=
      ⟨fun w hw => ho.parse w (by simp [Dict.keys] at hw ⊢; exact Or.inr hw),
        (List.pairwise_cons.1 ho.sorted).2⟩
    have hv := ho.parse v (by simp [Dict.keys])
    simp only [relocateLoop, hv, bind, Except.bind]
    by_cases h1 : StrictVersion.lt f (pv v) = false
    · rw [if_pos h1, ih ho']
      simp [inRange, h1]
    · rw [if_neg h1]
      simp only [Bool.not_eq_false] at h1
      by_cases h2 : StrictVersion.lt t (pv v) = true
      · rw [if_pos h2]
        have : ((v, rs) :: rest).filter (fun p => inRange pv f t p.1) = [] := by
          rw [List.filter_eq_nil_iff]
          intro p hp
          rcases List.mem_cons.1 hp with rfl | hp
          · simp [inRange, h2]
          · have hlt := (List.pairwise_cons.1 ho.sorted).1 p.1 (List.mem_map.2 ⟨p, hp, rfl⟩)
            have : StrictVersion.lt t (pv p.1) = true := by
              cases hc : StrictVersion.lt t (pv p.1) with
              | true => rfl
              | false =>
                have h3 := StrictVersion.lt_strictWeak.asymm _ _ hlt
                have := StrictVersion.lt_strictWeak.negtrans _ _ _ hc h3
                rw [this] at h2; simp at h2
            simp [inRange, this]
        simp [this]
      · rw [if_neg h2, ih ho']
        simp only [Bool.not_eq_true] at h2
        simp [inRange, h1, h2]

theorem filter_range_split {table : Dict Routes} {pv : Str → StrictVersion}
    (hs : (Dict.keys table).Pairwise (fun a b => StrictVersion.lt (pv a) (pv b) = true))
    {a b c : StrictVersion} (hab : StrictVersion.lt b a = false) (hbc : StrictVersion.lt c b = false) :
    table.filter (fun p => inRange pv a c p.1) =
      table.filter (fun p => inRange pv a b p.1) ++ table.filter (fun p => inRange pv b c p.1) := by
  have W := StrictVersion.lt_strictWeak
  induction table with
  | nil => rfl
  | cons x rest ih =>
    obtain ⟨v, rs⟩ := x
    have hs' := List.pairwise_cons.1 hs
    have ih := ih hs'.2
    cases hbv : StrictVersion.lt b (pv v) with
    | false =>
      -- v <= b
      have hcv : StrictVersion.lt c (pv v) = false := W.negtrans _ _ _ hbc hbv
      cases hav : StrictVersion.lt a (pv v) <;>
        simp [List.filter_cons, inRange, hbv, hcv, hav] <;> simpa [inRange] using ih
    | true =>
      -- v > b, hence everything later too
      have hav : StrictVersion.lt a (pv v) = true := by
        cases hc : StrictVersion.lt a (pv v) with
        | true => rfl
        | false => have := W.negtrans _ _ _ hab hc; rw [this] at hbv; simp at hbv
      have hrest : rest.filter (fun p => inRange pv a b p.1) = [] := by
        rw [List.filter_eq_nil_iff]
        intro p hp
        have hlt := hs'.1 p.1 (List.mem_map.2 ⟨p, hp, rfl⟩)
        have : StrictVersion.lt b (pv p.1) = true := by
          cases hc : StrictVersion.lt b (pv p.1) with
          | true => rfl
          | false =>
            have := W.negtrans _ _ _ hc (W.asymm _ _ hlt)
            rw [this] at hbv; simp at hbv
        simp [inRange, this]
      rw [hrest] at ih
      simp only [List.nil_append] at ih
      cases hcv : StrictVersion.lt c (pv v) <;>
        simp [List.filter_cons, inRange, hbv, hcv, hav] <;>
        simp only [inRange] at ih hrest <;> simp [ih] at hrest ⊢ <;> exact hrest

/-! ### invariant of the route tables -/

variable {O : Type}

/-- Every url's table has one entry per supported version, in that order. -/
def Store.RWf (st : Store O) : Prop :=
  ∀ url r, Dict.get? st.routes url = some r → Dict.keys r = st.versions

theorem keys_initTable (vs : List Str) (hn : vs.Nodup) :
    Dict.keys (vs.foldl (fun d v => Dict.set d v ([] : Routes)) []) = vs := by
  have : ∀ (vs : List Str) (d : Dict Routes), (Dict.keys d ++ vs).Nodup →
      Dict.keys (vs.foldl (fun d v => Dict.set d v ([] : Routes)) d) = Dict.keys d ++ vs := by
    intro vs
    induction vs with
    | nil => intro d _; simp
    | cons v vs ih =>
      intro d hd
      have hv : v ∉ Dict.keys d := by
        intro hm
        rw [List.nodup_append] at hd
        exact hd.2.2 v hm v (by simp) rfl
      rw [List.foldl_cons, ih]
      · rw [Dict.keys_set, if_neg hv]; simp
      · rw [Dict.keys_set, if_neg hv]; simpa using hd
  simpa [Dict.keys] using this vs [] (by simpa [Dict.keys] using hn)

theorem get?_initTable (vs : List Str) (v : Str) :
    Dict.get? (vs.foldl (fun d v => Dict.set d v ([] : Routes)) []) v =
      if v ∈ vs then some [] else none := by
  have : ∀ (vs : List Str) (d : Dict Routes), Dict.get? (vs.foldl (fun d v => Dict.set d v ([] : Routes)) d) v =
      if v ∈ vs then some [] else Dict.get? d v := by
    intro vs
    induction vs with
    | nil => intro d; simp
    | cons w vs ih =>
      intro d
      rw [List.foldl_cons, ih, Dict.get?_set]
      by_cases h : v ∈ vs
      · simp [h]
      · by_cases h2 : w = v
        · subst h2; simp [h]
        · have : ¬ v = w := fun e => h2 e.symm
          simp [h, h2, this]
  simpa using this vs []

theorem versions_step (st : Store O) (op : StoreOp O) : (st.step op).versions = st.versions := by
  cases op with
  | set => rfl
  | updateRoutes u t rs => simp only [Store.step, Store.updateRoutes]; split <;> rfl
  | getUnder u p v r =>
    simp only [Store.step, Store.getUnder]
    split
    · rename_i x st' hx
      split at hx
      · simp at hx
      · split at hx
        · simp only [Except.ok.injEq, Prod.mk.injEq] at hx; rw [← hx.2]
        · split at hx
          · simp only [Except.ok.injEq, Prod.mk.injEq] at hx; rw [← hx.2]
          · simp only [Except.ok.injEq, Prod.mk.injEq] at hx; rw [← hx.2]; split <;> rfl
    · rfl

theorem routes_step (st : Store O) (op : StoreOp O) (h : ∀ u t rs, op ≠ .updateRoutes u t rs) :
    (st.step op).routes = st.routes := by
  cases op with
  | set => rfl
  | updateRoutes u t rs => exact absurd rfl (h u t rs)
  | getUnder u p v r =>
    simp only [Store.step, Store.getUnder]
    split
    · rename_i x st' hx
      split at hx
      · simp at hx
      · split at hx
        · simp only [Except.ok.injEq, Prod.mk.injEq] at hx; rw [← hx.2]
        · split at hx
          · simp only [Except.ok.injEq, Prod.mk.injEq] at hx; rw [← hx.2]
          · simp only [Except.ok.injEq, Prod.mk.injEq] at hx; rw [← hx.2]; split <;> rfl
    · rfl

theorem rwf_updateRoutes {st : Store O} (h : st.RWf) (hn : st.versions.Nodup) (u t : Str) (rs : Routes) :
    (st.updateRoutes u t rs).1.RWf ∧ (st.updateRoutes u t rs).1.versions = st.versions := by
  have hk : Dict.keys (st.tableFor u) = st.versions := by
    unfold Store.tableFor
    cases hu : Dict.get? st.routes u with
    | none => exact keys_initTable _ hn
    | some r => exact h u r hu
  simp only [Store.updateRoutes]
  split
  · rename_i hc
    refine ⟨?_, rfl⟩
    intro url r hr
    simp only [Dict.get?_set] at hr
    split at hr
    · simp only [Option.some.injEq] at hr; rw [← hr]; exact hk
    · exact h url r hr
  · rename_i r0 hc
    refine ⟨?_, rfl⟩
    intro url r hr
    simp only [Dict.get?_set] at hr
    split at hr
    · simp only [Option.some.injEq] at hr
      rw [← hr, Dict.keys_set, if_pos]
      · exact hk
      · rw [← Dict.get?_isSome_iff, hc]; rfl
    · exact h url r hr

theorem rwf_run (versions : List Str) (hn : versions.Nodup) (hist : List (StoreOp O)) :
    (Store.run versions hist).RWf ∧ (Store.run versions hist).versions = versions := by
  have : ∀ (hist : List (StoreOp O)) (st : Store O), st.RWf → st.versions = versions →
      (hist.foldl Store.step st).RWf ∧ (hist.foldl Store.step st).versions = versions := by
    intro hist
    induction hist with
    | nil => intro st h1 h2; exact ⟨h1, h2⟩
    | cons op hist ih =>
      intro st h1 h2
      apply ih
      · by_cases hop : ∃ u t rs, op = .updateRoutes u t rs
        · obtain ⟨u, t, rs, rfl⟩ := hop
          exact (rwf_updateRoutes h1 (by rw [h2]; exact hn) u t rs).1
        · intro url r hr
          rw [routes_step st op (fun u t rs he => hop ⟨u, t, rs, he⟩)] at hr
          rw [versions_step]
          exact h1 url r hr
      · rw [versions_step, h2]
  exact this hist (Store.init versions) (by intro url r h; simp [Store.init] at h) rfl

theorem versionOrder_nodup {versions : List Str} {pv : Str → StrictVersion}
    (ho : VersionOrder versions pv) : versions.Nodup := by
  refine ho.sorted.imp ?_
  intro a b hab he
  subst he
  have := StrictVersion.lt_strictWeak.asymm _ _ hab
  rw [this] at hab; simp at hab

/-- `relocate` of a reachable store between supported versions, as a fold. -/
theorem relocate_eq {versions : List Str} {pv : Str → StrictVersion} (ho : VersionOrder versions pv)
    (hist : List (StoreOp O)) (url jp a b : Str) (ha : a ∈ versions) (hb : b ∈ versions) :
    (Store.run versions hist).relocate url jp a b =
      .ok ((((Dict.get? (Store.run versions hist).routes url).getD []).filter
        (fun p => inRange pv (pv a) (pv b) p.1)).foldl (fun c p => patchJp c p.2) jp) := by
  obtain ⟨hr, hv⟩ := rwf_run (O := O) versions (versionOrder_nodup ho) hist
  unfold Store.relocate
  cases hu : Dict.get? (Store.run versions hist).routes url with
  | none => simp
  | some r =>
    have hk := hr url r hu
    rw [hv] at hk
    simp only [Option.getD_some]
    rw [if_pos (Dict.has_iff.2 (by rw [hk]; exact hb)), ho.parse a ha, ho.parse b hb]
    simp only [bind, Except.bind]
    exact relocateLoop_sorted (by rw [hk]; exact ho) _ _ _

end Pyopenapi
