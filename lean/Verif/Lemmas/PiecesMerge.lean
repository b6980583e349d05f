import Verif.Lemmas.PiecesRun
import Verif.Props.Merge
import Verif.Lemmas.MainDoc
import Verif.Lemmas.Eval

/-!
# Merging path items along references
-/

namespace Pyopenapi.Main
open _root_.Pyopenapi.Spec _root_.Pyopenapi.Refs.Spec Obj

variable {W : Type}

/-- The children of a path item of a piece are objects. -/
theorem pathItem_kids {out : Outer W} {p : Piece} (hg : p.Good out) {ts : List Str} {q : Option Str} {spec : Json} {kids : Dict Obj}
    (hv : Visited [] p.obj ts (.base (s% "v2_0.PathItem") q spec kids)) {k : Str} {j : Json} : Dict.get? kids k ≠ some (.prim j) := by
  intro hk
  obtain ⟨_, _, _, kids', e, hb, _⟩ := Refs.doc_base (Refs.visited_doc (Refs.doc_of_build hg.wf hg.built) hv)
  cases e
  obtain ⟨cd, d, v, hm, _, _, hbk⟩ := (base_kids hb).2 k _ (Dict.mem_of_get? hk)
  have key : ∀ kc ∈ (pkg (s% "v2_0.PathItem")).children,
      kc.2.builder = .cls (s% "v2_0.Operation") ∨ kc.2.builder = .listOf (.ifNotRef (s% "v2_0.Reference") (.cls (s% "v2_0.Parameter"))) := by
    decide +kernel
  rcases key _ hm with e | e
  · simp only at e
    rw [e] at hbk
    obtain ⟨_, e⟩ := Refs.build_class hbk
    cases e
  · simp only at e
    rw [e] at hbk
    cases v with
    | arr l =>
      rw [build_list] at hbk
      split at hbk
      · cases hbk
      · cases hbk
    | _ => rw [build_list_other _ _ _ (fun l h => by cases h)] at hbk; cases hbk

/-- One step of the merge: what is missing is taken from `o`. -/
theorem merge_step {out : Outer W} {p : Piece} (hg : p.Good out) {ts : List Str} {o : Obj} (hv : Visited [] p.obj ts o)
    (ho : o.className? = some (s% "v2_0.PathItem")) {kids : Dict Obj} {pre : List Obj}
    (hk : ∀ k ∈ Dict.keys (pkg (s% "v2_0.PathItem")).children, Dict.get? kids k = pre.findSome? (kidOf k)) :
    ∃ kids', mergeChildren pkg (.base (s% "v2_0.PathItem") none (.obj []) kids) o = .ok (.base (s% "v2_0.PathItem") none (.obj []) kids') ∧
      ∀ k ∈ Dict.keys (pkg (s% "v2_0.PathItem")).children, Dict.get? kids' k = (pre ++ [o]).findSome? (kidOf k) := by
  cases o with
  | base c q spec kids2 =>
    simp only [className?, Option.some.injEq] at ho
    subst ho
    obtain ⟨h1, h2⟩ := C28_merge okTable_pkg (c := s% "v2_0.PathItem") (p := none) (p' := q) (s := .obj []) (s' := spec) (kids := kids) (kids' := kids2)
    obtain ⟨a', e⟩ := h1.2 (fun k _ _ j hj => absurd hj (pathItem_kids hg hv))
    obtain ⟨kids1, rfl, g1, _⟩ := h2 a' e
    refine ⟨kids1, e, fun k hm => ?_⟩
    rw [g1 k hm, List.findSome?_append, ← hk k hm]
    have hmine : Spec.Gap (Dict.get? kids k) → Dict.get? kids k = none := by
      intro hgap
      cases hc : Dict.get? kids k with
      | none => rfl
      | some x =>
        rw [hc] at hgap
        have h3 := hk k hm
        rw [hc] at h3
        obtain ⟨o', _, h4⟩ := List.exists_of_findSome?_eq_some h3.symm
        cases o' with
        | base c' q' s' ks' =>
          have h4 : (Dict.get? ks' k).filter Obj.truthy = some x := h4
          have := (Option.filter_eq_some_iff.1 h4).2
          have hgap : x.truthy = false := hgap
          rw [this] at hgap
          cases hgap
        | _ => cases h4
    show _ = (Dict.get? kids k).or ([Obj.base (s% "v2_0.PathItem") q spec kids2].findSome? (kidOf k))
    unfold Spec.merged
    split
    · rename_i hgap
      rw [hmine hgap, Option.none_or]
      have : [Obj.base (s% "v2_0.PathItem") q spec kids2].findSome? (kidOf k) = (Dict.get? kids2 k).filter Obj.truthy := by
        rw [List.findSome?_singleton]
        rfl
      rw [this]
      cases hc : Dict.get? kids2 k with
      | none => rw [if_pos gap_none]; rfl
      | some y =>
        cases ht : y.truthy with
        | false => rw [if_pos (gap_some.2 ht)]; simp [Option.filter, ht]
        | true => rw [if_neg (fun h => by rw [gap_some.1 h] at ht; cases ht)]; simp [Option.filter, ht]
    · rename_i hgap
      cases hc : Dict.get? kids k with
      | none => rw [hc] at hgap; exact absurd trivial hgap
      | some y => rfl
  | _ => cases ho

theorem leads_ne {out : Outer W} {main p t : Piece} {n : Str} {y : Obj} (hg : t.Good out) (h : LeadsTo main p n t y) : n ≠ [] := by
  rcases h with ⟨rfl, _⟩ | ⟨_, us, rfl, _, _⟩
  · exact ref_ne hg
  · simp [hg.url.ne]

theorem visits_all {out : Outer W} {main : Piece} {pieces : List Piece} (hA : Application out main pieces) {p : Piece}
    (hp : p = main ∨ p ∈ pieces) {ts : List Str} {x : Obj} (hv : Visited [] p.obj ts x) :
    x ∈ ((main :: pieces).flatMap (fun p => visits p.obj)).map Prod.snd :=
  List.mem_map.2 ⟨(ts, x), List.mem_flatMap.2 ⟨p, by simpa using hp, ((hA.good p hp).scan.2.2 _ _).2 hv⟩, rfl⟩

/-- The loop that merges path items. -/
theorem merge_loop {out : Outer W} {main : Piece} {pieces : List Piece} (hA : Application out main pieces) {k : Nat}
    (hR : Resolves out main pieces k) : ∀ (m : Nat) {rest : List Piece} {a : App Obj (World W)} {p : Piece} {ts : List Str} {x : Obj}
    {seen pre : List Obj} {kids : Dict Obj}, Holds main pieces rest a → Normed out main pieces rest a.world → (∀ p ∈ rest, p ∈ pieces) →
    rest.length ≤ k → (p = main ∨ p ∈ pieces) → p ∉ rest → Reached out main pieces p → Visited [] p.obj ts x →
    x.className? = some (s% "v2_0.PathItem") → seen.Nodup →
    (∀ y ∈ seen, y ∈ ((main :: pieces).flatMap (fun p => visits p.obj)).map Prod.snd) → size main pieces < m + seen.length →
    (∀ k ∈ Dict.keys (pkg (s% "v2_0.PathItem")).children, Dict.get? kids k = pre.findSome? (kidOf k)) →
    ∃ rest' a' l kids', mergeLoop (application out k) (s% "v2_0.PathItem") (s% "2.0") (s% "2.0") m seen (attrsOf a.world x).normalized
        (.base (s% "v2_0.PathItem") none (.obj []) kids) a = (.ok (.base (s% "v2_0.PathItem") none (.obj []) kids'), a') ∧
      Went out main pieces [] rest a rest' a' ∧ Trail out main pieces seen x (x :: l) ∧
      ∀ k ∈ Dict.keys (pkg (s% "v2_0.PathItem")).children, Dict.get? kids' k = (pre ++ l).findSome? (kidOf k)
  | 0, rest, a, p, ts, x, seen, pre, kids, h, hnorm, hrest, hk, hp, hpr, hreach, hv, hx, hnd, hseen, hsize, hkids => by
    have := length_le hnd hseen
    rw [List.length_map] at this
    unfold size at hsize
    omega
  | m + 1, rest, a, p, ts, x, seen, pre, kids, h, hnorm, hrest, hk, hp, hpr, hreach, hv, hx, hnd, hseen, hsize, hkids => by
    obtain ⟨n1, n2⟩ := hnorm p hp hpr ts x hv
    by_cases href : ∃ r, Refers Refs.normClasses2 x r
    · obtain ⟨r, hr⟩ := href
      obtain ⟨n, hn, hnx⟩ := n1 r hr
      obtain ⟨t, y, new, rest1, a1, ht, hlead, e, hw, htr, hreach', hpath⟩ := answers hA hR h hnorm hrest hk hp hpr hreach hv hr hn
        (.cls (s% "v2_0.PathItem")) false (some (s% "2.0")) (.inr rfl) (by
          intro t ht hs
          rcases hs with hs | ⟨hs, _⟩
          · rw [hx] at hs
            exact .inl (by rw [Option.some.inj hs])
          · rw [hx] at hs; cases hs)
      have hpt : Points out main pieces x y := ⟨p, ts, r, n, t, hp, hv, hr, hn, ht, hlead⟩
      obtain ⟨hy, us, hvy⟩ := hpath hx
      rw [hnx]
      have hne := leads_ne (hA.good t ht) hlead
      obtain ⟨c, n', rfl⟩ := List.exists_cons_of_ne_nil hne
      unfold mergeLoop
      rw [e]
      dsimp only
      by_cases hys : y ∈ seen
      · rw [if_pos hys]
        exact ⟨rest1, a1, [], kids, rfl, hw, .again hpt hys, by simpa using hkids⟩
      · rw [if_neg hys]
        obtain ⟨kids1, e1, g1⟩ := merge_step (hA.good t ht) hvy hy hkids
        rw [e1]
        dsimp only
        obtain ⟨rest2, a2, l, kids2, e2, hw2, htr2, g2⟩ := merge_loop hA hR m (pre := pre ++ [y]) (seen := seen ++ [y]) hw.holds hw.normed
          (fun p hp => hrest p (hw.sub p hp)) (Nat.le_trans hw.len hk) ht htr hreach' hvy hy
          (List.nodup_append.2 ⟨hnd, by simp, fun z hz w hw e => hys (by rw [← List.mem_singleton.1 hw, ← e]; exact hz)⟩)
          (by
            intro z hz
            rcases List.mem_append.1 hz with hz | hz
            · exact hseen z hz
            · rw [List.mem_singleton] at hz
              subst hz
              exact visits_all hA ht hvy)
          (by rw [List.length_append, List.length_singleton]; omega) g1
        refine ⟨rest2, a2, y :: l, kids2, e2, hw.trans hA hrest (by simp) hw2, .more hpt hys htr2, fun k hk => ?_⟩
        rw [g2 k hk, List.append_assoc]
        rfl
    · have hnr : ∀ r, ¬ Refers Refs.normClasses2 x r := fun r hr => href ⟨r, hr⟩
      rw [n2 hnr]
      exact ⟨rest, a, [], kids, rfl, Went.refl _ h hnorm, .last hnr, by simpa using hkids⟩

theorem empty_pathItem : build pkg (.cls (s% "v2_0.PathItem")) (.obj []) none [] = .ok (.base (s% "v2_0.PathItem") none (.obj []) []) := by
  exact buildF_sound 5 _ _ _ _ (by decide +kernel)

/-- The merge of a path item. -/
theorem merge_one {out : Outer W} {main : Piece} {pieces : List Piece} (hA : Application out main pieces) {k : Nat}
    (hR : Resolves out main pieces k) (hrounds : size main pieces ≤ out.rounds) {rest : List Piece} {a : App Obj (World W)} {p : Piece}
    {ts : List Str} {x : Obj} (h : Holds main pieces rest a) (hnorm : Normed out main pieces rest a.world) (hrest : ∀ p ∈ rest, p ∈ pieces)
    (hk : rest.length ≤ k) (hp : p = main ∨ p ∈ pieces) (hpr : p ∉ rest) (hreach : Reached out main pieces p) (hv : Visited [] p.obj ts x)
    (hx : x.className? = some (s% "v2_0.PathItem")) :
    ∃ rest' a' f l, mergePathItem out (application out k) (s% "v2_0.PathItem") (s% "2.0") (s% "2.0") x a = (.ok f, a') ∧
      Went out main pieces [] rest a rest' a' ∧ Trail out main pieces [x] x l ∧ MergedFrom l f := by
  unfold mergePathItem
  rw [empty_pathItem]
  dsimp only
  obtain ⟨kids1, e1, g1⟩ := merge_step (hA.good p hp) hv hx (kids := []) (pre := []) (fun _ _ => rfl)
  rw [e1]
  dsimp only
  obtain ⟨rest', a', l, kids', e, hw, htr, g⟩ := merge_loop hA hR out.rounds (seen := [x]) (pre := [x]) h hnorm hrest hk hp hpr hreach hv hx
    (by simp) (by simpa using visits_all hA hp hv) (by simp; omega) g1
  exact ⟨rest', a', _, x :: l, e, hw, htr, kids', rfl, g⟩

theorem final_cons {w : World W} {o f x : Obj} (h : x ≠ o) : final { w with finals := (o, f) :: w.finals } x = final w x := by
  unfold final
  dsimp only
  rw [List.find?_cons]
  have : decide (o = x) = false := by simpa using fun e => h e.symm
  simp only [this]

theorem final_self {w : World W} {o f : Obj} (h : (refValue o).truthy = true) : final { w with finals := (o, f) :: w.finals } o = f := by
  unfold final
  dsimp only
  rw [if_pos h, List.find?_cons]
  simp

/-- The scan that merges the path items of a piece. -/
theorem merge_all {out : Outer W} {main : Piece} {pieces : List Piece} (hA : Application out main pieces) {k : Nat}
    (hR : Resolves out main pieces k) (hrounds : size main pieces ≤ out.rounds) {p : Piece} (hp : p = main ∨ p ∈ pieces)
    (hreach : Reached out main pieces p) : ∀ (L : List (List Str × Obj)) {rest : List Piece} {a : App Obj (World W)},
    (∀ v ∈ L, Visited [] p.obj v.1 v.2) → Holds main pieces rest a → Normed out main pieces rest a.world → (∀ p ∈ rest, p ∈ pieces) →
    rest.length ≤ k → p ∉ rest →
    ∃ rest' a', mergeAll out (application out k) (s% "v2_0.PathItem") (s% "2.0") (s% "2.0") L a = (.ok (), a') ∧
      Went out main pieces [p] rest a rest' a' ∧
      (∀ ts x r, (ts, x) ∈ L → x.className? = some (s% "v2_0.PathItem") → Refers Refs.normClasses2 x r →
        ∃ l, Trail out main pieces [x] x l ∧ MergedFrom l (final a'.world x)) ∧
      (∀ ts x, Visited [] p.obj ts x → attrsOf a'.world x = attrsOf a.world x ∧
        ((∀ us, (us, x) ∉ L) → final a'.world x = final a.world x))
  | [], rest, a, hL, h, hnorm, hrest, hk, hpr => ⟨rest, a, rfl, Went.refl _ h hnorm, by simp, fun _ _ _ => ⟨rfl, fun _ => rfl⟩⟩
  | (us, o) :: L, rest, a, hL, h, hnorm, hrest, hk, hpr => by
    have hvo := hL (us, o) List.mem_cons_self
    have skip : (o.className? = some (s% "v2_0.PathItem") → ∀ r, ¬ Refers Refs.normClasses2 o r) →
        mergeAll out (application out k) (s% "v2_0.PathItem") (s% "2.0") (s% "2.0") ((us, o) :: L) a =
          mergeAll out (application out k) (s% "v2_0.PathItem") (s% "2.0") (s% "2.0") L a →
        ∃ rest' a', mergeAll out (application out k) (s% "v2_0.PathItem") (s% "2.0") (s% "2.0") ((us, o) :: L) a = (.ok (), a') ∧
          Went out main pieces [p] rest a rest' a' ∧
          (∀ ts x r, (ts, x) ∈ (us, o) :: L → x.className? = some (s% "v2_0.PathItem") → Refers Refs.normClasses2 x r →
            ∃ l, Trail out main pieces [x] x l ∧ MergedFrom l (final a'.world x)) ∧
          (∀ ts x, Visited [] p.obj ts x → attrsOf a'.world x = attrsOf a.world x ∧
            ((∀ vs, (vs, x) ∉ (us, o) :: L) → final a'.world x = final a.world x)) := by
      intro hno e
      obtain ⟨rest', a', e', hw, g1, g2⟩ := merge_all hA hR hrounds hp hreach L (fun v hv => hL v (List.mem_cons_of_mem _ hv)) h hnorm hrest hk hpr
      refine ⟨rest', a', e.trans e', hw, fun ts x r hm hc hr => ?_, fun ts x hv => ⟨(g2 ts x hv).1, fun hn =>
        (g2 ts x hv).2 (fun vs hm => hn vs (List.mem_cons_of_mem _ hm))⟩⟩
      rcases List.mem_cons.1 hm with e | hm
      · cases e
        exact absurd hr (hno hc r)
      · exact g1 ts x r hm hc hr
    by_cases hc : o.className? = some (s% "v2_0.PathItem")
    · obtain ⟨c, q, spec, kids, rfl⟩ : ∃ c q spec kids, o = .base c q spec kids := by
        cases o with
        | base c q s ks => exact ⟨_, _, _, _, rfl⟩
        | _ => cases hc
      have hc' := hc
      simp only [className?, Option.some.injEq] at hc'
      subst hc'
      obtain ⟨d, rfl, hd⟩ := hA.linked p hp us _ q spec kids hvo (by decide)
      rcases hd with hd | ⟨r, n, t, y, hd, hne, _⟩
      · refine skip (fun _ r hr => ?_) ?_
        · obtain ⟨_, _, d', _, e, _, hd', _⟩ := hr
          cases e
          rw [hd] at hd'
          cases hd'
        · rw [mergeAll, if_pos hc, Refs.refOf_none (by decide +kernel) (by decide +kernel) hd]
          rfl
      · have hro : Refs.refOf (.base (s% "v2_0.PathItem") q (.obj d) kids) = .ok (.str r) := Refs.refOf_get (by decide +kernel) hd
        have htr : (Json.str r).truthy = true := by
          cases r with
          | nil => exact absurd rfl hne
          | cons _ _ => rfl
        obtain ⟨rest1, a1, f, l, e1, hw1, htrail, hmf⟩ := merge_one hA hR hrounds h hnorm hrest hk hp hpr hreach hvo hc
        generalize ho : Obj.base (s% "v2_0.PathItem") q (.obj d) kids = o at *
        have hp1 : p ∉ rest1 := fun hm => hpr (hw1.sub _ hm)
        have hw1' : Went out main pieces [p] rest a rest1 { a1 with world := { a1.world with finals := (o, f) :: a1.world.finals } } := by
          refine ⟨⟨hw1.holds.versions, hw1.holds.original, hw1.holds.only, hw1.holds.stored, hw1.holds.routes, hw1.holds.fresh⟩, hw1.normed, hw1.sub,
            hw1.len, fun q hq hn => done_more (hw1.done q hq hn) (fun _ h => h) (fun ts x hv => ⟨rfl, final_cons ?_⟩), fun x hx => ?_, hw1.got, hw1.current⟩
          · rintro rfl
            exact (hA.apart q p (.inr (hrest q hq)) hp (fun e => hpr (e ▸ hq))).1 _ _ _ hv hvo
          · obtain ⟨h1, h2⟩ := hw1.same x (fun q hq => hx q (.inr (hq.resolve_left (by simp))))
            refine ⟨h1, (final_cons ?_).trans h2⟩
            rintro rfl
            exact hx p (.inl (by simp)) us hvo
        obtain ⟨rest2, a2, e2, hw2, g1, g2⟩ := merge_all hA hR hrounds hp hreach L (fun v hv => hL v (List.mem_cons_of_mem _ hv)) hw1'.holds hw1'.normed
          (fun q hq => hrest q (hw1.sub q hq)) (Nat.le_trans hw1.len hk) hp1
        have hkeep : ∀ ts x, Visited [] p.obj ts x → attrsOf a1.world x = attrsOf a.world x ∧ final a1.world x = final a.world x := fun ts x hv =>
          hw1.keep hA hrest (by simp) hp hpr (by simp) hv
        refine ⟨rest2, a2, ?_, hw1'.trans hA hrest (by simpa using ⟨hp, hpr⟩) hw2, fun ts x r hm hcx hr => ?_, fun ts x hv => ⟨?_, fun hn => ?_⟩⟩
        · rw [mergeAll, if_pos hc, hro]
          dsimp only
          rw [if_pos htr, e1]
          exact e2
        · by_cases hin : ∃ vs, (vs, x) ∈ L
          · obtain ⟨vs, hin⟩ := hin
            exact g1 vs x r hin hcx hr
          · rcases List.mem_cons.1 hm with e | hm
            · cases e
              refine ⟨l, htrail, ?_⟩
              rw [(g2 _ _ hvo).2 (fun vs hm => hin ⟨vs, hm⟩)]
              have : (refValue o).truthy = true := by
                unfold refValue
                rw [hro]
                exact htr
              rw [final_self this]
              exact hmf
            · exact absurd ⟨ts, hm⟩ hin
        · exact (g2 ts x hv).1.trans (hkeep ts x hv).1
        · rw [(g2 ts x hv).2 (fun vs hm => hn vs (List.mem_cons_of_mem _ hm)), final_cons (fun e => hn us (by rw [e]; exact List.mem_cons_self))]
          exact (hkeep ts x hv).2
    · refine skip (fun e => absurd e hc) ?_
      rw [mergeAll, if_neg hc]

end Pyopenapi.Main
