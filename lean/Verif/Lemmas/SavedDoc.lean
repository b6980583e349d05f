import Verif.Lemmas.Saved
import Verif.Spec.Main
import Verif.Lemmas.MainDoc
import Verif.Lemmas.MainEnv
import Verif.Lemmas.Kinds

/-! # What a saved document has in common with the one it was made from -/

namespace Pyopenapi
open Spec Obj

variable {f : Obj → Option Str}

theorem forall₂_mid {α β γ : Type} {A : α → β → Prop} {B : β → γ → Prop} {D : α → γ → Prop} {l : List α} {es : List β} {r : List γ}
    (h1 : List.Forall₂ A l es) (h2 : List.Forall₂ B es r) (h : ∀ x ∈ l, ∀ o ∈ es, ∀ y, A x o → B o y → D x y) : List.Forall₂ D l r := by
  induction h1 generalizing r with
  | nil => cases h2; exact .nil
  | cons ha _ ih =>
    cases h2 with
    | cons hb h2 => exact .cons (h _ (by simp) _ (by simp) _ ha hb) (ih h2 (fun x hx o ho => h x (by simp [hx]) o (by simp [ho])))

theorem members_wf : ∀ l : Dict Json, (∀ k x, (k, x) ∈ l → x.wf = true) → Json.wfD l = true
  | [], _ => rfl
  | (k, x) :: l, h => by
    simp only [Json.wfD, Bool.and_eq_true]
    exact ⟨h k x (by simp), members_wf l (fun k x hx => h k x (List.mem_cons_of_mem _ hx))⟩

theorem dump_rewritten_wf (b : Builder) (j : Json) : okBuilder pkg b = true → j.wf = true → ∀ (p : Option Str) (o : Obj) (j' : Json),
    build pkg b j p [] = .ok o → Rewritable f o → Obj.dump pkg (rewritten f o) = .ok j' → j'.wf = true := by
  refine build_ind (P := fun b j => okBuilder pkg b = true → j.wf = true → ∀ (p : Option Str) (o : Obj) (j' : Json),
    build pkg b j p [] = .ok o → Rewritable f o → Obj.dump pkg (rewritten f o) = .ok j' → j'.wf = true)
    ?_ ?_ ?_ ?_ ?_ ?_ ?_ b j
  · intro c j ih _ hj p o j' hb hr hd
    obtain ⟨kids, d', rfl, rfl, hn, hk, hkid, hfield, hsub, _⟩ := dump_rewritten hb hr hd
    have hc := okTable_pkg.cls c
    simp only [Json.wf, Bool.and_eq_true, decide_eq_true_eq]
    refine ⟨hn, members_wf _ fun k v hm => ?_⟩
    have hg := Dict.get?_of_mem hn hm
    rcases hsub k (List.mem_map.2 ⟨_, hm, rfl⟩) with h | h
    · obtain ⟨⟨k', cd⟩, hm', hk'⟩ := List.mem_map.1 h
      simp only at hk'; subst hk'
      rw [hkid _ _ hm'] at hg
      obtain ⟨z, hz, hz2⟩ := Option.bind_eq_some_iff.1 hg
      obtain ⟨y, hy, rfl⟩ := Option.map_eq_some_iff.1 hz
      obtain ⟨_, hdv⟩ := dk_some.1 (kept_some.1 hz2)
      have hy' := hy
      rw [Dict.get?_collect hc.children hk] at hy
      obtain ⟨cd, hcd, hy2⟩ := Option.bind_eq_some_iff.1 hy
      obtain ⟨d0, v0, rfl, hv0, _, hb0⟩ := kid_some.1 (kept_some.1 hy2)
      exact ih cd.builder v0 (size_get hv0) (childBuilder_ok (hc.child _ cd (Dict.mem_of_get? hcd))) (wf_at hj hv0) _ _ _ hb0
        (hr.inside fun a ha => .child (Dict.mem_of_get? hy') ha) hdv
    · obtain ⟨⟨k', fd⟩, hm', hk'⟩ := List.mem_map.1 h
      simp only at hk'; subst hk'
      have e := hfield _ _ hm'
      rw [hg] at e
      have hsaid : ∀ v, some v = said k' j → v.wf = true := by
        intro v hv
        obtain ⟨d0, rfl, h0, _⟩ := said_some.1 hv.symm
        exact wf_at hj h0
      split at e
      · cases hf : f (.base c p j kids) with
        | none => rw [hf] at e; exact hsaid _ e
        | some x => rw [hf] at e; simp only [Option.map_some, Option.some_or, Option.some.injEq] at e; subst e; rfl
      · exact hsaid _ e
  · intro j _ _ p o j' hb _ hd
    rw [build_prim (b := .isStr) rfl hb] at hd
    simp [rewritten, Obj.dump] at hd
  · intro j _ _ p o j' hb _ hd
    rw [build_prim (b := .isStrOrInt) rfl hb] at hd
    simp [rewritten, Obj.dump] at hd
  · intro b j ih hok hj p o j' hb hr hd
    obtain ⟨hokb, hkind⟩ := elem_kind hok
    by_cases hjl : ∃ l, j = .arr l
    · obtain ⟨l, rfl⟩ := hjl
      rw [build_list] at hb
      split at hb
      · simp at hb
      · rename_i es hes
        simp only [Except.ok.injEq] at hb
        subst hb
        have hf := buildElems_forall₂ hes
        rw [rewritten] at hd
        rcases buildElems_kind hkind hes with ⟨hob, hnp⟩ | ⟨hpb, hprim⟩
        · rw [dump_list_obj b p _ (by
            intro o ho
            rw [rewrittenL_eq] at ho
            obtain ⟨y, hy, rfl⟩ := List.mem_map.1 ho
            rw [rewritten_isPrim]; exact hnp y hy)] at hd
          split at hd
          · simp at hd
          · rename_i r hrr
            simp only [Except.ok.injEq] at hd
            subst hd
            rw [rewrittenL_eq] at hrr
            have h2 := forall₂_left_map (dumpList_iff.1 hrr)
            have h3 : List.Forall₂ (fun (_ : Json) y => y.wf = true) l r := by
              refine forall₂_mid hf h2 ?_
              rintro x hx o ho y ⟨q, hq⟩ hoy
              exact ih x (size_elem hx) hokb (wf_list hj hx) _ _ _ hq (hr.inside fun a ha => .elem ho ha) hoy
            exact forall₂_wfL h3 fun _ _ h => h
        · subst hprim
          have e : rewrittenL f (l.map Obj.prim) = l.map Obj.prim := by
            rw [rewrittenL_eq, List.map_map]; apply List.map_congr_left; intro x _; simp [rewritten]
          rw [e, dump_list_prim] at hd
          simp only [Except.ok.injEq] at hd
          subst hd
          exact hj
    · rw [build_list_other b j p (fun l hl => hjl ⟨l, hl⟩)] at hb; simp at hb
  · intro b j ih hok hj p o j' hb hr hd
    obtain ⟨hokb, hkind⟩ := item_kind hok
    by_cases hjl : ∃ l, j = .obj l
    · obtain ⟨d, rfl⟩ := hjl
      rw [build_map] at hb
      split at hb
      · simp at hb
      · rename_i es hes
        simp only [Except.ok.injEq] at hb
        subst hb
        have hf := buildItems_forall₂ hes
        rw [rewritten, dump_map] at hd
        split at hd
        · simp at hd
        · rename_i r hrr
          simp only [Except.ok.injEq] at hd
          subst hd
          rw [rewrittenD_eq] at hrr
          have h2 := forall₂_left_map (Dict.mapM_ok hrr)
          have h3 : List.Forall₂ (fun (x y : Str × Json) => x.1 = y.1 ∧ y.2.wf = true) d r := by
            refine forall₂_mid hf h2 ?_
            rintro ⟨k, x⟩ hx ⟨k1, o⟩ ho ⟨k2, y⟩ ⟨hk1, q, hq⟩ ⟨hk2, hoy⟩
            simp only at hk1 hk2 hq hoy
            subst hk1 hk2
            refine ⟨rfl, ?_⟩
            simp only
            rcases hkind with hob | hpb
            · rw [dumpElem_obj (by rw [rewritten_isPrim]; exact build_isPrim hob hq)] at hoy
              exact ih x (size_item hx) hokb (wf_member hj hx) _ _ _ hq (hr.inside fun a ha => .item ho ha) hoy
            · have e := build_prim hpb hq
              subst e
              rw [rewritten] at hoy
              cases hoy
              exact wf_member hj hx
          exact forall₂_wfD (P := fun _ y => y.wf = true) h3 (wf_nodup hj) fun _ _ h => h
    · rw [build_map_other b j p (fun l hl => hjl ⟨l, hl⟩)] at hb; simp at hb
  · intro r b j ihr ihb hok hj p o j' hb hr hd
    simp only [okBuilder, Bool.and_eq_true] at hok
    rw [build_ifNotRef] at hb
    split at hb
    · simp at hb
    · exact ihr rfl hj _ _ _ hb hr hd
    · exact ihb hok.1.2 hj _ _ _ hb hr hd
  · intro b j ih hok hj p o j' hb hr hd
    simp only [okBuilder, Bool.and_eq_true] at hok
    rw [build_ifNotBool] at hb
    split at hb
    · simp only [Except.ok.injEq] at hb; subst hb; simp [rewritten, Obj.dump] at hd
    · exact ih hok.1 hj _ _ _ hb hr hd

theorem saved_isBase {o o' : Obj} (h : SavedAs f o o') : o'.isBase = o.isBase := by cases h <;> rfl
theorem saved_isPrim {o o' : Obj} (h : SavedAs f o o') : o'.isPrim = o.isPrim := by cases h <;> rfl

theorem saved_slot {o o' y' : Obj} {k : Str} (h : SavedAs f o o') (hk : Keyed o') (hs : Slot o' k y') :
    ∃ y, Slot o k y ∧ SavedAs f y y' := by
  have hk0 := hk _ (.here _)
  cases hs with
  | child hm =>
    cases h with
    | base _ h2 h3 =>
      have hg := Dict.get?_of_mem hk0 hm
      obtain ⟨y, hy, _⟩ := (h2 k).1 ⟨_, hg⟩
      exact ⟨y, .child (Dict.mem_of_get? hy), h3 k _ _ hy hg⟩
  | item hm =>
    cases h with
    | @map _ _ _ _ _ _ es es' h1 h2 =>
      have hg := Dict.get?_of_mem hk0 hm
      have hin : k ∈ Dict.keys es := by rw [← h1]; exact List.mem_map.2 ⟨_, hm, rfl⟩
      cases hy : Dict.get? es k with
      | none => exact absurd hin (Dict.get?_eq_none_iff.1 hy)
      | some y => exact ⟨y, .item (Dict.mem_of_get? hy), h2 k _ _ hy hg⟩
  | @elem _ _ _ es' i o hm =>
    cases h with
    | @list _ _ _ _ _ _ es _ h1 h2 =>
      have hl : i < es.length := by rw [← h1]; exact (List.getElem?_eq_some_iff.1 hm).1
      exact ⟨es[i], .elem (List.getElem?_eq_getElem hl), h2 i _ _ (List.getElem?_eq_getElem hl) hm⟩

theorem saved_leads {o o' x' : Obj} {ts : List Str} (h : SavedAs f o o') (hk : Keyed o') (hl : Leads o' ts x') :
    ∃ x, Leads o ts x ∧ SavedAs f x x' := by
  induction hl generalizing o with
  | direct hs hb =>
    obtain ⟨y, hy, hs'⟩ := saved_slot h hk hs
    exact ⟨y, .direct hy (by rw [← saved_isBase hs']; exact hb), hs'⟩
  | through hs hb _ ih =>
    obtain ⟨y, hy, hs'⟩ := saved_slot h hk hs
    obtain ⟨x, hx, hsx⟩ := ih hs' (keyed_slot hs hk)
    exact ⟨x, .through hy (by rw [← saved_isBase hs']; exact hb) hx, hsx⟩

theorem saved_visited {o o' x' : Obj} {ts : List Str} (h : SavedAs f o o') (hk : Keyed o') (hv : Visited [] o' ts x') :
    ∃ x, Visited [] o ts x ∧ SavedAs f x x' := by
  induction hv with
  | root => exact ⟨o, .root, h⟩
  | child hv _ hl ih =>
    obtain ⟨y, hy, hs⟩ := ih
    obtain ⟨x, hx, hsx⟩ := saved_leads hs (fun m hm => hk m (visited_inside hv m hm)) hl
    exact ⟨x, .child hy (by simp) hx, hsx⟩

theorem saved_inside {o o' m' : Obj} (h : SavedAs f o o') (hk : Keyed o') (hi : Inside o' m') : ∃ m, Inside o m ∧ SavedAs f m m' := by
  have step : ∀ {o' y' m' : Obj} {k : Str}, Slot o' k y' → (∀ {o : Obj}, SavedAs f o y' → Keyed y' → ∃ m, Inside o m ∧ SavedAs f m m') →
      ∀ {o : Obj}, SavedAs f o o' → Keyed o' → ∃ m, Inside o m ∧ SavedAs f m m' := by
    intro o' y' m' k hs ih o h hk
    obtain ⟨y, hy, hsy⟩ := saved_slot h hk hs
    obtain ⟨m, hm, hsm⟩ := ih hsy (keyed_slot hs hk)
    exact ⟨m, inside_slot hy hm, hsm⟩
  induction hi generalizing o with
  | here => exact ⟨o, .here _, h⟩
  | child hm _ ih => exact step (.child hm) ih h hk
  | elem hm _ ih =>
    obtain ⟨i, hi⟩ := List.getElem?_of_mem hm
    exact step (.elem hi) ih h hk
  | item hm _ ih => exact step (.item hm) ih h hk

theorem saved_noMix {o o' : Obj} (h : SavedAs f o o') (hk : Keyed o') (hn : NoMix o) : NoMix o' := by
  intro m' hm'
  obtain ⟨m, hm, hs⟩ := saved_inside h hk hm'
  have h0 := hn m hm
  have hk' : Keyed m' := fun x hx => hk x (Main.inside_trans hm' hx)
  have hs0 : ∀ {y' k}, Slot m' k y' → ∃ y, Slot m k y ∧ SavedAs f y y' := fun hy => saved_slot hs hk' hy
  cases hs with
  | prim => trivial
  | list => trivial
  | base h1 h2 h3 =>
    intro k y hy
    obtain ⟨z, hz, _⟩ := hs0 (.child hy)
    cases hz with
    | child hz => exact h0 k _ hz
  | map h1 h2 =>
    rcases h0 with h0 | h0
    · left
      intro k y hy
      obtain ⟨z, hz, hsz⟩ := hs0 (.item hy)
      cases hz with
      | item hz => rw [saved_isBase hsz, saved_isPrim hsz]; exact h0 k _ hz
    · right
      intro k y hy
      obtain ⟨z, hz, hsz⟩ := hs0 (.item hy)
      cases hz with
      | item hz => rw [saved_isBase hsz]; exact h0 k _ hz

theorem saved_noExamples {o o' : Obj} (h : SavedAs f o o') (hk : Keyed o') (hn : Refs.Spec.NoExamples o) : Refs.Spec.NoExamples o' := by
  intro ts q spec kids hv
  obtain ⟨x, hx, hs⟩ := saved_visited h hk hv
  cases hs with
  | base _ h2 _ =>
    cases hg : Dict.get? kids (s% "examples") with
    | none => rfl
    | some y' =>
      obtain ⟨y, hy, _⟩ := (h2 _).1 ⟨y', hg⟩
      rw [hn _ _ _ _ hx] at hy; cases hy

theorem pyIndex_at {es : List Obj} {i : Int} {z : Obj} (h : pyIndex es i = .ok z) :
    ∃ n : Nat, es[n]? = some z ∧ ∀ es' : List Obj, es'.length = es.length → ∀ w, es'[n]? = some w → pyIndex es' i = .ok w := by
  unfold pyIndex at h
  dsimp only at h
  by_cases hk : (if i < 0 then i + (es.length : Int) else i) < 0
  · rw [if_pos hk] at h; cases h
  · rw [if_neg hk] at h
    refine ⟨(if i < 0 then i + (es.length : Int) else i).toNat, ?_, ?_⟩
    · cases hg : es[(if i < 0 then i + (es.length : Int) else i).toNat]? with
      | none => rw [hg] at h; cases h
      | some x => rw [hg] at h; cases h; rfl
    · intro es' hl w hw
      unfold pyIndex
      dsimp only
      rw [hl, if_neg hk, hw]

theorem saved_at {y : Obj} (ts : List Str) : ∀ {o o' : Obj}, SavedAs f o o' → Main.At o ts y → ∃ y', Main.At o' ts y' ∧ SavedAs f y y' := by
  have prims : ∀ {t : Str} {r : R Obj} {j : Json} {y : Obj} {us : List Str}, (do let j' ← resolvePrim j us; (.ok (.prim j') : R Obj)) = .ok y → y.isBase = false := by
    intro _ _ j y us h
    simp only [bind, Except.bind] at h
    split at h <;> cases h
    rfl
  induction ts with
  | nil =>
    intro o o' h ha
    obtain ⟨h1, h2⟩ := ha
    rw [Obj.resolve] at h1
    cases h1
    exact ⟨o', ⟨by rw [Obj.resolve], by rw [saved_isBase h]; exact h2⟩, h⟩
  | cons t ts ih =>
    intro o o' h ha
    cases h with
    | prim j =>
      obtain ⟨h1, _⟩ := ha
      rw [Obj.resolve] at h1; cases h1
    | @base c p p' s d' kids kids' h1 h2 h3 =>
      obtain ⟨ha1, ha2⟩ := ha
      rw [Obj.resolve] at ha1
      simp only [getattr] at ha1
      by_cases hc : Dict.has (pkg c).children t = true
      · rw [if_pos hc] at ha1
        simp only [bind, Except.bind] at ha1
        cases hg : Dict.get? kids t with
        | none =>
          rw [hg] at ha1
          simp only [Option.getD_none] at ha1
          split at ha1 <;> cases ha1
          cases ha2
        | some z =>
          rw [hg] at ha1
          simp only [Option.getD_some] at ha1
          have hz : z.isPrim = false ∧ Obj.resolve pkg ts z = .ok y := by
            cases z with
            | prim j =>
              simp only at ha1
              split at ha1 <;> cases ha1
              cases ha2
            | base => exact ⟨rfl, ha1⟩
            | list => exact ⟨rfl, ha1⟩
            | map => exact ⟨rfl, ha1⟩
          have ht : z.truthy = true := by
            cases z with
            | prim j => cases hz.1
            | base => rfl
            | list b p s es =>
              cases es with
              | cons x es => rfl
              | nil =>
                cases ts with
                | nil => have e := hz.2; rw [Obj.resolve] at e; cases e; cases ha2
                | cons t ts =>
                  have e := hz.2; rw [Obj.resolve] at e
                  simp only [bind, Except.bind] at e
                  split at e
                  · cases e
                  · rename_i i _
                    have : (pyIndex ([] : List Obj) i) = .error .indexError := by
                      unfold pyIndex; simp
                    rw [this] at e; cases e
            | map b p s es =>
              cases es with
              | cons x es => rfl
              | nil =>
                cases ts with
                | nil => have e := hz.2; rw [Obj.resolve] at e; cases e; cases ha2
                | cons t ts =>
                  have e := hz.2; rw [Obj.resolve] at e
                  simp only [bind, Except.bind, Dict.get!, Dict.get?] at e
                  cases e
          obtain ⟨z', hz'⟩ := (h2 t).2 ⟨z, hg, ht⟩
          have hs := h3 t z z' hg hz'
          obtain ⟨y', ⟨hy1, hy2⟩, hsy⟩ := ih hs ⟨hz.2, ha2⟩
          refine ⟨y', ⟨?_, hy2⟩, hsy⟩
          rw [Obj.resolve]
          simp only [getattr, if_pos hc, hz', Option.getD_some, bind, Except.bind]
          have := saved_isPrim hs
          rw [hz.1] at this
          cases z' with
          | prim j => cases this
          | base => exact hy1
          | list => exact hy1
          | map => exact hy1
      · rw [if_neg hc] at ha1
        simp only [bind, Except.bind] at ha1
        exfalso
        split at ha1
        · cases ha1
        · rename_i e
          split at e
          · split at e
            · cases e
            · cases e
              simp only at ha1
              split at ha1 <;> cases ha1
              cases ha2
          · cases e
    | @list b b' p p' s s' es es' h1 h2 =>
      obtain ⟨ha1, ha2⟩ := ha
      rw [Obj.resolve] at ha1
      simp only [bind, Except.bind] at ha1
      split at ha1
      · cases ha1
      · rename_i i hi
        have hx : ∃ (n : Nat) (z : Obj), pyIndex es i = .ok z ∧ es[n]? = some z ∧ z.isPrim = false ∧ Obj.resolve pkg ts z = .ok y ∧
            ∀ w, es'[n]? = some w → pyIndex es' i = .ok w := by
          split at ha1
          · cases ha1
          · rename_i z hz
            have hp : z.isPrim = false ∧ Obj.resolve pkg ts z = .ok y := by
              cases z with
              | prim j => cases ha1
              | base => exact ⟨rfl, ha1⟩
              | list => exact ⟨rfl, ha1⟩
              | map => exact ⟨rfl, ha1⟩
            obtain ⟨n, hn, hback⟩ := pyIndex_at hz
            exact ⟨n, z, hz, hn, hp.1, hp.2, fun w hw => hback es' h1 w hw⟩
        obtain ⟨n, z, _, hz, hzp, hzr, hback⟩ := hx
        have hl : n < es'.length := by rw [h1]; exact (List.getElem?_eq_some_iff.1 hz).1
        have hs := h2 n z _ hz (List.getElem?_eq_getElem hl)
        obtain ⟨y', ⟨hy1, hy2⟩, hsy⟩ := ih hs ⟨hzr, ha2⟩
        refine ⟨y', ⟨?_, hy2⟩, hsy⟩
        rw [Obj.resolve]
        simp only [hi, bind, Except.bind, hback _ (List.getElem?_eq_getElem hl)]
        have := saved_isPrim hs
        rw [hzp] at this
        generalize es'[n] = z' at hy1 this
        cases z' with
        | prim j => cases this
        | base => exact hy1
        | list => exact hy1
        | map => exact hy1
    | @map b b' p p' s s' es es' h1 h2 =>
      obtain ⟨ha1, ha2⟩ := ha
      rw [Obj.resolve] at ha1
      simp only [bind, Except.bind, Dict.get!] at ha1
      cases hg : Dict.get? es t with
      | none => rw [hg] at ha1; cases ha1
      | some z =>
        rw [hg] at ha1
        simp only at ha1
        have hp : z.isPrim = false ∧ Obj.resolve pkg ts z = .ok y := by
          cases z with
          | prim j => cases ha1
          | base => exact ⟨rfl, ha1⟩
          | list => exact ⟨rfl, ha1⟩
          | map => exact ⟨rfl, ha1⟩
        have hin : t ∈ Dict.keys es' := by rw [h1]; exact List.mem_map.2 ⟨_, Dict.mem_of_get? hg, rfl⟩
        cases hg' : Dict.get? es' t with
        | none => exact absurd hin (Dict.get?_eq_none_iff.1 hg')
        | some z' =>
          have hs := h2 t z z' hg hg'
          obtain ⟨y', ⟨hy1, hy2⟩, hsy⟩ := ih hs ⟨hp.2, ha2⟩
          refine ⟨y', ⟨?_, hy2⟩, hsy⟩
          rw [Obj.resolve]
          simp only [bind, Except.bind, Dict.get!, hg']
          have := saved_isPrim hs
          rw [hp.1] at this
          cases z' with
          | prim j => cases this
          | base => exact hy1
          | list => exact hy1
          | map => exact hy1

end Pyopenapi
