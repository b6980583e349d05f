import Verif.Props.Redefine
import Verif.Props.ConvSwagger
import Verif.Lemmas.MainEnv
import Verif.Props.MainUpExample

/-!
# C107 for parameters behind references
-/

namespace Pyopenapi.Main
open Spec Refs.Spec Obj Conv

theorem entries_found {P : Json → Json → Prop} {d r : Dict Json} (h : EntriesTo P d r) :
    r.map (fun p => p.1) = d.map (fun p => p.1) ∧ ∀ k w, (k, w) ∈ d → ∃ w', (k, w') ∈ r ∧ P w w' := by
  unfold EntriesTo at h
  induction h with
  | nil => exact ⟨rfl, fun _ _ h => by cases h⟩
  | @cons x y d r hx _ ih =>
    refine ⟨by rw [List.map_cons, List.map_cons, ih.1, hx.1], fun k w hm => ?_⟩
    rcases List.mem_cons.1 hm with rfl | hm
    · exact ⟨y.2, by rw [show (k, y.2) = y from Prod.ext hx.1 rfl]; exact List.mem_cons_self, hx.2⟩
    · obtain ⟨w', a, b⟩ := ih.2 k w hm
      exact ⟨w', List.mem_cons_of_mem _ a, b⟩

theorem findSome_entry {m : Dict Json} {n : Str} {y : Json} (hn : (m.map (fun p => p.1)).Nodup) (hm : (n, y) ∈ m) :
    m.findSome? (fun p => if Json.str (pointer [s% "parameters", n]) = .str (pointer [s% "parameters", p.1]) then some p.2 else none)
      = some y := by
  induction m with
  | nil => cases hm
  | cons p m ih =>
    rw [List.map_cons, List.nodup_cons] at hn
    rw [List.findSome?_cons]
    rcases List.mem_cons.1 hm with rfl | hm
    · rw [if_pos rfl]
    · rw [if_neg]
      · exact ih hn.2 hm
      · intro h
        have h' := pointer_inj (Json.str.inj h)
        have : n = p.1 := by injection h' with _ h'; injection h'
        exact hn.1 (this ▸ List.mem_map.2 ⟨_, hm, rfl⟩)

/-- What stands behind a parameter that is outside of bodies is, after the conversion of the document, the conversion of what
stood behind it. -/
theorem lead3_to {d r : Dict Json} (hw : (Json.obj (objAt d (s% "parameters"))).wf = true) (h : DocTo (docRefs d) d r) {j : Json}
    (hj : Resolves (docRefs d).param j) (hp : (behind (docRefs d).param j).isPlain = true) {y : Json}
    (hy : PlainTo (behind (docRefs d).param j) y) : PlainTo ⟨(behind (docRefs d).param j).doc, none⟩ (lead3 r y) := by
  cases hr : (behind (docRefs d).param j).ref with
  | none =>
    unfold PlainTo at hy
    rw [hr] at hy
    obtain ⟨e, rfl, he⟩ := hy
    have hno : Dict.get? e (s% "$ref") = none := by
      refine Classical.byContradiction fun hc => ?_
      exact absurd (he.2.2.2.2.2.2.2 _ hc) (by decide +kernel)
    unfold lead3
    dsimp only
    rw [hno]
    exact ⟨e, rfl, he⟩
  | some v =>
    unfold PlainTo at hy
    rw [hr] at hy
    dsimp only at hy
    subst hy
    cases j with
    | obj dj =>
      cases hg : Dict.get? dj (s% "$ref") with
      | none => rw [behind, hg] at hr; cases hr
      | some v' =>
        have hb : behind (docRefs d).param (.obj dj) = ⟨((docRefs d).param v').getD [], some v'⟩ := by rw [behind, hg]
        rw [hb] at hr hp ⊢
        cases hr
        obtain ⟨_, hf⟩ := hj dj _ rfl hg
        obtain ⟨e, he⟩ := Option.ne_none_iff_exists'.1 hf
        rw [he] at hp ⊢
        obtain ⟨n, rfl, hn⟩ := entryAt_some hw he
        obtain ⟨c, hc, hcr⟩ := h.2.2.2.2.2.2.1
        have hm : (n, Json.obj e) ∈ paramsWhere Part.isPlain (objAt d (s% "parameters")) :=
          List.mem_filter.2 ⟨Dict.mem_of_get? hn, hp⟩
        obtain ⟨m, hm1, hm2⟩ := (hc.2.1 _ rfl).2 (List.ne_nil_of_mem hm)
        have hcn : c ≠ [] := by intro h0; rw [h0] at hm1; cases hm1
        rw [if_neg hcn] at hcr
        obtain ⟨hk, hx⟩ := entries_found hm2
        obtain ⟨w', hw', e', hee, hP⟩ := hx _ _ hm
        cases hee
        have hnd : (m.map (fun p => p.1)).Nodup := by
          rw [hk]
          exact List.Nodup.sublist (List.Sublist.map _ List.filter_sublist) (wf_nodup hw)
        have : lead3 r (.obj [(s% "$ref", .str (pointer [s% "parameters", n]))]) = w' := by
          unfold lead3
          dsimp only
          rw [show Dict.get? [(s% "$ref", Json.str (pointer [s% "parameters", n]))] (s% "$ref")
            = some (.str (pointer [s% "parameters", n])) from rfl]
          dsimp only
          rw [show objAt r (s% "components") = c by unfold objAt; rw [hcr],
            show objAt c (s% "parameters") = m by unfold objAt; rw [hm1], findSome_entry hnd hw']
          rfl
        rw [this]
        exact hP
    | _ => exact absurd hr (by simp [behind])

theorem forall₂_leads {α β : Type} {P Q : α → β → Prop} {l : List α} {m : List β} (h : List.Forall₂ P l m)
    (hPQ : ∀ x ∈ l, ∀ y, P x y → Q x y) : List.Forall₂ Q l m := by
  induction h with
  | nil => exact .nil
  | cons hx _ ih => exact .cons (hPQ _ (by simp) _ hx) (ih (fun x hm => hPQ x (by simp [hm])))

theorem plain_leads {d r : Dict Json} (hw : (Json.obj (objAt d (s% "parameters"))).wf = true) (h : DocTo (docRefs d) d r)
    {e x : Dict Json} (hres : ParamsResolve (docRefs d) e) (hp : ParamsTo (docRefs d) e x) :
    List.Forall₂ (fun (f : Part) y => PlainTo ⟨f.doc, none⟩ (lead3 r y)) (plainsOf (docRefs d) e) (listAt x (s% "parameters")) := by
  refine forall₂_leads (paramsTo_list hp) (fun f hf y hy => ?_)
  unfold plainsOf at hf
  obtain ⟨h1, h2⟩ := List.mem_filter.1 hf
  obtain ⟨j, hj, rfl⟩ := List.mem_map.1 h1
  exact lead3_to hw h (hres j hj) h2 hy

theorem leads_idents {r : Dict Json} {fs : List Part} {ys : List Json}
    (h : List.Forall₂ (fun (f : Part) y => PlainTo ⟨f.doc, none⟩ (lead3 r y)) fs ys) :
    ys.map (fun y => ident3 (lead3 r y)) = fs.map Part.ident := by
  induction h with
  | nil => rfl
  | cons hx _ ih => rw [List.map_cons, List.map_cons, ih, plainTo_ident rfl hx]; rfl

/-- **C107** for whole documents, with parameters in place and behind references, of the path item and of the operation: of the
parameters outside of bodies, those that hold for an operation in the converted document are, what references lead to included, the
conversions of those that held for it before, in order. -/
theorem C107_document_partial {d r : Dict Json} (hw : (Json.obj (objAt d (s% "parameters"))).wf = true)
    (h : DocTo (docRefs d) d r) (hres : DocResolves (docRefs d) d) (k : Str) (item : Dict Json)
    (hk : (k, Json.obj item) ∈ objAt d (s% "paths")) (m : Str) (op : Dict Json) (hm : (m, op) ∈ opsOf item) :
    ∃ item' op', (k, Json.obj item') ∈ objAt r (s% "paths") ∧ Dict.get? item' m = some (.obj op') ∧
      List.Forall₂ (fun (f : Part) y => PlainTo ⟨f.doc, none⟩ (lead3 r y))
        (effective Part.ident (plainsOf (docRefs d) item) (plainsOf (docRefs d) op))
        (effective (fun y => ident3 (lead3 r y)) (listAt item' (s% "parameters")) (listAt op' (s% "parameters"))) := by
  obtain ⟨ps, h1, h2⟩ := h.2.2.2.1.2 (List.ne_nil_of_mem hk)
  obtain ⟨y, hy, e0, item', he0, rfl, hp⟩ := (entries_found h2).2 _ _ hk
  cases he0
  obtain ⟨m', hm', hx⟩ := List.mem_filterMap.1 (show (m, op) ∈ List.filterMap _ _ from hm)
  have : m' = m ∧ Dict.get? item m = some (.obj op) := by
    revert hx
    cases hg : Dict.get? item m' with
    | none => intro h; cases h
    | some v =>
      cases v <;> intro h <;> first | (cases h; done) | (cases h; exact ⟨rfl, hg⟩)
  obtain ⟨rfl, hg⟩ := this
  obtain ⟨e', y, h0, hyy, x, rfl, hop⟩ := (hp.1 m' hm').2 _ (given_some.2 ⟨hg, by simp⟩)
  cases h0
  have hr := hres k item hk
  have q1 := plain_leads hw h hr.1 hp.2.1
  have q2 := plain_leads hw h (hr.2 _ hm).1 hop.2.2.2.1
  refine ⟨item', x, by unfold objAt; rw [h1]; exact hy, hyy, forall₂_join q2 (forall₂_filter q1 (fun f _ y hfy => ?_))⟩
  have hi : ident3 (lead3 r y) = f.ident := plainTo_ident (f := ⟨f.doc, none⟩) rfl hfy
  rw [leads_idents q2]
  exact decide_eq_decide.2 (by show _ ↔ ¬ (ident3 (lead3 r y) ∈ _); rw [hi])

/-- `shopDoc`: the parameter of `get` is behind a reference, and is found converted. -/
theorem C107_document_example : ∃ r item' op', (s% "/a", Json.obj item') ∈ objAt r (s% "paths") ∧
    Dict.get? item' (s% "get") = some (.obj op') ∧
    List.Forall₂ (fun (f : Part) y => PlainTo ⟨f.doc, none⟩ (lead3 r y)) [⟨shopQ, some (.str (s% "#/parameters/q"))⟩]
      (effective (fun y => ident3 (lead3 r y)) (listAt item' (s% "parameters")) (listAt op' (s% "parameters"))) := by
  obtain ⟨_, _, r, _, _, _, _, _, _, _, hd, _⟩ := C86_up_example
  have hs := C107_document_partial (d := shopDoc) (r := r) (by decide +kernel) hd shop_resolves (s% "/a") shopItem
    (show _ ∈ [(s% "/a", Json.obj shopItem)] from List.mem_singleton.2 rfl) (s% "get") shopGet
    (show _ ∈ [(s% "get", shopGet), (s% "post", shopPost)] from List.mem_cons_self)
  obtain ⟨item', op', h1, h2, h3⟩ := hs
  refine ⟨r, item', op', h1, h2, ?_⟩
  have : effective Part.ident (plainsOf (docRefs shopDoc) shopItem) (plainsOf (docRefs shopDoc) shopGet)
      = [⟨shopQ, some (.str (s% "#/parameters/q"))⟩] := by rfl
  rw [this] at h3
  exact h3

end Pyopenapi.Main
