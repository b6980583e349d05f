import Verif.Spec.Redefine
import Verif.Props.ConvPath

/-!
# C107: an operation redefines a parameter of its path
-/

namespace Pyopenapi
open Spec Obj Conv

theorem plainTo_ident {f : Part} {r : Json} (hf : f.ref = none) (h : PlainTo f r) : ident3 r = f.ident := by
  unfold PlainTo at h
  rw [hf] at h
  obtain ⟨e, rfl, h⟩ := h
  obtain ⟨_, h1, h2, _⟩ := h
  simp only [ident3, Part.ident]
  rw [show look e (s% "name") = look f.doc (s% "name") by unfold look; rw [h1]; rfl,
    show look e (s% "in") = look f.doc (s% "in") by unfold look; rw [h2]; rfl]

theorem plains_idents {fs : List Part} {rs : List Json} (h : List.Forall₂ PlainTo fs rs) (hf : ∀ f ∈ fs, f.ref = none) :
    rs.map ident3 = fs.map Part.ident := by
  induction h with
  | nil => rfl
  | cons hx _ ih =>
    rw [List.map_cons, List.map_cons, plainTo_ident (hf _ (by simp)) hx, ih (fun f hm => hf f (by simp [hm]))]

theorem forall₂_filter {α β : Type} {P : α → β → Prop} {p : α → Bool} {q : β → Bool} {l : List α} {m : List β}
    (h : List.Forall₂ P l m) (hpq : ∀ x ∈ l, ∀ y, P x y → p x = q y) : List.Forall₂ P (l.filter p) (m.filter q) := by
  induction h with
  | nil => exact .nil
  | @cons x y l m hx _ ih =>
    have h1 := hpq x (by simp) y hx
    have h2 := ih (fun z hz => hpq z (by simp [hz]))
    rw [List.filter_cons, List.filter_cons, ← h1]
    split
    · exact .cons hx h2
    · exact h2

theorem forall₂_join {α β : Type} {P : α → β → Prop} {l1 l2 : List α} {m1 m2 : List β} (h1 : List.Forall₂ P l1 m1)
    (h2 : List.Forall₂ P l2 m2) : List.Forall₂ P (l1 ++ l2) (m1 ++ m2) := by
  induction h1 with
  | nil => exact h2
  | cons hx _ ih => exact .cons hx ih

theorem paramsTo_list {refs : Refs} {d r : Dict Json} (h : ParamsTo refs d r) :
    List.Forall₂ PlainTo (plainsOf refs d) (listAt r (s% "parameters")) := by
  unfold plainsOf
  by_cases hn : (paramsOf refs d).filter Part.isPlain = []
  · have := h.1 hn
    unfold listAt
    rw [this, hn]
    exact .nil
  · obtain ⟨ps, h1, h2⟩ := h.2 hn
    unfold listAt
    rw [h1]
    exact h2

/-- **C107**, the part that holds: of the parameters outside of bodies (that are written out), those that hold for an operation
after the conversion are those that held for it before, converted, in order. -/
theorem C107_plain_partial {refs : Refs} {env : Env} (he : EnvOk refs env) (d : Dict Json) (o : Obj)
    (h : Built (.cls (s% "v2_0.PathItem")) (.obj d) o) (hres : PathResolves refs d) (root : Str)
    (consumes produces : List Str) (r : Dict Json) (rl : Routes)
    (hr : toPathItem env o root consumes produces = .ok (r, rl)) (m : Str) (e : Dict Json) (hm : (m, e) ∈ opsOf d)
    (hd : ∀ f ∈ plainsOf refs d, f.ref = none) (hown : ∀ f ∈ plainsOf refs e, f.ref = none) :
    ∃ x, Dict.get? r m = some (.obj x) ∧
      List.Forall₂ PlainTo (effective Part.ident (plainsOf refs d) (plainsOf refs e))
        (effective ident3 (listAt r (s% "parameters")) (listAt x (s% "parameters"))) := by
  have hp := C53_path_item he d o h hres root consumes produces r rl hr
  obtain ⟨m', hm', hx⟩ := List.mem_filterMap.1 (show (m, e) ∈ List.filterMap _ _ from hm)
  have : m' = m ∧ Dict.get? d m = some (.obj e) := by
    revert hx
    cases hg : Dict.get? d m' with
    | none => intro h; cases h
    | some v =>
      cases v <;> intro h <;> first | (cases h; done) | (cases h; exact ⟨rfl, hg⟩)
  obtain ⟨rfl, hg⟩ := this
  obtain ⟨e', y, h0, hy, x, rfl, hop⟩ := (hp.1 m' hm').2 _ (given_some.2 ⟨hg, by simp⟩)
  cases h0
  have h1 := paramsTo_list hp.2.1
  have h2 := paramsTo_list hop.2.2.2.1
  refine ⟨x, hy, forall₂_join h2 (forall₂_filter h1 (fun f hf y hfy => ?_))⟩
  rw [plains_idents h2 hown, plainTo_ident (hd f hf) hfy]

theorem parameters_second {env : Env} {consumes : List Str} {os : List Obj} {fs : List Part} (h : ParamsIn env os fs)
    {g : Part} (hg : g ∈ fs) (hb : placeOf g.doc = .body) (hok : ∀ o, ParamIn env o g.ref g.doc → BodyOk env o) (ps : List Json)
    (b : Dict Json) (r : List Json × Option (Dict Json)) : parameters env consumes os ps (some b) ≠ .ok r := by
  unfold ParamsIn at h
  induction h generalizing ps b with
  | nil => cases hg
  | @cons o f os fs hx _ ih =>
    intro hr
    rcases List.mem_cons.1 hg with rfl | hg
    · have hib : bodyCtx.isBody = true := rfl
      rw [parameters, paramCtx_body hx hb (hok o hx)] at hr
      simp only [bind, Except.bind, hib, if_true, toRequestBody_second hx] at hr
      cases hr
    · rw [parameters] at hr
      simp only [bind, Except.bind] at hr
      split at hr
      · cases hr
      split at hr
      · split at hr
        · cases hr
        · exact ih hg _ _ hr
      · split at hr
        · cases hr
        · exact ih hg _ _ hr

/-- **C107** is false of bodies: when the path item has a body, or a part of one, and an operation has a body of its own, the
path item is not converted at all. -/
theorem C107_body_violation {refs : Refs} {env : Env} (he : EnvOk refs env) (d : Dict Json) (o : Obj)
    (h : Built (.cls (s% "v2_0.PathItem")) (.obj d) o) (hres : PathResolves refs d) (root : Str)
    (consumes produces : List Str) (f g : Part) (hf : f ∈ paramsOf refs d) (hff : f.isPlain = false) (m : Str) (e : Dict Json)
    (hm : (m, e) ∈ opsOf d) (hg : g ∈ paramsOf refs e) (hgb : placeOf g.doc = .body) (hv : ValidParam g) :
    ¬ ∃ r, toPathItem env o root consumes produces = .ok r := by
  rintro ⟨⟨r, rl⟩, hr⟩
  obtain ⟨ref, ps, body, ops, body', _, hp, hops, _⟩ := toPathItem_parts hr
  have hin := paramsIn_of he h (by decide +kernel) hres.1
  have hsome := ((C48_partition env consumes _ _ hin none ps body hp).2.1).2 (.inr ⟨f, hf, hff⟩)
  obtain ⟨b, rfl⟩ := Option.isSome_iff_exists.1 hsome
  obtain ⟨_, qs, hqs, hq⟩ := pathOps_some _ _ _ _ _ (fun m op b ret b' _ ht => toOperation_some ht) hops
  obtain ⟨m', hm', hx⟩ := List.mem_filterMap.1 (show (m, e) ∈ List.filterMap _ _ from hm)
  have : m' = m ∧ Dict.get? d m = some (.obj e) := by
    revert hx
    cases hg : Dict.get? d m' with
    | none => intro h; cases h
    | some v =>
      cases v <;> intro h <;> first | (cases h; done) | (cases h; exact ⟨rfl, hg⟩)
  obtain ⟨rfl, hgd⟩ := this
  rcases kid_method h hm' with ⟨h1, _⟩ | ⟨e', x, h1, h2, _, h4, h5⟩
  · rw [given_some.2 ⟨hgd, by simp⟩] at h1; cases h1
  · rw [given_some.2 ⟨hgd, by simp⟩] at h1
    cases h1
    have hmem : m' ∈ methods.filter (fun m => (kidT o m).isSome) := List.mem_filter.2 ⟨hm', by rw [h2]; rfl⟩
    clear hops hr hqs
    obtain ⟨q, _, _, op, b0, b1, k1, k2⟩ : ∃ q ∈ qs, q.1 = m' ∧ ∃ op b b', kidT o m' = some op ∧
        toOperation env op (some b) root produces consumes = .ok (q.2, b') := by
      generalize methods.filter (fun m => (kidT o m).isSome) = ms at hq hmem
      induction hq with
      | nil => cases hmem
      | cons hx _ ih =>
        rcases List.mem_cons.1 hmem with rfl | hmem
        · exact ⟨_, by simp, hx⟩
        · obtain ⟨q, a, b⟩ := ih hmem
          exact ⟨q, by simp [a], b⟩
    rw [h2] at k1
    cases k1
    obtain ⟨ps', hp'⟩ := toOperation_params k2
    exact parameters_second (paramsIn_of he h5 (by decide +kernel) (hres.2 _ h4).1) hg hgb (fun o ho => bodyOk_of he ho (hv.2 hgb)) _ _ _ hp'

/-- **C107** is false of forms: an operation that redefines a part of a form its path item has keeps the path item from being
converted. -/
theorem C107_form_violation {refs : Refs} {env : Env} (he : EnvOk refs env) (d : Dict Json) (o : Obj)
    (h : Built (.cls (s% "v2_0.PathItem")) (.obj d) o) (hres : PathResolves refs d) (root : Str)
    (consumes produces : List Str) (hcons : ∀ p ∈ opsOf d, strsAt p.2 (s% "consumes") = [])
    (hforms : FormsOnly refs d) (hforms' : ∀ p ∈ opsOf d, FormsOnly refs p.2)
    (f g : Part) (hf : f ∈ partsOf refs d) (m : Str) (e : Dict Json) (hm : (m, e) ∈ opsOf d) (hg : g ∈ partsOf refs e)
    (hname : f.name = g.name) (hfile : f.file = g.file) : ¬ ∃ r, toPathItem env o root consumes produces = .ok r := by
  refine C52_clash_violation he d o h hres root consumes produces hcons hforms hforms' (by intro hn; rw [hn] at hf; cases hf) ?_
  obtain ⟨t, ht⟩ := partTypes_some consumes f.file
  refine ⟨t, fun hnd => ?_⟩
  unfold allParts at hnd
  rw [List.filter_append, List.map_append, List.nodup_append] at hnd
  refine hnd.2.2 f.name (List.mem_map.2 ⟨f, List.mem_filter.2 ⟨hf, decide_eq_true ht⟩, rfl⟩) g.name
    (List.mem_map.2 ⟨g, List.mem_filter.2 ⟨List.mem_flatMap.2 ⟨_, hm, hg⟩, decide_eq_true (by rw [← hfile]; exact ht)⟩, rfl⟩) hname

end Pyopenapi
