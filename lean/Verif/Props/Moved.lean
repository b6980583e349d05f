import Verif.Spec.Moved
import Verif.Props.ConvPath

/-!
# C106: a path item that is moved to another document
-/

namespace Pyopenapi
open Spec Obj Conv

theorem parameters_moved {env : Env} {os : List Obj} {fs : List Part} (h : ParamsIn env os fs)
    (hp : ∀ f ∈ fs, f.isPlain = true) (c c' : List Str) (ps : List Json) (b : Option (Dict Json)) :
    parameters env c os ps b = parameters env c' os ps b := by
  unfold ParamsIn at h
  induction h generalizing ps with
  | nil => rfl
  | @cons o f os fs hx _ ih =>
    have h1 : placeOf f.doc = .plain := by
      have := hp f (by simp)
      simpa [Part.isPlain] using this
    rw [parameters, parameters, paramCtx_plain hx h1]
    simp only [bind, Except.bind]
    cases plainParameter o with
    | error e => rfl
    | ok p => exact ih (fun g hg => hp g (by simp [hg])) _

theorem putContent_moved {d : Dict Json} {o : Obj} (h : Built (.cls (s% "v2_0.Response")) (.obj d) o)
    (hs : ∀ s, given d (s% "schema") = some s → IsFile s) (p p' : List Str) (ret : Dict Json) :
    putContent o p ret = putContent o p' ret := by
  unfold putContent
  rcases built_kid_cls h (k := s% "schema") (c' := s% "v2_0.Schema") (by decide +kernel) with ⟨_, h2, _⟩ | ⟨e, x, h1, h2, _, h4⟩
  · rw [h2]
  · rw [h2]
    obtain ⟨e', he, ht⟩ := hs _ h1
    cases he
    have hk : plainFields (s% "v2_0.Schema") [s% "type"] = true := by decide +kernel
    have hf : fld x (s% "type") = .ok (.str (s% "file")) := by
      rw [built_fld h4 (plainFields_cls hk), plainFields_val hk (by simp), ht]
    simp only [responseContent, hf, bind, Except.bind, if_true]

theorem toResponse_moved {env : Env} {o : Obj} {f : Part} (h : RespIn env o f)
    (hs : ∀ s, given f.doc (s% "schema") = some s → IsFile s) (p p' : List Str) :
    toResponse env o p = toResponse env o p' := by
  obtain ⟨q, j, h1, h2, h3, _⟩ := resp_resolved h
  unfold toResponse
  simp only [h1, h3, bind, Except.bind]
  split
  · rfl
  · simp only [putContent_moved h2 hs p p']

theorem setAll_congr {f g : Obj → R Json} {es : List (Str × Obj)} (h : ∀ e ∈ es, f e.2 = g e.2) (ret : Dict Json) :
    setAll f es ret = setAll g es ret := by
  induction es generalizing ret with
  | nil => rfl
  | cons e es ih =>
    obtain ⟨k, o⟩ := e
    rw [setAll, setAll, show f o = g o from h (k, o) (by simp)]
    cases g o with
    | error e => rfl
    | ok j => exact ih (fun e he => h e (by simp [he])) _

theorem forall₂_right {α β : Type} {P : α → β → Prop} {l : List α} {m : List β} (h : List.Forall₂ P l m) :
    ∀ y ∈ m, ∃ x ∈ l, P x y := by
  induction h with
  | nil => intro y hy; cases hy
  | cons hx _ ih =>
    intro y hy
    rcases List.mem_cons.1 hy with rfl | hy
    · exact ⟨_, by simp, hx⟩
    · obtain ⟨x, h1, h2⟩ := ih y hy
      exact ⟨x, by simp [h1], h2⟩

theorem putOpResponses_moved {refs : Refs} {env : Env} (he : EnvOk refs env) {d : Dict Json} {o : Obj}
    (h : Built (.cls (s% "v2_0.Operation")) (.obj d) o) (hres : OpResolves refs d) (hall : OpSaysAll refs d) (p p' : List Str)
    (ret : Dict Json) : putOpResponses env o p ret = putOpResponses env o p' ret := by
  obtain ⟨s1, _⟩ := strs_strsAt h (k := s% "produces") (by decide +kernel)
  obtain ⟨h1, h2, h3, _⟩ := kid_objAt h (k := s% "responses")
    (b := .ifNotRef (s% "v2_0.Reference") (.cls (s% "v2_0.Response"))) (by decide +kernel)
  unfold putOpResponses
  by_cases hn : objAt d (s% "responses") = []
  · rw [h2 hn]
  · obtain ⟨y, y1, y2, _⟩ := h3 hn
    rw [y1, s1]
    rcases hall.produces with hp | hp
    · simp only [orElse, if_neg hp]
    · simp only [toResponses_eq]
      rw [setAll_congr (fun e hm => ?_)]
      rw [y2] at h1
      obtain ⟨x, hx, _, hb⟩ := forall₂_right h1 e hm
      exact toResponse_moved (respIn_of he hb (hres.2 _ hx)) (hp _ hx) _ _

theorem toOperation_moved {refs : Refs} {env : Env} (he : EnvOk refs env) {d : Dict Json} {o : Obj}
    (h : Built (.cls (s% "v2_0.Operation")) (.obj d) o) (hres : OpResolves refs d) (hall : OpSaysAll refs d)
    (b : Option (Dict Json)) (root root' : Str) (p p' c c' : List Str) :
    toOperation env o b root p c = toOperation env o b root' p' c' := by
  obtain ⟨s1, _⟩ := strs_strsAt h (k := s% "consumes") (by decide +kernel)
  have hin := paramsIn_of he h (by decide +kernel) hres.1
  have e1 : parameters env (orElse (strs (kid o (s% "consumes"))) c) (elems (kid o (s% "parameters"))) [] b =
      parameters env (orElse (strs (kid o (s% "consumes"))) c') (elems (kid o (s% "parameters"))) [] b := by
    rw [s1]
    rcases hall.consumes with hc | hc
    · simp only [orElse, if_neg hc]
    · exact parameters_moved hin hc _ _ _ _
  have e2 : ∀ ret, putServers env o root ret = putServers env o root' ret := by
    intro ret
    obtain ⟨_, k2, _⟩ := kid_listAt h (k := s% "schemes") (b := .isStr) (by decide +kernel)
    unfold putServers
    rw [k2 hall.schemes]
  unfold toOperation
  rw [e1]
  simp only [putOpResponses_moved he h hres hall p p', e2]

theorem pathOps_moved {refs : Refs} {env : Env} (he : EnvOk refs env) {d : Dict Json} {o : Obj}
    (h : Built (.cls (s% "v2_0.PathItem")) (.obj d) o) (hres : PathResolves refs d) (hall : ItemSaysAll refs d)
    (root root' : Str) (p p' c c' : List Str) (ms : List Str) (hm : ∀ m ∈ ms, m ∈ methods2) (b : Option (Dict Json))
    (acc : List (Str × Dict Json)) : pathOps env o root p c ms b acc = pathOps env o root' p' c' ms b acc := by
  induction ms generalizing b acc with
  | nil => rfl
  | cons m ms ih =>
    have ih' := ih (fun x hx => hm x (by simp [hx]))
    rw [pathOps, pathOps]
    rcases kid_method h (hm m (by simp)) with ⟨_, h2, _⟩ | ⟨e, x, _, h2, _, h4, h5⟩
    · rw [h2]; exact ih' _ _
    · rw [h2]
      simp only [toOperation_moved he h5 (hres.2 _ h4) (hall.ops _ h4) b root root' p p' c c', ih']

/-- **C106**, the part that holds: a path item whose operations name their media types and no schemes, and that has no body
of its own, is converted to the same wherever it stands: whatever the server and the media types of the document are. -/
theorem C106_moved_partial {refs : Refs} {env : Env} (he : EnvOk refs env) (d : Dict Json) (o : Obj)
    (h : Built (.cls (s% "v2_0.PathItem")) (.obj d) o) (hres : PathResolves refs d) (hall : ItemSaysAll refs d)
    (root root' : Str) (consumes consumes' produces produces' : List Str) :
    toPathItem env o root consumes produces = toPathItem env o root' consumes' produces' := by
  have hin := paramsIn_of he h (by decide +kernel) hres.1
  unfold toPathItem
  rw [parameters_moved hin hall.shared consumes consumes']
  simp only [pathOps_moved he h hres hall root root' produces produces' consumes consumes' methods (fun m hm => hm)]

end Pyopenapi
