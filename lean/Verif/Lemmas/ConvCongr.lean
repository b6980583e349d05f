import Verif.Lemmas.ConvLoads2

/-!
# What the converters are told, matters only for the objects of the document
-/

namespace Pyopenapi
open Spec Obj Conv

/-- The two tell the same about the objects in `P`, and what those refer to is in `P` again. -/
structure Agree (P : Obj → Prop) (env env' : Env) : Prop where
  setOrder : env.setOrder = env'.setOrder
  ok : env.ok = env'.ok
  deref : ∀ o, P o → env.deref o = env'.deref o
  closed : ∀ o p, P o → env'.deref o = .ok p → P p
  normRef : ∀ o v, P o → fld o (s% "$ref") = .ok v → v.truthy = true → env.normRef o = env'.normRef o

variable {P : Obj → Prop} {S : Bool → Json → Prop} [hP : Source P S] {env env' : Env}

omit hP in
theorem toMediaType_congr (he : Agree P env env') {o : Obj} (ho : P o) (t : Str) (m : Dict Json) :
    toMediaType env o t m = toMediaType env' o t m := by
  unfold toMediaType
  rw [he.deref o ho]

omit hP in
theorem formContent_congr (he : Agree P env env') {o : Obj} (ho : P o) (ts : List Str) (c : Dict Json) :
    formContent env o ts c = formContent env' o ts c := by
  induction ts generalizing c with
  | nil => rfl
  | cons t ts ih =>
    unfold formContent
    rw [toMediaType_congr he ho]
    congr
    funext m
    exact ih _

omit hP in
theorem mimes_congr (he : Agree P env env') (ctx : Ctx) (cs : List Str) : ctx.mimes env cs = ctx.mimes env' cs := by
  unfold Ctx.mimes
  rw [he.setOrder]

omit hP in
theorem toRequestBody_congr (he : Agree P env env') {o : Obj} (ho : P o) (b : Option (Dict Json)) (ctx : Ctx) (cs : List Str) :
    toRequestBody env o b ctx cs = toRequestBody env' o b ctx cs := by
  unfold toRequestBody
  rw [he.deref o ho, mimes_congr he]
  simp only [formContent_congr he ho]

theorem bind_congr_ok {α β : Type} {x : R α} {f g : α → R β} (h : ∀ a, x = .ok a → f a = g a) : (x >>= f) = (x >>= g) := by
  cases x with
  | error e => rfl
  | ok a => exact h a rfl

include hP in
theorem paramCtx_congr (he : Agree P env env') {o : Obj} (ho : P o) : paramCtx env o = paramCtx env' o := by
  unfold paramCtx
  rw [he.deref o ho]
  refine bind_congr_ok (fun res hres => bind_congr_ok (fun i _ => bind_congr_ok (fun t _ => ?_)))
  split
  · rfl
  · split
    · rfl
    · split
      · split
        · rename_i s hs
          rw [he.deref s (source_kid (he.closed _ _ ho hres) hs)]
        · rfl
      · rfl

include hP in
theorem parameters_congr (he : Agree P env env') {cs : List Str} {os : List Obj} (ho : ∀ o ∈ os, P o) (ps : List Json)
    (b : Option (Dict Json)) : parameters env cs os ps b = parameters env' cs os ps b := by
  induction os generalizing ps b with
  | nil => rfl
  | cons o os ih =>
    unfold parameters
    rw [paramCtx_congr he (ho o List.mem_cons_self)]
    refine bind_congr_ok (fun ctx _ => ?_)
    have ih' := fun ps b => ih (fun o h => ho o (List.mem_cons_of_mem _ h)) ps b
    split
    · rw [toRequestBody_congr he (ho o List.mem_cons_self)]
      exact bind_congr_ok (fun b _ => ih' _ _)
    · exact bind_congr_ok (fun b _ => ih' _ _)

omit hP in
theorem toResponse_congr (he : Agree P env env') {o : Obj} (ho : P o) (ps : List Str) : toResponse env o ps = toResponse env' o ps := by
  unfold toResponse
  rw [he.deref o ho]

omit hP in
theorem toResponses_congr (he : Agree P env env') {ps : List Str} {es : List (Str × Obj)} (ho : ∀ k o, (k, o) ∈ es → P o) (ret : Dict Json) :
    toResponses env ps es ret = toResponses env' ps es ret := by
  induction es generalizing ret with
  | nil => rfl
  | cons e es ih =>
    obtain ⟨k, o⟩ := e
    unfold toResponses
    rw [toResponse_congr he (ho k o List.mem_cons_self)]
    exact bind_congr_ok (fun j _ => ih (fun k o h => ho k o (List.mem_cons_of_mem _ h)) _)

omit hP in
theorem toServers_congr (he : Agree P env env') (root : Str) (ss : List Str) : toServers env root ss = toServers env' root ss := by
  induction ss with
  | nil => rfl
  | cons s ss ih =>
    unfold toServers Env.withScheme
    rw [he.ok, ih]

omit hP in
theorem putServers_congr (he : Agree P env env') (o : Obj) (root : Str) (ret : Dict Json) :
    putServers env o root ret = putServers env' o root ret := by
  unfold putServers
  split
  · rw [toServers_congr he]
  · rfl

include hP in
theorem putOpResponses_congr (he : Agree P env env') {o : Obj} (ho : P o) (ps : List Str) (ret : Dict Json) :
    putOpResponses env o ps ret = putOpResponses env' o ps ret := by
  unfold putOpResponses
  split
  · rename_i rs hrs
    rw [toResponses_congr he (fun k x hx => source_entry (source_kidT ho hrs) hx)]
  · rfl

include hP in
theorem toOperation_congr (he : Agree P env env') {o : Obj} (ho : P o) (b : Option (Dict Json)) (root : Str) (ps cs : List Str) :
    toOperation env o b root ps cs = toOperation env' o b root ps cs := by
  unfold toOperation
  refine bind_congr_ok (fun _ _ => bind_congr_ok (fun _ _ => bind_congr_ok (fun _ _ => ?_)))
  rw [parameters_congr he (elems_loaded ho)]
  refine bind_congr_ok (fun _ _ => ?_)
  dsimp only
  rw [putOpResponses_congr he ho]
  simp only [putServers_congr he]

include hP in
theorem pathOps_congr (he : Agree P env env') {o : Obj} (ho : P o) (root : Str) (ps cs : List Str) (ms : List Str) (b : Option (Dict Json))
    (acc : List (Str × Dict Json)) : pathOps env o root ps cs ms b acc = pathOps env' o root ps cs ms b acc := by
  induction ms generalizing b acc with
  | nil => rfl
  | cons m ms ih =>
    unfold pathOps
    split
    · exact ih _ _
    · rename_i op hop
      rw [toOperation_congr he (source_kidT ho hop)]
      refine bind_congr_ok (fun x _ => ?_)
      dsimp only
      split
      · exact ih _ _
      · exact ih _ _

include hP in
theorem bodyIndexes_congr (he : Agree P env env') {os : List Obj} (ho : ∀ o ∈ os, P o) (i : Nat) : bodyIndexes env os i = bodyIndexes env' os i := by
  induction os generalizing i with
  | nil => rfl
  | cons o os ih =>
    unfold bodyIndexes
    rw [paramCtx_congr he (ho o List.mem_cons_self), ih (fun o h => ho o (List.mem_cons_of_mem _ h))]

include hP in
theorem toPathItem_congr (he : Agree P env env') {o : Obj} (ho : P o) (root : Str) (cs ps : List Str) :
    toPathItem env o root cs ps = toPathItem env' o root cs ps := by
  unfold toPathItem
  refine bind_congr_ok (fun v hv => ?_)
  rw [parameters_congr he (elems_loaded ho), bodyIndexes_congr he (elems_loaded ho)]
  simp only [pathOps_congr he ho]
  have : (if v.truthy then [(s% "$ref", env.normRef o)] else []) = (if v.truthy then [(s% "$ref", env'.normRef o)] else []) := by
    by_cases ht : v.truthy = true
    · rw [he.normRef o v ho hv ht]
    · simp only [if_neg ht]
  simp only [this]

include hP in
theorem toPaths_congr (he : Agree P env env') {root : Str} {cs ps : List Str} {es : List (Str × Obj)} (ho : ∀ k o, (k, o) ∈ es → P o)
    (ret : Dict Json) (rl : Routes) : toPaths env root cs ps es ret rl = toPaths env' root cs ps es ret rl := by
  induction es generalizing ret rl with
  | nil => rfl
  | cons e es ih =>
    obtain ⟨k, o⟩ := e
    unfold toPaths
    split
    · rfl
    · rw [toPathItem_congr he (ho k o List.mem_cons_self)]
      exact bind_congr_ok (fun x _ => ih (fun k o h => ho k o (List.mem_cons_of_mem _ h)) _ _)

include hP in
theorem toNamedParameters_congr (he : Agree P env env') {es : List (Str × Obj)} (ho : ∀ k o, (k, o) ∈ es → P o)
    (ps bs : Dict Json) (rl : Routes) : toNamedParameters env es ps bs rl = toNamedParameters env' es ps bs rl := by
  induction es generalizing ps bs rl with
  | nil => rfl
  | cons e es ih =>
    obtain ⟨k, o⟩ := e
    unfold toNamedParameters
    have ih' := fun ps bs rl => ih (fun k o h => ho k o (List.mem_cons_of_mem _ h)) ps bs rl
    rw [paramCtx_congr he (ho k o List.mem_cons_self)]
    refine bind_congr_ok (fun ctx _ => ?_)
    split
    · rw [toRequestBody_congr he (ho k o List.mem_cons_self)]
      exact bind_congr_ok (fun x _ => ih' _ _ _)
    · exact bind_congr_ok (fun x _ => ih' _ _ _)

include hP in
theorem toOpenapi_congr (he : Agree P env env') {o : Obj} (ho : P o) : toOpenapi env o = toOpenapi env' o := by
  have h1 : ∀ root c, putPaths env o root c = putPaths env' o root c := by
    intro root c
    unfold putPaths
    split
    · rename_i d hd
      rw [toPaths_congr he (fun k x hx => source_entry (source_kidT ho hd) hx)]
    · rfl
  have h2 : ∀ c, putParameters env o c = putParameters env' o c := by
    intro c
    unfold putParameters
    split
    · rename_i d hd
      rw [toNamedParameters_congr he (fun k x hx => source_entry (source_kidT ho hd) hx)]
    · rfl
  have h3 : ∀ c, putResponses env o c = putResponses env' o c := by
    intro c
    unfold putResponses
    split
    · rename_i d hd
      rw [toResponses_congr he (fun k x hx => source_entry (source_kidT ho hd) hx)]
    · rfl
  unfold toOpenapi
  simp only [h1, h2, h3]

end Pyopenapi
