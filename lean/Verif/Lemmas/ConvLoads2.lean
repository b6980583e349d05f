import Verif.Lemmas.ConvLoads

/-!
# What the converters produce can be loaded: bodies, responses, operations, documents
-/

namespace Pyopenapi
open Spec Obj Conv

variable {P : Obj → Prop} {S : Bool → Json → Prop} [hP : Source P S]

/-- A loaded object of a class. -/
def ClsLoaded (P : Obj → Prop) (c : Str) (o : Obj) : Prop := P o ∧ ∃ j p, j.wf = true ∧ build pkg (.cls c) j p [] = .ok o

/-- No schema: a parameter, a response, or a reference in place of one. -/
def NoSchema (o : Obj) : Prop := o.className? ≠ some (s% "v2_0.Schema")

/-- What references in place of parameters and responses lead to is a source, too; normalized references of path items are documents without repeated keys (strings). -/
structure EnvLoads (P : Obj → Prop) (S : Bool → Json → Prop) (env : Env) : Prop where
  deref : ∀ o p, P o → NoSchema o → env.deref o = .ok p → P p
  normRef : ∀ o v, ClsLoaded P (s% "v2_0.PathItem") o → fld o (s% "$ref") = .ok v → v.truthy = true →
    (env.normRef o).wf = true ∧ S true (env.normRef o)

abbrev mediaB : Builder := .cls (s% "v3_0_0.MediaType")
abbrev contentB : Builder := .mapOf mediaB
abbrev bodyB : Builder := .cls (s% "v3_0_0.RequestBody")

/-- The map at a member. -/
theorem loads_sub_map {c : Str} {b : Builder} {d : Dict Json} {k : Str} (h : Loads S (.cls c) (.obj d))
    (hc : (Dict.get? (pkg c).children k).map (fun cd => cd.builder) = some (.mapOf b)) :
    Loads S (.mapOf b) (.obj (Conv.sub d k)) := by
  refine ⟨?_, sub_wf h.2⟩
  unfold Conv.sub
  cases hg : Dict.get? d k with
  | none => exact loads_map_empty.1
  | some v =>
    cases v with
    | obj e =>
      cases h.1 with
      | cls _ _ h2 =>
        cases hk : Dict.get? (pkg c).children k with
        | none => rw [hk] at hc; cases hc
        | some cd =>
          have := h2 k cd (.obj e) (Dict.mem_of_get? hk) hg (by simp)
          rw [hk] at hc
          exact (Option.some.inj hc : cd.builder = .mapOf b) ▸ this
    | _ => exact loads_map_empty.1

/-- The schema at a member. -/
theorem loads_sub_schema {d : Dict Json} (h : Loads S mediaB (.obj d)) :
    Loads S schema3 (.obj (Conv.sub d (s% "schema"))) := by
  refine ⟨?_, sub_wf h.2⟩
  unfold Conv.sub
  cases hg : Dict.get? d (s% "schema") with
  | none => exact (loads_orRef (loads_empty (by decide +kernel))).1
  | some v =>
    cases v with
    | obj e =>
      cases h.1 with
      | cls _ _ h2 =>
        cases hk : Dict.get? (pkg (s% "v3_0_0.MediaType")).children (s% "schema") with
        | none => exact absurd hk (by decide +kernel)
        | some cd =>
          have := h2 _ cd (.obj e) (Dict.mem_of_get? hk) hg (by simp)
          have hb : (Dict.get? (pkg (s% "v3_0_0.MediaType")).children (s% "schema")).map (fun cd => cd.builder) = some schema3 := by
            decide +kernel
          rw [hk] at hb
          exact (Option.some.inj hb : cd.builder = schema3) ▸ this
    | _ => exact (loads_orRef (loads_empty (by decide +kernel))).1

/-- An entry of a map. -/
theorem loads_sub_entry {d : Dict Json} (t : Str) (h : Loads S contentB (.obj d)) : Loads S mediaB (.obj (Conv.sub d t)) := by
  refine ⟨?_, sub_wf h.2⟩
  unfold Conv.sub
  cases hg : Dict.get? d t with
  | none => exact (loads_empty (by decide +kernel)).1
  | some v =>
    cases v with
    | obj e => cases h.1 with | map hd => exact hd t _ (Dict.mem_of_get? hg)
    | _ => exact (loads_empty (by decide +kernel)).1

theorem toEncoding_loads {o : Obj} {t : Str} {r : Dict Json} (h : toEncoding o t = .ok r) :
    Loads S (.cls (s% "v3_0_0.Encoding")) (.obj r) := by
  unfold toEncoding at h
  split at h
  · obtain ⟨ct, _, h⟩ := bindOk h
    have l0 : Loads S (.cls (s% "v3_0_0.Encoding")) (.obj [(s% "contentType", .str ct)]) :=
      loads_field (r := []) (k := s% "contentType") (loads_empty (by decide +kernel)) rfl (by decide +kernel)
    obtain ⟨b, _, h⟩ := bindOk h
    cases b with
    | false => cases h; exact l0
    | true =>
      rw [if_pos rfl] at h
      obtain ⟨_, _, h⟩ := bindOk h
      obtain ⟨_, _, h⟩ := bindOk h
      obtain ⟨_, _, h⟩ := bindOk h
      obtain ⟨se, _, h⟩ := bindOk h
      cases h
      split
      · exact putStyle_loads _ l0 (by decide +kernel) (by decide +kernel)
      · exact l0
  · cases h; exact loads_empty (by decide +kernel)

theorem toMediaType_loads {env : Env} (he : EnvLoads P S env) {o : Obj} {t : Str} {m r : Dict Json} (ho : P o) (hn : NoSchema o)
    (hm : Loads S mediaB (.obj m)) (h : toMediaType env o t m = .ok r) : Loads S mediaB (.obj r) := by
  unfold toMediaType at h
  obtain ⟨p, h1, h⟩ := bindOk h
  obtain ⟨req, h2, h⟩ := bindOk h
  obtain ⟨nj, h3, h⟩ := bindOk h
  obtain ⟨name, h4, h⟩ := bindOk h
  have hp := he.deref o p ho hn h1
  have hs0 := loads_sub_schema hm
  generalize Conv.sub m (s% "schema") = s0 at hs0 h
  have hs1 : Loads S schema3 (.obj (if req.truthy = true then
      Dict.set s0 (s% "required") (.arr (subL s0 (s% "required") ++ [nj])) else s0)) := by
    split
    · refine loads_orRef_set hs0 ?_ (fun _ cd hcd => absurd hcd ?_)
      · exact wf_snoc (subL_wf hs0.2) (fld_wf hp h3)
      · have : Dict.get? (pkg (s% "v3_0_0.Schema")).children (s% "required") = none := by decide +kernel
        rw [this]; exact fun h => by cases h
    · exact hs0
  generalize (if req.truthy = true then
      Dict.set s0 (s% "required") (.arr (subL s0 (s% "required") ++ [nj])) else s0) = s1 at hs1 h
  split at h
  · cases h
  obtain ⟨ref, h5, h⟩ := bindOk h
  obtain ⟨prop, h6, h⟩ := bindOk h
  obtain ⟨aev, h7, h⟩ := bindOk h
  obtain ⟨enc, h8, h⟩ := bindOk h
  cases h
  have hsrc : P ((kidT p (s% "schema")).getD p) := by
    cases hk : kidT p (s% "schema") with
    | none => exact hp
    | some x => exact source_kidT hp hk
  have hprop : (∃ d, prop = .obj d) ∧ Loads S schema3 prop := by
    refine toSchema_loads (P := P) _ true _ prop (Nat.le_refl _) ?_ h6
    split
    · exact ho
    · exact hsrc
  obtain ⟨⟨pd, rfl⟩, hpl⟩ := hprop
  dsimp only at *
  have hprop' : Loads S schema3 (if aev = .bool true then .obj (Dict.set pd (s% "nullable") (.bool true)) else .obj pd) := by
    split
    · refine loads_orRef_set hpl rfl (fun _ cd hcd => absurd hcd ?_)
      have : Dict.get? (pkg (s% "v3_0_0.Schema")).children (s% "nullable") = none := by decide +kernel
      rw [this]; exact fun h => by cases h
    · exact hpl
  generalize (if aev = .bool true then Json.obj (Dict.set pd (s% "nullable") (.bool true)) else .obj pd) = prop' at hprop'
  have hs2 : Loads S schema3 (.obj (Dict.set s1 (s% "properties") (.obj (Dict.set (Conv.sub s1 (s% "properties")) name prop')))) := by
    refine loads_orRef_set hs1 ?_ (fun hl cd hcd => ?_)
    · exact wf_set_obj (sub_wf hs1.2) hprop'.2
    · have hb : (Dict.get? (pkg (s% "v3_0_0.Schema")).children (s% "properties")).map (fun cd => cd.builder) =
        some (.mapOf schema3) := by decide +kernel
      have := (loads_map_set (k := name) (loads_sub_map hl hb) hprop').1
      rw [hcd] at hb
      rw [(Option.some.inj hb : cd.builder = .mapOf schema3)]
      exact this
  have hm2 : Loads S mediaB (.obj (Dict.set m (s% "schema") (.obj (Dict.set s1 (s% "properties")
      (.obj (Dict.set (Conv.sub s1 (s% "properties")) name prop')))))) := loads_child hm hs2 (by decide +kernel)
  split
  · exact hm2
  · refine loads_child (b := .mapOf (.cls (s% "v3_0_0.Encoding"))) hm2 ?_ (by decide +kernel)
    exact loads_map_set (loads_sub_map hm2 (by decide +kernel)) (toEncoding_loads h8)

theorem formContent_loads {env : Env} (he : EnvLoads P S env) {o : Obj} (ho : P o) (hn : NoSchema o) {ts : List Str} {c r : Dict Json}
    (hc : Loads S contentB (.obj c)) (h : formContent env o ts c = .ok r) : Loads S contentB (.obj r) := by
  induction ts generalizing c with
  | nil => cases h; exact hc
  | cons t ts ih =>
    rw [formContent] at h
    obtain ⟨m, h1, h⟩ := bindOk h
    exact ih (loads_map_set hc (toMediaType_loads he ho hn (loads_sub_entry t hc) h1)) h

theorem bodyContent_loads {s : Json} (hs : Loads S schema3 s) {ts : List Str} {c : Dict Json} (hc : Loads S contentB (.obj c)) :
    Loads S contentB (.obj (bodyContent s ts c)) := by
  induction ts generalizing c with
  | nil => exact hc
  | cons t ts ih =>
    exact ih (loads_map_set hc (loads_child (loads_sub_entry t hc) hs (by decide +kernel)))

/-- A request body as far as it is made. -/
def BodyLoads (S : Bool → Json → Prop) (b : Option (Dict Json)) : Prop := ∀ d, b = some d → Loads S bodyB (.obj d)

/-- `content` put into a request body. -/
theorem loads_content {ret c : Dict Json} (hr : ret = [] ∨ Loads S bodyB (.obj ret)) (hc : Loads S contentB (.obj c)) :
    Loads S bodyB (.obj (Dict.set ret (s% "content") (.obj c))) := by
  rcases hr with rfl | hr
  · refine ⟨.cls (keys_set (d := []) (k := s% "content") keys_empty (.inl (by decide))) (fun k cd hm hreq => ?_) (fun k cd v hm hv hn => ?_),
      wf_set_obj (d := []) (k := s% "content") rfl hc.2⟩
    · have hall : (pkg (s% "v3_0_0.RequestBody")).children.all (fun kc => decide (kc.1 = s% "content")) = true := by
        decide +kernel
      have := of_decide_eq_true (List.all_eq_true.1 hall _ hm)
      simp only at this
      subst this
      simp [Dict.get?_set_self]
    · have hall : (pkg (s% "v3_0_0.RequestBody")).children.all (fun kc => decide (kc.1 = s% "content" ∧
        kc.2.builder = contentB)) = true := by decide +kernel
      obtain ⟨h1, h2⟩ := of_decide_eq_true (List.all_eq_true.1 hall _ hm)
      simp only at h1 h2
      subst h1
      rw [Dict.get?_set_self] at hv
      cases hv
      rw [h2]
      exact hc.1
  · exact loads_child hr hc (by decide +kernel)

theorem toRequestBody_loads {env : Env} (he : EnvLoads P S env) {o : Obj} (ho : P o) (hn : NoSchema o) {b : Option (Dict Json)}
    {ctx : Ctx} {consumes : List Str} {r : Dict Json} (hb : BodyLoads S b) (h : toRequestBody env o b ctx consumes = .ok r) :
    Loads S bodyB (.obj r) := by
  unfold toRequestBody at h
  obtain ⟨p, h1, h⟩ := bindOk h
  obtain ⟨req, h2, h⟩ := bindOk h
  have hp := he.deref o p ho hn h1
  have hret : b.getD [] = [] ∨ Loads S bodyB (.obj (b.getD [])) := by
    cases b with
    | none => exact .inl rfl
    | some d => exact .inr (hb d rfl)
  generalize b.getD [] = ret at hret h
  have hc : Loads S contentB (.obj (Conv.sub ret (s% "content"))) := by
    rcases hret with rfl | hr
    · exact loads_map_empty
    · exact loads_sub_map hr (by decide +kernel)
  generalize Conv.sub ret (s% "content") = c at hc h
  have hr1 : Loads S bodyB (.obj (if req.truthy = true then
      Dict.set (Dict.set ret (s% "content") (.obj c)) (s% "required") (.bool true)
      else Dict.set ret (s% "content") (.obj c))) := by
    split
    · exact loads_field (loads_content hret hc) rfl (by decide +kernel)
    · exact loads_content hret hc
  generalize (if req.truthy = true then
      Dict.set (Dict.set ret (s% "content") (.obj c)) (s% "required") (.bool true)
      else Dict.set ret (s% "content") (.obj c)) = r1 at hr1 h
  split at h
  · obtain ⟨c', h3, h⟩ := bindOk h
    cases h
    exact loads_content (.inr hr1) (formContent_loads he ho hn hc h3)
  · split at h
    · split at h
      · cases h
      · obtain ⟨r2, h3, h⟩ := bindOk h
        obtain ⟨s, h4, h⟩ := bindOk h
        cases h
        refine loads_content (.inr (genFields_loads hp hr1 (by decide +kernel) h3)) (bodyContent_loads ?_ hc)
        exact (toSchema?_loads (fun x hx => source_kid hp hx) h4).2
    · cases h

abbrev paramB : Builder := .ifNotRef (s% "v3_0_0.Reference") (.cls (s% "v3_0_0.Parameter"))

theorem parameters_loads {env : Env} (he : EnvLoads P S env) {consumes : List Str} {os : List Obj} (ho : ∀ o ∈ os, P o)
    (hn : ∀ o ∈ os, NoSchema o) {ps ps' : List Json} {b b' : Option (Dict Json)} (hp : ∀ x ∈ ps, Loads S paramB x) (hb : BodyLoads S b)
    (h : parameters env consumes os ps b = .ok (ps', b')) : (∀ x ∈ ps', Loads S paramB x) ∧ BodyLoads S b' := by
  induction os generalizing ps b with
  | nil => cases h; exact ⟨hp, hb⟩
  | cons o os ih =>
    rw [parameters] at h
    obtain ⟨ctx, _, h⟩ := bindOk h
    have hos : ∀ x ∈ os, P x := fun x hx => ho x (by simp [hx])
    have hns : ∀ x ∈ os, NoSchema x := fun x hx => hn x (by simp [hx])
    split at h
    · obtain ⟨b1, h1, h⟩ := bindOk h
      exact ih hos hns hp (fun d hd => by cases hd; exact toRequestBody_loads he (ho o (by simp)) (hn o (by simp)) hb h1) h
    · obtain ⟨p1, h1, h⟩ := bindOk h
      refine ih hos hns (fun x hx => ?_) hb h
      rcases List.mem_append.1 hx with hx | hx
      · exact hp x hx
      · simp only [List.mem_singleton] at hx
        subst hx
        exact plainParameter_loads (ho o (by simp)) h1

/-! ### responses -/

abbrev respB : Builder := .ifNotRef (s% "v3_0_0.Reference") (.cls (s% "v3_0_0.Response"))

theorem responseContent_loads {s : Obj} {produces : List Str} {r : Dict Json} (hs : P s)
    (h : responseContent s produces = .ok r) : Loads S contentB (.obj r) := by
  unfold responseContent at h
  obtain ⟨ty, _, h⟩ := bindOk h
  dsimp only at h
  by_cases hty : ty = .str (s% "file")
  · rw [if_pos hty] at h
    cases h
    refine loads_map_set (d := []) (k := s% "application/octet-stream") loads_map_empty ?_
    exact loads_field (r := [(s% "type", .str (s% "string"))]) (k := s% "format")
      (loads_field (r := []) (k := s% "type") (loads_empty (by decide +kernel)) rfl (by decide +kernel)) rfl (by decide +kernel)
  · rw [if_neg hty] at h
    obtain ⟨j, h1, h⟩ := bindOk h
    cases h
    have hj := (toSchema_loads _ false s j (Nat.le_refl _) hs h1).2
    have hm : Loads S mediaB (.obj [(s% "schema", j)]) :=
      loads_child (r := []) (k := s% "schema") (loads_empty (by decide +kernel)) hj (by decide +kernel)
    generalize (if produces = [] then [if ty = .str (s% "object") then s% "application/json" else s% "text/plain"]
      else produces) = ts
    have key : ∀ (ts : List Str) (c : Dict Json), Loads S contentB (.obj c) →
        Loads S contentB (.obj (ts.foldl (fun c t => Dict.set c t (.obj [(s% "schema", j)])) c)) := by
      intro ts
      induction ts with
      | nil => exact fun c hc => hc
      | cons t ts ih => exact fun c hc => ih _ (loads_map_set hc hm)
    exact key ts [] loads_map_empty

theorem toResponse_loads {env : Env} (he : EnvLoads P S env) {o : Obj} (ho : P o) (hn : NoSchema o) {produces : List Str} {r : Json}
    (h : toResponse env o produces = .ok r) : Loads S respB r := by
  unfold toResponse at h
  obtain ⟨ref, h1, h⟩ := bindOk h
  obtain ⟨p, h2, h⟩ := bindOk h
  have hp := he.deref o p ho hn h2
  split at h
  · rename_i ht; cases h; exact loads_ref (fld_wf ho h1) (hP.ref ho h1 ht.1)
  obtain ⟨r1, h3, h⟩ := bindOk h
  obtain ⟨r2, h4, h⟩ := bindOk h
  obtain ⟨r3, h5, h⟩ := bindOk h
  cases h
  have l1 := genFields_loads (c := s% "v3_0_0.Response") hp (loads_empty (by decide +kernel)) (by decide +kernel) h3
  have l2 : Loads S (.cls (s% "v3_0_0.Response")) (.obj r2) := by
    unfold putContent at h4
    cases hk : kidT p (s% "schema") with
    | none => simp only [hk] at h4; cases h4; exact l1
    | some x =>
      simp only [hk] at h4
      obtain ⟨c, h6, h4⟩ := bindOk h4
      cases h4
      exact loads_child l1 (responseContent_loads (source_kidT hp hk) h6) (by decide +kernel)
  refine loads_orRef ?_
  unfold putHeaders at h5
  cases hk : kidT p (s% "headers") with
  | none => simp only [hk] at h5; cases h5; exact l2
  | some x =>
    simp only [hk] at h5
    obtain ⟨c, h6, h5⟩ := bindOk h5
    cases h5
    rw [toHeaders_eq] at h6
    refine loads_child l2 (setAll_loads (b := .ifNotRef (s% "v3_0_0.Reference") (.cls (s% "v3_0_0.Header"))) h6
      loads_map_empty (fun k y j hy hj => ?_)) (by decide +kernel)
    exact toHeader_loads (source_entry (source_kidT hp hk) hy) hj

theorem toResponses_loads {env : Env} (he : EnvLoads P S env) {produces : List Str} {es : List (Str × Obj)} {r : Dict Json}
    (ho : ∀ k o, (k, o) ∈ es → P o) (hn : ∀ k o, (k, o) ∈ es → NoSchema o) (h : toResponses env produces es [] = .ok r) :
    Loads S (.mapOf respB) (.obj r) := by
  rw [toResponses_eq] at h
  exact setAll_loads h loads_map_empty (fun k o j hm hj => toResponse_loads he (ho k o hm) (hn k o hm) hj)

/-! ### operations and path items -/

omit hP in
theorem ClsLoaded.any {c : Str} {o : Obj} (h : ClsLoaded P c o) : P o := h.1

/-- The child of a loaded object is what its builder has made. -/
theorem cls_kid {c : Str} {o x : Obj} {k : Str} {b : Builder} (h : ClsLoaded P c o) (hk : kid o k = some x)
    (hc : (Dict.get? (pkg c).children k).map (fun cd => cd.builder) = some b) :
    ∃ v q, v.wf = true ∧ build pkg b v q [] = .ok x := by
  obtain ⟨_, j, p, h1, h2⟩ := h
  cases o with
  | base c' p' s ks =>
    have hi := build_inv closed_all (B := fun _ => True) trivial h2
    have hcc : c' = c := by
      have h3 := h2
      rw [build_cls] at h3
      split at h3
      · cases h3
      · cases h3; rfl
    subst hcc
    obtain ⟨_, hkids⟩ := base_kids h2
    obtain ⟨cd, d, v, hm, rfl, hv, hb⟩ := hkids k x (Dict.mem_of_get? (hk : Dict.get? ks k = some x))
    rw [Dict.get?_of_mem (okTable_pkg.cls _).children hm] at hc
    cases hc
    exact ⟨v, _, wf_at h1 hv, hb⟩
  | _ => simp [kid] at hk

omit hP in
theorem slot_noSchema {r c : Str} {j : Json} {q : Option Str} {x : Obj} (h : build pkg (.ifNotRef r (.cls c)) j q [] = .ok x)
    (hr : r ≠ s% "v2_0.Schema") (hc : c ≠ s% "v2_0.Schema") : NoSchema x := by
  rw [build_ifNotRef] at h
  have key : ∀ {c : Str}, build pkg (.cls c) j q [] = .ok x → c ≠ s% "v2_0.Schema" → NoSchema x := by
    intro c h hc
    rw [build_cls] at h
    split at h
    · cases h
    · cases h
      intro e
      exact hc (Option.some.inj e)
  split at h
  · cases h
  · exact key h hr
  · exact key h hc

/-- No element of a child is a schema. -/
theorem elems_noSchema {c : Str} {o : Obj} {k c' : Str} (h : ClsLoaded P c o)
    (hc : (Dict.get? (pkg c).children k).map (fun cd => cd.builder) = some (.listOf (.ifNotRef (s% "v2_0.Reference") (.cls c'))))
    (hc' : c' ≠ s% "v2_0.Schema") : ∀ x ∈ elems (kid o k), NoSchema x := by
  intro x hx
  cases hk : kid o k with
  | none => rw [hk] at hx; cases hx
  | some m =>
    obtain ⟨v, q, hw, hv⟩ := cls_kid h hk hc
    rw [hk] at hx
    cases m with
    | list b' p' s es =>
      obtain ⟨l, rfl, hd⟩ := list_elems hv
      obtain ⟨j, hm, q', hj⟩ := hd x hx
      exact slot_noSchema hj (by decide) hc'
    | _ => simp [elems] at hx

theorem entries_noSchema {c : Str} {o m : Obj} {k c' : Str} (h : ClsLoaded P c o) (hk : kid o k = some m)
    (hc : (Dict.get? (pkg c).children k).map (fun cd => cd.builder) = some (.mapOf (.ifNotRef (s% "v2_0.Reference") (.cls c'))))
    (hc' : c' ≠ s% "v2_0.Schema") : ∀ n x, (n, x) ∈ entries (some m) → NoSchema x := by
  intro n x hx
  obtain ⟨v, q, hw, hv⟩ := cls_kid h hk hc
  cases m with
  | map b' p' s es =>
    obtain ⟨l, rfl, _, hd⟩ := map_elems hv
    obtain ⟨j, q', hm, hj⟩ := hd n x hx
    exact slot_noSchema hj (by decide) hc'
  | _ => simp [entries] at hx

omit hP in
theorem cls_noSchema {c : Str} {x : Obj} (h : ClsLoaded P c x) (hc : c ≠ s% "v2_0.Schema") : NoSchema x := by
  obtain ⟨_, j, q, _, h⟩ := h
  rw [build_cls] at h
  split at h
  · cases h
  · cases h
    intro e
    exact hc (Option.some.inj e)

/-- Lists and maps of strings have no other shape. -/
theorem raw_regular : ∀ (b : Builder), rawBuilder b = true → ∀ (j : Json) (q : Option Str) (x : Obj),
    build pkg b j q [] = .ok x → Fine S b j := by
  intro b
  induction b with
  | isStr =>
    intro _ j q x h
    rw [build_isStr] at h
    cases j with
    | str s => exact .isStr
    | _ => cases h
  | listOf b ih =>
    intro hb j q x h
    cases j with
    | arr l =>
      rw [build_list] at h
      split at h
      · cases h
      · rename_i es hes
        refine .list (fun y hy => ?_)
        obtain ⟨o', _, q', ho'⟩ := forall₂_mem_left (buildElems_forall₂ hes) hy
        exact ih hb y q' o' ho'
    | _ => rw [build_list_other _ _ _ (by simp)] at h; simp at h
  | mapOf b ih =>
    intro hb j q x h
    cases j with
    | obj d =>
      rw [build_map] at h
      split at h
      · cases h
      · rename_i es hes
        refine .map (fun k y hy => ?_)
        rw [buildItems_eq] at hes
        obtain ⟨⟨k', o'⟩, _, _, ho'⟩ := forall₂_mem_left (Dict.mapM_ok hes) hy
        simp only at ho'
        rw [buildAt_nil] at ho'
        exact ih hb y _ o' ho'
    | _ => rw [build_map_other _ _ _ (by simp)] at h; simp at h
  | _ => intro hb; cases hb

omit hP in
/-- A list or map of strings dumped. -/
theorem dump_loads {c : Str} {o x : Obj} {k : Str} {b : Builder} {j : Json} (h : ClsLoaded P c o) (hk : kid o k = some x)
    (hc : (Dict.get? (pkg c).children k).map (fun cd => cd.builder) = some b) (hb : rawBuilder b = true) (hs : b ≠ .isStr)
    (hj : Obj.dump pkg x = .ok j) : Loads S b j := by
  obtain ⟨v, q, hw, hv⟩ := cls_kid h hk hc
  have hr : Fine S b v := raw_regular b hb v q x hv
  have hd := dump_raw b hb v x ⟨hr.regular, hw, q, hv⟩
  have := hd.1
  rw [dumpElem_obj (hd.2 hs), hj] at this
  cases this
  exact ⟨hr, hw⟩

omit hP in
theorem putDump_loads {c c' : Str} {o : Obj} {k : Str} {b : Builder} {ret r : Dict Json} (h : ClsLoaded P c o)
    (hl : Loads S (.cls c') (.obj ret))
    (hc : (Dict.get? (pkg c).children k).map (fun cd => cd.builder) = some b)
    (hc' : (Dict.get? (pkg c').children k).map (fun cd => cd.builder) = some b) (hb : rawBuilder b = true) (hs : b ≠ .isStr)
    (hr : putDump o k ret = .ok r) (hkk : keyOk k = true := by decide) : Loads S (.cls c') (.obj r) := by
  unfold putDump at hr
  cases hk : kidT o k with
  | none => simp only [hk] at hr; cases hr; exact hl
  | some x =>
    simp only [hk] at hr
    obtain ⟨j, h1, hr⟩ := bindOk hr
    cases hr
    exact loads_child hl (dump_loads h (kidT_kid hk).1 hc hb hs h1) hc' hkk

theorem toServers_loads {env : Env} {root : Str} {ss : List Str} {l : List Json} (h : toServers env root ss = .ok l) :
    ∀ x ∈ l, Loads S (.cls (s% "v3_0_0.Server")) x := by
  induction ss generalizing l with
  | nil => cases h; intro x hx; cases hx
  | cons s ss ih =>
    rw [toServers] at h
    obtain ⟨u, _, h⟩ := bindOk h
    obtain ⟨l', h1, h⟩ := bindOk h
    cases h
    intro x hx
    rcases List.mem_cons.1 hx with rfl | hx
    · exact loads_field (r := []) (k := s% "url") (loads_empty (by decide +kernel)) rfl (by decide +kernel)
    · exact ih h1 x hx

abbrev opB : Builder := .cls (s% "v3_0_0.Operation")

include hP in
theorem elems_loaded {o : Obj} {k : Str} (h : P o) : ∀ x ∈ elems (kid o k), P x := by
  cases hk : kid o k with
  | none => intro x hx; simp [elems] at hx
  | some y => exact fun x hx => source_elem (source_kid h hk) hx

theorem putParams_loads {c : Str} {ps : List Json} {ret : Dict Json} (hl : Loads S (.cls c) (.obj ret))
    (hp : ∀ x ∈ ps, Loads S paramB x)
    (hc : (Dict.get? (pkg c).children (s% "parameters")).map (fun cd => cd.builder) = some (.listOf paramB)) :
    Loads S (.cls c) (.obj (if ps = [] then ret else Dict.set ret (s% "parameters") (.arr ps))) := by
  split
  · exact hl
  · exact loads_child hl (loads_list hp) hc

theorem toOperation_loads {env : Env} (he : EnvLoads P S env) {o : Obj} (ho : ClsLoaded P (s% "v2_0.Operation") o)
    {b b' : Option (Dict Json)} {root : Str} {produces consumes : List Str} {r : Dict Json} (hb : BodyLoads S b)
    (h : toOperation env o b root produces consumes = .ok (r, b')) : Loads S opB (.obj r) ∧ BodyLoads S b' := by
  unfold toOperation at h
  obtain ⟨r1, h1, h⟩ := bindOk h
  obtain ⟨r2, h2, h⟩ := bindOk h
  obtain ⟨r3, h3, h⟩ := bindOk h
  obtain ⟨⟨ps, b1⟩, h4, h⟩ := bindOk h
  obtain ⟨r4, h5, h⟩ := bindOk h
  obtain ⟨r5, h6, h⟩ := bindOk h
  obtain ⟨r6, h7, h⟩ := bindOk h
  cases h
  have l1 := genFields_loads (c := s% "v3_0_0.Operation") ho.any (loads_empty (by decide +kernel)) (by decide +kernel) h1
  have l2 := putDump_loads (b := .listOf .isStr) ho l1 (by decide +kernel) (by decide +kernel) rfl (by simp) h2
  have l3 := putDump_loads (b := .listOf (.mapOf (.listOf .isStr))) ho l2 (by decide +kernel) (by decide +kernel) rfl (by simp) h3
  obtain ⟨hps, hb1⟩ := parameters_loads he (elems_loaded ho.any) (elems_noSchema (c' := s% "v2_0.Parameter") ho (by decide +kernel) (by decide)) (fun x hx => by cases hx) hb h4
  refine ⟨?_, hb1⟩
  have l4 := putParams_loads l3 hps (by decide +kernel)
  have l5 : Loads S opB (.obj r4) := by
    unfold putOpResponses at h5
    cases hk : kidT o (s% "responses") with
    | none => simp only [hk] at h5; cases h5; exact l4
    | some x =>
      simp only [hk] at h5
      obtain ⟨m, h8, h5⟩ := bindOk h5
      cases h5
      exact loads_child l4 (toResponses_loads he (fun k y hy => source_entry (source_kidT ho.any hk) hy)
        (entries_noSchema (c' := s% "v2_0.Response") ho (kidT_kid hk).1 (by decide +kernel) (by decide)) h8) (by decide +kernel)
  have l6 := putExternalDocs_loads ho.any l5 (by decide +kernel) h6
  unfold putServers at h7
  cases hk : kidT o (s% "schemes") with
  | none => simp only [hk] at h7; cases h7; exact l6
  | some x =>
    simp only [hk] at h7
    obtain ⟨l, h8, h7⟩ := bindOk h7
    cases h7
    exact loads_child l6 (loads_list (toServers_loads h8)) (by decide +kernel)

theorem putBody_loads {b : Option (Dict Json)} {ret : Dict Json} (hb : BodyLoads S b) (h : Loads S opB (.obj ret)) :
    Loads S opB (.obj (putBody b ret)) := by
  cases b with
  | none => exact h
  | some d => exact loads_child h (loads_orRef (hb d rfl)) (by decide +kernel)

theorem pathOps_loads {env : Env} (he : EnvLoads P S env) {o : Obj} {root : Str} {produces consumes : List Str} {ms : List Str}
    (ho : ∀ m ∈ ms, ∀ op, kid o m = some op → ClsLoaded P (s% "v2_0.Operation") op)
    {b b' : Option (Dict Json)} {acc ops : List (Str × Dict Json)} (hb : BodyLoads S b)
    (hacc : ∀ p ∈ acc, Loads S opB (.obj p.2))
    (h : pathOps env o root produces consumes ms b acc = .ok (ops, b')) :
    (∀ p ∈ ops, Loads S opB (.obj p.2)) ∧ (∀ p ∈ ops, p ∈ acc ∨ p.1 ∈ ms) ∧ BodyLoads S b' := by
  induction ms generalizing b acc with
  | nil => cases h; exact ⟨hacc, fun p hp => .inl hp, hb⟩
  | cons m ms ih =>
    have ho' : ∀ m ∈ ms, ∀ op, kid o m = some op → ClsLoaded P (s% "v2_0.Operation") op :=
      fun m hm => ho m (by simp [hm])
    rw [pathOps] at h
    cases hk : kidT o m with
    | none =>
      simp only [hk] at h
      obtain ⟨a1, a2, a3⟩ := ih ho' hb hacc h
      exact ⟨a1, fun p hp => (a2 p hp).imp id (fun h => by simp [h]), a3⟩
    | some op =>
      simp only [hk] at h
      obtain ⟨⟨ret, b1⟩, h1, h⟩ := bindOk h
      obtain ⟨c1, c2⟩ := toOperation_loads he (ho m (by simp) op (kidT_kid hk).1) hb h1
      have step : ∀ (b2 : Option (Dict Json)) (x : Dict Json), BodyLoads S b2 → Loads S opB (.obj x) →
          pathOps env o root produces consumes ms b2 (acc ++ [(m, x)]) = .ok (ops, b') →
          (∀ p ∈ ops, Loads S opB (.obj p.2)) ∧ (∀ p ∈ ops, p ∈ acc ∨ p.1 ∈ m :: ms) ∧ BodyLoads S b' := by
        intro b2 x hb2 hx h
        obtain ⟨a1, a2, a3⟩ := ih ho' hb2 (fun p hp => by
          rcases List.mem_append.1 hp with hp | hp
          · exact hacc p hp
          · simp only [List.mem_singleton] at hp; subst hp; exact hx) h
        refine ⟨a1, fun p hp => ?_, a3⟩
        rcases a2 p hp with hp | hp
        · rcases List.mem_append.1 hp with hp | hp
          · exact .inl hp
          · simp only [List.mem_singleton] at hp; subst hp; exact .inr (by simp)
        · exact .inr (by simp [hp])
      cases b with
      | none => exact step none _ (fun d hd => by cases hd) (putBody_loads c2 c1) h
      | some d => exact step b1 _ c2 c1 h

theorem update_loads {c : Str} {r : Dict Json} {ops : Dict Json} (h : Loads S (.cls c) (.obj r))
    (ho : ∀ p ∈ ops, ∃ b, Loads S b p.2 ∧ (Dict.get? (pkg c).children p.1).map (fun cd => cd.builder) = some b ∧ keyOk p.1 = true) :
    Loads S (.cls c) (.obj (Dict.update r ops)) := by
  unfold Dict.update
  induction ops generalizing r with
  | nil => exact h
  | cons p ops ih =>
    obtain ⟨b, h1, h2, h3⟩ := ho p (by simp)
    exact ih (loads_child h h1 h2 h3) (fun q hq => ho q (by simp [hq]))

abbrev pathB : Builder := .cls (s% "v3_0_0.PathItem")

theorem toPathItem_loads {env : Env} (he : EnvLoads P S env) {o : Obj} (ho : ClsLoaded P (s% "v2_0.PathItem") o) {root : Str}
    {consumes produces : List Str} {r : Dict Json} {rl : Routes}
    (h : toPathItem env o root consumes produces = .ok (r, rl)) : Loads S pathB (.obj r) := by
  unfold toPathItem at h
  obtain ⟨ref, h1, h⟩ := bindOk h
  obtain ⟨⟨ps, b⟩, h2, h⟩ := bindOk h
  obtain ⟨idx, _, h⟩ := bindOk h
  obtain ⟨⟨ops, b1⟩, h3, h⟩ := bindOk h
  cases h
  obtain ⟨hps, hb⟩ := parameters_loads he (elems_loaded ho.any) (elems_noSchema (c' := s% "v2_0.Parameter") ho (by decide +kernel) (by decide)) (fun x hx => by cases hx) (fun d hd => by cases hd) h2
  have hm : ∀ m ∈ methods, ∀ op, kid o m = some op → ClsLoaded P (s% "v2_0.Operation") op := by
    intro m hm op hk
    have hc : (Dict.get? (pkg (s% "v2_0.PathItem")).children m).map (fun cd => cd.builder) =
        some (.cls (s% "v2_0.Operation")) := by
      revert hm; revert m
      have : ∀ m ∈ methods, (Dict.get? (pkg (s% "v2_0.PathItem")).children m).map (fun cd => cd.builder) =
        some (.cls (s% "v2_0.Operation")) := by decide +kernel
      exact fun m _ hm => this m hm
    obtain ⟨v, q, hw, hv⟩ := cls_kid ho hk hc
    exact ⟨source_kid ho.any hk, v, q, hw, hv⟩
  obtain ⟨a1, a2, a3⟩ := pathOps_loads he hm hb (fun p hp => by cases hp) h3
  have l0 : Loads S pathB (.obj (if ref.truthy = true then [(s% "$ref", env.normRef o)] else [])) := by
    split
    · rename_i ht
      obtain ⟨g1, g2⟩ := he.normRef o ref ho h1 ht
      refine loads_put (r := []) (k := s% "$ref") (loads_empty (by decide +kernel)) g1 (fun cd hc => absurd hc ?_) (.inr (.inl ⟨rfl, g2⟩))
      rw [show Dict.get? (pkg (s% "v3_0_0.PathItem")).children (s% "$ref") = none by decide +kernel]
      exact fun h => by cases h
    · exact loads_empty (by decide +kernel)
  have l1 := putParams_loads l0 hps (by decide +kernel)
  have l2 := update_loads (ops := ops.map (fun p => (p.1, .obj (putBody b1 p.2)))) l1 (fun p hp => by
    obtain ⟨q, hq, rfl⟩ := List.mem_map.1 hp
    refine ⟨opB, putBody_loads a3 (a1 q hq), ?_⟩
    have hqm : q.1 ∈ methods := (a2 q hq).resolve_left (fun h => by cases h)
    have : ∀ m ∈ methods, (Dict.get? (pkg (s% "v3_0_0.PathItem")).children m).map (fun cd => cd.builder) = some opB ∧ keyOk m = true := by
      decide +kernel
    exact this _ hqm)
  cases b1 with
  | none => exact l2
  | some d => exact loads_child l2 (a3 d rfl) (by decide +kernel)

theorem toPaths_loads {env : Env} (he : EnvLoads P S env) {root : Str} {consumes produces : List Str} {es : List (Str × Obj)}
    (ho : ∀ k o, (k, o) ∈ es → ClsLoaded P (s% "v2_0.PathItem") o) {ret r : Dict Json} {rl rl' : Routes}
    (hr : Loads S (.mapOf pathB) (.obj ret)) (h : toPaths env root consumes produces es ret rl = .ok (r, rl')) :
    Loads S (.mapOf pathB) (.obj r) := by
  induction es generalizing ret rl with
  | nil => cases h; exact hr
  | cons p es ih =>
    obtain ⟨k, o⟩ := p
    rw [toPaths] at h
    split at h
    · cases h
    · obtain ⟨⟨j, r1⟩, h1, h⟩ := bindOk h
      exact ih (fun k o hm => ho k o (by simp [hm])) (loads_map_set hr (toPathItem_loads he (ho k o (by simp)) h1)) h

/-! ### documents -/

theorem toTag_loads {o : Obj} (ho : P o) {r : Json} (h : toTag o = .ok r) : Loads S (.cls (s% "v3_0_0.Tag")) r := by
  unfold toTag at h
  obtain ⟨n, h1, h⟩ := bindOk h
  obtain ⟨r1, h2, h⟩ := bindOk h
  obtain ⟨r2, h3, h⟩ := bindOk h
  cases h
  have l0 : Loads S (.cls (s% "v3_0_0.Tag")) (.obj [(s% "name", n)]) :=
    loads_field (r := []) (k := s% "name") (loads_empty (by decide +kernel)) (fld_wf ho h1) (by decide +kernel)
  exact putExternalDocs_loads ho (genFields_loads ho l0 (by decide +kernel) h2) (by decide +kernel) h3

theorem toTags_loads {os : List Obj} (ho : ∀ o ∈ os, P o) {l : List Json} (h : toTags os = .ok l) :
    ∀ x ∈ l, Loads S (.cls (s% "v3_0_0.Tag")) x := by
  induction os generalizing l with
  | nil => cases h; intro x hx; cases hx
  | cons o os ih =>
    rw [toTags] at h
    obtain ⟨j, h1, h⟩ := bindOk h
    obtain ⟨l', h2, h⟩ := bindOk h
    cases h
    intro x hx
    rcases List.mem_cons.1 hx with rfl | hx
    · exact toTag_loads (ho o (by simp)) h1
    · exact ih (fun o hm => ho o (by simp [hm])) h2 x hx

theorem toInfo_loads {o : Obj} (ho : P o) {r : Dict Json} (h : toInfo o = .ok r) :
    Loads S (.cls (s% "v3_0_0.Info")) (.obj r) := by
  unfold toInfo at h
  obtain ⟨t, h1, h⟩ := bindOk h
  obtain ⟨v, h2, h⟩ := bindOk h
  obtain ⟨r1, h3, h⟩ := bindOk h
  obtain ⟨r2, h4, h⟩ := bindOk h
  have l0 : Loads S (.cls (s% "v3_0_0.Info")) (.obj [(s% "title", t), (s% "version", v)]) :=
    loads_field (r := [(s% "title", t)]) (k := s% "version") (loads_field (r := []) (k := s% "title")
      (loads_empty (by decide +kernel)) (fld_wf ho h1) (by decide +kernel)) (fld_wf ho h2) (by decide +kernel)
  have l1 := genFields_loads ho l0 (by decide +kernel) h3
  have l2 : Loads S (.cls (s% "v3_0_0.Info")) (.obj r2) := by
    unfold putContact at h4
    cases hk : kidT o (s% "contact") with
    | none => simp only [hk] at h4; cases h4; exact l1
    | some x =>
      simp only [hk] at h4
      obtain ⟨c, h5, h4⟩ := bindOk h4
      cases h4
      exact loads_child l1 (genFields_loads (c := s% "v3_0_0.Contact") (source_kidT ho hk) (loads_empty (by decide +kernel))
        (by decide +kernel) h5) (by decide +kernel)
  unfold putLicense at h
  cases hk : kidT o (s% "license") with
  | none => simp only [hk] at h; cases h; exact l2
  | some x =>
    simp only [hk] at h
    obtain ⟨c, h5, h⟩ := bindOk h
    cases h
    unfold toLicense at h5
    obtain ⟨n, h6, h5⟩ := bindOk h5
    have l3 : Loads S (.cls (s% "v3_0_0.License")) (.obj [(s% "name", n)]) :=
      loads_field (r := []) (k := s% "name") (loads_empty (by decide +kernel)) (fld_wf (source_kidT ho hk) h6) (by decide +kernel)
    exact loads_child l2 (genFields_loads (source_kidT ho hk) l3 (by decide +kernel) h5) (by decide +kernel)

/-- The flow has scopes, or a name OpenAPI 3 does not know. -/
def ScopesOk (o : Obj) : Prop :=
  fld o (s% "type") = .ok (.str (s% "oauth2")) →
    (kidT o (s% "scopes")).isSome = true ∨
    ∀ f, fld o (s% "flow") = .ok (.str f) → Dict.get? (pkg (s% "v3_0_0.OAuthFlows")).children f = none

theorem toSecurityScheme_loads {o : Obj} (ho : ClsLoaded P (s% "v2_0.SecurityScheme") o) (hs : ScopesOk o) {r : Json}
    (h : toSecurityScheme o = .ok r) :
    Loads S (.ifNotRef (s% "v3_0_0.Reference") (.cls (s% "v3_0_0.SecurityScheme"))) r := by
  unfold toSecurityScheme at h
  obtain ⟨ty, h1, h⟩ := bindOk h
  obtain ⟨r1, h2, h⟩ := bindOk h
  obtain ⟨r2, h3, h⟩ := bindOk h
  cases h
  have l0 : Loads S (.cls (s% "v3_0_0.SecurityScheme")) (.obj [(s% "type", ty)]) :=
    loads_field (r := []) (k := s% "type") (loads_empty (by decide +kernel)) (fld_wf ho.any h1) (by decide +kernel)
  refine loads_orRef (genFields_loads ho.any ?_ (by decide +kernel) h3)
  unfold schemeDetails at h2
  split at h2
  · cases h2; exact loads_field l0 rfl (by decide +kernel)
  split at h2
  · rename_i hoa
    obtain ⟨f, h4, h2⟩ := bindOk h2
    cases h2
    refine loads_child (b := .cls (s% "v3_0_0.OAuthFlows")) l0 ?_ (by decide +kernel)
    unfold toFlows at h4
    obtain ⟨fl, h5, h4⟩ := bindOk h4
    split at h4
    · cases h4
    cases fl with
    | str f =>
      simp only at h4
      obtain ⟨x, h6, h4⟩ := bindOk h4
      obtain ⟨x2, h7, h4⟩ := bindOk h4
      cases h4
      have l6 := genFields_loads (c := s% "v3_0_0.Reference") ho.any (loads_empty (by decide +kernel)) (by decide +kernel) h6
      have w1 := l6.2
      subst hoa
      -- the scopes
      have hx2 : (Json.obj x2).wf = true ∧ ((kidT o (s% "scopes")).isSome = true →
          ∃ j, Loads S (.mapOf .isStr) j ∧ x2 = Dict.set x (s% "scopes") j) := by
        unfold putScopes at h7
        cases hk : kidT o (s% "scopes") with
        | none => simp only [hk] at h7; cases h7; exact ⟨w1, fun h => by cases h⟩
        | some y =>
          simp only [hk] at h7
          obtain ⟨j, h8, h7⟩ := bindOk h7
          cases h7
          have hj : Loads S _ j := dump_loads (b := .mapOf .isStr) ho (kidT_kid hk).1 (by decide +kernel) rfl (by simp) h8
          exact ⟨wf_set_obj w1 hj.2, fun _ => ⟨j, hj, rfl⟩⟩
      refine loads_put (r := []) (k := f) (loads_empty (by decide +kernel)) hx2.1 (fun cd hcd => ?_) (.inr (.inr rfl))
      rcases hs h1 with hsome | hno
      · obtain ⟨j, hj, rfl⟩ := hx2.2 hsome
        have hb : cd.builder = .cls (s% "v3_0_0.OAuthFlow") := by
          have hall : (pkg (s% "v3_0_0.OAuthFlows")).children.all (fun kc => decide (kc.2.builder =
            .cls (s% "v3_0_0.OAuthFlow"))) = true := by decide +kernel
          exact of_decide_eq_true (List.all_eq_true.1 hall _ (Dict.mem_of_get? hcd))
        rw [hb]
        have hall : (pkg (s% "v3_0_0.OAuthFlow")).children.all (fun kc => decide (kc.1 = s% "scopes" ∧
            kc.2.builder = .mapOf .isStr)) = true := by decide +kernel
        refine .cls (keys_set (keys_ref (fine_keys l6.1) (by decide) (by decide)) (.inl (by decide))) (fun k cd hm _ => ?_)
          (fun k cd v hm hv hn => ?_)
        · obtain ⟨e1, _⟩ := of_decide_eq_true (List.all_eq_true.1 hall _ hm)
          simp only at e1
          subst e1
          rw [Dict.get?_set_self]; simp
        · obtain ⟨e1, e2⟩ := of_decide_eq_true (List.all_eq_true.1 hall _ hm)
          simp only at e1 e2
          subst e1
          rw [Dict.get?_set_self] at hv
          cases hv
          rw [e2]
          exact hj.1
      · rw [hno f h5] at hcd; cases hcd
    | _ => cases h4
  · cases h2; exact l0

theorem toSecuritySchemes_loads {es : List (Str × Obj)} {r : Dict Json}
    (ho : ∀ k o, (k, o) ∈ es → ClsLoaded P (s% "v2_0.SecurityScheme") o ∧ ScopesOk o) (h : toSecuritySchemes es [] = .ok r) :
    Loads S (.mapOf (.ifNotRef (s% "v3_0_0.Reference") (.cls (s% "v3_0_0.SecurityScheme")))) (.obj r) := by
  rw [toSecuritySchemes_eq] at h
  exact setAll_loads h loads_map_empty (fun k o j hm hj => toSecurityScheme_loads (ho k o hm).1 (ho k o hm).2 hj)

abbrev namedBodyB : Builder := .ifNotRef (s% "v3_0_0.Reference") bodyB

theorem toNamedParameters_loads {env : Env} (he : EnvLoads P S env) {es : List (Str × Obj)} (ho : ∀ k o, (k, o) ∈ es → P o)
    (hn : ∀ k o, (k, o) ∈ es → NoSchema o) {ps bs ps' bs' : Dict Json} {rl rl' : Routes} (hp : Loads S (.mapOf paramB) (.obj ps)) (hb : Loads S (.mapOf namedBodyB) (.obj bs))
    (h : toNamedParameters env es ps bs rl = .ok (ps', bs', rl')) :
    Loads S (.mapOf paramB) (.obj ps') ∧ Loads S (.mapOf namedBodyB) (.obj bs') := by
  induction es generalizing ps bs rl with
  | nil => cases h; exact ⟨hp, hb⟩
  | cons p es ih =>
    obtain ⟨k, o⟩ := p
    have ho' : ∀ k o, (k, o) ∈ es → P o := fun k o hm => ho k o (by simp [hm])
    have hn' : ∀ k o, (k, o) ∈ es → NoSchema o := fun k o hm => hn k o (by simp [hm])
    rw [toNamedParameters] at h
    obtain ⟨ctx, _, h⟩ := bindOk h
    split at h
    · obtain ⟨b1, h1, h⟩ := bindOk h
      exact ih ho' hn' hp (loads_map_set hb (loads_orRef (toRequestBody_loads he (ho k o (by simp)) (hn k o (by simp)) (fun d hd => by cases hd) h1))) h
    · obtain ⟨p1, h1, h⟩ := bindOk h
      exact ih ho' hn' (loads_map_set hp (plainParameter_loads (ho k o (by simp)) h1)) hb h

theorem putSome_loads {c : Str} {k : Str} {v d : Dict Json} {b : Builder} (hl : Loads S (.cls c) (.obj d)) (hv : Loads S b (.obj v))
    (hc : (Dict.get? (pkg c).children k).map (fun cd => cd.builder) = some b) (hkk : keyOk k = true := by decide) :
    Loads S (.cls c) (.obj (putSome k v d)) := by
  unfold putSome
  split
  · exact hl
  · exact loads_child hl hv hc hkk

include hP in
/-- The elements of a map that is a child. -/
theorem cls_entries {c c' : Str} {o x : Obj} {k : Str} (h : ClsLoaded P c o) (hk : kidT o k = some x)
    (hc : (Dict.get? (pkg c).children k).map (fun cd => cd.builder) = some (.mapOf (.cls c'))) :
    ∀ n y, (n, y) ∈ entries (some x) → ClsLoaded P c' y := by
  obtain ⟨v, q, hw, hv⟩ := cls_kid h (kidT_kid hk).1 hc
  intro n y hy
  cases x with
  | map b' p' s es =>
    obtain ⟨d, rfl, _, hd⟩ := map_elems hv
    obtain ⟨j, q', hm, hj⟩ := hd n y hy
    exact ⟨source_entry (source_kidT h.any hk) hy, j, q', wf_member hw hm, hj⟩
  | _ => simp [entries] at hy

abbrev docB : Builder := .cls (s% "v3_0_0.OpenApi")

/-- What `to_openapi` makes of a loaded document can be loaded. -/
theorem toOpenapi_loads {env : Env} (he : EnvLoads P S env) {o : Obj} (ho : ClsLoaded P (s% "v2_0.Swagger") o)
    (hs : ∀ x, kidT o (s% "securityDefinitions") = some x → ∀ k y, (k, y) ∈ entries (some x) → ScopesOk y)
    {r : Dict Json} {rl : Routes} (h : toOpenapi env o = .ok (r, rl)) : Loads S docB (.obj r) := by
  unfold toOpenapi at h
  obtain ⟨r1, h1, h⟩ := bindOk h
  obtain ⟨url, _, h⟩ := bindOk h
  obtain ⟨⟨r2, rl2⟩, h2, h⟩ := bindOk h
  have l0 : Loads S docB (.obj [(s% "openapi", .str (s% "3.0.0"))]) :=
    loads_field (r := []) (k := s% "openapi") (loads_empty (by decide +kernel)) rfl (by decide +kernel)
  have l1 : Loads S docB (.obj r1) := by
    unfold putInfo at h1
    cases hk : kidT o (s% "info") with
    | none => simp only [hk] at h1; cases h1; exact l0
    | some x =>
      simp only [hk] at h1
      obtain ⟨c, h5, h1⟩ := bindOk h1
      cases h1
      exact loads_child l0 (toInfo_loads (source_kidT ho.any hk) h5) (by decide +kernel)
  have l1' : Loads S docB (.obj (Dict.set r1 (s% "servers") (.arr [.obj [(s% "url", .str url)]]))) := by
    refine loads_child (b := .listOf (.cls (s% "v3_0_0.Server"))) l1 (loads_list (fun x hx => ?_)) (by decide +kernel)
    simp only [List.mem_singleton] at hx
    subst hx
    exact loads_field (r := []) (k := s% "url") (loads_empty (by decide +kernel)) rfl (by decide +kernel)
  have l2 : Loads S docB (.obj r2) := by
    unfold putPaths at h2
    cases hk : kidT o (s% "paths") with
    | none => simp only [hk] at h2; cases h2; exact l1'
    | some x =>
      simp only [hk] at h2
      obtain ⟨⟨ps, pr⟩, h5, h2⟩ := bindOk h2
      cases h2
      exact loads_child l1' (toPaths_loads he (cls_entries ho hk (by decide +kernel)) loads_map_empty h5) (by decide +kernel)
  dsimp only at h
  by_cases hsec : (kidT o (s% "security")).isSome = true
  · rw [if_pos hsec] at h; cases h
  rw [if_neg hsec] at h
  obtain ⟨r3, h3, h⟩ := bindOk h
  obtain ⟨r4, h4, h⟩ := bindOk h
  obtain ⟨⟨c1, q1⟩, h5, h⟩ := bindOk h
  obtain ⟨⟨c2, q2⟩, h6, h⟩ := bindOk h
  obtain ⟨⟨c3, q3⟩, h7, h⟩ := bindOk h
  obtain ⟨⟨c4, q4⟩, h8, h⟩ := bindOk h
  cases h
  have l3 : Loads S docB (.obj r3) := by
    unfold putTags at h3
    cases hk : kidT o (s% "tags") with
    | none => simp only [hk] at h3; cases h3; exact l2
    | some x =>
      simp only [hk] at h3
      obtain ⟨l, h9, h3⟩ := bindOk h3
      cases h3
      exact loads_child l2 (loads_list (toTags_loads (fun y hy => source_elem (source_kidT ho.any hk) hy) h9)) (by decide +kernel)
  have l4 := putExternalDocs_loads ho.any l3 (by decide +kernel) h4
  have m0 : Loads S (.cls (s% "v3_0_0.Components")) (.obj []) := loads_empty (by decide +kernel)
  have m1 : Loads S (.cls (s% "v3_0_0.Components")) (.obj c1) := by
    unfold putSchemas at h5
    cases hk : kidT o (s% "definitions") with
    | none => simp only [hk] at h5; cases h5; exact m0
    | some x =>
      simp only [hk] at h5
      obtain ⟨m, h9, h5⟩ := bindOk h5
      cases h5
      rw [toSchemaProps_eq] at h9
      refine loads_child m0 (setAll_loads (b := schema3) h9 loads_map_empty (fun k y j hy hj => ?_)) (by decide +kernel)
      exact (toSchema_loads _ false y j (Nat.le_refl _) (source_entry (source_kidT ho.any hk) hy) hj).2
  have m2 : Loads S (.cls (s% "v3_0_0.Components")) (.obj c2) := by
    unfold putParameters at h6
    cases hk : kidT o (s% "parameters") with
    | none => simp only [hk] at h6; cases h6; exact m1
    | some x =>
      simp only [hk] at h6
      obtain ⟨⟨ps, bs, pr⟩, h9, h6⟩ := bindOk h6
      cases h6
      obtain ⟨n1, n2⟩ := toNamedParameters_loads he (fun k y hy => source_entry (source_kidT ho.any hk) hy)
        (fun k y hy => cls_noSchema (cls_entries (c' := s% "v2_0.Parameter") ho hk (by decide +kernel) k y hy) (by decide)) loads_map_empty
        loads_map_empty h9
      exact putSome_loads (putSome_loads m1 n2 (by decide +kernel)) n1 (by decide +kernel)
  have m3 : Loads S (.cls (s% "v3_0_0.Components")) (.obj c3) := by
    unfold putResponses at h7
    cases hk : kidT o (s% "responses") with
    | none => simp only [hk] at h7; cases h7; exact m2
    | some x =>
      simp only [hk] at h7
      obtain ⟨m, h9, h7⟩ := bindOk h7
      cases h7
      exact loads_child m2 (toResponses_loads he (fun k y hy => source_entry (source_kidT ho.any hk) hy)
        (fun k y hy => cls_noSchema (cls_entries (c' := s% "v2_0.Response") ho hk (by decide +kernel) k y hy) (by decide)) h9) (by decide +kernel)
  have m4 : Loads S (.cls (s% "v3_0_0.Components")) (.obj c4) := by
    unfold putSecurity at h8
    cases hk : kidT o (s% "securityDefinitions") with
    | none => simp only [hk] at h8; cases h8; exact m3
    | some x =>
      simp only [hk] at h8
      obtain ⟨m, h9, h8⟩ := bindOk h8
      cases h8
      have hcl := cls_entries (c' := s% "v2_0.SecurityScheme") ho hk (by decide +kernel)
      exact loads_child m3 (toSecuritySchemes_loads (fun k y hy => ⟨hcl k y hy, hs x hk k y hy⟩) h9) (by decide +kernel)
  exact putSome_loads l4 m4 (by decide +kernel)

end Pyopenapi
