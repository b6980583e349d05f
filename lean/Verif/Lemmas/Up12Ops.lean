import Verif.Lemmas.Up12

/-! Operations, and the paths they make. -/

namespace Pyopenapi
open Spec Obj Conv
namespace Up12

theorem textAt_of {d : Dict Json} {k t : Str} (h : look d k = .str t) : textAt d k = t := by
  unfold look at h
  unfold textAt
  cases hg : Dict.get? d k with
  | none => rw [hg] at h; cases h
  | some v => rw [hg] at h; cases h; rfl

theorem asText_ok {e : Err} {j : Json} {t : Str} (h : asText e j = .ok t) : j = .str t := by
  cases j <;> cases h
  rfl

theorem built_reqd {c : Str} {d : Dict Json} {o : Obj} (h : Built (.cls c) (.obj d) o) {k : Str} (hk : requiredField c k = true)
    {v : Json} (hv : fld o k = .ok v) : v = look d k := by
  rw [built_required h hk] at hv
  unfold look
  cases hg : Dict.get? d k with
  | none => rw [hg] at hv; cases hv
  | some w => rw [hg] at hv; cases hv; rfl

/-- The path of the resource. -/
theorem scopeOf_ok {d : Dict Json} {o : Obj} (h : Built (.cls (s% "v1_2.ApiDeclaration")) (.obj d) o) {s : Str}
    (hr : scopeOf o = .ok s) : s = (resourcePath d).drop 1 ∧ look d (s% "resourcePath") = .str (resourcePath d) := by
  unfold scopeOf at hr
  rw [built_look h (by decide +kernel)] at hr
  obtain ⟨_, e0, hr⟩ := bindOk hr
  cases e0
  obtain ⟨p, ep, hr⟩ := bindOk hr
  cases hr
  have := asText_ok ep
  have e : resourcePath d = p := textAt_of this
  exact ⟨by rw [e], by rw [e, this]⟩

/-- The objects of a list of objects of one class. -/
theorem built_dicts {c : Str} {l : List Json} {os : List Obj} (h : List.Forall₂ (Built (.cls c)) l os) :
    List.Forall₂ (fun e o => Built (.cls c) (.obj e) o) (l.filterMap (fun x => match x with
      | .obj e => some e
      | _ => none)) os := by
  induction h with
  | nil => exact .nil
  | cons hb _ ih =>
    obtain ⟨d, _, _, rfl, _, _⟩ := built_cls hb
    exact .cons hb ih

theorem kid_dictsAt {c c' : Str} {d : Dict Json} {o : Obj} (h : Built (.cls c) (.obj d) o) {k : Str}
    (hc : (Dict.get? (pkg c).children k).map (fun cd => cd.builder) = some (.listOf (.cls c'))) :
    List.Forall₂ (fun e o => Built (.cls c') (.obj e) o) (dictsAt d k) (elems (kid o k)) :=
  built_dicts (kid_listAt h hc).1

theorem paramsOf_ok {env : Env} (hl : LowerOk env) (hn : NumbersOk env) {path : Str} {ds : List (Dict Json)} {os : List Obj}
    (h : List.Forall₂ (fun e o => Built (.cls (s% "v1_2.Parameter")) (.obj e) o) ds os) {l : List Json}
    (hr : paramsOf env (path.drop 1) os = .ok l) : ∃ ps : List (Dict Json), l = ps.map .obj ∧
      List.Forall₂ (ParameterTo env.numbers env.lower env.sep path) ds ps ∧ (Json.arr l).wf = true := by
  induction h generalizing l with
  | nil => cases hr; exact ⟨[], rfl, .nil, rfl⟩
  | cons hb _ ih =>
    unfold paramsOf at hr
    obtain ⟨r, g1, hr⟩ := bindOk hr
    obtain ⟨rs, g2, hr⟩ := bindOk hr
    cases hr
    obtain ⟨ps, rfl, p1, p2⟩ := ih g2
    obtain ⟨q1, q2⟩ := convertParameter_ok hl hn hb g1
    refine ⟨r :: ps, rfl, .cons q1 p1, ?_⟩
    simp only [Json.wf, Json.wfL, Bool.and_eq_true] at p2 q2 ⊢
    exact ⟨q2, p2⟩

theorem ownOrDecl_ok {d e : Dict Json} {op decl : Obj} (h : Built (.cls (s% "v1_2.Operation")) (.obj d) op)
    (hd : Built (.cls (s% "v1_2.ApiDeclaration")) (.obj e) decl) {k : Str} (hk : k ∈ [s% "consumes", s% "produces"])
    {dst r : Dict Json} (hn : Dict.get? dst k = none) (hr : ownOrDecl op decl k dst = .ok r) :
    Step k dst r ∧ Dict.get? r k = ownElse e d k := by
  unfold ownOrDecl at hr
  have h1 : looseField (s% "v1_2.Operation") k = true :=
    (show ∀ k ∈ [s% "consumes", s% "produces"], looseField (s% "v1_2.Operation") k = true by decide +kernel) k hk
  have h2 : looseField (s% "v1_2.ApiDeclaration") k = true :=
    (show ∀ k ∈ [s% "consumes", s% "produces"], looseField (s% "v1_2.ApiDeclaration") k = true by decide +kernel) k hk
  rw [built_look h h1, built_look hd h2] at hr
  cases hr
  unfold ownElse
  by_cases ht : (look d k).truthy = true
  · rw [if_pos ht, if_pos ht, if_pos ht]
    exact ⟨.set _ _ (look_wf12 h.wf _), Dict.get?_set_self _ _ _⟩
  · rw [if_neg ht, if_neg ht]
    by_cases ht2 : (look e k).truthy = true
    · rw [if_pos ht2, if_pos ht2]
      exact ⟨.set _ _ (look_wf12 hd.wf _), Dict.get?_set_self _ _ _⟩
    · rw [if_neg ht2, if_neg ht2]
      exact ⟨.refl _ _, hn⟩

theorem scopesOf_ok {l : List Json} {os : List Obj} (h : List.Forall₂ (Built (.cls (s% "v1_2.Authorizations"))) l os) :
    ∃ r, scopesOf os = .ok r ∧ r = scopesTo (.arr l) ∧ (Json.arr r).wf = true := by
  induction h with
  | nil => exact ⟨[], rfl, rfl, rfl⟩
  | cons hb _ ih =>
    obtain ⟨r, h1, h2, h3⟩ := ih
    obtain ⟨d, _, _, rfl, _, _⟩ := built_cls hb
    have hf : looseField (s% "v1_2.Authorizations") (s% "scope") = true := by decide +kernel
    refine ⟨look d (s% "scope") :: r, ?_, ?_, ?_⟩
    · unfold scopesOf
      simp only [built_look hb hf, h1, bind, Except.bind]
    · subst h2; rfl
    · simp only [Json.wf, Json.wfL, Bool.and_eq_true] at h3 ⊢
      exact ⟨look_wf12 hb.wf _, h3⟩

theorem securityOf_ok {l : Dict Json} {os : List (Str × Obj)}
    (h : List.Forall₂ (fun x y => x.1 = y.1 ∧ Built (.listOf (.cls (s% "v1_2.Authorizations"))) x.2 y.2) l os) :
    ∃ r, securityOf os = .ok r ∧ r = l.map (fun nl => .obj [(nl.1, .arr (scopesTo nl.2))]) ∧ (Json.arr r).wf = true := by
  induction h with
  | nil => exact ⟨[], rfl, rfl, rfl⟩
  | @cons x y _ _ hb _ ih =>
    obtain ⟨n, j⟩ := x
    obtain ⟨n', o⟩ := y
    obtain ⟨hn, hb⟩ := hb
    dsimp only at hn hb
    subst hn
    obtain ⟨r, h1, h2, h3⟩ := ih
    obtain ⟨l', es, rfl, e2, _, hall⟩ := built_list hb
    obtain ⟨s, s1, s2, s3⟩ := scopesOf_ok hall
    refine ⟨.obj [(n, .arr s)] :: r, ?_, ?_, ?_⟩
    · unfold securityOf
      simp only [e2, s1, h1, bind, Except.bind]
    · subst h2 s2; rfl
    · simp only [Json.wf, Json.wfL, Json.wfD, Bool.and_eq_true] at h3 s3 ⊢
      exact ⟨⟨by simp [Dict.NodupKeys, Dict.keys], s3, trivial⟩, h3⟩

theorem withSecurity_ok {d e : Dict Json} {op decl : Obj} (h : Built (.cls (s% "v1_2.Operation")) (.obj d) op)
    (hd : Built (.cls (s% "v1_2.ApiDeclaration")) (.obj e) decl) {dst : Dict Json} (hn : Dict.get? dst (s% "security") = none) :
    ∃ r, withSecurity op decl dst = .ok r ∧ Step (s% "security") dst r ∧ Dict.get? r (s% "security") = securityTo e d := by
  unfold withSecurity securityTo
  obtain ⟨_, o1, o2, _⟩ := kid_objAt h (k := s% "authorizations") (b := .listOf (.cls (s% "v1_2.Authorizations"))) (by decide +kernel)
  obtain ⟨_, p1, p2, _⟩ := kid_objAt hd (k := s% "authorizations") (b := .listOf (.cls (s% "v1_2.Authorizations"))) (by decide +kernel)
  have key : ∀ (l : Dict Json) (y : Obj), l ≠ [] → Built (.mapOf (.listOf (.cls (s% "v1_2.Authorizations")))) (.obj l) y →
      ∃ r, (do let s ← securityOf (entries (some y)); Except.ok (Dict.set dst (s% "security") (.arr s)) : R (Dict Json)) = .ok r ∧
        Step (s% "security") dst r ∧ Dict.get? r (s% "security") = (match l with
          | [] => none
          | l => some (.arr (l.map (fun nl => .obj [(nl.1, .arr (scopesTo nl.2))])))) := by
    intro l y hne hb
    obtain ⟨l', es, e1, e2, _, hall⟩ := built_map hb
    cases e1
    obtain ⟨s, s1, s2, s3⟩ := securityOf_ok hall
    refine ⟨Dict.set dst (s% "security") (.arr s), ?_, .set _ _ s3, ?_⟩
    · rw [e2, s1]; rfl
    · rw [Dict.get?_set_self, s2]
      cases l with
      | nil => exact absurd rfl hne
      | cons x l => rfl
  by_cases hO : objAt d (s% "authorizations") = []
  · rw [o1 hO, if_pos hO]
    by_cases hE : objAt e (s% "authorizations") = []
    · dsimp only
      rw [p1 hE, hE]
      exact ⟨dst, rfl, .refl _ _, hn⟩
    · obtain ⟨y, y1, _, y2⟩ := p2 hE
      dsimp only
      rw [y1]
      exact key _ y hE y2
  · obtain ⟨y, y1, _, y2⟩ := o2 hO
    dsimp only
    rw [y1, if_neg hO]
    exact key _ y hO y2

theorem responseOf_ok {env : Env} (hl : LowerOk env) (hn : NumbersOk env) {path : Str} {d : Dict Json} {o : Obj}
    (h : Built (.cls (s% "v1_2.Operation")) (.obj d) o) {r : Dict Json} (hr : responseOf env (path.drop 1) o = .ok r) :
    ResponseTo12 env.numbers env.sep path d r ∧ (Json.obj r).wf = true := by
  unfold responseOf at hr
  rw [built_look h (dataClass_field dataClass_operation (by decide))] at hr
  obtain ⟨_, e0, hr⟩ := bindOk hr
  cases e0
  split at hr
  · rename_i hv
    cases hr
    refine ⟨⟨rfl, fun _ => rfl, fun hx => absurd hv hx, ?_⟩, rfl⟩
    intro k hk
    rw [Dict.get?_cons] at hk
    split at hk
    · rename_i e; simp [← e]
    · exact absurd rfl hk
  · rename_i hv
    obtain ⟨s, gs, hr⟩ := bindOk hr
    cases hr
    obtain ⟨ds, ws⟩ := schemaOf_ok hl hn dataClass_operation h gs
    refine ⟨⟨rfl, fun hx => absurd hx hv, fun _ => ⟨s, rfl, ds⟩, ?_⟩, ?_⟩
    · intro k hk
      rw [Dict.get?_cons] at hk
      split at hk
      · rename_i e; simp [← e]
      · rw [Dict.get?_cons] at hk
        split at hk
        · rename_i e; simp [← e]
        · exact absurd rfl hk
    · simp only [Json.wf, Json.wfD, Bool.and_eq_true] at ws ⊢
      exact ⟨by simp [Dict.NodupKeys, Dict.keys], ws, trivial, trivial⟩

/-- Operations. -/
theorem operationOf_ok {env : Env} (hl : LowerOk env) (hn : NumbersOk env) {d e : Dict Json} {op decl : Obj}
    (h : Built (.cls (s% "v1_2.Operation")) (.obj d) op) (hd : Built (.cls (s% "v1_2.ApiDeclaration")) (.obj e) decl)
    {r : Dict Json} (hr : operationOf env op decl = .ok r) :
    OperationTo12 env.numbers env.lower env.sep e d r ∧ (Json.obj r).wf = true := by
  unfold operationOf at hr
  obtain ⟨sc, g0, hr⟩ := bindOk hr
  obtain ⟨rfl, _⟩ := scopeOf_ok hd g0
  dsimp only at hr
  have o0 : Only [s% "tags"] (if (resourcePath e).drop 1 = [] then [] else [(s% "tags", Json.arr [.str ((resourcePath e).drop 1)])]) := by
    intro k hk
    split at hk
    · exact absurd rfl hk
    · rw [Dict.get?_cons] at hk
      split at hk
      · rename_i e; simp [← e]
      · exact absurd rfl hk
  have v0 : Dict.get? (if (resourcePath e).drop 1 = [] then [] else [(s% "tags", Json.arr [.str ((resourcePath e).drop 1)])]) (s% "tags") =
      (if (resourcePath e).drop 1 = [] then none else some (.arr [.str ((resourcePath e).drop 1)])) := by split <;> rfl
  have w0 : (Json.obj (if (resourcePath e).drop 1 = [] then [] else [(s% "tags", Json.arr [.str ((resourcePath e).drop 1)])])).wf = true := by
    split <;> simp [Json.wf, Json.wfD, Json.wfL, Dict.NodupKeys, Dict.keys]
  generalize (if (resourcePath e).drop 1 = [] then [] else [(s% "tags", Json.arr [.str ((resourcePath e).drop 1)])]) = m0 at *
  obtain ⟨m1, g1, hr⟩ := bindOk hr
  obtain ⟨s1, e1⟩ := copySet_ok h (.inr (by decide +kernel)) (only_none o0 (by decide)) g1
  have o1 := only_step o0 s1
  obtain ⟨m2, g2, hr⟩ := bindOk hr
  obtain ⟨s2, e2⟩ := copySet_ok h (.inl (by decide +kernel)) (only_none o1 (by decide)) g2
  have o2 := only_step o1 s2
  obtain ⟨m3, g3, hr⟩ := bindOk hr
  obtain ⟨s3, e3⟩ := copySet_ok h (.inl (by decide +kernel)) (only_none o2 (by decide)) g3
  have o3 := only_step o2 s3
  rw [built_look h (k := s% "deprecated") (by decide +kernel)] at hr
  obtain ⟨_, e0, hr⟩ := bindOk hr
  cases e0
  have s4 : Step (s% "deprecated") m3 (Dict.set m3 (s% "deprecated") (.bool (decide (look d (s% "deprecated") = .str (s% "true"))))) := .set _ _ rfl
  have v4 := Dict.get?_set_self m3 (s% "deprecated") (Json.bool (decide (look d (s% "deprecated") = .str (s% "true"))))
  generalize Dict.set m3 (s% "deprecated") (.bool (decide (look d (s% "deprecated") = .str (s% "true")))) = m4 at *
  have o4 := only_step o3 s4
  obtain ⟨m5, g5, hr⟩ := bindOk hr
  obtain ⟨s5, v5⟩ := ownOrDecl_ok h hd (by decide) (only_none o4 (by decide)) g5
  have o5 := only_step o4 s5
  obtain ⟨m6, g6, hr⟩ := bindOk hr
  obtain ⟨s6, v6⟩ := ownOrDecl_ok h hd (by decide) (only_none o5 (by decide)) g6
  have o6 := only_step o5 s6
  split at hr
  · cases hr
  rename_i ps hps
  obtain ⟨l, gl, hr⟩ := bindOk hr
  have hps' := kid_dictsAt h (k := s% "parameters") (c' := s% "v1_2.Parameter") (by decide +kernel)
  rw [hps] at hps'
  obtain ⟨qs, rfl, q1, q2⟩ := paramsOf_ok hl hn hps' gl
  have s7 : Step (s% "parameters") m6 (Dict.set m6 (s% "parameters") (.arr (qs.map .obj))) := .set _ _ q2
  have v7 := Dict.get?_set_self m6 (s% "parameters") (Json.arr (qs.map .obj))
  generalize Dict.set m6 (s% "parameters") (.arr (qs.map .obj)) = m7 at *
  have o7 := only_step o6 s7
  obtain ⟨m8, g8, s8, v8⟩ := withSecurity_ok h hd (only_none o7 (by decide))
  rw [g8] at hr
  have o8 := only_step o7 s8
  obtain ⟨_, e0, hr⟩ := bindOk hr
  cases e0
  obtain ⟨rs, gr, hr⟩ := bindOk hr
  cases hr
  obtain ⟨r1, r2⟩ := responseOf_ok hl hn h gr
  have s9 : Step (s% "responses") m8 (Dict.set m8 (s% "responses") (.obj [(s% "default", .obj rs)])) := by
    refine .set _ _ ?_
    simp only [Json.wf, Json.wfD, Bool.and_eq_true] at r2 ⊢
    exact ⟨by simp [Dict.NodupKeys, Dict.keys], r2, trivial⟩
  have v9 := Dict.get?_set_self m8 (s% "responses") (Json.obj [(s% "default", .obj rs)])
  generalize Dict.set m8 (s% "responses") (.obj [(s% "default", .obj rs)]) = r at *
  refine ⟨⟨?_, ?_, ?_, ?_, ?_, ?_, ?_, ⟨qs, ?_, q1⟩, ?_, ⟨rs, v9, r1⟩, only_mono (only_step o8 s9) (by decide)⟩,
    s9.wf (s8.wf (s7.wf (s6.wf (s5.wf (s4.wf (s3.wf (s2.wf (s1.wf w0))))))))⟩
  · rw [s9.frame _ (by decide), s8.frame _ (by decide), s7.frame _ (by decide), s6.frame _ (by decide), s5.frame _ (by decide),
      s4.frame _ (by decide), s3.frame _ (by decide), s2.frame _ (by decide), s1.frame _ (by decide), v0]
  · rw [s9.frame _ (by decide), s8.frame _ (by decide), s7.frame _ (by decide), s6.frame _ (by decide), s5.frame _ (by decide),
      s4.frame _ (by decide), s3.frame _ (by decide), s2.frame _ (by decide), e1]
  · rw [s9.frame _ (by decide), s8.frame _ (by decide), s7.frame _ (by decide), s6.frame _ (by decide), s5.frame _ (by decide),
      s4.frame _ (by decide), s3.frame _ (by decide), e2]
  · rw [s9.frame _ (by decide), s8.frame _ (by decide), s7.frame _ (by decide), s6.frame _ (by decide), s5.frame _ (by decide),
      s4.frame _ (by decide), e3]
  · rw [s9.frame _ (by decide), s8.frame _ (by decide), s7.frame _ (by decide), s6.frame _ (by decide), s5.frame _ (by decide), v4]
  · rw [s9.frame _ (by decide), s8.frame _ (by decide), s7.frame _ (by decide), s6.frame _ (by decide), v5]
  · rw [s9.frame _ (by decide), s8.frame _ (by decide), s7.frame _ (by decide), v6]
  · rw [s9.frame _ (by decide), s8.frame _ (by decide), v7]
  · rw [s9.frame _ (by decide), v8]

theorem paths_step {num : Numbers} {lower : Str → Str} {sep : Str} {ops : List Op12} {paths : Dict (Dict Json)}
    (h : PathsTo12 num lower sep ops paths) {x : Op12} {r : Dict Json} (hr : OperationTo12 num lower sep x.decl x.op r) :
    PathsTo12 num lower sep (ops ++ [x])
      (Dict.set paths x.path (Dict.set ((Dict.get? paths x.path).getD []) x.method (.obj r))) := by
  obtain ⟨h1, h2⟩ := h
  refine ⟨fun p => ?_, fun p item hi m => ?_⟩
  · by_cases hp : x.path = p
    · subst hp
      rw [Dict.get?_set_self]
      simp
    · rw [Dict.get?_set_ne _ _ hp, h1]
      simp [hp]
  · have hfilter : (ops ++ [x]).filter (fun y => decide (y.path = p ∧ y.method = m)) =
        ops.filter (fun y => decide (y.path = p ∧ y.method = m)) ++ if x.path = p ∧ x.method = m then [x] else [] := by
      rw [List.filter_append]
      congr 1
      by_cases hc : x.path = p ∧ x.method = m <;> simp [hc]
    rw [hfilter]
    by_cases hp : x.path = p
    · subst hp
      rw [Dict.get?_set_self] at hi
      cases hi
      by_cases hm : x.method = m
      · subst hm
        rw [if_pos ⟨rfl, rfl⟩, List.getLast?_concat]
        exact ⟨r, Dict.get?_set_self _ _ _, hr⟩
      · rw [if_neg (fun hc => hm hc.2), List.append_nil, Dict.get?_set_ne _ _ hm]
        cases hg : Dict.get? paths x.path with
        | some item => exact h2 _ _ hg m
        | none =>
          have hno : ops.filter (fun y => decide (y.path = x.path ∧ y.method = m)) = [] := by
            rw [List.filter_eq_nil_iff]
            intro y hy
            have : ¬ ∃ z ∈ ops, z.path = x.path := fun hz => ((h1 _).2 hz) hg
            intro hc
            exact this ⟨y, hy, (of_decide_eq_true hc).1⟩
          rw [hno]
          rfl
    · rw [if_neg (fun hc => hp hc.1), List.append_nil]
      rw [Dict.get?_set_ne _ _ hp] at hi
      exact h2 _ _ hi m

/-- What an operation of an api is. -/
def op12 (env : Env) (e a d : Dict Json) : Op12 :=
  ⟨textAt e (s% "basePath") ++ textAt a (s% "path"), env.lower (textAt d (s% "method")), e, d⟩

theorem convertOperation_ok {env : Env} (hl : LowerOk env) (hn : NumbersOk env) {d a e : Dict Json} {op api decl : Obj}
    (h : Built (.cls (s% "v1_2.Operation")) (.obj d) op) (ha : Built (.cls (s% "v1_2.Api")) (.obj a) api)
    (hd : Built (.cls (s% "v1_2.ApiDeclaration")) (.obj e) decl) {st st' : State} {ops : List Op12}
    (hp : PathsTo12 env.numbers env.lower env.sep ops st.paths) (hr : convertOperation env op api decl st = .ok st') :
    PathsTo12 env.numbers env.lower env.sep (ops ++ [op12 env e a d]) st'.paths ∧ st' = { st with paths := st'.paths } := by
  unfold convertOperation at hr
  obtain ⟨r, g1, hr⟩ := bindOk hr
  obtain ⟨b, g2, hr⟩ := bindOk hr
  obtain ⟨p, g3, hr⟩ := bindOk hr
  obtain ⟨b', g4, hr⟩ := bindOk hr
  obtain ⟨p', g5, hr⟩ := bindOk hr
  obtain ⟨m, g6, hr⟩ := bindOk hr
  obtain ⟨m', g7, hr⟩ := bindOk hr
  cases hr
  have e2 := built_reqd hd (by decide +kernel) g2
  have e3 := built_reqd ha (by decide +kernel) g3
  have e6 := built_reqd h (by decide +kernel) g6
  have t2 := textAt_of ((e2.symm).trans (asText_ok g4))
  have t3 := textAt_of ((e3.symm).trans (asText_ok g5))
  have t6 := textAt_of ((e6.symm).trans (asText_ok g7))
  obtain ⟨r1, _⟩ := operationOf_ok hl hn h hd g1
  refine ⟨?_, rfl⟩
  have := paths_step hp (x := op12 env e a d) (r := r) r1
  simp only [op12, t2, t3, t6] at this ⊢
  exact this

theorem foldlM_paths {env : Env} {α : Type} {xs : List α} {os : List Obj} {f : α → List Op12} {g : State → Obj → R State}
    {P : α → Obj → Prop} (hs : ∀ x o st st' ops, P x o → PathsTo12 env.numbers env.lower env.sep ops st.paths → g st o = .ok st' →
      PathsTo12 env.numbers env.lower env.sep (ops ++ f x) st'.paths ∧ st' = { st with paths := st'.paths })
    (h : List.Forall₂ P xs os) : ∀ {st st' : State} {ops : List Op12}, PathsTo12 env.numbers env.lower env.sep ops st.paths →
      os.foldlM g st = .ok st' →
      PathsTo12 env.numbers env.lower env.sep (ops ++ xs.flatMap f) st'.paths ∧ st' = { st with paths := st'.paths } := by
  induction h with
  | nil => intro st st' ops hp hr; cases hr; exact ⟨by simpa using hp, rfl⟩
  | @cons x o _ _ hx _ ih =>
    intro st st' ops hp hr
    rw [List.foldlM_cons] at hr
    obtain ⟨st1, g1, hr⟩ := bindOk hr
    obtain ⟨p1, q1⟩ := hs _ _ _ _ _ hx hp g1
    obtain ⟨p2, q2⟩ := ih p1 hr
    refine ⟨by rw [List.flatMap_cons, ← List.append_assoc]; exact p2, ?_⟩
    rw [q2, q1]

theorem convertApi_ok {env : Env} (hl : LowerOk env) (hn : NumbersOk env) {a e : Dict Json} {api decl : Obj}
    (ha : Built (.cls (s% "v1_2.Api")) (.obj a) api) (hd : Built (.cls (s% "v1_2.ApiDeclaration")) (.obj e) decl)
    {st st' : State} {ops : List Op12} (hp : PathsTo12 env.numbers env.lower env.sep ops st.paths)
    (hr : convertApi env decl st api = .ok st') :
    PathsTo12 env.numbers env.lower env.sep (ops ++ (dictsAt a (s% "operations")).map (op12 env e a)) st'.paths ∧
      st' = { st with paths := st'.paths } := by
  unfold convertApi at hr
  split at hr
  · cases hr
  rename_i os hos
  have hk := kid_dictsAt ha (k := s% "operations") (c' := s% "v1_2.Operation") (by decide +kernel)
  rw [hos] at hk
  have := foldlM_paths (env := env) (f := fun d => [op12 env e a d])
    (P := fun d o => Built (.cls (s% "v1_2.Operation")) (.obj d) o) (g := fun st op => convertOperation env op api decl st)
    (fun x o st st' ops hx hp hg => convertOperation_ok hl hn hx ha hd hp hg) hk hp hr
  rwa [List.flatMap_singleton' (f := op12 env e a)] at this
where
  List.flatMap_singleton' {α β : Type} {f : α → β} {l : List α} : l.flatMap (fun x => [f x]) = l.map f := by
    induction l with
    | nil => rfl
    | cons x l ih => rw [List.flatMap_cons, ih]; rfl

/-- The operations of a resource. -/
theorem convertApis_ok {env : Env} (hl : LowerOk env) (hn : NumbersOk env) {e : Dict Json} {decl : Obj}
    (hd : Built (.cls (s% "v1_2.ApiDeclaration")) (.obj e) decl) {st st' : State} {ops : List Op12}
    (hp : PathsTo12 env.numbers env.lower env.sep ops st.paths)
    (hr : (elems (kid decl (s% "apis"))).foldlM (convertApi env decl) st = .ok st') :
    PathsTo12 env.numbers env.lower env.sep (ops ++ opsOf12 env.lower e) st'.paths ∧ st' = { st with paths := st'.paths } :=
  foldlM_paths (env := env) (f := fun a => (dictsAt a (s% "operations")).map (op12 env e a))
    (P := fun d o => Built (.cls (s% "v1_2.Api")) (.obj d) o) (g := convertApi env decl)
    (fun _ _ _ _ _ hx hp hg => convertApi_ok hl hn hx hd hp hg)
    (kid_dictsAt hd (k := s% "apis") (c' := s% "v1_2.Api") (by decide +kernel)) hp hr

end Up12
end Pyopenapi
