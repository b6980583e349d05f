import Verif.Lemmas.Alone
import Verif.Lemmas.PiecesEnv
import Verif.Lemmas.ConvLoads2
import Verif.Props.ConvPathReloc

/-!
# C87: the conversion of an object without references
-/

namespace Pyopenapi.Main
open _root_.Pyopenapi.Spec _root_.Pyopenapi.Refs.Spec Obj Conv

variable {W : Type}

/-- Nothing to follow. -/
def stillEnv (out : Outer W) : Conv.Env := { deref := .ok, setOrder := out.setOrder, normRef := fun _ => .null, ok := out.ok }

theorem stillEnv_ok {out : Outer W} (h : SetOrdered out) : EnvOk noTargets (stillEnv out) where
  set := h
  param := fun _ _ _ => rfl
  paramRef := fun _ _ _ _ _ _ h => by cases h
  resp := fun _ _ _ => rfl
  respRef := fun _ _ _ _ _ _ h => by cases h
  schema := fun j o h hf => by
    obtain ⟨d, p, kids, rfl, _⟩ := built_cls h
    have hk : plainFields (s% "v2_0.Schema") [s% "type"] = true := by decide +kernel
    refine ⟨o, _, rfl, built_fld h (plainFields_cls hk) _, ?_⟩
    rw [plainFields_val hk (by simp)]
    exact fun ht => hf ⟨d, rfl, ht⟩

theorem free_fld {out : Outer W} {p : Piece} (hg : p.Good out) (hfree : RefFree Refs.normClasses2 p.obj) {x : Obj} {v : Json}
    (hx : Inside p.obj x) (hf : fld x (s% "$ref") = .ok v) : ¬ v.truthy = true := by
  intro ht
  obtain ⟨c, q, e, kids, ts, rfl, hv, hc, he⟩ := fld_ref hg (fun ts c q spec kids hv hc => by
    obtain ⟨d, h, _⟩ := hfree ts c q spec kids hv hc; exact ⟨d, h⟩) hx hf ht
  obtain ⟨d, h1, h2⟩ := hfree ts c q _ kids hv hc
  cases h1
  rw [h2] at he
  cases he

theorem freeSource {out : Outer W} {p : Piece} (hg : p.Good out) (hfree : RefFree Refs.normClasses2 p.obj) :
    Source (Inside p.obj) (fun _ _ => False) where
  loaded hx := loaded_inside closed_all ⟨_, _, _, trivial, hg.wf, hg.built⟩ hx
  slot hx hs := inside_trans hx (inside_slot hs (.here _))
  ref hx hf ht := free_fld hg hfree hx hf ht

theorem freeLoads {out : Outer W} {p : Piece} (hg : p.Good out) (hfree : RefFree Refs.normClasses2 p.obj) :
    EnvLoads (Inside p.obj) (fun _ _ => False) (stillEnv out) where
  deref o q ho _ hq := by cases hq; exact ho
  normRef o v ho hf ht := absurd ht (free_fld hg hfree ho.1 hf)

theorem freeAgree {out : Outer W} {p : Piece} (hg : p.Good out) (hfree : RefFree Refs.normClasses2 p.obj) {w : World W}
    (hw : ∀ ts x, Visited [] p.obj ts x → attrsOf w x = {}) : Agree (Inside p.obj) (convEnv out w) (stillEnv out) where
  setOrder := rfl
  ok := rfl
  deref o ho := by
    show deref w o = .ok o
    unfold deref derefLoop
    by_cases hr : refValue o = .null
    · rw [if_pos hr]
    · rw [if_neg hr]
      have hb : o.isBase = true := by
        cases o with
        | base => rfl
        | _ => exact absurd rfl hr
      obtain ⟨ts, hv⟩ := inside_visited (base_of hg) ho hb
      rw [hw ts o hv]
  closed o q ho hq := by cases hq; exact ho
  normRef o v ho hf ht := absurd ht (free_fld hg hfree ho hf)

/-- The servers of an operation come from the url the path item is converted with. -/
theorem toPathItem_servers {refs : Spec.Refs} {env : Conv.Env} (he : EnvOk refs env) {d : Dict Json} {o : Obj}
    (h : Built (.cls (s% "v2_0.PathItem")) (.obj d) o) (hres : PathResolves refs d) {root : Str}
    {consumes produces : List Str} {r : Dict Json} {rl : Routes}
    (hr : toPathItem env o root consumes produces = .ok (r, rl))
    (hplain : ∀ f ∈ paramsOf refs d, f.isPlain = true)
    {m : Str} {e : Dict Json} (hm : (m, e) ∈ opsOf d) (hne : listAt e (s% "schemes") ≠ []) :
    ∃ x, Dict.get? r m = some (.obj x) ∧ ∃ l, toServers env root (strsAt e (s% "schemes")) = .ok l ∧ Dict.get? x (s% "servers") = some (.arr l) := by
  obtain ⟨ref, ps, body, ops, body', href, hp, hops, hget⟩ := toPathItem_parts hr
  have hin := paramsIn_of he h (by decide +kernel) hres.1
  have hb := (C48_partition env consumes _ _ hin none ps body hp).2.2 hplain
  subst hb
  obtain ⟨hb', qs, h1, h2⟩ := pathOps_none _ _ _ _ hops
  rw [List.nil_append] at h1
  subst h1 hb'
  obtain ⟨hnd, _, hyes⟩ := ops_lookup (P := fun m q => ∃ op ret b, kidT o m = some op ∧
    toOperation env op none root produces consumes = .ok (ret, b) ∧ q = putBody b ret) h2
  obtain ⟨m', hm1, hm2⟩ := List.mem_filterMap.1 hm
  have hmm : m' = m ∧ given d m = some (.obj e) := by
    cases hg : Dict.get? d m' with
    | none => rw [hg] at hm2; cases hm2
    | some v => cases v <;> rw [hg] at hm2 <;> cases hm2; exact ⟨rfl, given_some.2 ⟨hg, by simp⟩⟩
  obtain ⟨rfl, hgm⟩ := hmm
  have hx : m' ≠ s% "x-pyopenapi_internal_request_body" := (method_ne hm1).1
  rcases kid_method h hm1 with ⟨h1, _⟩ | ⟨e', op, h1, h2', _, h3, h4⟩
  · rw [hgm] at h1; cases h1
  · rw [hgm] at h1
    cases h1
    obtain ⟨q, hq1, op', ret, b, hk, ht, rfl⟩ := hyes m' hm1 op h2'
    rw [h2'] at hk
    cases hk
    obtain ⟨_, _, _, h4⟩ := toOperation_built he h4 (hres.2 _ hm) ht
    refine ⟨putBody b ret, ?_, ?_⟩
    · rw [hget hnd m' hx, get?_map_val (fun q => Json.obj (putBody none q)) ops m', hq1]; rfl
    · rw [(putBody_get b ret).1 _ (by decide)]
      exact h4 hne

/-- What an object is converted to. -/
theorem alone_convert {out : Outer W} {p : Piece} {d : Dict Json} (hg : p.Good out) (hreg : Regular pkg (.cls p.cls) p.json) (hd : p.json = .obj d)
    (hfree : RefFree Refs.normClasses2 p.obj) (hable : Able out.ok p.url p.cls d) (hset : SetOrdered out) {w : World W}
    (hw : ∀ ts x, Visited [] p.obj ts x → attrsOf w x = {}) :
    ∃ c3 r o3 rl, BecomesAlone out.ok p.url p.cls d c3 r ∧ (Json.obj r).wf = true ∧
      build pkg (.cls c3) (.obj r) (some (pointer p.place)) [] = .ok o3 ∧
      convert (convEnv out w) p.obj p.url (pointer p.place) [] = .ok (o3, rl) ∧ (∀ k ∈ Dict.keys rl, k ≠ []) ∧
      Fine (fun _ _ => False) (.cls c3) (.obj r) := by
  haveI := freeSource hg hfree
  have hb : Built (.cls p.cls) (.obj d) p.obj := ⟨hd ▸ hreg, hd ▸ hg.wf, _, hd ▸ hg.built⟩
  have hin : Inside p.obj p.obj := .here _
  have hcn := (version_of hg.built).1
  rcases hable with hc | hc | hc | ⟨hc, hres, d0, hsite, hfit⟩
  · rw [hc] at hb hcn
    obtain ⟨r, h1, h2, h3⟩ := toLicense_built hb
    have hf : Loads (fun _ _ => False) (.cls (s% "v3_0_0.License")) (.obj r) := by
      unfold toLicense at h1
      obtain ⟨n, h6, h5⟩ := bindOk h1
      have l3 : Loads (fun _ _ => False) (.cls (s% "v3_0_0.License")) (.obj [(s% "name", n)]) :=
        loads_field (r := []) (k := s% "name") (loads_empty (by decide +kernel)) (fld_wf hin h6) (by decide +kernel)
      exact genFields_loads hin l3 (by decide +kernel) h5
    obtain ⟨o3, ho3, _⟩ := built_exists hf.1.regular h3 (some (pointer p.place))
    refine ⟨_, r, o3, [], .inl ⟨hc, rfl, h2⟩, h3, ho3, ?_, (fun k hk => by cases hk), hf.1⟩
    unfold convert
    rw [hcn]
    dsimp only
    rw [if_neg (by decide), if_pos rfl, h1]
    simp only [bind, Except.bind]
    rw [ho3]
  · rw [hc] at hb hcn
    obtain ⟨r, h1, h2, h3⟩ := toInfo_built hb
    have hf : Loads (fun _ _ => False) (.cls (s% "v3_0_0.Info")) (.obj r) := toInfo_loads hin h1
    obtain ⟨o3, ho3, _⟩ := built_exists hf.1.regular h3 (some (pointer p.place))
    refine ⟨_, r, o3, [], .inr (.inl ⟨hc, rfl, h2⟩), h3, ho3, ?_, (fun k hk => by cases hk), hf.1⟩
    unfold convert
    rw [hcn]
    dsimp only
    rw [if_neg (by decide), if_neg (by decide), if_pos rfl, h1]
    simp only [bind, Except.bind]
    rw [ho3]
  · rw [hc] at hb hcn
    obtain ⟨r, h1, h2, h3⟩ := toSchema_built _ _ p.obj (Nat.le_refl _) hb
    obtain ⟨⟨j, rfl⟩, h4, _⟩ := toSchema_loads (P := Inside p.obj) _ false p.obj r (Nat.le_refl _) hin h1
    have hno : Dict.get? d (s% "$ref") = none := by
      obtain ⟨kids, e⟩ := Refs.build_class hg.built
      have hv : Visited [] p.obj [] (.base p.cls (some p.ref) p.json kids) := by rw [← e]; exact .root
      obtain ⟨d', h5, h6⟩ := hfree [] p.cls (some p.ref) p.json _ hv (by rw [hc]; decide)
      rw [hd] at h5
      cases h5
      exact h6
    have hno3 : Dict.get? j (s% "$ref") = none := by
      cases h2 with
      | ref hv _ => rw [hno] at hv; cases hv
      | file _ _ => rfl
      | plain _ _ hflat =>
        cases hg : Dict.get? j (s% "$ref") with
        | none => rfl
        | some v => exact absurd (hflat.2.2.2.2.2 _ (by rw [hg]; simp)) (by decide)
    have hf : Fine (fun _ _ => False) (.cls (s% "v3_0_0.Schema")) (.obj j) := by
      cases h4 with
      | ref hv _ => rw [hno3] at hv; cases hv
      | notRef _ h => exact h
    obtain ⟨o3, ho3, _⟩ := built_exists hf.regular h3 (some (pointer p.place))
    refine ⟨_, j, o3, [], .inr (.inr (.inl ⟨hc, rfl, h2⟩)), h3, ho3, ?_, (fun k hk => by cases hk), hf⟩
    unfold convert
    rw [hcn]
    dsimp only
    rw [if_neg (by decide), if_neg (by decide), if_neg (by decide), if_pos rfl, h1]
    simp only [bind, Except.bind]
    rw [ho3]
  · rw [hc] at hb hcn
    have hserv : ∀ q ∈ opsOf d, listAt q.2 (s% "schemes") = [] ∨ ∃ l, toServers (stillEnv out) p.url (strsAt q.2 (s% "schemes")) = .ok l := by
      intro q hq
      refine (hfit.1 q hq).2.imp_right ?_
      rintro ⟨host, b, h1, h2, h3, h4, h5, h6, h7⟩
      rcases hsite with rfl | ⟨host', b', ⟨sch, s1, s2, _⟩, rfl⟩
      · rcases h2 with h | ⟨_, rfl⟩
        · cases h
        · exact absurd h4.1 (by simp)
      · have e1 : host' = host := by
          rcases h1 with h | ⟨h, _⟩
          · exact Json.str.inj h
          · cases h
        have e2 : b' = b := by
          rcases h2 with h | ⟨h, _⟩
          · exact Json.str.inj h
          · cases h
        subst e1 e2
        rw [s2, toServers_all (f := fun s => s ++ s% "://" ++ host' ++ b')
          (fun s hx => withScheme_server (stillEnv out) (h7 s hx) s1 h3 h4 h5)]
        exact ⟨_, rfl⟩
    have hd0 : strsAt d0 (s% "consumes") = [] ∧ strsAt d0 (s% "produces") = [] := by
      rcases hsite with rfl | ⟨host', b', _, rfl⟩ <;> exact ⟨rfl, rfl⟩
    obtain ⟨⟨r, rl⟩, h1⟩ := toPathItem_fits (stillEnv_ok hset) (d := d0) hserv hb hres hfit
    rw [hd0.1, hd0.2] at h1
    have h2 := C53_path_item (stillEnv_ok hset) d p.obj hb hres p.url [] [] r rl h1
    have hbod : BodiesTo d r := by
      intro hp m e hm hval
      obtain ⟨x, g1, g2⟩ := C52_own_body_partial (stillEnv_ok hset) d p.obj hb hres p.url [] [] r rl h1 hp m e hm hval
      refine ⟨x, g1, ?_⟩
      have : ownOr e (s% "consumes") [] = strsAt e (s% "consumes") := by
        unfold ownOr
        split
        · rename_i h; exact h.symm
        · rfl
      rw [this] at g2
      exact g2
    have hsrv : ServersTo out.ok p.url d r := by
      intro hp host b m e hweb hm hne hval
      obtain ⟨sch, s1, s2, s3, s4, s5⟩ := hweb
      obtain ⟨x, g1, g2⟩ := toPathItem_servers (stillEnv_ok hset) hb hres h1 hp hm hne
      refine ⟨x, g1, ?_⟩
      obtain ⟨l, g3, g4⟩ := g2
      rw [s2, toServers_all (f := fun s => s ++ s% "://" ++ host ++ b)
          (fun s hx => withScheme_server (stillEnv out) (hval s hx) s1 s3 s4 s5)] at g3
      cases g3
      rw [List.map_map] at g4
      exact g4
    have hf := toPathItem_loads (freeLoads hg hfree) ⟨hin, .obj d, _, hd ▸ hg.wf, by rw [← hc, ← hd]; exact hg.built⟩ h1
    obtain ⟨o3, ho3, _⟩ := built_exists hf.1.regular hf.2 (some (pointer p.place))
    obtain ⟨_, _, _, _, idx, _, _, hrl, _⟩ := toPathItem_body h1
    refine ⟨_, r, o3, rl, .inr (.inr (.inr ⟨hc, rfl, h2, hbod, hsrv⟩)), hf.2, ho3, ?_, ?_, hf.1⟩
    · unfold convert
      rw [hcn]
      dsimp only
      rw [if_neg (by decide), if_neg (by decide), if_neg (by decide), if_neg (by decide), if_pos rfl,
        toPathItem_congr (freeAgree hg hfree hw) hin, h1]
      simp only [bind, Except.bind]
      rw [ho3]
    · intro k hk
      rw [hrl] at hk
      unfold itemRoutes at hk
      simp only [Dict.keys, List.map_map, List.mem_map] at hk
      obtain ⟨i, _, rfl⟩ := hk
      simp
end Pyopenapi.Main
