import Verif.Lemmas.ConvOps
import Verif.Spec.ConvDoc
import Verif.Lemmas.Dump

/-!
# Responses, and the parts of operations that are copied
-/

namespace Pyopenapi
open Spec Obj Conv

/-- Builders of strings, lists and maps only. -/
def rawBuilder : Builder → Bool
  | .isStr => true
  | .listOf b => rawBuilder b
  | .mapOf b => rawBuilder b
  | _ => false

theorem built_isStr {j : Json} {o : Obj} (h : Built .isStr j o) : ∃ s, j = .str s ∧ o = .prim (.str s) := by
  obtain ⟨hr, _, p, hb⟩ := h
  cases hr with
  | isStr => rw [build.eq_def] at hb; cases hb; exact ⟨_, rfl, rfl⟩

theorem built_list_shape {b : Builder} {j : Json} {o : Obj} (h : Built (.listOf b) j o) :
    ∃ l es p s, j = .arr l ∧ o = .list b p s es ∧ List.Forall₂ (Built b) l es := by
  obtain ⟨l, es, h1, h2, _, h3⟩ := built_list h
  obtain ⟨hr, _, p, hb⟩ := h
  subst h1
  rw [build_list] at hb
  split at hb
  · cases hb
  · cases hb
    exact ⟨l, _, _, _, rfl, rfl, by simp only [elems] at h2; rw [h2]; exact h3⟩

theorem built_map_shape {b : Builder} {j : Json} {o : Obj} (h : Built (.mapOf b) j o) :
    ∃ d es p s, j = .obj d ∧ o = .map b p s es ∧ List.Forall₂ (fun x y => x.1 = y.1 ∧ Built b x.2 y.2) d es := by
  obtain ⟨d, es, h1, h2, _, h3⟩ := built_map h
  obtain ⟨hr, _, p, hb⟩ := h
  subst h1
  rw [build_map] at hb
  split at hb
  · cases hb
  · cases hb
    exact ⟨d, _, _, _, rfl, rfl, by simp only [entries] at h2; rw [h2]; exact h3⟩

/-- Lists and maps of strings are dumped as they are. -/
theorem dump_raw : ∀ (b : Builder), rawBuilder b = true → ∀ (j : Json) (o : Obj), Built b j o →
    Obj.dumpElem pkg o = .ok j ∧ (b ≠ .isStr → o.isPrim = false) := by
  intro b
  induction b with
  | isStr =>
    intro _ j o h
    obtain ⟨s, rfl, rfl⟩ := built_isStr h
    exact ⟨rfl, fun h => absurd rfl h⟩
  | listOf b ih =>
    intro hb j o h
    have ih := ih hb
    obtain ⟨l, es, p, s, rfl, rfl, hf⟩ := built_list_shape h
    refine ⟨?_, fun _ => rfl⟩
    rw [dumpElem_obj rfl]
    by_cases hs : b = .isStr
    · subst hs
      have : es = l.map Obj.prim := by
        clear h
        induction hf with
        | nil => rfl
        | cons hx _ ih' =>
          obtain ⟨s, rfl, rfl⟩ := built_isStr hx
          rw [ih']; rfl
      rw [this, dump_list_prim]
    · rw [dump_list_obj _ _ _ (fun o ho => by
        obtain ⟨x, _, hx⟩ := forall₂_mem hf ho
        exact (ih x o hx).2 hs)]
      have : Obj.dumpList pkg es = .ok l := by
        rw [dumpList_iff]
        clear h
        induction hf with
        | nil => exact .nil
        | cons hx _ ih' =>
          obtain ⟨h1, h2⟩ := ih _ _ hx
          rw [dumpElem_obj (h2 hs)] at h1
          exact .cons h1 ih'
      rw [this]
  | mapOf b ih =>
    intro hb j o h
    have ih := ih hb
    obtain ⟨d, es, p, s, rfl, rfl, hf⟩ := built_map_shape h
    refine ⟨?_, fun _ => rfl⟩
    rw [dumpElem_obj rfl, dump_map]
    have : Dict.mapM (fun _ o => Obj.dumpElem pkg o) es = .ok d := by
      clear h
      induction hf with
      | nil => rfl
      | @cons x y _ _ hx _ ih' =>
        obtain ⟨k, v⟩ := x
        obtain ⟨k', o⟩ := y
        obtain ⟨h1, h2⟩ := hx
        simp only at h1 h2
        subst h1
        simp only [Dict.mapM, (ih _ _ h2).1, ih', bind, Except.bind, pure, Except.pure]
    rw [this]
  | _ => intro hb; cases hb

/-- The list of a member, as the specification reads it. -/
theorem listAt_of {d : Dict Json} {k : Str} {l : List Json} (h : Dict.get? d k = some (.arr l)) : listAt d k = l := by
  simp only [listAt, h]

theorem listAt_nil {d : Dict Json} {k : Str} (h : ∀ x l, Dict.get? d k ≠ some (.arr (x :: l))) : listAt d k = [] := by
  unfold listAt
  split
  · rename_i l hl
    cases l with
    | nil => rfl
    | cons x l => exact absurd hl (h x l)
  · rfl

theorem objAt_of {d : Dict Json} {k : Str} {l : Dict Json} (h : Dict.get? d k = some (.obj l)) : objAt d k = l := by
  simp only [objAt, h]

theorem objAt_nil {d : Dict Json} {k : Str} (h : ∀ x l, Dict.get? d k ≠ some (.obj (x :: l))) : objAt d k = [] := by
  unfold objAt
  split
  · rename_i l hl
    cases l with
    | nil => rfl
    | cons x l => exact absurd hl (h x l)
  · rfl

/-- A list child, by the list of the document. -/
theorem kid_listAt {c : Str} {b : Builder} {d : Dict Json} {o : Obj} (h : Built (.cls c) (.obj d) o) {k : Str}
    (hc : (Dict.get? (pkg c).children k).map (fun cd => cd.builder) = some (.listOf b)) :
    List.Forall₂ (Built b) (listAt d k) (elems (kid o k)) ∧
    (listAt d k = [] → kidT o k = none) ∧ (listAt d k ≠ [] → ∃ y, kidT o k = some y ∧ kid o k = some y ∧
      Built (.listOf b) (.arr (listAt d k)) y) := by
  rcases built_kid_list h hc with ⟨h1, h2, h3⟩ | ⟨x, l, y, h1, h2, h3, h4⟩
  · have e := listAt_nil h1
    rw [e, h3]
    exact ⟨.nil, fun _ => h2, fun hn => absurd rfl hn⟩
  · have e := listAt_of h1
    rw [e, h3]
    refine ⟨h4, (fun hn => by cases hn), fun _ => ⟨y, h2, rfl, ?_⟩⟩
    obtain ⟨cd, hcd, hb⟩ := Option.map_eq_some_iff.1 hc
    obtain ⟨y', hy', hby⟩ := built_kid_some h hcd (given_some.2 ⟨h1, by simp⟩)
    rw [h3] at hy'
    cases hy'
    rw [hb] at hby
    exact hby

/-- A map child, by the map of the document. -/
theorem kid_objAt {c : Str} {b : Builder} {d : Dict Json} {o : Obj} (h : Built (.cls c) (.obj d) o) {k : Str}
    (hc : (Dict.get? (pkg c).children k).map (fun cd => cd.builder) = some (.mapOf b)) :
    List.Forall₂ (fun x y => x.1 = y.1 ∧ Built b x.2 y.2) (objAt d k) (entries (kid o k)) ∧
    (objAt d k = [] → kidT o k = none) ∧ (objAt d k ≠ [] → ∃ y, kidT o k = some y ∧ kid o k = some y ∧
      Built (.mapOf b) (.obj (objAt d k)) y) ∧ (Json.obj (objAt d k)).wf = true := by
  rcases built_kid_map h hc with ⟨h1, h2, h3⟩ | ⟨x, l, y, h1, h2, h3, h4⟩
  · have e := objAt_nil h1
    rw [e, h3]
    exact ⟨.nil, fun _ => h2, fun hn => absurd rfl hn, rfl⟩
  · have e := objAt_of h1
    rw [e, h3]
    refine ⟨h4, (fun hn => by cases hn), fun _ => ⟨y, h2, rfl, ?_⟩, wf_at h.wf h1⟩
    obtain ⟨cd, hcd, hb⟩ := Option.map_eq_some_iff.1 hc
    obtain ⟨y', hy', hby⟩ := built_kid_some h hcd (given_some.2 ⟨h1, by simp⟩)
    rw [h3] at hy'
    cases hy'
    rw [hb] at hby
    exact hby

theorem strs_forall₂ {l : List Json} {es : List Obj} (h : List.Forall₂ (Built .isStr) l es) :
    es.filterMap (fun x => match x with | .prim (.str s) => some s | _ => none) =
      l.filterMap (fun x => match x with | .str s => some s | _ => none) ∧
    (l = [] ↔ l.filterMap (fun x => match x with | .str s => some s | _ => none) = []) := by
  induction h with
  | nil => exact ⟨rfl, by simp⟩
  | cons hx _ ih =>
    obtain ⟨s, rfl, rfl⟩ := built_isStr hx
    refine ⟨?_, by simp⟩
    simp only [List.filterMap_cons]
    rw [ih.1]

/-- The strings of a list child. -/
theorem strs_strsAt {c : Str} {d : Dict Json} {o : Obj} (h : Built (.cls c) (.obj d) o) {k : Str}
    (hc : (Dict.get? (pkg c).children k).map (fun cd => cd.builder) = some (.listOf .isStr)) :
    strs (kid o k) = strsAt d k ∧ (listAt d k = [] ↔ strsAt d k = []) := by
  obtain ⟨h1, _⟩ := kid_listAt h hc
  exact strs_forall₂ h1

/-- A raw list, copied. -/
theorem putDump_built {c : Str} {b : Builder} {d : Dict Json} {o : Obj} (h : Built (.cls c) (.obj d) o) {k : Str}
    (hc : (Dict.get? (pkg c).children k).map (fun cd => cd.builder) = some (.listOf b)) (hb : rawBuilder b = true)
    (ret : Dict Json) (hr : Dict.get? ret k = none) :
    ∃ ret', putDump o k ret = .ok ret' ∧ ListKept d k ret' ∧ Step k ret ret' := by
  obtain ⟨_, h2, h3⟩ := kid_listAt h hc
  unfold putDump ListKept
  by_cases hn : listAt d k = []
  · rw [h2 hn]; exact ⟨ret, rfl, by rw [hr, if_pos hn], .refl _ _⟩
  · obtain ⟨y, e1, _, hby⟩ := h3 hn
    have hd := dump_raw (.listOf b) hb _ _ hby
    rw [dumpElem_obj (hd.2 (by simp))] at hd
    simp only [e1, hd.1, bind, Except.bind]
    refine ⟨_, rfl, ?_, .set _ _ hby.wf⟩
    rw [if_neg hn, Dict.get?_set_self]

/-! ### responses -/

/-- `o` is the response `d`, or a reference `ref` that leads to it. -/
def RespIn (env : Env) (o : Obj) (f : Part) : Prop :=
  (f.ref = none ∧ Built (.cls (s% "v2_0.Response")) (.obj f.doc) o ∧ env.deref o = .ok o) ∨
  (∃ v e p, f.ref = some v ∧ v.truthy = true ∧ Built (.cls (s% "v2_0.Reference")) (.obj e) o ∧
    Dict.get? e (s% "$ref") = some v ∧ env.deref o = .ok p ∧ Built (.cls (s% "v2_0.Response")) (.obj f.doc) p)

theorem resp_resolved {env : Env} {o : Obj} {f : Part} (h : RespIn env o f) :
    ∃ p j, env.deref o = .ok p ∧ Built (.cls (s% "v2_0.Response")) (.obj f.doc) p ∧ fld o (s% "$ref") = .ok j ∧
      (j.truthy = true ↔ f.ref = some j) ∧ (f.ref = none → j.truthy = false) := by
  rcases h with ⟨h1, h2, h3⟩ | ⟨v, e, p, h1, h2, h3, h4, h5, h6⟩
  · refine ⟨o, .null, h3, h2, ?_, ?_, fun _ => rfl⟩
    · rw [built_fld h2 (by decide +kernel)]
      have hk : plainFields (s% "v2_0.Response") [s% "description"] = true := by decide +kernel
      rw [valOf_absent (by decide +kernel)]
    · rw [h1]; decide
  · refine ⟨p, v, h5, h6, ?_, ?_, fun hn => by rw [hn] at h1; cases h1⟩
    · have hk : plainFields (s% "v2_0.Reference") [s% "$ref"] = true := by decide +kernel
      rw [built_fld h3 (plainFields_cls hk), plainFields_val hk (by simp)]
      simp [look, h4]
    · simp [h1, h2]

theorem toHeaders_eq (l : List (Str × Obj)) (ret : Dict Json) : toHeaders l ret = setAll toHeader l ret := by
  induction l generalizing ret with
  | nil => rfl
  | cons p l ih =>
    obtain ⟨k, o⟩ := p
    rw [toHeaders, setAll]
    simp only [bind, Except.bind, ih]
    cases toHeader o <;> rfl

theorem toResponses_eq (env : Env) (produces : List Str) (l : List (Str × Obj)) (ret : Dict Json) :
    toResponses env produces l ret = setAll (fun o => toResponse env o produces) l ret := by
  induction l generalizing ret with
  | nil => rfl
  | cons p l ih =>
    obtain ⟨k, o⟩ := p
    rw [toResponses, setAll]
    simp only [bind, Except.bind, ih]
    cases toResponse env o produces <;> rfl

/-- When the loop ends well, so has every step. -/
theorem setAll_steps {f : Obj → R Json} {es : List (Str × Obj)} {ret r : Dict Json} (h : setAll f es ret = .ok r) :
    ∀ e ∈ es, ∃ j, f e.2 = .ok j := by
  induction es generalizing ret with
  | nil => intro e he; cases he
  | cons p es ih =>
    obtain ⟨k, o⟩ := p
    rw [setAll] at h
    cases hf : f o with
    | error e => rw [hf] at h; cases h
    | ok j =>
      rw [hf] at h
      intro e he
      rcases List.mem_cons.1 he with rfl | he
      · exact ⟨j, hf⟩
      · exact ih h e he

/-- The loop over a map of the document, when it ends well. -/
theorem setAll_built {P : Json → Json → Prop} {f : Obj → R Json} {b : Builder} {d : Dict Json} {es : List (Str × Obj)}
    (hf : List.Forall₂ (fun x y => x.1 = y.1 ∧ Built b x.2 y.2) d es) (hn : Dict.NodupKeys d)
    (hP : ∀ x o r, (∃ k, (k, x) ∈ d) → Built b x o → f o = .ok r → P x r ∧ r.wf = true) {r : Dict Json}
    (h : setAll f es [] = .ok r) : EntriesTo P d r ∧ (Json.obj r).wf = true := by
  have hsteps := setAll_steps h
  have hf' : List.Forall₂ (fun x y => x.1 = y.1 ∧ ∃ r, f y.2 = .ok r ∧ (P x.2 r ∧ r.wf = true)) d es := by
    clear h hn
    induction hf with
    | nil => exact .nil
    | @cons x y d es hx _ ih =>
      obtain ⟨j, hj⟩ := hsteps y (by simp)
      refine .cons ⟨hx.1, j, hj, hP _ _ _ ⟨x.1, by simp⟩ hx.2 hj⟩
        (ih (fun x o r ⟨k, hk⟩ => hP x o r ⟨k, by simp [hk]⟩) (fun e he => hsteps e (by simp [he])))
  obtain ⟨rs, h1, h2⟩ := setAll_ok (P := fun x r => P x r ∧ r.wf = true) hf' [] (by simpa [Dict.keys, Dict.NodupKeys] using hn)
  rw [h] at h1
  cases h1
  rw [List.nil_append]
  exact ⟨forall₂_weaken h2 (fun _ _ _ hp => ⟨hp.1, hp.2.1⟩), forall₂_wfD (P := fun x r => P x r ∧ r.wf = true) h2 hn (fun x y hp => hp.2)⟩

theorem foldl_content (x : Json) (ts : List Str) (c : Dict Json) :
    ∀ t, Dict.get? (ts.foldl (fun c t => Dict.set c t (.obj [(s% "schema", x)])) c) t =
      if t ∈ ts then some (.obj [(s% "schema", x)]) else Dict.get? c t := by
  induction ts generalizing c with
  | nil => intro t; simp
  | cons u ts ih =>
    intro t
    rw [List.foldl_cons, ih]
    by_cases h : t ∈ ts
    · simp [h]
    · rw [if_neg h]
      by_cases hu : t = u
      · subst hu; simp [Dict.get?_set_self]
      · rw [Dict.get?_set_ne _ _ (Ne.symm hu)]; simp [h, hu]

theorem foldl_content_wf (x : Json) (hx : x.wf = true) (ts : List Str) (c : Dict Json) (hc : (Json.obj c).wf = true) :
    (Json.obj (ts.foldl (fun c t => Dict.set c t (.obj [(s% "schema", x)])) c)).wf = true := by
  induction ts generalizing c with
  | nil => exact hc
  | cons u ts ih =>
    rw [List.foldl_cons]
    refine ih _ (wf_set_obj hc ?_)
    simp [Json.wf, Json.wfD, hx, Dict.NodupKeys, Dict.keys]

theorem responseContent_built {j : Json} {o : Obj} (h : Built (.cls (s% "v2_0.Schema")) j o) (produces : List Str) :
    ∃ content, responseContent o produces = .ok content ∧ (¬ IsFile j → ContentTo produces j content) ∧
      (IsFile j → BareFile content) ∧ (Json.obj content).wf = true := by
  obtain ⟨d, p, kids, rfl, _, _⟩ := built_cls h
  have hk : plainFields (s% "v2_0.Schema") [s% "type"] = true := by decide +kernel
  obtain ⟨x, hx1, hx2, hx3⟩ := toSchema_built _ _ o (Nat.le_refl _) h
  unfold responseContent
  simp only [built_fld h (plainFields_cls hk), plainFields_val hk (k := s% "type") (by simp) d, hx1, bind, Except.bind]
  by_cases hf : look d (s% "type") = .str (s% "file")
  · rw [if_pos hf]
    refine ⟨_, rfl, fun hn => absurd ⟨d, rfl, hf⟩ hn, fun _ => rfl, by decide +kernel⟩
  · rw [if_neg hf]
    refine ⟨_, rfl, fun _ => ⟨x, hx2, fun t => ?_⟩, fun ⟨e, he, hf'⟩ => by cases he; exact absurd hf' hf,
      foldl_content_wf x hx3 _ [] rfl⟩
    rw [foldl_content]
    rfl

/-- A response: it is converted, or one of its headers is not. -/
theorem toResponse_built {env : Env} {o : Obj} {f : Part} (h : RespIn env o f) (produces : List Str) :
    (∃ r, toResponse env o produces = .ok r ∧ ResponseTo BareFile produces f r ∧ r.wf = true) ∨
    (toResponse env o produces = .error .schemaError ∧
      ∃ k d, Dict.get? (objAt f.doc (s% "headers")) k = some (.obj d) ∧
        BadStyle d (.str (s% "header")) (look d (s% "type"))) := by
  obtain ⟨p, j, hp, hb, hj, ht, htn⟩ := resp_resolved h
  unfold toResponse
  simp only [hj, hp, bind, Except.bind]
  have hs := built_kid_cls hb (k := s% "schema") (c' := s% "v2_0.Schema") (by decide +kernel)
  have hjwf : j.wf = true := by
    rcases h with ⟨h1, h2, h3⟩ | ⟨v, e, p, h1, h2, h3, h4, h5, h6⟩
    · have := htn h1
      have hk : fld o (s% "$ref") = .ok .null := by
        rw [built_fld h2 (by decide +kernel), valOf_absent (by decide +kernel)]
      rw [hj] at hk; cases hk; rfl
    · have hk : plainFields (s% "v2_0.Reference") [s% "$ref"] = true := by decide +kernel
      rw [built_fld h3 (plainFields_cls hk), plainFields_val hk (by simp)] at hj
      cases hj
      exact look_wf h3.wf _
  by_cases hc : j.truthy = true ∧ (kidT p (s% "schema")).isNone = true
  · rw [if_pos hc]
    refine .inl ⟨_, rfl, ⟨_, rfl, fun v hv _ => ?_, fun hor => ?_⟩, ?_⟩
    · have := ht.1 hc.1; rw [hv] at this; cases this; rfl
    · rcases hs with ⟨h1, _, _⟩ | ⟨e, x, _, h2, _, _⟩
      · rcases hor with hor | hor
        · have := htn hor; rw [hc.1] at this; cases this
        · exact absurd h1 hor
      · have := hc.2; rw [h2] at this; cases this
    · simp [Json.wf, Json.wfD, hjwf, Dict.NodupKeys, Dict.keys]
  · rw [if_neg hc]
    obtain ⟨r0, e0, c0, o0, w0⟩ := genFields_copied (ks := [s% "description"]) hb (by decide +kernel) [] (by simp)
    simp only [e0]
    have g0 : ∀ k, k ≠ s% "description" → Dict.get? r0 k = none := by
      intro k hk; rw [o0 k (by simpa using hk)]; rfl
    obtain ⟨r1, e1, p1, p2, st1⟩ : ∃ r1, putContent p produces r0 = .ok r1 ∧
        (given f.doc (s% "schema") = none → Dict.get? r1 (s% "content") = none) ∧
        (∀ s, given f.doc (s% "schema") = some s → ∃ content, Dict.get? r1 (s% "content") = some (.obj content) ∧
        (¬ IsFile s → ContentTo produces s content) ∧ (IsFile s → BareFile content)) ∧ Step (s% "content") r0 r1 := by
      unfold putContent
      rcases hs with ⟨h1, h2, _⟩ | ⟨e, x, h1, h2, _, h3⟩
      · rw [h2, h1]
        exact ⟨r0, rfl, fun _ => g0 _ (by decide), (fun s hs => by cases hs), .refl _ _⟩
      · obtain ⟨content, a1, a2, a3, a4⟩ := responseContent_built h3 produces
        simp only [h2, a1, h1, bind, Except.bind]
        refine ⟨_, rfl, (fun hn => by cases hn), fun s hs => ?_, .set _ _ a4⟩
        cases hs
        exact ⟨content, Dict.get?_set_self _ _ _, a2, a3⟩
    simp only [e1]
    obtain ⟨hf, hk1, hk2, hw⟩ := kid_objAt hb (k := s% "headers") (b := .cls (s% "v2_0.Header")) (by decide +kernel)
    have hh : ∀ r2, putHeaders p r1 = .ok r2 →
        MapTo f.doc (s% "headers") r2 (s% "headers") (fun x y => ∃ d r, x = .obj d ∧ y = .obj r ∧ HeaderTo d r) ∧
        Step (s% "headers") r1 r2 := by
      intro r2 hr2
      unfold putHeaders at hr2
      by_cases hn : objAt f.doc (s% "headers") = []
      · rw [hk1 hn] at hr2
        cases hr2
        exact ⟨⟨fun _ => by rw [st1.frame _ (by decide)]; exact g0 _ (by decide), fun hne => absurd hn hne⟩, .refl _ _⟩
      · obtain ⟨y, y1, y2, y3⟩ := hk2 hn
        simp only [y1, bind, Except.bind] at hr2
        rw [y2] at hf
        rw [toHeaders_eq] at hr2
        cases hset : setAll toHeader (entries (some y)) [] with
        | error e => rw [hset] at hr2; cases hr2
        | ok m =>
          rw [hset] at hr2
          cases hr2
          obtain ⟨m1, m2⟩ := setAll_built (P := fun x y => ∃ d r, x = .obj d ∧ y = .obj r ∧ HeaderTo d r) hf
            (wf_nodup hw) (fun x o r _ hbo hro => by
              obtain ⟨d, _, _, rfl, _, _⟩ := built_cls hbo
              rcases toHeader_built hbo with ⟨_, he⟩ | ⟨_, r', hr', ht', hw'⟩
              · rw [he] at hro; cases hro
              · rw [hr'] at hro; cases hro; exact ⟨⟨d, r', rfl, rfl, ht'⟩, hw'⟩) hset
          exact ⟨⟨fun he => absurd he hn, fun _ => ⟨m, Dict.get?_set_self _ _ _, m1⟩⟩, .set _ _ m2⟩
    cases hr2 : putHeaders p r1 with
    | ok r2 =>
      simp only
      obtain ⟨q1, st2⟩ := hh r2 hr2
      refine .inl ⟨_, rfl, ⟨r2, rfl, fun v hv hn => ?_, fun _ => ⟨fun k hk => ?_, fun hn => ?_, fun s hs' => ?_, q1, fun k hk => ?_⟩⟩,
        st2.wf (st1.wf (w0 rfl))⟩
      · exfalso
        apply hc
        rcases hs with ⟨h1, h2, _⟩ | ⟨e, x, h1, _, _, _⟩
        · refine ⟨?_, by rw [h2]; rfl⟩
          rcases h with ⟨h1, _⟩ | ⟨v', e, p', h1', h2', h3', h4', _⟩
          · rw [h1] at hv; cases hv
          · have hk : plainFields (s% "v2_0.Reference") [s% "$ref"] = true := by decide +kernel
            rw [built_fld h3' (plainFields_cls hk), plainFields_val hk (by simp)] at hj
            cases hj
            simp [look, h4', h2']
        · rw [h1] at hn; cases hn
      · have : k = s% "description" := by simpa using hk
        subst this
        rw [st2.frame _ (by decide), st1.frame _ (by decide)]; exact c0 _ hk
      · rw [st2.frame _ (by decide)]; exact p1 hn
      · rw [st2.frame _ (by decide)]; exact p2 s hs'
      · refine Decidable.byContradiction (fun hn => hk ?_)
        simp only [List.mem_cons, List.not_mem_nil, or_false, not_or] at hn
        rw [st2.frame _ hn.2.2, st1.frame _ hn.2.1]; exact g0 _ hn.1
    | error e =>
      simp only
      refine .inr ?_
      unfold putHeaders at hr2
      by_cases hn : objAt f.doc (s% "headers") = []
      · rw [hk1 hn] at hr2; cases hr2
      · obtain ⟨y, y1, y2, y3⟩ := hk2 hn
        simp only [y1, bind, Except.bind] at hr2
        rw [y2] at hf
        rw [toHeaders_eq] at hr2
        cases hset : setAll toHeader (entries (some y)) [] with
        | ok m => rw [hset] at hr2; cases hr2
        | error e' =>
          rw [hset] at hr2
          cases hr2
          have hnd := wf_nodup hw
          have key : ∀ (dd : Dict Json) (es : List (Str × Obj)) (ret : Dict Json),
              List.Forall₂ (fun x y => x.1 = y.1 ∧ Built (.cls (s% "v2_0.Header")) x.2 y.2) dd es →
              setAll toHeader es ret = .error e → e = .schemaError ∧
                ∃ k d, (k, Json.obj d) ∈ dd ∧ BadStyle d (.str (s% "header")) (look d (s% "type")) := by
            intro dd es ret hff
            induction hff generalizing ret with
            | nil => intro he; cases he
            | @cons x y dd es hx _ ih =>
              intro he
              obtain ⟨k, v⟩ := x
              obtain ⟨k', oh⟩ := y
              obtain ⟨hx1, hx2⟩ := hx
              simp only at hx1 hx2
              rw [setAll] at he
              obtain ⟨d, _, _, rfl, _, _⟩ := built_cls hx2
              rcases toHeader_built hx2 with ⟨hbad, he'⟩ | ⟨_, r', hr', _⟩
              · rw [he'] at he; cases he
                exact ⟨rfl, k, d, by simp, hbad⟩
              · rw [hr'] at he
                obtain ⟨a1, k2, d2, a2, a3⟩ := ih _ he
                exact ⟨a1, k2, d2, by simp [a2], a3⟩
          obtain ⟨a1, k, d, a2, a3⟩ := key _ _ _ hf hset
          subst a1
          exact ⟨rfl, k, d, Dict.get?_of_mem hnd a2, a3⟩

end Pyopenapi
