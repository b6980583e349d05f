import Verif.Props.Up12
import Verif.Props.ConvSwagger
import Verif.Props.ConvPath
import Verif.Props.ConvBody

/-!
# C109-C111: what conversions should keep

Response messages of Swagger 1.2 (C109), examples of responses and descriptions of parts of forms (C110), the servers of a document
(C111).
-/

namespace Pyopenapi
open Spec Obj Conv Up12

/-! ### C109 -/

theorem foldl_set_from {α : Type} (f : Str → Str) (L : Dict α) : ∀ (acc : Dict α) (k : Str) (v : α),
    Dict.get? (L.foldl (fun d kv => Dict.set d (f kv.1) kv.2) acc) k = some v →
    Dict.get? acc k = some v ∨ ∃ k0, (k0, v) ∈ L := by
  induction L with
  | nil => intro acc k v h; exact .inl h
  | cons kv L ih =>
    intro acc k v h
    rcases ih _ k v h with h | ⟨k0, h⟩
    · by_cases e : f kv.1 = k
      · subst e
        rw [Dict.get?_set, if_pos rfl] at h
        cases h
        exact .inr ⟨kv.1, by simp⟩
      · rw [Dict.get?_set_ne _ _ e] at h
        exact .inl h
    · exact .inr ⟨k0, List.mem_cons_of_mem _ h⟩

/-- The items of the paths are kept when the host is cut off. -/
theorem hostAndPaths_items {env : Up12.Env} {paths paths' : Dict (Dict Json)} {host : Str} (hn : Dict.NodupKeys paths)
    (h : hostAndPaths env paths = .ok (host, paths')) {k : Str} {item : Dict Json} (hk : Dict.get? paths' k = some item) :
    ∃ k0, Dict.get? paths k0 = some item := by
  unfold hostAndPaths at h
  obtain ⟨c, _, h⟩ := bindOk h
  split at h
  · cases h; exact ⟨k, hk⟩
  · obtain ⟨u, _, h⟩ := bindOk h
    cases h
    rcases foldl_set_from _ _ _ _ _ hk with h | ⟨k0, h⟩
    · cases h
    · exact ⟨k0, Dict.get?_of_mem hn h⟩

variable {env : Up12.Env} {l : Dict Json} {ds : List (Dict Json)} {listing : Obj} {rs : List (Str × Obj)}

/-- Every operation of the upgraded document is made of one of the resources. -/
theorem operation_from (hp : PythonOk env) (hs : Source12 l ds listing rs) (doc : Dict Json) (o : Obj)
    (hr : upgrade12 env listing rs = .ok (doc, o)) (p m : Str) (item : Dict Json) (x : Json)
    (h1 : Dict.get? (objAt doc (s% "paths")) p = some (.obj item)) (h2 : Dict.get? item m = some x) :
    ∃ y ∈ allOps env.lower ds, ∃ r, x = .obj r ∧ OperationTo12 env.numbers env.lower env.sep y.decl y.op r := by
  obtain ⟨st, host, paths, rfl, hh, hst, hn, _⟩ := upgrade12_state hp.lower hp.numbers hs.listing hs.resources hs.subtypes hr
  have e : objAt (document st host paths) (s% "paths") = paths.map (fun kv => (kv.1, Json.obj kv.2)) := rfl
  rw [e, get?_objectsOf] at h1
  obtain ⟨item', h3, h4⟩ := Option.map_eq_some_iff.1 h1
  cases h4
  obtain ⟨k0, h5⟩ := hostAndPaths_items hn hh h3
  have h6 := hst.paths.2 k0 _ h5 m
  split at h6
  · rw [h6] at h2; cases h2
  · rename_i y hy
    obtain ⟨r, h7, h8⟩ := h6
    rw [h7] at h2
    cases h2
    have : y ∈ (ds.flatMap (opsOf12 env.lower)).filter (fun x => x.path = k0 ∧ x.method = m) := List.mem_of_getLast? hy
    exact ⟨y, (List.mem_filter.1 this).1, r, rfl, h8⟩

/-- **C109**, the part that holds: what an operation returns is the default response of what it becomes. -/
theorem C109_default_partial (hp : PythonOk env) (hs : Source12 l ds listing rs) (doc : Dict Json) (o : Obj)
    (hr : upgrade12 env listing rs = .ok (doc, o)) (p m : Str) (item : Dict Json) (x : Json)
    (h1 : Dict.get? (objAt doc (s% "paths")) p = some (.obj item)) (h2 : Dict.get? item m = some x) :
    ∃ y ∈ allOps env.lower ds, ∃ r s, x = .obj r ∧ Dict.get? (objAt r (s% "responses")) (s% "default") = some (.obj s) ∧
      ResponseTo12 env.numbers env.sep (resourcePath y.decl) y.op s := by
  obtain ⟨y, hy, r, rfl, h⟩ := operation_from hp hs doc o hr p m item x h1 h2
  obtain ⟨s, h3, h4⟩ := h.2.2.2.2.2.2.2.2.2.1
  refine ⟨y, hy, r, s, rfl, ?_, h4⟩
  unfold objAt
  rw [h3]
  rfl

/-- **C109** is false of every application: no operation of the upgraded document has any other response than `default`,
whatever response messages the operations have. -/
theorem C109_messages_violation (hp : PythonOk env) (hs : Source12 l ds listing rs) (doc : Dict Json) (o : Obj)
    (hr : upgrade12 env listing rs = .ok (doc, o)) (p m : Str) (item r : Dict Json)
    (h1 : Dict.get? (objAt doc (s% "paths")) p = some (.obj item)) (h2 : Dict.get? item m = some (.obj r)) (code : Str)
    (hc : code ≠ s% "default") : Dict.get? (objAt r (s% "responses")) code = none := by
  obtain ⟨y, hy, r', e, h⟩ := operation_from hp hs doc o hr p m item _ h1 h2
  cases e
  obtain ⟨s, h3, h4⟩ := h.2.2.2.2.2.2.2.2.2.1
  unfold objAt
  rw [h3]
  show Dict.get? [(s% "default", Json.obj s)] code = none
  rw [Dict.get?_cons, if_neg (Ne.symm hc)]
  rfl

/-! ### C110 -/

/-- **C110** is false of every response: whatever its `examples` are, what it is converted to has none, nor has any of its media
types. -/
theorem C110_examples_violation (env : Conv.Env) (o : Obj) (f : Part) (produces : List Str) (h : RespIn env o f) (r : Json)
    (hr : toResponse env o produces = .ok r) :
    ∃ e, r = .obj e ∧ Dict.get? e (s% "examples") = none ∧
      ∀ t m, Dict.get? (objAt e (s% "content")) t = some (.obj m) →
        Dict.get? m (s% "example") = none ∧ Dict.get? m (s% "examples") = none := by
  rcases C57_response env o f produces h with ⟨r', hr', e, rfl, h1, h2⟩ | ⟨he, _⟩
  · rw [hr] at hr'
    cases hr'
    refine ⟨e, rfl, ?_⟩
    by_cases hc : f.ref = none ∨ given f.doc (s% "schema") ≠ none
    · obtain ⟨_, h3, h4, _, h5⟩ := h2 hc
      refine ⟨Decidable.byContradiction (fun hn => absurd (h5 _ hn) (by decide)), fun t m hm => ?_⟩
      cases hg : given f.doc (s% "schema") with
      | none =>
        unfold objAt at hm
        rw [h3 hg] at hm
        cases hm
      | some s =>
        obtain ⟨content, h6, h7, h8⟩ := h4 s hg
        have e1 : objAt e (s% "content") = content := by unfold objAt; rw [h6]
        rw [e1] at hm
        by_cases hf : IsFile s
        · have := h8 hf
          unfold BareFile at this
          subst this
          rw [Dict.get?_cons] at hm
          split at hm
          · cases hm; exact ⟨rfl, rfl⟩
          · cases hm
        · obtain ⟨x, _, h9⟩ := h7 hf
          rw [h9] at hm
          split at hm
          · cases hm; exact ⟨rfl, rfl⟩
          · cases hm
    · have hc1 : f.ref ≠ none := fun hn => hc (.inl hn)
      have hc2 : given f.doc (s% "schema") = none := Decidable.byContradiction (fun hn => hc (.inr hn))
      obtain ⟨v, hv⟩ := Option.ne_none_iff_exists'.1 hc1
      rw [h1 v hv hc2]
      exact ⟨rfl, fun t m hm => by cases hm⟩
  · rw [hr] at he; cases he

/-- The property that the part `f` is in the media type `t` of the form `b`. -/
def PropertyIn (b : Dict Json) (t : Str) (f : Part) (p : Dict Json) : Prop :=
  ∃ m schema, Dict.get? (objAt b (s% "content")) t = some (.obj m) ∧ Dict.get? m (s% "schema") = some (.obj schema) ∧
    Dict.get? (objAt schema (s% "properties")) f.name = some (.obj p)

theorem form_property {consumes : List Str} {fs : List Part} {b : Dict Json} (h : FormBody consumes fs b) {f : Part} (hf : f ∈ fs)
    {t : Str} (ht : t ∈ partTypes consumes f.file) : ∃ p, PropertyIn b t f p ∧ PropTo f p := by
  obtain ⟨⟨content, h1, h2⟩, _⟩ := h
  have h3 := h2 t
  have hm : f ∈ fs.filter (fun f => t ∈ partTypes consumes f.file) := List.mem_filter.2 ⟨hf, by simpa using ht⟩
  split at h3
  · rename_i e; rw [e] at hm; cases hm
  · rename_i q qs e
    rw [e] at hm
    obtain ⟨m, h4, schema, props, h5, h6, _, h7, _⟩ := h3
    obtain ⟨p, h8, h9⟩ := h7 f hm
    refine ⟨p, ⟨m, schema, ?_, h5, ?_⟩, h9⟩
    · unfold objAt; rw [h1]; exact h4
    · unfold objAt; rw [h6]; exact h8

/-- **C110**, the part that holds: a part of a form that is no file (and is written out in place) keeps its description. -/
theorem C110_description_partial (env : Conv.Env) (hs : SetOk env) (consumes : List Str) (os : List Obj) (fs : List Part)
    (h : ParamsIn env os fs) (hv : ∀ f ∈ fs, f.isPlain = true ∨ (f.isPart = true ∧ f.Valid)) (ps : List Json) (b : Dict Json)
    (hr : parameters env consumes os [] none = .ok (ps, some b)) (f : Part) (hf : f ∈ fs) (hp : f.isPart = true)
    (href : f.ref = none) (hfile : f.file = false) (t : Str) (ht : t ∈ partTypes consumes f.file) :
    ∃ p, PropertyIn b t f p ∧ Dict.get? p (s% "description") = given f.doc (s% "description") := by
  have hc := C49_forms env hs consumes os fs h hv
  by_cases hb : Clash consumes (fs.filter Part.isPart) ∨ StyleTrouble consumes fs
  · rw [hc.1 hb] at hr; cases hr
  · obtain ⟨ps', body, hr', _, hform⟩ := hc.2 hb
    rw [hr] at hr'
    cases hr'
    obtain ⟨p, h1, r0, h2, h3, _⟩ := form_property hform (List.mem_filter.2 ⟨hf, hp⟩) ht
    refine ⟨p, h1, ?_⟩
    rw [h3 _ (by decide)]
    unfold PartSchema at h2
    rw [href] at h2
    simp only [hfile, Bool.false_eq_true, if_false] at h2
    exact h2.1 _ (List.mem_append_right _ (by simp))

/-- **C110** is false of every file of a form: its description is gone. -/
theorem C110_file_violation (env : Conv.Env) (hs : SetOk env) (consumes : List Str) (os : List Obj) (fs : List Part)
    (h : ParamsIn env os fs) (hv : ∀ f ∈ fs, f.isPlain = true ∨ (f.isPart = true ∧ f.Valid)) (ps : List Json) (b : Dict Json)
    (hr : parameters env consumes os [] none = .ok (ps, some b)) (f : Part) (hf : f ∈ fs) (hp : f.isPart = true)
    (href : f.ref = none) (hfile : f.file = true) (t : Str) (ht : t ∈ partTypes consumes f.file) :
    ∃ p, PropertyIn b t f p ∧ Dict.get? p (s% "description") = none := by
  have hc := C49_forms env hs consumes os fs h hv
  by_cases hb : Clash consumes (fs.filter Part.isPart) ∨ StyleTrouble consumes fs
  · rw [hc.1 hb] at hr; cases hr
  · obtain ⟨ps', body, hr', _, hform⟩ := hc.2 hb
    rw [hr] at hr'
    cases hr'
    obtain ⟨p, h1, r0, h2, h3, _⟩ := form_property hform (List.mem_filter.2 ⟨hf, hp⟩) ht
    refine ⟨p, h1, ?_⟩
    rw [h3 _ (by decide)]
    unfold PartSchema at h2
    rw [href] at h2
    simp only [hfile, if_true] at h2
    rw [h2]
    rfl

/-! ### C111 -/

/-- The urls a 2.0 document can be reached at: one for each scheme (`https` when it names none). -/
def reachedAt (host basePath : Str) (schemes : List Str) : List Str :=
  (if schemes = [] then [s% "https"] else schemes).map (fun s => s ++ s% "://" ++ host ++ basePath)

/-- The urls of the servers of a 3.0.0 document. -/
def serverUrls (r : Dict Json) : List Json :=
  (listAt r (s% "servers")).map (fun x => match x with
    | .obj e => look e (s% "url")
    | _ => .null)

section
variable {refs : Refs} {env : Conv.Env} (he : EnvOk refs env) (d : Dict Json) (o : Obj)
  (h : Built (.cls (s% "v2_0.Swagger")) (.obj d) o) (hres : DocResolves refs d) (hv : NamedValid d)
  (r : Dict Json) (rl : Routes) (hr : toOpenapi env o = .ok (r, rl)) (host basePath : Str)
  (hh : StringAt d (s% "host") host) (hb : StringAt d (s% "basePath") basePath)
  (hs : ∀ s ∈ strsAt d (s% "schemes"), s ∈ schemes2)
include he h hres hv hr hh hb hs

theorem serverUrls_of : ∃ url, serverUrls r = [.str url] ∧ ServerUrl host basePath (strsAt d (s% "schemes")) url := by
  obtain ⟨url, h1, h2⟩ := C56_server he d o h hres hv r rl hr host basePath hh hb hs
  refine ⟨url, ?_, h2⟩
  unfold serverUrls listAt
  rw [h1]
  rfl

/-- **C111**, the part that holds: with a base path and at most one scheme, the servers are where the document can be reached. -/
theorem C111_one_partial (hbt : BaseText basePath) (hone : (strsAt d (s% "schemes")).length ≤ 1) :
    serverUrls r = (reachedAt host basePath (strsAt d (s% "schemes"))).map .str := by
  obtain ⟨url, h1, h2⟩ := serverUrls_of he d o h hres hv r rl hr host basePath hh hb hs
  have hne : basePath ≠ [] := by rintro rfl; cases hbt.1
  have h3 := h2.1 hne
  have hst : Str.startsWith basePath ['/'] = true := by
    cases basePath with
    | nil => exact absurd rfl hne
    | cons c cs =>
      have := hbt.1
      simp only [List.head?_cons, Option.some.injEq] at this
      subst this
      simp [Str.startsWith]
  rw [hst] at h3
  simp only [if_true, List.append_nil] at h3
  rw [h1, h3]
  unfold reachedAt
  cases hl : strsAt d (s% "schemes") with
  | nil => rfl
  | cons a l =>
    cases l with
    | nil => rfl
    | cons b l => rw [hl] at hone; simp at hone

/-- **C111** is false of every document with a base path and several schemes: there is no server for any but the first. -/
theorem C111_schemes_violation (hbt : BaseText basePath) (s1 s2 : Str) (ss : List Str)
    (hss : strsAt d (s% "schemes") = s1 :: ss) (h2 : s2 ∈ ss) (hne : s1 ≠ s2) :
    s2 ++ s% "://" ++ host ++ basePath ∈ reachedAt host basePath (strsAt d (s% "schemes")) ∧
    Json.str (s2 ++ s% "://" ++ host ++ basePath) ∉ serverUrls r := by
  refine ⟨?_, ?_⟩
  · unfold reachedAt
    rw [hss, if_neg (by simp)]
    exact List.mem_map.2 ⟨s2, List.mem_cons_of_mem _ h2, rfl⟩
  · obtain ⟨url, h1, h3⟩ := serverUrls_of he d o h hres hv r rl hr host basePath hh hb hs
    have hbne : basePath ≠ [] := by rintro rfl; cases hbt.1
    have h4 := h3.1 hbne
    have hst : Str.startsWith basePath ['/'] = true := by
      cases basePath with
      | nil => exact absurd rfl hbne
      | cons c cs =>
        have := hbt.1
        simp only [List.head?_cons, Option.some.injEq] at this
        subst this
        simp [Str.startsWith]
    rw [hst, hss] at h4
    simp only [if_true, List.append_nil, List.head?_cons, Option.getD_some] at h4
    rw [h1, List.mem_singleton, Json.str.injEq]
    intro e
    rw [h4] at e
    have e2 := List.append_cancel_right (List.append_cancel_right (List.append_cancel_right e))
    exact hne e2.symm

/-- **C111** is false of every document with a host and no base path: the one server is none of the urls it can be reached at. -/
theorem C111_host_violation (hbp : basePath = []) (hhn : host ≠ []) :
    serverUrls r = [.str host] ∧ host ∉ reachedAt host basePath (strsAt d (s% "schemes")) := by
  obtain ⟨url, h1, h3⟩ := serverUrls_of he d o h hres hv r rl hr host basePath hh hb hs
  rw [h1, h3.2.1 hbp hhn]
  refine ⟨rfl, fun hm => ?_⟩
  obtain ⟨s, _, e⟩ := List.mem_map.1 hm
  have := congrArg List.length e
  simp only [List.length_append] at this
  have h3 : (s% "://").length = 3 := rfl
  omega

end

end Pyopenapi
