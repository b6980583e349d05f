import Verif.Lemmas.Kinds
import Verif.Props.Resolve

/-!
# C32-C34: scanning a tree of objects
-/

namespace Pyopenapi
open Spec Obj

/-! ### C32 -/

theorem isLeaf_false {leaves : List Str} {o : Obj} :
    isLeaf leaves o = false ↔ ∀ c p s ks, o = .base c p s ks → c ∉ leaves := by
  cases o with
  | base c p s ks =>
    simp only [isLeaf, List.contains_eq_mem, decide_eq_false_iff_not]
    constructor
    · intro h c' p' s' ks' he; cases he; exact h
    · intro h; exact h c p s ks rfl
  | _ => simp [isLeaf]

/-- The visits below the children of an object. -/
theorem visited_iff {leaves : List Str} {root x : Obj} {ts : List Str} :
    Visited leaves root ts x ↔ (ts = [] ∧ x = root) ∨
      (isLeaf leaves root = false ∧ ∃ us y r, Leads root us y ∧ Visited leaves y r x ∧ ts = us ++ r) := by
  constructor
  · intro h
    induction h with
    | root => exact .inl ⟨rfl, rfl⟩
    | @child ts us o x hv hleaf hl ih =>
      rcases ih with ⟨rfl, rfl⟩ | ⟨h1, vs, y, r, h2, h3, rfl⟩
      · exact .inr ⟨isLeaf_false.2 hleaf, us, x, [], hl, .root, by simp⟩
      · exact .inr ⟨h1, vs, y, r ++ us, h2, .child h3 hleaf hl, by simp⟩
  · rintro (⟨rfl, rfl⟩ | ⟨h1, us, y, r, h2, h3, rfl⟩)
    · exact .root
    · induction h3 with
      | root =>
        have := Visited.child (leaves := leaves) .root (isLeaf_false.1 h1) h2
        simpa using this
      | child _ hleaf hl ih => rw [← List.append_assoc]; exact .child ih hleaf hl

/-- All visits, with the tokens from the root (the number bounds the depth). -/
def walk (leaves : List Str) : Nat → Obj → List (List Str × Obj)
  | 0, _ => []
  | n + 1, o => ([], o) :: if isLeaf leaves o then [] else
      ((lab (n + 1) o).reverse).flatMap (fun c => (walk leaves n c.2).map (fun d => (c.1 ++ d.1, d.2)))

theorem keyed_leads {o x : Obj} {ts : List Str} (h : Leads o ts x) (hk : Keyed o) : Keyed x :=
  fun m hm => hk m (inside_leads h hm)

theorem noMix_leads {o x : Obj} {ts : List Str} (h : Leads o ts x) (hk : NoMix o) : NoMix x :=
  fun m hm => hk m (inside_leads h hm)

theorem walk_visited {leaves : List Str} (n : Nat) : ∀ o, nodes o ≤ n → ∀ ts x,
    (ts, x) ∈ walk leaves n o ↔ Visited leaves o ts x := by
  induction n with
  | zero => intro o h; cases o <;> simp [nodes] at h
  | succ n ih =>
    intro o ho ts x
    rw [visited_iff, walk, List.mem_cons]
    apply or_congr
    · simp
    · cases hl : isLeaf leaves o with
      | true => simp
      | false =>
        simp only [Bool.false_eq_true, if_false, List.mem_flatMap, List.mem_reverse, List.mem_map,
          Prod.exists, Prod.mk.injEq, true_and]
        constructor
        · rintro ⟨us, y, hy, r, z, hz, rfl, rfl⟩
          have hlead := (mem_lab (n + 1) o ho us y).1 hy
          exact ⟨us, y, r, hlead, (ih y (by have := nodes_leads hlead; omega) r z).1 hz, rfl⟩
        · rintro ⟨us, y, r, hlead, hv, rfl⟩
          exact ⟨us, y, (mem_lab (n + 1) o ho us y).2 hlead, r, x,
            (ih y (by have := nodes_leads hlead; omega) r x).2 hv, rfl, rfl⟩

theorem walk_traverse {leaves : List Str} (n : Nat) : ∀ o, nodes o ≤ n → Keyed o → NoMix o → ∀ p,
    (traverseLoop leaves [(p, o)]).map Prod.snd = (walk leaves n o).map Prod.snd := by
  induction n with
  | zero => intro o h; cases o <;> simp [nodes] at h
  | succ n ih =>
    intro o ho hk hm p
    rw [traverseLoop_one, walk, List.map_cons, List.map_cons]
    congr 1
    cases hl : isLeaf leaves o with
    | true => simp
    | false =>
      simp only [Bool.false_eq_true, if_false]
      rw [kids_lab (n + 1) o ho (lab_names_nodup (n + 1) o ho hk hm)]
      rw [List.map_map, ← List.map_reverse, List.flatMap_map, List.map_flatMap, List.map_flatMap]
      rw [List.flatMap_def, List.flatMap_def]
      congr 1
      apply List.map_congr_left
      rintro ⟨us, y⟩ hy
      have hlead := (mem_lab (n + 1) o ho us y).1 (List.mem_reverse.1 hy)
      have := ih y (by have := nodes_leads hlead; omega) (keyed_leads hlead hk) (noMix_leads hlead hm)
        (p ++ '/' :: nameOf us)
      simp only [Function.comp, labN, List.map_map]
      rw [this]
      rfl

theorem walk_nodup {leaves : List Str} (n : Nat) : ∀ o, nodes o ≤ n → Keyed o → NoMix o →
    ((walk leaves n o).map Prod.fst).Nodup := by
  induction n with
  | zero => intro o h; cases o <;> simp [nodes] at h
  | succ n ih =>
    intro o ho hk hm
    rw [walk, List.map_cons, List.nodup_cons]
    cases hl : isLeaf leaves o with
    | true => simp
    | false =>
      simp only [Bool.false_eq_true, if_false]
      have hlead : ∀ us y, (us, y) ∈ lab (n + 1) o → Leads o us y := fun us y hy =>
        (mem_lab (n + 1) o ho us y).1 hy
      constructor
      · simp only [List.mem_map, List.mem_flatMap, List.mem_reverse, Prod.exists, not_exists, not_and]
        rintro a b ⟨us, y, hy, c, d, _, he⟩ rfl
        simp only [Prod.mk.injEq, List.append_eq_nil_iff] at he
        exact leads_ne_nil (hlead us y hy) he.1.1
      · rw [List.map_flatMap, List.Nodup, List.pairwise_flatMap]
        constructor
        · rintro ⟨us, y⟩ hy
          have hlead := hlead us y (List.mem_reverse.1 hy)
          have := ih y (by have := nodes_leads hlead; omega) (keyed_leads hlead hk) (noMix_leads hlead hm)
          rw [List.map_map]
          have e : (walk leaves n y).map (Prod.fst ∘ fun d => (us ++ d.1, d.2)) =
              ((walk leaves n y).map Prod.fst).map (fun t => us ++ t) := by
            rw [List.map_map]; rfl
          rw [e]
          exact List.pairwise_map.2 (this.imp (fun hne he => hne (List.append_cancel_left he)))
        · have hnd := lab_names_nodup (n + 1) o ho hk hm
          have hlab : (lab (n + 1) o).Pairwise (fun a b => a.1 ≠ b.1) :=
            (List.pairwise_map.1 hnd).imp (fun hne he => hne (by rw [he]))
          have hrev : ((lab (n + 1) o).reverse).Pairwise (fun a b => a.1 ≠ b.1) :=
            List.pairwise_reverse.2 (hlab.imp (fun h => h.symm))
          refine hrev.imp_of_mem ?_
          rintro ⟨us, y⟩ ⟨vs, z⟩ hy hz hne t1 h1 t2 h2 heq
          simp only [List.map_map, List.mem_map, Function.comp] at h1 h2
          obtain ⟨d1, _, rfl⟩ := h1
          obtain ⟨d2, _, e⟩ := h2
          dsimp only at hne e
          have ly := hlead us y (List.mem_reverse.1 hy)
          have lz := hlead vs z (List.mem_reverse.1 hz)
          have e' : us ++ d1.1 = vs ++ d2.1 := by rw [heq]; exact e.symm
          rcases List.append_eq_append_iff.1 e' with ⟨r, h, _⟩ | ⟨r, h, _⟩
          · rw [h] at lz
            have := (leads_prefix hk ly lz).1
            subst this
            exact hne (by simpa using h.symm)
          · rw [h] at ly
            have := (leads_prefix hk lz ly).1
            subst this
            exact hne (by simpa using h)

/-- **C32**: a scan visits the root and every object below it that is not below a leaf, each exactly
once: the visited objects are, in order, those of a list `L` of places without repetition that has
exactly the places to be visited.  (Termination: `traverse` is a total function.)
Partial: when some map inside holds both objects and lists or maps, an object may be lost, see
`C32_lost_violation`. -/
theorem C32_visits_partial (leaves : List Str) (root : Obj) (hk : Keyed root) (hm : NoMix root) :
    ∃ L : List (List Str × Obj), (traverse leaves root).map Prod.snd = L.map Prod.snd ∧
      (L.map Prod.fst).Nodup ∧ ∀ ts o, (ts, o) ∈ L ↔ Visited leaves root ts o :=
  ⟨walk leaves (nodes root) root, walk_traverse _ _ (Nat.le_refl _) hk hm _,
    walk_nodup _ _ (Nat.le_refl _) hk hm, walk_visited _ _ (Nat.le_refl _)⟩

/-- **C32**, without conditions: everything visited is to be visited. -/
theorem C32_sound (leaves : List Str) (root : Obj) : ∀ p o, (p, o) ∈ traverse leaves root →
    ∃ ts, Visited leaves root ts o := by
  have key : ∀ st p o, (p, o) ∈ traverseLoop leaves st → ∃ p' o' ts, (p', o') ∈ st ∧ Visited leaves o' ts o := by
    intro st
    fun_induction traverseLoop leaves st with
    | case1 => simp
    | case2 q o' st ih =>
      intro p o hm
      rcases List.mem_cons.1 hm with h | h
      · cases h; exact ⟨q, o', [], List.mem_cons_self, .root⟩
      · obtain ⟨p1, o1, ts, h1, hv⟩ := ih p o h
        simp only [dite_eq_ite] at h1
        rcases List.mem_append.1 h1 with h1 | h1
        · split at h1
          · simp at h1
          next hl =>
            simp only [List.mem_reverse, List.mem_map, Prod.exists, Prod.mk.injEq] at h1
            obtain ⟨nm, y, hy, _, rfl⟩ := h1
            obtain ⟨us, hlead, _⟩ := kids_sound _ o' (Nat.le_refl _) nm y hy
            exact ⟨q, o', us ++ ts, by simp,
              visited_iff.2 (.inr ⟨by simpa using hl, us, y, ts, hlead, hv, rfl⟩)⟩
        · exact ⟨p1, o1, ts, List.mem_cons_of_mem _ h1, hv⟩
  intro p o h
  obtain ⟨p', o', ts, hm, hv⟩ := key _ _ _ h
  simp only [List.mem_singleton, Prod.mk.injEq] at hm
  exact ⟨ts, hm.2 ▸ hv⟩

/-- The classes of the package inside whose objects no map can hold both objects and maps: all but the
four classes of 3.0 that lead to `callbacks`. -/
def noCallbacks (c : Str) : Bool :=
  ![s% "v3_0_0.Operation", s% "v3_0_0.PathItem", s% "v3_0_0.Components", s% "v3_0_0.OpenApi"].contains c

/-- **C32** for loaded documents of the package (all of 1.2 and 2.0, and 3.0 below `callbacks`): the
conditions of `C32_visits_partial` hold, whatever the document. -/
theorem C32_loaded_partial (leaves : List Str) (c : Str) (hc : noCallbacks c = true) (j : Json)
    (hj : j.wf = true) (p : Option Str) (root : Obj) (h : build pkg (.cls c) j p [] = .ok root) :
    ∃ L : List (List Str × Obj), (traverse leaves root).map Prod.snd = L.map Prod.snd ∧
      (L.map Prod.fst).Nodup ∧ ∀ ts o, (ts, o) ∈ L ↔ Visited leaves root ts o := by
  have hC : ∀ c, noCallbacks c = true → (pkg c).children.all
      (fun kc => within noCallbacks (fun b => flatB b || contB b) kc.2.builder) = true := by
    intro c hc
    have h := pkg_children (p := fun c kc => !noCallbacks c ||
      within noCallbacks (fun b => flatB b || contB b) kc.2.builder) (by decide +kernel) c
    simpa [hc] using h
  have hl : Loaded pkg (fun b => within noCallbacks (fun b => flatB b || contB b) b = true) root :=
    ⟨_, j, p, by simpa [within] using hc, hj, h⟩
  exact C32_visits_partial leaves root (loaded_keyed okTable_pkg (closed_within hC) hl)
    (loaded_noMix plainNames_pkg hC hl)

/-- A 2.0 document with a parameter, a response and nested schemas. -/
def sampleDoc : Json := .obj [
  (s% "swagger", .str (s% "2.0")),
  (s% "info", .obj [(s% "title", .str (s% "t")), (s% "version", .str (s% "1"))]),
  (s% "paths", .obj [(s% "/a", .obj [(s% "get", .obj [
    (s% "parameters", .arr [.obj [(s% "name", .str (s% "q")), (s% "in", .str (s% "query"))]]),
    (s% "responses", .obj [(s% "200", .obj [(s% "description", .str (s% "ok"))])])])])]),
  (s% "definitions", .obj [(s% "A", .obj [(s% "properties", .obj [(s% "x", .obj []), (s% "y", .obj [])])])])]

example : sampleDoc.wf = true ∧ (build pkg (.cls (s% "v2_0.Swagger")) sampleDoc none []).map
    (fun o => (traverse [] o).map Prod.fst) = .ok [s% "#", s% "#/definitions/A",
      s% "#/definitions/A/properties/y", s% "#/definitions/A/properties/x", s% "#/paths/~1a",
      s% "#/paths/~1a/get", s% "#/paths/~1a/get/responses/200", s% "#/paths/~1a/get/parameters/0",
      s% "#/info"] := by decide +kernel

/-- A 3.0 operation with two callbacks: a reference under the name `a/b`, and an inline callback `a`
with the expression `b`. -/
def mixedDoc : Json := .obj [
  (s% "responses", .obj []),
  (s% "callbacks", .obj [
    (s% "a/b", .obj [(s% "$ref", .str (s% "#/x"))]),
    (s% "a", .obj [(s% "b", .obj [])])])]

/-- **C32** fails for 3.0 callbacks: `get_children` of the map of callbacks names both objects `a/b`; the
reference is never visited. -/
theorem C32_lost_violation : mixedDoc.wf = true ∧
    ∃ root ref, build pkg (.cls (s% "v3_0_0.Operation")) mixedDoc none [] = .ok root ∧
      Visited [] root [s% "callbacks", s% "a/b"] ref ∧ ∀ p, (p, ref) ∉ traverse [] root := by
  refine ⟨by decide +kernel, .base (s% "v3_0_0.Operation") none mixedDoc
    [(s% "responses", .map (.ifNotRef (s% "v3_0_0.Reference") (.cls (s% "v3_0_0.Response"))) (some (s% "responses")) (.obj []) []),
     (s% "callbacks", .map (.ifNotRef (s% "v3_0_0.Reference") (.mapOf (.cls (s% "v3_0_0.PathItem")))) (some (s% "callbacks"))
      (.obj [(s% "a/b", .obj [(s% "$ref", .str (s% "#/x"))]), (s% "a", .obj [(s% "b", .obj [])])])
      [(s% "a/b", .base (s% "v3_0_0.Reference") (some (s% "callbacks/a~1b")) (.obj [(s% "$ref", .str (s% "#/x"))]) []),
       (s% "a", .map (.cls (s% "v3_0_0.PathItem")) (some (s% "callbacks/a")) (.obj [(s% "b", .obj [])])
         [(s% "b", .base (s% "v3_0_0.PathItem") (some (s% "callbacks/a/b")) (.obj []) [])])])],
    .base (s% "v3_0_0.Reference") (some (s% "callbacks/a~1b")) (.obj [(s% "$ref", .str (s% "#/x"))]) [],
    by decide +kernel, ?_, ?_⟩
  · refine Visited.child (ts := []) (us := [_, _]) .root (by simp) ?_
    refine .through (.child (List.mem_cons_of_mem _ List.mem_cons_self)) rfl (.direct (.item List.mem_cons_self) rfl)
  · intro p hp
    have hp' := List.mem_map_of_mem (f := Prod.snd) hp
    dsimp only at hp'
    clear hp
    revert hp'
    decide +kernel

/-! ### C33 -/

/-- The tokens of a child of an object are at most two: no object lies in a list or map that is itself in
a list or map. -/
def NoNest (root : Obj) : Prop := ∀ m, Inside root m → m.isBase = true → ∀ us x, Leads m us x → us.length ≤ 2

/-- Resolving the tokens of a child goes on in the child. -/
theorem resolve_leads {T : Table} {o x : Obj} {us : List Str} (h : Leads o us x) (hk : Keyed o)
    (hd : Declared T o) (ts : List Str) : resolve T (us ++ ts) o = resolve T ts x := by
  have step : ∀ {o m : Obj} {k : Str} (ts : List Str), Slot o k m → Keyed o → Declared T o → m.isPrim = false →
      resolve T (k :: ts) o = resolve T ts m := by
    intro o m k ts hs hk hd hm
    have hk0 := hk o (.here o)
    have hd0 := hd o (.here o)
    cases hs with
    | child hx =>
      simp only [resolve]
      unfold getattr
      rw [if_pos (hd0 _ _ hx), Dict.get?_of_mem hk0 hx]
      cases m <;> first | rfl | simp [isPrim] at hm
    | item hx =>
      simp only [resolve, Dict.get!]
      rw [Dict.get?_of_mem hk0 hx]
      cases m <;> first | rfl | simp [isPrim] at hm
    | elem hx =>
      simp only [resolve]
      rw [pyInt_ofNat]
      have hx' := pyIndex_nat _ _ _ hx
      simp only [bind, Except.bind]
      rw [hx']
      cases m <;> first | rfl | simp [isPrim] at hm
  induction h with
  | direct hs hx => exact step ts hs hk hd (by rename_i x _; cases x <;> simp [isBase, isPrim] at hx ⊢)
  | through hs _ hl ih =>
    rename_i o m x k us _
    have hm : m.isPrim = false := by
      cases m with
      | prim j => exact absurd hl (leads_prim rfl)
      | _ => rfl
    rw [List.cons_append, step _ hs hk hd hm]
    exact ih (fun m hm => hk m (inside_slot hs hm)) (fun m hm => hd m (inside_slot hs hm))

theorem visited_inside {leaves : List Str} {root x : Obj} {ts : List Str} (h : Visited leaves root ts x) :
    ∀ m, Inside x m → Inside root m := by
  induction h with
  | root => exact fun _ h => h
  | child _ _ hl ih => exact fun m hm => ih m (inside_leads hl hm)

theorem resolve_visited {T : Table} {leaves : List Str} {root x : Obj} {us : List Str}
    (h : Visited leaves root us x) (hk : Keyed root) (hd : Declared T root) (ts : List Str) :
    resolve T (us ++ ts) root = resolve T ts x := by
  induction h generalizing ts with
  | root => rfl
  | child hv _ hl ih =>
    rw [List.append_assoc, ih]
    have hin := visited_inside hv
    exact resolve_leads hl (fun m hm => hk m (hin m hm)) (fun m hm => hd m (hin m hm)) ts

theorem visited_base {leaves : List Str} {root x : Obj} {ts : List Str} (h : Visited leaves root ts x)
    (hb : root.isBase = true) : x.isBase = true := by
  cases h with
  | root => exact hb
  | child _ _ hl => exact leads_base hl

/-- The path of a visited object is the pointer of the tokens that lead to it. -/
theorem visit_path {leaves : List Str} {root : Obj} (hb : root.isBase = true) (hn : NoNest root)
    (hpl : ∀ m, Inside root m → ∀ c p s ks, m = .base c p s ks → ∀ k o, (k, o) ∈ ks → jpEncode k = k) :
    ∀ st, (∀ p o, (p, o) ∈ st → ∃ ts, Visited leaves root ts o ∧ p = jpCompose ts (some (s% "#"))) →
    ∀ p o, (p, o) ∈ traverseLoop leaves st →
      ∃ ts, Visited leaves root ts o ∧ p = jpCompose ts (some (s% "#")) := by
  intro st
  fun_induction traverseLoop leaves st with
  | case1 => simp
  | case2 q r st ih =>
    intro hst p o hm
    simp only [dite_eq_ite] at ih hm
    rcases List.mem_cons.1 hm with h | h
    · cases h
      exact hst q r List.mem_cons_self
    · refine ih (fun p1 o1 h1 => ?_) p o h
      rcases List.mem_append.1 h1 with h1 | h1
      · split at h1
        · simp at h1
        rename_i hl
        simp only [List.mem_reverse, List.mem_map, Prod.exists, Prod.mk.injEq] at h1
        obtain ⟨nm, y, hy, rfl, rfl⟩ := h1
        obtain ⟨us, hlead, rfl⟩ := kids_sound _ r (Nat.le_refl _) nm y hy
        obtain ⟨ts, hv, rfl⟩ := hst q r List.mem_cons_self
        refine ⟨ts ++ us, .child hv (isLeaf_false.1 (by simpa using hl)) hlead, ?_⟩
        rw [← C02_jp_compose_incremental ts us _ (by decide)]
        have hne : jpCompose ts (some (s% "#")) ≠ [] := by
          rw [jpCompose_base (by decide)]
          cases ts <;> simp [Str.joinC]
        rw [jpCompose_base hne]
        have hrb := visited_base hv hb
        have hin := visited_inside hv
        have hlen := hn r (hin r (.here r)) hrb us y hlead
        cases hlead with
        | direct hs _ =>
          cases hs with
          | child hx => simp [nameOf, Str.joinC, hpl _ (hin _ (.here _)) _ _ _ _ rfl _ _ hx]
          | item _ => simp [isBase] at hrb
          | elem _ => simp [isBase] at hrb
        | through hs _ hl2 =>
          cases hl2 with
          | direct _ _ => simp [nameOf, jpCompose2, Str.joinC]
          | through _ _ hl3 =>
            have := List.length_pos_iff.2 (leads_ne_nil hl3)
            simp only [List.length_cons] at hlen
            omega
      · exact hst p1 o1 (List.mem_cons_of_mem _ h1)

/-- **C33**: the path given to a handler, split and resolved from the root, is the visited object.
Partial: objects in a list (or map) inside a list or map have a path that is escaped twice, see
`C33_nested_violation`. -/
theorem C33_path_partial {T : Table} (hP : PlainNames T) (leaves : List Str) (root : Obj)
    (hb : root.isBase = true) (hk : Keyed root) (hd : Declared T root) (hn : NoNest root) :
    ∀ p o, (p, o) ∈ traverse leaves root →
      ∃ ts, jpSplit p = s% "#" :: ts ∧ resolve T ts root = .ok o := by
  intro p o hm
  obtain ⟨ts, hv, rfl⟩ := visit_path hb hn (by
      rintro m hm c p s ks rfl k o hk
      exact hP c k (Dict.has_iff.1 (hd _ hm k o hk)))
    _ (by
      intro p o h
      simp only [List.mem_singleton, Prod.mk.injEq] at h
      obtain ⟨rfl, rfl⟩ := h
      exact ⟨[], .root, by decide⟩) p o hm
  refine ⟨ts, ?_, ?_⟩
  · rw [C01_jp_roundtrip_base _ _ (by decide)]; rfl
  · have := resolve_visited hv hk hd []
    simpa [resolve] using this

theorem loaded_noNest {T : Table} {C : Str → Bool}
    (hC : ∀ c, C c = true → (T c).children.all (fun kc => within C (fun b => flatB b || leafB b) kc.2.builder) = true)
    {o : Obj} (ho : Loaded T (fun b => within C (fun b => flatB b || leafB b) b = true) o) : NoNest o := by
  intro m hm hmb us x hl
  have hB := closed_within hC
  have hml := loaded_inside hB ho hm
  cases hl with
  | direct _ _ => simp
  | @through _ m' _ k ts hs hmb' hl =>
    obtain ⟨b, j, p, hb, _, h⟩ := loaded_slot hB hml hs
    have hi := build_inv hB hb h
    cases hl with
    | direct _ _ => simp
    | @through _ m'' _ k2 ts2 hs2 hmb2 hl2 =>
      exfalso
      have main : ∀ b', (flatB b' || leafB b') = true →
          (build T (.listOf b') j p [] = .ok m' ∨ build T (.mapOf b') j p [] = .ok m') → False := by
        intro b' hq hbld
        obtain ⟨y, q, hy⟩ := elem_built hs2 hbld hmb'
        rw [Bool.or_eq_true] at hq
        rcases hq with hq | hq
        · rcases build_flat hq hy with h | h
          · rw [h] at hmb2; simp at hmb2
          · exact leads_prim h hl2
        · exact build_leaf hq hy hl2
      cases m' with
      | prim j => exact leads_prim rfl (.through hs2 hmb2 hl2)
      | base c p s ks => simp [isBase] at hmb'
      | list b' p s es =>
        obtain ⟨rfl, rfl, hc, h⟩ := hi
        simp only [within, Bool.and_eq_true] at hc
        exact main b' hc.1 (.inl h)
      | map b' p s es =>
        obtain ⟨rfl, rfl, hc, h⟩ := hi
        simp only [within, Bool.and_eq_true] at hc
        exact main b' hc.1 (.inr h)

/-- The classes of the package without objects in nested lists and maps: all of 2.0; 3.0 and 1.2 without
what leads to `callbacks` and `authorizations`. -/
def noNestedKids (c : Str) : Bool :=
  noCallbacks c && ![s% "v1_2.Operation", s% "v1_2.Api", s% "v1_2.ApiDeclaration"].contains c

/-- **C33** for loaded documents of the package (all of 2.0; not 3.0 callbacks and 1.2 authorizations). -/
theorem C33_loaded_partial (leaves : List Str) (c : Str) (hc : noNestedKids c = true) (j : Json)
    (hj : j.wf = true) (p : Option Str) (root : Obj) (h : build pkg (.cls c) j p [] = .ok root) :
    ∀ p o, (p, o) ∈ traverse leaves root →
      ∃ ts, jpSplit p = s% "#" :: ts ∧ resolve pkg ts root = .ok o := by
  have hC : ∀ c, noNestedKids c = true → (pkg c).children.all
      (fun kc => within noNestedKids (fun b => flatB b || leafB b) kc.2.builder) = true := by
    intro c hc
    have h := pkg_children (p := fun c kc => !noNestedKids c ||
      within noNestedKids (fun b => flatB b || leafB b) kc.2.builder) (by decide +kernel) c
    simpa [hc] using h
  have hl : Loaded pkg (fun b => within noNestedKids (fun b => flatB b || leafB b) b = true) root :=
    ⟨_, j, p, by simpa [within] using hc, hj, h⟩
  have hB := closed_within hC
  refine C33_path_partial plainNames_pkg leaves root ?_ (loaded_keyed okTable_pkg hB hl)
    (loaded_declared hB hl) (loaded_noNest hC hl)
  rw [build_cls] at h
  split at h
  · simp at h
  · simp only [Except.ok.injEq] at h; subst h; rfl

example : noNestedKids (s% "v2_0.Swagger") = true ∧ noCallbacks (s% "v2_0.Swagger") = true := by decide

/-- A 3.0 operation with a callback. -/
def callbackDoc : Json := .obj [
  (s% "responses", .obj []),
  (s% "callbacks", .obj [(s% "cb", .obj [(s% "/p", .obj [(s% "summary", .str (s% "s"))])])])]

/-- **C33** fails for callbacks: the path of the path item is escaped twice, resolving it raises
KeyError. -/
theorem C33_nested_violation : callbackDoc.wf = true ∧
    ∃ root, build pkg (.cls (s% "v3_0_0.Operation")) callbackDoc none [] = .ok root ∧
      (traverse [] root).map Prod.fst = [s% "#", s% "#/callbacks/cb~1~01p"] ∧
      jpSplit (s% "#/callbacks/cb~1~01p") = [s% "#", s% "callbacks", s% "cb/~1p"] ∧
      resolve pkg [s% "callbacks", s% "cb/~1p"] root = .error .keyError := by
  refine ⟨by decide +kernel, .base (s% "v3_0_0.Operation") none callbackDoc
    [(s% "responses", .map (.ifNotRef (s% "v3_0_0.Reference") (.cls (s% "v3_0_0.Response"))) (some (s% "responses")) (.obj []) []),
     (s% "callbacks", .map (.ifNotRef (s% "v3_0_0.Reference") (.mapOf (.cls (s% "v3_0_0.PathItem")))) (some (s% "callbacks"))
      (.obj [(s% "cb", .obj [(s% "/p", .obj [(s% "summary", .str (s% "s"))])])])
      [(s% "cb", .map (.cls (s% "v3_0_0.PathItem")) (some (s% "callbacks/cb")) (.obj [(s% "/p", .obj [(s% "summary", .str (s% "s"))])])
         [(s% "/p", .base (s% "v3_0_0.PathItem") (some (s% "callbacks/cb/~1p")) (.obj [(s% "summary", .str (s% "s"))]) [])])])],
    by decide +kernel, by decide +kernel, by decide +kernel, by decide +kernel⟩

/-! ### C34 -/

/-- What `Disp.register(classes)` was called with, one after the other. -/
def registerAll {σ ρ : Type} (isObjClass : Str → Bool) (d : Dispatcher σ ρ)
    (regs : List (List Str × (σ → Str → Obj → R (σ × ρ)))) : R (Dispatcher σ ρ) :=
  regs.foldlM (fun d r => d.register isObjClass r.1 r.2) d

/-- The handlers registered for a class, in the order of registration (one for each time the class is
named). -/
def handlersOf {σ ρ : Type} (regs : List (List Str × (σ → Str → Obj → R (σ × ρ)))) (c : Str) :
    List (σ → Str → Obj → R (σ × ρ)) :=
  regs.flatMap (fun r => (r.1.filter (fun c' => c' == c)).map (fun _ => r.2))

theorem register_get {σ ρ : Type} {isObjClass : Str → Bool} {f : σ → Str → Obj → R (σ × ρ)} (c : Str) :
    ∀ (classes : List Str) (d d' : Dispatcher σ ρ), d.register isObjClass classes f = .ok d' →
    d'.result = d.result ∧ (Dict.get? d'.route c).getD [] =
      (Dict.get? d.route c).getD [] ++ (classes.filter (fun c' => c' == c)).map (fun _ => f) := by
  intro classes
  induction classes with
  | nil =>
    intro d d' h
    simp only [Dispatcher.register, List.foldlM_nil] at h
    cases h
    simp
  | cons a classes ih =>
    intro d d' h
    simp only [Dispatcher.register, List.foldlM_cons, Dispatcher.addRoute] at h
    cases ha : isObjClass a with
    | false => rw [ha] at h; simp at h; cases h
    | true =>
      rw [ha] at h
      simp only [if_true] at h
      have := ih _ d' h
      refine ⟨this.1, this.2.trans ?_⟩
      dsimp only
      rw [List.filter_cons]
      by_cases hac : a = c
      · subst hac
        rw [Dict.get?_set_self]
        simp
      · rw [Dict.get?_set_ne _ _ hac, if_neg (by simpa using hac)]

theorem registerAll_get {σ ρ : Type} {isObjClass : Str → Bool} (c : Str)
    (regs : List (List Str × (σ → Str → Obj → R (σ × ρ)))) : ∀ (d d' : Dispatcher σ ρ),
    registerAll isObjClass d regs = .ok d' →
    d'.result = d.result ∧
    (Dict.get? d'.route c).getD [] = (Dict.get? d.route c).getD [] ++ handlersOf regs c := by
  induction regs with
  | nil =>
    intro d d' h
    simp only [registerAll, List.foldlM_nil] at h
    cases h
    simp [handlersOf]
  | cons r regs ih =>
    intro d d' h
    simp only [registerAll, List.foldlM_cons] at h
    cases h1 : d.register isObjClass r.1 r.2 with
    | error e => rw [h1] at h; cases h
    | ok d1 =>
      rw [h1] at h
      have h2 := ih d1 d' h
      have h3 := register_get c r.1 d d1 h1
      exact ⟨h2.1.trans h3.1, by rw [h2.2, h3.2, List.append_assoc]; rfl⟩

/-- **C34**, registration: registering raises ValueError exactly when something that is no object class is
named. -/
theorem C34_register_ok {σ ρ : Type} (isObjClass : Str → Bool) (classes : List Str)
    (f : σ → Str → Obj → R (σ × ρ)) (d : Dispatcher σ ρ) :
    (classes.all isObjClass = true → ∃ d', d.register isObjClass classes f = .ok d') ∧
    (classes.all isObjClass = false → d.register isObjClass classes f = .error .valueError) := by
  induction classes generalizing d with
  | nil => exact ⟨fun _ => ⟨d, rfl⟩, by simp⟩
  | cons a classes ih =>
    simp only [Dispatcher.register, List.foldlM_cons, Dispatcher.addRoute, List.all_cons]
    cases ha : isObjClass a with
    | false => exact ⟨by simp, fun _ => rfl⟩
    | true => exact ih { d with route := Dict.set d.route a (((Dict.get? d.route a).getD []) ++ [f]) }

/-- One route object for the scan: its handlers (by registration history) and its result function. -/
abbrev Plan (σ ρ : Type) := List (List Str × (σ → Str → Obj → R (σ × ρ))) × Option (σ → ρ → R σ)

/-- One call: the handler gets the path and the object; what it returns is handed to the result function, if there is one. -/
def oneCall {σ ρ : Type} (res : Option (σ → ρ → R σ)) (path : Str) (o : Obj) (f : σ → Str → Obj → R (σ × ρ)) (s : σ) : R σ :=
  match f s path o, res with
  | .error e, _ => .error e
  | .ok (s', r), some g => g s' r
  | .ok (s', _), none => .ok s'

theorem callHandler_eq {σ ρ : Type} (res : Option (σ → ρ → R σ)) (path : Str) (o : Obj) (s : σ) (f : σ → Str → Obj → R (σ × ρ)) :
    callHandler res path o s f = oneCall res path o f s := by
  unfold callHandler oneCall
  cases f s path o with
  | error e => rfl
  | ok x => obtain ⟨s', r⟩ := x; cases res <;> rfl

/-- The calls of a scan, in order: for every visit, for every route object in turn, the handlers registered
for exactly the class of the object, in the order of registration, each with the path and the object. -/
def callsOf {σ ρ : Type} (plans : List (Plan σ ρ)) (visits : List (Str × Obj)) : List (σ → R σ) :=
  visits.flatMap (fun po => plans.flatMap (fun plan =>
    match po.2 with
    | .base c _ _ _ => (handlersOf plan.1 c).map (fun f => oneCall plan.2 po.1 po.2 f)
    | _ => []))

theorem foldlM_flatMap {α β σ : Type} (f : α → List β) (g : σ → β → R σ) (l : List α) (s : σ) :
    (l.flatMap f).foldlM g s = l.foldlM (fun s a => (f a).foldlM g s) s := by
  induction l generalizing s with
  | nil => rfl
  | cons a l ih =>
    rw [List.flatMap_cons, List.foldlM_append, List.foldlM_cons]
    congr 1
    funext s
    exact ih s

/-- **C34**: a scan is exactly its calls, one after the other; it raises what the first failing call
raises. -/
theorem C34_scan {σ ρ : Type} (isObjClass : Str → Bool) (plans : List (Plan σ ρ))
    (ds : List (Dispatcher σ ρ))
    (hds : plans.mapM (fun plan => registerAll isObjClass { result := plan.2 } plan.1) = .ok ds)
    (root : Obj) (leaves : List Str) (s : σ) :
    scan (ds.map (fun d => [some d])) (some root) leaves s =
      (callsOf plans (traverse leaves root)).foldlM (fun s call => call s) s := by
  have hbr : buildRoute (ds.map (fun d => [some d])) = ds := by
    unfold buildRoute
    rw [List.filterMap_map]
    simp [Function.comp_def]
  unfold scan callsOf
  rw [foldlM_flatMap, hbr]
  dsimp only
  congr 1
  funext s po
  induction plans generalizing ds s with
  | nil => cases hds; rfl
  | cons plan plans ih =>
    rw [List.mapM_cons] at hds
    cases h1 : registerAll isObjClass { result := plan.2 } plan.1 with
    | error e => rw [h1] at hds; cases hds
    | ok d =>
      rw [h1] at hds
      cases h2 : plans.mapM (fun plan => registerAll isObjClass { result := plan.2 } plan.1) with
      | error e => rw [h2] at hds; cases hds
      | ok ds' =>
        rw [h2] at hds
        cases hds
        rw [List.foldlM_cons, List.flatMap_cons, List.foldlM_append]
        have hh : handleCls po.1 po.2 s d = (match po.2 with
            | .base c _ _ _ => (handlersOf plan.1 c).map (fun f => oneCall plan.2 po.1 po.2 f)
            | _ => []).foldlM (fun s (call : σ → R σ) => call s) s := by
          obtain ⟨p, o⟩ := po
          cases o with
          | base c q j ks =>
            obtain ⟨hr, hg⟩ := registerAll_get c plan.1 _ d h1
            simp only [Dict.get?, Option.getD_none, List.nil_append] at hg
            simp only [handleCls, className?, Option.bind_some]
            rw [List.foldlM_map, ← hg, hr]
            simp only [← callHandler_eq]
            cases Dict.get? d.route c <;> rfl
          | _ => rfl
        rw [hh]
        congr 1
        funext s
        exact ih ds' h2 (by unfold buildRoute; rw [List.filterMap_map]; simp [Function.comp_def]) s

/-- **C34**: without a root, `scan` raises ValueError. -/
theorem C34_no_root {σ ρ : Type} (routes : List (List (Option (Dispatcher σ ρ)))) (leaves : List Str) (s : σ) :
    scan routes none leaves s = .error .valueError := rfl

/-- **C34**: route objects whose own class has no dispatcher (the dispatcher of a base class does not
count) are skipped silently. -/
theorem C34_no_dispatcher {σ ρ : Type} (pre post : List (List (Option (Dispatcher σ ρ)))) (n : Nat)
    (root : Option Obj) (leaves : List Str) (s : σ) :
    scan (pre ++ [List.replicate n none] ++ post) root leaves s = scan (pre ++ post) root leaves s := by
  have : buildRoute (pre ++ [List.replicate n none] ++ post) = buildRoute (pre ++ post) := by
    unfold buildRoute
    simp [List.filterMap_append]
  unfold scan
  rw [this]

/-- A handler that writes down its name and the path. -/
def logger (name : Str) : List (Str × Str) → Str → Obj → R (List (Str × Str) × Unit) :=
  fun s p _ => .ok (s ++ [(name, p)], ())

/-- Three registrations on one dispatcher, one of a class twice; the scan of the sample document calls, for
each object, exactly the handlers of its class. -/
example : (do
    let d ← registerAll (fun c => Dict.has classes c) { result := none }
      [([s% "v2_0.Parameter", s% "v2_0.Schema"], logger (s% "f")), ([s% "v2_0.Schema"], logger (s% "g")),
       ([s% "v2_0.Items"], logger (s% "h"))]
    let root ← build pkg (.cls (s% "v2_0.Swagger")) sampleDoc none []
    scan [[none, some d]] (some root) [] []) = .ok [
      (s% "f", s% "#/definitions/A"), (s% "g", s% "#/definitions/A"),
      (s% "f", s% "#/definitions/A/properties/y"), (s% "g", s% "#/definitions/A/properties/y"),
      (s% "f", s% "#/definitions/A/properties/x"), (s% "g", s% "#/definitions/A/properties/x"),
      (s% "f", s% "#/paths/~1a/get/parameters/0")] := by decide +kernel

end Pyopenapi
