import Verif.Lemmas.PiecesAgain

/-!
# The objects of 3.0.0 of an application of many documents: what the application has while they are made
-/

namespace Pyopenapi

theorem Dict.mem_set {κ α : Type} [DecidableEq κ] {d : DictK κ α} {k : κ} {v : α} {e : κ × α} (h : e ∈ Dict.set d k v) : e = (k, v) ∨ e ∈ d := by
  induction d with
  | nil => exact .inl (List.mem_singleton.1 h)
  | cons f d ih =>
    obtain ⟨k', v'⟩ := f
    unfold Dict.set at h
    split at h
    · rename_i hk
      rcases List.mem_cons.1 h with h | h
      · exact .inl (by rw [h, hk])
      · exact .inr (List.mem_cons_of_mem _ h)
    · rcases List.mem_cons.1 h with h | h
      · exact .inr (h ▸ List.mem_cons_self)
      · exact (ih h).imp_right (List.mem_cons_of_mem _)

/-- Empty tables move nothing. -/
theorem patch_empty {rs : Routes} (h : ∀ e ∈ rs, e.2 = .nested []) (jp : Str) : patchJp jp rs = jp := by
  unfold patchJp
  have : patchLoop rs [] jp = none := by
    rw [patchLoop_unfold]
    cases hp : pickRoute jp rs none with
    | none => rfl
    | some e =>
      obtain ⟨f, t⟩ := e
      rcases pickRoute_mem hp with hm | hm
      · have := h _ hm
        dsimp only at this
        subst this
        simp
      · cases hm
  rw [this]

end Pyopenapi

namespace Pyopenapi.Main
open _root_.Pyopenapi.Spec _root_.Pyopenapi.Refs.Spec Obj

variable {W : Type}

/-- Where an absolute reference leads in 3.0.0: to a converted piece, or to something in the main document, at the place
its routes tell. -/
def Target (main : Piece) (cv : Piece → Obj) (rl : Routes) (n : Str) (t : Piece) (us : List Str) (y : Obj) : Prop :=
  (t ≠ main ∧ n = t.ref ∧ us = t.place ∧ y = cv t) ∨
    (t = main ∧ ∃ ts, n = main.url ++ pointer ts ∧ Safe ts ∧ patchJp (pointer ts) [(['#'], .nested rl)] = pointer us ∧ At (cv main) us y)

/-- The pieces of an application that have been migrated to 2.0, and what they are converted to. -/
structure Stage (out : Outer W) (main : Piece) (pieces live : List Piece) (cv : Piece → Obj) (rl : Routes)
    (at2 : Obj → Refs.Attrs Obj) : Prop where
  app : Application out main pieces
  sub : ∀ p ∈ live, p = main ∨ p ∈ pieces
  root : main ∈ live
  noPath : ∀ p ∈ live, p ≠ main → NoPathRef p.obj (s% "v2_0.PathItem")
  knew : ∀ p ∈ live, ∀ ts x, Visited [] p.obj ts x →
    (∀ r, Refers Refs.normClasses2 x r → ∃ n y, normalizeJr out.ok (some r) (some p.url) = .ok (some n) ∧
      at2 x = { normalized := some n, refObj := some y }) ∧ ((∀ r, ¬ Refers Refs.normClasses2 x r) → at2 x = {})
  convert : ∀ p ∈ live, ∀ w : World W, (∀ q ∈ live, ∀ ts x, Visited [] q.obj ts x → attrsOf w x = at2 x) →
    ∃ r, convert (convEnv out w) p.obj p.url (pointer p.place) [] = .ok (cv p, r) ∧ (p = main → r = rl) ∧ (p ≠ main → r = [])
  keys : ∀ k ∈ Dict.keys rl, k ≠ []
  built : ∀ p ∈ live, ∃ c j, c ≠ s% "v3_0_0.Reference" ∧ (c = s% "v3_0_0.OpenApi" ↔ p = main) ∧ (pkg c).version = s% "3.0.0" ∧ j.wf = true ∧
    build pkg (.cls c) j (some (pointer p.place)) [] = .ok (cv p)
  scan : ∀ p ∈ live, Scanned (cv p) (visits (cv p))
  noExamples : ∀ p ∈ live, NoExamples (cv p)
  links : ∀ p ∈ live, ∀ ts c q spec kids, Visited [] (cv p) ts (.base c q spec kids) → c ∈ Refs.normClasses3 → ∃ d, spec = .obj d ∧
    ((Dict.get? d (s% "$ref") = none ∧ c ≠ s% "v3_0_0.Reference") ∨
      ∃ r n t us y, Dict.get? d (s% "$ref") = some (.str r) ∧ r ≠ [] ∧ normalizeJr out.ok (some r) (some p.url) = .ok (some n) ∧
        t ∈ live ∧ Target main cv rl n t us y ∧ Safe us)
  paths3 : ∃ targets : List Obj, targets.length < out.rounds ∧ ∀ p ∈ live, ∀ ts q e kids,
    Visited [] (cv p) ts (.base (s% "v3_0_0.PathItem") q (.obj e) kids) → Dict.get? e (s% "$ref") = none ∨
      (p = main ∧ ∃ k y, Dict.get? e (s% "$ref") = some (.str (main.url ++ pointer [s% "paths", k])) ∧ Safe [s% "paths", k] ∧
        patchJp (pointer [s% "paths", k]) [(['#'], .nested rl)] = pointer [s% "paths", k] ∧ At (cv main) [s% "paths", k] y ∧
        (∃ us, Visited [] (cv main) us y) ∧ y.className? = some (s% "v3_0_0.PathItem") ∧ y ∈ targets)
  apart : ∀ p ∈ live, ∀ q ∈ live, p ≠ q → ∀ ts us x r, Visited [] (cv p) ts x → Visited [] (cv q) us x → ¬ Refers Refs.normClasses3 x r
  new : ∀ p ∈ live, ∀ q ∈ live, ∀ ts us x, Visited [] (cv p) ts x → ¬ Visited [] q.obj us x

/-- The routes of a url are empty tables. -/
def Flat (t : Option (Dict Routes)) : Prop :=
  t = none ∨ ∃ r2 r3, t = some [(s% "1.2", []), (s% "2.0", r2), (s% "3.0.0", r3)] ∧ ∀ e ∈ r3, e.2 = .nested []

/-- The store: the pieces of 2.0, and those of 3.0.0 that are not still to be done. -/
structure Keeps (main : Piece) (live : List Piece) (cv : Piece → Obj) (rl : Routes) (todo : List Piece) (st : Store Obj) : Prop where
  versions : st.versions = [s% "1.2", s% "2.0", s% "3.0.0"]
  only : ∀ u uc, (∃ p ∈ live, p.url = u) → Dict.get? st.objs u = some uc → ∀ jp cache, (jp, cache) ∈ uc →
    ∃ q ∈ live, q.url = u ∧ jp = pointer q.place ∧ (cache = [(s% "2.0", q.obj)] ∨ q ∉ todo)
  stored : ∀ q ∈ live, ∃ uc, Dict.get? st.objs q.url = some uc ∧ ∃ cache, Dict.get? uc (pointer q.place) = some cache ∧
    (q ∈ todo → cache = [(s% "2.0", q.obj)]) ∧ (q ∉ todo → cache = [(s% "2.0", q.obj), (s% "3.0.0", cv q)])
  routesMain : ∃ r2, (main ∈ todo → Dict.get? st.routes main.url = some [(s% "1.2", []), (s% "2.0", r2), (s% "3.0.0", [])]) ∧
    (main ∉ todo → Dict.get? st.routes main.url = some [(s% "1.2", []), (s% "2.0", r2), (s% "3.0.0", [(['#'], .nested rl)])])
  routes : ∀ p ∈ live, p ≠ main → Flat (Dict.get? st.routes p.url)

/-- The attributes of objects: those of 2.0 are as they were, those of 3.0.0 that are still to be done are not set. -/
structure Marks (live : List Piece) (cv : Piece → Obj) (at2 : Obj → Refs.Attrs Obj) (todo : List Piece) (w : World W) : Prop where
  old : ∀ q ∈ live, ∀ ts x, Visited [] q.obj ts x → attrsOf w x = at2 x
  fresh : ∀ q ∈ todo, ∀ ts x, Visited [] (cv q) ts x → attrsOf w x = {}

structure Holds3 (main : Piece) (live : List Piece) (cv : Piece → Obj) (rl : Routes) (at2 : Obj → Refs.Attrs Obj) (todo : List Piece)
    (a : App Obj (World W)) : Prop where
  keeps : Keeps main live cv rl todo a.store
  marks : Marks live cv at2 todo a.world
  original : a.original = s% "2.0"

/-- The objects of a converted piece know what they refer to, which has been converted too. -/
def Knows3 (out : Outer W) (main : Piece) (live : List Piece) (cv : Piece → Obj) (rl : Routes) (todo : List Piece) (w : World W) (p : Piece) : Prop :=
  ∀ ts x, Visited [] (cv p) ts x →
    (∀ r, Refers Refs.normClasses3 x r → ∃ n t us y, normalizeJr out.ok (some r) (some p.url) = .ok (some n) ∧ t ∈ live ∧ t ∉ todo ∧
      Target main cv rl n t us y ∧ attrsOf w x = { normalized := some (t.url ++ pointer us), refObj := some y, newRef := some (ite (Str.startsWith r (s% "#") = true) (pointer us) (t.url ++ pointer us)) }) ∧
    ((∀ r, ¬ Refers Refs.normClasses3 x r) → attrsOf w x = {})

/-- From one state to another: pieces of `todo` have been converted, those of `todo'` not. -/
structure Went3 (out : Outer W) (main : Piece) (live : List Piece) (cv : Piece → Obj) (rl : Routes) (at2 : Obj → Refs.Attrs Obj)
    (todo : List Piece) (a : App Obj (World W)) (todo' : List Piece) (a' : App Obj (World W)) : Prop where
  holds : Holds3 main live cv rl at2 todo' a'
  sub : ∀ p ∈ todo', p ∈ todo
  len : todo'.length ≤ todo.length
  done : ∀ p ∈ todo, p ∉ todo' → Knows3 out main live cv rl todo' a'.world p
  same : ∀ x, (∀ p ∈ todo, p ∉ todo' → ∀ ts, Visited [] (cv p) ts x → ∀ r, ¬ Refers Refs.normClasses3 x r) →
    attrsOf a'.world x = attrsOf a.world x
  rest : a'.world.rest = a.world.rest
  current : a'.current = a.current

section
variable {out : Outer W} {main : Piece} {pieces live todo : List Piece} {cv : Piece → Obj} {rl : Routes} {at2 : Obj → Refs.Attrs Obj}

theorem Went3.refl {a : App Obj (World W)} (h : Holds3 main live cv rl at2 todo a) : Went3 out main live cv rl at2 todo a todo a :=
  ⟨h, fun _ h => h, Nat.le_refl _, fun _ h h' => absurd h h', fun _ _ => rfl, rfl, rfl⟩

theorem Knows3.keep {w w' : World W} {p : Piece} {todo' : List Piece} (h : Knows3 out main live cv rl todo w p) (hsub : ∀ q ∈ todo', q ∈ todo)
    (hs : ∀ ts x, Visited [] (cv p) ts x → attrsOf w' x = attrsOf w x) : Knows3 out main live cv rl todo' w' p := by
  intro ts x hv
  rw [hs ts x hv]
  refine ⟨fun r hr => ?_, (h ts x hv).2⟩
  obtain ⟨n, t, us, y, g1, g2, g3, g4⟩ := (h ts x hv).1 r hr
  exact ⟨n, t, us, y, g1, g2, fun hm => g3 (hsub t hm), g4⟩

theorem Went3.trans (hS : Stage out main pieces live cv rl at2) (hsub : ∀ p ∈ todo, p ∈ live) {todo' todo'' : List Piece}
    {a a' a'' : App Obj (World W)} (h : Went3 out main live cv rl at2 todo a todo' a') (h' : Went3 out main live cv rl at2 todo' a' todo'' a'') :
    Went3 out main live cv rl at2 todo a todo'' a'' := by
  refine ⟨h'.holds, fun p hp => h.sub p (h'.sub p hp), Nat.le_trans h'.len h.len, fun p hp hn => ?_, fun x hx => ?_,
    h'.rest.trans h.rest, h'.current.trans h.current⟩
  · by_cases hm : p ∈ todo'
    · exact h'.done p hm hn
    · refine (h.done p hp hm).keep h'.sub (fun ts x hv => h'.same x (fun q hq hqn us hu r => ?_))
      exact hS.apart p (hsub p hp) q (hsub q (h.sub q hq)) (fun e => hm (e ▸ hq)) ts us x r hv hu
  · rw [h'.same x (fun p hp hn => hx p (h.sub p hp) hn), h.same x (fun p hp hn => hx p hp (fun hm => hn (h'.sub p hm)))]

/-! ### the store -/

theorem url_ne (hA : Application out main pieces) {p : Piece} (hp : p ∈ pieces) (hne : p ≠ main) : p.url ≠ main.url := by
  intro e
  refine (hA.apart main p (.inl rfl) (.inr hp) (Ne.symm hne)).2 e.symm ?_
  rw [hA.root.1]
  exact ⟨_, rfl⟩

theorem Stage.urlNe (hS : Stage out main pieces live cv rl at2) {p : Piece} (hp : p ∈ live) (hne : p ≠ main) : p.url ≠ main.url :=
  url_ne hS.app ((hS.sub p hp).resolve_left hne) hne

theorem Stage.good (hS : Stage out main pieces live cv rl at2) {p : Piece} (hp : p ∈ live) : p.Good out := hS.app.good p (hS.sub p hp)

/-- What is still to be converted can be seen from the store. -/
theorem Keeps.same {st : Store Obj} {todo' : List Piece} (h : Keeps main live cv rl todo st) (h' : Keeps main live cv rl todo' st) {q : Piece}
    (hq : q ∈ live) (hn : q ∉ todo) : q ∉ todo' := by
  obtain ⟨uc, h1, cache, h2, _, h3⟩ := h.stored q hq
  obtain ⟨uc', h1', cache', h2', h3', _⟩ := h'.stored q hq
  intro hm
  rw [h1] at h1'
  cases h1'
  rw [h2] at h2'
  cases h2'
  rw [h3 hn] at h3'
  cases h3' hm

/-- What is in a converted piece. -/
theorem Keeps.get3 (hS : Stage out main pieces live cv rl at2) {st : Store Obj} (h : Keeps main live cv rl todo st) {q : Piece} (hq : q ∈ live)
    (hr : q ∉ todo) (ops : ObjOps Obj) (us : List Str) :
    st.get ops q.url (pointer (q.place ++ us)) (s% "3.0.0") = ops.resolve (cv q) us := by
  obtain ⟨uc, h1, cache, h2, _, h3⟩ := h.stored q hq
  unfold Store.get
  rw [h1]
  show Store.getLoop _ _ _ _ = _
  rw [get_one ops (path := pointer q.place) (cache := cache) (o := cv q) ?_ h2 (by rw [h3 hr]; rfl) ⟨tail us, (pointer_append _ _).symm⟩, tokens_tail]
  intro jp c hm hp
  obtain ⟨q', g1, g3, rfl, _⟩ := h.only q.url uc ⟨q, hq, rfl⟩ h1 jp c hm
  rw [apart_below hS.app (hS.sub _ g1) (hS.sub _ hq) g3 hp]

theorem Keeps.get2 (hS : Stage out main pieces live cv rl at2) {st : Store Obj} (h : Keeps main live cv rl todo st) {q : Piece} (hq : q ∈ live)
    (ops : ObjOps Obj) (us : List Str) : st.get ops q.url (pointer (q.place ++ us)) (s% "2.0") = ops.resolve q.obj us := by
  obtain ⟨uc, h1, cache, h2, h3, h4⟩ := h.stored q hq
  unfold Store.get
  rw [h1]
  show Store.getLoop _ _ _ _ = _
  rw [get_one ops (path := pointer q.place) (cache := cache) (o := q.obj) ?_ h2 ?_ ⟨tail us, (pointer_append _ _).symm⟩, tokens_tail]
  · intro jp c hm hp
    obtain ⟨q', g1, g3, rfl, _⟩ := h.only q.url uc ⟨q, hq, rfl⟩ h1 jp c hm
    rw [apart_below hS.app (hS.sub _ g1) (hS.sub _ hq) g3 hp]
  · by_cases hm : q ∈ todo
    · rw [h3 hm]; rfl
    · rw [h4 hm]; rfl

/-- A piece that is still to be converted. -/
theorem Keeps.get3_none (hS : Stage out main pieces live cv rl at2) {st : Store Obj} (h : Keeps main live cv rl todo st) {q : Piece} (hq : q ∈ live)
    (hr : q ∈ todo) (ops : ObjOps Obj) : st.get ops q.url (pointer q.place) (s% "3.0.0") = .ok none := by
  unfold Store.get
  cases h1 : Dict.get? st.objs q.url with
  | none => rfl
  | some uc =>
    refine get_nothing ops (fun jp c hm hp => ?_)
    obtain ⟨q', g1, g3, rfl, g4⟩ := h.only q.url uc ⟨q, hq, rfl⟩ h1 jp c hm
    have := apart_self hS.app (hS.sub _ g1) (hS.sub _ hq) g3 hp
    subst this
    rcases g4 with g4 | g4
    · rw [g4]; rfl
    · exact absurd hr g4

theorem under_nothing {O : Type} {jp ver : Str} : ∀ {uc : Dict (Dict O)}, (∀ q c, (q, c) ∈ uc → jp <+: q → Dict.get? c ver = none) →
    Store.underOf jp ver uc [] = []
  | [], _ => rfl
  | (q, c) :: uc, hu => by
    unfold Store.underOf
    have ih := under_nothing (jp := jp) (ver := ver) (uc := uc) (fun q c hm => hu q c (List.mem_cons_of_mem _ hm))
    cases hs : Str.startsWith q jp with
    | false => exact ih
    | true =>
      obtain ⟨t, e⟩ := Str.startsWith_iff.1 hs
      rw [hu q c List.mem_cons_self ⟨t, e.symm⟩]
      exact ih

/-- Nothing below a piece that is still to be converted has been converted. -/
theorem Keeps.override (hS : Stage out main pieces live cv rl at2) {a : App Obj (World W)} (h : Keeps main live cv rl todo a.store) {q : Piece}
    (hq : q ∈ live) (hr : q ∈ todo) (o : Obj) : overrideFor o q.url (pointer q.place) a = .ok [] := by
  unfold overrideFor
  split
  · split
    · unfold Store.getUnder
      simp only [Bool.false_and, Bool.false_eq_true, if_false]
      cases h1 : Dict.get? a.store.objs q.url with
      | none => rfl
      | some uc =>
        dsimp only
        have : Store.underOf (pointer q.place) (s% "3.0.0") uc [] = [] := under_nothing (fun jp c hm hp => by
          obtain ⟨q', g1, g3, rfl, g4⟩ := h.only q.url uc ⟨q, hq, rfl⟩ h1 jp c hm
          have := apart_self hS.app (hS.sub _ hq) (hS.sub _ g1) g3.symm hp
          subst this
          rcases g4 with g4 | g4
          · rw [g4]; rfl
          · exact absurd hr g4)
        split
        · rename_i h2
          split at h2 <;> cases h2
        · rename_i ov x h2
          split at h2
          · cases h2; rfl
          · rw [this] at h2
            cases h2; rfl
    · rfl
  · rfl

theorem Keeps.set2 {st : Store Obj} (h : Keeps main live cv rl todo st) {q : Piece} (hq : q ∈ live) : st.set q.obj q.url (pointer q.place) (s% "2.0") = st := by
  obtain ⟨uc, h1, cache, h2, h3, h4⟩ := h.stored q hq
  refine set_again h1 h2 ?_
  by_cases hm : q ∈ todo
  · rw [h3 hm]; rfl
  · rw [h4 hm]; rfl

theorem Keeps.set3 {st : Store Obj} (h : Keeps main live cv rl todo st) {q : Piece} (hq : q ∈ live) (hr : q ∉ todo) :
    st.set (cv q) q.url (pointer q.place) (s% "3.0.0") = st := by
  obtain ⟨uc, h1, cache, h2, _, h4⟩ := h.stored q hq
  exact set_again h1 h2 (by rw [h4 hr]; rfl)

/-- References into the pieces move nowhere; those into the main document as its routes tell. -/
theorem Keeps.relocate {st : Store Obj} (h : Keeps main live cv rl todo st) {q : Piece} (hq : q ∈ live) (hne : q ≠ main) (jp : Str) :
    st.relocate q.url jp (s% "2.0") (s% "2.0") = .ok jp ∧ st.relocate q.url jp (s% "2.0") (s% "3.0.0") = .ok jp := by
  rcases h.routes q hq hne with h | ⟨r2, r3, h, h3⟩
  · unfold Store.relocate
    rw [h]
    exact ⟨rfl, rfl⟩
  · obtain ⟨h1, h2, _⟩ := relocate_at h jp
    exact ⟨h1, by rw [h2, patch_empty h3]⟩

theorem Keeps.relocateMain {st : Store Obj} (h : Keeps main live cv rl todo st) (hm : main ∉ todo) (jp : Str) :
    st.relocate main.url jp (s% "2.0") (s% "3.0.0") = .ok (patchJp jp [(['#'], .nested rl)]) := by
  obtain ⟨r2, _, h⟩ := h.routesMain
  exact (relocate_at (h hm) jp).2.1

/-- The objects of the store, when one piece more has been converted. -/
theorem Keeps.put {st : Store Obj} (h : Keeps main live cv rl todo st) (hS : Stage out main pieces live cv rl at2) {p : Piece} (hp : p ∈ live)
    (hr : p ∈ todo) :
    (∀ u uc, (∃ p ∈ live, p.url = u) → Dict.get? (st.set (cv p) p.url (pointer p.place) (s% "3.0.0")).objs u = some uc → ∀ jp cache, (jp, cache) ∈ uc →
      ∃ q ∈ live, q.url = u ∧ jp = pointer q.place ∧ (cache = [(s% "2.0", q.obj)] ∨ q ∉ without todo p)) ∧
    (∀ q ∈ live, ∃ uc, Dict.get? (st.set (cv p) p.url (pointer p.place) (s% "3.0.0")).objs q.url = some uc ∧ ∃ cache,
      Dict.get? uc (pointer q.place) = some cache ∧ (q ∈ without todo p → cache = [(s% "2.0", q.obj)]) ∧
      (q ∉ without todo p → cache = [(s% "2.0", q.obj), (s% "3.0.0", cv q)])) := by
  obtain ⟨uc0, h1, cache0, h2, h3, _⟩ := h.stored p hp
  have hc := h3 hr
  subst hc
  have hobjs : (st.set (cv p) p.url (pointer p.place) (s% "3.0.0")).objs =
      Dict.set st.objs p.url (Dict.set uc0 (pointer p.place) [(s% "2.0", p.obj), (s% "3.0.0", cv p)]) := by
    unfold Store.set
    simp only [h1, Option.getD_some, h2]
    rfl
  have hout : p ∉ without todo p := fun hw => (mem_without.1 hw).2 rfl
  constructor
  · intro u uc hu hg jp cache hm
    rw [hobjs, Dict.get?_set] at hg
    split at hg
    · rename_i e
      subst e
      cases hg
      rcases Dict.mem_set hm with e | hm
      · cases e
        exact ⟨p, hp, rfl, rfl, .inr hout⟩
      · obtain ⟨q, g1, g2, g3, g4⟩ := h.only _ _ hu h1 jp cache hm
        exact ⟨q, g1, g2, g3, g4.imp_right (fun g hw => g (mem_without.1 hw).1)⟩
    · obtain ⟨q, g1, g2, g3, g4⟩ := h.only _ _ hu hg jp cache hm
      exact ⟨q, g1, g2, g3, g4.imp_right (fun g hw => g (mem_without.1 hw).1)⟩
  · intro q hq
    rw [hobjs, Dict.get?_set]
    by_cases e : q = p
    · subst e
      exact ⟨_, if_pos rfl, _, Dict.get?_set_self _ _ _, fun hw => absurd hw hout, fun _ => rfl⟩
    · obtain ⟨uc, g1, cache, g2, g3, g4⟩ := h.stored q hq
      have hin : q ∈ without todo p ↔ q ∈ todo := ⟨fun hw => (mem_without.1 hw).1, fun hm => mem_without.2 ⟨hm, e⟩⟩
      by_cases eu : p.url = q.url
      · refine ⟨_, if_pos eu, cache, ?_, fun hw => g3 (hin.1 hw), fun hw => g4 (fun hm => hw (hin.2 hm))⟩
        rw [eu, g1] at h1
        cases h1
        rw [Dict.get?_set_ne _ _ ?_]
        · exact g2
        · intro ep
          exact e (apart_self hS.app (hS.sub _ hq) (hS.sub _ hp) eu.symm (by rw [ep]; exact List.prefix_refl _))
      · exact ⟨uc, by rw [if_neg eu]; exact g1, cache, g2, fun hw => g3 (hin.1 hw), fun hw => g4 (fun hm => hw (hin.2 hm))⟩

theorem table_more {st : Store Obj} {url jp ver : Str} (hvs : st.versions = [s% "1.2", s% "2.0", s% "3.0.0"])
    (hver : ver = s% "2.0" ∨ ver = s% "3.0.0") (h : Flat (Dict.get? st.routes url)) :
    ∃ r2 r3, st.updateRoutes url ver [(jp, .nested [])] =
        ({ st with routes := Dict.set st.routes url [(s% "1.2", []), (s% "2.0", r2), (s% "3.0.0", r3)] }, .ok ()) ∧ ∀ e ∈ r3, e.2 = .nested [] := by
  unfold Store.updateRoutes Store.tableFor
  rcases h with h | ⟨r2, r3, h, h3⟩
  · rw [h, hvs]
    rcases hver with rfl | rfl
    · exact ⟨[(jp, .nested [])], [], rfl, fun e he => by cases he⟩
    · exact ⟨[], [(jp, .nested [])], rfl, fun e he => by rw [List.mem_singleton.1 he]⟩
  · rw [h]
    rcases hver with rfl | rfl
    · exact ⟨Dict.set r2 jp (.nested []), r3, rfl, h3⟩
    · refine ⟨r2, Dict.set r3 jp (.nested []), rfl, fun e he => ?_⟩
      rcases Dict.mem_set he with rfl | he
      · rfl
      · exact h3 e he

/-- A piece is converted and stored. -/
theorem Keeps.next {st : Store Obj} (h : Keeps main live cv rl todo st) (hS : Stage out main pieces live cv rl at2) {p : Piece} (hp : p ∈ live)
    (hr : p ∈ todo) {r : Routes} (hr1 : p = main → r = rl) (hr2 : p ≠ main → r = []) :
    ∃ st', (st.set (cv p) p.url (pointer p.place) (s% "3.0.0")).updateRoutes p.url (s% "3.0.0") [(pointer p.place, .nested r)] = (st', .ok ()) ∧
      Keeps main live cv rl (without todo p) st' := by
  obtain ⟨h1, h2⟩ := h.put hS hp hr
  by_cases e : p = main
  · subst e
    rw [hr1 rfl]
    obtain ⟨r2, g1, _⟩ := h.routesMain
    have hpt : pointer p.place = ['#'] := by rw [hS.app.root.1]; rfl
    have := routes_next (st := st.set (cv p) p.url (pointer p.place) (s% "3.0.0")) rl (g1 hr)
    rw [hpt] at this h1 h2 ⊢
    refine ⟨_, this, h.versions, h1, h2, ⟨r2, fun hm => absurd rfl (mem_without.1 hm).2, fun _ => Dict.get?_set_self _ _ _⟩, fun q hq hne => ?_⟩
    show Flat (Dict.get? (Dict.set st.routes p.url _) q.url)
    rw [Dict.get?_set_ne _ _ (Ne.symm (hS.urlNe hq hne))]
    exact h.routes q hq hne
  · rw [hr2 e]
    obtain ⟨r2, r3, g1, g2⟩ := table_more (st := st.set (cv p) p.url (pointer p.place) (s% "3.0.0")) (url := p.url) (jp := pointer p.place)
      h.versions (.inr rfl) (h.routes p hp e)
    refine ⟨_, g1, h.versions, h1, h2, ?_, fun q hq hne => ?_⟩
    · obtain ⟨rm, k1, k2⟩ := h.routesMain
      have hin : main ∈ without todo p ↔ main ∈ todo := ⟨fun hw => (mem_without.1 hw).1, fun hm => mem_without.2 ⟨hm, Ne.symm e⟩⟩
      refine ⟨rm, fun hm => ?_, fun hm => ?_⟩
      · show Dict.get? (Dict.set st.routes p.url _) main.url = _
        rw [Dict.get?_set_ne _ _ (hS.urlNe hp e)]
        exact k1 (hin.1 hm)
      · show Dict.get? (Dict.set st.routes p.url _) main.url = _
        rw [Dict.get?_set_ne _ _ (hS.urlNe hp e)]
        exact k2 (fun hm' => hm (hin.2 hm'))
    · show Flat (Dict.get? (Dict.set st.routes p.url _) q.url)
      rw [Dict.get?_set]
      split
      · exact .inr ⟨r2, r3, rfl, g2⟩
      · exact h.routes q hq hne

/-- The routes are told once more. -/
theorem Keeps.again {st : Store Obj} (h : Keeps main live cv rl todo st) (hS : Stage out main pieces live cv rl at2) {p : Piece} (hp : p ∈ live)
    (hr : p ∉ todo) {r : Routes} (hr1 : p = main → r = rl) (hr2 : p ≠ main → r = []) :
    ∃ st', st.updateRoutes p.url (s% "3.0.0") [(pointer p.place, .nested r)] = (st', .ok ()) ∧ Keeps main live cv rl todo st' := by
  by_cases e : p = main
  · subst e
    rw [hr1 rfl]
    obtain ⟨r2, _, g1⟩ := h.routesMain
    have hpt : pointer p.place = ['#'] := by rw [hS.app.root.1]; rfl
    have := routes_again (st := st) rl (g1 hr)
    rw [hpt]
    refine ⟨_, this, h.versions, h.only, h.stored, ⟨r2, fun hm => absurd hm hr, fun _ => Dict.get?_set_self _ _ _⟩, fun q hq hne => ?_⟩
    show Flat (Dict.get? (Dict.set st.routes p.url _) q.url)
    rw [Dict.get?_set_ne _ _ (Ne.symm (hS.urlNe hq hne))]
    exact h.routes q hq hne
  · rw [hr2 e]
    obtain ⟨r2, r3, g1, g2⟩ := table_more (st := st) (url := p.url) (jp := pointer p.place) h.versions (.inr rfl) (h.routes p hp e)
    refine ⟨_, g1, h.versions, h.only, h.stored, ?_, fun q hq hne => ?_⟩
    · obtain ⟨rm, k1, k2⟩ := h.routesMain
      exact ⟨rm, fun hm => by
        show Dict.get? (Dict.set st.routes p.url _) main.url = _
        rw [Dict.get?_set_ne _ _ (hS.urlNe hp e)]; exact k1 hm, fun hm => by
        show Dict.get? (Dict.set st.routes p.url _) main.url = _
        rw [Dict.get?_set_ne _ _ (hS.urlNe hp e)]; exact k2 hm⟩
    · show Flat (Dict.get? (Dict.set st.routes p.url _) q.url)
      rw [Dict.get?_set]
      split
      · exact .inr ⟨r2, r3, rfl, g2⟩
      · exact h.routes q hq hne

/-- So are those of 2.0. -/
theorem Keeps.again2 {st : Store Obj} (h : Keeps main live cv rl todo st) (hS : Stage out main pieces live cv rl at2) {p : Piece} (hp : p ∈ live)
    (e : p ≠ main) :
    ∃ st', st.updateRoutes p.url (s% "2.0") [(pointer p.place, .nested [])] = (st', .ok ()) ∧ Keeps main live cv rl todo st' := by
  obtain ⟨r2, r3, g1, g2⟩ := table_more (st := st) (url := p.url) (jp := pointer p.place) h.versions (.inl rfl) (h.routes p hp e)
  refine ⟨_, g1, h.versions, h.only, h.stored, ?_, fun q hq hne => ?_⟩
  · obtain ⟨rm, k1, k2⟩ := h.routesMain
    exact ⟨rm, fun hm => by
      show Dict.get? (Dict.set st.routes p.url _) main.url = _
      rw [Dict.get?_set_ne _ _ (hS.urlNe hp e)]; exact k1 hm, fun hm => by
      show Dict.get? (Dict.set st.routes p.url _) main.url = _
      rw [Dict.get?_set_ne _ _ (hS.urlNe hp e)]; exact k2 hm⟩
  · show Flat (Dict.get? (Dict.set st.routes p.url _) q.url)
    rw [Dict.get?_set]
    split
    · exact .inr ⟨r2, r3, rfl, g2⟩
    · exact h.routes q hq hne

end

end Pyopenapi.Main
