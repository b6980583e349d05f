import Verif.Lemmas.Says
import Verif.Spec.Pieces
import Verif.Lemmas.Paths
import Verif.Lemmas.MainLoad
import Verif.Lemmas.MainEnv

/-!
# What an application has while it loads pieces
-/

namespace Pyopenapi

theorem Dict.set_same {κ α : Type} [DecidableEq κ] {d : DictK κ α} {k : κ} {v : α} (h : Dict.get? d k = some v) : Dict.set d k v = d := by
  induction d with
  | nil => cases h
  | cons e d ih =>
    obtain ⟨k', v'⟩ := e
    rw [Dict.get?_cons] at h
    unfold Dict.set
    split at h
    · rename_i hk
      cases h
      simp [hk]
    · rename_i hk
      rw [if_neg hk, ih h]

end Pyopenapi

namespace Pyopenapi.Main
open _root_.Pyopenapi.Spec _root_.Pyopenapi.Refs.Spec Obj

variable {W : Type}

theorem pointer_append (ts us : List Str) : pointer (ts ++ us) = pointer ts ++ tail us := by
  rw [pointer_tail, pointer_tail, tail_append]; rfl

theorem jpCompose_tail {p : Str} (hp : p ≠ []) (us : List Str) : jpCompose us (some p) = p ++ tail us := by
  cases p with
  | nil => exact absurd rfl hp
  | cons c p =>
    have h : ∀ us, pointer us = jpCompose us (some ['#']) := pointer_compose
    have h1 := h us
    rw [jpCompose_base (by simp)] at h1 ⊢
    rw [pointer_tail] at h1
    cases hm : us.map jpEncode with
    | nil => rw [hm] at h1; simp [Str.joinC] at h1 ⊢; exact h1
    | cons t us' => rw [hm] at h1; simp [Str.joinC] at h1 ⊢; exact h1.symm

theorem pointer_nonempty (ts : List Str) : pointer ts ≠ [] := by simp [pointer]

theorem tokens_tail (ts us : List Str) : (jpSplit ((pointer (ts ++ us)).drop (pointer ts).length)).drop 1 = us := by
  rw [pointer_append, ← jpCompose_tail (pointer_nonempty ts)]
  exact tokens_of_compose us _ (pointer_nonempty ts)

theorem get_one {O : Type} (ops : ObjOps O) {jp ver path : Str} {cache : Dict O} {o : O} : ∀ {uc : Dict (Dict O)},
    (∀ q c, (q, c) ∈ uc → q <+: jp → q = path) → Dict.get? uc path = some cache → Dict.get? cache ver = some o → path <+: jp →
    Store.getLoop ops jp ver uc = ops.resolve o ((jpSplit (jp.drop path.length)).drop 1)
  | [], _, h, _, _ => by cases h
  | (q, c) :: uc, hu, h, hc, hp => by
    unfold Store.getLoop
    rw [Dict.get?_cons] at h
    split at h
    · rename_i hq
      cases h
      subst hq
      have : Str.startsWith jp q = true := Str.startsWith_iff.2 (by obtain ⟨t, e⟩ := hp; exact ⟨t, e.symm⟩)
      rw [this, hc]
    · rename_i hq
      have : Str.startsWith jp q = false := by
        rw [Bool.eq_false_iff]
        intro hs
        obtain ⟨t, e⟩ := Str.startsWith_iff.1 hs
        exact hq (hu q c List.mem_cons_self ⟨t, e.symm⟩)
      rw [this]
      exact get_one ops (fun q c hm => hu q c (List.mem_cons_of_mem _ hm)) h hc hp

theorem get_nothing {O : Type} (ops : ObjOps O) {jp ver : Str} : ∀ {uc : Dict (Dict O)},
    (∀ q c, (q, c) ∈ uc → q <+: jp → Dict.get? c ver = none) → Store.getLoop ops jp ver uc = .ok none
  | [], _ => rfl
  | (q, c) :: uc, hu => by
    unfold Store.getLoop
    have ih := get_nothing ops (jp := jp) (ver := ver) (uc := uc) (fun q c hm => hu q c (List.mem_cons_of_mem _ hm))
    cases hs : Str.startsWith jp q with
    | false => exact ih
    | true =>
      obtain ⟨t, e⟩ := Str.startsWith_iff.1 hs
      rw [hu q c List.mem_cons_self ⟨t, e.symm⟩]
      exact ih

theorem without_nothing {O : Type} {jp ver : Str} : ∀ {uc : Dict (Dict O)}, (∀ q c, (q, c) ∈ uc → Dict.get? c ver = none) →
    Store.withoutUnder jp ver uc = uc
  | [], _ => rfl
  | (q, c) :: uc, hu => by
    unfold Store.withoutUnder
    rw [without_nothing (fun q c hm => hu q c (List.mem_cons_of_mem _ hm))]
    have : Dict.has c ver = false := by
      have := hu q c List.mem_cons_self
      unfold Dict.has
      rw [this]; rfl
    rw [this, Bool.and_false]
    rfl

/-- `set` of what is there. -/
theorem set_again {st : Store Obj} {o : Obj} {url jp ver : Str} {uc : Dict (Dict Obj)} {cache : Dict Obj}
    (h1 : Dict.get? st.objs url = some uc) (h2 : Dict.get? uc jp = some cache) (h3 : Dict.get? cache ver = some o) :
    st.set o url jp ver = st := by
  unfold Store.set
  simp only [h1, h2, Option.getD_some, Dict.set_same h3, Dict.set_same h2, Dict.set_same h1]

theorem version_prefix {c : Str} (h : (pkg c).version = s% "2.0") : ofVersion (s% "v2_0.") c = true := by
  unfold pkg at h
  cases hg : Dict.get? classes c with
  | none => rw [hg] at h; cases h
  | some cd =>
    rw [hg] at h
    have key : ∀ x ∈ classes, x.2.version = s% "2.0" → ofVersion (s% "v2_0.") x.1 = true := by decide +kernel
    exact key _ (Dict.mem_of_get? hg) h

theorem Piece.Good.scan {out : Outer W} {p : Piece} (h : p.Good out) : Scanned p.obj (visits p.obj) := by
  refine scanned_of ?_ h.wf h.built
  have hv := h.version
  unfold pkg at hv
  cases hg : Dict.get? classes p.cls with
  | none => rw [hg] at hv; cases hv
  | some cd =>
    rw [hg] at hv
    have key : ∀ x ∈ classes, x.2.version = s% "2.0" → noCallbacks x.1 = true := by decide +kernel
    exact key _ (Dict.mem_of_get? hg) hv

/-- What the application has of the pieces: those that are not `rest`. -/
structure Holds (main : Piece) (pieces rest : List Piece) (a : App Obj (World W)) : Prop where
  versions : a.store.versions = [s% "1.2", s% "2.0", s% "3.0.0"]
  original : a.original = s% "2.0"
  only : ∀ u uc, (∃ p, (p = main ∨ p ∈ pieces) ∧ p.url = u) → Dict.get? a.store.objs u = some uc → ∀ jp cache, (jp, cache) ∈ uc →
    ∃ q, (q = main ∨ q ∈ pieces) ∧ q ∉ rest ∧ q.url = u ∧ jp = pointer q.place ∧ cache = [(s% "2.0", q.obj)]
  stored : ∀ q, (q = main ∨ q ∈ pieces) → q ∉ rest → ∃ uc, Dict.get? a.store.objs q.url = some uc ∧
    Dict.get? uc (pointer q.place) = some [(s% "2.0", q.obj)]
  routes : ∀ u, (∃ p, (p = main ∨ p ∈ pieces) ∧ p.url = u) → Dict.get? a.store.routes u = none ∨
    ∃ r, Dict.get? a.store.routes u = some [(s% "1.2", []), (s% "2.0", r), (s% "3.0.0", [])]
  fresh : ∀ q ∈ rest, ∀ ts x, Visited [] q.obj ts x → attrsOf a.world x = {}

theorem split_ref {out : Outer W} {p : Piece} (h : p.Good out) :
    jrSplit out.ok out.path2url out.abspath p.ref = .ok (p.url, pointer p.place) := by
  rcases h.ref with e | ⟨e1, e2⟩
  · rw [e]; exact split_pointer h.url h.safe
  · rw [e2, e1]; exact split_url h.url

theorem ref_ne {out : Outer W} {p : Piece} (h : p.Good out) : p.ref ≠ [] := by
  rcases h.ref with e | ⟨_, e⟩
  · rw [e]; simp [h.url.ne]
  · rw [e]; exact h.url.ne

theorem base_of {out : Outer W} {p : Piece} (h : p.Good out) : p.obj.isBase = true := by
  obtain ⟨_, e⟩ := Refs.build_class h.built
  rw [e]; rfl

theorem apart_self {out : Outer W} {main : Piece} {pieces : List Piece} (hA : Application out main pieces) {p q : Piece}
    (hp : p = main ∨ p ∈ pieces) (hq : q = main ∨ q ∈ pieces) (hu : p.url = q.url) (h : pointer p.place <+: pointer q.place) : p = q := by
  by_cases e : p = q
  · exact e
  · exact absurd h ((hA.apart p q hp hq e).2 hu)

theorem apart_below {out : Outer W} {main : Piece} {pieces : List Piece} (hA : Application out main pieces) {p q : Piece} {us : List Str}
    (hp : p = main ∨ p ∈ pieces) (hq : q = main ∨ q ∈ pieces) (hu : p.url = q.url) (h : pointer p.place <+: pointer (q.place ++ us)) : p = q := by
  rw [pointer_append] at h
  rcases List.prefix_or_prefix_of_prefix h (List.prefix_append _ _) with h | h
  · exact apart_self hA hp hq hu h
  · exact (apart_self hA hq hp hu.symm h).symm

/-- What is in a piece the application has. -/
theorem get_stored {out : Outer W} {main : Piece} {pieces rest : List Piece} (hA : Application out main pieces) {a : App Obj (World W)}
    (h : Holds main pieces rest a) {q : Piece} (hq : q = main ∨ q ∈ pieces) (hr : q ∉ rest) (ops : ObjOps Obj) (us : List Str) :
    a.store.get ops q.url (pointer (q.place ++ us)) (s% "2.0") = ops.resolve q.obj us := by
  obtain ⟨uc, h1, h2⟩ := h.stored q hq hr
  unfold Store.get
  rw [h1]
  show Store.getLoop _ _ _ _ = _
  rw [get_one ops (path := pointer q.place) (cache := [(s% "2.0", q.obj)]) (o := q.obj) ?_ h2 rfl ⟨tail us, (pointer_append _ _).symm⟩, tokens_tail]
  intro jp c hm hp
  obtain ⟨q', g1, g2, g3, rfl, _⟩ := h.only q.url uc ⟨q, hq, rfl⟩ h1 jp c hm
  rw [apart_below hA g1 hq g3 hp]

/-- A piece the application does not have yet. -/
theorem get_missing {out : Outer W} {main : Piece} {pieces rest : List Piece} (hA : Application out main pieces) {a : App Obj (World W)}
    (h : Holds main pieces rest a) {q : Piece} (hq : q = main ∨ q ∈ pieces) (hr : q ∈ rest) (ops : ObjOps Obj) (ver : Str) :
    a.store.get ops q.url (pointer q.place) ver = .ok none := by
  unfold Store.get
  cases h1 : Dict.get? a.store.objs q.url with
  | none => rfl
  | some uc =>
    refine get_nothing ops (fun jp c hm hp => ?_)
    obtain ⟨q', g1, g2, g3, rfl, _⟩ := h.only q.url uc ⟨q, hq, rfl⟩ h1 jp c hm
    exact absurd (apart_self hA g1 hq g3 hp ▸ hr) g2

theorem get_novers {main : Piece} {pieces rest : List Piece} {a : App Obj (World W)}
    (h : Holds main pieces rest a) {q : Piece} (hq : q = main ∨ q ∈ pieces) (dummy : Bool) :
    a.store.getUnder q.url (pointer q.place) [] dummy = .ok ((Dict.get? a.store.objs q.url).bind (fun uc =>
      if uc.isEmpty then none else some (Store.underOf (pointer q.place) [] uc [])), a.store) := by
  unfold Store.getUnder
  have : (pointer q.place).isEmpty = false := rfl
  simp only [this, Bool.and_false, Bool.false_eq_true, if_false, if_true]
  cases h1 : Dict.get? a.store.objs q.url with
  | none => rfl
  | some uc =>
    dsimp only [Option.bind]
    cases dummy with
    | false => split <;> rfl
    | true =>
    split
    · rfl
    · simp only [if_true]
      rw [without_nothing (fun jp c hm => by
        obtain ⟨q', _, _, _, _, e⟩ := h.only q.url uc ⟨q, hq, rfl⟩ h1 jp c hm
        rw [e]; rfl), Dict.set_same h1]

theorem truthy_base {x : Obj} (h : x.isBase = true) : x.truthy = true ∧ x.isPrim = false := by
  cases x <;> first | exact ⟨rfl, rfl⟩ | cases h

/-- A reference into a piece the application has. -/
theorem stored_found {out : Outer W} {main : Piece} {pieces rest : List Piece} (hA : Application out main pieces) {a : App Obj (World W)}
    (h : Holds main pieces rest a) {q : Piece} (hq : q = main ∨ q ∈ pieces) (hr : q ∉ rest)
    (up : Str → Obj → Str → App Obj (World W) → R (Obj × Routes) × App Obj (World W)) : q.Found (appWith out up) a := by
  intro us x parser to dummy hs hx hto
  have hu := (hA.good q hq).url
  have hg : a.store.get ((appWith out up).ops a.world) q.url (pointer (q.place ++ us)) (s% "2.0") = .ok (some x) :=
    (get_stored hA h hq hr _ us).trans (resolveObject_at hx)
  have hne : q.url ++ pointer (q.place ++ us) ≠ [] := by simp [hu.ne]
  obtain ⟨ht, hp⟩ := truthy_base hx.2
  have hp : (appWith out up).isPrim x = false := hp
  rcases hto with rfl | rfl
  · unfold App.resolveObj
    rw [if_neg hne]
    simp only [show (appWith out up).split (q.url ++ pointer (q.place ++ us)) = .ok (q.url, pointer (q.place ++ us)) from split_pointer hu hs,
      hu.ne, if_false, ne_eq, not_true_eq_false, hg, hp]
    rfl
  · rw [C66_cached (appWith out up) _ (s% "2.0") parser (s% "2.0") dummy a q.url _ (pointer (q.place ++ us)) x hne (by decide) (split_pointer hu hs)
      hu.ne (.inr ⟨rfl, rfl⟩) hg, hp]
    rfl

/-- The reference of a piece the application has. -/
theorem stored_ref {out : Outer W} {main : Piece} {pieces rest : List Piece} (hA : Application out main pieces) {a : App Obj (World W)}
    (h : Holds main pieces rest a) {q : Piece} (hq : q = main ∨ q ∈ pieces) (hr : q ∉ rest)
    (up : Str → Obj → Str → App Obj (World W) → R (Obj × Routes) × App Obj (World W)) (b : Builder) (dummy : Bool) (to : Option Str)
    (hto : to = none ∨ to = some (s% "2.0")) :
    resolveIn (appWith out up) dummy (s% "2.0") to q.ref b a = (.ok (some (q.obj, q.url ++ pointer q.place)), a) := by
  have hg := hA.good q hq
  have hb := base_of hg
  have hat : At q.obj [] q.obj := ⟨rfl, hb⟩
  obtain ⟨ht, hp⟩ := truthy_base hb
  have hp : (appWith out up).isPrim q.obj = false := hp
  have hget : a.store.get ((appWith out up).ops a.world) q.url (pointer q.place) (s% "2.0") = .ok (some q.obj) := by
    have := (get_stored hA h hq hr ((appWith out up).ops a.world) []).trans (resolveObject_at hat)
    rwa [List.append_nil] at this
  unfold resolveIn App.resolveObj
  rw [if_neg (ref_ne hg)]
  rcases hto with rfl | rfl
  · simp only [show (appWith out up).split q.ref = .ok (q.url, pointer q.place) from split_ref hg, hg.url.ne, if_false, ne_eq,
      not_true_eq_false, hget, hp, ht, if_true, Bool.false_eq_true]
  · dsimp only
    rw [if_neg (by decide)]
    simp only [show (appWith out up).split q.ref = .ok (q.url, pointer q.place) from split_ref hg, hg.url.ne, if_false, ne_eq,
      not_true_eq_false, hget, hp, ht, if_true, Bool.false_eq_true]

/-- Loading a piece. -/
def put (out : Outer W) (a : App Obj (World W)) (q : Piece) : App Obj (World W) :=
  { a with
    store := a.store.set q.obj q.url (pointer q.place) (s% "2.0")
    world := { a.world with rest := (out.fetch q.ref a.world.rest).2 } }

/-- The piece is what a parser makes of its content. -/
def Parses (b : Builder) (q : Piece) : Prop :=
  b = .cls q.cls ∨ ∃ r d, b = .ifNotRef r (.cls q.cls) ∧ q.json = .obj d ∧ Dict.get? d (s% "$ref") = none

/-- The places for references inside what a builder makes: how deep, the class of references, the builder of others. -/
def slots : Nat → Builder → List (Nat × Str × Builder)
  | n, .ifNotRef r b => [(n, r, b)]
  | n, .ifNotBool b => slots n b
  | n, .listOf b | n, .mapOf b => slots (n + 1) b
  | _, _ => []

theorem builderAt_slots {b b' : Builder} {us : List Str} {r : Str} (h : BuilderAt b us b') : ∀ {b0 : Builder}, b' = .ifNotRef r b0 →
    ∀ n, (n + us.length, r, b0) ∈ slots n b := by
  induction h with
  | here => rintro b0 rfl n; simp [slots]
  | bool _ ih => intro b0 e n; exact ih e n
  | elem _ ih => intro b0 e n; have := ih e (n + 1); simpa [slots, Nat.add_assoc, Nat.add_comm 1] using this
  | entry _ ih => intro b0 e n; have := ih e (n + 1); simpa [slots, Nat.add_assoc, Nat.add_comm 1] using this

theorem slots_v2 {c k : Str} {cd : ChildDef} (hc : ofVersion (s% "v2_0.") c = true) (hm : (k, cd) ∈ (pkg c).children) :
    ∀ x ∈ slots 0 cd.builder, x = (1, s% "v2_0.Reference", .cls (s% "v2_0.Parameter")) ∧ k = s% "parameters" ∨
      x = (1, s% "v2_0.Reference", .cls (s% "v2_0.Response")) ∧ k = s% "responses" := by
  have h := pkg_children (p := fun c kc => !ofVersion (s% "v2_0.") c || (slots 0 kc.2.builder).all (fun x =>
    decide (x = (1, s% "v2_0.Reference", .cls (s% "v2_0.Parameter")) ∧ kc.1 = s% "parameters" ∨
      x = (1, s% "v2_0.Reference", .cls (s% "v2_0.Response")) ∧ kc.1 = s% "responses"))) (by decide +kernel) c
  have h := List.all_eq_true.1 h _ hm
  simp only [hc, Bool.not_true, Bool.false_or] at h
  intro x hx
  exact of_decide_eq_true (List.all_eq_true.1 h x hx)

theorem class_v2 {out : Outer W} {p : Piece} (hg : p.Good out) {ts : List Str} {c : Str} {q : Option Str} {s : Json} {kids : Dict Obj}
    (hv : Visited [] p.obj ts (.base c q s kids)) : ofVersion (s% "v2_0.") c = true := by
  obtain ⟨b, j, p', hb, hw, hbuild⟩ := Refs.loaded_visited closed_v2 (T := pkg) (o := p.obj)
    ⟨_, _, _, by simpa [within] using version_prefix hg.version, hg.wf, hg.built⟩ hv
  obtain ⟨_, _, h3, _⟩ := build_inv closed_v2 hb hbuild
  simpa [within] using h3

/-- A piece of the class that is expected is what the parser makes. -/
theorem suits_parses {out : Outer W} {p q : Piece} (hg : p.Good out) (hq : q.Good out) {ts : List Str} {x : Obj} {r : Str} {b : Builder}
    (hv : Visited [] p.obj ts x) (hr : Refers Refs.normClasses2 x r) (he : Expected p.obj ts b) (hb : ∃ j q', build pkg b j q' [] = .ok x)
    (h : q.Suits ts x) : Parses b q := by
  obtain ⟨c, q0, d, kids, rfl, hc, hd, hne⟩ := hr
  cases he with
  | @self _ c' _ _ _ hv' hc' =>
    have e := Refs.scanned_unique hg.scan hv hv'
    cases e
    rcases h with h | ⟨h, _⟩
    · simp only [className?, Option.some.injEq] at h
      exact .inl (by rw [h])
    · simp only [className?, Option.some.injEq] at h
      exact absurd (by simp [h]) hc'
  | @slot ts0 us c0 k r0 _ _ _ cd b0 hv0 hm hat =>
    obtain ⟨j, q', hb⟩ := hb
    rw [build_ifNotRef] at hb
    have hx := slots_v2 (class_v2 hg hv0) hm _ (builderAt_slots hat rfl 0)
    rw [Nat.zero_add] at hx
    have hus : us.length = 1 ∧ r0 = s% "v2_0.Reference" := by
      rcases hx with ⟨e, _⟩ | ⟨e, _⟩ <;> (simp only [Prod.mk.injEq] at e; exact ⟨e.1, e.2.1⟩)
    obtain ⟨hl, rfl⟩ := hus
    obtain ⟨i, rfl⟩ := List.length_eq_one_iff.1 hl
    rcases h with h | ⟨h, hnr, h'⟩
    · exfalso
      simp only [className?, Option.some.injEq] at h
      have hj : j = .obj d := by
        split at hb
        · cases hb
        · obtain ⟨_, e⟩ := Refs.build_class hb
          cases e; rfl
        · rcases hx with ⟨e, _⟩ | ⟨e, _⟩ <;>
          · simp only [Prod.mk.injEq, List.length_singleton] at e
            obtain ⟨_, _, rfl⟩ := e
            obtain ⟨_, e⟩ := Refs.build_class hb
            cases e; rfl
      subst hj
      have hh : specHas (.obj d) (s% "$ref") = .ok true := by
        show Except.ok (Dict.has d (s% "$ref")) = _
        unfold Dict.has
        rw [hd]; rfl
      rw [hh] at hb
      obtain ⟨_, e⟩ := Refs.build_class hb
      cases e
      exact hq.class_ h.symm
    · obtain ⟨d', e1, e2⟩ := hnr
      refine .inr ⟨s% "v2_0.Reference", d', ?_, e1, e2⟩
      have hend : ∀ {us' : List Str} {k' i' : Str}, ts0 ++ [k, i] = us' ++ [k', i'] → k = k' := by
        intro us' k' i' e
        have e := congrArg List.reverse e
        simp only [List.reverse_append, List.reverse_cons, List.reverse_nil, List.nil_append, List.cons_append, List.cons.injEq] at e
        exact e.2.1
      rcases h' with ⟨hcl, us', i', e⟩ | ⟨hcl, us', i', e⟩
      · have hk := hend e
        rcases hx with ⟨e, _⟩ | ⟨e, hk'⟩
        · simp only [Prod.mk.injEq, List.length_singleton] at e
          rw [e.2.2, hcl]
        · rw [hk'] at hk; exact absurd hk (by decide)
      · have hk := hend e
        rcases hx with ⟨e, hk'⟩ | ⟨e, _⟩
        · rw [hk'] at hk; exact absurd hk (by decide)
        · simp only [Prod.mk.injEq, List.length_singleton] at e
          rw [e.2.2, hcl]

theorem suits_built {out : Outer W} {b : Builder} {q : Piece} (hg : q.Good out) (h : Parses b q) :
    build pkg b q.json (some q.ref) [] = .ok q.obj := by
  rcases h with rfl | ⟨r, d, rfl, e, hd⟩
  · exact hg.built
  · rw [build_ifNotRef, e]
    have := hg.built
    rw [e] at this
    have hh : specHas (.obj d) (s% "$ref") = .ok false := by
      show Except.ok (Dict.has d (s% "$ref")) = _
      unfold Dict.has
      rw [hd]; rfl
    rw [hh]
    exact this

theorem load_piece {out : Outer W} {main : Piece} {pieces rest : List Piece} (hA : Application out main pieces) {a : App Obj (World W)}
    (h : Holds main pieces rest a) {q : Piece} (hq : q ∈ pieces) (hr : q ∈ rest)
    (up : Str → Obj → Str → App Obj (World W) → R (Obj × Routes) × App Obj (World W)) {b : Builder} (hb : Parses b q) (dummy : Bool) :
    App.loadObj (appWith out up) q.ref (some (fun j path w => (build pkg b j (some path) [], w))) dummy a = (.ok q.obj, put out a q) := by
  have hg := hA.good q (.inr hq)
  have hs := hA.served q hq
  unfold App.loadObj
  have hf : (appWith out up).fetch q.ref a.world = (.ok q.json, { a.world with rest := (out.fetch q.ref a.world.rest).2 }) := by
    show ((out.fetch q.ref a.world.rest).1, _) = _
    rw [hs.fetch]
  rw [hf]
  dsimp only
  rw [specVersion_says hs.part]
  dsimp only
  rw [show (appWith out up).split q.ref = .ok (q.url, pointer q.place) from split_ref hg]
  dsimp only [Option.getD_none]
  rw [get_missing hA h (.inr hq) hr, get_novers h (.inr hq) dummy]
  dsimp only [Option.filter]
  have hv : (appWith out up).versionOf q.obj = .ok (s% "2.0") := by
    show versionOf q.obj = _
    rw [(version_of hg.built).2, hg.version]
  have hroot : (appWith out up).isRoot q.obj = false := by
    show (match q.obj.className? with | some c => _ | none => false) = false
    rw [(version_of hg.built).1]
    have h1 : q.cls ≠ s% "v1_2.ResourceListing" := by
      intro e; have := hg.version; rw [e] at this; exact absurd this (by decide)
    have h2 : q.cls ≠ s% "v3_0_0.OpenApi" := by
      intro e; have := hg.version; rw [e] at this; exact absurd this (by decide)
    simp [h1, h2, hs.notRoot]
  unfold App.build
  dsimp only
  rw [suits_built hg hb]
  dsimp only
  rw [hv]
  dsimp only
  have ht := (truthy_base (base_of hg)).1
  rw [if_neg (by show ¬ (q.obj.truthy = false); rw [ht]; decide), hroot]
  rfl

end Pyopenapi.Main
