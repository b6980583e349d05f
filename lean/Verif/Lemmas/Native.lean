import Verif.Lemmas.Says
import Verif.Lemmas.Pieces
import Verif.Spec.Native
import Verif.Lemmas.MainRun

/-!
# What a 3.0.0 application has while it loads pieces
-/

namespace Pyopenapi.Main.Native
open _root_.Pyopenapi.Spec _root_.Pyopenapi.Refs.Spec Obj

variable {W : Type}

theorem Good.scan {out : Outer W} {p : Piece} (h : Good out p) : Scanned p.obj (visits p.obj) :=
  Refs.scanned_walk (loaded_keyed okTable_pkg closed_all ⟨_, p.json, _, trivial, h.wf, h.built⟩) h.noMix

/-- What the application has of the pieces: those that are not `rest`. -/
structure Holds (main : Piece) (pieces rest : List Piece) (a : App Obj (World W)) : Prop where
  versions : a.store.versions = [s% "1.2", s% "2.0", s% "3.0.0"]
  original : a.original = s% "3.0.0"
  only : ∀ u uc, (∃ p, (p = main ∨ p ∈ pieces) ∧ p.url = u) → Dict.get? a.store.objs u = some uc → ∀ jp cache, (jp, cache) ∈ uc →
    ∃ q, (q = main ∨ q ∈ pieces) ∧ q ∉ rest ∧ q.url = u ∧ jp = pointer q.place ∧ cache = [(s% "3.0.0", q.obj)]
  stored : ∀ q, (q = main ∨ q ∈ pieces) → q ∉ rest → ∃ uc, Dict.get? a.store.objs q.url = some uc ∧
    Dict.get? uc (pointer q.place) = some [(s% "3.0.0", q.obj)]
  routes : ∀ u, (∃ p, (p = main ∨ p ∈ pieces) ∧ p.url = u) → Dict.get? a.store.routes u = none ∨
    ∃ r, Dict.get? a.store.routes u = some [(s% "1.2", []), (s% "2.0", []), (s% "3.0.0", r)]
  fresh : ∀ q ∈ rest, ∀ ts x, Visited [] q.obj ts x → attrsOf a.world x = {}

theorem split_ref {out : Outer W} {p : Piece} (h : Good out p) :
    jrSplit out.ok out.path2url out.abspath p.ref = .ok (p.url, pointer p.place) := by
  rcases h.ref with e | ⟨e1, e2⟩
  · rw [e]; exact split_pointer h.url h.safe
  · rw [e2, e1]; exact split_url h.url

theorem ref_ne {out : Outer W} {p : Piece} (h : Good out p) : p.ref ≠ [] := by
  rcases h.ref with e | ⟨_, e⟩
  · rw [e]; simp [h.url.ne]
  · rw [e]; exact h.url.ne

theorem base_of {out : Outer W} {p : Piece} (h : Good out p) : p.obj.isBase = true := by
  obtain ⟨_, e⟩ := Refs.build_class h.built
  rw [e]; rfl

theorem apart_self {out : Outer W} {main : Piece} {pieces : List Piece} (hA : Application out main pieces) {p q : Piece}
    (hp : p = main ∨ p ∈ pieces) (hq : q = main ∨ q ∈ pieces) (hu : p.url = q.url) (h : pointer p.place <+: pointer q.place) : p = q := by
  by_cases e : p = q
  · exact e
  · exact absurd h ((hA.apart p q hp hq e).2 hu)

theorem apart_below {out : Outer W} {main : Piece} {pieces : List Piece} (hA : Application out main pieces) {p q : Piece} {us : List Str}
    (hp : p = main ∨ p ∈ pieces) (hq : q = main ∨ q ∈ pieces) (hu : p.url = q.url) (h : pointer p.place <+: pointer (q.place ++ us)) : p = q := by
  rw [pointer_append] at h
  rcases List.prefix_or_prefix_of_prefix h (List.prefix_append _ _) with h | h
  · exact apart_self hA hp hq hu h
  · exact (apart_self hA hq hp hu.symm h).symm

/-- What is in a piece the application has. -/
theorem get_stored {out : Outer W} {main : Piece} {pieces rest : List Piece} (hA : Application out main pieces) {a : App Obj (World W)}
    (h : Holds main pieces rest a) {q : Piece} (hq : q = main ∨ q ∈ pieces) (hr : q ∉ rest) (ops : ObjOps Obj) (us : List Str) :
    a.store.get ops q.url (pointer (q.place ++ us)) (s% "3.0.0") = ops.resolve q.obj us := by
  obtain ⟨uc, h1, h2⟩ := h.stored q hq hr
  unfold Store.get
  rw [h1]
  show Store.getLoop _ _ _ _ = _
  rw [get_one ops (path := pointer q.place) (cache := [(s% "3.0.0", q.obj)]) (o := q.obj) ?_ h2 rfl ⟨tail us, (pointer_append _ _).symm⟩, tokens_tail]
  intro jp c hm hp
  obtain ⟨q', g1, g2, g3, rfl, _⟩ := h.only q.url uc ⟨q, hq, rfl⟩ h1 jp c hm
  rw [apart_below hA g1 hq g3 hp]

/-- A piece the application does not have yet. -/
theorem get_missing {out : Outer W} {main : Piece} {pieces rest : List Piece} (hA : Application out main pieces) {a : App Obj (World W)}
    (h : Holds main pieces rest a) {q : Piece} (hq : q = main ∨ q ∈ pieces) (hr : q ∈ rest) (ops : ObjOps Obj) (ver : Str) :
    a.store.get ops q.url (pointer q.place) ver = .ok none := by
  unfold Store.get
  cases h1 : Dict.get? a.store.objs q.url with
  | none => rfl
  | some uc =>
    refine get_nothing ops (fun jp c hm hp => ?_)
    obtain ⟨q', g1, g2, g3, rfl, _⟩ := h.only q.url uc ⟨q, hq, rfl⟩ h1 jp c hm
    exact absurd (apart_self hA g1 hq g3 hp ▸ hr) g2

theorem get_novers {main : Piece} {pieces rest : List Piece} {a : App Obj (World W)}
    (h : Holds main pieces rest a) {q : Piece} (hq : q = main ∨ q ∈ pieces) (dummy : Bool) :
    a.store.getUnder q.url (pointer q.place) [] dummy = .ok ((Dict.get? a.store.objs q.url).bind (fun uc =>
      if uc.isEmpty then none else some (Store.underOf (pointer q.place) [] uc [])), a.store) := by
  unfold Store.getUnder
  have : (pointer q.place).isEmpty = false := rfl
  simp only [this, Bool.and_false, Bool.false_eq_true, if_false, if_true]
  cases h1 : Dict.get? a.store.objs q.url with
  | none => rfl
  | some uc =>
    dsimp only [Option.bind]
    cases dummy with
    | false => split <;> rfl
    | true =>
    split
    · rfl
    · simp only [if_true]
      rw [without_nothing (fun jp c hm => by
        obtain ⟨q', _, _, _, _, e⟩ := h.only q.url uc ⟨q, hq, rfl⟩ h1 jp c hm
        rw [e]; rfl), Dict.set_same h1]

/-- A reference into a piece the application has. -/
theorem stored_found {out : Outer W} {main : Piece} {pieces rest : List Piece} (hA : Application out main pieces) {a : App Obj (World W)}
    (h : Holds main pieces rest a) {q : Piece} (hq : q = main ∨ q ∈ pieces) (hr : q ∉ rest)
    (up : Str → Obj → Str → App Obj (World W) → R (Obj × Routes) × App Obj (World W)) : Found q (appWith out up) a := by
  intro us x parser to dummy hs hx hto
  have hu := (hA.good q hq).url
  have hg : a.store.get ((appWith out up).ops a.world) q.url (pointer (q.place ++ us)) (s% "3.0.0") = .ok (some x) :=
    (get_stored hA h hq hr _ us).trans (resolveObject_at hx)
  have hne : q.url ++ pointer (q.place ++ us) ≠ [] := by simp [hu.ne]
  obtain ⟨ht, hp⟩ := truthy_base hx.2
  have hp : (appWith out up).isPrim x = false := hp
  rcases hto with rfl | rfl
  · unfold App.resolveObj
    rw [if_neg hne]
    simp only [show (appWith out up).split (q.url ++ pointer (q.place ++ us)) = .ok (q.url, pointer (q.place ++ us)) from split_pointer hu hs,
      hu.ne, if_false, ne_eq, not_true_eq_false, hg, hp]
    rfl
  · rw [C66_cached (appWith out up) _ (s% "3.0.0") parser (s% "3.0.0") dummy a q.url _ (pointer (q.place ++ us)) x hne (by decide) (split_pointer hu hs)
      hu.ne (.inr ⟨rfl, rfl⟩) hg, hp]
    rfl

/-- The reference of a piece the application has. -/
theorem stored_ref {out : Outer W} {main : Piece} {pieces rest : List Piece} (hA : Application out main pieces) {a : App Obj (World W)}
    (h : Holds main pieces rest a) {q : Piece} (hq : q = main ∨ q ∈ pieces) (hr : q ∉ rest)
    (up : Str → Obj → Str → App Obj (World W) → R (Obj × Routes) × App Obj (World W)) (b : Builder) (dummy : Bool) (to : Option Str)
    (hto : to = none ∨ to = some (s% "3.0.0")) :
    resolveIn (appWith out up) dummy (s% "3.0.0") to q.ref b a = (.ok (some (q.obj, q.url ++ pointer q.place)), a) := by
  have hg := hA.good q hq
  have hb := base_of hg
  have hat : At q.obj [] q.obj := ⟨rfl, hb⟩
  obtain ⟨ht, hp⟩ := truthy_base hb
  have hp : (appWith out up).isPrim q.obj = false := hp
  have hget : a.store.get ((appWith out up).ops a.world) q.url (pointer q.place) (s% "3.0.0") = .ok (some q.obj) := by
    have := (get_stored hA h hq hr ((appWith out up).ops a.world) []).trans (resolveObject_at hat)
    rwa [List.append_nil] at this
  unfold resolveIn App.resolveObj
  rw [if_neg (ref_ne hg)]
  rcases hto with rfl | rfl
  · simp only [show (appWith out up).split q.ref = .ok (q.url, pointer q.place) from split_ref hg, hg.url.ne, if_false, ne_eq,
      not_true_eq_false, hget, hp, ht, if_true, Bool.false_eq_true]
  · dsimp only
    rw [if_neg (by decide)]
    simp only [show (appWith out up).split q.ref = .ok (q.url, pointer q.place) from split_ref hg, hg.url.ne, if_false, ne_eq,
      not_true_eq_false, hget, hp, ht, if_true, Bool.false_eq_true]

/-- Loading a piece. -/
def put (out : Outer W) (a : App Obj (World W)) (q : Piece) : App Obj (World W) :=
  { a with
    store := a.store.set q.obj q.url (pointer q.place) (s% "3.0.0")
    world := { a.world with rest := (out.fetch q.ref a.world.rest).2 } }

/-- The piece is what a parser makes of its content. -/
def Parses (b : Builder) (q : Piece) : Prop := build pkg b q.json (some q.ref) [] = .ok q.obj

theorem load_piece {out : Outer W} {main : Piece} {pieces rest : List Piece} (hA : Application out main pieces) {a : App Obj (World W)}
    (h : Holds main pieces rest a) {q : Piece} (hq : q ∈ pieces) (hr : q ∈ rest)
    (up : Str → Obj → Str → App Obj (World W) → R (Obj × Routes) × App Obj (World W)) {b : Builder} (hb : Parses b q) (dummy : Bool) :
    App.loadObj (appWith out up) q.ref (some (fun j path w => (build pkg b j (some path) [], w))) dummy a = (.ok q.obj, put out a q) := by
  have hg := hA.good q (.inr hq)
  have hs := hA.served q hq
  unfold App.loadObj
  have hf : (appWith out up).fetch q.ref a.world = (.ok q.json, { a.world with rest := (out.fetch q.ref a.world.rest).2 }) := by
    show ((out.fetch q.ref a.world.rest).1, _) = _
    rw [hs.fetch]
  rw [hf]
  dsimp only
  rw [specVersion_says hs.part]
  dsimp only
  rw [show (appWith out up).split q.ref = .ok (q.url, pointer q.place) from split_ref hg]
  dsimp only [Option.getD_none]
  rw [get_missing hA h (.inr hq) hr, get_novers h (.inr hq) dummy]
  dsimp only [Option.filter]
  have hv : (appWith out up).versionOf q.obj = .ok (s% "3.0.0") := by
    show versionOf q.obj = _
    rw [(version_of hg.built).2, hg.version]
  have hroot : (appWith out up).isRoot q.obj = false := by
    show (match q.obj.className? with | some c => _ | none => false) = false
    rw [(version_of hg.built).1]
    have h1 : q.cls ≠ s% "v1_2.ResourceListing" := by
      intro e; have := hg.version; rw [e] at this; exact absurd this (by decide)
    have h2 : q.cls ≠ s% "v2_0.Swagger" := by
      intro e; have := hg.version; rw [e] at this; exact absurd this (by decide)
    simp [h1, h2, hs.notRoot]
  unfold App.build
  dsimp only
  rw [show build pkg b q.json (some q.ref) [] = .ok q.obj from hb]
  dsimp only
  rw [hv]
  dsimp only
  have ht := (truthy_base (base_of hg)).1
  rw [if_neg (by show ¬ (q.obj.truthy = false); rw [ht]; decide), hroot]
  rfl

end Pyopenapi.Main.Native
