import Verif.Lemmas.Native
import Verif.Lemmas.MainDoc
import Verif.Lemmas.PiecesRun

/-!
# Loading and migrating pieces of 3.0.0, and those they refer to
-/

namespace Pyopenapi.Main.Native
open _root_.Pyopenapi.Spec _root_.Pyopenapi.Refs.Spec Obj

variable {W : Type}

/-- The objects of the piece know what they refer to, and the application has it. -/
def KnownIn (out : Outer W) (main : Piece) (pieces rest : List Piece) (w : World W) (p : Piece) : Prop :=
  ∀ ts x, Visited [] p.obj ts x →
    (∀ r, Refers Refs.normClasses3 x r → ∃ n q us y, normalizeJr out.ok (some r) (some p.url) = .ok (some n) ∧
      (q = main ∨ q ∈ pieces) ∧ q ∉ rest ∧ LeadsTo main p n q us y ∧
      attrsOf w x = { normalized := some (q.url ++ pointer (q.place ++ us)), refObj := some y, newRef := some (Rewritten r q us) }) ∧
    ((∀ r, ¬ Refers Refs.normClasses3 x r) → attrsOf w x = {})

/-- What the upgrade of a piece does. -/
def Done (out : Outer W) (main : Piece) (pieces rest : List Piece) (w : World W) (p : Piece) : Prop :=
  KnownIn out main pieces rest w p ∧ Merged p out main pieces w

/-- The objects of the piece know their absolute references, as they are made from the `$ref`, or as they are written anew. -/
def NormAt (out : Outer W) (main : Piece) (pieces rest : List Piece) (w : World W) (p : Piece) : Prop :=
  ∀ ts x, Visited [] p.obj ts x →
    (∀ r, Refers Refs.normClasses3 x r → ∃ n, normalizeJr out.ok (some r) (some p.url) = .ok (some n) ∧
      ((attrsOf w x).normalized = some n ∨ ∃ q us y, (q = main ∨ q ∈ pieces) ∧ q ∉ rest ∧ LeadsTo main p n q us y ∧
        (attrsOf w x).normalized = some (q.url ++ pointer (q.place ++ us)))) ∧
    ((∀ r, ¬ Refers Refs.normClasses3 x r) → (attrsOf w x).normalized = none)

theorem NormAt.mono {out : Outer W} {main : Piece} {pieces rest rest' : List Piece} {w w' : World W} {p : Piece}
    (h : NormAt out main pieces rest w p) (hsub : ∀ p ∈ rest', p ∈ rest)
    (hs : ∀ ts x, Visited [] p.obj ts x → attrsOf w' x = attrsOf w x) : NormAt out main pieces rest' w' p := by
  intro ts x hv
  rw [hs ts x hv]
  refine ⟨fun r hr => ?_, (h ts x hv).2⟩
  obtain ⟨n, h1, h2⟩ := (h ts x hv).1 r hr
  refine ⟨n, h1, h2.imp_right ?_⟩
  rintro ⟨q, us, y, g1, g2, g3⟩
  exact ⟨q, us, y, g1, fun hm => g2 (hsub q hm), g3⟩

/-- So do those of the pieces the application has. -/
def Normed (out : Outer W) (main : Piece) (pieces rest : List Piece) (w : World W) : Prop :=
  ∀ p, (p = main ∨ p ∈ pieces) → p ∉ rest → NormAt out main pieces rest w p

/-- From one state of the application to another: pieces of `rest` have been loaded and migrated, those of `rest'` not.
The objects of other pieces are as they were, but for those of `own`. -/
structure Went (out : Outer W) (main : Piece) (pieces own rest : List Piece) (a : App Obj (World W)) (rest' : List Piece)
    (a' : App Obj (World W)) : Prop where
  holds : Holds main pieces rest' a'
  normed : Normed out main pieces rest' a'.world
  sub : ∀ p ∈ rest', p ∈ rest
  len : rest'.length ≤ rest.length
  done : ∀ p ∈ rest, p ∉ rest' → Done out main pieces rest' a'.world p
  same : ∀ x, (∀ p, p ∈ own ∨ (p ∈ rest ∧ p ∉ rest') → ∀ ts, ¬ Visited [] p.obj ts x) →
    attrsOf a'.world x = attrsOf a.world x ∧ final a'.world x = final a.world x
  got : ∃ l : List Piece, l.Nodup ∧ (∀ p, p ∈ l ↔ p ∈ rest ∧ p ∉ rest') ∧ (∀ p ∈ l, Reached out main pieces p) ∧
    a'.world.rest = l.foldl (fun w p => (out.fetch p.ref w).2) a.world.rest
  current : a'.current = a.current

theorem Went.refl {out : Outer W} {main : Piece} {pieces rest : List Piece} {a : App Obj (World W)} (own : List Piece)
    (h : Holds main pieces rest a) (hn : Normed out main pieces rest a.world) : Went out main pieces own rest a rest a :=
  ⟨h, hn, fun _ h => h, Nat.le_refl _, fun _ h h' => absurd h h', fun _ _ => ⟨rfl, rfl⟩, ⟨[], List.nodup_nil, by simp, by simp, rfl⟩, rfl⟩

theorem Went.mono {out : Outer W} {main : Piece} {pieces own own' rest rest' : List Piece} {a a' : App Obj (World W)}
    (h : Went out main pieces own rest a rest' a') (ho : ∀ p ∈ own, p ∈ own') : Went out main pieces own' rest a rest' a' :=
  ⟨h.holds, h.normed, h.sub, h.len, h.done, fun x hx => h.same x (fun p hp => hx p (hp.imp_left (ho p))), h.got, h.current⟩

/-- What has been done stays so. -/
theorem done_more {out : Outer W} {main : Piece} {pieces rest rest' : List Piece} {w w' : World W} {p : Piece}
    (hd : Done out main pieces rest w p) (hsub : ∀ p ∈ rest', p ∈ rest)
    (hs : ∀ ts x, Visited [] p.obj ts x → attrsOf w' x = attrsOf w x ∧ final w' x = final w x) : Done out main pieces rest' w' p := by
  refine ⟨fun ts x hv => ?_, fun ts x r hv hc hr => ?_⟩
  · obtain ⟨h1, h2⟩ := hd.1 ts x hv
    rw [(hs ts x hv).1]
    refine ⟨fun r hr => ?_, h2⟩
    obtain ⟨n, q, us, y, g1, g2, g3, g4, g5⟩ := h1 r hr
    exact ⟨n, q, us, y, g1, g2, fun hq => g3 (hsub q hq), g4, g5⟩
  · rw [(hs ts x hv).2]
    exact hd.2 ts x r hv hc hr

theorem Went.trans {out : Outer W} {main : Piece} {pieces own rest rest' rest'' : List Piece} (hA : Application out main pieces)
    {a a' a'' : App Obj (World W)} (hrest : ∀ p ∈ rest, p ∈ pieces) (hown : ∀ p ∈ own, (p = main ∨ p ∈ pieces) ∧ p ∉ rest)
    (h : Went out main pieces own rest a rest' a') (h' : Went out main pieces own rest' a' rest'' a'') :
    Went out main pieces own rest a rest'' a'' := by
  refine ⟨h'.holds, h'.normed, fun p hp => h.sub p (h'.sub p hp), Nat.le_trans h'.len h.len, fun p hp hn => ?_, fun x hx => ?_, ?_,
    h'.current.trans h.current⟩
  · by_cases hm : p ∈ rest'
    · exact h'.done p hm hn
    · refine done_more (h.done p hp hm) h'.sub (fun ts x hv => h'.same x (fun q hq us hu => ?_))
      rcases hq with hq | ⟨hq, _⟩
      · exact (hA.apart p q (.inr (hrest p hp)) (hown q hq).1 (fun e => (hown q hq).2 (e ▸ hp))).1 ts us x hv hu
      · exact (hA.apart p q (.inr (hrest p hp)) (.inr (hrest q (h.sub q hq))) (fun e => hm (e ▸ hq))).1 ts us x hv hu
  · obtain ⟨h1, h2⟩ := h'.same x (fun p hp => hx p (hp.imp_right (fun hp => ⟨h.sub p hp.1, hp.2⟩)))
    obtain ⟨h3, h4⟩ := h.same x (fun p hp => hx p (hp.imp_right (fun hp => ⟨hp.1, fun hm => hp.2 (h'.sub p hm)⟩)))
    exact ⟨h1.trans h3, h2.trans h4⟩
  · obtain ⟨l, g1, g2, g3, g4⟩ := h.got
    obtain ⟨l', k1, k2, k3, k4⟩ := h'.got
    refine ⟨l ++ l', List.nodup_append.2 ⟨g1, k1, fun p hp q hq e => ?_⟩, fun p => ?_, fun p hp => ?_, ?_⟩
    · subst e
      exact ((g2 p).1 hp).2 ((k2 p).1 hq).1
    · rw [List.mem_append, g2, k2]
      constructor
      · rintro (⟨h1, h2⟩ | ⟨h1, h2⟩)
        · exact ⟨h1, fun hm => h2 (h'.sub p hm)⟩
        · exact ⟨h.sub p h1, h2⟩
      · rintro ⟨h1, h2⟩
        by_cases hm : p ∈ rest'
        · exact .inr ⟨hm, h2⟩
        · exact .inl ⟨h1, hm⟩
    · rcases List.mem_append.1 hp with hp | hp
      · exact g3 p hp
      · exact k3 p hp
    · rw [k4, g4, List.foldl_append]

/-- Objects of pieces the application had are as they were. -/
theorem Went.keep {out : Outer W} {main : Piece} {pieces own rest rest' : List Piece} (hA : Application out main pieces)
    {a a' : App Obj (World W)} (h : Went out main pieces own rest a rest' a') (hrest : ∀ p ∈ rest, p ∈ pieces)
    (hown : ∀ p ∈ own, p = main ∨ p ∈ pieces) {p : Piece} (hp : p = main ∨ p ∈ pieces) (hr : p ∉ rest) (ho : p ∉ own)
    {ts : List Str} {x : Obj} (hv : Visited [] p.obj ts x) : attrsOf a'.world x = attrsOf a.world x ∧ final a'.world x = final a.world x := by
  refine h.same x (fun q hq us hu => ?_)
  rcases hq with hq | ⟨hq, _⟩
  · exact (hA.apart p q hp (hown q hq) (fun e => ho (e ▸ hq))).1 ts us x hv hu
  · exact (hA.apart p q hp (.inr (hrest q hq)) (fun e => hr (e ▸ hq))).1 ts us x hv hu

/-- What the application has after loading a piece. -/
theorem put_holds {out : Outer W} {main : Piece} {pieces rest : List Piece} (hA : Application out main pieces) {a : App Obj (World W)}
    (h : Holds main pieces rest a) {q : Piece} (hq : q ∈ pieces) (hr : q ∈ rest) : Holds main pieces (without rest q) (put out a q) := by
  have hnew : ∀ uc, Dict.get? a.store.objs q.url = some uc → Dict.get? uc (pointer q.place) = none := by
    intro uc h1
    cases h2 : Dict.get? uc (pointer q.place) with
    | none => rfl
    | some c =>
      obtain ⟨q', g1, g2, g3, g4, _⟩ := h.only q.url uc ⟨q, .inr hq, rfl⟩ h1 _ _ (Dict.mem_of_get? h2)
      exact absurd (apart_self hA g1 (.inr hq) g3 (g4 ▸ List.prefix_refl _) ▸ hr) g2
  have hself : ∃ uc0, ((Dict.get? a.store.objs q.url = none ∧ uc0 = []) ∨ Dict.get? a.store.objs q.url = some uc0) ∧
      (put out a q).store = { a.store with objs := Dict.set a.store.objs q.url (uc0 ++ [(pointer q.place, [(s% "3.0.0", q.obj)])]) } ∧
      Dict.get? uc0 (pointer q.place) = none := by
    unfold put Store.set
    cases h1 : Dict.get? a.store.objs q.url with
    | none => exact ⟨[], .inl ⟨rfl, rfl⟩, rfl, rfl⟩
    | some uc =>
      refine ⟨uc, .inr rfl, ?_, hnew uc h1⟩
      simp only [Option.getD_some, hnew uc h1, Option.getD_none]
      rw [Dict.set_of_not_mem _ (Dict.get?_eq_none_iff.1 (hnew uc h1))]
      rfl
  obtain ⟨uc0, hu0, hst, hn0⟩ := hself
  refine ⟨by rw [hst]; exact h.versions, h.original, ?_, ?_, ?_, ?_⟩
  · intro u uc hu h1 jp cache hm
    rw [hst] at h1
    simp only [Dict.get?_set] at h1
    split at h1
    · rename_i e
      subst e
      cases h1
      rcases List.mem_append.1 hm with hm | hm
      · rcases hu0 with ⟨_, rfl⟩ | hu0
        · cases hm
        · obtain ⟨q', g1, g2, g3, g4, g5⟩ := h.only _ _ hu hu0 jp cache hm
          exact ⟨q', g1, fun hw => g2 (mem_without.1 hw).1, g3, g4, g5⟩
      · simp only [List.mem_singleton, Prod.mk.injEq] at hm
        exact ⟨q, .inr hq, fun hw => (mem_without.1 hw).2 rfl, rfl, hm.1, hm.2⟩
    · obtain ⟨q', g1, g2, g3, g4, g5⟩ := h.only _ _ hu h1 jp cache hm
      exact ⟨q', g1, fun hw => g2 (mem_without.1 hw).1, g3, g4, g5⟩
  · intro p hp hn
    rw [hst]
    simp only [Dict.get?_set]
    by_cases e : p = q
    · subst e
      refine ⟨_, if_pos rfl, ?_⟩
      rw [Dict.get?_append, hn0]
      simp [Dict.get?]
    · have hn' : p ∉ rest := fun hm => hn (mem_without.2 ⟨hm, e⟩)
      obtain ⟨uc, g1, g2⟩ := h.stored p hp hn'
      by_cases eu : q.url = p.url
      · refine ⟨_, if_pos eu, ?_⟩
        rcases hu0 with ⟨h0, _⟩ | hu0
        · rw [eu, g1] at h0; cases h0
        · rw [eu, g1] at hu0
          cases hu0
          rw [Dict.get?_append, g2]
          rfl
      · exact ⟨uc, by rw [if_neg eu]; exact g1, g2⟩
  · intro u hu
    rw [hst]
    exact h.routes u hu
  · intro p hp ts x hv
    exact h.fresh p (mem_without.1 hp).1 ts x hv

/-- The application has the piece. -/
def Stored (a : App Obj (World W)) (q : Piece) : Prop :=
  ∃ uc, Dict.get? a.store.objs q.url = some uc ∧ Dict.get? uc (pointer q.place) = some [(s% "3.0.0", q.obj)]

theorem stored_not {out : Outer W} {main : Piece} {pieces rest : List Piece} (hA : Application out main pieces) {a : App Obj (World W)}
    (h : Holds main pieces rest a) {q : Piece} (hq : q = main ∨ q ∈ pieces) (hs : Stored a q) : q ∉ rest := by
  obtain ⟨uc, h1, h2⟩ := hs
  obtain ⟨q', g1, g2, g3, g4, _⟩ := h.only q.url uc ⟨q, hq, rfl⟩ h1 _ _ (Dict.mem_of_get? h2)
  rw [← apart_self hA g1 hq g3 (g4 ▸ List.prefix_refl _)]
  exact g2

/-- What is proved about references to pieces the application does not have yet, when it can go `k` deep. -/
def Resolves (out : Outer W) (main : Piece) (pieces : List Piece) (k : Nat) : Prop :=
  ∀ rest (a : App Obj (World W)) q b, Holds main pieces rest a → (∀ p ∈ rest, p ∈ pieces) → rest.length ≤ k → q ∈ rest →
    Normed out main pieces rest a.world → Reached out main pieces q → Parses b q → ∀ dummy to, to = none ∨ to = some (s% "3.0.0") →
    ∃ rest' a', resolveIn (application out k) dummy (s% "3.0.0") to q.ref b a = (.ok (some (q.obj, q.url ++ pointer q.place)), a') ∧
      Went out main pieces [] rest a rest' a' ∧ q ∉ rest'

theorem main_out {out : Outer W} {main : Piece} {pieces : List Piece} (hA : Application out main pieces) : main ∉ pieces :=
  fun h => (hA.served main h).notRoot hA.root.2.2

theorem linked_refers {out : Outer W} {main p : Piece} {pieces : List Piece} (hl : Linked p out main pieces) {ts : List Str} {x : Obj} {r n : Str}
    (hv : Visited [] p.obj ts x) (hr : Refers Refs.normClasses3 x r) (hn : normalizeJr out.ok (some r) (some p.url) = .ok (some n)) :
    ∃ t us y, (t = main ∨ t ∈ pieces) ∧ LeadsTo main p n t us y ∧ (n = t.ref → Suits p t ts) ∧
      (x.className? = some (s% "v3_0_0.PathItem") → y.className? = some (s% "v3_0_0.PathItem") ∧ ∃ us, Visited [] t.obj us y) := by
  obtain ⟨c, q, d, kids, rfl, hc, hd, hne⟩ := hr
  obtain ⟨d', e, h⟩ := hl ts c q _ kids hv hc
  cases e
  rcases h with ⟨h, _⟩ | ⟨r', n', t, us, y, h1, h2, h3, h4, h5, h6, h7⟩
  · rw [hd] at h; cases h
  · rw [hd] at h1
    cases h1
    rw [hn] at h3
    cases h3
    exact ⟨t, us, y, h4, h5, h6, fun e => h7 (by simpa [className?] using e)⟩

theorem leads_split {out : Outer W} {main p q : Piece} {n : Str} {us : List Str} {y : Obj} (hg : Good out q) (h : LeadsTo main p n q us y) :
    jrSplit out.ok out.path2url out.abspath n = .ok (q.url, pointer (q.place ++ us)) := by
  rcases h with ⟨rfl, rfl, _⟩ | ⟨_, rfl, hs, _⟩
  · rw [List.append_nil]; exact split_ref hg
  · exact split_pointer hg.url hs

theorem leads_at {out : Outer W} {main p q : Piece} {n : Str} {us : List Str} {y : Obj} (hg : Good out q) (h : LeadsTo main p n q us y) :
    Safe (q.place ++ us) ∧ At q.obj us y := by
  rcases h with ⟨rfl, rfl, rfl⟩ | ⟨_, rfl, hs, ha⟩
  · rw [List.append_nil]; exact ⟨hg.safe, rfl, base_of hg⟩
  · exact ⟨hs, ha⟩

/-- A reference leads to one object of one piece only. -/
theorem leads_one {out : Outer W} {main : Piece} {pieces : List Piece} (hA : Application out main pieces) {p q q' : Piece} {n : Str}
    {us us' : List Str} {y y' : Obj} (hq : q = main ∨ q ∈ pieces) (hq' : q' = main ∨ q' ∈ pieces) (h : LeadsTo main p n q us y)
    (h' : LeadsTo main p n q' us' y') : q = q' ∧ us = us' ∧ y = y' := by
  have e := leads_split (hA.good q hq) h
  have e' := leads_split (hA.good q' hq') h'
  rw [e] at e'
  injection e' with e'
  injection e' with e1 e2
  have e3 : q = q' := apart_below hA hq hq' e1 (us := us') (by rw [← e2, pointer_append]; exact List.prefix_append _ _)
  subst e3
  have e4 : us = us' := List.append_cancel_left (pointer_inj e2)
  subst e4
  exact ⟨rfl, rfl, at_inj (leads_at (hA.good q hq) h).2 (leads_at (hA.good q hq) h').2⟩

theorem linked_ok {out : Outer W} {main p : Piece} {pieces : List Piece} (hl : Linked p out main pieces) {app : AppEnv Obj (World W)}
    {from_ : Str} {to : Option Str} : Refs.Spec.RefsOk (refsEnv out app p.url from_ to) p.obj Refs.normClasses3 [s% "v3_0_0.Reference"] := by
  intro ts c q spec kids hv hc
  obtain ⟨d, e, h⟩ := hl ts c q spec kids hv hc
  refine ⟨d, e, ?_⟩
  rcases h with ⟨h, h'⟩ | ⟨r, n, t, us, y, h1, h2, h3, _⟩
  · exact .inl ⟨h, by simpa using h'⟩
  · exact .inr ⟨r, _, h1, h2, h3⟩

theorem notRoot_of {out : Outer W} {main : Piece} {pieces : List Piece} (hA : Application out main pieces) {q : Piece} (hq : q ∈ pieces) {n : Nat} :
    (application out n).isRoot q.obj = false := by
  have hg := hA.good q (.inr hq)
  have hs := hA.served q hq
  obtain ⟨up, e⟩ := application_with out n
  rw [e]
  show (match q.obj.className? with | some c => _ | none => false) = false
  rw [(version_of hg.built).1]
  have h1 : q.cls ≠ s% "v1_2.ResourceListing" := by
    intro e; have := hg.version; rw [e] at this; exact absurd this (by decide)
  have h2 : q.cls ≠ s% "v2_0.Swagger" := by
    intro e; have := hg.version; rw [e] at this; exact absurd this (by decide)
  simp [h1, h2, hs.notRoot]

/-- A reference in a piece the application has, is followed. -/
theorem answers {out : Outer W} {main : Piece} {pieces rest : List Piece} (hA : Application out main pieces) {k : Nat}
    (hR : Resolves out main pieces k) {a : App Obj (World W)} (h : Holds main pieces rest a) (hnorm : Normed out main pieces rest a.world)
    (hrest : ∀ p ∈ rest, p ∈ pieces) (hk : rest.length ≤ k) {p : Piece} (hp : p = main ∨ p ∈ pieces) (hpr : p ∉ rest)
    (hreach : Reached out main pieces p) {ts : List Str} {x : Obj} {r n : Str} (hv : Visited [] p.obj ts x)
    (hr : Refers Refs.normClasses3 x r) (hn : normalizeJr out.ok (some r) (some p.url) = .ok (some n)) (b : Builder) (dummy : Bool)
    (to : Option Str) (hto : to = none ∨ to = some (s% "3.0.0")) (hb : Expected p.obj ts b) :
    ∃ t us y rest' a', (t = main ∨ t ∈ pieces) ∧ LeadsTo main p n t us y ∧
      resolveIn (application out k) dummy (s% "3.0.0") to n b a = (.ok (some (y, t.url ++ pointer (t.place ++ us))), a') ∧
      Went out main pieces [] rest a rest' a' ∧ t ∉ rest' ∧ Reached out main pieces t ∧
      (x.className? = some (s% "v3_0_0.PathItem") → y.className? = some (s% "v3_0_0.PathItem") ∧ ∃ us, Visited [] t.obj us y) := by
  obtain ⟨up, hup⟩ := application_with out k
  obtain ⟨t, us, y, ht, hlead, hsuit, hpath⟩ := linked_refers (hA.linked p hp) hv hr hn
  have hmain : main ∉ rest := fun hm => main_out hA (hrest _ hm)
  have hreach' : Reached out main pieces t := by
    rcases ht with rfl | ht
    · exact .main
    · exact .next hreach ⟨ts, x, r, n, us, y, hv, hr, hn, hlead⟩ ht
  rcases id hlead with ⟨rfl, rfl, rfl⟩ | ⟨htp, rfl, hsafe, hat⟩
  · by_cases htr : t ∈ rest
    · obtain ⟨rest', a', e, hw, hn'⟩ := hR rest a t b h hrest hk htr hnorm hreach' (hsuit rfl b hb) dummy to hto
      exact ⟨t, [], t.obj, rest', a', ht, hlead, by rw [List.append_nil]; exact e, hw, hn', hreach', hpath⟩
    · refine ⟨t, [], t.obj, rest, a, ht, hlead, ?_, Went.refl _ h hnorm, htr, hreach', hpath⟩
      rw [hup, List.append_nil]
      exact stored_ref hA h ht htr up b dummy to hto
  · have htr : t ∉ rest := by rcases htp with rfl | rfl <;> assumption
    refine ⟨t, us, y, rest, a, ht, hlead, ?_, Went.refl _ h hnorm, htr, hreach', hpath⟩
    rw [hup]
    unfold resolveIn
    rw [stored_found hA h ht htr up us y _ to dummy hsafe hat hto]
    dsimp only
    rw [(truthy_base hat.2).1]
    rfl

/-- So is one that has been written anew. -/
theorem answers_anew {out : Outer W} {main : Piece} {pieces rest : List Piece} (hA : Application out main pieces) {k : Nat}
    {a : App Obj (World W)} (h : Holds main pieces rest a) {p : Piece} (hp : p = main ∨ p ∈ pieces)
    (hreach : Reached out main pieces p) {ts : List Str} {x : Obj} {r n : Str} (hv : Visited [] p.obj ts x)
    (hr : Refers Refs.normClasses3 x r) (hn : normalizeJr out.ok (some r) (some p.url) = .ok (some n)) (b : Builder) (dummy : Bool)
    (to : Option Str) (hto : to = none ∨ to = some (s% "3.0.0")) {t : Piece} {us : List Str} {y : Obj} (ht : t = main ∨ t ∈ pieces)
    (htr : t ∉ rest) (hlead : LeadsTo main p n t us y) :
    resolveIn (application out k) dummy (s% "3.0.0") to (t.url ++ pointer (t.place ++ us)) b a =
        (.ok (some (y, t.url ++ pointer (t.place ++ us))), a) ∧ Reached out main pieces t ∧
      (x.className? = some (s% "v3_0_0.PathItem") → y.className? = some (s% "v3_0_0.PathItem") ∧ ∃ us, Visited [] t.obj us y) := by
  obtain ⟨up, hup⟩ := application_with out k
  obtain ⟨t', us', y', ht', hlead', hsuit, hpath⟩ := linked_refers (hA.linked p hp) hv hr hn
  obtain ⟨rfl, rfl, rfl⟩ := leads_one hA ht ht' hlead hlead'
  refine ⟨?_, ?_, hpath⟩
  · obtain ⟨hsafe, hat⟩ := leads_at (hA.good t ht) hlead
    rw [hup]
    unfold resolveIn
    rw [stored_found hA h ht htr up us y _ to dummy hsafe hat hto]
    dsimp only
    rw [(truthy_base hat.2).1]
    rfl
  · rcases ht with rfl | ht
    · exact .main
    · exact .next hreach ⟨ts, x, r, n, us, y, hv, hr, hn, hlead⟩ ht

end Pyopenapi.Main.Native
