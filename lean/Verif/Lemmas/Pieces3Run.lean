import Verif.Lemmas.NativeMerge
import Verif.Spec.PiecesUp
import Verif.Lemmas.Pieces3

/-!
# Pieces are migrated from 2.0 to 3.0.0 while references to them are followed
-/

namespace Pyopenapi.Main
open _root_.Pyopenapi.Spec _root_.Pyopenapi.Refs.Spec Obj

variable {W : Type} {out : Outer W} {main : Piece} {pieces live todo : List Piece} {cv : Piece → Obj} {rl : Routes} {at2 : Obj → Refs.Attrs Obj}

theorem Stage.base (hS : Stage out main pieces live cv rl at2) {p : Piece} (hp : p ∈ live) : (cv p).isBase = true := by
  obtain ⟨c, j, _, _, _, _, hb⟩ := hS.built p hp
  obtain ⟨_, e⟩ := Refs.build_class hb
  rw [e]; rfl

/-- The reference of a piece that has been converted. -/
theorem hit_piece (hS : Stage out main pieces live cv rl at2) {a : App Obj (World W)} (h : Holds3 main live cv rl at2 todo a) {q : Piece} (hq : q ∈ live)
    (hne : q ≠ main) (hr : q ∉ todo) (up : Str → Obj → Str → App Obj (World W) → R (Obj × Routes) × App Obj (World W)) (dummy : Bool)
    {parser : Option (Json → Str → World W → R Obj × World W)} :
    App.resolveObj (appWith out up) q.ref (s% "2.0") parser (some (s% "3.0.0")) dummy a = (.ok (cv q, q.url ++ pointer q.place), a) := by
  have hg := hS.good hq
  have hb := hS.base hq
  have hat : At (cv q) [] (cv q) := ⟨rfl, hb⟩
  obtain ⟨ht, hp⟩ := truthy_base hb
  have hp : (appWith out up).isPrim (cv q) = false := hp
  have hget : a.store.get ((appWith out up).ops a.world) q.url (pointer q.place) (s% "3.0.0") = .ok (some (cv q)) := by
    have := (h.keeps.get3 hS hq hr ((appWith out up).ops a.world) []).trans (resolveObject_at hat)
    rwa [List.append_nil] at this
  rw [C66_cached (appWith out up) _ (s% "2.0") _ (s% "3.0.0") dummy a q.url (pointer q.place) (pointer q.place) (cv q) (ref_ne hg) (by decide)
    (split_ref hg) hg.url.ne (.inl ⟨by decide, (h.keeps.relocate hq hne _).2⟩) hget, hp]
  rfl

/-- A reference into the main document. -/
theorem hit_main (hS : Stage out main pieces live cv rl at2) {a : App Obj (World W)} (h : Holds3 main live cv rl at2 todo a)
    (hr : main ∉ todo) (up : Str → Obj → Str → App Obj (World W) → R (Obj × Routes) × App Obj (World W)) (dummy : Bool)
    {parser : Option (Json → Str → World W → R Obj × World W)}
    {ts us : List Str} {y : Obj} (hs : Safe ts) (hm : patchJp (pointer ts) [(['#'], .nested rl)] = pointer us) (hy : At (cv main) us y) :
    App.resolveObj (appWith out up) (main.url ++ pointer ts) (s% "2.0") parser (some (s% "3.0.0")) dummy a = (.ok (y, main.url ++ pointer us), a) := by
  have hg := hS.good hS.root
  have hu := hg.url
  obtain ⟨ht, hp⟩ := truthy_base hy.2
  have hp : (appWith out up).isPrim y = false := hp
  have hget : a.store.get ((appWith out up).ops a.world) main.url (pointer us) (s% "3.0.0") = .ok (some y) := by
    have := (h.keeps.get3 hS hS.root hr ((appWith out up).ops a.world) us).trans (resolveObject_at hy)
    rwa [hS.app.root.1, List.nil_append] at this
  rw [C66_cached (appWith out up) _ (s% "2.0") _ (s% "3.0.0") dummy a main.url (pointer ts) (pointer us) y (by simp [hu.ne]) (by decide)
    (split_pointer hu hs) hu.ne (.inl ⟨by decide, by rw [h.keeps.relocateMain hr, hm]⟩) hget, hp]
  rfl

/-- References to pieces that are still to be converted are followed. -/
def Resolves3 (out : Outer W) (main : Piece) (live : List Piece) (cv : Piece → Obj) (rl : Routes) (at2 : Obj → Refs.Attrs Obj) (k : Nat) : Prop :=
  ∀ (todo : List Piece) (a : App Obj (World W)) (q : Piece) (parser : Option (Json → Str → World W → R Obj × World W)) (dummy : Bool), Holds3 main live cv rl at2 todo a → (∀ p ∈ todo, p ∈ live) →
    todo.length ≤ k → main ∉ todo → q ∈ todo →
    ∃ todo' a', App.resolveObj (application out k) q.ref (s% "2.0") parser (some (s% "3.0.0")) dummy a = (.ok (cv q, q.url ++ pointer q.place), a') ∧
      Went3 out main live cv rl at2 todo a todo' a' ∧ q ∉ todo'

theorem answers3 (hS : Stage out main pieces live cv rl at2) {k : Nat} (hR : Resolves3 out main live cv rl at2 k) {a : App Obj (World W)}
    (h : Holds3 main live cv rl at2 todo a) (hsub : ∀ p ∈ todo, p ∈ live) (hk : todo.length ≤ k) (hm : main ∉ todo) {n : Str} {t : Piece}
    {us : List Str} {y : Obj} (ht : t ∈ live) (hl : Target main cv rl n t us y) (b : Builder) :
    ∃ todo' a', resolveIn (application out k) true (s% "2.0") (some (s% "3.0.0")) n b a = (.ok (some (y, t.url ++ pointer us)), a') ∧
      Went3 out main live cv rl at2 todo a todo' a' ∧ t ∉ todo' := by
  rcases hl with ⟨hne, rfl, rfl, rfl⟩ | ⟨rfl, ts, rfl, hs, hp, hy⟩
  · by_cases hmem : t ∈ todo
    · obtain ⟨todo', a', h1, h2, h3⟩ := hR todo a t (some (fun j path w => (build pkg b j (some path) [], w))) true h hsub hk hm hmem
      refine ⟨todo', a', ?_, h2, h3⟩
      unfold resolveIn
      rw [h1]
      simp only [(truthy_base (hS.base ht)).1, if_true]
    · obtain ⟨up, e⟩ := application_with out k
      rw [e]
      refine ⟨todo, a, ?_, .refl h, hmem⟩
      unfold resolveIn
      rw [hit_piece hS h ht hne hmem up true]
      simp only [(truthy_base (hS.base ht)).1, if_true]
  · obtain ⟨up, e⟩ := application_with out k
    rw [e]
    refine ⟨todo, a, ?_, .refl h, hm⟩
    unfold resolveIn
    rw [hit_main hS h hm up true hs hp hy]
    simp only [(truthy_base hy.2).1, if_true]

theorem refs_ok3 (hS : Stage out main pieces live cv rl at2) {p : Piece} (hp : p ∈ live) {app : AppEnv Obj (World W)} {from_ : Str} {to : Option Str} :
    RefsOk (refsEnv out app p.url from_ to) (cv p) Refs.normClasses3 [s% "v3_0_0.Reference"] := by
  intro ts c q spec kids hv hc
  obtain ⟨d, e, h⟩ := hS.links p hp ts c q spec kids hv hc
  refine ⟨d, e, ?_⟩
  rcases h with ⟨h, hne⟩ | ⟨r, n, t, us, y, h1, h2, h3, _⟩
  · exact .inl ⟨h, by simpa using hne⟩
  · exact .inr ⟨r, n, h1, h2, h3⟩

theorem link_of (hS : Stage out main pieces live cv rl at2) {p : Piece} (hp : p ∈ live) {ts : List Str} {x : Obj} {r n : Str}
    (hv : Visited [] (cv p) ts x) (hr : Refers Refs.normClasses3 x r) (hn : normalizeJr out.ok (some r) (some p.url) = .ok (some n)) :
    ∃ t us y, t ∈ live ∧ Target main cv rl n t us y ∧ Safe us := by
  obtain ⟨c, q, d, kids, rfl, hc, hd, _⟩ := hr
  obtain ⟨d', e, h⟩ := hS.links p hp ts c q _ kids hv hc
  cases e
  rcases h with ⟨h, _⟩ | ⟨r', n', t, us, y, h1, h2, h3, h4, h5, h6⟩
  · rw [hd] at h; cases h
  · rw [hd] at h1
    cases h1
    rw [hn] at h3
    cases h3
    exact ⟨t, us, y, h4, h5, h6⟩

/-- After a scan of a converted piece. -/
theorem marks_scan (hS : Stage out main pieces live cv rl at2) {w : World W} (h : Marks live cv at2 todo w) (hsub : ∀ q ∈ todo, q ∈ live) {p : Piece}
    (hp : p ∈ live) (hpt : p ∉ todo) {attrs : List Str → Refs.Attrs Obj}
    (hz : ∀ ts, (∀ x r, Visited [] (cv p) ts x → ¬ Refers Refs.normClasses3 x r) → attrs ts = {}) :
    Marks live cv at2 todo (remember w (visits (cv p)) attrs) := by
  have hL := hS.scan p hp
  refine ⟨fun q hq ts x hv => ?_, fun q hq ts x hv => ?_⟩
  · rw [attrs_keep (fun us hm => hS.new p hp q hq us ts x ((hL.2.2 _ _).1 hm) hv)]
    exact h.old q hq ts x hv
  · by_cases hx : ∃ us, (us, x) ∈ visits (cv p)
    · refine attrs_find hx (fun us hm => hz us (fun y r hy hr => ?_))
      have hvx := (hL.2.2 _ _).1 hm
      have := Refs.scanned_unique hL hvx hy
      subst this
      exact hS.apart p hp q (hsub q hq) (fun e => hpt (e ▸ hq)) us ts x r hvx hv hr
    · rw [attrs_keep (fun us hm => hx ⟨us, hm⟩)]
      exact h.fresh q hq ts x hv

/-! ### path items are merged -/

/-- What a path item with a `$ref` refers to. -/
theorem path_step (hS : Stage out main pieces live cv rl at2) {a : App Obj (World W)} (h : Holds3 main live cv rl at2 todo a) (hm : main ∉ todo)
    (hknow : Knows3 out main live cv rl todo a.world main) {targets : List Obj} (ht : ∀ p ∈ live, ∀ ts q e kids,
    Visited [] (cv p) ts (.base (s% "v3_0_0.PathItem") q (.obj e) kids) → Dict.get? e (s% "$ref") = none ∨
      (p = main ∧ ∃ k y, Dict.get? e (s% "$ref") = some (.str (main.url ++ pointer [s% "paths", k])) ∧ Safe [s% "paths", k] ∧
        patchJp (pointer [s% "paths", k]) [(['#'], .nested rl)] = pointer [s% "paths", k] ∧ At (cv main) [s% "paths", k] y ∧
        (∃ us, Visited [] (cv main) us y) ∧ y.className? = some (s% "v3_0_0.PathItem") ∧ y ∈ targets))
    {ts : List Str} {x : Obj} {r : Str} (hv : Visited [] (cv main) ts x) (hx : x.className? = some (s% "v3_0_0.PathItem"))
    (hr : Refers Refs.normClasses3 x r) (k : Nat) :
    ∃ n y new us, (attrsOf a.world x).normalized = some n ∧ n ≠ [] ∧
      resolveIn (application out k) false (s% "2.0") (some (s% "3.0.0")) n (.cls (s% "v3_0_0.PathItem")) a = (.ok (some (y, new)), a) ∧
      Step3 main.url (cv main) x y ∧ Visited [] (cv main) us y ∧ y.className? = some (s% "v3_0_0.PathItem") ∧ y ∈ targets := by
  have hg := hS.good hS.root
  obtain ⟨c, q, e, kids, rfl, hc, hd, hne⟩ := id hr
  simp only [className?, Option.some.injEq] at hx
  subst hx
  rcases ht main hS.root ts q e kids hv with h0 | ⟨_, kk, y, h1, h2, h3, h4, ⟨us, h5⟩, h6, h7⟩
  · rw [hd] at h0; cases h0
  · rw [hd] at h1
    cases h1
    obtain ⟨n, t, us', y', g1, g2, g3, g4, g5⟩ := (hknow ts _ hv).1 _ hr
    rw [norm_absolute hg.url] at g1
    cases g1
    have key : t = main ∧ us' = [s% "paths", kk] := by
      rcases g4 with ⟨hne, e, _, _⟩ | ⟨rfl, ts', e, k1, k2, _⟩
      · have e1 := split_ref (hS.good g2)
        rw [← e, split_pointer hg.url h2] at e1
        injection e1 with e1
        injection e1 with e1 _
        exact absurd e1.symm (hS.urlNe g2 hne)
      · have := pointer_inj (List.append_cancel_left e)
        subst this
        rw [h3] at k2
        exact ⟨rfl, (pointer_inj k2).symm⟩
    obtain ⟨rfl, rfl⟩ := key
    obtain ⟨up, eup⟩ := application_with out k
    refine ⟨_, y, t.url ++ pointer [s% "paths", kk], us, by rw [g5], by simp [hg.url.ne], ?_, ⟨_, hr, h4⟩, h5, h6, h7⟩
    rw [eup]
    unfold resolveIn
    rw [hit_main hS h hm up false h2 h3 h4]
    simp only [(truthy_base h4.2).1, if_true]

/-- The loop that merges path items. -/
theorem merge_loop3 (hS : Stage out main pieces live cv rl at2) {a : App Obj (World W)} (h : Holds3 main live cv rl at2 todo a) (hm : main ∉ todo)
    (hknow : Knows3 out main live cv rl todo a.world main) {targets : List Obj} (ht : ∀ p ∈ live, ∀ ts q e kids,
    Visited [] (cv p) ts (.base (s% "v3_0_0.PathItem") q (.obj e) kids) → Dict.get? e (s% "$ref") = none ∨
      (p = main ∧ ∃ k y, Dict.get? e (s% "$ref") = some (.str (main.url ++ pointer [s% "paths", k])) ∧ Safe [s% "paths", k] ∧
        patchJp (pointer [s% "paths", k]) [(['#'], .nested rl)] = pointer [s% "paths", k] ∧ At (cv main) [s% "paths", k] y ∧
        (∃ us, Visited [] (cv main) us y) ∧ y.className? = some (s% "v3_0_0.PathItem") ∧ y ∈ targets)) (k : Nat) (x0 : Obj) :
    ∀ (m : Nat) {ts : List Str} {x : Obj} {seen pre : List Obj} {kids : Dict Obj}, Visited [] (cv main) ts x →
    x.className? = some (s% "v3_0_0.PathItem") → seen.Nodup → (∀ y ∈ seen, y ∈ x0 :: targets) → targets.length + 1 < m + seen.length →
    (∀ k ∈ Dict.keys (pkg (s% "v3_0_0.PathItem")).children, Dict.get? kids k = pre.findSome? (kidOf k)) →
    ∃ l kids', mergeLoop (application out k) (s% "v3_0_0.PathItem") (s% "2.0") (s% "3.0.0") m seen (attrsOf a.world x).normalized
        (.base (s% "v3_0_0.PathItem") none (.obj []) kids) a = (.ok (.base (s% "v3_0_0.PathItem") none (.obj []) kids'), a) ∧
      Trail3 main.url (cv main) seen x (x :: l) ∧
      ∀ k ∈ Dict.keys (pkg (s% "v3_0_0.PathItem")).children, Dict.get? kids' k = (pre ++ l).findSome? (kidOf k)
  | 0, ts, x, seen, pre, kids, hv, hx, hnd, hseen, hsize, hkids => by
    have := length_le hnd hseen
    rw [List.length_cons] at this
    omega
  | m + 1, ts, x, seen, pre, kids, hv, hx, hnd, hseen, hsize, hkids => by
    by_cases href : ∃ r, Refers Refs.normClasses3 x r
    · obtain ⟨r, hr⟩ := href
      obtain ⟨n, y, new, us, hn, hne, e, hstep, hvy, hy, hyt⟩ := path_step hS h hm hknow ht hv hx hr k
      rw [hn]
      obtain ⟨c, n', rfl⟩ := List.exists_cons_of_ne_nil hne
      unfold mergeLoop
      rw [e]
      dsimp only
      by_cases hys : y ∈ seen
      · rw [if_pos hys]
        exact ⟨[], kids, rfl, .again hstep hys, by simpa using hkids⟩
      · rw [if_neg hys]
        obtain ⟨c, j, _, _, _, hj, hb⟩ := hS.built main hS.root
        obtain ⟨kids1, e1, g1⟩ := Native.merge_step hj hb hvy hy hkids
        rw [e1]
        dsimp only
        obtain ⟨l, kids2, e2, htr2, g2⟩ := merge_loop3 hS h hm hknow ht k x0 m (pre := pre ++ [y]) (seen := seen ++ [y]) hvy hy
          (List.nodup_append.2 ⟨hnd, by simp, fun z hz w hw e => hys (by rw [← List.mem_singleton.1 hw, ← e]; exact hz)⟩)
          (by
            intro z hz
            rcases List.mem_append.1 hz with hz | hz
            · exact hseen z hz
            · rw [List.mem_singleton] at hz
              subst hz
              exact List.mem_cons_of_mem _ hyt)
          (by rw [List.length_append, List.length_singleton]; omega) g1
        refine ⟨y :: l, kids2, e2, .more hstep hys htr2, fun k hk => ?_⟩
        rw [g2 k hk, List.append_assoc]
        rfl
    · have hnr : ∀ r, ¬ Refers Refs.normClasses3 x r := fun r hr => href ⟨r, hr⟩
      rw [(hknow ts x hv).2 hnr]
      exact ⟨[], kids, rfl, .last hnr, by simpa using hkids⟩

/-- The scan that merges the path items of the main document. -/
theorem merge_all3 (hS : Stage out main pieces live cv rl at2) (hm : main ∉ todo) (k : Nat) : ∀ (L : List (List Str × Obj)) {a : App Obj (World W)},
    (∀ v ∈ L, Visited [] (cv main) v.1 v.2) → Holds3 main live cv rl at2 todo a → Knows3 out main live cv rl todo a.world main →
    ∃ F, mergeAll out (application out k) (s% "v3_0_0.PathItem") (s% "2.0") (s% "3.0.0") L a =
        (.ok (), { a with world := { a.world with finals := F } }) ∧
      (∀ ts x r, (ts, x) ∈ L → x.className? = some (s% "v3_0_0.PathItem") → Refers Refs.normClasses3 x r →
        ∃ l, Trail3 main.url (cv main) [x] x l ∧ Native.MergedFrom l (final { a.world with finals := F } x)) ∧
      (∀ x, (∀ us, (us, x) ∉ L) → final { a.world with finals := F } x = final a.world x)
  | [], a, hL, h, hknow => ⟨a.world.finals, rfl, by simp, fun _ _ => rfl⟩
  | (us, o) :: L, a, hL, h, hknow => by
    have hvo := hL (us, o) List.mem_cons_self
    have hLt : ∀ v ∈ L, Visited [] (cv main) v.1 v.2 := fun v hv => hL v (List.mem_cons_of_mem _ hv)
    have skip : (o.className? = some (s% "v3_0_0.PathItem") → ∀ r, ¬ Refers Refs.normClasses3 o r) →
        mergeAll out (application out k) (s% "v3_0_0.PathItem") (s% "2.0") (s% "3.0.0") ((us, o) :: L) a =
          mergeAll out (application out k) (s% "v3_0_0.PathItem") (s% "2.0") (s% "3.0.0") L a →
        ∃ F, mergeAll out (application out k) (s% "v3_0_0.PathItem") (s% "2.0") (s% "3.0.0") ((us, o) :: L) a =
            (.ok (), { a with world := { a.world with finals := F } }) ∧
          (∀ ts x r, (ts, x) ∈ (us, o) :: L → x.className? = some (s% "v3_0_0.PathItem") → Refers Refs.normClasses3 x r →
            ∃ l, Trail3 main.url (cv main) [x] x l ∧ Native.MergedFrom l (final { a.world with finals := F } x)) ∧
          (∀ x, (∀ vs, (vs, x) ∉ (us, o) :: L) → final { a.world with finals := F } x = final a.world x) := by
      intro hno e
      obtain ⟨F, e', g1, g2⟩ := merge_all3 hS hm k L hLt h hknow
      refine ⟨F, e.trans e', fun ts x r hmm hc hr => ?_, fun x hn => g2 x (fun vs hmm => hn vs (List.mem_cons_of_mem _ hmm))⟩
      rcases List.mem_cons.1 hmm with e | hmm
      · cases e
        exact absurd hr (hno hc r)
      · exact g1 ts x r hmm hc hr
    by_cases hc : o.className? = some (s% "v3_0_0.PathItem")
    · obtain ⟨c, q, spec, kids, rfl⟩ : ∃ c q spec kids, o = .base c q spec kids := by
        cases o with
        | base c q s ks => exact ⟨_, _, _, _, rfl⟩
        | _ => cases hc
      have hc' := hc
      simp only [className?, Option.some.injEq] at hc'
      subst hc'
      obtain ⟨targets, hlen, ht⟩ := hS.paths3
      obtain ⟨d, rfl, hd⟩ := hS.links main hS.root us _ q spec kids hvo (by decide)
      rcases hd with ⟨hd, _⟩ | ⟨r, n, t, us0, y, hd, hne, _⟩
      · refine skip (fun _ r hr => ?_) ?_
        · obtain ⟨_, _, d', _, e, _, hd', _⟩ := hr
          cases e
          rw [hd] at hd'
          cases hd'
        · rw [mergeAll, if_pos hc, Refs.refOf_none (by decide +kernel) (by decide +kernel) hd]
          rfl
      · have hro : Refs.refOf (.base (s% "v3_0_0.PathItem") q (.obj d) kids) = .ok (.str r) := Refs.refOf_get (by decide +kernel) hd
        have htr : (Json.str r).truthy = true := by
          cases r with
          | nil => exact absurd rfl hne
          | cons _ _ => rfl
        generalize ho : Obj.base (s% "v3_0_0.PathItem") q (.obj d) kids = o at *
        obtain ⟨f, l, e1, htrail, hmf⟩ : ∃ f l, mergePathItem out (application out k) (s% "v3_0_0.PathItem") (s% "2.0") (s% "3.0.0") o a = (.ok f, a) ∧
            Trail3 main.url (cv main) [o] o l ∧ Native.MergedFrom l f := by
          unfold mergePathItem
          rw [Native.empty_pathItem]
          dsimp only
          obtain ⟨c, j, _, _, _, hj, hb⟩ := hS.built main hS.root
          obtain ⟨kids1, e1, g1⟩ := Native.merge_step hj hb hvo hc (kids := []) (pre := []) (fun _ _ => rfl)
          rw [e1]
          dsimp only
          obtain ⟨l, kids', e, htr, g⟩ := merge_loop3 hS h hm hknow ht k o out.rounds (seen := [o]) (pre := [o]) hvo hc
            (by simp) (by intro y hy; rw [List.mem_singleton.1 hy]; exact List.mem_cons_self) (by simp; omega) g1
          exact ⟨_, o :: l, e, htr, kids', rfl, g⟩
        obtain ⟨F, e2, g1, g2⟩ := merge_all3 hS hm k L (a := { a with world := { a.world with finals := (o, f) :: a.world.finals } }) hLt
          ⟨h.keeps, ⟨h.marks.old, h.marks.fresh⟩, h.original⟩ hknow
        refine ⟨F, ?_, fun ts x r hmm hcx hr => ?_, fun x hn => ?_⟩
        · rw [mergeAll, if_pos hc, hro]
          dsimp only
          rw [if_pos htr, e1]
          exact e2
        · by_cases hin : ∃ vs, (vs, x) ∈ L
          · obtain ⟨vs, hin⟩ := hin
            exact g1 vs x r hin hcx hr
          · rcases List.mem_cons.1 hmm with e | hmm
            · cases e
              refine ⟨l, htrail, ?_⟩
              have := g2 _ (fun vs hmm => hin ⟨vs, hmm⟩)
              rw [show final { a.world with finals := F } o = _ from this]
              have : (refValue o).truthy = true := by
                unfold refValue
                rw [hro]
                exact htr
              rw [final_self this]
              exact hmf
            · exact absurd ⟨ts, hmm⟩ hin
        · have := g2 x (fun vs hmm => hn vs (List.mem_cons_of_mem _ hmm))
          rw [show final { a.world with finals := F } x = _ from this, final_cons (fun e => hn us (by rw [e]; exact List.mem_cons_self))]
    · refine skip (fun e => absurd e hc) ?_
      rw [mergeAll, if_neg hc]

/-- The scans of a converted piece. -/
theorem finish3 (hS : Stage out main pieces live cv rl at2) {k : Nat} (hR : Resolves3 out main live cv rl at2 k) {a : App Obj (World W)}
    (h : Holds3 main live cv rl at2 todo a) (hsub : ∀ q ∈ todo, q ∈ live) {p : Piece} (hp : p ∈ todo) (hk : (without todo p).length ≤ k)
    (hm : main ∉ without todo p) {reloc : Routes} (hr1 : p = main → reloc = rl) (hr2 : p ≠ main → reloc = []) :
    ∃ todo' a', finish30 out (application out k) (cv p) reloc p.url (pointer p.place) a = (.ok (cv p, reloc), a') ∧
      Went3 out main live cv rl at2 todo a todo' a' ∧ p ∉ todo' ∧ (p = main → Merged3 main.url (cv main) a'.world) := by
  classical
  have hpl := hsub p hp
  have hL := hS.scan p hpl
  have hout : p ∉ without todo p := fun hw => (mem_without.1 hw).2 rfl
  have hsub' : ∀ q ∈ without todo p, q ∈ live := fun q hq => hsub q (mem_without.1 hq).1
  obtain ⟨c, j, hc, hcm, hcv, hj, hb⟩ := hS.built p hpl
  obtain ⟨st, hst, hkeeps⟩ := h.keeps.next hS hpl hp hr1 hr2
  obtain ⟨s0, hs0⟩ := Refs.normalizeAll_total (env := refsEnv out (application out k) p.url (s% "2.0") none) (fun c hc => Refs.refField3 hc)
    (refs_ok3 hS hpl) Refs.reqs3 hL (fresh a)
  obtain ⟨m1, m2, _⟩ := Refs.normalized_fresh (fun c hc => Refs.refField3 hc) hL hs0
  have hmarks : Marks live cv at2 (without todo p) (remember a.world (visits (cv p)) s0.attrs) :=
    marks_scan hS ⟨h.marks.old, fun q hq => h.marks.fresh q (mem_without.1 hq).1⟩ hsub' hpl hout m2
  generalize ha1 : ({ a with store := st, world := remember a.world (visits (cv p)) s0.attrs } : App Obj (World W)) = a1
  have h1 : Holds3 main live cv rl at2 (without todo p) a1 := by subst ha1; exact ⟨hkeeps, hmarks, h.original⟩
  let ans : Str → Obj × Str := fun n =>
    if e : ∃ z : Piece × List Str × Obj, z.1 ∈ live ∧ Target main cv rl n z.1 z.2.1 z.2.2 ∧ Safe z.2.1 then
      (e.choose.2.2, e.choose.1.url ++ pointer e.choose.2.1) else (cv p, n)
  have hans : ∀ {ts x r n}, Visited [] (cv p) ts x → Refers Refs.normClasses3 x r → normalizeJr out.ok (some r) (some p.url) = .ok (some n) →
      ∃ t us y, t ∈ live ∧ Target main cv rl n t us y ∧ Safe us ∧ ans n = (y, t.url ++ pointer us) := by
    intro ts x r n hv hr hn
    obtain ⟨t, us, y, g1, g2, g3⟩ := link_of hS hpl hv hr hn
    have e : ∃ z : Piece × List Str × Obj, z.1 ∈ live ∧ Target main cv rl n z.1 z.2.1 z.2.2 ∧ Safe z.2.1 := ⟨(t, us, y), g1, g2, g3⟩
    exact ⟨e.choose.1, e.choose.2.1, e.choose.2.2, e.choose_spec.1, e.choose_spec.2.1, e.choose_spec.2.2, dif_pos e⟩
  have hfrom : (if a.original = s% "3.0.0" then s% "3.0.0" else s% "2.0") = s% "2.0" := by rw [h.original]; rfl
  obtain ⟨s1, g1, s', g2, ⟨todo', hw'⟩, g4, g5⟩ := Refs.resolve3_inv (refsEnv out (application out k) p.url (s% "2.0") none)
    (refsEnv out (application out k) p.url (s% "2.0") (some (s% "3.0.0"))) c hc j hj (some (pointer p.place)) (cv p) hb (visits (cv p)) hL a a1
    rfl rfl (hS.noExamples p hpl) (refs_ok3 hS hpl) (fun a' => ∃ todo', Went3 out main live cv rl at2 (without todo p) a1 todo' a')
    (fun n a' => ∀ todo', Holds3 main live cv rl at2 todo' a' → ∃ t us y, t ∈ live ∧ Target main cv rl n t us y ∧ Safe us ∧ t ∉ todo' ∧
      ans n = (y, t.url ++ pointer us)) ans (by
      intro ts x r n hv hr hn b a2 ⟨todo2, hw2⟩
      obtain ⟨t, us, y, k1, k2, k3, k4⟩ := hans hv hr hn
      obtain ⟨todo3, a3, e, hw3, hout3⟩ := answers3 hS hR hw2.holds (fun q hq => hsub' q (hw2.sub q hq)) (Nat.le_trans hw2.len hk)
        (fun hmm => hm (hw2.sub _ hmm)) k1 k2 b
      refine ⟨a3, by rw [k4]; exact e, ⟨todo3, hw2.trans hS hsub' hw3⟩, fun todo' hh => ?_, fun m hm todo' hh => ?_⟩
      · exact ⟨t, us, y, k1, k2, k3, hw3.holds.keeps.same hh.keeps k1 hout3, k4⟩
      · obtain ⟨t', us', y', i1, i2, i3, i4, i5⟩ := hm todo2 hw2.holds
        exact ⟨t', us', y', i1, i2, i3, hw3.holds.keeps.same hh.keeps i1 (fun hmm => i4 (hw3.sub _ hmm)), i5⟩) ⟨_, .refl h1⟩ (by
      intro ts x r n hv hr hn
      obtain ⟨t, us, y, k1, k2, k3, k4⟩ := hans hv hr hn
      rw [k4]
      exact ⟨_, _, split_pointer (hS.good k1).url k3⟩)
  rw [hs0] at g1
  cases g1
  unfold finish30
  rw [byPlace_fresh (fun v hv => h.marks.fresh p hp v.1 v.2 ((hL.2.2 _ _).1 hv))]
  have hs0' : Refs.normalizeAll (refsEnv out (application out k) p.url (s% "2.0") none) Refs.normClasses3 (visits (cv p)) ⟨fun _ => {}, a⟩ = .ok s0 := hs0
  rw [hs0']
  dsimp only
  rw [hst]
  dsimp only
  rw [hfrom, ha1, g2]
  dsimp only
  have hp' : p ∉ todo' := fun hmm => hout (hw'.sub _ hmm)
  have hsub2 : ∀ q ∈ todo', q ∈ live := fun q hq => hsub' q (hw'.sub q hq)
  have hknow : Knows3 out main live cv rl todo' (remember s'.world.world (visits (cv p)) s'.attrs) p := by
    intro ts x hv
    refine ⟨fun r hr => ?_, fun hr => ?_⟩
    · have hone : ∃ n, normalizeJr out.ok (some r) (some p.url) = .ok (some n) ∧ ∃ t us y, t ∈ live ∧ Target main cv rl n t us y ∧ Safe us ∧ t ∉ todo' ∧
          ans n = (y, t.url ++ pointer us) := by
        obtain ⟨n, _, e, hq, _⟩ := g4 ts x r hv hr
        exact ⟨n, e, hq todo' hw'.holds⟩
      obtain ⟨n, hn, t, us, y, k1, k2, k3, k5, k4⟩ := hone
      refine ⟨n, t, us, y, hn, k1, k5, k2, attrs_find ⟨ts, (hL.2.2 _ _).2 hv⟩ (fun ts' hm' => ?_)⟩
      obtain ⟨n', r', hn', _, hrw, e⟩ := g4 ts' x r ((hL.2.2 _ _).1 hm') hr
      have hn' : normalizeJr out.ok (some r) (some p.url) = .ok (some n') := hn'
      rw [hn] at hn'
      cases hn'
      rw [e, k4]
      rw [k4] at hrw
      unfold Refs.rewrite at hrw
      dsimp only at hrw
      congr 1
      by_cases hst : Str.startsWith r (s% "#") = true
      · rw [if_pos hst] at hrw ⊢
        rw [show (refsEnv out (application out k) p.url _ _).split _ = _ from split_pointer (hS.good k1).url k3] at hrw
        cases hrw
        rfl
      · rw [if_neg hst] at hrw ⊢
        cases hrw
        rfl
    · refine attrs_find ⟨ts, (hL.2.2 _ _).2 hv⟩ (fun ts' hm => g5 ts' (fun y r hy hr' => ?_))
      have := Refs.scanned_unique hL ((hL.2.2 _ _).1 hm) hy
      subst this
      exact hr r hr'
  have hold : Holds3 main live cv rl at2 todo' { s'.world with world := remember s'.world.world (visits (cv p)) s'.attrs } :=
    ⟨hw'.holds.keeps, marks_scan hS hw'.holds.marks hsub2 hpl hp' g5, hw'.holds.original⟩
  obtain ⟨F, hF, hmerged⟩ : ∃ F, mergeAll out (application out k) (s% "v3_0_0.PathItem") (s% "2.0") (s% "3.0.0") (visits (cv p))
      { s'.world with world := remember s'.world.world (visits (cv p)) s'.attrs } =
        (.ok (), { s'.world with world := { remember s'.world.world (visits (cv p)) s'.attrs with finals := F } }) ∧
      (p = main → Merged3 main.url (cv main) { remember s'.world.world (visits (cv p)) s'.attrs with finals := F }) := by
    by_cases hpm : p = main
    · subst hpm
      obtain ⟨F, e, g1, _⟩ := merge_all3 hS hp' k (visits (cv p)) (fun v hv => (hL.2.2 _ _).1 hv) hold hknow
      exact ⟨F, e, fun _ ts x r hv hx hr => g1 ts x r ((hL.2.2 _ _).2 hv) hx hr⟩
    · refine ⟨_, mergeAll_nothing ?_, fun e => absurd e hpm⟩
      intro ts x hm hx
      have hv := (hL.2.2 _ _).1 hm
      cases x with
      | base c q spec kids =>
        simp only [className?, Option.some.injEq] at hx
        subst hx
        obtain ⟨d, rfl, _⟩ := hS.links p hpl ts _ q spec kids hv (by decide)
        obtain ⟨_, _, ht⟩ := hS.paths3
        have hno := (ht p hpl ts q d kids hv).resolve_right (fun h => hpm h.1)
        exact ⟨.null, Refs.refOf_none (q := q) (by decide +kernel) (by decide +kernel) hno, rfl⟩
      | _ => cases hx
  rw [hF]
  have hkeep : ∀ x, (∀ ts, ¬ Visited [] (cv p) ts x) → attrsOf (remember s'.world.world (visits (cv p)) s'.attrs) x = attrsOf s'.world.world x :=
    fun x hx => attrs_keep (fun ts hm => hx ts ((hL.2.2 _ _).1 hm))
  have ha1w : ∀ x, (∀ ts, ¬ Visited [] (cv p) ts x) → attrsOf a1.world x = attrsOf a.world x := by
    intro x hx
    subst ha1
    exact attrs_keep (fun ts hm => hx ts ((hL.2.2 _ _).1 hm))
  have hrest : a1.world.rest = a.world.rest ∧ a1.current = a.current := by subst ha1; exact ⟨rfl, rfl⟩
  refine ⟨todo', _, rfl, ⟨⟨hold.keeps, ⟨hold.marks.old, hold.marks.fresh⟩, hold.original⟩,
    fun q hq => (mem_without.1 (hw'.sub q hq)).1, ?_, ?_, ?_, hw'.rest.trans hrest.1, hw'.current.trans hrest.2⟩, hp', hmerged⟩
  · have := hw'.len
    have := length_without hp
    omega
  · intro q hq hqn
    by_cases e : q = p
    · subst e; exact hknow
    · refine (hw'.done q (mem_without.2 ⟨hq, e⟩) hqn).keep (fun _ h => h) (fun ts x hv => ?_)
      by_cases hx : ∃ us, Visited [] (cv p) us x
      · obtain ⟨us, hu⟩ := hx
        have hno : ∀ r, ¬ Refers Refs.normClasses3 x r := fun r => hS.apart p hpl q (hsub q hq) (Ne.symm e) us ts x r hu hv
        have h1 := (hknow us x hu).2 hno
        have h2 := (hw'.done q (mem_without.2 ⟨hq, e⟩) hqn ts x hv).2 hno
        exact h1.trans h2.symm
      · exact hkeep x (fun us hu => hx ⟨us, hu⟩)
  · intro x hx
    by_cases hxv : ∃ us, Visited [] (cv p) us x
    · obtain ⟨us, hu⟩ := hxv
      have h1 := (hknow us x hu).2 (hx p hp hp' us hu)
      exact h1.trans (h.marks.fresh p hp us x hu).symm
    · have hxv : ∀ ts, ¬ Visited [] (cv p) ts x := fun us hu => hxv ⟨us, hu⟩
      exact (hkeep x hxv).trans ((hw'.same x (fun q hq hqn => hx q (mem_without.1 hq).1 hqn)).trans (ha1w x hxv))

end Pyopenapi.Main
