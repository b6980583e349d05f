import Verif.Props.Store
import Verif.Props.Routes

/-!
# Instances: every hypothesis of C35-C42 is met by a concrete case
-/
namespace Pyopenapi

open Str Spec

/-- Objects are strings; resolving appends the tokens. -/
def strOps : ObjOps Str := ⟨fun o ts => .ok (some (o ++ Str.joinC '.' ts)), fun _ => true⟩

/-- A history of two documents and two versions. -/
def storeHist : List (StoreOp Str) :=
  [.set (s% "old") (s% "u") (s% "#/definitions/A") (s% "2.0"),
   .set (s% "other") (s% "v") (s% "#") (s% "2.0"),
   .updateRoutes (s% "u") (s% "3.0.0") [(s% "#/definitions", .to (s% "#/components/schemas"))],
   .set (s% "new") (s% "u") (s% "#/components/schemas/A") (s% "3.0.0"),
   .set (s% "A") (s% "u") (s% "#/definitions/A") (s% "2.0")]

/-- C35: what was cached last, asked for below. -/
example : (Store.run [s% "1.2", s% "2.0", s% "3.0.0"] storeHist).get strOps (s% "u") (s% "#/definitions/A/a~1b") (s% "2.0") =
    .ok (some (s% "Aa/b")) :=
  C35_read_your_writes strOps _ storeHist (s% "u") (s% "#/definitions/A") (s% "2.0") (by decide) (s% "A") [s% "a/b"]
    rfl (fun p hp _ => by
      simp only [storeHist, Cache.run, List.foldl, Cache.step]
      rw [if_neg (fun h => hp h.2.1.symm), if_neg (fun h => absurd h.2.2 (by decide)),
        if_neg (fun h => absurd h.1 (by decide)), if_neg (fun h => hp h.2.1.symm)])

/-- C36: another version, another url. -/
example : (Store.run [s% "1.2", s% "2.0", s% "3.0.0"] (storeHist ++ [.set (s% "x") (s% "u") (s% "#") (s% "3.0.0"),
      .set (s% "y") (s% "w") (s% "#") (s% "2.0")])).get strOps (s% "u") (s% "#/definitions/A") (s% "2.0") =
    (Store.run [s% "1.2", s% "2.0", s% "3.0.0"] storeHist).get strOps (s% "u") (s% "#/definitions/A") (s% "2.0") :=
  C36_isolation_history strOps _ storeHist _ _ _ _ (by simp [StoreOp.touches])

example (st : Store Str) : (st.set (s% "x") (s% "u") (s% "#") (s% "3.0.0")).get strOps (s% "u") (s% "#/a") (s% "2.0") =
    st.get strOps (s% "u") (s% "#/a") (s% "2.0") :=
  C36_isolation strOps st _ _ _ _ _ _ _ (Or.inr (by decide))

/-- C37: no cached pointer is a prefix of the text without being an ancestor. -/
example : ((Store.run [s% "2.0"] storeHist).get strOps (s% "u") (s% "#/definitions/A/x") (s% "2.0") = .ok none ∧
      ∀ p, Spec.ancestor p (s% "#/definitions/A/x") → Spec.Cache.run storeHist (s% "u") p (s% "2.0") = none) ∨
    ∃ p o, Spec.ancestor p (s% "#/definitions/A/x") ∧ Spec.Cache.run storeHist (s% "u") p (s% "2.0") = some o ∧
      ((s% "#/definitions/A/x" = p ∧ (Store.run [s% "2.0"] storeHist).get strOps (s% "u") (s% "#/definitions/A/x") (s% "2.0") = strOps.resolve o []) ∨
       ∃ r, s% "#/definitions/A/x" = p ++ '/' :: r ∧ (Store.run [s% "2.0"] storeHist).get strOps (s% "u") (s% "#/definitions/A/x") (s% "2.0") =
        strOps.resolve o ((Str.splitC '/' r).map Spec.unescape)) :=
  C37_segment_partial strOps _ storeHist _ _ _ (fun p o hp _ => by
    have : s% "#/definitions/A" = p := by
      simp only [storeHist, Cache.run, List.foldl, Cache.step] at hp
      split at hp
      · next h => exact h.2.1
      · next h =>
        rw [if_neg (fun h => absurd h.2.2 (by decide)), if_neg (fun h => absurd h.1 (by decide))] at hp
        cases hp
    exact Or.inr ⟨s% "x", by rw [← this]; rfl⟩)

/-- The answer of `get_under` for the definitions. -/
def storeUnder : Store Str :=
  match (Store.run [s% "2.0"] storeHist).getUnder (s% "u") (s% "#/definitions") (s% "2.0") true with
  | .ok p => p.2
  | .error _ => Store.run [] []

/-- C38: what lies below is returned, under the rest of its pointer. -/
example : ∃ o', Dict.get? [(s% "A", s% "A")] ((s% "#/definitions/A").drop 14) = some o' ∧
    ((∀ q, Str.startsWith q (s% "#/definitions") = true → Spec.Cache.run storeHist (s% "u") q (s% "2.0") ≠ none →
      q.drop 14 = (s% "#/definitions/A").drop 14 → q = s% "#/definitions/A") → o' = s% "A") :=
  (C38_get_under_result [s% "2.0"] storeHist (s% "u") (s% "#/definitions") (s% "2.0") true [(s% "A", s% "A")] storeUnder
    rfl).2 (s% "#/definitions/A") (s% "A") (by decide) rfl

example : (Store.run [s% "2.0"] (storeHist ++ [.getUnder (s% "u") (s% "#/definitions") (s% "2.0") true])).entry
    (s% "v") (s% "#") (s% "2.0") = some (s% "other") :=
  (C38_get_under_removes [s% "2.0"] storeHist (s% "u") (s% "#/definitions") (s% "2.0") true (s% "v") (s% "#") (s% "2.0")
    (by decide)).trans rfl

example : (Store.run [s% "2.0"] storeHist).getUnder (s% "w") (s% "#") (s% "2.0") true =
    .ok (none, Store.run [s% "2.0"] storeHist) :=
  C38_unknown_url _ _ _ _ (by decide) _ (by decide +kernel)

/-- The store after the history, with the versions of the package. -/
abbrev storeThree : Store Str := Store.run [s% "1.2", s% "2.0", s% "3.0.0"] storeHist

/-- The versions as numbers. -/
abbrev packagePv : Str → StrictVersion := fun v => match parseVersion v with | .ok k => k | .error _ => ⟨0, 0, 0, none⟩

/-- C39: the newest migration, at its new place. -/
example : storeThree.relocate (s% "u") (s% "#/definitions/A/x") (s% "2.0") (s% "3.0.0") = .ok (s% "#/components/schemas/A/x") ∧
    storeThree.get strOps (s% "u") (s% "#/components/schemas/A/x") (s% "3.0.0") = .ok (some (s% "newx")) := by
  have h := (C39_newest packageVersions_ordered storeHist strOps (s% "u") (s% "#/definitions/A/x") (s% "2.0") none (by decide)
    (by intro u h; cases h) (o := s% "newx") (p := s% "#/components/schemas/A/x") (v := s% "3.0.0") (by decide +kernel)).2
  exact ⟨h.1, h.2.1⟩

/-- C39: nothing is cached there in any version. -/
example : Miss strOps storeThree (s% "u") (s% "#/paths") (s% "2.0") (s% "3.0.0") :=
  C39_nothing packageVersions_ordered storeHist strOps (s% "u") (s% "#/paths") (s% "2.0") (some (s% "3.0.0")) (by decide)
    (by intro u h; cases h; decide) (by decide +kernel) _ (Or.inr ⟨by decide, by decide +kernel, fun u h => by cases h; decide +kernel⟩)

/-- C39: objects that cannot resolve anything. -/
example : ∃ v p, Candidate [s% "1.2", s% "2.0", s% "3.0.0"] packagePv (s% "2.0") none v ∧
    storeThree.relocate (s% "u") (s% "#/definitions/A/x") (s% "2.0") v = .ok p ∧
      storeThree.get ⟨fun _ _ => .error .keyError, fun _ => true⟩ (s% "u") p v = .error .keyError :=
  (C39_error packageVersions_ordered storeHist ⟨fun _ _ => .error .keyError, fun _ => true⟩ (s% "u") (s% "#/definitions/A/x")
    (s% "2.0") none (by decide) (by intro u h; cases h) (by decide +kernel)).imp fun _ h => h.imp fun _ h => ⟨h.1, h.2.1, h.2.2.1⟩

example : storeThree.getUntil strOps (s% "u") (s% "#") (s% "1.1") none = .error .valueError :=
  C39_unknown_version (by decide +kernel) storeHist strOps _ _ _ _ (by decide)

/-- C40. -/
example : storeThree.relocate (s% "u") (s% "#/definitions/A/x") (s% "1.2") (s% "3.0.0") =
    (do let m ← storeThree.relocate (s% "u") (s% "#/definitions/A/x") (s% "1.2") (s% "2.0")
        storeThree.relocate (s% "u") m (s% "2.0") (s% "3.0.0")) :=
  C40_relocate_composes packageVersions_ordered storeHist _ _ _ _ _ (by decide) (by decide) (by decide)
    (by decide +kernel) (by decide +kernel)

example : storeThree.relocate (s% "u") (s% "#/definitions/A") (s% "2.0") (s% "2.0") = .ok (s% "#/definitions/A") :=
  C40_relocate_identity packageVersions_ordered storeHist _ _ _ _ (by decide) (by decide) (by decide +kernel)

example : storeThree.relocate (s% "u") (s% "#/definitions/A") (s% "2.0") (s% "4.0") = .error .generic :=
  C40_relocate_unsupported _ _ _ _ _ _ rfl (by decide +kernel)

/-- C41. -/
example : patchJp (s% "#/paths/a") [(s% "#/definitions", .to (s% "#/components/schemas"))] = s% "#/paths/a" :=
  C41_unmatched _ _ (fun f t h ⟨r, hr⟩ => by
    simp only [List.mem_singleton, Prod.mk.injEq] at h
    rw [h.1] at hr
    cases hr)

example : patchJp (s% "#/a/b/c") [(s% "#/a", .to (s% "#/x")), (s% "#/a/b", .to (s% "#/y"))] =
    patchJp (s% "#/a/b/c") [(s% "#/a/b", .to (s% "#/y")), (s% "#/a", .to (s% "#/x"))] :=
  C41_order_independent _ _ _
    (.cons (e1 := [(s% "#/a/b", .to (s% "#/y"))]) (e2 := []) (.to _) (.cons (e1 := []) (e2 := []) (.to _) .nil))
    (.mk (by simp [Dict.NodupKeys, Dict.keys]) (by
      intro f t h
      simp only [List.mem_cons, Prod.mk.injEq, List.not_mem_nil, or_false] at h
      rcases h with h | h <;> rw [h.2] <;> exact .to _))
    (.mk (by simp [Dict.NodupKeys, Dict.keys]) (by
      intro f t h
      simp only [List.mem_cons, Prod.mk.injEq, List.not_mem_nil, or_false] at h
      rcases h with h | h <;> rw [h.2] <;> exact .to _))

example : patchJp (s% "#/a/b/c") [(s% "#/a", .to (s% "#/x")), (s% "#/a/b", .to (s% "#/y"))] = s% "#/y/c" :=
  C41_longest_route (rs := [(s% "#/a", .to (s% "#/x")), (s% "#/a/b", .to (s% "#/y"))]) (ks := [s% "#/a/b"]) (t := s% "#/y")
    (rest := s% "/c") (l := s% "#/a/b") (k0 := s% "#/a/b")
    (Follow.last (k := s% "#/a/b") (rest := s% "/c") (by decide) ⟨by simp, ⟨_, rfl⟩, by
      intro f t h _
      simp only [List.mem_cons, Prod.mk.injEq, List.not_mem_nil, or_false] at h
      rcases h with h | h <;> rw [h.1] <;> decide⟩)
    (.mk (by simp [Dict.NodupKeys, Dict.keys]) (by
      intro f t h
      simp only [List.mem_cons, Prod.mk.injEq, List.not_mem_nil, or_false] at h
      rcases h with h | h <;> rw [h.2] <;> exact .to _))
    rfl (by decide) rfl (Or.inr (Or.inl ⟨by decide, s% "c", rfl, by decide, rfl⟩)) rfl

/-- C42. -/
example : Dict.get? (storeThree.routesAt (s% "u") (s% "3.0.0")) (s% "#/definitions") = some (.to (s% "#/components/schemas")) :=
  (C42_last_route_wins (by decide +kernel) storeHist (by
    intro u t rs h
    simp only [storeHist, List.mem_cons, List.not_mem_nil, or_false, reduceCtorEq, StoreOp.updateRoutes.injEq, false_or] at h
    rw [h.2.2]
    simp [Dict.NodupKeys, Dict.keys]) (s% "u") (s% "3.0.0") (s% "#/definitions")).1.trans rfl

example : storeThree.relocate (s% "u") (s% "#/definitions/A") (s% "2.0") (s% "3.0.0") =
    .ok (patchJp (s% "#/definitions/A") (storeThree.routesAt (s% "u") (s% "3.0.0"))) :=
  C42_relocate_uses_routes packageVersions_ordered storeHist _ _ _ _ (by decide) (by decide) (by decide +kernel)
    (by decide +kernel)

example : (storeThree.updateRoutes (s% "u") (s% "4.0") [(s% "#/a", .to (s% "#/b"))]).2 = .error .generic :=
  (C42_unsupported_raises packageVersions_ordered storeHist _ _ _ (by decide)).1

end Pyopenapi
