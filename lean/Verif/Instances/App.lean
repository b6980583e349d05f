import Verif.Props.App
import Verif.Instances.Store
import Verif.Props.Resolver

/-!
# Instances: every hypothesis of C16, C43 and C66-C70 is met by a concrete case
-/
namespace Pyopenapi
namespace Inst

open Spec App

/-- C43: a loader that answers `a` and would answer something else later. -/
def twoCalls : List (Str × (Nat → Str → R Json × Nat)) :=
  [(s% "a", fun n _ => (.ok (.obj [(s% "x", .int 1)]), n)), (s% "a", fun n _ => (.ok (.obj [(s% "x", .int 2)]), n + 1)),
   (s% "b", fun n _ => (.ok (.obj [(s% "y", .null)]), n))]

example (r : R Json) : (history (fun r => .ok (r, s% "#")) twoCalls ⟨[], (0, [])⟩).world.2[1]? ≠ some (s% "a", r) :=
  C43_fetched_once _ twoCalls 0 0 1 (s% "a") (.obj [(s% "x", .int 1)]) r (by decide) rfl rfl

example (load : Nat × List (Str × R Json) → Str → R Json × (Nat × List (Str × R Json))) :
    Resolver.resolve (fun r => .ok (r, s% "#/x")) load (history (fun r => .ok (r, s% "#/x")) twoCalls ⟨[], (0, [])⟩) (s% "a") =
      (.ok (.int 1), history (fun r => .ok (r, s% "#/x")) twoCalls ⟨[], (0, [])⟩) :=
  C43_answered_from_cache (fun r => .ok (r, s% "#/x")) twoCalls 0 (s% "a") (.obj [(s% "x", .int 1)]) rfl
    (List.mem_of_getElem? (i := 0) rfl) load (s% "a") (s% "#/x") rfl

/-! ### The small application of Props/App -/

/-- The application after a 2.0 document was loaded. -/
abbrev loaded : App (Str × Nat) (Nat × Nat) := (loadObj toyEnv (s% "http://h/b") none false toyApp).2
/-- And after it was migrated. -/
abbrev migrated : App (Str × Nat) (Nat × Nat) := (migrateObj toyEnv (s% "2.0", 0) (s% "http://h/b") (s% "3.0.0") loaded).2

theorem loaded_versions : loaded.store.versions = [s% "1.2", s% "2.0", s% "3.0.0"] := rfl

theorem toy_versioned : Versioned toyEnv := ⟨fun v o j a o' rs b h => by
    simp only [toyEnv, Prod.mk.injEq, Except.ok.injEq] at h
    rw [← h.1.1]; rfl,
  fun o j a o' b h => by
    simp only [toyEnv, Prod.mk.injEq, Except.ok.injEq] at h
    rw [h.1]⟩

theorem toy_steady (versions : List Str) (pv : Str → StrictVersion) (url jp from_ : Str) : Steady toyEnv versions pv url jp from_ :=
  ⟨fun v o j a o' rs b h => by
    simp only [toyEnv, Prod.mk.injEq, Except.ok.injEq] at h
    rw [← h.2]; exact ⟨[], rfl⟩,
  fun v o j a o' rs b h => by
    simp only [toyEnv, Prod.mk.injEq, Except.ok.injEq] at h
    rw [← h.2]; exact fun _ _ _ _ => rfl⟩

/-- C16. -/
example : ∃ es, (migrateObj (logged toyEnv) (s% "2.0", 7) (s% "http://h/b") (s% "3.0.0") (withLog toyApp [])).2.world.2 = [] ++ es ∧
    (∃ n, started es = (between [s% "1.2", s% "2.0", s% "3.0.0"] packagePv ⟨2, 0, 0, none⟩ (packagePv (s% "3.0.0"))).take n) ∧
    ∀ r, (migrateObj (logged toyEnv) (s% "2.0", 7) (s% "http://h/b") (s% "3.0.0") (withLog toyApp [])).1 = .ok r →
      Migration (between [s% "1.2", s% "2.0", s% "3.0.0"] packagePv ⟨2, 0, 0, none⟩ (packagePv (s% "3.0.0"))) (s% "2.0", 7) es r :=
  C16_plan toyEnv (withLog toyApp []) packageVersions_ordered (s% "2.0", 7) (s% "http://h/b") (s% "3.0.0") (s% "2.0") ⟨2, 0, 0, none⟩
    (by decide) rfl (by decide +kernel)

example : migrateObj toyEnv (s% "2.0", 7) (s% "http://h/b") (s% "2.5") toyApp = (.error .valueError, toyApp) :=
  C16_unsupported toyEnv toyApp _ _ _ (by decide)

example : migrateObj toyEnv (s% "3.0.0", 7) (s% "http://h/b") (s% "1.2") toyApp = (.ok (s% "3.0.0", 7), { toyApp with current := some (s% "1.2") }) :=
  C16_newer toyEnv toyApp packageVersions_ordered (s% "3.0.0", 7) (s% "http://h/b") (s% "1.2") (s% "3.0.0") ⟨3, 0, 0, none⟩
    (s% "http://h/b", s% "#") (by decide) rfl (by decide +kernel) rfl (by decide +kernel)

/-- C66. -/
example : resolveObj toyEnv (s% "http://h/b") (s% "2.0") none (some (s% "3.0.0")) false migrated =
    (.ok ((s% "3.0.0", 2), s% "http://h/b#"), migrated) :=
  C66_cached toyEnv (s% "http://h/b") (s% "2.0") none (s% "3.0.0") false migrated (s% "http://h/b") (s% "#") (s% "#") (s% "3.0.0", 2)
    (by decide) (by decide) rfl (by decide) (Or.inl ⟨by decide, by decide +kernel⟩) (by decide +kernel)

/-- C67. -/
example : migrated.current = some (s% "3.0.0") ∧ toyEnv.versionOf (s% "3.0.0", 2) = .ok (s% "3.0.0") :=
  C67_truthful_partial (pv := packagePv) toyEnv toy_versioned loaded migrated packageVersions_ordered (s% "2.0", 0) (s% "3.0.0", 2) (s% "http://h/b") (s% "3.0.0")
    (s% "2.0") ⟨2, 0, 0, none⟩ (by decide +kernel) rfl (by decide +kernel) (by decide +kernel) rfl rfl

/-- The document of 2.0 the small application loads. -/
def toySrc : Json := .obj [(s% "swaggerVersion", .str (s% "2.0")), (s% "x", .null)]

/-- The histories of the two stores. -/
def loadedHist : List (StoreOp (Str × Nat)) := [.getUnder (s% "http://h/b") (s% "#") (s% "2.0") false, .set (s% "2.0", 0) (s% "http://h/b") (s% "#") (s% "2.0")]

theorem loaded_store : loaded.store = Store.run [s% "1.2", s% "2.0", s% "3.0.0"] loadedHist := rfl

/-- C68. -/
example : loadObj toyEnv (s% "http://h/b") none true loaded = (.ok (s% "2.0", 0), { loaded with world := (1, 2) }) :=
  C68_loaded_is_cached_partial toyEnv (s% "http://h/b") none none false true toyApp loaded (s% "2.0", 0) toySrc (0, 1) (1, 2) (s% "2.0")
    (s% "http://h/b") (s% "#") (versions := [s% "1.2", s% "2.0", s% "3.0.0"]) ⟨[], rfl⟩ rfl rfl (by decide) rfl rfl rfl rfl rfl rfl
    (fun q hq _ => by
      rw [loaded_store, (run_refines _ _).2]
      simp only [loadedHist, Cache.run, List.foldl, Cache.step]
      rw [if_neg (fun h => hq h.2.1.symm), if_neg (fun h => absurd h.1 (by decide))])

/-- C69. -/
example : toyEnv.versionOf (s% "2.0", 0) = .ok loaded.original :=
  ((C69_original toyEnv (s% "http://h/b") none false toyApp loaded (s% "2.0", 0) toySrc (0, 1) (some (s% "2.0"))
    (s% "http://h/b") (s% "#") rfl rfl rfl rfl).1 rfl).1 rfl

def migratedHist : List (StoreOp (Str × Nat)) := loadedHist ++
  [.updateRoutes (s% "http://h/b") (s% "2.0") [(s% "#", .nested [])], .set (s% "2.0", 1) (s% "http://h/b") (s% "#") (s% "2.0"),
   .updateRoutes (s% "http://h/b") (s% "3.0.0") [(s% "#", .nested [(s% "definitions/x", .to (s% "components/schemas/x"))])],
   .set (s% "3.0.0", 2) (s% "http://h/b") (s% "#") (s% "3.0.0")]

theorem migrated_objs : migrated.store.objs = (Store.run [s% "1.2", s% "2.0", s% "3.0.0"] migratedHist).objs := by
  let d2 : DecidableEq (List (Str × (Str × Nat))) := inferInstance
  let d3 : DecidableEq (List (Str × List (Str × (Str × Nat)))) := inferInstance
  let d4 : DecidableEq (List (Str × List (Str × List (Str × (Str × Nat))))) := inferInstance
  exact @of_decide_eq_true _ (d4 _ _) (by decide +kernel)

/-- C70. -/
example : ∃ p, migrated.store.relocate (s% "http://h/b") (s% "#") (s% "2.0") (s% "3.0.0") = .ok p ∧
    resolveObj toyEnv (s% "http://h/b") (s% "2.0") none (some (s% "3.0.0")) false migrated =
      (.ok ((s% "3.0.0", 2), s% "http://h/b" ++ p), migrated) :=
  C70_migrated_is_found (pv := packagePv) toyEnv loaded migrated packageVersions_ordered ⟨loadedHist, loaded_store⟩ (s% "2.0", 0) (s% "3.0.0", 2)
    (s% "http://h/b") (s% "http://h/b") (s% "#") (s% "2.0") (s% "3.0.0") (fun _ _ _ => rfl) (toy_steady _ _ _ _ _) (fun _ => rfl)
    (by decide) (by decide) rfl (by decide) rfl (by decide +kernel) (by decide +kernel) (by decide +kernel) rfl
    (fun p q hp hq _ => by
      have : migrated.store.relocate (s% "http://h/b") (s% "#") (s% "2.0") (s% "3.0.0") = .ok (s% "#") := by decide +kernel
      have hp : p = s% "#" := by rw [this] at hp; exact (Except.ok.inj hp).symm
      rw [hp] at hq
      have he : migrated.store.entry (s% "http://h/b") q (s% "3.0.0") =
          (Store.run [s% "1.2", s% "2.0", s% "3.0.0"] migratedHist).entry (s% "http://h/b") q (s% "3.0.0") := by
        unfold Store.entry; rw [migrated_objs]
      rw [he, (run_refines _ _).2]
      simp only [migratedHist, loadedHist, Cache.run, List.foldl, Cache.step, List.cons_append, List.nil_append]
      rw [if_neg (fun h => hq h.2.1.symm), if_neg (fun h => absurd h.2.2 (by decide)), if_neg (fun h => absurd h.2.2 (by decide)),
        if_neg (fun h => absurd h.1 (by decide))]) none false

end Inst
end Pyopenapi
