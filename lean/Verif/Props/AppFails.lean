import Verif.Lemmas.Says
import Verif.Props.AppStages

/-!
# C104, C105: what a load or a migration that raises leaves behind
-/

namespace Pyopenapi
open Spec App

variable {O W : Type}

/-! ### C104: load_obj -/

/-- `get_under` without removing leaves the store alone. -/
theorem getUnder_keeps {st st' : Store O} {url jp ver : Str} {ov : Option (Dict O)} (h : st.getUnder url jp ver false = .ok (ov, st')) :
    st' = st := by
  unfold Store.getUnder at h
  rw [if_neg (by simp)] at h
  cases hu : Dict.get? st.objs url with
  | none => rw [hu] at h; cases h; rfl
  | some c =>
    rw [hu] at h
    dsimp only at h
    by_cases hc : c.isEmpty = true
    · rw [if_pos hc] at h; cases h; rfl
    · rw [if_neg hc] at h
      rw [if_neg (by simp)] at h
      cases h; rfl

/-- **C104.** A `load_obj` (not asked to remove the objects cached below) that raises leaves the application as it was: nothing is cached,
nothing is lost, and both versions are what they were; only the world outside may have changed. -/
theorem C104_failed_partial (env : AppEnv O W) (hroot : ∀ o, env.isRoot o = true → ∃ v, env.versionOf o = .ok v) (jref : Str)
    (parser : Option (Json → Str → W → R O × W)) (a b : App O W) (e : Err) (h : loadObj env jref parser false a = (.error e, b)) :
    b = { a with world := b.world } := by
  unfold loadObj at h
  split at h
  · cases h; rfl
  · dsimp only at h
    split at h
    · cases h; rfl
    · split at h
      · cases h; rfl
      · split at h
        · cases h; rfl
        · split at h
          · cases h
          · split at h
            · cases h; rfl
            · rename_i hu
              have := getUnder_keeps hu
              subst this
              split at h
              · cases h; rfl
              · split at h
                · cases h; rfl
                · split at h
                  · rename_i hr
                    obtain ⟨v, hv⟩ := hroot _ hr
                    rw [hv] at h
                    cases h
                  · cases h

theorem run_getUnder (versions : List Str) (hist : List (StoreOp O)) (url jp ver : Str) (rm : Bool) :
    Store.run versions (hist ++ [.getUnder url jp ver rm]) =
      match (Store.run versions hist).getUnder url jp ver rm with | .ok (_, st) => st | .error _ => Store.run versions hist := by
  unfold Store.run
  rw [List.foldl_append]
  rfl

theorem getUnder_entries {versions : List Str} {st st' : Store O} (hreach : Spec.Reachable versions st) {url jp ver : Str} {rm : Bool}
    {ov : Option (Dict O)} (h : st.getUnder url jp ver rm = .ok (ov, st')) (u p v : Str) :
    st'.entry u p v = st.entry u p v ∨ (rm = true ∧ st'.entry u p v = none ∧ u = url ∧ Str.startsWith p jp = true) := by
  obtain ⟨hist, hh⟩ := hreach
  by_cases hjp : jp = []
  · subst hjp
    cases rm with
    | true => cases h
    | false => rw [getUnder_keeps h]; exact .inl rfl
  · have := C38_get_under_removes versions hist url jp ver rm u p v hjp
    rw [run_getUnder, ← hh, h] at this
    dsimp only at this
    rw [this]
    by_cases hc : rm = true ∧ u = url ∧ v = ver ∧ Str.startsWith p jp = true
    · rw [if_pos hc]; exact .inr ⟨hc.1, rfl, hc.2.1, hc.2.2.2⟩
    · rw [if_neg hc, hh, (run_refines versions hist).2]; exact .inl rfl

/-- **C104.** One that is asked to remove the objects cached below and raises may have lost these, and nothing else. -/
theorem C104_failed_dummy (env : AppEnv O W) (hroot : ∀ o, env.isRoot o = true → ∃ v, env.versionOf o = .ok v) (jref : Str)
    (parser : Option (Json → Str → W → R O × W)) (dummy : Bool) (a b : App O W) {versions : List Str} (hreach : Spec.Reachable versions a.store)
    (e : Err) (h : loadObj env jref parser dummy a = (.error e, b)) :
    b.original = a.original ∧ b.current = a.current ∧
    ∀ u p v, b.store.entry u p v = a.store.entry u p v ∨
      (dummy = true ∧ b.store.entry u p v = none ∧ ∃ jp, env.split jref = .ok (u, jp) ∧ Str.startsWith p jp = true) := by
  unfold loadObj at h
  split at h
  · cases h; exact ⟨rfl, rfl, fun _ _ _ => .inl rfl⟩
  · dsimp only at h
    split at h
    · cases h; exact ⟨rfl, rfl, fun _ _ _ => .inl rfl⟩
    · split at h
      · cases h; exact ⟨rfl, rfl, fun _ _ _ => .inl rfl⟩
      · rename_i hs
        split at h
        · cases h; exact ⟨rfl, rfl, fun _ _ _ => .inl rfl⟩
        · split at h
          · cases h
          · split at h
            · cases h; exact ⟨rfl, rfl, fun _ _ _ => .inl rfl⟩
            · rename_i hu
              have key := fun u p v => (getUnder_entries hreach hu u p v).imp_right
                (fun g => (⟨g.1, g.2.1, _, by rw [g.2.2.1]; exact hs, g.2.2.2⟩ : _ ∧ _ ∧ ∃ jp, env.split jref = .ok (u, jp) ∧ Str.startsWith p jp = true))
              split at h
              · cases h; exact ⟨rfl, rfl, key⟩
              · split at h
                · cases h; exact ⟨rfl, rfl, key⟩
                · split at h
                  · rename_i hr
                    obtain ⟨v, hv⟩ := hroot _ hr
                    rw [hv] at h
                    cases h
                  · cases h

/-- **C104 (success).** A `load_obj` that succeeds caches at most the object it gives, at one place, under the pointer of the reference. -/
theorem C104_one_entry (env : AppEnv O W) (jref url jp : Str) (hs : env.split jref = .ok (url, jp))
    (parser : Option (Json → Str → W → R O × W)) (a b : App O W) (o : O) (h : loadObj env jref parser false a = (.ok o, b)) :
    b.current = a.current ∧
    (b.store = a.store ∨ ∃ u v, ∀ u' p' v', b.store.entry u' p' v' = if u = u' ∧ jp = p' ∧ v = v' then some o else a.store.entry u' p' v') := by
  unfold loadObj at h
  split at h
  · cases h
  · dsimp only at h
    split at h
    · cases h
    · rw [hs] at h
      dsimp only at h
      split at h
      · cases h
      · split at h
        · cases h; exact ⟨rfl, .inl rfl⟩
        · split at h
          · cases h
          · rename_i hu
            have := getUnder_keeps hu
            subst this
            split at h
            · cases h
            · split at h
              · cases h
              · rename_i o' u v w _ _
                split at h
                · split at h
                  · cases h
                  · cases h
                    exact ⟨rfl, .inr ⟨u, v, fun u' p' v' => entry_set _ _ _ _ _ _ _ _⟩⟩
                · cases h
                  exact ⟨rfl, .inr ⟨u, v, fun u' p' v' => entry_set _ _ _ _ _ _ _ _⟩⟩

/-- **C104 (violated: removing first).** Asked to remove the objects cached below (as the scanners that resolve references always do), a
`load_obj` of a 2.0 document that cannot be built has removed them nevertheless. -/
theorem C104_removed_violation (env : AppEnv O W) (jref url jp : Str) {versions : List Str} (a : App O W) (hreach : Spec.Reachable versions a.store)
    (parser : Option (Json → Str → W → R O × W)) (src : Json) (w1 : W) (e : Err) (hf : env.fetch jref a.world = (.ok src, w1))
    (hv : SaysVersion src (some (s% "2.0"))) (hs : env.split jref = .ok (url, jp)) (hjp : jp ≠ [])
    (hmiss : a.store.get (env.ops w1) url jp (s% "2.0") = .ok none) (hbad : ∀ ov, ∃ w, env.swagger src jref ov w1 = (.error e, w)) :
    ∃ b, loadObj env jref parser true a = (.error e, b) ∧
      ∀ p, Str.startsWith p jp = true → b.store.entry url p (s% "2.0") = none := by
  replace hv := specVersion_says hv
  obtain ⟨hist, hh⟩ := hreach
  have hne : jp.isEmpty = false := by cases jp; exact absurd rfl hjp; rfl
  have hgu : ∃ ov st, a.store.getUnder url jp (s% "2.0") true = .ok (ov, st) := by
    unfold Store.getUnder
    rw [hne]
    cases Dict.get? a.store.objs url with
    | none => exact ⟨_, _, rfl⟩
    | some c => cases c with
      | nil => exact ⟨_, _, rfl⟩
      | cons x xs => exact ⟨_, _, rfl⟩
  obtain ⟨ov, st, hu⟩ := hgu
  obtain ⟨w, hw⟩ := hbad ov
  refine ⟨{ a with store := st, world := w }, ?_, fun p hp => ?_⟩
  · unfold loadObj
    rw [hf]
    dsimp only
    rw [hv]
    dsimp only
    rw [hs]
    dsimp only
    rw [show a.store.get (env.ops w1) url jp ((some (s% "2.0")).getD []) = .ok none from hmiss]
    dsimp only [Option.filter]
    rw [show a.store.getUnder url jp ((some (s% "2.0")).getD []) true = .ok (ov, st) from hu]
    dsimp only
    unfold App.build
    dsimp only
    rw [if_neg (by decide), if_pos rfl, hw]
  · have := C38_get_under_removes versions hist url jp (s% "2.0") true url p (s% "2.0") hjp
    rw [if_pos ⟨rfl, rfl, rfl, hp⟩] at this
    have e : Store.run versions (hist ++ [.getUnder url jp (s% "2.0") true]) = st := by
      rw [run_getUnder, ← hh, hu]
    rw [e] at this
    exact this

/-- **C104 (what cannot be loaded).** A document of a version that is not supported, or without version when no class is given to build it,
raises NotImplementedError, unless it is cached. -/
theorem C104_unsupported (env : AppEnv O W) (jref url jp : Str) (a : App O W) (parser : Option (Json → Str → W → R O × W)) (src : Json)
    (w1 : W) (ver : Option Str) (hf : env.fetch jref a.world = (.ok src, w1)) (hsv : SaysVersion src ver)
    (hs : env.split jref = .ok (url, jp)) (hmiss : a.store.get (env.ops w1) url jp (ver.getD []) = .ok none)
    (hno : (∃ v, ver = some v ∧ v ∉ [s% "1.2", s% "2.0", s% "3.0.0"]) ∨ (ver = none ∧ parser = none)) :
    loadObj env jref parser false a = (.error .notImplemented, { a with world := w1 }) := by
  replace hsv := specVersion_says hsv
  unfold loadObj
  rw [hf]
  dsimp only
  rw [hsv]
  dsimp only
  rw [hs]
  dsimp only
  rw [hmiss]
  dsimp only [Option.filter]
  cases hu : a.store.getUnder url jp (ver.getD []) false with
  | error e =>
    unfold Store.getUnder at hu
    rw [if_neg (by simp)] at hu
    cases hg : Dict.get? a.store.objs url with
    | none => rw [hg] at hu; cases hu
    | some c =>
      rw [hg] at hu
      dsimp only at hu
      by_cases hc : c.isEmpty = true
      · rw [if_pos hc] at hu; cases hu
      · rw [if_neg hc] at hu; cases hu
  | ok x =>
    obtain ⟨ov, st⟩ := x
    have := getUnder_keeps hu
    subst this
    dsimp only
    rcases hno with ⟨v, rfl, hv⟩ | ⟨rfl, rfl⟩
    · unfold App.build
      dsimp only
      rw [if_neg (fun h : v = _ => hv (by rw [h]; decide)), if_neg (fun h : v = _ => hv (by rw [h]; decide)),
        if_neg (fun h : v = _ => hv (by rw [h]; decide))]
    · rfl

/-! ### C105: migrate_obj -/

/-- The upgrade modules and `prepare_obj` do not use the application (as for objects without references to other documents). -/
structure Quiet (env : AppEnv O W) : Prop where
  upgrade : ∀ v o jref a, env.upgrade v o jref a = ((env.upgrade v o jref a).1, { a with world := (env.upgrade v o jref a).2.world })
  prepare : ∀ o jref a, env.prepare o jref a = ((env.prepare o jref a).1, { a with world := (env.prepare o jref a).2.world })

theorem entry_updateRoutes (st : Store O) (url v : Str) (rs : Routes) (u p w : Str) : (st.updateRoutes url v rs).1.entry u p w = st.entry u p w := by
  unfold Store.updateRoutes
  dsimp only
  split <;> rfl

/-- What a loop that raises leaves: the versions `done` have an object each, the others what they had. -/
structure Left (env : AppEnv O W) (url : Str) (done : List Str) (a b : App O W) : Prop where
  current : b.current = a.current
  original : b.original = a.original
  others : ∀ u p w, u ≠ url ∨ w ∉ done → b.store.entry u p w = a.store.entry u p w
  stages : ∀ w ∈ done, ∃ p o, b.store.entry url p w = some o ∧ env.versionOf o = .ok w ∧
    ∀ q, q ≠ p → b.store.entry url q w = a.store.entry url q w

theorem migrateLoop_fails {env : AppEnv O W} (hq : Quiet env) (hver : Versioned env) {jref url : Str} {e : Err} {b : App O W} :
    ∀ (vs : List Str) (jp from_ : Str) (obj : O) (a : App O W), vs.Nodup → migrateLoop env jref url vs jp from_ obj a = (.error e, b) →
      ∃ done rest, vs = done ++ rest ∧ rest ≠ [] ∧ Left env url done a b
  | [], _, _, _, _, _, h => by cases h
  | v :: vs, jp, from_, obj, a, hn, h => by
    have stop : b.current = a.current → b.original = a.original → (∀ u p w, b.store.entry u p w = a.store.entry u p w) →
        ∃ done rest, v :: vs = done ++ rest ∧ rest ≠ [] ∧ Left env url done a b := fun h1 h2 h3 =>
      ⟨[], v :: vs, rfl, by simp, h1, h2, fun u p w _ => h3 u p w, fun w hw => by cases hw⟩
    unfold migrateLoop at h
    rw [hq.upgrade] at h
    cases hu : (env.upgrade v obj jref a).1 with
    | error e' => rw [hu] at h; cases h; exact stop rfl rfl (fun _ _ _ => rfl)
    | ok x =>
      obtain ⟨o1, rs⟩ := x
      rw [hu] at h
      dsimp only at h
      cases hr : a.store.updateRoutes url v [(jp, .nested rs)] with
      | mk st ur =>
        have hst : ∀ u p w, st.entry u p w = a.store.entry u p w := fun u p w => by
          have := entry_updateRoutes a.store url v [(jp, .nested rs)] u p w
          rwa [hr] at this
        rw [hr] at h
        cases ur with
        | error e' => cases h; exact stop rfl rfl hst
        | ok _ =>
          dsimp only at h
          cases hl : st.relocate url jp from_ v with
          | error e' => rw [hl] at h; cases h; exact stop rfl rfl hst
          | ok jp' =>
            rw [hl] at h
            dsimp only at h
            rw [hq.prepare] at h
            cases hp : (env.prepare o1 (url ++ jp') { a with store := st, world := (env.upgrade v obj jref a).2.world }).1 with
            | error e' => rw [hp] at h; cases h; exact stop rfl rfl hst
            | ok o2 =>
              rw [hp] at h
              dsimp only at h
              obtain ⟨hnv, hnvs⟩ := List.nodup_cons.1 hn
              obtain ⟨done, rest, e1, hne, hL⟩ := migrateLoop_fails hq hver vs jp' v o2 _ hnvs h
              refine ⟨v :: done, rest, by rw [e1]; rfl, hne, hL.current, hL.original, fun u p w hw => ?_, fun w hw => ?_⟩
              · rw [hL.others u p w (hw.imp_right (fun h h' => h (List.mem_cons_of_mem _ h'))), entry_set, if_neg, hst]
                rintro ⟨g1, _, g3⟩
                exact hw.elim (fun h => h g1.symm) (fun h => h (g3 ▸ List.mem_cons_self ..))
              · rcases List.mem_cons.1 hw with rfl | hw
                · have hwd : w ∉ done := fun h => hnv (e1 ▸ List.mem_append_left _ h)
                  refine ⟨jp', o2, ?_, ?_, fun q hq' => ?_⟩
                  · rw [hL.others url jp' w (.inr hwd), entry_set, if_pos ⟨rfl, rfl, rfl⟩]
                  · have h2 : env.prepare o1 (url ++ jp') { a with store := st, world := (env.upgrade w obj jref a).2.world } = (.ok o2, _) :=
                      (hq.prepare _ _ _).trans (by rw [hp])
                    have h1 : env.upgrade w obj jref a = (.ok (o1, rs), _) := (hq.upgrade _ _ _ _).trans (by rw [hu])
                    rw [hver.prepare _ _ _ _ _ h2, hver.upgrade _ _ _ _ _ _ _ h1]
                  · rw [hL.others url q w (.inr hwd), entry_set, if_neg (fun g => hq' g.2.1.symm), hst]
                · obtain ⟨p, o, g1, g2, g3⟩ := hL.stages w hw
                  refine ⟨p, o, g1, g2, fun q hq' => ?_⟩
                  have hwv : w ≠ v := fun h => hnv (e1 ▸ List.mem_append_left _ (h ▸ hw))
                  rw [g3 q hq', entry_set, if_neg (fun g => hwv g.2.2.symm), hst]

/-- **C105.** A migration that raises: `current_spec_version` and `original_spec_version` are what they were; the versions migrated to
before the failure (a proper initial part of those planned) have one object more each, of that version; everything else in the cache is
what it was. -/
theorem C105_failed {pv : Str → StrictVersion} (env : AppEnv O W) (hq : Quiet env) (hver : Versioned env) (a b : App O W)
    (ho : VersionOrder a.store.versions pv) (obj : O) (jref to url jp ov : Str) (f : StrictVersion) (e : Err)
    (hto : to ∈ a.store.versions) (hov : env.versionOf obj = .ok ov) (hf : parseVersion ov = .ok f) (hs : env.split jref = .ok (url, jp))
    (h : migrateObj env obj jref to a = (.error e, b)) :
    ∃ done rest, between a.store.versions pv f (pv to) = done ++ rest ∧ rest ≠ [] ∧ Left env url done a b := by
  unfold migrateObj at h
  rw [if_neg (fun h => h hto), hov] at h
  dsimp only at h
  rw [plan_eq ho hto hf] at h
  dsimp only at h
  rw [hs] at h
  dsimp only at h
  have hn : (between a.store.versions pv f (pv to)).Nodup := by
    refine List.Pairwise.filter _ (ho.sorted.imp ?_)
    intro x y hxy he
    rw [he, StrictVersion.lt_strictWeak.irrefl] at hxy
    cases hxy
  cases hl : migrateLoop env jref url (between a.store.versions pv f (pv to)) jp ov obj a with
  | mk res c =>
    rw [hl] at h
    cases res with
    | error e' => cases h; exact migrateLoop_fails hq hver _ _ _ _ _ hn hl
    | ok r => cases h

/-! ### Concrete cases -/

/-- The toy application, in which 2.0 documents cannot be built. -/
def brokenEnv : AppEnv (Str × Nat) (Nat × Nat) := { toyEnv with swagger := fun _ _ _ w => (.error .schemaError, w) }

/-- The toy application, in which upgrades to 3.0.0 raise. -/
def stuckEnv : AppEnv (Str × Nat) (Nat × Nat) :=
  { toyEnv with upgrade := fun v o _ a => if v = s% "3.0.0" then (.error .schemaError, a) else (.ok ((v, o.2 + 1), []), a) }

/-- An application in which a part of the document `http://h/b` is cached. -/
def partApp : App (Str × Nat) (Nat × Nat) :=
  ⟨Store.run [s% "1.2", s% "2.0", s% "3.0.0"] [.set (s% "2.0", 5) (s% "http://h/b") (s% "#/definitions/A") (s% "2.0")], s% "2.0", none, (0, 0)⟩

example : loadObj brokenEnv (s% "http://h/b") none false partApp = (.error .schemaError, { partApp with world := (0, 1) }) := rfl

example : { partApp with world := (0, 1) } = { partApp with world := (0, 1) } :=
  C104_failed_partial brokenEnv (fun o _ => ⟨o.1, rfl⟩) (s% "http://h/b") none partApp { partApp with world := (0, 1) } .schemaError rfl

example : ∃ b, loadObj brokenEnv (s% "http://h/b") none true partApp = (.error .schemaError, b) ∧
    b.store.entry (s% "http://h/b") (s% "#/definitions/A") (s% "2.0") = none := by
  obtain ⟨b, h1, h2⟩ := C104_removed_violation brokenEnv (s% "http://h/b") (s% "http://h/b") (s% "#") (versions := [s% "1.2", s% "2.0", s% "3.0.0"]) partApp
    ⟨_, rfl⟩ none (.obj [(s% "swaggerVersion", .str (s% "2.0")), (s% "x", .null)]) (0, 1) .schemaError rfl rfl rfl (by decide) rfl (fun _ => ⟨_, rfl⟩)
  exact ⟨b, h1, h2 _ rfl⟩

example : partApp.store.entry (s% "http://h/b") (s% "#/definitions/A") (s% "2.0") = some (s% "2.0", 5) := rfl

theorem stuck_quiet : Quiet stuckEnv :=
  ⟨fun v o j a => by by_cases h : v = s% "3.0.0" <;> simp [stuckEnv, toyEnv, h], fun o j a => rfl⟩

theorem stuck_versioned : Versioned stuckEnv :=
  ⟨fun v o j a o' rs b h => by
    by_cases hv : v = s% "3.0.0"
    · simp [stuckEnv, toyEnv, hv] at h
    · simp only [stuckEnv, toyEnv, hv, if_false] at h
      cases h; rfl, fun o j a o' b h => by cases h; rfl⟩

/-- From 1.2 the object gets to 2.0, where it is found afterwards. -/
example : ∃ b, migrateObj stuckEnv (s% "1.2", 7) (s% "http://h/b") (s% "3.0.0") partApp = (.error .schemaError, b) ∧
    Left stuckEnv (s% "http://h/b") [s% "1.2", s% "2.0"] partApp b := by
  refine ⟨_, rfl, ?_⟩
  obtain ⟨done, rest, e, hne, hL⟩ := C105_failed (pv := stagesPv) stuckEnv stuck_quiet stuck_versioned partApp _ packageVersions_ordered (s% "1.2", 7)
    (s% "http://h/b") (s% "3.0.0") (s% "http://h/b") (s% "#") (s% "1.2") ⟨1, 2, 0, none⟩ .schemaError (by decide) rfl rfl rfl rfl
  have hb : between partApp.store.versions stagesPv ⟨1, 2, 0, none⟩ (stagesPv (s% "3.0.0")) = [s% "1.2", s% "2.0", s% "3.0.0"] := by decide +kernel
  rw [hb] at e
  match done, rest, e, hne with
  | [], _, _, _ =>
    have := hL.others (s% "http://h/b") (s% "#") (s% "2.0") (.inr (by simp))
    exact absurd this (by decide +kernel)
  | [x], _, e, _ =>
    cases e
    have := hL.others (s% "http://h/b") (s% "#") (s% "2.0") (.inr (by decide))
    exact absurd this (by decide +kernel)
  | [x, y], _, e, _ => cases e; exact hL
  | [x, y, z], _, e, hne => cases e; exact absurd rfl hne
  | x :: y :: z :: t :: l, _, e, _ => cases e

/-- **C105 (refused).** A version that is not one of the application, an object that has no version or one that is no version, a
reference that cannot be split: an exception is raised (ValueError for the first), and nothing at all changes. -/
theorem C105_refused (env : AppEnv O W) (a : App O W) (obj : O) (jref to : Str) :
    (to ∉ a.store.versions → migrateObj env obj jref to a = (.error .valueError, a)) ∧
    (to ∈ a.store.versions → ∀ e, env.versionOf obj = .error e → migrateObj env obj jref to a = (.error e, a)) ∧
    (∀ ov e, env.versionOf obj = .ok ov → parseVersion ov = .error e → ∃ e', migrateObj env obj jref to a = (.error e', a)) ∧
    (∀ e, env.split jref = .error e → ∃ e', migrateObj env obj jref to a = (.error e', a)) := by
  refine ⟨fun h => ?_, fun h e he => ?_, fun ov e hov he => ?_, fun e he => ?_⟩
  · unfold migrateObj
    rw [if_pos h]
  · unfold migrateObj
    rw [if_neg (by simpa using h), he]
  · by_cases h : to ∈ a.store.versions
    · unfold migrateObj
      rw [if_neg (by simpa using h), hov]
      dsimp only
      cases hp : App.plan a.store.versions ov to with
      | error e' => exact ⟨e', rfl⟩
      | ok vs =>
        exfalso
        unfold App.plan at hp
        rw [he] at hp
        cases hi : Store.indexOf a.store.versions to with
        | error e' => rw [hi] at hp; cases hp
        | ok i => rw [hi] at hp; cases hp
    · exact ⟨.valueError, by unfold migrateObj; rw [if_pos h]⟩
  · by_cases h : to ∈ a.store.versions
    · unfold migrateObj
      rw [if_neg (by simpa using h)]
      cases hv : env.versionOf obj with
      | error e' => exact ⟨e', rfl⟩
      | ok ov =>
        dsimp only
        cases hp : App.plan a.store.versions ov to with
        | error e' => exact ⟨e', rfl⟩
        | ok vs => dsimp only; rw [he]; exact ⟨e, rfl⟩
    · exact ⟨.valueError, by unfold migrateObj; rw [if_pos h]⟩

/-- A version there is not. -/
example : migrateObj stuckEnv (s% "1.2", 7) (s% "http://h/b") (s% "4.0") partApp = (.error .valueError, partApp) :=
  (C105_refused _ _ _ _ _).1 (by decide)

end Pyopenapi
