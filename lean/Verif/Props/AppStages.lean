import Verif.Props.App

/-!
# C103: where resolve_obj starts from

What is asked for in a version in which it is not cached is migrated from the newest version in which it is; it is only loaded when no
version is cached and the reference is one of the document as it was loaded.
-/

namespace Pyopenapi
open Spec App

variable {O W : Type}

/-- Something is asked for (`jref`, a reference of version `from_`, as version `to`) that is not cached as version `to`. -/
structure Asked (versions : List Str) (pv : Str → StrictVersion) (env : AppEnv O W) (a : App O W) (jref from_ to url jp : Str) : Prop where
  order : VersionOrder versions pv
  reach : Spec.Reachable versions a.store
  ref_ne : jref ≠ []
  to_ne : to ≠ []
  split : env.split jref = .ok (url, jp)
  url_ne : url ≠ []
  from_mem : from_ ∈ versions
  to_mem : to ∈ versions
  missing : ∃ p, ((from_ ≠ to ∧ a.store.relocate url jp from_ to = .ok p) ∨ (from_ = to ∧ p = jp)) ∧
    a.store.get (env.ops a.world) url p to = .ok none

/-- `get_until` from `resolve_obj`: nothing cached at all. -/
theorem getUntil_none {versions : List Str} {pv : Str → StrictVersion} (ho : VersionOrder versions pv)
    (hist : List (StoreOp O)) (ops : ObjOps O) (url jp spec : Str) (until_ : Option Str)
    (hspec : spec ∈ versions) (huntil : ∀ u, until_ = some u → u ∈ versions ∧ u ≠ [])
    (hmiss : ∀ v, Candidate versions pv spec until_ v → Miss ops (Store.run versions hist) url jp spec v) :
    (Store.run versions hist).getUntil ops url jp spec until_ = .ok none := by
  cases h : (Store.run versions hist).getUntil ops url jp spec until_ with
  | error e =>
    obtain ⟨w, q, h1, h2, h3, _⟩ := C39_error ho hist ops url jp spec until_ hspec huntil h
    obtain ⟨q', hq', hm⟩ := hmiss w h1
    rw [h2] at hq'; cases hq'
    rw [h3] at hm
    rcases hm with hm | ⟨_, hm, _⟩ <;> cases hm
  | ok r =>
    cases r with
    | none => rfl
    | some x =>
      obtain ⟨o', q, w⟩ := x
      obtain ⟨h1, h2, h3, h4, _⟩ := C39_newest ho hist ops url jp spec until_ hspec huntil h
      obtain ⟨q', hq', hm⟩ := hmiss w h1
      rw [h2] at hq'; cases hq'
      rw [h3] at hm
      rcases hm with hm | ⟨_, hm, h'⟩ <;> cases hm
      rw [h4] at h'; cases h'

theorem resolve_miss {versions : List Str} {pv : Str → StrictVersion} {env : AppEnv O W} {a : App O W} {jref from_ to url jp : Str}
    (h : Asked versions pv env a jref from_ to url jp) (parser : Option (Json → Str → W → R O × W)) (dummy : Bool) :
    resolveObj env jref from_ parser (some to) dummy a =
      match resolveMiss env jref url jp from_ to parser dummy a with
      | (.error e, a) => (.error e, a)
      | (.ok (o, p), a) => (.ok (o, if env.isPrim o then p else url ++ p), a) := by
  obtain ⟨p, hp, hg⟩ := h.missing
  unfold resolveObj
  rw [if_neg h.ref_ne]
  dsimp only
  rw [if_neg h.to_ne, h.split]
  dsimp only
  rw [if_neg h.url_ne, if_neg h.url_ne]
  rcases hp with ⟨hne, hr⟩ | ⟨rfl, rfl⟩
  · rw [if_pos hne, hr]
    dsimp only
    rw [hg]
    rfl
  · rw [if_neg (by simp)]
    dsimp only
    rw [hg]
    rfl

/-- **C103 (from where it is).** What is cached in an older version, and in no newer one up to that asked for, is migrated from there: the
object cached (at the place the reference has there), with that place as its reference; the answer is the result, prepared, and the place
its reference has now.  The document is not loaded; if the migration raises, that is raised. -/
theorem C103_continues {versions : List Str} {pv : Str → StrictVersion} {env : AppEnv O W} {a : App O W} {jref from_ to url jp : Str}
    (h : Asked versions pv env a jref from_ to url jp) {v j : Str} {o : O} (hv : Candidate versions pv from_ (some to) v)
    (hj : a.store.relocate url jp from_ v = .ok j) (hg : a.store.get (env.ops a.world) url j v = .ok (some o))
    (ht : (env.ops a.world).truthy o = true)
    (hmiss : ∀ v', Candidate versions pv from_ (some to) v' → StrictVersion.lt (pv v) (pv v') = true →
      Miss (env.ops a.world) a.store url jp from_ v')
    (parser : Option (Json → Str → W → R O × W)) (dummy : Bool) :
    (∀ e b, migrateObj env o (url ++ j) to a = (.error e, b) → resolveObj env jref from_ parser (some to) dummy a = (.error e, b)) ∧
    (∀ r b r' c q, migrateObj env o (url ++ j) to a = (.ok r, b) → (env.ops b.world).truthy r = true →
      env.prepare r (url ++ j) b = (.ok r', c) → c.store.relocate url jp from_ to = .ok q →
      resolveObj env jref from_ parser (some to) dummy a = (.ok (r', if env.isPrim r' then q else url ++ q), c)) := by
  obtain ⟨hist, hh⟩ := h.reach
  have hun : a.store.getUntil (env.ops a.world) url jp from_ (some to) = .ok (some (o, j, v)) := by
    rw [hh] at hj hg hmiss ⊢
    exact C39_answers h.order hist _ url jp from_ (some to) h.from_mem (fun u hu => Option.some.inj hu ▸ ⟨h.to_mem, h.to_ne⟩) hv hj hg ht hmiss
  rw [resolve_miss h parser dummy]
  unfold resolveMiss
  rw [hun]
  dsimp only
  rw [if_pos ht]
  refine ⟨fun e b hm => ?_, fun r b r' c q hm htr hp hq => ?_⟩
  · rw [hm]
  · rw [hm]
    dsimp only
    rw [if_pos htr, hp]
    dsimp only
    rw [hq]

/-- **C103 (loading).** What is cached in no version is loaded, when the reference is one of the version the document had when it was
loaded; then it is migrated (by its own reference) and prepared. -/
theorem C103_loads {versions : List Str} {pv : Str → StrictVersion} {env : AppEnv O W} {a : App O W} {jref from_ to url jp : Str}
    (h : Asked versions pv env a jref from_ to url jp)
    (hmiss : ∀ v, Candidate versions pv from_ (some to) v → Miss (env.ops a.world) a.store url jp from_ v)
    (horig : from_ = a.original) (parser : Option (Json → Str → W → R O × W)) (dummy : Bool) :
    (∀ e b, loadObj env jref parser dummy a = (.error e, b) → resolveObj env jref from_ parser (some to) dummy a = (.error e, b)) ∧
    (∀ o b, loadObj env jref parser dummy a = (.ok o, b) → (env.ops b.world).truthy o = true →
      (∀ e c, migrateObj env o jref to b = (.error e, c) → resolveObj env jref from_ parser (some to) dummy a = (.error e, c)) ∧
      (∀ r c r' d q, migrateObj env o jref to b = (.ok r, c) → (env.ops c.world).truthy r = true →
        env.prepare r jref c = (.ok r', d) → d.store.relocate url jp from_ to = .ok q →
        resolveObj env jref from_ parser (some to) dummy a = (.ok (r', if env.isPrim r' then q else url ++ q), d))) := by
  obtain ⟨hist, hh⟩ := h.reach
  have hun : a.store.getUntil (env.ops a.world) url jp from_ (some to) = .ok none := by
    rw [hh] at hmiss ⊢
    exact getUntil_none h.order hist _ url jp from_ (some to) h.from_mem (fun u hu => Option.some.inj hu ▸ ⟨h.to_mem, h.to_ne⟩) hmiss
  rw [resolve_miss h parser dummy]
  unfold resolveMiss
  rw [hun]
  dsimp only
  rw [if_neg (fun hn => hn horig)]
  refine ⟨fun e b hl => by rw [hl], fun o b hl ht => ?_⟩
  rw [hl]
  dsimp only
  rw [if_pos ht]
  refine ⟨fun e c hm => by rw [hm], fun r c r' d q hm htr hp hq => ?_⟩
  rw [hm]
  dsimp only
  rw [if_pos htr, hp]
  dsimp only
  rw [hq]

/-- **C103 (nothing to start from).** What is cached in no version cannot be asked for by a reference of another version than that the
document had when it was loaded: an exception is raised, nothing is loaded and nothing changes. -/
theorem C103_refuses {versions : List Str} {pv : Str → StrictVersion} {env : AppEnv O W} {a : App O W} {jref from_ to url jp : Str}
    (h : Asked versions pv env a jref from_ to url jp)
    (hmiss : ∀ v, Candidate versions pv from_ (some to) v → Miss (env.ops a.world) a.store url jp from_ v)
    (horig : from_ ≠ a.original) (parser : Option (Json → Str → W → R O × W)) (dummy : Bool) :
    resolveObj env jref from_ parser (some to) dummy a = (.error .generic, a) := by
  obtain ⟨hist, hh⟩ := h.reach
  have hun : a.store.getUntil (env.ops a.world) url jp from_ (some to) = .ok none := by
    rw [hh] at hmiss ⊢
    exact getUntil_none h.order hist _ url jp from_ (some to) h.from_mem (fun u hu => Option.some.inj hu ▸ ⟨h.to_mem, h.to_ne⟩) hmiss
  rw [resolve_miss h parser dummy]
  unfold resolveMiss
  rw [hun]
  dsimp only
  rw [if_pos horig]

/-! ### Concrete cases -/

/-- The versions as numbers. -/
abbrev stagesPv : Str → StrictVersion := fun v => match parseVersion v with | .ok k => k | .error _ => ⟨0, 0, 0, none⟩

/-- An application in which the document `http://h/b` of 2.0 is cached. -/
def stagesApp : App (Str × Nat) (Nat × Nat) :=
  ⟨Store.run [s% "1.2", s% "2.0", s% "3.0.0"] [.set (s% "2.0", 0) (s% "http://h/b") (s% "#") (s% "2.0")], s% "2.0", none, (0, 0)⟩

theorem stages_asked : Asked [s% "1.2", s% "2.0", s% "3.0.0"] stagesPv toyEnv stagesApp (s% "http://h/b") (s% "2.0") (s% "3.0.0")
    (s% "http://h/b") (s% "#") :=
  ⟨packageVersions_ordered, ⟨_, rfl⟩, by decide, by decide, rfl, by decide, by decide, by decide, s% "#", .inl ⟨by decide, rfl⟩, rfl⟩

theorem stages_candidates : ∀ v, Candidate [s% "1.2", s% "2.0", s% "3.0.0"] stagesPv (s% "2.0") (some (s% "3.0.0")) v → v = s% "2.0" ∨ v = s% "3.0.0" := by
  rintro v (h | ⟨h, h', _⟩)
  · exact .inl h
  · rcases List.mem_cons.1 h with h | h
    · rw [h] at h'; exact absurd h' (by decide +kernel)
    · rcases List.mem_cons.1 h with h | h
      · exact .inl h
      · exact .inr (List.mem_singleton.1 h)

/-- The document cached as 2.0 is migrated (two upgrades are run on it) and nothing is fetched. -/
example : (resolveObj toyEnv (s% "http://h/b") (s% "2.0") none (some (s% "3.0.0")) false stagesApp).1 = .ok ((s% "3.0.0", 2), s% "http://h/b#") ∧
    (resolveObj toyEnv (s% "http://h/b") (s% "2.0") none (some (s% "3.0.0")) false stagesApp).2.world = (0, 0) := by
  have h := (C103_continues stages_asked (.inl rfl) rfl rfl rfl (fun v hv hlt => (stages_candidates v hv).elim
    (fun e => by rw [e] at hlt; exact absurd hlt (by decide +kernel)) (fun e => by rw [e]; exact ⟨s% "#", rfl, .inl rfl⟩)) none false).2
    (s% "3.0.0", 2) _ (s% "3.0.0", 2) _ (s% "#") rfl rfl rfl (by decide +kernel)
  rw [h]
  exact ⟨rfl, rfl⟩

/-- One that is not cached is loaded. -/
example : (resolveObj toyEnv (s% "http://h/c") (s% "2.0") none (some (s% "3.0.0")) false stagesApp).1 = .ok ((s% "3.0.0", 2), s% "http://h/c#") := by
  have hask : Asked [s% "1.2", s% "2.0", s% "3.0.0"] stagesPv toyEnv stagesApp (s% "http://h/c") (s% "2.0") (s% "3.0.0") (s% "http://h/c") (s% "#") :=
    ⟨packageVersions_ordered, ⟨_, rfl⟩, by decide, by decide, rfl, by decide, by decide, by decide, s% "#", .inl ⟨by decide, rfl⟩, rfl⟩
  have h := (((C103_loads hask (fun v hv => (stages_candidates v hv).elim (fun e => by rw [e]; exact ⟨s% "#", rfl, .inl rfl⟩)
    (fun e => by rw [e]; exact ⟨s% "#", rfl, .inl rfl⟩)) rfl none false).2 (s% "2.0", 0) _ rfl rfl).2 (s% "3.0.0", 2) _ (s% "3.0.0", 2) _ (s% "#") rfl rfl rfl (by decide +kernel))
  rw [h]
  rfl

/-- But not by a reference of 3.0.0. -/
example : resolveObj toyEnv (s% "http://h/c") (s% "3.0.0") none (some (s% "3.0.0")) false stagesApp = (.error .generic, stagesApp) :=
  C103_refuses (versions := [s% "1.2", s% "2.0", s% "3.0.0"]) (pv := stagesPv) (url := s% "http://h/c") (jp := s% "#")
    ⟨packageVersions_ordered, ⟨_, rfl⟩, by decide, by decide, rfl, by decide, by decide, by decide, s% "#", .inr ⟨rfl, rfl⟩, rfl⟩
    (fun v hv => by
      have : v = s% "3.0.0" := by
        rcases hv with h | ⟨h, h', _⟩
        · exact h
        · rcases List.mem_cons.1 h with h | h
          · rw [h] at h'; exact absurd h' (by decide +kernel)
          · rcases List.mem_cons.1 h with h | h
            · rw [h] at h'; exact absurd h' (by decide +kernel)
            · exact List.mem_singleton.1 h
      rw [this]; exact ⟨s% "#", rfl, .inl rfl⟩) (by decide) none false

/-- **C103 (no reference).** An empty reference is refused by ValueError, one that cannot be split with what the splitting raises, and
nothing changes. -/
theorem C103_empty (env : AppEnv O W) (jref from_ : Str) (parser : Option (Json → Str → W → R O × W)) (to : Option Str) (dummy : Bool)
    (a : App O W) :
    (jref = [] → resolveObj env jref from_ parser to dummy a = (.error .valueError, a)) ∧
    (jref ≠ [] → ∀ e, env.split jref = .error e → resolveObj env jref from_ parser to dummy a = (.error e, a)) := by
  refine ⟨fun h => ?_, fun h e he => ?_⟩
  · unfold resolveObj
    rw [if_pos h]
  · unfold resolveObj
    rw [if_neg h, he]

end Pyopenapi
