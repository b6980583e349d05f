import Verif.Lemmas.Says
import Verif.Spec.App
import Verif.Props.Routes
import Verif.Props.Store

/-!
# C16, C66-C69: loading, migrating and resolving objects
-/

namespace Pyopenapi
open Spec App

variable {O W : Type}

/-! ### C16 -/

theorem planLoop_eq {pv : Str → StrictVersion} (f : StrictVersion) (vs : List Str)
    (h : ∀ v ∈ vs, parseVersion v = .ok (pv v)) :
    planLoop f vs = .ok (vs.filter (fun v => !StrictVersion.lt (pv v) f)) := by
  induction vs with
  | nil => rfl
  | cons v vs ih =>
    rw [planLoop, h v (List.mem_cons_self ..), ih (fun v hv => h v (List.mem_cons_of_mem _ hv))]
    simp only [bind, Except.bind, pure, Except.pure]
    rw [List.filter_cons]
    cases StrictVersion.lt (pv v) f <;> simp

theorem take_eq_filter {versions : List Str} {pv : Str → StrictVersion} (ho : VersionOrder versions pv)
    {i : Nat} (hi : i < versions.length) :
    versions.take (i + 1) = versions.filter (fun v => !StrictVersion.lt (pv versions[i]) (pv v)) := by
  have hs := List.pairwise_iff_getElem.1 ho.sorted
  have hap : ∀ p : Str → Bool, versions.filter p = (versions.take (i + 1)).filter p ++ (versions.drop (i + 1)).filter p := by
    intro p
    rw [← List.filter_append, List.take_append_drop]
  have h1 : (versions.take (i + 1)).filter (fun v => !StrictVersion.lt (pv versions[i]) (pv v)) = versions.take (i + 1) := by
    rw [List.filter_eq_self]
    intro v hv
    obtain ⟨m, hm, rfl⟩ := List.mem_iff_getElem.1 hv
    simp only [List.length_take] at hm
    simp only [List.getElem_take, Bool.not_eq_true']
    by_cases he : m = i
    · subst he; exact StrictVersion.lt_strictWeak.irrefl _
    · exact StrictVersion.lt_strictWeak.asymm _ _ (hs m i (by omega) hi (by omega))
  have h2 : (versions.drop (i + 1)).filter (fun v => !StrictVersion.lt (pv versions[i]) (pv v)) = [] := by
    rw [List.filter_eq_nil_iff]
    intro v hv
    obtain ⟨m, hm, rfl⟩ := List.mem_iff_getElem.1 hv
    simp only [List.length_drop] at hm
    simp only [List.getElem_drop, Bool.not_eq_true', Bool.not_eq_false]
    exact hs i (i + 1 + m) hi (by omega) (by omega)
  rw [hap, h1, h2, List.append_nil]

theorem plan_eq {versions : List Str} {pv : Str → StrictVersion} (ho : VersionOrder versions pv) {ov to : Str}
    {f : StrictVersion} (hto : to ∈ versions) (hf : parseVersion ov = .ok f) :
    plan versions ov to = .ok (between versions pv f (pv to)) := by
  obtain ⟨i, hi, he, hx⟩ := indexOf_mem hto
  unfold plan
  rw [he, hf]
  simp only [bind, Except.bind]
  rw [planLoop_eq (pv := pv) f _ (fun v hv => ho.parse v (List.mem_of_mem_take hv)), take_eq_filter ho hi,
    List.filter_filter, hx]
  rfl

/-- What a loop of migrations did, success or not. -/
theorem migrateLoop_log (env : AppEnv O W) (jref url : Str) (vs : List Str) : ∀ (jp from_ : Str) (obj : O)
    (a : App O (W × List (Ev O))), ∃ es, (migrateLoop (logged env) jref url vs jp from_ obj a).2.world.2 = a.world.2 ++ es ∧
      (∃ n, started es = vs.take n) ∧
      (∀ r, (migrateLoop (logged env) jref url vs jp from_ obj a).1 = .ok r → Migration vs obj es r) := by
  induction vs with
  | nil =>
    intro jp from_ obj a
    refine ⟨[], by simp [migrateLoop], ⟨0, rfl⟩, fun r h => ?_⟩
    simp only [migrateLoop, Except.ok.injEq] at h
    subst h
    exact .nil _
  | cons v vs ih =>
    intro jp from_ obj a
    have hup : ∀ b, (logged env).upgrade v obj jref a = b → (∃ e c, b = (.error e, c) ∧ c.world.2 = a.world.2 ++ [.upFailed v obj]) ∨
        (∃ o1 rs c, b = (.ok (o1, rs), c) ∧ c.world.2 = a.world.2 ++ [.up v obj o1]) := by
      rintro b rfl
      simp only [logged]
      cases env.upgrade v obj jref (unlog a) with
      | mk r c =>
        cases r with
        | error e => exact .inl ⟨_, _, rfl, rfl⟩
        | ok x => exact .inr ⟨_, _, _, rfl, rfl⟩
    rcases hup _ rfl with ⟨e, c, hu, hc⟩ | ⟨o1, rs, c, hu, hc⟩
    · refine ⟨[.upFailed v obj], ?_, ⟨1, by simp [started]⟩, fun r h => ?_⟩
      · simp only [migrateLoop, hu, hc]
      · simp only [migrateLoop, hu] at h; cases h
    · have fail : ∀ (e : Err) (b : App O (W × List (Ev O))), b.world.2 = c.world.2 →
          migrateLoop (logged env) jref url (v :: vs) jp from_ obj a = (.error e, b) →
          ∃ es, (migrateLoop (logged env) jref url (v :: vs) jp from_ obj a).2.world.2 = a.world.2 ++ es ∧
            (∃ n, started es = (v :: vs).take n) ∧
            (∀ r, (migrateLoop (logged env) jref url (v :: vs) jp from_ obj a).1 = .ok r → Migration (v :: vs) obj es r) := by
        intro e b hb hm
        rw [hm]
        exact ⟨[.up v obj o1], by rw [hb, hc], ⟨1, by simp [started]⟩, fun r h => by cases h⟩
      cases hr : c.store.updateRoutes url v [(jp, .nested rs)] with
      | mk st res =>
        cases res with
        | error e => exact fail e { c with store := st } rfl (by simp only [migrateLoop, hu, hr])
        | ok x =>
          cases hl : st.relocate url jp from_ v with
          | error e => exact fail e { c with store := st } rfl (by simp only [migrateLoop, hu, hr, hl])
          | ok jp' =>
            have hpr : ∀ b, (logged env).prepare o1 (url ++ jp') { c with store := st } = b →
                (∃ e d, b = (.error e, d) ∧ d.world.2 = c.world.2 ++ [.prepFailed o1]) ∨
                (∃ o2 d, b = (.ok o2, d) ∧ d.world.2 = c.world.2 ++ [.prep o1 o2]) := by
              rintro b rfl
              simp only [logged]
              cases env.prepare o1 (url ++ jp') (unlog { c with store := st }) with
              | mk r d =>
                cases r with
                | error e => exact .inl ⟨_, _, rfl, rfl⟩
                | ok x => exact .inr ⟨_, _, rfl, rfl⟩
            rcases hpr _ rfl with ⟨e, d, hp, hd⟩ | ⟨o2, d, hp, hd⟩
            · refine ⟨[.up v obj o1, .prepFailed o1], ?_, ⟨1, by simp [started]⟩, fun r h => ?_⟩
              · simp only [migrateLoop, hu, hr, hl, hp, hd, hc, List.append_assoc, List.cons_append, List.nil_append]
              · simp only [migrateLoop, hu, hr, hl, hp] at h; cases h
            · obtain ⟨es, h1, ⟨n, h2⟩, h3⟩ := ih jp' v o2 { d with store := d.store.set o2 url jp' v }
              have hm : migrateLoop (logged env) jref url (v :: vs) jp from_ obj a =
                  migrateLoop (logged env) jref url vs jp' v o2 { d with store := d.store.set o2 url jp' v } := by
                simp only [migrateLoop, hu, hr, hl, hp]
              rw [hm]
              refine ⟨.up v obj o1 :: .prep o1 o2 :: es, ?_, ⟨n + 1, by simp [started, h2]⟩, fun r h => .cons (h3 r h)⟩
              rw [h1]
              simp [hd, hc]

/-- **C16**: `migrate_obj` to a supported version runs the upgrades of exactly the supported versions between
the version of the object and the target, both included, in increasing order, each once and on the (prepared)
result of the one before, and gives the last result; when something raises on the way, only a beginning of that
list has been started. -/
theorem C16_plan {pv : Str → StrictVersion} (env : AppEnv O W) (a : App O (W × List (Ev O)))
    (ho : VersionOrder a.store.versions pv) (obj : O) (jref to ov : Str) (f : StrictVersion)
    (hto : to ∈ a.store.versions) (hov : env.versionOf obj = .ok ov) (hf : parseVersion ov = .ok f) :
    ∃ es, (migrateObj (logged env) obj jref to a).2.world.2 = a.world.2 ++ es ∧
      (∃ n, started es = (between a.store.versions pv f (pv to)).take n) ∧
      ∀ r, (migrateObj (logged env) obj jref to a).1 = .ok r → Migration (between a.store.versions pv f (pv to)) obj es r := by
  have hov' : (logged env).versionOf obj = .ok ov := hov
  unfold migrateObj
  rw [if_neg (by simpa using hto)]
  simp only [hov', plan_eq ho hto hf]
  cases hs : (logged env).split jref with
  | error e => exact ⟨[], by simp, ⟨0, rfl⟩, fun r h => by cases h⟩
  | ok p =>
    obtain ⟨url, jp⟩ := p
    dsimp only
    obtain ⟨es, h1, h2, h3⟩ := migrateLoop_log env jref url (between a.store.versions pv f (pv to)) jp ov obj a
    refine ⟨es, ?_, h2, ?_⟩
    · rw [← h1]
      cases migrateLoop (logged env) jref url (between a.store.versions pv f (pv to)) jp ov obj a with
      | mk r b => cases r <;> dsimp only; split <;> rfl
    · intro r h
      apply h3
      rw [← h]
      cases migrateLoop (logged env) jref url (between a.store.versions pv f (pv to)) jp ov obj a with
      | mk r b => cases r <;> rfl

theorem migration_started {vs : List Str} {o r : O} {es : List (Ev O)} (h : Migration vs o es r) : started es = vs := by
  induction h with
  | nil => rfl
  | cons _ ih => simp [started, ih]

/-- **C16**: an unsupported target version raises ValueError, and nothing else happens. -/
theorem C16_unsupported (env : AppEnv O W) (a : App O W) (obj : O) (jref to : Str) (h : to ∉ a.store.versions) :
    migrateObj env obj jref to a = (.error .valueError, a) := by
  unfold migrateObj
  rw [if_pos h]

/-- **C16**: an object newer than the target is given back as it is; no upgrade is run, and nothing else than
`current_spec_version` changes. -/
theorem C16_newer {pv : Str → StrictVersion} (env : AppEnv O W) (a : App O W) (ho : VersionOrder a.store.versions pv)
    (obj : O) (jref to ov : Str) (f : StrictVersion) (p : Str × Str)
    (hto : to ∈ a.store.versions) (hov : env.versionOf obj = .ok ov) (hf : parseVersion ov = .ok f)
    (hs : env.split jref = .ok p) (hlt : StrictVersion.lt (pv to) f = true) :
    migrateObj env obj jref to a = (.ok obj, if env.isRoot obj then { a with current := some to } else a) := by
  unfold migrateObj
  rw [if_neg (by simpa using hto)]
  simp only [hov, plan_eq ho hto hf, hs]
  have : between a.store.versions pv f (pv to) = [] := by
    unfold between
    rw [List.filter_eq_nil_iff]
    intro v _
    simp only [Bool.and_eq_true, Bool.not_eq_true', not_and, Bool.not_eq_false]
    intro h1
    cases h2 : StrictVersion.lt (pv to) (pv v) with
    | true => rfl
    | false =>
      have := StrictVersion.lt_strictWeak.negtrans _ _ _ h2 h1
      rw [hlt] at this; cases this
  rw [this]
  rfl

/-! ### C67 -/

/-- Upgrades make objects of the version they are for, and preparing keeps the version. -/
structure Versioned (env : AppEnv O W) : Prop where
  upgrade : ∀ v o jref a o' rs b, env.upgrade v o jref a = (.ok (o', rs), b) → env.versionOf o' = .ok v
  prepare : ∀ o jref a o' b, env.prepare o jref a = (.ok o', b) → env.versionOf o' = env.versionOf o

/-- One successful round of the loop. -/
theorem migrateLoop_cons {env : AppEnv O W} {jref url v : Str} {vs : List Str} {jp from_ : Str} {obj r : O} {a b : App O W}
    (h : migrateLoop env jref url (v :: vs) jp from_ obj a = (.ok r, b)) :
    ∃ o1 rs a1 u jp' o2 a2, env.upgrade v obj jref a = (.ok (o1, rs), a1) ∧
      a1.store.updateRoutes url v [(jp, .nested rs)] = ((a1.store.updateRoutes url v [(jp, .nested rs)]).1, .ok u) ∧
      (a1.store.updateRoutes url v [(jp, .nested rs)]).1.relocate url jp from_ v = .ok jp' ∧
      env.prepare o1 (url ++ jp') { a1 with store := (a1.store.updateRoutes url v [(jp, .nested rs)]).1 } = (.ok o2, a2) ∧
      migrateLoop env jref url vs jp' v o2 { a2 with store := a2.store.set o2 url jp' v } = (.ok r, b) := by
  unfold migrateLoop at h
  split at h
  · cases h
  · rename_i o1 rs a1 hu
    split at h
    · cases h
    · rename_i st u hr
      split at h
      · cases h
      · rename_i jp' hl
        split at h
        · cases h
        · rename_i o2 a2 hp
          have e : (a1.store.updateRoutes url v [(jp, .nested rs)]).1 = st := by rw [hr]
          rw [← e] at hl hp hr
          exact ⟨o1, rs, a1, u, jp', o2, a2, hu, hr, hl, hp, h⟩

theorem migrateLoop_version {env : AppEnv O W} (hv : Versioned env) {jref url : Str} {b : App O W} {r : O} (vs : List Str) :
    ∀ (jp from_ : Str) (obj : O) (a : App O W), migrateLoop env jref url vs jp from_ obj a = (.ok r, b) →
      ∀ l, vs.getLast? = some l → env.versionOf r = .ok l := by
  induction vs with
  | nil => intro _ _ _ _ _ l hl; cases hl
  | cons v vs ih =>
    intro jp from_ obj a h l hl
    obtain ⟨o1, rs, a1, u, jp', o2, a2, hu, _, _, hp, h⟩ := migrateLoop_cons h
    cases vs with
    | nil =>
      simp only [migrateLoop, Prod.mk.injEq, Except.ok.injEq] at h
      simp only [List.getLast?_singleton, Option.some.injEq] at hl
      rw [← h.1, ← hl, hv.prepare _ _ _ _ _ hp, hv.upgrade _ _ _ _ _ _ _ hu]
    | cons w ws => exact ih _ _ _ _ h l (by simpa using hl)

theorem between_last {versions : List Str} {pv : Str → StrictVersion} (ho : VersionOrder versions pv) {to : Str}
    {f : StrictVersion} (hto : to ∈ versions) (hle : StrictVersion.lt (pv to) f = false) :
    (between versions pv f (pv to)).getLast? = some to := by
  obtain ⟨i, hi, he, hx⟩ := indexOf_mem hto
  have h : between versions pv f (pv to) = (versions.take (i + 1)).filter (fun v => !StrictVersion.lt (pv v) f) := by
    rw [take_eq_filter ho hi, List.filter_filter, hx]
    rfl
  rw [h, List.take_succ_eq_append_getElem hi, hx, List.filter_append]
  simp [hle]

/-- **C67**, when the object is not newer than the target: the root object `migrate_obj` gives has the version
that `current_spec_version` then says. -/
theorem C67_truthful_partial {pv : Str → StrictVersion} (env : AppEnv O W) (hv : Versioned env) (a b : App O W)
    (ho : VersionOrder a.store.versions pv) (obj r : O) (jref to ov : Str) (f : StrictVersion)
    (hto : to ∈ a.store.versions) (hov : env.versionOf obj = .ok ov) (hf : parseVersion ov = .ok f)
    (hle : StrictVersion.lt (pv to) f = false)
    (h : migrateObj env obj jref to a = (.ok r, b)) (hroot : env.isRoot r = true) :
    b.current = some to ∧ env.versionOf r = .ok to := by
  unfold migrateObj at h
  rw [if_neg (by simpa using hto)] at h
  simp only [hov, plan_eq ho hto hf] at h
  split at h
  · cases h
  · split at h
    · cases h
    · rename_i hm
      simp only [Prod.mk.injEq, Except.ok.injEq] at h
      obtain ⟨rfl, rfl⟩ := h
      rw [if_pos hroot]
      exact ⟨rfl, migrateLoop_version hv _ _ _ _ _ hm to (between_last ho hto hle)⟩

/-- **C67** does not hold when the target is older than the object: the object keeps its version, and
`current_spec_version` says the target. -/
theorem C67_violation {pv : Str → StrictVersion} (env : AppEnv O W) (a : App O W) (ho : VersionOrder a.store.versions pv)
    (obj : O) (jref to ov : Str) (f : StrictVersion) (p : Str × Str)
    (hto : to ∈ a.store.versions) (hov : env.versionOf obj = .ok ov) (hf : parseVersion ov = .ok f)
    (hs : env.split jref = .ok p) (hlt : StrictVersion.lt (pv to) f = true) (hroot : env.isRoot obj = true) :
    ∃ b, migrateObj env obj jref to a = (.ok obj, b) ∧ env.versionOf obj = .ok ov ∧ b.current = some to ∧ ov ≠ to := by
  refine ⟨_, C16_newer env a ho obj jref to ov f p hto hov hf hs hlt, hov, by rw [if_pos hroot], ?_⟩
  rintro rfl
  rw [ho.parse ov hto] at hf
  cases hf
  rw [StrictVersion.lt_strictWeak.irrefl] at hlt
  cases hlt

/-! ### C66 -/

/-- **C66**: when the object a reference is about is found in the cache (at the place the reference is
relocated to, or at its own place when no other version is asked for), `resolve_obj` gives it and nothing at
all happens: no loading, no migration, the application and the world are as before. -/
theorem C66_cached (env : AppEnv O W) (jref from_ : Str) (parser : Option (Json → Str → W → R O × W)) (to : Str)
    (removeDummy : Bool) (a : App O W) (url jp p : Str) (o : O) (hj : jref ≠ []) (hto : to ≠ [])
    (hs : env.split jref = .ok (url, jp)) (hu : url ≠ [])
    (hp : (from_ ≠ to ∧ a.store.relocate url jp from_ to = .ok p) ∨ (from_ = to ∧ p = jp))
    (hg : a.store.get (env.ops a.world) url p to = .ok (some o)) :
    resolveObj env jref from_ parser (some to) removeDummy a = (.ok (o, if env.isPrim o then p else url ++ p), a) := by
  unfold resolveObj
  rw [if_neg hj]
  simp only [hto, if_false, hs, hu]
  rcases hp with ⟨hne, hr⟩ | ⟨rfl, rfl⟩
  · simp only [hne, ne_eq, not_false_eq_true, if_true, hr, hg]
  · simp only [ne_eq, not_true_eq_false, if_false, hg]

/-- **C66**: a reference without url is about the root document; without target version it stays in its own. -/
theorem C66_defaults (env : AppEnv O W) (jref from_ : Str) (parser : Option (Json → Str → W → R O × W))
    (removeDummy : Bool) (a : App O W) (jp : Str) (o : O) (hj : jref ≠ [])
    (hs : env.split jref = .ok ([], jp)) (hg : a.store.get (env.ops a.world) env.url jp from_ = .ok (some o)) :
    resolveObj env jref from_ parser none removeDummy a = (.ok (o, if env.isPrim o then jp else env.url ++ jp), a) := by
  unfold resolveObj
  rw [if_neg hj]
  simp only [hs, if_true, ne_eq, not_true_eq_false, if_false, hg]

/-! ### C70 -/

/-- `relocate` written with the routes of each version. -/
theorem relocate_routesAt {versions : List Str} {pv : Str → StrictVersion} (ho : VersionOrder versions pv)
    (hist : List (StoreOp O)) (url jp a b : Str) (ha : a ∈ versions) (hb : b ∈ versions) :
    (Store.run versions hist).relocate url jp a b =
      .ok ((versions.filter (inRange pv (pv a) (pv b))).foldl
        (fun c v => patchJp c ((Store.run versions hist).routesAt url v)) jp) := by
  rw [relocate_eq ho hist url jp a b ha hb]
  congr 1
  obtain ⟨hr, hv⟩ := rwf_run (O := O) versions (versionOrder_nodup ho) hist
  cases hu : Dict.get? (Store.run versions hist).routes url with
  | none =>
    have he : ∀ v c, patchJp c ((Store.run versions hist).routesAt url v) = c := by
      intro v c
      have : (Store.run versions hist).routesAt url v = [] := by unfold Store.routesAt; rw [hu]; rfl
      rw [this]
      exact C41_unmatched c [] (by simp)
    simp only [Option.getD_none, List.filter_nil, List.foldl_nil, he]
    induction versions.filter (inRange pv (pv a) (pv b)) with
    | nil => rfl
    | cons x l ih => simpa using ih
  | some r =>
    have hk := hr url r hu
    rw [hv] at hk
    have hnd : Dict.NodupKeys r := by unfold Dict.NodupKeys; rw [hk]; exact versionOrder_nodup ho
    have he : ∀ v, (Store.run versions hist).routesAt url v = (Dict.get? r v).getD [] := by
      intro v; unfold Store.routesAt; rw [hu]; rfl
    simp only [Option.getD_some, he]
    rw [← hk]
    have hget : ∀ p ∈ r, Dict.get? r p.1 = some p.2 := fun p hp => Dict.get?_of_mem hnd hp
    have key : ∀ (l : Dict Routes), (∀ p ∈ l, Dict.get? r p.1 = some p.2) → ∀ c,
        (l.filter (fun p => inRange pv (pv a) (pv b) p.1)).foldl (fun c p => patchJp c p.2) c =
        ((Dict.keys l).filter (inRange pv (pv a) (pv b))).foldl (fun c v => patchJp c ((Dict.get? r v).getD [])) c := by
      intro l
      induction l with
      | nil => intro _ c; rfl
      | cons p l ih =>
        intro hl c
        have ih := ih (fun p hp => hl p (List.mem_cons_of_mem _ hp))
        simp only [Dict.keys, List.map_cons, List.filter_cons]
        split
        · simp only [List.foldl_cons]
          rw [hl p (List.mem_cons_self ..)]
          exact ih _
        · exact ih _
    exact key r hget jp

/-- The store is one that calls on a fresh store lead to. -/
def Spec.Reachable (versions : List Str) (st : Store O) : Prop := ∃ hist : List (StoreOp O), st = Store.run versions hist

theorem reachable_step {versions : List Str} {st : Store O} (h : Spec.Reachable versions st) (op : StoreOp O) :
    Spec.Reachable versions (st.step op) := by
  obtain ⟨hist, rfl⟩ := h
  exact ⟨hist ++ [op], by simp [Store.run]⟩

theorem reachable_steps {versions : List Str} (ops : List (StoreOp O)) : ∀ {st : Store O}, Spec.Reachable versions st →
    Spec.Reachable versions (ops.foldl Store.step st) := by
  induction ops with
  | nil => exact fun h => h
  | cons op ops ih => exact fun h => ih (reachable_step h op)

/-- What C70 asks of the upgrade modules: they use the store by its calls, and the upgrade to `v` does not
change where this pointer is relocated to in versions before `v`. -/
structure Steady (env : AppEnv O W) (versions : List Str) (pv : Str → StrictVersion) (url jp from_ : Str) : Prop where
  store : ∀ v o jref a o' rs b, env.upgrade v o jref a = (.ok (o', rs), b) → StoreReached a b
  before : ∀ v o jref a o' rs b, env.upgrade v o jref a = (.ok (o', rs), b) → v ∈ versions →
    ∀ w ∈ versions, StrictVersion.lt (pv w) (pv v) = true → b.store.relocate url jp from_ w = a.store.relocate url jp from_ w

theorem relocate_updateRoutes {versions : List Str} {pv : Str → StrictVersion} (ho : VersionOrder versions pv)
    {st : Store O} (hst : Spec.Reachable versions st) (url jp a b v : Str) (rs : Routes) (ha : a ∈ versions) (hb : b ∈ versions)
    (hlt : StrictVersion.lt (pv b) (pv v) = true) :
    (st.updateRoutes url v rs).1.relocate url jp a b = st.relocate url jp a b := by
  obtain ⟨hist, rfl⟩ := hst
  have e : ((Store.run versions hist).updateRoutes url v rs).1 = Store.run versions (hist ++ [.updateRoutes url v rs]) := by
    simp [Store.run, Store.step]
  rw [e, relocate_routesAt ho _ _ _ _ _ ha hb, relocate_routesAt ho _ _ _ _ _ ha hb, ← e]
  congr 1
  have key : ∀ l : List Str, (∀ w ∈ l, w ≠ v) → ∀ c,
      l.foldl (fun c w => patchJp c (((Store.run versions hist).updateRoutes url v rs).1.routesAt url w)) c =
      l.foldl (fun c w => patchJp c ((Store.run versions hist).routesAt url w)) c := by
    intro l
    induction l with
    | nil => intro _ c; rfl
    | cons x l ih =>
      intro hl c
      simp only [List.foldl_cons]
      rw [routesAt_updateRoutes (rwf_run versions (versionOrder_nodup ho) hist).1, if_neg, ih (fun w hw => hl w (List.mem_cons_of_mem _ hw))]
      rintro ⟨_, h, _⟩
      exact hl x (List.mem_cons_self ..) h.symm
  apply key
  intro w hw he
  subst he
  have := (List.mem_filter.1 hw).2
  simp only [inRange, Bool.and_eq_true, Bool.not_eq_true'] at this
  rw [this.2] at hlt
  cases hlt

theorem relocate_set (st : Store O) (o : O) (u p v url jp a b : Str) :
    (st.set o u p v).relocate url jp a b = st.relocate url jp a b := rfl

theorem migrateLoop_cached {versions : List Str} {pv : Str → StrictVersion} (ho : VersionOrder versions pv)
    {env : AppEnv O W} {jref url jp from_ : Str} (hst : Steady env versions pv url jp from_)
    (hprep : ∀ o j a, env.prepare o j a = (.ok o, a)) (hfrom : from_ ∈ versions) {r : O} {b : App O W} (vs : List Str) :
    ∀ (q prev : Str) (o : O) (a : App O W), Spec.Reachable versions a.store → prev ∈ versions →
      StrictVersion.lt (pv prev) (pv from_) = false → (∀ v ∈ vs, v ∈ versions) →
      (∀ v ∈ vs, StrictVersion.lt (pv prev) (pv v) = true ∨ (v = prev ∧ prev = from_)) →
      vs.Pairwise (fun x y => StrictVersion.lt (pv x) (pv y) = true) →
      a.store.relocate url jp from_ prev = .ok q → migrateLoop env jref url vs q prev o a = (.ok r, b) →
      Spec.Reachable versions b.store ∧ ∀ l, vs.getLast? = some l →
        ∃ p, b.store.relocate url jp from_ l = .ok p ∧ b.store.entry url p l = some r := by
  induction vs with
  | nil =>
    intro q prev o a hr _ _ _ _ _ _ h
    simp only [migrateLoop, Prod.mk.injEq] at h
    rw [← h.2]
    exact ⟨hr, fun l hl => by cases hl⟩
  | cons v vs ih =>
    intro q prev o a hr hprev hpf hvs hgt hpw hq h
    obtain ⟨o1, rs, a1, u, jp', o2, a2, hu, _, hl, hp, h⟩ := migrateLoop_cons h
    rw [hprep] at hp
    simp only [Prod.mk.injEq, Except.ok.injEq] at hp
    obtain ⟨rfl, rfl⟩ := hp
    have hv : v ∈ versions := hvs v (List.mem_cons_self ..)
    have hr1 : Spec.Reachable versions a1.store := by
      obtain ⟨ops, e⟩ := hst.store _ _ _ _ _ _ _ hu
      rw [e]
      exact reachable_steps ops hr
    have hr2 : Spec.Reachable versions (a1.store.updateRoutes url v [(q, .nested rs)]).1 :=
      reachable_step hr1 (.updateRoutes url v [(q, .nested rs)])
    have hr3 : Spec.Reachable versions ((a1.store.updateRoutes url v [(q, .nested rs)]).1.set o1 url jp' v) :=
      reachable_step hr2 (.set o1 url jp' v)
    have hvf : StrictVersion.lt (pv v) (pv from_) = false := by
      rcases hgt v (List.mem_cons_self ..) with hlt | ⟨rfl, rfl⟩
      · exact StrictVersion.lt_strictWeak.negtrans _ _ _ (StrictVersion.lt_strictWeak.asymm _ _ hlt) hpf
      · exact hpf
    -- the pointer after this round
    have hloc : (a1.store.updateRoutes url v [(q, .nested rs)]).1.relocate url jp from_ v = .ok jp' := by
      rcases hgt v (List.mem_cons_self ..) with hlt | ⟨rfl, rfl⟩
      · obtain ⟨hist, e⟩ := hr2
        have h1 : (Store.run versions hist).relocate url jp from_ prev = .ok q := by
          rw [← e, relocate_updateRoutes ho hr1 _ _ _ _ _ _ hfrom hprev hlt, hst.before _ _ _ _ _ _ _ hu hv _ hprev hlt, hq]
        rw [e] at hl ⊢
        rw [C40_relocate_composes ho hist url jp from_ prev v hfrom hprev hv hpf (StrictVersion.lt_strictWeak.asymm _ _ hlt), h1]
        exact hl
      · obtain ⟨hist0, e0⟩ := hr
        obtain ⟨hist, e⟩ := hr2
        rw [e0, C40_relocate_identity ho hist0 _ _ _ _ hv hv hpf] at hq
        cases hq
        exact hl
    obtain ⟨hb, hlast⟩ := ih jp' v o1 _ hr3 hv hvf (fun w hw => hvs w (List.mem_cons_of_mem _ hw))
      (fun w hw => .inl (List.rel_of_pairwise_cons hpw hw)) (List.Pairwise.of_cons hpw)
      (by rw [relocate_set]; exact hloc) h
    refine ⟨hb, fun l hl => ?_⟩
    cases vs with
    | nil =>
      simp only [migrateLoop, Prod.mk.injEq, Except.ok.injEq] at h
      obtain ⟨rfl, rfl⟩ := h
      simp only [List.getLast?_singleton, Option.some.injEq] at hl
      subst hl
      refine ⟨jp', by rw [relocate_set]; exact hloc, ?_⟩
      rw [entry_set]
      simp
    | cons w ws => exact hlast l (by simpa using hl)

/-- **C70**: after a successful migration of an object of version `from` (at its own reference), with
`prepare_obj` doing nothing, resolving the same reference from that version to the target gives the migrated
object, and nothing is loaded or migrated again; provided no object is cached at a proper prefix of its new
pointer (C37). -/
theorem C70_migrated_is_found {pv : Str → StrictVersion} (env : AppEnv O W) (a b : App O W)
    (ho : VersionOrder a.store.versions pv) (hreach : Spec.Reachable a.store.versions a.store)
    (obj r : O) (jref url jp from_ to : Str)
    (hprep : ∀ o j a, env.prepare o j a = (.ok o, a))
    (hst : Steady env a.store.versions pv url jp from_)
    (hres : ∀ w, (env.ops w).resolve r [] = .ok (some r))
    (hj : jref ≠ []) (hto0 : to ≠ []) (hs : env.split jref = .ok (url, jp)) (hu : url ≠ [])
    (hov : env.versionOf obj = .ok from_) (hfrom : from_ ∈ a.store.versions) (hto : to ∈ a.store.versions)
    (hle : StrictVersion.lt (pv to) (pv from_) = false)
    (h : migrateObj env obj jref to a = (.ok r, b))
    (hno : ∀ p q, b.store.relocate url jp from_ to = .ok p → q ≠ p → Str.startsWith p q = true → b.store.entry url q to = none)
    (parser : Option (Json → Str → W → R O × W)) (removeDummy : Bool) :
    ∃ p, b.store.relocate url jp from_ to = .ok p ∧
      resolveObj env jref from_ parser (some to) removeDummy b = (.ok (r, if env.isPrim r then p else url ++ p), b) := by
  unfold migrateObj at h
  rw [if_neg (by simpa using hto)] at h
  simp only [hov, plan_eq ho hto (ho.parse _ hfrom), hs] at h
  split at h
  · cases h
  · rename_i o' b' hm
    simp only [Prod.mk.injEq, Except.ok.injEq] at h
    obtain ⟨rfl, rfl⟩ := h
    have hpw : (between a.store.versions pv (pv from_) (pv to)).Pairwise (fun x y => StrictVersion.lt (pv x) (pv y) = true) :=
      List.Pairwise.sublist List.filter_sublist ho.sorted
    have hmem : ∀ v ∈ between a.store.versions pv (pv from_) (pv to), v ∈ a.store.versions :=
      fun v hv => (List.mem_filter.1 hv).1
    have hgt : ∀ v ∈ between a.store.versions pv (pv from_) (pv to),
        StrictVersion.lt (pv from_) (pv v) = true ∨ (v = from_ ∧ from_ = from_) := by
      intro v hv
      obtain ⟨hv1, hv2⟩ := List.mem_filter.1 hv
      simp only [Bool.and_eq_true, Bool.not_eq_true'] at hv2
      obtain ⟨i, hi, rfl⟩ := List.mem_iff_getElem.1 hv1
      obtain ⟨j, hj, rfl⟩ := List.mem_iff_getElem.1 hfrom
      have hs := List.pairwise_iff_getElem.1 ho.sorted
      rcases Nat.lt_trichotomy i j with h | h | h
      · rw [hs i j hi hj h] at hv2; simp at hv2
      · subst h; exact .inr ⟨rfl, rfl⟩
      · exact .inl (hs j i hj hi h)
    have hid : a.store.relocate url jp from_ from_ = .ok jp := by
      obtain ⟨hist, e⟩ := hreach
      rw [e]
      exact C40_relocate_identity ho hist _ _ _ _ hfrom hfrom (StrictVersion.lt_strictWeak.irrefl _)
    obtain ⟨hb, hlast⟩ := migrateLoop_cached ho hst hprep hfrom _ jp from_ obj a hreach hfrom
      (StrictVersion.lt_strictWeak.irrefl _) hmem hgt hpw hid hm
    obtain ⟨p, hp, he⟩ := hlast to (between_last ho hto hle)
    have hstore : (if env.isRoot o' = true then { b' with current := some to } else b').store = b'.store := by split <;> rfl
    rw [hstore] at hno ⊢
    refine ⟨p, hp, ?_⟩
    apply C66_cached env jref from_ parser to removeDummy _ url jp p o' hj hto0 hs hu
    · rw [hstore]
      by_cases hft : from_ = to
      · right
        refine ⟨hft, ?_⟩
        subst hft
        obtain ⟨hist, e⟩ := hb
        rw [e, C40_relocate_identity ho hist _ _ _ _ hfrom hfrom (StrictVersion.lt_strictWeak.irrefl _)] at hp
        cases hp
        rfl
      · exact .inl ⟨hft, hp⟩
    · rw [hstore]
      obtain ⟨hist, e⟩ := hb
      have hw : b'.store.Wf := by rw [e]; exact (run_refines _ hist).1
      rcases get_cases (env.ops (if env.isRoot o' = true then { b' with current := some to } else b').world) b'.store hw url p to
        with ⟨_, h2⟩ | ⟨q, o, h1, h2, h3⟩
      · have := h2 p ((Str.startsWith_iff).2 ⟨[], by simp⟩)
        rw [he] at this; cases this
      · by_cases hq : q = p
        · subst hq
          rw [he] at h2
          cases h2
          rw [h3]
          simp only [List.drop_length]
          exact hres _
        · rw [hno p q hp hq h1] at h2
          cases h2

/-! ### C68, C69 -/

/-- What `load_obj` does when nothing usable is cached yet and the document is not a 1.2 one. -/
theorem loadObj_built {env : AppEnv O W} {jref : Str} {parser : Option (Json → Str → W → R O × W)} {removeDummy : Bool}
    {a b : App O W} {o : O} {src : Json} {w1 : W} {ver : Option Str} {url jp : Str}
    (hf : env.fetch jref a.world = (.ok src, w1)) (hv : specVersion src = .ok ver) (hs : env.split jref = .ok (url, jp))
    (hmiss : a.store.get (env.ops w1) url jp (ver.getD []) = .ok none)
    (h : loadObj env jref parser removeDummy a = (.ok o, b)) :
    ∃ ov st u v w, a.store.getUnder url jp (ver.getD []) removeDummy = .ok (ov, st) ∧
      build env src jref url ver ov parser w1 = (.ok (o, u, v), w) ∧ (env.ops w).truthy o = true ∧
      b.store = st.set o u jp v ∧ b.world = w ∧
      (env.isRoot o = true → env.versionOf o = .ok b.original) ∧ (env.isRoot o = false → b.original = a.original) := by
  unfold loadObj at h
  simp only [hf, hv, hs, hmiss, Option.filter_none] at h
  split at h
  · cases h
  · rename_i ov st hu
    split at h
    · cases h
    · rename_i obj u v w hb
      split at h
      · cases h
      · rename_i ht
        split at h
        · rename_i hroot
          split at h
          · cases h
          · rename_i vo hvo
            simp only [Prod.mk.injEq, Except.ok.injEq] at h
            obtain ⟨rfl, rfl⟩ := h
            exact ⟨ov, st, u, v, w, hu, hb, by simpa using ht, rfl, rfl, fun _ => hvo, fun h => by rw [hroot] at h; cases h⟩
        · rename_i hroot
          simp only [Prod.mk.injEq, Except.ok.injEq] at h
          obtain ⟨rfl, rfl⟩ := h
          exact ⟨ov, st, u, v, w, hu, hb, by simpa using ht, rfl, rfl, fun h => absurd h hroot, fun _ => rfl⟩

theorem build_own_url {env : AppEnv O W} {src : Json} {jref url : Str} {ver : Option Str} {ov : Option (Dict O)}
    {parser : Option (Json → Str → W → R O × W)} {w w' : W} {o : O} {u v : Str} (h12 : ver ≠ some (s% "1.2"))
    (h : build env src jref url ver ov parser w = (.ok (o, u, v), w')) : u = url := by
  unfold build at h
  split at h
  · rename_i x
    split at h
    · rename_i hx; subst hx; exact absurd rfl h12
    · split at h
      · split at h
        · cases h
        · simp only [Prod.mk.injEq, Except.ok.injEq] at h; exact h.1.2.1.symm
      · split at h
        · split at h
          · cases h
          · simp only [Prod.mk.injEq, Except.ok.injEq] at h; exact h.1.2.1.symm
        · cases h
  · split at h
    · cases h
    · split at h
      · cases h
      · split at h <;> (simp only [Prod.mk.injEq, Except.ok.injEq] at h; exact h.1.2.1.symm)

theorem build_version {env : AppEnv O W} {src : Json} {jref url x : Str} {ov : Option (Dict O)}
    {parser : Option (Json → Str → W → R O × W)} {w w' : W} {o : O} {u v : Str}
    (h : build env src jref url (some x) ov parser w = (.ok (o, u, v), w')) : v = x := by
  unfold build at h
  simp only at h
  split at h
  · split at h
    · cases h
    · split at h
      · cases h
      · simp only [Prod.mk.injEq, Except.ok.injEq] at h; exact h.1.2.2.symm
  · split at h
    · split at h
      · cases h
      · simp only [Prod.mk.injEq, Except.ok.injEq] at h; exact h.1.2.2.symm
    · split at h
      · split at h
        · cases h
        · simp only [Prod.mk.injEq, Except.ok.injEq] at h; exact h.1.2.2.symm
      · cases h

theorem reachable_getUnder {versions : List Str} {st st' : Store O} {url jp ver : Str} {rm : Bool} {ov : Option (Dict O)}
    (h : Spec.Reachable versions st) (hu : st.getUnder url jp ver rm = .ok (ov, st')) : Spec.Reachable versions st' := by
  have := reachable_step h (.getUnder url jp ver rm)
  simpa only [Store.step, hu] using this

/-- **C68**: a document with a version other than 1.2 that `load_obj` has built is found again by the next
`load_obj` of the same reference: it gives the same object, and besides asking the resolver (C43) nothing
happens; provided no object is cached at a proper prefix of its pointer (C37). -/
theorem C68_loaded_is_cached_partial (env : AppEnv O W) (jref : Str) (parser parser' : Option (Json → Str → W → R O × W))
    (removeDummy removeDummy' : Bool) (a b : App O W) (o : O) (src : Json) (w1 w2 : W) (v url jp : Str) {versions : List Str}
    (hreach : Spec.Reachable versions a.store)
    (hf : env.fetch jref a.world = (.ok src, w1)) (hv : SaysVersion src (some v)) (h12 : v ≠ s% "1.2")
    (hs : env.split jref = .ok (url, jp)) (hmiss : a.store.get (env.ops w1) url jp v = .ok none)
    (h : loadObj env jref parser removeDummy a = (.ok o, b))
    (hf2 : env.fetch jref b.world = (.ok src, w2))
    (hops : (env.ops w2).resolve o [] = .ok (some o)) (htruthy : (env.ops w2).truthy o = true)
    (hno : ∀ q, q ≠ jp → Str.startsWith jp q = true → b.store.entry url q v = none) :
    loadObj env jref parser' removeDummy' b = (.ok o, { b with world := w2 }) := by
  replace hv := specVersion_says hv
  obtain ⟨ov, st, u, v', w, hu, hb, _, hst, _, _⟩ := loadObj_built (ver := some v) hf hv hs hmiss h
  have e1 := build_own_url (by simpa using h12) hb
  have e2 := build_version hb
  subst e1 e2
  have hw : b.store.Wf := by
    obtain ⟨hist, e⟩ := reachable_step (reachable_getUnder hreach hu) (.set o u jp v')
    rw [hst]
    show ((st.step (.set o u jp v')).Wf)
    rw [e]
    exact (run_refines _ hist).1
  have he : b.store.entry u jp v' = some o := by rw [hst, entry_set]; simp
  have hg : b.store.get (env.ops w2) u jp v' = .ok (some o) := by
    rcases get_cases (env.ops w2) b.store hw u jp v' with ⟨_, h2⟩ | ⟨q, o', h1, h2, h3⟩
    · have := h2 jp ((Str.startsWith_iff).2 ⟨[], by simp⟩)
      rw [he] at this; cases this
    · by_cases hq : q = jp
      · subst hq
        rw [he] at h2
        cases h2
        rw [h3]
        simp only [List.drop_length]
        exact hops
      · rw [hno q hq h1] at h2; cases h2
  unfold loadObj
  simp only [hf2, hv, hs, Option.getD_some, hg, Option.filter_some, htruthy, if_true]

theorem resources_url {env : AppEnv O W} {jref : Str} {u : Str} {apis : Dict O} {w' : W} (paths : List Str) :
    ∀ (url : Str) (acc : Dict O) (w : W), resources env jref paths url acc w = (.ok (u, apis), w') →
      ∀ l, paths.getLast? = some l → env.resourceUrl jref l = .ok u := by
  induction paths with
  | nil => intro _ _ _ _ l hl; cases hl
  | cons path rest ih =>
    intro url acc w h l hl
    unfold resources at h
    split at h
    · cases h
    · rename_i url' hu
      split at h
      · cases h
      · split at h
        · cases h
        · split at h
          · cases h
          · cases rest with
            | nil =>
              simp only [resources, Prod.mk.injEq, Except.ok.injEq] at h
              simp only [List.getLast?_singleton, Option.some.injEq] at hl
              rw [← hl, hu, h.1.1]
            | cons p ps => exact ih _ _ _ h l (by simpa using hl)

/-- **C68** does not hold for 1.2: a listing is cached under the url of its last resource, not under its
own. -/
theorem C68_listing_violation (env : AppEnv O W) (jref : Str) (parser : Option (Json → Str → W → R O × W))
    (removeDummy : Bool) (a b : App O W) (o obj : O) (src : Json) (w1 w2 : W) (url jp lastPath lastUrl : Str) (paths : List Str)
    (hf : env.fetch jref a.world = (.ok src, w1)) (hv : SaysVersion src (some (s% "1.2")))
    (hs : env.split jref = .ok (url, jp)) (hmiss : a.store.get (env.ops w1) url jp (s% "1.2") = .ok none)
    (hl : env.listing src jref w1 = (.ok (obj, paths), w2)) (hp : paths.getLast? = some lastPath)
    (hlast : env.resourceUrl jref lastPath = .ok lastUrl)
    (h : loadObj env jref parser removeDummy a = (.ok o, b)) :
    b.store.entry lastUrl jp (s% "1.2") = some o ∧
    (lastUrl ≠ url → ∃ ov st, a.store.getUnder url jp (s% "1.2") removeDummy = .ok (ov, st) ∧
      ∀ p v, b.store.entry url p v = st.entry url p v) := by
  replace hv := specVersion_says hv
  obtain ⟨ov, st, u, v', w, hu, hb, _, hst, _, _⟩ := loadObj_built (ver := some (s% "1.2")) hf hv hs hmiss h
  have e2 := build_version hb
  subst e2
  unfold build at hb
  simp only [if_true, hl] at hb
  split at hb
  · cases hb
  · rename_i u' apis w3 hres
    simp only [Prod.mk.injEq, Except.ok.injEq] at hb
    obtain ⟨⟨rfl, rfl, _⟩, _⟩ := hb
    have hul := resources_url _ _ _ _ hres lastPath hp
    rw [hlast] at hul
    cases hul
    rw [hst]
    refine ⟨by rw [entry_set]; simp, fun hne => ⟨ov, st, hu, fun p v => ?_⟩⟩
    rw [entry_set, if_neg]
    exact fun h => hne h.1

theorem resources_fetched {env : AppEnv O W} {jref : Str} {u : Str} {apis : Dict O} {w' : W} (paths : List Str) :
    ∀ (url : Str) (acc : Dict O) (w : W), resources env jref paths url acc w = (.ok (u, apis), w') →
      ∀ path ∈ paths, ∃ l v spec v', env.resourceUrl jref path = .ok l ∧ env.fetch l v = (.ok spec, v') ∧ spec ≠ .null := by
  induction paths with
  | nil => intro _ _ _ _ l hl; cases hl
  | cons path rest ih =>
    intro url acc w h l hl
    unfold resources at h
    split at h
    · cases h
    · rename_i url' hu
      split at h
      · cases h
      · rename_i spec w1 hf
        split at h
        · cases h
        · rename_i hne
          split at h
          · cases h
          · rcases List.mem_cons.1 hl with rfl | hl
            · exact ⟨url', w, spec, w1, hu, hf, hne⟩
            · exact ih _ _ _ h l hl

/-- **C98**: a resource listing is not loaded when one of its resources is not there: each of them has been fetched, and the
document is not `null`. -/
theorem C98_resources (env : AppEnv O W) (jref : Str) (parser : Option (Json → Str → W → R O × W))
    (removeDummy : Bool) (a b : App O W) (o obj : O) (src : Json) (w1 w2 : W) (url jp : Str) (paths : List Str)
    (hf : env.fetch jref a.world = (.ok src, w1)) (hv : SaysVersion src (some (s% "1.2")))
    (hs : env.split jref = .ok (url, jp)) (hmiss : a.store.get (env.ops w1) url jp (s% "1.2") = .ok none)
    (hl : env.listing src jref w1 = (.ok (obj, paths), w2)) (h : loadObj env jref parser removeDummy a = (.ok o, b)) :
    ∀ path ∈ paths, ∃ l v spec v', env.resourceUrl jref path = .ok l ∧ env.fetch l v = (.ok spec, v') ∧ spec ≠ .null := by
  replace hv := specVersion_says hv
  obtain ⟨ov, st, u, v', w, hu, hb, _, hst, _, _⟩ := loadObj_built (ver := some (s% "1.2")) hf hv hs hmiss h
  have e2 := build_version hb
  subst e2
  unfold build at hb
  simp only [if_true, hl] at hb
  split at hb
  · cases hb
  · rename_i u' apis w3 hres
    exact resources_fetched _ _ _ _ hres

/-- **C69**: `original_spec_version` becomes the version of the object exactly when `load_obj` has built a root
object; a document found in the cache, or any other object, leaves it alone. -/
theorem C69_original (env : AppEnv O W) (jref : Str) (parser : Option (Json → Str → W → R O × W)) (removeDummy : Bool)
    (a b : App O W) (o : O) (src : Json) (w1 : W) (ver : Option Str) (url jp : Str)
    (hf : env.fetch jref a.world = (.ok src, w1)) (hv : SaysVersion src ver) (hs : env.split jref = .ok (url, jp))
    (h : loadObj env jref parser removeDummy a = (.ok o, b)) :
    (a.store.get (env.ops w1) url jp (ver.getD []) = .ok none →
      (env.isRoot o = true → env.versionOf o = .ok b.original) ∧ (env.isRoot o = false → b.original = a.original)) ∧
    (∀ o', a.store.get (env.ops w1) url jp (ver.getD []) = .ok (some o') → (env.ops w1).truthy o' = true →
      o = o' ∧ b = { a with world := w1 }) := by
  replace hv := specVersion_says hv
  constructor
  · intro hmiss
    obtain ⟨_, _, _, _, _, _, _, _, _, _, h1, h2⟩ := loadObj_built hf hv hs hmiss h
    exact ⟨h1, h2⟩
  · intro o' hg ht
    unfold loadObj at h
    simp only [hf, hv, hs, hg, Option.filter_some, ht, if_true, Prod.mk.injEq, Except.ok.injEq] at h
    exact ⟨h.1.symm, h.2.symm⟩

/-! ### A small application, for the hypotheses -/

/-- Objects are a version and a number; the upgrade adds one; the world counts what is built and fetched. -/
def toyEnv : AppEnv (Str × Nat) (Nat × Nat) where
  url := s% "http://h/a"
  split := fun j => .ok (j.takeWhile (· ≠ '#'), if '#' ∈ j then j.dropWhile (· ≠ '#') else s% "#")
  ops := fun _ => ⟨fun o ts => .ok (if ts = [] then some o else none), fun _ => true⟩
  versionOf := fun o => .ok o.1
  isRoot := fun _ => true
  isPrim := fun _ => false
  upgrade := fun v o jref a => (.ok ((v, o.2 + 1),
    if v = s% "3.0.0" ∧ o.1 = s% "2.0" ∧ '/' ∉ jref.dropWhile (· ≠ '#') then
      [(s% "definitions/x", .to (s% "components/schemas/x"))] else []), a)
  prepare := fun o _ a => (.ok o, a)
  fetch := fun u w => (.ok (.obj [(s% "swaggerVersion", .str (if u = s% "http://h/a" then s% "1.2" else s% "2.0")),
    (s% "x", .null)]), (w.1, w.2 + 1))
  swagger := fun _ _ _ w => (.ok (s% "2.0", 0), (w.1 + 1, w.2))
  openapi := fun _ _ _ w => (.ok (s% "3.0.0", 0), (w.1 + 1, w.2))
  listing := fun _ _ w => (.ok ((s% "1.2", 0), [s% "/pet", s% "/user"]), (w.1 + 1, w.2))
  declaration := fun _ _ w => (.ok (s% "1.2", 0), w)
  attach := fun _ _ w => w
  resourceUrl := fun _ p => .ok (s% "http://h" ++ p)

def toyApp : App (Str × Nat) (Nat × Nat) := ⟨Store.init [s% "1.2", s% "2.0", s% "3.0.0"], [], none, (0, 0)⟩

/-- A 2.0 document is loaded, migrated to 3.0.0 (two upgrades run) and then found without anything happening;
asking for 1.2 afterwards changes only `current_spec_version`. -/
example :
    let r1 := loadObj toyEnv (s% "http://h/b") none false toyApp
    let r2 := migrateObj toyEnv (s% "2.0", 0) (s% "http://h/b") (s% "3.0.0") r1.2
    let r3 := resolveObj toyEnv (s% "http://h/b") (s% "2.0") none (some (s% "3.0.0")) false r2.2
    let r4 := migrateObj toyEnv (s% "3.0.0", 2) (s% "http://h/b") (s% "1.2") r3.2
    r1.1 = .ok (s% "2.0", 0) ∧ r1.2.original = s% "2.0" ∧ r1.2.world = (1, 1) ∧
    r2.1 = .ok (s% "3.0.0", 2) ∧ r2.2.current = some (s% "3.0.0") ∧
    r3.1 = .ok ((s% "3.0.0", 2), s% "http://h/b#") ∧ r3.2.world = (1, 1) ∧
    r4.1 = .ok (s% "3.0.0", 2) ∧ r4.2.current = some (s% "1.2") := by decide +kernel

/-- A 1.2 listing is built again every time it is loaded. -/
theorem C68_listing_built_twice :
    (loadObj toyEnv (s% "http://h/a") none false toyApp).1 = .ok (s% "1.2", 0) ∧
    (loadObj toyEnv (s% "http://h/a") none false toyApp).2.world.1 = 1 ∧
    (loadObj toyEnv (s% "http://h/a") none false (loadObj toyEnv (s% "http://h/a") none false toyApp).2).2.world.1 = 2 := by
  decide +kernel

/-- The hypotheses of `C98_resources` are met; with a resource that is not there, the listing is not loaded. -/
example : (∀ path ∈ [s% "/pet", s% "/user"], ∃ l v spec v', toyEnv.resourceUrl (s% "http://h/a") path = .ok l ∧
      toyEnv.fetch l v = (.ok spec, v') ∧ spec ≠ .null) ∧
    (loadObj { toyEnv with fetch := fun u w => if u = s% "http://h/user" then (.ok .null, w) else toyEnv.fetch u w }
      (s% "http://h/a") none false toyApp).1 = .error .generic :=
  ⟨C98_resources toyEnv (s% "http://h/a") none false toyApp (loadObj toyEnv (s% "http://h/a") none false toyApp).2 (s% "1.2", 0) (s% "1.2", 0) _ _ _ (s% "http://h/a") (s% "#") _ rfl (by decide +kernel)
    (by decide +kernel) (by decide +kernel) rfl (Prod.ext (by decide +kernel) rfl), by decide +kernel⟩

/-- The hypotheses of C67 and C70 about the modules are met. -/
example : Versioned toyEnv := ⟨fun v o j a o' rs b h => by
    simp only [toyEnv, Prod.mk.injEq, Except.ok.injEq] at h
    rw [← h.1.1]; rfl,
  fun o j a o' b h => by
    simp only [toyEnv, Prod.mk.injEq, Except.ok.injEq] at h
    rw [h.1]⟩

example (versions : List Str) (pv : Str → StrictVersion) (url jp from_ : Str) : Steady toyEnv versions pv url jp from_ :=
  ⟨fun v o j a o' rs b h => by
    simp only [toyEnv, Prod.mk.injEq, Except.ok.injEq] at h
    rw [← h.2]; exact ⟨[], rfl⟩,
  fun v o j a o' rs b h => by
    simp only [toyEnv, Prod.mk.injEq, Except.ok.injEq] at h
    rw [← h.2]; exact fun _ _ _ _ => rfl⟩

/-- The upgrades of C16 in a run of the small application. -/
example : started (migrateObj (logged toyEnv) (s% "2.0", 7) (s% "http://h/b") (s% "3.0.0")
    (withLog toyApp [])).2.world.2 = [s% "2.0", s% "3.0.0"] := by decide +kernel

end Pyopenapi
