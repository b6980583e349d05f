import Verif.Props.Main

/-!
# C87: which objects of 2.0 can be migrated to 3.0.0
-/

namespace Pyopenapi.Main
open _root_.Pyopenapi.Spec _root_.Pyopenapi.Refs.Spec Obj

variable {W : Type}

/-- The classes of 2.0 whose objects can be migrated to 3.0.0. -/
def migratable : List Str := [s% "v2_0.Swagger", s% "v2_0.License", s% "v2_0.Info", s% "v2_0.Schema", s% "v2_0.PathItem"]

/-- The objects of 2.0. -/
def Is20 (c : Str) (o : Obj) : Prop := (pkg c).version = s% "2.0" ∧ ∃ q spec kids, o = .base c q spec kids

theorem convert_kinds {env : Conv.Env} {c url jp : Str} {o : Obj} {ov : Dict Obj} (ho : Is20 c o) (hc : c ∉ migratable) :
    convert env o url jp ov = .error .generic := by
  obtain ⟨_, q, spec, kids, rfl⟩ := ho
  simp only [migratable, List.mem_cons, List.not_mem_nil, or_false, not_or] at hc
  unfold convert
  simp only [Obj.className?]
  rw [if_neg hc.1, if_neg hc.2.1, if_neg hc.2.2.1, if_neg hc.2.2.2.1, if_neg hc.2.2.2.2]

theorem finish20_same {out : Outer W} {app : AppEnv Obj (World W)} {o x : Obj} {jref : Str} {a a' : App Obj (World W)} {rl : Routes}
    (h : finish20 out app o jref a = (.ok (x, rl), a')) : x = o := by
  unfold finish20 at h
  split at h
  · simp at h
  · dsimp only at h
    split at h
    · simp at h
    · split at h
      · simp at h
      · split at h
        · simp at h
        · simp only [Prod.mk.injEq, Except.ok.injEq] at h; exact h.1.1.symm

theorem upgrade30_kinds {out : Outer W} {app : AppEnv Obj (World W)} {c jref : Str} {o : Obj} {a : App Obj (World W)}
    (ho : Is20 c o) (hc : c ∉ migratable) : ∃ e, (upgrade30 out app o jref a).1 = .error e := by
  unfold upgrade30
  split
  · exact ⟨_, rfl⟩
  · split
    · exact ⟨_, rfl⟩
    · rename_i v hv
      obtain ⟨h1, q, spec, kids, rfl⟩ := id ho
      have : v = s% "2.0" := by
        simp only [versionOf, Except.ok.injEq] at hv
        exact hv.symm.trans h1
      rw [if_pos this]
      split
      · exact ⟨_, rfl⟩
      · rw [convert_kinds ho hc]
        exact ⟨_, rfl⟩

/-- **C87** is false: an object of 2.0 of any other class cannot be migrated to 3.0.0, whatever the object, its place and
the state of the application. -/
theorem C87_kinds_violation (out : Outer W) (n : Nat) (c jref : Str) (o : Obj) (a : App Obj (World W)) (ho : Is20 c o) (hc : c ∉ migratable)
    (hv : a.store.versions = [s% "1.2", s% "2.0", s% "3.0.0"]) :
    ∃ e, (App.migrateObj (application out n) o jref (s% "3.0.0") a).1 = .error e := by
  have hvo : ∀ n, (application out n).versionOf o = .ok (s% "2.0") := by
    intro n
    obtain ⟨up, e⟩ := application_with out n
    rw [e]
    obtain ⟨h1, q, spec, kids, rfl⟩ := ho
    show Except.ok _ = _
    rw [h1]
  unfold App.migrateObj
  rw [hv, if_neg (by decide), hvo]
  dsimp only
  rw [plan3]
  dsimp only
  split
  · exact ⟨_, rfl⟩
  rename_i url jp _
  suffices h : ∃ e a', App.migrateLoop (application out n) jref url [s% "2.0", s% "3.0.0"] jp (s% "2.0") o a = (.error e, a') by
    obtain ⟨e, a', h⟩ := h
    rw [h]
    exact ⟨e, rfl⟩
  cases n with
  | zero =>
    unfold App.migrateLoop
    have : (application out 0).upgrade (s% "2.0") o jref a = (.error .recursion, a) := rfl
    rw [this]
    exact ⟨_, _, rfl⟩
  | succ n =>
    have hup : (application out (n + 1)).upgrade = upgrade out (application out n) := rfl
    have hpr : ∀ o p a, (application out (n + 1)).prepare o p a = (.ok o, a) := fun _ _ _ => rfl
    rw [App.migrateLoop, hup]
    cases hu : upgrade out (application out n) (s% "2.0") o jref a with
    | mk r a1 =>
      cases r with
      | error e => exact ⟨_, _, rfl⟩
      | ok x =>
        obtain ⟨x, rl⟩ := x
        have hx : x = o := by
          unfold upgrade at hu
          rw [if_neg (by decide), if_pos rfl] at hu
          unfold upgrade20 at hu
          rw [show versionOf o = .ok (s% "2.0") from hvo 0] at hu
          dsimp only at hu
          rw [if_neg (by decide), if_pos rfl] at hu
          exact finish20_same hu
        subst hx
        dsimp only
        split
        · exact ⟨_, _, rfl⟩
        · split
          · exact ⟨_, _, rfl⟩
          · rename_i jp' _
            rw [hpr]
            dsimp only
            rw [App.migrateLoop, hup]
            have key : ∀ b, ∃ e b', upgrade out (application out n) (s% "3.0.0") x jref b = (.error e, b') := by
              intro b
              unfold upgrade
              rw [if_neg (by decide), if_neg (by decide), if_pos rfl]
              obtain ⟨e, he⟩ := upgrade30_kinds (out := out) (app := application out n) (jref := jref) (a := b) ho hc
              exact ⟨e, _, Prod.ext he rfl⟩
            obtain ⟨e, b', hb⟩ := key _
            exact ⟨e, b', by rw [hb]⟩

/-- Parameters, responses and operations are such objects. -/
example : (s% "v2_0.Parameter") ∉ migratable ∧ (s% "v2_0.Response") ∉ migratable ∧ (s% "v2_0.Operation") ∉ migratable ∧
    Is20 (s% "v2_0.Parameter") (.base (s% "v2_0.Parameter") none (.obj [(s% "name", .str (s% "q")), (s% "in", .str (s% "query"))]) []) :=
  ⟨by decide, by decide, by decide, by decide +kernel, _, _, _, rfl⟩

end Pyopenapi.Main
