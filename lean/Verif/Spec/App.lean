import Verif.Model.App
import Verif.Spec.Routes

/-! # Specification: what an application did -/

namespace Pyopenapi.Spec
variable {O W : Type}

/-- One event of a migration: the upgrade to `v` turned `i` into `o`, or `prepare_obj` turned `i` into `o`. -/
inductive Ev (O : Type) where
  | up (v : Str) (i o : O)
  | upFailed (v : Str) (i : O)
  | prep (i o : O)
  | prepFailed (i : O)

/-- Forget the log. -/
def unlog {L : Type} (a : App O (W × L)) : App O W := ⟨a.store, a.original, a.current, a.world.1⟩

/-- Put a log beside the world. -/
def withLog {L : Type} (a : App O W) (l : L) : App O (W × L) := ⟨a.store, a.original, a.current, (a.world, l)⟩

/-- An action that does not touch the log. -/
def pass {L α : Type} (f : W → R α × W) (w : W × L) : R α × (W × L) := ((f w.1).1, ((f w.1).2, w.2))

/-- The same application, writing down which upgrades were run and how objects were prepared, newest last. -/
def logged (env : AppEnv O W) : AppEnv O (W × List (Ev O)) where
  url := env.url
  split := env.split
  ops := fun w => env.ops w.1
  versionOf := env.versionOf
  isRoot := env.isRoot
  isPrim := env.isPrim
  upgrade := fun v o jref a =>
    match env.upgrade v o jref (unlog a) with
    | (.error e, b) => (.error e, withLog b (a.world.2 ++ [.upFailed v o]))
    | (.ok (o', rs), b) => (.ok (o', rs), withLog b (a.world.2 ++ [.up v o o']))
  prepare := fun o jref a =>
    match env.prepare o jref (unlog a) with
    | (.error e, b) => (.error e, withLog b (a.world.2 ++ [.prepFailed o]))
    | (.ok o', b) => (.ok o', withLog b (a.world.2 ++ [.prep o o']))
  fetch := fun jref => pass (env.fetch jref)
  swagger := fun j s d => pass (env.swagger j s d)
  openapi := fun j s d => pass (env.openapi j s d)
  listing := fun j s => pass (env.listing j s)
  declaration := fun j s => pass (env.declaration j s)
  attach := fun o d w => (env.attach o d w.1, w.2)
  resourceUrl := env.resourceUrl

/-- `vs` were run in this order, each once, each on what the one before had made, and every result was
prepared before it was used. -/
inductive Migration : List Str → O → List (Ev O) → O → Prop
  | nil (o : O) : Migration [] o [] o
  | cons {v : Str} {vs : List Str} {o o1 o2 r : O} {es : List (Ev O)} : Migration vs o2 es r →
      Migration (v :: vs) o (.up v o o1 :: .prep o1 o2 :: es) r

/-- The versions whose upgrade was started. -/
def started : List (Ev O) → List Str
  | [] => []
  | .up v _ _ :: es => v :: started es
  | .upFailed v _ :: es => v :: started es
  | _ :: es => started es

/-- The supported versions between `f` and `t`, both included, in increasing order. -/
def between (versions : List Str) (pv : Str → StrictVersion) (f t : StrictVersion) : List Str :=
  versions.filter (fun v => !StrictVersion.lt (pv v) f && !StrictVersion.lt t (pv v))

/-- Reached by calls on the store, and anything else. -/
def StoreReached (a b : App O W) : Prop := ∃ ops : List (StoreOp O), b.store = ops.foldl Store.step a.store

end Pyopenapi.Spec
