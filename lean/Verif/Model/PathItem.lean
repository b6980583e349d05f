import Verif.Model.Heap
import Verif.Model.Deref

/-!
# pyopenapi/migration/versions/comm.py: path items and their references

Objects live at addresses, as in `Model/Heap.lean`.  `app.resolve_obj` and the attribute `normalized_ref` are
parameters: what the application knows is a `W`.
-/

namespace Pyopenapi.PathItem
open Heap

/-- `app.resolve_obj(ref, ...)` (comm.py:23-27): an object, nothing, or an exception; loading may make new objects.
`attrs.normalized_ref` of a path item (comm.py:20, 40). -/
structure Env (W : Type) where
  resolve : Str → Store → W → R (Option Nat) × Store × W
  ref : W → Nat → Option Str

variable {W : Type}

/-- comm.py:22-41, the loop; `none` says that the first argument, the number of rounds, was too small (the loop of
Python is not bounded). -/
def loop (env : Env W) (names : Str → List Str) (final : Nat) :
    Nat → List Nat → Option Str → Store → W → Option (R Unit × Store × W)
  | 0, _, _, _, _ => none
  | _ + 1, _, none, h, w => some (.ok (), h, w)
  | _ + 1, _, some [], h, w => some (.ok (), h, w)
  | n + 1, visited, some (c :: r), h, w =>
    match env.resolve (c :: r) h w with
    | (.error e, h, w) => some (.error e, h, w)
    | (.ok none, h, w) => some (.error .generic, h, w)
    | (.ok (some b), h, w) => match guardUpdate visited b with
      | .error _ => some (.ok (), h, w)
      | .ok visited => match mergeChildren names h final b with
        | (h, some e) => some (.error e, h, w)
        | (h, none) => loop env names final n visited (env.ref w b) h w

/-- comm.py:8-43 `_merge_path_item(obj, ...)`; `c` is the class of path items, `final` the address of the new object
(`parser({})`, comm.py:16). -/
def mergePathItem (env : Env W) (names : Str → List Str) (c : Str) (final obj fuel : Nat) (h : Store) (w : W) :
    Option (R Unit × Store × W) :=
  match mergeChildren names (renew h final (.base c [])) final obj with
  | (h, some e) => some (.error e, h, w)
  | (h, none) => loop env names final fuel [obj] (env.ref w obj) h w

end Pyopenapi.PathItem
