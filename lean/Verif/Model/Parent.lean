import Verif.Model.Heap

/-!
# pyopenapi/migration/spec/obj.py: constructing a document, with object identity and parents

`build` (Model/Obj) gives the tree of values a constructor makes.  Here the same constructors put
their objects into a memory, one address per object in the order of construction, and record what
`get_parent` answers.  `override` is not modelled (it is empty when a document is loaded).
-/

namespace Pyopenapi.Parent

open Pyopenapi.Heap (Val Body)

/-- An object in memory: `children` or `__elm`, `get_path()`, `spec` and `get_parent()`
(obj.py:131-138, 199-208, 353-355, 541-545). -/
structure Node where
  body : Body
  path : Option Str
  spec : Json
  parent : Option Nat
  deriving DecidableEq

/-- The objects made so far; the address is the position. -/
abbrev Mem := List Node

/-- obj.py:170-175 `get_parent`. -/
def getParent (m : Mem) (a : Nat) : Option Nat := (m[a]?).bind Node.parent

/-- obj.py:177-178 `set_parent`. -/
def setParent (m : Mem) (b a : Nat) : Mem := m.modify b (fun n => { n with parent := some a })

/-- Filling `children` or `__elm` of an object. -/
def setBody (m : Mem) (a : Nat) (b : Body) : Mem := m.modify a (fun n => { n with body := b })

/-- Python truthiness of a value: `_List` and `_Map` have `__len__`, `Base2Obj` has not. -/
def truthy (m : Mem) : Val → Bool
  | .raw j => j.truthy
  | .ref a => match (m[a]?).map Node.body with
    | some (.list es) => !es.isEmpty
    | some (.map es) => !es.isEmpty
    | _ => true

/-- obj.py:551-552 `if chd and hasattr(chd, 'set_parent'): chd.set_parent(self)`. -/
def adopt (m : Mem) (v : Val) (self : Nat) : Mem :=
  match v with
  | .raw _ => m
  | .ref b => if truthy m v then setParent m b self else m

/-- obj.py:232-233, 379-380 `if hasattr(elm, 'set_parent'): elm.set_parent(self)`. -/
def adoptAny (m : Mem) (v : Val) (self : Nat) : Mem :=
  match v with
  | .raw _ => m
  | .ref b => setParent m b self

/-- The loop over `__children__` (obj.py:548-552); children that are `None` are not kept. -/
def collectM (f : Str → ChildDef → Mem → R (Option Val × Mem)) :
    Dict ChildDef → Mem → R (Dict Val × Mem)
  | [], m => .ok ([], m)
  | (k, cd) :: rest, m => do
    let (v, m) ← f k cd m
    let (vs, m) ← collectM f rest m
    .ok (match v with
      | none => (vs, m)
      | some v => ((k, v) :: vs, m))

mutual

/-- Calling a builder on a JSON value: as `build` (Model/Obj; obj.py:207-235, 353-382, 535-552), with
the objects put into memory. -/
def make (T : Table) (b : Builder) (j : Json) (path : Option Str) (m : Mem) : R (Val × Mem) := do
  match ← b.head j with
  | .raw => .ok (.raw j, m)
  | .cls c => do
    let (kids, m') ← collectM (fun k cd m' => makeKid T k cd j path m.length m') (T c).children
      (m ++ [{ body := .base c [], path := path, spec := j, parent := none }])
    .ok (.ref m.length, setBody m' m.length (.base c kids))
  | .isStr => do
    let _ ← isStr j []
    .ok (.raw j, m)
  | .isStrOrInt => do
    let _ ← isStrOrInt j []
    .ok (.raw j, m)
  | .listOf b' =>
    match j with
    | .arr l => do
      let (es, m') ← makeElems T b' l 0 path m.length
        (m ++ [{ body := .list [], path := path, spec := j, parent := none }])
      .ok (.ref m.length, setBody m' m.length (.list es))
    | _ => .error .generic
  | .mapOf b' =>
    match j with
    | .obj d => do
      let (es, m') ← makeItems T b' d path m.length
        (m ++ [{ body := .map [], path := path, spec := j, parent := none }])
      .ok (.ref m.length, setBody m' m.length (.map es))
    | _ => .error .generic
termination_by 3 * sizeOf j + 1
decreasing_by
  all_goals first
    | omega
    | (simp; omega)

/-- obj.py:88-116, 548-552: the getter of one child, called by the constructor of `self`. -/
def makeKid (T : Table) (k : Str) (cd : ChildDef) (j : Json) (path : Option Str) (self : Nat)
    (m : Mem) : R (Option Val × Mem) :=
  match _h : specGet j k with
  | .error e => .error e
  | .ok none => if cd.required then .error .fieldNotExist else .ok (none, m)
  | .ok (some v) =>
    if v = .null then .ok (none, m)
    else do
      let (w, m) ← make T cd.builder v (some (jpCompose [k] path)) m
      .ok (some w, adopt m w self)
termination_by 3 * sizeOf j
decreasing_by
  have := specGet_size _h
  omega

/-- obj.py:216-235: the elements of a `_List` at address `self`, from index `i` on. -/
def makeElems (T : Table) (b : Builder) (l : List Json) (i : Nat) (path : Option Str) (self : Nat)
    (m : Mem) : R (List Val × Mem) :=
  match l with
  | [] => .ok ([], m)
  | x :: l => do
    let (w, m) ← make T b x (some (jpCompose [Str.ofNat i] path)) m
    let (ws, m) ← makeElems T b l (i + 1) path self (adoptAny m w self)
    .ok (w :: ws, m)
termination_by 3 * sizeOf l
decreasing_by all_goals (simp; try omega)

/-- obj.py:362-382: the elements of a `_Map` at address `self`. -/
def makeItems (T : Table) (b : Builder) (d : List (Str × Json)) (path : Option Str) (self : Nat)
    (m : Mem) : R (Dict Val × Mem) :=
  match d with
  | [] => .ok ([], m)
  | (k, x) :: d => do
    let (w, m) ← make T b x (some (jpCompose [k] path)) m
    let (ws, m) ← makeItems T b d path self (adoptAny m w self)
    .ok ((k, w) :: ws, m)
termination_by 3 * sizeOf d
decreasing_by all_goals (simp; try omega)

end

/-- The objects of a memory, as the operations of Model/Heap see them: nothing has been asked for its
children yet. -/
def store (m : Mem) : Heap.Store := fun a =>
  { body := ((m[a]?).map Node.body).getD (.list []), cache := [] }

/-- The objects, and what `get_parent` answers for each. -/
structure World where
  objs : Heap.Store
  parent : Nat → Option Nat

/-- A document just loaded. -/
def world (m : Mem) : World := ⟨store m, getParent m⟩

/-- One operation on objects (Model/Heap `step`): `attach_child` also sets the parent of what it
attaches (obj.py:673-675), when it gets so far; the others leave parents alone (obj.py:118-124,
318-326, 460-463, 576-587, 698-721). -/
def step (names : Str → List Str) (limit : Nat) (w : World) (op : Heap.Op) : R World := do
  let h ← Heap.step names limit w.objs op
  .ok ⟨h, match op with
    | .attachChild a k (.ref b) => match Heap.attachChild names w.objs a k (.ref b) with
      | .ok _ => fun x => if x = b then some a else w.parent x
      | .error _ => w.parent
    | _ => w.parent⟩

/-- A history. -/
def run (names : Str → List Str) (limit : Nat) (w : World) : List Heap.Op → R World
  | [] => .ok w
  | op :: ops => do
    let w' ← step names limit w op
    run names limit w' ops

end Pyopenapi.Parent
