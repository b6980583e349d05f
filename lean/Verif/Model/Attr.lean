import Verif.Base.Dict

/-!
# pyopenapi/migration/spec/attr.py and `Base2Obj.get_attrs`: attributes attached to objects
-/

namespace Pyopenapi.Attr

/-- attr.py:8-16: the arguments of `attr`, for the attributes of a group (`key`: that of the dictionary). -/
structure AttrDef (V : Type) where
  key : Str
  required : Bool := false
  default : V

/-- A class derived from `AttributeGroup`: its attributes by name (attr.py:36-44; `args.pop('key', None) or name_`).
(Attributes inherited from another group are found by Python's own attribute lookup; they are to be listed here too.) -/
abbrev GroupCls (V : Type) := Dict (AttrDef V)

/-- attr.py:36-44 `AttributeMeta.__new__`: from `__attributes__`, whose entries may have a `key`, `required`, `default`
(`noneV` is `None`). -/
def groupCls {V : Type} (noneV : V) (spec : Dict (Option Str × Bool × Option V)) : GroupCls V :=
  spec.map (fun p => (p.1, ⟨(match p.2.1 with
    | some (c :: k) => c :: k
    | _ => p.1), p.2.2.1, p.2.2.2.getD noneV⟩))

/-- An instance of a group (attr.py:47-54): `self.attrs`, and the other attributes Python lets one set on it.  (The names
`attrs` and those of `object` are not modelled.) -/
structure Group (V : Type) where
  cls : GroupCls V
  attrs : Dict V
  others : Dict V

/-- attr.py:18-24: reading an attribute; a name the class does not know is looked up in the instance. -/
def Group.read {V : Type} (g : Group V) (name : Str) : R V :=
  match Dict.get? g.cls name with
  | some d => match Dict.get? g.attrs d.key with
    | some v => .ok v
    | none => if d.required then .error .generic else .ok d.default
  | none => match Dict.get? g.others name with
    | some v => .ok v
    | none => .error .attributeError

/-- attr.py:26-27: writing one. -/
def Group.write {V : Type} (g : Group V) (name : Str) (v : V) : Group V :=
  match Dict.get? g.cls name with
  | some d => { g with attrs := Dict.set g.attrs d.key v }
  | none => { g with others := Dict.set g.others name v }

/-- The groups of an object by namespace (obj.py:545 `self.attrs`), of all objects by address. -/
abbrev World (V : Type) := Nat → Dict (Group V)

/-- obj.py:723-739 `get_attrs(namespace, group_cls)` of the object at `o`. -/
def getAttrs {V : Type} (w : World V) (o : Nat) (ns : Str) (cls : Option (GroupCls V)) : World V × Option (Group V) :=
  match Dict.get? (w o) ns with
  | some g => (w, some g)
  | none => match cls with
    | none => (w, none)
    | some c => ((fun a => if a = o then Dict.set (w o) ns ⟨c, [], []⟩ else w a), some ⟨c, [], []⟩)

/-- What a program does with attributes: `o.get_attrs(ns, cls).name = v`, `o.get_attrs(ns, cls).name`. -/
inductive Op (V : Type) where
  | write (o : Nat) (ns : Str) (cls : Option (GroupCls V)) (name : Str) (v : V)
  | read (o : Nat) (ns : Str) (cls : Option (GroupCls V)) (name : Str)

/-- One step.  `None` has no attributes (AttributeError).  A group is an object of its own: what is written to it is
seen by everyone who asks for it again. -/
def step {V : Type} (w : World V) : Op V → World V × R (Option V)
  | .write o ns cls name v => match getAttrs w o ns cls with
    | (w', some g) => ((fun a => if a = o then Dict.set (w' o) ns (g.write name v) else w' a), .ok none)
    | (w', none) => (w', .error .attributeError)
  | .read o ns cls name => match getAttrs w o ns cls with
    | (w', some g) => (w', (g.read name).map some)
    | (w', none) => (w', .error .attributeError)

/-- A program from the start, when no object has a group (obj.py:545). -/
def run {V : Type} (p : List (Op V)) : World V := p.foldl (fun w op => (step w op).1) (fun _ => [])

/-- v2_0/attrs.py:7-12, v3_0_0/attrs.py:7-12 `ReferenceAttributeGroup` (values are opaque; `none` is `None`). -/
def referenceGroup (V : Type) : GroupCls (Option V) := groupCls none
  [(s% "ref_obj", none, false, none), (s% "normalized_ref", none, false, none)]

/-- v2_0/attrs.py:14-21 `SchemaAttributeGroup`. -/
def schemaGroup (V : Type) : GroupCls (Option V) := groupCls none
  [(s% "ref_obj", none, false, none), (s% "final", none, false, none), (s% "name", none, false, none),
    (s% "normalized_ref", none, false, none)]

/-- v2_0/attrs.py:23-27 `PathItemAttributeGroup`. -/
def pathItemGroup2 (V : Type) : GroupCls (Option V) := groupCls none
  [(s% "ref_obj", none, false, none), (s% "normalized_ref", none, false, none)]

/-- v3_0_0/attrs.py:14-19 `PathItemAttributeGroup`. -/
def pathItemGroup3 (V : Type) : GroupCls (Option V) := groupCls none
  [(s% "normalized_ref", none, false, none), (s% "ref_obj", none, false, none), (s% "final_obj", none, false, none)]

end Pyopenapi.Attr
