import Verif.Model.Tables

/-!
# pyopenapi/migration/spec/obj.py: how classes are made (`FieldMeta`, `attach_field`)
-/

namespace Pyopenapi.Meta

/-- obj.py:501-506 `_from_parent_`: what the base has and the class has not.  (The order in which they are added is that
of a Python set; no property depends on it.) -/
def fromParent {α : Type} (own parent : Dict α) : Dict α :=
  own ++ parent.filter (fun p => !Dict.has own p.1)

/-- obj.py:508-511: the fields and children of the bases, one base after the other. -/
def derive (own : ClassDef) : List ClassDef → ClassDef
  | [] => own
  | b :: bs => derive { own with fields := fromParent own.fields b.fields, children := fromParent own.children b.children } bs

/-- What makes and changes classes: a class statement, with its bases and what it declares itself; and
`C.attach_field(name, builder=child, ...)`. -/
inductive Statement where
  | class_ (name : Str) (bases : List Str) (own : ClassDef)
  | attach (cls name : Str) (cd : ChildDef)

/-- The class of a name (a base that is not there has nothing, as `Base2`). -/
def find (t : Dict ClassDef) (c : Str) : ClassDef := (Dict.get? t c).getD ⟨[], [], []⟩

/-- A statement: obj.py:494-524 `FieldMeta.__new__`, obj.py:679-689 `attach_field` (which changes the dictionary
`__children__` of that very class). -/
def exec (t : Dict ClassDef) : Statement → Dict ClassDef
  | .class_ n bases own => Dict.set t n (derive own (bases.map (find t)))
  | .attach c k cd => match Dict.get? t c with
    | some d => Dict.set t c { d with children := Dict.set d.children k cd }
    | none => t

/-- The statements of a module, one after the other. -/
def run (t : Dict ClassDef) (p : List Statement) : Dict ClassDef := p.foldl exec t

end Pyopenapi.Meta
