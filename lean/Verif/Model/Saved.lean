import Verif.Model.Obj

/-!
# Objects after their references have been rewritten

`Resolve` writes the new reference of an object into its document: `obj.ref = new_ref` (v3_0_0/scanner/resolve.py:62-66)
goes through `rename` (spec/attr.py:58-75) and the setter of the field `$ref` (spec/obj.py:36-39) to
`self.spec['$ref'] = new_ref`.  `Model/Refs.lean` keeps that string next to the object, in its attributes; this is the
object as it is then, for what reads its document afterwards (`dump`).
-/

namespace Pyopenapi.Obj

/-- `spec['$ref'] = r` (obj.py:36-39), if there is something to write. -/
def putRef (r : Option Str) (s : Json) : Json :=
  match r, s with
  | some r, .obj d => .obj (Dict.set d (s% "$ref") (.str r))
  | _, s => s

mutual
/-- An object all of whose references have been rewritten, `f` telling what has been written into which object
(v3_0_0/scanner/resolve.py:62-66).  The documents of the objects around it are shared in Python and change with it; only
what is read from them as a field is kept apart here, and no field holds an object with a `$ref` that is loaded. -/
def rewritten (f : Obj → Option Str) : Obj → Obj
  | .prim j => .prim j
  | .base c p s kids => .base c p (putRef (f (.base c p s kids)) s) (rewrittenD f kids)
  | .list b p s l => .list b p s (rewrittenL f l)
  | .map b p s d => .map b p s (rewrittenD f d)
/-- The elements of a list (spec/obj.py:199-327). -/
def rewrittenL (f : Obj → Option Str) : List Obj → List Obj
  | [] => []
  | o :: l => rewritten f o :: rewrittenL f l
/-- The children of an object, the entries of a map (spec/obj.py:345-487, 527-552). -/
def rewrittenD (f : Obj → Option Str) : List (Str × Obj) → List (Str × Obj)
  | [] => []
  | (k, o) :: d => (k, rewritten f o) :: rewrittenD f d
end

end Pyopenapi.Obj
