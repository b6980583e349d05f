import Verif.Model.Renames

/-!
# `resolve` with the attributes Python objects have besides those declared (spec/obj.py:554-574)

`Base2Obj.resolve` reads each token with `getattr`, which finds any attribute of the Python object: declared fields and
children, but also those made by `rename`, methods, and instance variables.  `Obj.resolve` (Model/Obj.lean) knows the declared
ones only; this is the rest.
-/

namespace Pyopenapi.Obj

/-- The methods of `_Base` and `Base2Obj` (spec/obj.py:153-181, 554-739). -/
def methods : List Str := [s% "is_set", s% "get_children_cache", s% "invalidate_children_cache", s% "update_children_cache",
  s% "get_parent", s% "set_parent", s% "get_path", s% "resolve", s% "merge_children", s% "compare", s% "dump", s% "attach_child",
  s% "attach_field", s% "get_field_names", s% "get_children", s% "get_attrs"]

/-- Instance variables of every object (spec/obj.py:131-138, 543-545; `__path` and `__parent` are mangled by Python), and the
fields for internal use that are not made by `rename` (v1_2/objects.py:340-347, v2_0/objects.py:288-318).  `spec` and
`children` are treated apart. -/
def hiddenNames (c : Str) : List Str :=
  [s% "_Base__path", s% "_Base__parent", s% "override", s% "children_cache", s% "internal", s% "attrs"] ++
  (if c = s% "v1_2.ResourceListing" then [s% "cached_apis"] else []) ++
  (if c = s% "v2_0.Operation" then [s% "method", s% "url", s% "path", s% "base_path", s% "cached_schemes", s% "cached_consumes",
    s% "cached_produces", s% "cached_security"] else [])

/-- What tokens lead to: an object or raw value; a method (the tokens after it are ignored, obj.py:562-573); or what the rest
of the tokens leads to from the value of a variable, which is not modelled (it may raise). -/
inductive Answer where
  | obj (o : Obj)
  | method (n : Str)
  | hidden (n : Str) (ts : List Str)

/-- obj.py:237-245, 384-392, 554-574 with all attributes.  `special` tells the names Python and the metaclass
give to the objects of a class besides (`__class__`, `__doc__`, `__fields__`, ...). -/
def resolvePy (special : Str → Str → Bool) : List Str → Obj → R Answer
  | [], o => .ok (.obj o)
  | t :: ts, .base c _ spec kids =>
    let key : Option Str :=
      if Dict.has (pkg c).children t ∨ Dict.has (pkg c).fields t then some t
      else Dict.get? ((Dict.get? renames c).getD []) t
    match key with
    | some k => do
      match ← getattr pkg c spec kids k with
      | .prim j => do let j' ← resolvePrim j ts; .ok (.obj (.prim j'))
      | o => resolvePy special ts o
    | none =>
      if t = s% "spec" then do let j ← resolvePrim spec ts; .ok (.obj (.prim j))
      else if t = s% "children" then
        match ts with
        | [] => .ok (.hidden t [])
        | k :: us => do
          match ← Dict.get! kids k with
          | .prim j => do let j' ← resolvePrim j us; .ok (.obj (.prim j'))
          | o => resolvePy special us o
      else if t ∈ methods then .ok (.method t)
      else if t ∈ hiddenNames c ∨ special c t = true then .ok (.hidden t ts)
      else .error .attributeError
  | t :: ts, .list _ _ _ l => do
    let i ← pyInt t
    match ← pyIndex l i with
    | .prim _ => .error .attributeError
    | o => resolvePy special ts o
  | t :: ts, .map _ _ _ d => do
    match ← Dict.get! d t with
    | .prim _ => .error .attributeError
    | o => resolvePy special ts o
  | _ :: _, .prim _ => .error .attributeError

end Pyopenapi.Obj
