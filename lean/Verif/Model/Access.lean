import Verif.Model.Ops

/-!
# pyopenapi/migration/spec/obj.py: reading and changing `_List` and `_Map` as containers

A Python operator on an object without the method is a TypeError, a missing attribute an
AttributeError.  JSON keys are strings.
-/

namespace Pyopenapi.Access

/-- obj.py:435-436 `m.keys()`. -/
def keys : Obj → R (List Str)
  | .map _ _ _ es => .ok (Dict.keys es)
  | _ => .error .attributeError

/-- obj.py:471-481 `m.items()`, `m.iteritems()`; `itervalues()` and `iterkeys()` are its parts. -/
def items : Obj → R (List (Str × Obj))
  | .map _ _ _ es => .ok es
  | _ => .error .attributeError

/-- obj.py:457-458 `m[key]`; a list cannot be indexed by a string, an object of a class not at all. -/
def item (o : Obj) (k : Str) : R Obj :=
  match o with
  | .map _ _ _ es => Dict.get! es k
  | _ => .error .typeError

/-- obj.py:309-310 `l[i]`; `m[i]` is a key that is not there (obj.py:457-458). -/
def index (o : Obj) (i : Int) : R Obj :=
  match o with
  | .list _ _ _ es => Obj.pyIndex es i
  | .map _ _ _ _ => .error .keyError
  | _ => .error .typeError

/-- obj.py:465-466 `key in m`; a list is searched through its `__iter__` (obj.py:305-307). -/
def has (o : Obj) (k : Str) : R Bool :=
  match o with
  | .map _ _ _ es => .ok (Dict.has es k)
  | .list _ _ _ es => .ok (es.any (Obj.eqAny (.str k)))
  | _ => .error .typeError

/-- obj.py:483-484 `m.get(key, default)` (not for objects of a class: `PathItem` has a child `get`). -/
def getD (o : Obj) (k : Str) (dflt : Obj) : R Obj :=
  match o with
  | .map _ _ _ es => .ok ((Dict.get? es k).getD dflt)
  | _ => .error .attributeError

/-- obj.py:312-313, 486-487 `len(o)`. -/
def len : Obj → R Nat
  | .list _ _ _ es => .ok es.length
  | .map _ _ _ es => .ok es.length
  | _ => .error .typeError

/-- `for x in o`: `_List` has `__iter__` (obj.py:305-307).  `_Map` has none: Python asks it for the keys 0, 1, ... until
an IndexError (obj.py:457-458 raises KeyError). -/
def iterate : Obj → R (List Obj)
  | .list _ _ _ es => .ok es
  | .map b p s es => match index (.map b p s es) 0 with
    | .error e => .error e
    | .ok _ => .ok []
  | _ => .error .typeError

/-- obj.py:460-463 `m[key] = x`. -/
def put (o : Obj) (k : Str) (x : Obj) : R Obj :=
  match o with
  | .map b p s es => .ok (.map b p s (Dict.set es k x))
  | _ => .error .typeError

/-- Several assignments. -/
def putAll (o : Obj) : List (Str × Obj) → R Obj
  | [] => .ok o
  | (k, x) :: rest => do
    let o' ← put o k x
    putAll o' rest

/-- obj.py:318-326 `l.extend(xs)`; `l.append(x)` is `l.extend([x])`. -/
def extend (o : Obj) (xs : List Obj) : R Obj :=
  match o with
  | .list b p s es => .ok (.list b p s (es ++ xs))
  | _ => .error .attributeError

mutual
/-- Python `==` between raw values: dictionaries whatever the order of their keys. -/
def rawEq : Json → Json → Bool
  | .arr l, y => match y with
    | .arr l' => rawEqL l l'
    | _ => false
  | .obj d, y => match y with
    | .obj d' => d.length = d'.length && rawEqD d d'
    | _ => false
  | x, y => Json.scalarEq x y
def rawEqL : List Json → List Json → Bool
  | [], [] => true
  | x :: xs, y :: ys => rawEq x y && rawEqL xs ys
  | _, _ => false
def rawEqD : List (Str × Json) → Dict Json → Bool
  | [], _ => true
  | (k, x) :: d, d' => (match Dict.get? d' k with
    | some y => rawEq x y
    | none => false) && rawEqD d d'
end

mutual
/-- obj.py:315-316, 468-469 `o == raw`: the elements are compared; an object of a class equals only itself. -/
def eqRaw : Obj → Json → Bool
  | .prim j, y => rawEq j y
  | .base _ _ _ _, _ => false
  | .list _ _ _ es, y => match y with
    | .arr l => eqRawL es l
    | _ => false
  | .map _ _ _ es, y => match y with
    | .obj d => es.length = d.length && eqRawD es d
    | _ => false
def eqRawL : List Obj → List Json → Bool
  | [], [] => true
  | o :: os, y :: ys => eqRaw o y && eqRawL os ys
  | _, _ => false
def eqRawD : List (Str × Obj) → Dict Json → Bool
  | [], _ => true
  | (k, o) :: os, d => (match Dict.get? d k with
    | some y => eqRaw o y
    | none => false) && eqRawD os d
end

end Pyopenapi.Access
