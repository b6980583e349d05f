import Verif.Model.Utils
import Verif.Model.PyInt
import Verif.Lemmas.Dict

/-!
# pyopenapi/migration/spec/obj.py: loading, reading, dumping, comparing spec objects

The classes of `versions/*/objects.py` are data (`Table`); everything here is generic in it.
Python object identity, parents (`get_parent`), internal attributes and attribute groups are not
modelled; objects are values.
-/

namespace Pyopenapi

/-- What can be given as `child_builder`: a class, one of the functions `is_str`, `is_str_or_int`,
the factories `list_`, `map_` (obj.py:184, 329) and the wrappers `if_not_ref_else`,
`if_not_bool_else` (v3_0_0/objects.py:22-39; `ref` is the `Reference` class of that module).
Python makes a new class at each call of `list_`/`map_`; two with the same element builder are
identified here. -/
inductive Builder where
  | cls (c : Str)
  | isStr
  | isStrOrInt
  | listOf (b : Builder)
  | mapOf (b : Builder)
  | ifNotRef (ref : Str) (b : Builder)
  | ifNotBool (b : Builder)
  deriving DecidableEq, Repr

/-- obj.py:14 arguments of `field` (the JSON key is the attribute name, as in all the tables). -/
structure FieldDef where
  required : Bool := false
  default : Json := .null
  restricted : Bool := false
  readonly : Bool := true
  deriving Repr

/-- obj.py:78 arguments of `child` (`default` is used by no class and not modelled). -/
structure ChildDef where
  builder : Builder
  required : Bool := false
  deriving Repr, DecidableEq

/-- `__swagger_version__`, `__fields__`, `__children__` of a class after the metaclass has merged
those of its bases (obj.py:494-524) and `attach_field` calls (obj.py:679-689). -/
structure ClassDef where
  version : Str
  fields : Dict FieldDef := []
  children : Dict ChildDef := []
  deriving Repr

/-- All classes by name. -/
abbrev Table := Str → ClassDef

/-- A loaded value: a raw JSON value, a `Base2Obj`, a `_List` or a `_Map`. `children` holds the
children that are not `None`, in the order of `__children__`. -/
inductive Obj where
  | prim (j : Json)
  | base (c : Str) (path : Option Str) (spec : Json) (children : List (Str × Obj))
  | list (b : Builder) (path : Option Str) (spec : Json) (elems : List Obj)
  | map (b : Builder) (path : Option Str) (spec : Json) (elems : List (Str × Obj))

namespace Obj

/-- Python truthiness: `_List` and `_Map` have `__len__`, `Base2Obj` has not. -/
def truthy : Obj → Bool
  | .prim j => j.truthy
  | .base _ _ _ _ => true
  | .list _ _ _ l => !l.isEmpty
  | .map _ _ _ d => !d.isEmpty

end Obj

/-- `x in s` for two strings. -/
def Str.contains (s x : Str) : Bool :=
  match s with
  | [] => x.isPrefixOf []
  | c :: cs => x.isPrefixOf (c :: cs) || Str.contains cs x

/-- `key in spec` (obj.py:25, 101; v3_0_0/objects.py:24): a list is searched for an equal element, a
string for a substring, other values are not iterable. -/
def specHas (spec : Json) (k : Str) : R Bool :=
  match spec with
  | .obj d => .ok (Dict.has d k)
  | .arr l => .ok (l.any (fun x => x = .str k))
  | .str s => .ok (Str.contains s k)
  | _ => .error .typeError

/-- `spec[key] if key in spec else absent` (obj.py:100-106): lists and strings cannot be indexed by
a string. -/
def specGet (spec : Json) (k : Str) : R (Option Json) :=
  match spec with
  | .obj d => .ok (Dict.get? d k)
  | .arr l => if l.any (fun x => x = .str k) then .error .typeError else .ok none
  | .str s => if Str.contains s k then .error .typeError else .ok none
  | _ => .error .typeError

theorem specGet_size {spec : Json} {k : Str} {v : Json} (h : specGet spec k = .ok (some v)) :
    sizeOf v < sizeOf spec := by
  cases spec with
  | obj d =>
    simp only [specGet, Except.ok.injEq] at h
    have := List.sizeOf_lt_of_mem (Dict.mem_of_get? h)
    simp at this ⊢
    omega
  | arr l => simp only [specGet] at h; split at h <;> simp at h
  | str l => simp only [specGet] at h; split at h <;> simp at h
  | null => simp [specGet] at h
  | bool b => simp [specGet] at h
  | int n => simp [specGet] at h
  | flt m e => simp [specGet] at h

/-- obj.py:140-151: the `override` argument regrouped by first token; the remainder is kept
decoded, and `''` stands for "this very child". -/
def splitOverride (ov : Dict Obj) : R (Dict (Dict Obj)) :=
  ov.foldlM (fun acc kv => match jpSplit1 kv.1 with
    | [] => .error .generic
    | t :: rest => .ok (Dict.set acc t (Dict.set ((Dict.get? acc t).getD []) (rest.head?.getD []) kv.2))) []

/-- `self.override.get(key, {})`. -/
def ovFor (ovs : Dict (Dict Obj)) (k : Str) : Dict Obj := (Dict.get? ovs k).getD []

/-- `ovr.get('', None)` when it is truthy (obj.py:93-97, 220-222, 364-366). -/
def ovHere (ovr : Dict Obj) : Option Obj :=
  match Dict.get? ovr [] with
  | some o => if o.truthy then some o else none
  | none => none

/-- `isinstance(spec, bool)`. -/
def isBool : Json → Bool
  | .bool _ => true
  | _ => false

/-- What a builder does with a given value, once the wrappers have chosen. -/
inductive Head where
  | raw
  | cls (c : Str)
  | isStr
  | isStrOrInt
  | listOf (b : Builder)
  | mapOf (b : Builder)

/-- v3_0_0/objects.py:22-39: `if_not_ref_else` builds a `Reference` when `'$ref' in spec`,
`if_not_bool_else` returns a bool as it is; both otherwise call the wrapped builder. -/
def Builder.head : Builder → Json → R Head
  | .cls c, _ => .ok (.cls c)
  | .isStr, _ => .ok .isStr
  | .isStrOrInt, _ => .ok .isStrOrInt
  | .listOf b, _ => .ok (.listOf b)
  | .mapOf b, _ => .ok (.mapOf b)
  | .ifNotRef ref b, j => do
    let r ← specHas j (s% "$ref")
    if r then .ok (.cls ref) else b.head j
  | .ifNotBool b, j => if isBool j then .ok .raw else b.head j

/-- v3_0_0/objects.py:42-48, v2_0/objects.py:9-15 `is_str`. -/
def isStr (j : Json) (ov : Dict Obj) : R Obj :=
  if !ov.isEmpty then .error .generic
  else match j with
    | .str _ => .ok (.prim j)
    | _ => .error .generic

/-- v3_0_0/objects.py:51-57 `is_str_or_int` (a bool is an int). -/
def isStrOrInt (j : Json) (ov : Dict Obj) : R Obj :=
  if !ov.isEmpty then .error .generic
  else match j with
    | .str _ => .ok (.prim j)
    | .int _ => .ok (.prim j)
    | .bool _ => .ok (.prim j)
    | _ => .error .generic

mutual

/-- Calling a builder on a JSON value: class constructors (obj.py:535-552, with the child getter
obj.py:88-116), `_List.__init__` (obj.py:207-235), `_Map.__init__` (obj.py:353-382), and the
functions of objects.py (v3_0_0/objects.py:22-57, v2_0/objects.py:9-35). -/
def build (T : Table) (b : Builder) (j : Json) (path : Option Str) (ov : Dict Obj) : R Obj := do
  match ← b.head j with
  | .raw => .ok (.prim j)
  | .cls c => do
    let ovs ← splitOverride ov
    -- obj.py:547-552: every child in `__children__` is triggered; `None` children are not kept
    let kids ← Dict.collect (fun k cd => buildKid T k cd j path ovs) (T c).children
    .ok (.base c path j kids)
  | .isStr => isStr j ov
  | .isStrOrInt => isStrOrInt j ov
  | .listOf b' => do
    let ovs ← splitOverride ov
    match j with
    | .arr l => do
      let es ← buildElems T b' l 0 path ovs
      .ok (.list b' path j es)
    | _ => .error .generic
  | .mapOf b' => do
    let ovs ← splitOverride ov
    match j with
    | .obj d => do
      let es ← buildItems T b' d path ovs
      .ok (.map b' path j es)
    | _ => .error .generic
termination_by 3 * sizeOf j + 1
decreasing_by
  all_goals first
    | omega
    | (simp; omega)

/-- obj.py:88-116: the getter of one child; `none` is `None`. -/
def buildKid (T : Table) (k : Str) (cd : ChildDef) (j : Json) (path : Option Str)
    (ovs : Dict (Dict Obj)) : R (Option Obj) :=
  match ovHere (ovFor ovs k) with
  | some o => .ok (some o)
  | none =>
    match _h : specGet j k with
    | .error e => .error e
    | .ok none => if cd.required then .error .fieldNotExist else .ok none
    | .ok (some v) =>
      if v = .null then .ok none
      else match build T cd.builder v (some (jpCompose [k] path)) (ovFor ovs k) with
        | .error e => .error e
        | .ok o => .ok (some o)
termination_by 3 * sizeOf j
decreasing_by
  have := specGet_size _h
  omega

/-- obj.py:220-230, 364-377: one element, the overriding object when there is one. -/
def buildAt (T : Table) (b : Builder) (k : Str) (x : Json) (path : Option Str)
    (ovs : Dict (Dict Obj)) : R Obj :=
  match ovHere (ovFor ovs k) with
  | some o => .ok o
  | none => build T b x (some (jpCompose [k] path)) (ovFor ovs k)
termination_by 3 * sizeOf x + 2

/-- obj.py:216-235: the elements of a `_List`, from index `i` on. -/
def buildElems (T : Table) (b : Builder) (l : List Json) (i : Nat) (path : Option Str)
    (ovs : Dict (Dict Obj)) : R (List Obj) :=
  match l with
  | [] => .ok []
  | x :: l => do
    let o ← buildAt T b (Str.ofNat i) x path ovs
    let rest ← buildElems T b l (i + 1) path ovs
    .ok (o :: rest)
termination_by 3 * sizeOf l
decreasing_by all_goals (simp; try omega)

/-- obj.py:362-382: the elements of a `_Map` (keys of a JSON object are strings). -/
def buildItems (T : Table) (b : Builder) (d : List (Str × Json)) (path : Option Str)
    (ovs : Dict (Dict Obj)) : R (List (Str × Obj)) :=
  match d with
  | [] => .ok []
  | (k, x) :: d => do
    let o ← buildAt T b k x path ovs
    let rest ← buildItems T b d path ovs
    .ok ((k, o) :: rest)
termination_by 3 * sizeOf d
decreasing_by all_goals (simp; try omega)

end

namespace Obj

/-- obj.py:24-34 the getter of a field. -/
def readField (fd : FieldDef) (spec : Json) (k : Str) : R Json :=
  match specGet spec k with
  | .error e => .error e
  | .ok (some v) => if fd.restricted then .error .generic else .ok v
  | .ok none => if fd.required then .error .generic else .ok fd.default

/-- obj.py:36-39: the writer of a field (no setter when `readonly`). -/
def writeField (fd : FieldDef) (spec : Json) (k : Str) (v : Json) : R Json :=
  if fd.readonly then .error .attributeError
  else match spec with
    | .obj d => .ok (.obj (Dict.set d k v))
    | _ => .error .typeError

/-- `getattr(obj, name)` for a declared child or field of class `c` (children shadow fields of the
same name: the metaclass installs them last, obj.py:520-522).  Other attributes (methods, internal
names): Model/PyAttrs.lean. -/
def getattr (T : Table) (c : Str) (spec : Json) (children : Dict Obj) (k : Str) : R Obj :=
  if Dict.has (T c).children k then .ok ((Dict.get? children k).getD (.prim .null))
  else match Dict.get? (T c).fields k with
    | some fd => do let v ← readField fd spec k; .ok (.prim v)
    | none => .error .attributeError

/-- `l[i]` for a Python int: negative indices count from the end. -/
def pyIndex {α : Type} (l : List α) (i : Int) : R α :=
  let k : Int := if i < 0 then i + l.length else i
  if k < 0 then .error .indexError
  else match l[k.toNat]? with
    | some x => .ok x
    | none => .error .indexError

/-- One round of the loop of `Base2Obj.resolve` on a raw value (obj.py:562-573): other values ignore
the token. -/
def primStep (j : Json) (name : Str) : R Json :=
  match j with
  | .arr l => do let i ← pyInt name; pyIndex l i
  | .obj d => Dict.get! d name
  | _ => .ok j

/-- The rest of the loop once a raw value is reached. -/
def resolvePrim (j : Json) : List Str → R Json
  | [] => .ok j
  | t :: ts => do let j' ← primStep j t; resolvePrim j' ts

/-- obj.py:237-245, 384-392, 554-574: `resolve`.  A raw element of a `_List`/`_Map` has no `resolve`
(AttributeError). -/
def resolve (T : Table) : List Str → Obj → R Obj
  | [], o => .ok o
  | t :: ts, .base c _ spec children => do
    match ← getattr T c spec children t with
    | .prim j => do let j' ← resolvePrim j ts; .ok (.prim j')
    | o => resolve T ts o
  | t :: ts, .list _ _ _ l => do
    let i ← pyInt t
    match ← pyIndex l i with
    | .prim _ => .error .attributeError
    | o => resolve T ts o
  | t :: ts, .map _ _ _ d => do
    match ← Dict.get! d t with
    | .prim _ => .error .attributeError
    | o => resolve T ts o
  | _ :: _, .prim _ => .error .attributeError

/-- obj.py:180-181 `get_path`. -/
def path? : Obj → Option Str
  | .prim _ => none
  | .base _ p _ _ => p
  | .list _ p _ _ => p
  | .map _ p _ _ => p

/-- `hasattr(x, 'dump')`. -/
def isPrim : Obj → Bool
  | .prim _ => true
  | _ => false

/-- obj.py:654-663: the value of one field in a dump, `none` when it is left out: already dumped as
a child, not set, or `None`. -/
def dumpField (spec : Json) (done : Dict Json) (k : Str) (fd : FieldDef) : R (Option Json) :=
  if Dict.has done k then .ok none
  else do
    if ← specHas spec k then do
      let v ← readField fd spec k
      if v = .null then .ok none else .ok (some v)
    else .ok none

mutual
/-- obj.py:269-280, 421-429, 638-665 `dump`.  Sets are iterated in declaration order here (Python: in
some order); a raw value has no `dump`. -/
def dump (T : Table) : Obj → R Json
  | .prim _ => .error .attributeError
  | .base c _ spec children => do
    let cs ← dumpKids T children
    let fs ← Dict.collect (dumpField spec cs) (T c).fields
    .ok (.obj (cs ++ fs))
  | .list _ _ _ l =>
    match l with
    | [] => .ok (.arr [])
    | .prim j :: rest => do let r ← rawElems rest; .ok (.arr (j :: r))
    | l => do let r ← dumpList T l; .ok (.arr r)
  | .map _ _ _ d => do let r ← dumpItems T d; .ok (.obj r)
/-- obj.py:647-652: falsy children are skipped. -/
def dumpKids (T : Table) : List (Str × Obj) → R (Dict Json)
  | [] => .ok []
  | (k, o) :: rest => do
    if o.truthy then do
      let j ← dump T o
      let r ← dumpKids T rest
      .ok ((k, j) :: r)
    else dumpKids T rest
def dumpList (T : Table) : List Obj → R (List Json)
  | [] => .ok []
  | o :: rest => do
    let j ← dump T o
    let r ← dumpList T rest
    .ok (j :: r)
/-- obj.py:423-427: raw elements are kept. -/
def dumpItems (T : Table) : List (Str × Obj) → R (Dict Json)
  | [] => .ok []
  | (k, .prim j) :: rest => do
    let r ← dumpItems T rest
    .ok ((k, j) :: r)
  | (k, o) :: rest => do
    let j ← dump T o
    let r ← dumpItems T rest
    .ok ((k, j) :: r)
/-- obj.py:274-276: a list whose first element is raw is copied as it is (an object further down,
which no builder produces, is not JSON: reported as an error here). -/
def rawElems : List Obj → R (List Json)
  | [] => .ok []
  | .prim j :: rest => do let r ← rawElems rest; .ok (j :: r)
  | _ :: _ => .error .generic
end

end Obj
end Pyopenapi
