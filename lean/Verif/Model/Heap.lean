import Verif.Model.Ops

/-!
# pyopenapi/migration/spec/obj.py: `get_children` and its cache, on objects with identity

Objects live at addresses; a slot (child or element) holds an address or a raw value.
-/

namespace Pyopenapi.Heap

/-- The value of a child or of an element: another object, or a raw value. -/
inductive Val where
  | raw (j : Json)
  | ref (a : Nat)
  deriving DecidableEq

/-- `self.children` of a `Base2Obj` of class `c`; `__elm` of a `_List`, of a `_Map`. -/
inductive Body where
  | base (c : Str) (kids : Dict Val)
  | list (es : List Val)
  | map (es : Dict Val)
  deriving DecidableEq

/-- An object: its content and `children_cache` (obj.py:138). -/
structure Node where
  body : Body
  cache : Dict Nat
  deriving DecidableEq

/-- The objects, by address. -/
abbrev Store := Nat → Node

/-- Replacing one object. -/
def upd (h : Store) (a : Nat) (n : Node) : Store := fun b => if b = a then n else h b

/-- obj.py:164-165 `invalidate_children_cache`, together with a new content. -/
def renew (h : Store) (a : Nat) (b : Body) : Store := upd h a { body := b, cache := [] }

/-- `enumerate` with the index printed (obj.py:291, `str(idx)`). -/
def enum (i : Nat) : List Val → List (Str × Val)
  | [] => []
  | v :: vs => (Str.ofNat i, v) :: enum (i + 1) vs

/-- What `get_children` iterates over (obj.py:291, 443, 706). -/
def slots : Body → List (Str × Val)
  | .base _ kids => kids
  | .list es => enum 0 es
  | .map es => es

/-- `isinstance(obj, Base2Obj)`. -/
def isBase : Body → Bool
  | .base _ _ => true
  | _ => false

/-- obj.py:299-300, 451-452, 717-718: `ret[jp_compose([name, key])] = children[key]` for all keys. -/
def addAll (ret : Dict Nat) (name : Str) (children : Dict Nat) : Dict Nat :=
  children.foldl (fun r kv => Dict.set r (jpCompose [name, kv.1] none) kv.2) ret

/-- The loop of `get_children`; `rec` is `get_children` of a contained object.  Falsy children
(obj.py:708) are empty containers or raw values, which contribute nothing. -/
def collectKids (rec : Store → Nat → R (Store × Dict Nat)) :
    List (Str × Val) → Store → Dict Nat → R (Store × Dict Nat)
  | [], h, ret => .ok (h, ret)
  | (_, .raw _) :: rest, h, ret => collectKids rec rest h ret
  | (k, .ref b) :: rest, h, ret =>
    if isBase (h b).body then collectKids rec rest h (Dict.set ret k b)
    else do
      let (h', ch) ← rec h b
      collectKids rec rest h' (addAll ret k ch)

/-- obj.py:286-303, 438-455, 698-721 `get_children`: the cache when it is not empty, otherwise
recomputed and stored.  The first argument is Python's recursion limit.  (Python fills the cache
while it goes; this differs only for a container that contains itself.) -/
def getChildren : Nat → Store → Nat → R (Store × Dict Nat)
  | 0, _, _ => .error .recursion
  | n + 1, h, a =>
    if (h a).cache ≠ [] then .ok (h, (h a).cache)
    else do
      let (h', d) ← collectKids (getChildren n) (slots (h a).body) h []
      .ok (upd h' a { h' a with cache := d }, d)

/-- Python truthiness of the value of a child. -/
def truthy (h : Store) : Val → Bool
  | .raw j => j.truthy
  | .ref a => match (h a).body with
    | .base _ _ => true
    | .list es => !es.isEmpty
    | .map es => !es.isEmpty

/-- `getattr(obj, name)` of a declared child; `None` when it is not there. -/
def attr (h : Store) (a : Nat) (k : Str) : R Val :=
  match (h a).body with
  | .base _ kids => .ok ((Dict.get? kids k).getD (.raw .null))
  | _ => .error .attributeError

/-- obj.py:118-124 `setattr(obj, name, val)`: only objects are accepted; the cache is not touched. -/
def assign (h : Store) (a : Nat) (k : Str) (v : Val) : R Store :=
  match (h a).body, v with
  | .base c kids, .ref b => .ok (upd h a { h a with body := .base c (Dict.set kids k (.ref b)) })
  | .base _ _, .raw _ => .error .generic
  | _, _ => .error .attributeError

/-- obj.py:164-165. -/
def invalidate (h : Store) (a : Nat) : Store := upd h a { h a with cache := [] }

/-- obj.py:667-677 `attach_child`. -/
def attachChild (names : Str → List Str) (h : Store) (a : Nat) (k : Str) (v : Val) : R Store :=
  match (h a).body with
  | .base c _ =>
    if k ∈ names c then do
      let h' ← assign h a k v
      .ok (invalidate h' a)
    else .error .generic
  | _ => .error .attributeError

/-- obj.py:580-585, one child name. -/
def mergeStep (a b : Nat) (h : Store) (k : Str) : R Store := do
  let v ← attr h a k
  if truthy h v then .ok h
  else do
    let w ← attr h b k
    if truthy h w then assign h a k w else .ok h

/-- The loop of `merge_children`: the objects it leaves behind, and whether it raised. -/
def mergeLoop (a b : Nat) : List Str → Store → Store × Option Err
  | [], h => (h, none)
  | k :: ks, h => match mergeStep a b h k with
    | .error e => (h, some e)
    | .ok h' => mergeLoop a b ks h'

/-- obj.py:576-587 `a.merge_children(b)`: the objects it leaves behind, and whether it raised (the
cache is then not invalidated). -/
def mergeChildren (names : Str → List Str) (h : Store) (a b : Nat) : Store × Option Err :=
  match (h a).body with
  | .base c _ => match mergeLoop a b (names c) h with
    | (h', none) => (invalidate h' a, none)
    | (h', some e) => (h', some e)
  | _ => (h, some .notImplemented)

/-- obj.py:460-463 `m[k] = v`. -/
def setItem (h : Store) (m : Nat) (k : Str) (v : Val) : R Store :=
  match (h m).body with
  | .map es => .ok (renew h m (.map (Dict.set es k v)))
  | _ => .error .attributeError

/-- obj.py:318-326 `l.append(v)`, `l.extend(vs)`. -/
def extend (h : Store) (l : Nat) (vs : List Val) : R Store :=
  match (h l).body with
  | .list es => .ok (renew h l (.list (es ++ vs)))
  | _ => .error .attributeError

/-- The public operations on objects that change children or read them. -/
inductive Op where
  | attachChild (a : Nat) (k : Str) (v : Val)
  | mergeChildren (a b : Nat)
  | setItem (m : Nat) (k : Str) (v : Val)
  | extend (l : Nat) (vs : List Val)
  | getChildren (a : Nat)
  /-- plain attribute assignment `a.k = v` -/
  | assign (a : Nat) (k : Str) (v : Val)

/-- The objects after an operation that leaves them as they were when it raises. -/
def orElse (h : Store) : R Store → Store
  | .ok h' => h'
  | .error _ => h

/-- The objects after one operation, whether it raises or not; only a `get_children` that exceeds the
recursion limit is an error here.  `names` gives the declared children of a class. -/
def step (names : Str → List Str) (limit : Nat) (h : Store) : Op → R Store
  | .attachChild a k v => .ok (orElse h (attachChild names h a k v))
  | .mergeChildren a b => .ok (mergeChildren names h a b).1
  | .setItem m k v => .ok (orElse h (setItem h m k v))
  | .extend l vs => .ok (orElse h (extend h l vs))
  | .getChildren a => do let (h', _) ← getChildren limit h a; .ok h'
  | .assign a k v => .ok (orElse h (assign h a k v))

/-- A history; it ends where a `get_children` exceeds the recursion limit. -/
def run (names : Str → List Str) (limit : Nat) (h : Store) : List Op → R Store
  | [] => .ok h
  | op :: ops => do
    let h' ← step names limit h op
    run names limit h' ops

end Pyopenapi.Heap
