import Verif.Model.Ops

/-!
# pyopenapi/migration/scan.py, and `get_children` on freshly loaded objects
-/

namespace Pyopenapi

namespace Obj

/-- `isinstance(obj, Base2Obj)`. -/
def isBase : Obj → Bool
  | .base _ _ _ _ => true
  | _ => false

/-- obj.py:299-300, 451-452, 717-718: `ret[jp_compose([name, key])] = children[key]`, for all keys. -/
def addAll (ret : Dict Obj) (name : Str) (children : Dict Obj) : Dict Obj :=
  children.foldl (fun r kv => Dict.set r (jpCompose [name, kv.1] none) kv.2) ret

mutual
/-- obj.py:286-303, 438-455, 698-721 `get_children`, when nothing is cached (the cache: Model/Heap).  The
children of a `Base2Obj` are visited in the order they are held. -/
def kids : Obj → Dict Obj
  | .prim _ => []
  | .base _ _ _ ks => addKids ks []
  | .list _ _ _ es => addElems es 0 []
  | .map _ _ _ es => addKids es []
/-- obj.py:443-452, 706-718: the loop over named values. -/
def addKids : List (Str × Obj) → Dict Obj → Dict Obj
  | [], ret => ret
  | (k, o) :: rest, ret =>
    addKids rest (if o.isBase then Dict.set ret k o else addAll ret k (kids o))
/-- obj.py:291-300: the loop over the elements of a list, from index `i` on. -/
def addElems : List Obj → Nat → Dict Obj → Dict Obj
  | [], _, ret => ret
  | o :: rest, i, ret =>
    addElems rest (i + 1)
      (if o.isBase then Dict.set ret (Str.ofNat i) o else addAll ret (Str.ofNat i) (kids o))
end

mutual
/-- Number of objects inside (a termination measure, not part of the code). -/
def nodes : Obj → Nat
  | .prim _ => 1
  | .base _ _ _ ks => nodesD ks + 1
  | .list _ _ _ es => nodesL es + 1
  | .map _ _ _ es => nodesD es + 1
def nodesD : List (Str × Obj) → Nat
  | [] => 0
  | (_, o) :: r => nodes o + nodesD r
def nodesL : List Obj → Nat
  | [] => 0
  | o :: r => nodes o + nodesL r
end

theorem nodesD_append (a b : List (Str × Obj)) : nodesD (a ++ b) = nodesD a + nodesD b := by
  induction a with
  | nil => simp [nodesD]
  | cons x a ih => obtain ⟨k, o⟩ := x; simp [nodesD, ih]; omega

theorem nodesD_reverse (a : List (Str × Obj)) : nodesD a.reverse = nodesD a := by
  induction a with
  | nil => rfl
  | cons x a ih => obtain ⟨k, o⟩ := x; simp [nodesD_append, nodesD, ih]; omega

theorem nodesD_map (f : Str → Str) (a : List (Str × Obj)) :
    nodesD (a.map (fun c => (f c.1, c.2))) = nodesD a := by
  induction a with
  | nil => rfl
  | cons x a ih => obtain ⟨k, o⟩ := x; simp [nodesD, ih]

theorem nodesD_set (d : Dict Obj) (k : Str) (o : Obj) : nodesD (Dict.set d k o) ≤ nodesD d + nodes o := by
  induction d with
  | nil => simp [Dict.set, nodesD]
  | cons x d ih =>
    obtain ⟨k', o'⟩ := x
    simp only [Dict.set]
    split
    · simp [nodesD]; omega
    · simp [nodesD]; omega

theorem nodesD_addAll (ret : Dict Obj) (k : Str) (ch : Dict Obj) :
    nodesD (addAll ret k ch) ≤ nodesD ret + nodesD ch := by
  induction ch generalizing ret with
  | nil => simp [addAll, nodesD]
  | cons x ch ih =>
    obtain ⟨n, o⟩ := x
    have := ih (Dict.set ret (jpCompose [k, n] none) o)
    have h2 := nodesD_set ret (jpCompose [k, n] none) o
    simp only [addAll, List.foldl_cons, nodesD] at this ⊢
    omega

mutual
theorem nodesD_kids : ∀ o : Obj, nodesD (kids o) + 1 ≤ nodes o
  | .prim _ => by simp [kids, nodesD, nodes]
  | .base _ _ _ ks => by
    have := nodesD_addKids ks []
    simp [kids, nodes, nodesD] at this ⊢; omega
  | .list _ _ _ es => by
    have := nodesD_addElems es 0 []
    simp [kids, nodes, nodesD] at this ⊢; omega
  | .map _ _ _ es => by
    have := nodesD_addKids es []
    simp [kids, nodes, nodesD] at this ⊢; omega
theorem nodesD_addKids : ∀ (l : List (Str × Obj)) (ret : Dict Obj),
    nodesD (addKids l ret) ≤ nodesD ret + nodesD l
  | [], ret => by simp [addKids, nodesD]
  | (k, o) :: rest, ret => by
    rw [addKids]
    have h1 := nodesD_addKids rest (if o.isBase then Dict.set ret k o else addAll ret k (kids o))
    have h2 := nodesD_kids o
    have h3 := nodesD_set ret k o
    have h4 := nodesD_addAll ret k (kids o)
    simp only [nodesD]
    have h5 : nodesD (if o.isBase then Dict.set ret k o else addAll ret k (kids o)) ≤
        nodesD ret + nodes o := by split <;> omega
    omega
theorem nodesD_addElems : ∀ (l : List Obj) (i : Nat) (ret : Dict Obj),
    nodesD (addElems l i ret) ≤ nodesD ret + nodesL l
  | [], _, ret => by simp [addElems, nodesL]
  | o :: rest, i, ret => by
    rw [addElems]
    have h1 := nodesD_addElems rest (i + 1)
      (if o.isBase then Dict.set ret (Str.ofNat i) o else addAll ret (Str.ofNat i) (kids o))
    have h2 := nodesD_kids o
    have h3 := nodesD_set ret (Str.ofNat i) o
    have h4 := nodesD_addAll ret (Str.ofNat i) (kids o)
    simp only [nodesL]
    have h5 : nodesD (if o.isBase then Dict.set ret (Str.ofNat i) o
        else addAll ret (Str.ofNat i) (kids o)) ≤ nodesD ret + nodes o := by split <;> omega
    omega
end

/-- `obj.__class__ in leaves` (classes are `Base2Obj` classes). -/
def isLeaf (leaves : List Str) : Obj → Bool
  | .base c _ _ _ => leaves.contains c
  | _ => false

/-- scan.py:9-24: the loop of `default_tree_traversal`; the head of the list is the top of the stack
(`pop` takes the last element, `extend` appends). -/
def traverseLoop (leaves : List Str) (stack : List (Str × Obj)) : List (Str × Obj) :=
  match stack with
  | [] => []
  | (p, o) :: st =>
    (p, o) :: traverseLoop leaves
      ((if isLeaf leaves o then []
        else ((kids o).map (fun c => (p ++ '/' :: c.1, c.2))).reverse) ++ st)
termination_by nodesD stack
decreasing_by
  rw [nodesD_append]
  have := nodesD_kids o
  split
  · simp [nodesD]; omega
  · rw [nodesD_reverse, nodesD_map (fun n => p ++ '/' :: n)]
    simp [nodesD]; omega

/-- scan.py:9-24 `default_tree_traversal(root, leaves)`: what it yields. -/
def traverse (leaves : List Str) (root : Obj) : List (Str × Obj) := traverseLoop leaves [(s% "#", root)]

end Obj

/-! ### Dispatching -/

/-- A `Dispatcher` class: `obj_route` and `result_fn[0]` (scan.py:41-84).  Handlers act on a state `σ`
(the attributes of the route objects, and anything else they change) and return an `ρ`. -/
structure Dispatcher (σ ρ : Type) where
  route : Dict (List (σ → Str → Obj → R (σ × ρ))) := []
  result : Option (σ → ρ → R σ) := none

/-- scan.py:48-58 `__add_route`; `isObjClass` is `issubclass(_, Base2Obj)`. -/
def Dispatcher.addRoute {σ ρ : Type} (isObjClass : Str → Bool) (d : Dispatcher σ ρ)
    (f : σ → Str → Obj → R (σ × ρ)) (c : Str) : R (Dispatcher σ ρ) :=
  if isObjClass c then
    .ok { d with route := Dict.set d.route c (((Dict.get? d.route c).getD []) ++ [f]) }
  else .error .valueError

/-- scan.py:60-76 `register(target_classes)(func)`. -/
def Dispatcher.register {σ ρ : Type} (isObjClass : Str → Bool) (d : Dispatcher σ ρ)
    (classes : List Str) (f : σ → Str → Obj → R (σ × ρ)) : R (Dispatcher σ ρ) :=
  classes.foldlM (fun d c => d.addRoute isObjClass f c) d

/-- scan.py:87-97 `_build_route`: of each route object, the first attribute of its own class that is a
dispatcher (`none`: some other attribute); objects without one are left out. -/
def buildRoute {σ ρ : Type} (routes : List (List (Option (Dispatcher σ ρ)))) : List (Dispatcher σ ρ) :=
  routes.filterMap (fun attrs => attrs.findSome? id)

/-- `obj.__class__` (`none`: the classes of lists and maps, for which nothing can be registered). -/
def Obj.className? : Obj → Option Str
  | .base c _ _ _ => some c
  | _ => none

/-- scan.py:109-116: one handler, and the result function. -/
def callHandler {σ ρ : Type} (res : Option (σ → ρ → R σ)) (path : Str) (o : Obj) (s : σ)
    (f : σ → Str → Obj → R (σ × ρ)) : R σ := do
  let (s', r) ← f s path o
  match res with
  | some g => g s' r
  | none => .ok s'

/-- scan.py:109-116 `_handle_cls_without_app`. -/
def handleCls {σ ρ : Type} (path : Str) (o : Obj) (s : σ) (d : Dispatcher σ ρ) : R σ :=
  match o.className?.bind (fun c => Dict.get? d.route c) with
  | none => .ok s
  | some fs => fs.foldlM (callHandler d.result path o) s

/-- scan.py:146-158 `scan`, with handlers that do not change the scanned objects. -/
def scan {σ ρ : Type} (routes : List (List (Option (Dispatcher σ ρ)))) (root : Option Obj)
    (leaves : List Str) (s : σ) : R σ :=
  match root with
  | none => .error .valueError
  | some root =>
    (Obj.traverse leaves root).foldlM
      (fun s po => (buildRoute routes).foldlM (handleCls po.1 po.2) s) s

end Pyopenapi
