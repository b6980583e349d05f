import Verif.Model.Scan
import Verif.Spec.Compare

/-! # Specification of scanning: the objects below an object -/

namespace Pyopenapi.Spec

/-- An object holds another one under a token: a child of a `Base2Obj`, an entry of a map, an element
of a list under its index. -/
inductive Slot : Obj → Str → Obj → Prop
  | child {c : Str} {p : Option Str} {s : Json} {ks : Dict Obj} {k : Str} {o : Obj} :
      (k, o) ∈ ks → Slot (.base c p s ks) k o
  | item {b : Builder} {p : Option Str} {s : Json} {es : Dict Obj} {k : Str} {o : Obj} :
      (k, o) ∈ es → Slot (.map b p s es) k o
  | elem {b : Builder} {p : Option Str} {s : Json} {es : List Obj} {i : Nat} {o : Obj} :
      es[i]? = some o → Slot (.list b p s es) (Str.ofNat i) o

/-- The tokens lead from one object to a child object (of a class), through lists and maps only. -/
inductive Leads : Obj → List Str → Obj → Prop
  | direct {o x : Obj} {k : Str} : Slot o k x → x.isBase = true → Leads o [k] x
  | through {o m x : Obj} {k : Str} {ts : List Str} : Slot o k m → m.isBase = false → Leads m ts x →
      Leads o (k :: ts) x

/-- The objects to be visited: the root, and the children of every visited object that is not of a
leaf class; with the tokens that lead there from the root. -/
inductive Visited (leaves : List Str) (root : Obj) : List Str → Obj → Prop
  | root : Visited leaves root [] root
  | child {ts us : List Str} {o x : Obj} : Visited leaves root ts o →
      (∀ c p s ks, o = .base c p s ks → c ∉ leaves) → Leads o us x → Visited leaves root (ts ++ us) x

/-- Keys of dictionaries are unique, in all objects inside. -/
def Keyed (root : Obj) : Prop := ∀ m, Inside root m → match m with
  | .base _ _ _ ks => Dict.NodupKeys ks
  | .map _ _ _ es => Dict.NodupKeys es
  | _ => True

/-- No map inside holds both objects of classes and lists or maps, and no child name of an object has
a slash. -/
def NoMix (root : Obj) : Prop := ∀ m, Inside root m → match m with
  | .base _ _ _ ks => ∀ k o, (k, o) ∈ ks → '/' ∉ k
  | .map _ _ _ es => (∀ k o, (k, o) ∈ es → o.isBase = true ∨ o.isPrim = true) ∨
      (∀ k o, (k, o) ∈ es → o.isBase = false)
  | _ => True

/-- The children of all objects inside are declared by their class. -/
def Declared (T : Table) (root : Obj) : Prop := ∀ m, Inside root m → match m with
  | .base c _ _ ks => ∀ k o, (k, o) ∈ ks → Dict.has (T c).children k = true
  | _ => True

end Pyopenapi.Spec
