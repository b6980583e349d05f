import Verif.Model.Ops

/-! # What it means for two objects to be the same, and what `compare` looks at -/

namespace Pyopenapi.Spec

/-- The value of a number, as `m * 10^-e`; in Python `True` is the number 1 and `False` is 0. -/
def number? : Json → Option (Int × Nat)
  | .bool true => some (1, 0)
  | .bool false => some (0, 0)
  | .int n => some (n, 0)
  | .flt m e => some (m, e)
  | _ => none

/-- Python equality of two JSON values: numbers and bools by value, objects regardless of order. -/
inductive PyEq : Json → Json → Prop
  | num {u v : Json} {x y : Int × Nat} : number? u = some x → number? v = some y →
      x.1 * (10 : Int) ^ y.2 = y.1 * (10 : Int) ^ x.2 → PyEq u v
  | str (s : Str) : PyEq (.str s) (.str s)
  | null : PyEq .null .null
  | arr {l m : List Json} : l.length = m.length →
      (∀ (i : Nat) x y, l[i]? = some x → m[i]? = some y → PyEq x y) → PyEq (.arr l) (.arr m)
  | obj {d e : Dict Json} : (∀ k, Dict.get? d k = none ↔ Dict.get? e k = none) →
      (∀ k x y, Dict.get? d k = some x → Dict.get? e k = some y → PyEq x y) → PyEq (.obj d) (.obj e)

/-- Two loaded objects are the same: same class; every declared field reads as equal values; every
declared child is absent (or `None`) in both or the same in both; lists and maps have the same
elements. -/
inductive Same (T : Table) : Obj → Obj → Prop
  | prim {u v : Json} : PyEq u v → Same T (.prim u) (.prim v)
  | base {c : Str} {p p' : Option Str} {s s' : Json} {kids kids' : Dict Obj} :
      (∀ k fd, (k, fd) ∈ (T c).fields → ∃ u v, Obj.readField fd s k = .ok u ∧
        Obj.readField fd s' k = .ok v ∧ PyEq u v) →
      (∀ k, k ∈ Dict.keys (T c).children →
        Same T ((Dict.get? kids k).getD (.prim .null)) ((Dict.get? kids' k).getD (.prim .null))) →
      Same T (.base c p s kids) (.base c p' s' kids')
  | list {b : Builder} {p p' : Option Str} {s s' : Json} {es es' : List Obj} : es.length = es'.length →
      (∀ (i : Nat) x y, es[i]? = some x → es'[i]? = some y → Same T x y) → Same T (.list b p s es) (.list b p' s' es')
  | map {b : Builder} {p p' : Option Str} {s s' : Json} {es es' : Dict Obj} :
      (∀ k, Dict.get? es k = none ↔ Dict.get? es' k = none) →
      (∀ k x y, Dict.get? es k = some x → Dict.get? es' k = some y → Same T x y) →
      Same T (.map b p s es) (.map b p' s' es')

/-- An object inside another one (itself, a child, an element, at any depth). -/
inductive Inside : Obj → Obj → Prop
  | here (o : Obj) : Inside o o
  | child {c : Str} {p : Option Str} {s : Json} {kids : Dict Obj} {k : Str} {o a : Obj} :
      (k, o) ∈ kids → Inside o a → Inside (.base c p s kids) a
  | elem {b : Builder} {p : Option Str} {s : Json} {es : List Obj} {o a : Obj} :
      o ∈ es → Inside o a → Inside (.list b p s es) a
  | item {b : Builder} {p : Option Str} {s : Json} {es : Dict Obj} {k : Str} {o a : Obj} :
      (k, o) ∈ es → Inside o a → Inside (.map b p s es) a

/-- All fields of an object of a class can be read: the required ones are set, no restricted one is. -/
def Readable (T : Table) : Obj → Prop
  | .base c _ s _ => ∀ k fd, (k, fd) ∈ (T c).fields → ∃ u, Obj.readField fd s k = .ok u
  | _ => True

/-- The answer "same", wherever the location says. -/
def Yes (r : R (Bool × Str)) : Prop := ∃ loc, r = .ok (true, loc)

/-- The answer "different". -/
def No (r : R (Bool × Str)) : Prop := ∃ loc, r = .ok (false, loc)

/-- What `compare` checks of two raw values: as `PyEq`, but a list may be continued in the second one,
and a float is only equal to a float. -/
inductive RawAgree : Json → Json → Prop
  | scalar {u v : Json} : Obj.isStrInt u = true → PyEq u v → RawAgree u v
  | flt {m m' : Int} {e e' : Nat} : PyEq (.flt m e) (.flt m' e') → RawAgree (.flt m e) (.flt m' e')
  | null : RawAgree .null .null
  | arr {l m : List Json} : l.length ≤ m.length →
      (∀ (i : Nat) x y, l[i]? = some x → m[i]? = some y → RawAgree x y) → RawAgree (.arr l) (.arr m)
  | obj {d e : Dict Json} : (∀ k, Dict.get? d k = none ↔ Dict.get? e k = none) →
      (∀ k x y, (k, x) ∈ d → Dict.get? e k = some y → RawAgree x y) → RawAgree (.obj d) (.obj e)

/-- What `compare` checks of two objects: as `Same`, except that the first raw string or int in a
list or map ends the comparison of that list or map. -/
inductive Agree (T : Table) : Obj → Obj → Prop
  | prim {u v : Json} : RawAgree u v → Agree T (.prim u) (.prim v)
  | base {c : Str} {p p' : Option Str} {s s' : Json} {kids kids' : Dict Obj} :
      (∀ k fd, (k, fd) ∈ (T c).fields → ∃ u v, Obj.readField fd s k = .ok u ∧
        Obj.readField fd s' k = .ok v ∧ RawAgree u v) →
      (∀ k, k ∈ Dict.keys (T c).children →
        Agree T ((Dict.get? kids k).getD (.prim .null)) ((Dict.get? kids' k).getD (.prim .null))) →
      Agree T (.base c p s kids) (.base c p' s' kids')
  | list {b : Builder} {p p' : Option Str} {s s' : Json} {es es' : List Obj} (n : Nat) :
      es.length = es'.length →
      -- all elements before `n` are objects and agree
      (∀ (i : Nat) x, i < n → es[i]? = some x → x.isPrim = false) →
      (∀ (i : Nat) x y, i < n → es[i]? = some x → es'[i]? = some y → Agree T x y) →
      -- and `n` is the end of the list, or the place of a raw element
      (n = es.length ∨ ∃ u y, es[n]? = some (.prim u) ∧ es'[n]? = some y ∧
        Obj.isStrInt u = true ∧ ∃ v, y = .prim v ∧ PyEq u v) →
      Agree T (.list b p s es) (.list b p' s' es')
  | map {b : Builder} {p p' : Option Str} {s s' : Json} {es es' : Dict Obj} (n : Nat) :
      (∀ k, Dict.get? es k = none ↔ Dict.get? es' k = none) →
      (∀ (i : Nat) k x, i < n → es[i]? = some (k, x) → x.isPrim = false) →
      (∀ (i : Nat) k x y, i < n → es[i]? = some (k, x) → Dict.get? es' k = some y → Agree T x y) →
      (n = es.length ∨ ∃ k u y, es[n]? = some (k, .prim u) ∧ Dict.get? es' k = some y ∧
        Obj.isStrInt u = true ∧ ∃ v, y = .prim v ∧ PyEq u v) →
      Agree T (.map b p s es) (.map b p' s' es')

/-- Objects as loaded from parsed documents: no duplicate keys, raw elements of lists and maps are
strings or ints. -/
inductive Tidy : Obj → Prop
  | prim {j : Json} : j.wf = true → Tidy (.prim j)
  | base {c : Str} {p : Option Str} {s : Json} {kids : Dict Obj} : s.wf = true →
      (∀ k o, (k, o) ∈ kids → Tidy o) → Tidy (.base c p s kids)
  | list {b : Builder} {p : Option Str} {s : Json} {es : List Obj} :
      (∀ o ∈ es, Tidy o) → (∀ j, .prim j ∈ es → Obj.isStrInt j = true) → Tidy (.list b p s es)
  | map {b : Builder} {p : Option Str} {s : Json} {es : Dict Obj} : Dict.NodupKeys es →
      (∀ k o, (k, o) ∈ es → Tidy o) → (∀ k j, (k, .prim j) ∈ es → Obj.isStrInt j = true) →
      Tidy (.map b p s es)

end Pyopenapi.Spec
