import Verif.Spec.Says
import Verif.Spec.Pieces

/-!
# Specification: a 3.0.0 application made of pieces that refer to one another

As Spec/Pieces, for documents of 3.0.0 that are not migrated from an older version.
-/

namespace Pyopenapi.Main.Native
open _root_.Pyopenapi.Spec _root_.Pyopenapi.Refs.Spec Obj

variable {W : Type}

/-- The reference of a piece is that of its place (that of a whole document may have no fragment); its content is loaded
as an object of 3.0.0.  It may not have `callbacks` in which `C32_lost_violation` hides a reference (`NoMix`), nor `examples` of media
types (C82). -/
structure Good (out : Outer W) (p : Piece) : Prop where
  url : DocUrl out.ok p.url
  safe : Safe p.place
  ref : p.ref = p.url ++ pointer p.place ∨ (p.place = [] ∧ p.ref = p.url)
  class_ : p.cls ≠ s% "v3_0_0.Reference"
  version : (pkg p.cls).version = s% "3.0.0"
  wf : p.json.wf = true
  built : build pkg (.cls p.cls) p.json (some p.ref) [] = .ok p.obj
  noMix : NoMix p.obj
  noExamples : NoExamples p.obj

/-- Whoever fetches the reference gets the content, which is no document that tells its version. -/
structure Served (out : Outer W) (p : Piece) : Prop where
  fetch : ∀ w, (out.fetch p.ref w).1 = .ok p.json
  part : SaysVersion p.json none
  notRoot : p.cls ≠ s% "v3_0_0.OpenApi"

/-- The content of `q` is loaded as what is expected at the place `ts` of `p`. -/
def Suits (p q : Piece) (ts : List Str) : Prop :=
  ∀ b, Expected p.obj ts b → build pkg b q.json (some q.ref) [] = .ok q.obj

/-- The absolute reference `n`, found in `p`, leads to `y`, which is at `us` in the piece `q`: it is that piece; or it is somewhere
in it, when `q` is the piece the reference stands in or the main document (which are there already). -/
def LeadsTo (main p : Piece) (n : Str) (q : Piece) (us : List Str) (y : Obj) : Prop :=
  (n = q.ref ∧ us = [] ∧ y = q.obj) ∨
    ((q = p ∨ q = main) ∧ n = q.url ++ pointer (q.place ++ us) ∧ Safe (q.place ++ us) ∧ At q.obj us y)

/-- Every Reference in a piece, and every path item with a `$ref`, leads to something in one of the pieces, which can be
loaded as what is expected there; that of a path item to a path item. -/
def Linked (p : Piece) (out : Outer W) (main : Piece) (pieces : List Piece) : Prop :=
  ∀ ts c q spec kids, Visited [] p.obj ts (.base c q spec kids) → c ∈ Refs.normClasses3 → ∃ d, spec = .obj d ∧
    ((Dict.get? d (s% "$ref") = none ∧ c ≠ s% "v3_0_0.Reference") ∨
      ∃ r n t us y, Dict.get? d (s% "$ref") = some (.str r) ∧ r ≠ [] ∧ normalizeJr out.ok (some r) (some p.url) = .ok (some n) ∧
        (t = main ∨ t ∈ pieces) ∧ LeadsTo main p n t us y ∧ (n = t.ref → Suits p t ts) ∧
        (c = s% "v3_0_0.PathItem" → y.className? = some (s% "v3_0_0.PathItem") ∧ ∃ vs, Visited [] t.obj vs y))

/-- A `$ref` in `p` leads to something in `q`. -/
def RefersTo (p : Piece) (out : Outer W) (main q : Piece) : Prop :=
  ∃ ts x r n us y, Visited [] p.obj ts x ∧ Refers Refs.normClasses3 x r ∧
    normalizeJr out.ok (some r) (some p.url) = .ok (some n) ∧ LeadsTo main p n q us y

/-- What can be reached from the main document along references. -/
inductive Reached (out : Outer W) (main : Piece) (pieces : List Piece) : Piece → Prop
  | main : Reached out main pieces main
  | next {p q : Piece} : Reached out main pieces p → RefersTo p out main q → q ∈ pieces → Reached out main pieces q

/-- A main document of 3.0.0 and the pieces it may refer to. -/
structure Application (out : Outer W) (main : Piece) (pieces : List Piece) : Prop where
  good : ∀ p, p = main ∨ p ∈ pieces → Good out p
  served : ∀ p ∈ pieces, Served out p
  apart : ∀ p q, p = main ∨ p ∈ pieces → q = main ∨ q ∈ pieces → p ≠ q → p.Apart q
  linked : ∀ p, p = main ∨ p ∈ pieces → Linked p out main pieces
  root : main.place = [] ∧ main.ref = main.url ∧ main.cls = s% "v3_0_0.OpenApi"

/-- The reference `r` as it is written anew, when it leads to the place `us` of `q`: without the url, when it had none. -/
def Rewritten (r : Str) (q : Piece) (us : List Str) : Str :=
  if Str.startsWith r (s% "#") = true then pointer (q.place ++ us) else q.url ++ pointer (q.place ++ us)

/-- The objects of the piece know what they refer to: the absolute reference, the object it leads to, and the `$ref` that is
written anew. -/
def Known (p : Piece) (out : Outer W) (main : Piece) (pieces : List Piece) (w : World W) : Prop :=
  ∀ ts x, Visited [] p.obj ts x →
    (∀ r, Refers Refs.normClasses3 x r → ∃ n q us y, normalizeJr out.ok (some r) (some p.url) = .ok (some n) ∧
      (q = main ∨ q ∈ pieces) ∧ LeadsTo main p n q us y ∧
      attrsOf w x = { normalized := some (q.url ++ pointer (q.place ++ us)), refObj := some y, newRef := some (Rewritten r q us) }) ∧
    ((∀ r, ¬ Refers Refs.normClasses3 x r) → attrsOf w x = {})

/-- The object `x` of some piece refers to `y`. -/
def Points (out : Outer W) (main : Piece) (pieces : List Piece) (x y : Obj) : Prop :=
  ∃ p ts r n q us, (p = main ∨ p ∈ pieces) ∧ Visited [] p.obj ts x ∧ Refers Refs.normClasses3 x r ∧
    normalizeJr out.ok (some r) (some p.url) = .ok (some n) ∧ (q = main ∨ q ∈ pieces) ∧ LeadsTo main p n q us y

/-- The path items along references: the first one, the one it refers to, and so on, until there is no `$ref`, or it leads
back to one that was there before. -/
inductive Trail (out : Outer W) (main : Piece) (pieces : List Piece) : List Obj → Obj → List Obj → Prop
  | last {seen : List Obj} {x : Obj} : (∀ r, ¬ Refers Refs.normClasses3 x r) → Trail out main pieces seen x [x]
  | again {seen : List Obj} {x y : Obj} : Points out main pieces x y → y ∈ seen → Trail out main pieces seen x [x]
  | more {seen l : List Obj} {x y : Obj} : Points out main pieces x y → y ∉ seen → Trail out main pieces (seen ++ [y]) y l →
    Trail out main pieces seen x (x :: l)

/-- A path item each of whose operations, and whose parameters and servers, are those of the first in the list that has them. -/
def MergedFrom (l : List Obj) (f : Obj) : Prop :=
  ∃ kids, f = .base (s% "v3_0_0.PathItem") none (.obj []) kids ∧
    ∀ k ∈ Dict.keys (pkg (s% "v3_0_0.PathItem")).children, Dict.get? kids k = l.findSome? (kidOf k)

/-- `final` of a path item with a `$ref` is what the path items along the references are merged into. -/
def Merged (p : Piece) (out : Outer W) (main : Piece) (pieces : List Piece) (w : World W) : Prop :=
  ∀ ts x r, Visited [] p.obj ts x → x.className? = some (s% "v3_0_0.PathItem") → Refers Refs.normClasses3 x r →
    ∃ l, Trail out main pieces [x] x l ∧ MergedFrom l (final w x)

/-- Whatever is asked for in the piece, is found there, in 3.0.0; nothing is loaded or changed for that. -/
def Found (p : Piece) (env : AppEnv Obj (World W)) (a : App Obj (World W)) : Prop :=
  ∀ us x parser to dummy, Safe (p.place ++ us) → At p.obj us x → to = none ∨ to = some (s% "3.0.0") →
    App.resolveObj env (p.url ++ pointer (p.place ++ us)) (s% "3.0.0") parser to dummy a =
      (.ok (x, p.url ++ pointer (p.place ++ us)), a)

end Pyopenapi.Main.Native
