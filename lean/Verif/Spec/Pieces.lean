import Verif.Spec.Says
import Verif.Spec.Main

/-!
# Specification: a 2.0 application made of pieces that refer to one another

The main document of an application may refer to objects elsewhere, in the same or in other documents at other urls, and
these may refer to others again, or back.  What is loaded from one reference is a piece.
-/

namespace Pyopenapi.Main
open _root_.Pyopenapi.Spec _root_.Pyopenapi.Refs.Spec Obj

/-- What is loaded from one reference: the url of a document, the place in it, and the class, the content and the object
that is loaded from there, with the reference it is loaded by. -/
structure Piece where
  url : Str
  place : List Str
  ref : Str
  cls : Str
  json : Json
  obj : Obj

variable {W : Type}

/-- The reference of a piece is that of its place (that of a whole document may have no fragment); its content is loaded
as an object of 2.0. -/
structure Piece.Good (out : Outer W) (p : Piece) : Prop where
  url : DocUrl out.ok p.url
  safe : Safe p.place
  ref : p.ref = p.url ++ pointer p.place ∨ (p.place = [] ∧ p.ref = p.url)
  class_ : p.cls ≠ s% "v2_0.Reference"
  version : (pkg p.cls).version = s% "2.0"
  wf : p.json.wf = true
  built : build pkg (.cls p.cls) p.json (some p.ref) [] = .ok p.obj

/-- Whoever fetches the reference gets the content, which is no document that tells its version. -/
structure Piece.Served (out : Outer W) (p : Piece) : Prop where
  fetch : ∀ w, (out.fetch p.ref w).1 = .ok p.json
  part : SaysVersion p.json none
  notRoot : p.cls ≠ s% "v2_0.Swagger"

/-- Two pieces have no object in common, and when they are in one document, the pointer of the one does not begin with
that of the other (C37). -/
def Piece.Apart (p q : Piece) : Prop :=
  (∀ ts us x, Visited [] p.obj ts x → ¬ Visited [] q.obj us x) ∧ (p.url = q.url → ¬ pointer p.place <+: pointer q.place)

/-- The piece is of the class that is expected where the object `x` with a `$ref` stands, at `ts`: of the class of the
object; or a parameter or a response (itself no reference), where `x` is a Reference in place of one. -/
def Piece.Suits (q : Piece) (ts : List Str) (x : Obj) : Prop :=
  x.className? = some q.cls ∨
    (x.className? = some (s% "v2_0.Reference") ∧ (∃ d, q.json = .obj d ∧ Dict.get? d (s% "$ref") = none) ∧
      ((q.cls = s% "v2_0.Parameter" ∧ ∃ us i, ts = us ++ [s% "parameters", i]) ∨
        (q.cls = s% "v2_0.Response" ∧ ∃ us k, ts = us ++ [s% "responses", k])))

/-- The absolute reference `n`, found in `p`, leads to `y`, which is in the piece `q`: it is that piece; or it is somewhere
in it, when `q` is the piece the reference stands in or the main document (which are there already). -/
def LeadsTo (main p : Piece) (n : Str) (q : Piece) (y : Obj) : Prop :=
  (n = q.ref ∧ y = q.obj) ∨
    ((q = p ∨ q = main) ∧ ∃ us, n = q.url ++ pointer (q.place ++ us) ∧ Safe (q.place ++ us) ∧ At q.obj us y)

/-- Every `$ref` in a piece leads to something in one of the pieces, of the class that is expected where it stands; that
of a path item to a path item. -/
def Piece.Linked (p : Piece) (out : Outer W) (main : Piece) (pieces : List Piece) : Prop :=
  ∀ ts c q spec kids, Visited [] p.obj ts (.base c q spec kids) → c ∈ Refs.normClasses2 → ∃ d, spec = .obj d ∧
    (Dict.get? d (s% "$ref") = none ∨
      ∃ r n t y, Dict.get? d (s% "$ref") = some (.str r) ∧ r ≠ [] ∧ normalizeJr out.ok (some r) (some p.url) = .ok (some n) ∧
        (t = main ∨ t ∈ pieces) ∧ LeadsTo main p n t y ∧
        (n = t.ref → t.Suits ts (.base c q spec kids)) ∧
        (c = s% "v2_0.PathItem" → y.className? = some (s% "v2_0.PathItem") ∧ ∃ us, Visited [] t.obj us y))

/-- A `$ref` in `p` leads to something in `q`. -/
def Piece.RefersTo (p : Piece) (out : Outer W) (main q : Piece) : Prop :=
  ∃ ts x r n y, Visited [] p.obj ts x ∧ Refers Refs.normClasses2 x r ∧
    normalizeJr out.ok (some r) (some p.url) = .ok (some n) ∧ LeadsTo main p n q y

/-- What can be reached from the main document along references. -/
inductive Reached (out : Outer W) (main : Piece) (pieces : List Piece) : Piece → Prop
  | main : Reached out main pieces main
  | next {p q : Piece} : Reached out main pieces p → p.RefersTo out main q → q ∈ pieces → Reached out main pieces q

/-- A main document of 2.0 and the pieces it may refer to. -/
structure Application (out : Outer W) (main : Piece) (pieces : List Piece) : Prop where
  good : ∀ p, p = main ∨ p ∈ pieces → p.Good out
  served : ∀ p ∈ pieces, p.Served out
  apart : ∀ p q, p = main ∨ p ∈ pieces → q = main ∨ q ∈ pieces → p ≠ q → p.Apart q
  linked : ∀ p, p = main ∨ p ∈ pieces → p.Linked out main pieces
  root : main.place = [] ∧ main.ref = main.url ∧ main.cls = s% "v2_0.Swagger"

/-- The objects of the piece know what they refer to: the absolute reference, and the object it leads to. -/
def Piece.Known (p : Piece) (out : Outer W) (main : Piece) (pieces : List Piece) (w : World W) : Prop :=
  ∀ ts x, Visited [] p.obj ts x →
    (∀ r, Refers Refs.normClasses2 x r → ∃ n q y, normalizeJr out.ok (some r) (some p.url) = .ok (some n) ∧
      (q = main ∨ q ∈ pieces) ∧ LeadsTo main p n q y ∧ attrsOf w x = { normalized := some n, refObj := some y }) ∧
    ((∀ r, ¬ Refers Refs.normClasses2 x r) → attrsOf w x = {})

/-- The object `x` of some piece refers to `y`. -/
def Points (out : Outer W) (main : Piece) (pieces : List Piece) (x y : Obj) : Prop :=
  ∃ p ts r n q, (p = main ∨ p ∈ pieces) ∧ Visited [] p.obj ts x ∧ Refers Refs.normClasses2 x r ∧
    normalizeJr out.ok (some r) (some p.url) = .ok (some n) ∧ (q = main ∨ q ∈ pieces) ∧ LeadsTo main p n q y

/-- The path items along references: the first one, the one it refers to, and so on, until there is no `$ref`, or it leads
back to one that was there before. -/
inductive Trail (out : Outer W) (main : Piece) (pieces : List Piece) : List Obj → Obj → List Obj → Prop
  | last {seen : List Obj} {x : Obj} : (∀ r, ¬ Refers Refs.normClasses2 x r) → Trail out main pieces seen x [x]
  | again {seen : List Obj} {x y : Obj} : Points out main pieces x y → y ∈ seen → Trail out main pieces seen x [x]
  | more {seen l : List Obj} {x y : Obj} : Points out main pieces x y → y ∉ seen → Trail out main pieces (seen ++ [y]) y l →
    Trail out main pieces seen x (x :: l)

/-- A child of an object, when there is one and it is not empty. -/
def kidOf (k : Str) : Obj → Option Obj
  | .base _ _ _ kids => (Dict.get? kids k).filter Obj.truthy
  | _ => none

/-- A path item each of whose operations, and whose parameters, are those of the first in the list that has them. -/
def MergedFrom (l : List Obj) (f : Obj) : Prop :=
  ∃ kids, f = .base (s% "v2_0.PathItem") none (.obj []) kids ∧
    ∀ k ∈ Dict.keys (pkg (s% "v2_0.PathItem")).children, Dict.get? kids k = l.findSome? (kidOf k)

/-- `final` of a path item with a `$ref` is what the path items along the references are merged into. -/
def Piece.Merged (p : Piece) (out : Outer W) (main : Piece) (pieces : List Piece) (w : World W) : Prop :=
  ∀ ts x r, Visited [] p.obj ts x → x.className? = some (s% "v2_0.PathItem") → Refers Refs.normClasses2 x r →
    ∃ l, Trail out main pieces [x] x l ∧ MergedFrom l (final w x)

/-- How many objects there are in all. -/
def size (main : Piece) (pieces : List Piece) : Nat := ((main :: pieces).flatMap (fun p => visits p.obj)).length

/-- Whatever is asked for in the piece, is found there, in 2.0; nothing is loaded or changed for that. -/
def Piece.Found (p : Piece) (env : AppEnv Obj (World W)) (a : App Obj (World W)) : Prop :=
  ∀ us x parser to dummy, Safe (p.place ++ us) → At p.obj us x → to = none ∨ to = some (s% "2.0") →
    App.resolveObj env (p.url ++ pointer (p.place ++ us)) (s% "2.0") parser to dummy a =
      (.ok (x, p.url ++ pointer (p.place ++ us)), a)

end Pyopenapi.Main
