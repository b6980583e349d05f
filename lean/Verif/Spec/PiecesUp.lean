import Verif.Spec.Pieces
import Verif.Spec.Native
import Verif.Spec.MainDoc
import Verif.Spec.MainPaths
import Verif.Spec.Convertible
import Verif.Spec.ConvSwagger
import Verif.Props.ConvLoads

/-!
# Specification: a 2.0 application whose schemas are spread over many documents, migrated to 3.0.0
-/

namespace Pyopenapi.Main
open _root_.Pyopenapi.Spec _root_.Pyopenapi.Refs.Spec Obj

variable {W : Type}

/-- A piece that is a schema, neither a reference nor a file. -/
structure Piece.IsSchema (p : Piece) : Prop where
  cls : p.cls = s% "v2_0.Schema"
  regular : Regular pkg (.cls (s% "v2_0.Schema")) p.json
  plain : ∃ d, p.json = .obj d ∧ Dict.get? d (s% "$ref") = none
  noFile : ¬ IsFile p.json

/-- The object a schema is loaded as in 3.0.0, once it is converted. -/
def Piece.Converted (p : Piece) (o : Obj) : Prop :=
  ∃ j, Conv.toSchema false p.obj = .ok j ∧ build pkg (.cls (s% "v3_0_0.Schema")) j (some (pointer p.place)) [] = .ok o

/-- References are followed `k` times, through all documents, to an object that is no reference. -/
inductive Ends (out : Outer W) (main : Piece) (pieces : List Piece) : Nat → Obj → Obj → Prop
  | stop {x : Obj} : (∀ r, ¬ Refers Refs.normClasses2 x r) → Ends out main pieces 0 x x
  | step {k : Nat} {x y z : Obj} : Points out main pieces x y → Ends out main pieces k y z → Ends out main pieces (k + 1) x z

/-- An application that can be migrated: a main document as in C86, whose schemas may refer to pieces, whose path items may
refer to one another (but not in circles); pieces that are schemas and refer to one another or to definitions of the main document.

The last two conditions belong to the model alone: a 3.0.0 object knows its place but not its document, and there it is the
same as one of another document at the same place, if they say the same.  Such objects must not be references. -/
structure Upgradable (out : Outer W) (main : Piece) (pieces : List Piece) (d : Dict Json) : Prop where
  app : Application out main pieces
  json : main.json = .obj d
  regular : Regular pkg (.cls (s% "v2_0.Swagger")) (.obj d)
  refs : ∀ ts c q spec kids, Visited [] main.obj ts (.base c q spec kids) → c ∈ Refs.normClasses2 → ∃ e, spec = .obj e ∧
    (Dict.get? e (s% "$ref") = none ∨ ∃ v, Dict.get? e (s% "$ref") = some v ∧ (Entry d c v ∨ PathEntry d c v ∨
      c = s% "v2_0.Schema" ∧ ∃ r t, v = .str r ∧ t ∈ pieces ∧ normalizeJr out.ok (some r) (some main.url) = .ok (some t.ref)))
  schemas : ∀ p ∈ pieces, p.IsSchema
  inner : ∀ p ∈ pieces, ∀ ts x r n, Visited [] p.obj ts x → Refers Refs.normClasses2 x r →
    normalizeJr out.ok (some r) (some p.url) = .ok (some n) → (∃ t ∈ pieces, n = t.ref) ∨
      ∃ m w, n = main.url ++ pointer [s% "definitions", m] ∧ Safe [s% "definitions", m] ∧
        Dict.get? (objAt d (s% "definitions")) m = some w
  ends : ∀ p, p = main ∨ p ∈ pieces → ∀ ts x, Visited [] p.obj ts x → ∃ k z, Ends out main pieces k x z
  noFiles : NoFiles d
  names : NamesOk d
  resolves : DocResolves (docRefs d) d
  able : Convertible (docRefs d) out.ok d
  scopes : ∀ k e, (k, .obj e) ∈ objAt d (s% "securityDefinitions") → ScopesGiven e
  sets : SetOrdered out
  places : ∀ p ∈ pieces, ∀ t ts, p.place = t :: ts → t ∉ Dict.keys (pkg (s% "v3_0_0.OpenApi")).children
  differ : ∀ p q, p ∈ pieces → q ∈ pieces → p ≠ q → ∀ o o', p.Converted o → q.Converted o' → ∀ ts us x r, Visited [] o ts x →
    Visited [] o' us x → ¬ Refers Refs.normClasses3 x r

/-- Where the absolute reference `n` leads in 3.0.0: to the converted piece; or to something in the main document, at the
place `move` tells.  The new reference is that of the document `u` and the place `us`. -/
def LeadsTo3 (main : Piece) (pieces : List Piece) (move : Str → Str) (root : Obj) (n : Str) (y : Obj) (u : Str) (us : List Str) : Prop :=
  (∃ t ∈ pieces, n = t.ref ∧ t.Converted y ∧ u = t.url ∧ us = t.place) ∨
    (∃ ts, n = main.url ++ pointer ts ∧ Safe ts ∧ u = main.url ∧ move (pointer ts) = pointer us ∧ At root us y)

/-- The objects of the 3.0.0 object `o`, from a document at `url`, know what they refer to; `$ref` has been rewritten. -/
def Known3 (out : Outer W) (main : Piece) (pieces : List Piece) (move : Str → Str) (root : Obj) (w : World W) (url : Str) (o : Obj) : Prop :=
  ∀ ts x, Visited [] o ts x →
    (∀ r, Refers Refs.normClasses3 x r → ∃ n y u us, normalizeJr out.ok (some r) (some url) = .ok (some n) ∧
      LeadsTo3 main pieces move root n y u us ∧
      attrsOf w x = { normalized := some (u ++ pointer us), refObj := some y, newRef := some (ite (Str.startsWith r (s% "#") = true) (pointer us) (u ++ pointer us)) }) ∧
    ((∀ r, ¬ Refers Refs.normClasses3 x r) → attrsOf w x = {})

/-- The `$ref` of `x` leads to `y` in the migrated document at `url`. -/
def Step3 (url : Str) (root x y : Obj) : Prop := ∃ us, Refers Refs.normClasses3 x (url ++ pointer us) ∧ At root us y

/-- The path items of 3.0.0 along references, as `Native.Trail`. -/
inductive Trail3 (url : Str) (root : Obj) : List Obj → Obj → List Obj → Prop
  | last {seen : List Obj} {x : Obj} : (∀ r, ¬ Refers Refs.normClasses3 x r) → Trail3 url root seen x [x]
  | again {seen : List Obj} {x y : Obj} : Step3 url root x y → y ∈ seen → Trail3 url root seen x [x]
  | more {seen l : List Obj} {x y : Obj} : Step3 url root x y → y ∉ seen → Trail3 url root (seen ++ [y]) y l → Trail3 url root seen x (x :: l)

/-- `final` of a migrated path item with a `$ref` is what the path items along the references are merged into. -/
def Merged3 (url : Str) (root : Obj) (w : World W) : Prop :=
  ∀ ts x r, Visited [] root ts x → x.className? = some (s% "v3_0_0.PathItem") → Refers Refs.normClasses3 x r →
    ∃ l, Trail3 url root [x] x l ∧ Native.MergedFrom l (final w x)

/-- Every path item of the document is, at its place, a path item of the migrated one; it refers to another one just if it did before,
with an absolute reference to the same place. -/
def PathsKept (url : Str) (d : Dict Json) (root : Obj) : Prop :=
  ∀ k e, Dict.get? (objAt d (s% "paths")) k = some (.obj e) → ∃ y, Visited [] root [s% "paths", k] y ∧ At root [s% "paths", k] y ∧ y.className? = some (s% "v3_0_0.PathItem") ∧
    ∀ r, Refers Refs.normClasses3 y r ↔ ∃ r', Dict.get? e (s% "$ref") = some (.str r') ∧ r' ≠ [] ∧ r = url ++ r'

/-- The object of 3.0.0 a piece has become says what its content says, at its place. -/
def Piece.Became (p : Piece) (o : Obj) : Prop :=
  ∃ j, SchemaTo p.json (.obj j) ∧ build pkg (.cls (s% "v3_0_0.Schema")) (.obj j) (some (pointer p.place)) [] = .ok o

/-- What can be reached from the migrated main document `root` along the references of 3.0.0 objects. -/
inductive Reached3 (out : Outer W) (main : Piece) (pieces : List Piece) (root : Obj) : Piece → Obj → Prop
  | main : Reached3 out main pieces root main root
  | next {p q : Piece} {o o' : Obj} {ts : List Str} {x : Obj} {r : Str} : Reached3 out main pieces root p o → Visited [] o ts x →
      Refers Refs.normClasses3 x r → normalizeJr out.ok (some r) (some p.url) = .ok (some q.ref) → q ∈ pieces → q.Converted o' →
      Reached3 out main pieces root q o'

/-- The reference of a piece leads to the object `o` of 3.0.0, which is there already. -/
def Piece.Found3 (p : Piece) (env : AppEnv Obj (World W)) (a : App Obj (World W)) (o : Obj) : Prop :=
  ∀ parser dummy, App.resolveObj env p.ref (s% "2.0") parser (some (s% "3.0.0")) dummy a = (.ok (o, p.url ++ pointer p.place), a)

/-- Whatever is asked for in the migrated piece, is found there, in 3.0.0; nothing is loaded or changed for that. -/
def Piece.All3 (p : Piece) (env : AppEnv Obj (World W)) (a : App Obj (World W)) (o : Obj) : Prop :=
  ∀ us x parser to dummy, Safe (p.place ++ us) → At o us x → to = none ∨ to = some (s% "3.0.0") →
    App.resolveObj env (p.url ++ pointer (p.place ++ us)) (s% "3.0.0") parser to dummy a =
      (.ok (x, p.url ++ pointer (p.place ++ us)), a)

end Pyopenapi.Main
