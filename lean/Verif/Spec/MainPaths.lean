import Verif.Spec.Main
import Verif.Spec.MainDoc

/-!
# Specification: documents whose path items may refer to one another
-/

namespace Pyopenapi.Main
open _root_.Pyopenapi.Spec _root_.Pyopenapi.Refs.Spec Obj

/-- The `$ref` of a path item of the document leads to another path item. -/
def PathRefs (root : Obj) (cls : Str) : Prop :=
  ∀ ts q d kids us, Visited [] root ts (.base cls q (.obj d) kids) → Dict.get? d (s% "$ref") = some (.str (pointer us)) →
    ∃ y, Visited [] root us y ∧ y.className? = some cls

/-- The objects along references in a document: the first one, the one it refers to, and so on, until there is no `$ref`, or it
leads back to one that was there before. -/
inductive LocalTrail (classes : List Str) (root : Obj) : List Obj → Obj → List Obj → Prop
  | last {seen : List Obj} {x : Obj} : (∀ r, ¬ Refers classes x r) → LocalTrail classes root seen x [x]
  | again {seen : List Obj} {x y : Obj} {us : List Str} : Refers classes x (pointer us) → At root us y → y ∈ seen →
      LocalTrail classes root seen x [x]
  | more {seen l : List Obj} {x y : Obj} {us : List Str} : Refers classes x (pointer us) → At root us y → y ∉ seen →
      LocalTrail classes root (seen ++ [y]) y l → LocalTrail classes root seen x (x :: l)

/-- A path item each of whose children (operations, parameters, servers) is that of the first in the list that has one which
is not empty. -/
def MergedTo (cls : Str) (l : List Obj) (f : Obj) : Prop :=
  ∃ kids, f = .base cls none (.obj []) kids ∧ ∀ k ∈ Dict.keys (pkg cls).children, Dict.get? kids k = l.findSome? (fun o =>
    match o with
    | .base _ _ _ kids => (Dict.get? kids k).filter Obj.truthy
    | _ => none)

/-- `final` of a path item with a `$ref` is what the path items along the references are merged into. -/
def LocalMerged {W : Type} (classes : List Str) (cls : Str) (root : Obj) (w : World W) : Prop :=
  ∀ ts x r, Visited [] root ts x → x.className? = some cls → Refers classes x r →
    ∃ l, LocalTrail classes root [x] x l ∧ MergedTo cls l (final w x)

/-- A reference from a path item to another one of the same document. -/
def PathEntry (d : Dict Json) (c : Str) (v : Json) : Prop :=
  c = s% "v2_0.PathItem" ∧ ∃ k w, v = .str (pointer [s% "paths", k]) ∧ Safe [s% "paths", k] ∧
    Dict.get? (objAt d (s% "paths")) k = some w

/-- As `Conventional`, but path items may refer to one another. -/
def Conventional2 (root : Obj) (d : Dict Json) : Prop :=
  ∀ ts c q spec kids, Visited [] root ts (.base c q spec kids) → c ∈ Refs.normClasses2 → ∃ e, spec = .obj e ∧
    (Dict.get? e (s% "$ref") = none ∨ ∃ v, Dict.get? e (s% "$ref") = some v ∧ (Entry d c v ∨ PathEntry d c v))

/-- The objects of the migrated document know what they refer to: the place in the document `move` tells.  A reference that begins with
`#` is rewritten to one that does, others (those of path items) to absolute ones. -/
def KnowsMoved {W : Type} (ok : Str → Bool) (move : Str → Str) (w : World W) (root : Obj) (url : Str) : Prop :=
  ∀ ts x, Visited [] root ts x →
    (∀ r, Refers Refs.normClasses3 x r → ∃ vs us y, normalizeJr ok (some r) (some url) = .ok (some (url ++ pointer vs)) ∧
      move (pointer vs) = pointer us ∧ At root us y ∧
      attrsOf w x = { normalized := some (url ++ pointer us), refObj := some y, newRef := some (ite (Str.startsWith r (s% "#") = true) (pointer us) (url ++ pointer us)) }) ∧
    ((∀ r, ¬ Refers Refs.normClasses3 x r) → attrsOf w x = {})

end Pyopenapi.Main
