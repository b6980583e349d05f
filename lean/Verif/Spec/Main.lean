import Verif.Model.Main
import Verif.Spec.ConvReloc
import Verif.Spec.Refs

/-!
# Specification: documents that refer to nothing but themselves, and what it means to have migrated one
-/

namespace Pyopenapi.Main
open _root_.Pyopenapi.Spec _root_.Pyopenapi.Refs.Spec Obj

/-- A document url as applications use them: with a scheme, no fragment, written the way `urlunparse` writes it. -/
structure DocUrl (ok : Str → Bool) (url : Str) : Prop where
  hash : '#' ∉ url
  win : isWindowsPath url = false
  parsed : ∃ u, Url.parse ok url = .ok u ∧ u.scheme ≠ [] ∧ Url.unparse u = url

/-- A pointer that stands in a url as it is (no tabs and line ends). -/
def Safe (ts : List Str) : Prop := ∀ c ∈ pointer ts, Url.unsafeChar c = false

/-- The tokens lead to an object of a class. -/
def At (root : Obj) (ts : List Str) (x : Obj) : Prop := Obj.resolve pkg ts root = .ok x ∧ x.isBase = true

/-- Every `$ref` of the document points to an object in it; objects of the `needed` classes have one. -/
def Linked (root : Obj) (classes needed : List Str) : Prop :=
  ∀ ts c q spec kids, Visited [] root ts (.base c q spec kids) → c ∈ classes → ∃ d, spec = .obj d ∧
    ((Dict.get? d (s% "$ref") = none ∧ c ∉ needed) ∨
      ∃ t us y, Dict.get? d (s% "$ref") = some (.str (pointer (t :: us))) ∧ Safe (t :: us) ∧ At root (t :: us) y)

/-- The same for a document some of whose parts have moved, `move` telling where to. -/
def LinkedVia (move : Str → Str) (root : Obj) (classes needed : List Str) : Prop :=
  ∀ ts c q spec kids, Visited [] root ts (.base c q spec kids) → c ∈ classes → ∃ d, spec = .obj d ∧
    ((Dict.get? d (s% "$ref") = none ∧ c ∉ needed) ∨
      ∃ t us vs y, Dict.get? d (s% "$ref") = some (.str (pointer (t :: us))) ∧ Safe (t :: us) ∧
        move (pointer (t :: us)) = pointer vs ∧ Safe vs ∧ At root vs y)

/-- No path item has a `$ref`. -/
def NoPathRef (root : Obj) (cls : Str) : Prop :=
  ∀ ts q d kids, Visited [] root ts (.base cls q (.obj d) kids) → Dict.get? d (s% "$ref") = none

/-- The objects of the document have the attributes the scanners give them: an object with a `$ref` knows the absolute
reference and the object it leads to. -/
def Knows {W : Type} (w : World W) (root : Obj) (classes : List Str) (url : Str) : Prop :=
  ∀ ts x, Visited [] root ts x →
    (∀ r, Refers classes x r → ∃ us y, r = pointer us ∧ At root us y ∧
      attrsOf w x = { normalized := some (url ++ r), refObj := some y }) ∧
    ((∀ r, ¬ Refers classes x r) → attrsOf w x = {})

/-- The same, after references have been rewritten. -/
def KnowsVia {W : Type} (move : Str → Str) (w : World W) (root : Obj) (classes : List Str) (url : Str) : Prop :=
  ∀ ts x, Visited [] root ts x →
    (∀ r, Refers classes x r → ∃ vs y, move r = pointer vs ∧ At root vs y ∧
      attrsOf w x = { normalized := some (url ++ pointer vs), refObj := some y, newRef := some (pointer vs) }) ∧
    ((∀ r, ¬ Refers classes x r) → attrsOf w x = {})

/-- The application has this document, at this url and in this version, and nothing below it on its own. -/
def Has {W : Type} (a : App Obj (World W)) (url ver : Str) (root : Obj) : Prop :=
  ∃ cache, Dict.get? a.store.objs url = some [(['#'], cache)] ∧ Dict.get? cache ver = some root

/-- The application has nothing of this url, or the document in some versions. -/
def Clean {W : Type} (a : App Obj (World W)) (url : Str) : Prop :=
  Dict.get? a.store.objs url = none ∨ ∃ cache, Dict.get? a.store.objs url = some [(['#'], cache)]

/-- Whatever is asked for in the document, is found there; nothing is loaded or changed for that. -/
def Found {W : Type} (env : AppEnv Obj (World W)) (a : App Obj (World W)) (url ver : Str) (root : Obj) : Prop :=
  ∀ ts x parser dummy, Safe ts → At root ts x →
    App.resolveObj env (url ++ pointer ts) ver parser (some ver) dummy a = (.ok (x, url ++ pointer ts), a)

end Pyopenapi.Main
