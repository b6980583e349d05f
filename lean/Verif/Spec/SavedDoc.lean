import Verif.Spec.Saved
import Verif.Spec.Main
import Verif.Spec.Says

/-! # Specification: a document that has been prepared can be saved -/

namespace Pyopenapi.Main
open _root_.Pyopenapi.Spec _root_.Pyopenapi.Refs.Spec Obj

variable {W : Type}

/-- What has been written into the references of a document. -/
def written (w : World W) (x : Obj) : Option Str := (attrsOf w x).newRef

/-- A document with nothing in the way of a dump has one, that can be loaded from anywhere.  A dump of the document, served at any url to another application and loaded there (when it can be loaded), is prepared
there as it is, as a document of 3.0.0, without anything else being fetched: it says the same as the document (but for the
references that have been rewritten, and empty containers), every `$ref` leads to what it led to before, and everything is
found under its reference. -/
def Savable (w : World W) (o : Obj) : Prop :=
  (Whole o → ∃ j', Obj.dump pkg (rewritten (written w) o) = .ok j' ∧
    ∀ url, ∃ o', build pkg (.cls (s% "v3_0_0.OpenApi")) j' (some url) [] = .ok o') ∧
  ∀ j', Obj.dump pkg (rewritten (written w) o) = .ok j' →
    ∀ (V : Type) (out : Outer V) (n : Nat) (v v' : V) (url : Str) (o' : Obj), DocUrl out.ok url → out.fetch url v = (.ok j', v') →
      build pkg (.cls (s% "v3_0_0.OpenApi")) j' (some url) [] = .ok o' →
      ∃ b b', App.loadObj (application out (n + 1)) url none false (opened v) = (.ok o', b) ∧
        App.migrateObj (application out (n + 1)) o' url (s% "3.0.0") b = (.ok o', b') ∧
        b'.original = s% "3.0.0" ∧ b'.world.rest = v' ∧ Found (application out (n + 1)) b' url (s% "3.0.0") o' ∧
        SavedAs (written w) o o' ∧
        ∀ ts x', Visited [] o' ts x' → ∃ x, Visited [] o ts x ∧ SavedAs (written w) x x' ∧
          ∀ r, Refers Refs.normClasses3 x r → ∃ r' y y', Refers Refs.normClasses3 x' r' ∧ written w x = some r' ∧
            (attrsOf w x).refObj = some y ∧ (attrsOf b'.world x').refObj = some y' ∧ SavedAs (written w) y y'

end Pyopenapi.Main
