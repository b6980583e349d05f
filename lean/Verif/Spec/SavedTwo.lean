import Verif.Spec.Saved
import Verif.Spec.Main
import Verif.Spec.Says

/-! # Specification: a document of 2.0 that stays one can be saved -/

namespace Pyopenapi.Main
open _root_.Pyopenapi.Spec _root_.Pyopenapi.Refs.Spec Obj

variable {W : Type}

/-- Nothing has been written into the references of a document of 2.0. -/
def asIs : Obj → Option Str := fun _ => none

/-- A document with nothing in the way of a dump has one, that can be loaded from anywhere.  A dump of the document, served
at any url to another application and loaded there (when it can be loaded), is prepared there as a document of 2.0, without
anything else being fetched: it says the same (but for empty containers), every `$ref` is there, as it was, and leads to what
it led to before, and everything is found under its reference. -/
def SavableTwo (w : World W) (o : Obj) : Prop :=
  (Whole o → ∃ j', Obj.dump pkg o = .ok j' ∧ ∀ url, ∃ o', build pkg (.cls (s% "v2_0.Swagger")) j' (some url) [] = .ok o') ∧
  ∀ j', Obj.dump pkg o = .ok j' →
    ∀ (V : Type) (out : Outer V) (n : Nat) (v v' : V) (url : Str) (o' : Obj), DocUrl out.ok url → out.fetch url v = (.ok j', v') →
      build pkg (.cls (s% "v2_0.Swagger")) j' (some url) [] = .ok o' →
      ∃ b b', App.loadObj (application out (n + 1)) url none false (opened v) = (.ok o', b) ∧
        App.migrateObj (application out (n + 1)) o' url (s% "2.0") b = (.ok o', b') ∧
        b'.original = s% "2.0" ∧ b'.world.rest = v' ∧ Found (application out (n + 1)) b' url (s% "2.0") o' ∧
        SavedAs asIs o o' ∧
        ∀ ts x', Visited [] o' ts x' → ∃ x, Visited [] o ts x ∧ SavedAs asIs x x' ∧
          (∀ r, Refers Refs.normClasses2 x r ↔ Refers Refs.normClasses2 x' r) ∧
          ∀ r, Refers Refs.normClasses2 x r → ∃ y y', (attrsOf w x).refObj = some y ∧
            (attrsOf b'.world x').refObj = some y' ∧ SavedAs asIs y y'

end Pyopenapi.Main
