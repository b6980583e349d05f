import Verif.Spec.Main

/-!
# Specification: 2.0 documents whose references follow the conventions
-/

namespace Pyopenapi.Main
open _root_.Pyopenapi.Spec _root_.Pyopenapi.Refs.Spec Obj

/-- The sections of a 2.0 document a reference may point into: that of a schema into `definitions`, that of a parameter or a
response into `parameters` or `responses`. -/
def Fits (c sec : Str) : Prop :=
  (c = s% "v2_0.Schema" ∧ sec = s% "definitions") ∨
  (c = s% "v2_0.Reference" ∧ (sec = s% "parameters" ∨ sec = s% "responses"))

/-- A reference to an entry of such a section. -/
def Entry (d : Dict Json) (c : Str) (v : Json) : Prop :=
  ∃ sec n w, v = .str (pointer [sec, n]) ∧ Safe [sec, n] ∧ Dict.get? (objAt d sec) n = some w ∧ Fits c sec

/-- Every `$ref` of the document points to an entry of the section it should point into (path items have none). -/
def Conventional (root : Obj) (d : Dict Json) : Prop :=
  ∀ ts c q spec kids, Visited [] root ts (.base c q spec kids) → c ∈ Refs.normClasses2 → ∃ e, spec = .obj e ∧
    (Dict.get? e (s% "$ref") = none ∨ ∃ v, Dict.get? e (s% "$ref") = some v ∧ Entry d c v)

/-- References are followed `k` times, to an object that is no reference. -/
inductive Chain (root : Obj) : Nat → Obj → Obj → Prop
  | stop {x : Obj} : (∀ r, ¬ Refers Refs.normClasses2 x r) → Chain root 0 x x
  | step {k : Nat} {x y z : Obj} {us : List Str} : Refers Refs.normClasses2 x (pointer us) → At root us y → Chain root k y z →
      Chain root (k + 1) x z

/-- References lead somewhere, in at most `K` steps. -/
def Grounded (root : Obj) (K : Nat) : Prop := ∀ ts x, Visited [] root ts x → ∃ k z, k ≤ K ∧ Chain root k x z

/-- No definition is that of a file (OpenAPI 2 has `file` for responses and parameters only). -/
def NoFiles (d : Dict Json) : Prop := ∀ n w, Dict.get? (objAt d (s% "definitions")) n = some w → ¬ IsFile w

/-- The names of shared parameters do not meet C55: none is empty, those of bodies need no escaping, and none is a prefix of
another one. -/
def NamesOk (d : Dict Json) : Prop :=
  ∀ n e, Dict.get? (objAt d (s% "parameters")) n = some (.obj e) → n ≠ [] ∧
    (BodyNamed d n → '/' ∉ n ∧ '~' ∉ n) ∧ (¬ BodyNamed d n → ∀ k, BodyNamed d k → ¬ ∃ s, escape n = k ++ s)

/-- The entry of a section a reference names. -/
def entryAt (d : Dict Json) (sec : Str) (v : Json) : Option (Dict Json) :=
  (objAt d sec).findSome? (fun p => if v = .str (pointer [sec, p.1]) then p.2.asObj? else none)

/-- Where references of the document lead: to the shared parameters and responses. -/
def docRefs (d : Dict Json) : Refs := ⟨entryAt d (s% "parameters"), entryAt d (s% "responses")⟩

/-- `w'` says in OpenAPI 3 what the entry `w` of the section says; it is in the section `x` of the components. -/
def EntryTo (d : Dict Json) (sec x : Str) (w w' : Json) : Prop :=
  (sec = s% "definitions" ∧ x = s% "schemas" ∧ SchemaTo w w') ∨
  (sec = s% "responses" ∧ x = s% "responses" ∧ ∃ e, w = .obj e ∧ ResponseTo BareFile (strsAt d (s% "produces")) ⟨e, none⟩ w') ∨
  (sec = s% "parameters" ∧ x = s% "parameters" ∧ ∃ e, w = .obj e ∧ PlainTo ⟨e, none⟩ w') ∨
  (sec = s% "parameters" ∧ x = s% "requestBodies" ∧ OneBody w w')

/-- The kinds of objects in the sections of the components. -/
def sectionClass (x : Str) : Str :=
  if x = s% "schemas" then s% "v3_0_0.Schema" else if x = s% "responses" then s% "v3_0_0.Response"
  else if x = s% "parameters" then s% "v3_0_0.Parameter" else s% "v3_0_0.RequestBody"

/-- Every shared schema, parameter and response of the 2.0 document is found in the migrated one under its old reference:
an object made of its conversion, at the place `move` tells. -/
def Moved {W : Type} (move : Str → Str) (env : AppEnv Obj (World W)) (a : App Obj (World W)) (url : Str) (d : Dict Json) (root : Obj) : Prop :=
  ∀ sec n w, sec ∈ [s% "definitions", s% "parameters", s% "responses"] → Dict.get? (objAt d sec) n = some w → Safe [sec, n] →
    ∃ x w' p y, EntryTo d sec x w w' ∧ build pkg (.ifNotRef (s% "v3_0_0.Reference") (.cls (sectionClass x))) w' p [] = .ok y ∧
      At root [s% "components", x, n] y ∧ move (pointer [sec, n]) = pointer [s% "components", x, n] ∧ ∀ parser dummy,
        App.resolveObj env (url ++ pointer [sec, n]) (s% "2.0") parser (some (s% "3.0.0")) dummy a =
          (.ok (y, url ++ pointer [s% "components", x, n]), a)

/-- The references of the migrated document are references to such entries of the 2.0 document (and are rewritten). -/
def RefersTo (root : Obj) (d : Dict Json) : Prop :=
  ∀ ts x r, Visited [] root ts x → Refers Refs.normClasses3 x r → ∃ c, Entry d c (.str r)

/-- `set(...)` has some order. -/
def SetOrdered {W : Type} (out : Outer W) : Prop := ∀ l, (out.setOrder l).Nodup ∧ ∀ x, x ∈ out.setOrder l ↔ x ∈ l

end Pyopenapi.Main
