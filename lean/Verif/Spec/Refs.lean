import Verif.Model.Refs
import Verif.Spec.Scan

/-! # Specification of the resolution of references in a document -/

namespace Pyopenapi.Refs.Spec
open _root_.Pyopenapi.Spec

/-- From the builder of a child along tokens inside it (elements of lists, entries of maps) to the builder of what is
there. -/
inductive BuilderAt : Builder → List Str → Builder → Prop
  | here {b : Builder} : BuilderAt b [] b
  | bool {b b' : Builder} {ts : List Str} : BuilderAt b ts b' → BuilderAt (.ifNotBool b) ts b'
  | elem {b b' : Builder} {t : Str} {ts : List Str} : BuilderAt b ts b' → BuilderAt (.listOf b) (t :: ts) b'
  | entry {b b' : Builder} {t : Str} {ts : List Str} : BuilderAt b ts b' → BuilderAt (.mapOf b) (t :: ts) b'

/-- What a document is expected to have at a place where a reference may stand: what the class of the object around it
declares there, or (for objects that may have a `$ref` of their own) the class itself. -/
inductive Expected (root : Obj) : List Str → Builder → Prop
  | slot {ts us : List Str} {c k r : Str} {q : Option Str} {spec : Json} {kids : Dict Obj} {cd : ChildDef} {b : Builder} :
      Visited [] root ts (.base c q spec kids) → (k, cd) ∈ (pkg c).children → BuilderAt cd.builder us (.ifNotRef r b) →
      Expected root (ts ++ k :: us) (.ifNotRef r b)
  | self {ts : List Str} {c : Str} {q : Option Str} {spec : Json} {kids : Dict Obj} :
      Visited [] root ts (.base c q spec kids) → c ∉ [s% "v2_0.Reference", s% "v3_0_0.Reference"] → Expected root ts (.cls c)

/-- The object `a` (found at `new`) is what the application answered for the reference `r` of the object at `ts`: `r`
made absolute with the url of the document, for an object as expected at that place. -/
def Answer {α W : Type} (env : Env α W) (root : Obj) (ts : List Str) (r : Str) (a : α) (new : Str) : Prop :=
  ∃ n p w w', normalizeJr env.ok (some r) (some env.url) = .ok (some n) ∧ Expected root ts p ∧
    env.resolve n p w = (.ok (some (a, new)), w')

/-- An object of one of these classes, with a `$ref`. -/
def Refers (classes : List Str) (x : Obj) (r : Str) : Prop :=
  ∃ c q d kids, x = .base c q (.obj d) kids ∧ c ∈ classes ∧ Dict.get? d (s% "$ref") = some (.str r) ∧ r ≠ []

/-- The objects a scan of the document yields, in its order, with their places (C32). -/
def Scanned (root : Obj) (L : List (List Str × Obj)) : Prop :=
  (Obj.traverse [] root).map Prod.snd = L.map Prod.snd ∧ (L.map Prod.fst).Nodup ∧ ∀ ts o, (ts, o) ∈ L ↔ Visited [] root ts o

/-- The state before a document is upgraded. -/
def fresh {α W : Type} (w : W) : St α W := { attrs := fun _ => {}, world := w }

/-- A `$ref` is a string that is not empty and can be made absolute; objects of these classes need one. -/
def RefsOk {α W : Type} (env : Env α W) (root : Obj) (classes needed : List Str) : Prop :=
  ∀ ts c q spec kids, Visited [] root ts (.base c q spec kids) → c ∈ classes → ∃ d, spec = .obj d ∧
    ((Dict.get? d (s% "$ref") = none ∧ c ∉ needed) ∨
      ∃ r n, Dict.get? d (s% "$ref") = some (.str r) ∧ r ≠ [] ∧ normalizeJr env.ok (some r) (some env.url) = .ok n)

/-- The application answers everything. -/
def Answers {α W : Type} (env : Env α W) : Prop :=
  ∀ n p w, n ≠ [] → ∃ a new w', env.resolve n p w = (.ok (some (a, new)), w') ∧ new ≠ [] ∧ ∃ u jp, env.split new = .ok (u, jp)

/-- No media type has `examples`. -/
def NoExamples (root : Obj) : Prop :=
  ∀ ts q spec kids, Visited [] root ts (.base (s% "v3_0_0.MediaType") q spec kids) → Dict.get? kids (s% "examples") = none

/-- The application has nothing for the reference. -/
def Dangling {α W : Type} (env : Env α W) (r : Str) : Prop :=
  ∀ n p w, normalizeJr env.ok (some r) (some env.url) = .ok (some n) → ∀ a new, (env.resolve n p w).1 ≠ .ok (some (a, new))

end Pyopenapi.Refs.Spec
