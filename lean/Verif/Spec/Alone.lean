import Verif.Spec.Main
import Verif.Spec.Convertible

/-!
# Specification: an object of 2.0 that is loaded and migrated on its own
-/

namespace Pyopenapi.Main
open _root_.Pyopenapi.Spec _root_.Pyopenapi.Refs.Spec Obj

/-- No object in it, of the classes that may have a `$ref`, has one. -/
def RefFree (classes : List Str) (o : Obj) : Prop :=
  ∀ ts c q spec kids, Visited [] o ts (.base c q spec kids) → c ∈ classes → ∃ d, spec = .obj d ∧ Dict.get? d (s% "$ref") = none

/-- Objects without a `$ref` have no absolute reference, no object they lead to. -/
def Tidy {W : Type} (w : World W) : Prop :=
  ∀ x, (∀ r, ¬ Refers Refs.normClasses2 x r) → (∀ r, ¬ Refers Refs.normClasses3 x r) → attrsOf w x = {}

/-- Nothing is behind a reference. -/
def noTargets : Spec.Refs := ⟨fun _ => none, fun _ => none⟩

/-- The url is that of a document on a web server: `scheme`, `host` and the path `b`. -/
def WebUrl (ok : Str → Bool) (url host b : Str) : Prop :=
  ∃ sch ∈ schemes2, url = sch ++ s% "://" ++ host ++ b ∧ HostText host ∧ BaseText b ∧ ok host = true

/-- What stands for the document an object of the url `url` belongs to: nothing, or its host and path. -/
def Site (ok : Str → Bool) (url : Str) (d0 : Dict Json) : Prop :=
  d0 = [] ∨ ∃ host b, WebUrl ok url host b ∧ d0 = [(s% "host", .str host), (s% "basePath", .str b)]

/-- The content `d` of an object of the class `c` of 2.0 can be converted on its own: no media types of a document are
known, and operations may name schemes when the url is that of a web server; a path item has no parameter and no response that
is a reference. -/
def Able (ok : Str → Bool) (url c : Str) (d : Dict Json) : Prop :=
  c = s% "v2_0.License" ∨ c = s% "v2_0.Info" ∨ c = s% "v2_0.Schema" ∨
    (c = s% "v2_0.PathItem" ∧ PathResolves noTargets d ∧ ∃ d0, Site ok url d0 ∧ ItemFits noTargets ok d0 d)

/-- The servers of the operations of a path item that has no body itself: the url of its *document*, with the schemes that
the operation names. -/
def ServersTo (ok : Str → Bool) (url : Str) (d r : Dict Json) : Prop :=
  (∀ f ∈ paramsOf noTargets d, f.isPlain = true) → ∀ host b m e, WebUrl ok url host b → (m, e) ∈ opsOf d →
    listAt e (s% "schemes") ≠ [] → (∀ s ∈ strsAt e (s% "schemes"), s ∈ schemes2) →
    ∃ x, Dict.get? r m = some (.obj x) ∧
      Dict.get? x (s% "servers") = some (.arr ((strsAt e (s% "schemes")).map (fun s => .obj [(s% "url", .str (s ++ s% "://" ++ host ++ b))])))

/-- The bodies of the operations of a path item that has none itself are those of their parameters. -/
def BodiesTo (d r : Dict Json) : Prop :=
  (∀ f ∈ paramsOf noTargets d, f.isPlain = true) → ∀ m e, (m, e) ∈ opsOf d → (∀ f ∈ paramsOf noTargets e, ValidParam f) →
    ∃ x, Dict.get? r m = some (.obj x) ∧ RequestOf (strsAt e (s% "consumes")) (paramsOf noTargets e) (Dict.get? x (s% "requestBody"))

/-- What the content `d` of an object of the class `c` of 2.0 becomes in 3.0.0: the content `r` of one of the class `c3`. -/
def BecomesAlone (ok : Str → Bool) (url c : Str) (d : Dict Json) (c3 : Str) (r : Dict Json) : Prop :=
  (c = s% "v2_0.License" ∧ c3 = s% "v3_0_0.License" ∧ LicenseTo d (.obj r)) ∨
  (c = s% "v2_0.Info" ∧ c3 = s% "v3_0_0.Info" ∧ InfoTo d (.obj r)) ∨
  (c = s% "v2_0.Schema" ∧ c3 = s% "v3_0_0.Schema" ∧ SchemaTo (.obj d) (.obj r)) ∨
  (c = s% "v2_0.PathItem" ∧ c3 = s% "v3_0_0.PathItem" ∧ PathItemTo noTargets [] d r ∧ BodiesTo d r ∧ ServersTo ok url d r)

/-- Nothing of this url is in the application. -/
structure Unknown {W : Type} (a : App Obj (World W)) (url : Str) : Prop where
  versions : a.store.versions = [s% "1.2", s% "2.0", s% "3.0.0"]
  objs : Dict.get? a.store.objs url = none
  routes : Dict.get? a.store.routes url = none

/-- What is asked for at `place` or below it, in the version `from_` for the version `to`, is found in `root`; nothing is
loaded or changed for that. -/
def FoundAt {W : Type} (env : AppEnv Obj (World W)) (a : App Obj (World W)) (url : Str) (place : List Str) (from_ to : Str) (root : Obj) : Prop :=
  ∀ ts x parser dummy, Safe (place ++ ts) → At root ts x →
    App.resolveObj env (url ++ pointer (place ++ ts)) from_ parser (some to) dummy a = (.ok (x, url ++ pointer (place ++ ts)), a)

end Pyopenapi.Main
