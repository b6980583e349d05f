import Verif.Model.Getter

/-!
# Specification: which file a local path means, and documents given in order
-/

namespace Pyopenapi.Getter.Spec

/-- The extensions of documents. -/
def docExts : List Str := [s% ".json", s% ".yaml", s% ".yml"]

/-- The names documents have in a folder, first to last. -/
def knownNames : List Str := [s% "resource_list.json", s% "swagger.json", s% "swagger.yaml", s% "swagger.yml"]

/-- The path `p` of a url that names a drive, and the path `q` it means: `/C:/d/a.json` and `C:/d/a.json`. -/
def Drive (p q : Str) : Prop :=
  p = '/' :: q ∧ ∃ letters rest, q = letters ++ ':' :: rest ∧ letters ≠ [] ∧ ∀ c ∈ letters, 'A' ≤ c ∧ c ≤ 'Z'

/-- A path as the getter is given it by an application: no url, no drive letter. -/
def Plain (p : Str) : Prop := Str.startsWith p (s% "file://") = false ∧ ¬ ∃ q, Drive p q

/-- A file in a folder. -/
def inFolder (p n : Str) : Str := if Str.endsWith p ['/'] then p ++ n else p ++ '/' :: n

/-- The document a path means: the first of the known names in that folder; else the file itself, if it has the extension
of a document; else the path with the first extension that gives a file. -/
def Means (isFile : Str → Bool) (exts : List Str) (p f : Str) : Prop :=
  (∃ pre n post, knownNames = pre ++ n :: post ∧ isFile (inFolder p n) = true ∧
    (∀ m ∈ pre, isFile (inFolder p m) = false) ∧ f = inFolder p n) ∨
  ((∀ n ∈ knownNames, isFile (inFolder p n) = false) ∧
    ((splitextExt p ∈ docExts ∧ f = p) ∨
     (splitextExt p ∉ docExts ∧ ∃ pre e post, exts = pre ++ e :: post ∧ isFile (p ++ e) = true ∧
      (∀ m ∈ pre, isFile (p ++ m) = false) ∧ f = p ++ e)))

/-- The path means no document. -/
def MeansNothing (isFile : Str → Bool) (exts : List Str) (p : Str) : Prop :=
  (∀ n ∈ knownNames, isFile (inFolder p n) = false) ∧ splitextExt p ∉ docExts ∧ ∀ e ∈ exts, isFile (p ++ e) = false

/-- The url a hook makes of a url; without a hook it stays. -/
def Hooked (hook : Option (Str → R Str)) (url l : Str) : Prop :=
  (∃ h, hook = some h ∧ h url = .ok l) ∨ (hook = none ∧ l = url)

/-- What a text is read as: JSON if it begins with a brace, YAML otherwise; a text the parser refuses is an error of
its own kind. -/
def ReadAs (json yaml : Str → R Json) (t : Str) (r : R Json) : Prop :=
  ∃ q, ((∃ rest, t = '{' :: rest) ∧ q = json t ∨ (¬ ∃ rest, t = '{' :: rest) ∧ q = yaml t) ∧
    (q = .error .valueError ∧ r = .error .generic ∨ q ≠ .error .valueError ∧ r = q)

/-- What a getter's answer is taken for: a dictionary as it is; bytes by the text they decode to; a text as it reads;
anything else is refused. -/
def Taken (json yaml : Str → R Json) : Raw → R Json → Prop
  | .dict d, r => r = .ok (.obj d)
  | .bytes b, r => (∃ t, b = .ok t ∧ ReadAs json yaml t r) ∨ (∃ e, b = .error e ∧ r = .error e)
  | .text t, r => ReadAs json yaml t r
  | .other, r => r = .error .valueError

/-- The documents asked for, each when first asked for. -/
def firsts (seen : List Str) : List Str → List Str
  | [] => []
  | u :: us => if u ∈ seen then firsts seen us else u :: firsts (u :: seen) us

/-- The answers to a sequence of references. -/
def answers {W : Type} (split : Str → R (Str × Str)) (load : W → Str → R Json × W) :
    List Str → Resolver.State W → List (R Json)
  | [], _ => []
  | r :: rs, s =>
    (Resolver.resolve split load s r).1 :: answers split load rs (Resolver.resolve split load s r).2

end Pyopenapi.Getter.Spec
