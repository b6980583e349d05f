import Verif.Model.Resolver

/-!
# pyopenapi/migration/getter.py, and the part of pyopenapi/migration/resolve.py that picks a getter

`os.name` is `'posix'`.  The file system, `os.path.abspath`, the two parsers and what a callback does are parameters.
-/

namespace Pyopenapi.Getter

/-- The outside: the file system (`os.path.isfile`, `open(path).read()`), `os.path.abspath`, `json.loads`, `yaml.load`,
and `ok` of urllib's `urlparse` (Model/Url). -/
structure Outside where
  ok : Str → Bool
  isFile : Str → Bool
  read : Str → R Str
  abspath : Str → R Str
  json : Str → R Json
  yaml : Str → R Json

/-- What `load` may return: a dict, bytes (with what decoding them gives), a string, something else. -/
inductive Raw where
  | dict (d : Dict Json)
  | bytes (decoded : R Str)
  | text (s : Str)
  | other

/-- getter.py:48-55: the parser is chosen by the first character. -/
def parseText (out : Outside) (s : Str) : R Json :=
  match (if Str.startsWith s ['{'] then out.json s else out.yaml s) with
  | .error .valueError => .error .generic
  | r => r

/-- getter.py:38-57: what `__next__` makes of the loaded value. -/
def decode (out : Outside) : Raw → R Json
  | .dict d => .ok (.obj d)
  | .bytes r => do let s ← r; parseText out s
  | .text s => parseText out s
  | .other => .error .valueError

/-- `posixpath.join(a, b)`. -/
def pathJoin (a b : Str) : Str :=
  if Str.startsWith b ['/'] then b
  else if a = [] ∨ Str.endsWith a ['/'] then a ++ b
  else a ++ '/' :: b

/-- consts.py:14-19 `SWAGGER_FILE_NAMES`. -/
def fileNames : List Str := [s% "resource_list.json", s% "swagger.json", s% "swagger.yaml", s% "swagger.yml"]

/-- getter.py:81 `re.match('^/[A-Z]+:', path)`. -/
def drivePath : Str → Bool
  | '/' :: s => match s.span Char.isUpper with
    | (_ :: _, ':' :: _) => true
    | _ => false
  | _ => false

/-- getter.py:84-93: the loop over the known names; the new `base_path` and the path to load. -/
def byName (isFile : Str → Bool) (base path : Str) : List Str → Option (Str × Str)
  | [] => none
  | n :: ns =>
    if Str.endsWith base n then some (dirname base, path)
    else if isFile (pathJoin path n) then some (base, pathJoin path n)
    else byName isFile base path ns

/-- getter.py:101-109: the loop over the extensions. -/
def byExt (path : Str) : List Str → Option (Str × Str)
  | [] => none
  | e :: es => if Str.endsWith (splitextExt path) e then some (dirname path, path) else byExt path es

/-- getter.py:111-117: the loop over the extensions that are tried. -/
def byTrial (isFile : Str → Bool) (base path : Str) : List Str → R (Str × Str)
  | [] => .error .valueError
  | e :: es => if isFile (path ++ '.' :: e) then .ok (base, path ++ '.' :: e) else byTrial isFile base path es

/-- getter.py:77-79: the path of a `file://` url. -/
def plainPath (out : Outside) (path : Str) : R Str :=
  if Str.startsWith path (s% "file://") then do let u ← Url.parse out.ok path; .ok u.path else .ok path

/-- getter.py:81-82. -/
def noDrive (out : Outside) (path : Str) : R Str := if drivePath path then out.abspath (path.drop 1) else .ok path

/-- getter.py:73-117 `LocalGetter.__init__`: `base_path` and the one element of `urls`. -/
def localInit (out : Outside) (base : Str) : R (Str × Str) := do
  let path ← plainPath out base
  let path ← noDrive out path
  match byName out.isFile base path fileNames with
  | some r => .ok r
  | none => match byExt path [s% "json", s% "yaml", s% "yml"] with
    | some r => .ok r
    | none => byTrial out.isFile base path [s% "json", s% "yaml"]

/-- getter.py:119-129: the file `LocalGetter(base).load` opens. -/
def localOpens (out : Outside) (base : Str) : R Str := do
  let (b, url) ← localInit out base
  .ok (patchPath b url)

/-- `six.advance_iterator(LocalGetter(base))`. -/
def fetchLocal (out : Outside) (base : Str) : R Json := do
  let f ← localOpens out base
  let s ← out.read f
  decode out (.text s)

/-- A getter as passed to `Resolver`: a class derived from `SimpleGetter` (getter.py:132-156), by its callback, which is
called with the url the class is made with; or a getter object, which is asked for its next value and not told the
url. -/
inductive Source (W : Type) where
  | simple (callback : Str → W → R Raw × W)
  | object (next : W → R Raw × W)

/-- One round of `Getter.__next__` (getter.py:32-57) for the two kinds of getters. -/
def Source.get {W : Type} (out : Outside) (url : Str) (w : W) : Source W → R Json × W
  | .simple cb => match cb url w with
    | (.error e, w) => (.error e, w)
    | (.ok r, w) => (decode out r, w)
  | .object next => match next w with
    | (.error e, w) => (.error e, w)
    | (.ok r, w) => (decode out r, w)

/-- resolve.py:46: the hook. -/
def hooked (hook : Option (Str → R Str)) (url : Str) : R Str :=
  match hook with
  | some h => h url
  | none => .ok url

/-- resolve.py:46, 51-64: how a document that is not cached is fetched.  `given` is the argument of `resolve`, `dflt` the
default getter of the resolver (`UrlGetter`, a `SimpleGetter`, when there was none). -/
def fetch {W : Type} (out : Outside) (hook : Option (Str → R Str)) (dflt : Source W) (given : Option (Source W))
    (w : W) (url : Str) : R Json × W :=
  match hooked hook url with
  | .error e => (.error e, w)
  | .ok l => match given with
    | some g => g.get out l w
    | none => match Url.parse out.ok l with
      | .error e => (.error e, w)
      | .ok u =>
        if u.scheme = s% "file" ∧ u.path ≠ [] then (fetchLocal out (pathJoin u.netloc u.path), w)
        else dflt.get out l w

/-- getter.py:168-185 `DictGetter`: the urls still to be loaded, first in first out; a url that is not in the dictionary
is an empty document (getter.py:36, 185). -/
def dictNext (docs : Dict (Dict Json)) : List Str → R Raw × List Str
  | [] => (.error .stopIteration, [])
  | u :: us => (.ok (.dict ((Dict.get? docs u).getD [])), us)

end Pyopenapi.Getter
