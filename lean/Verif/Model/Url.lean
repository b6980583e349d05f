import Verif.Base.Dict
import Verif.Model.Utils

/-!
# URLs: the standard library functions of `urllib.parse` (CPython 3.11) and pyopenapi/utils.py

`urlparse` and `urlunparse` are written from CPython's Lib/urllib/parse.py.  The check of the authority
(balanced brackets, a valid bracketed host, no character that expands to a delimiter under NFKC) is a
parameter `ok`: `urlparse` raises ValueError when it fails.
-/

namespace Pyopenapi

/-- `urllib.parse.ParseResult`. -/
structure Url where
  scheme : Str
  netloc : Str
  path : Str
  params : Str
  query : Str
  fragment : Str
  deriving DecidableEq

namespace Url

/-- CPython `scheme_chars` (ASCII letters, digits, `+-.`). -/
def schemeChar (c : Char) : Bool := c.isAlpha || c.isDigit || c == '+' || c == '-' || c == '.'

/-- CPython `uses_netloc`. -/
def usesNetloc : List Str := [[], s% "ftp", s% "http", s% "gopher", s% "nntp", s% "telnet", s% "imap", s% "wais",
  s% "file", s% "mms", s% "https", s% "shttp", s% "snews", s% "prospero", s% "rtsp", s% "rtsps", s% "rtspu",
  s% "rsync", s% "svn", s% "svn+ssh", s% "sftp", s% "nfs", s% "git", s% "git+ssh", s% "ws", s% "wss"]

/-- CPython `uses_params`. -/
def usesParams : List Str := [[], s% "ftp", s% "hdl", s% "prospero", s% "http", s% "imap", s% "https", s% "shttp",
  s% "rtsp", s% "rtsps", s% "rtspu", s% "sip", s% "sips", s% "mms", s% "sftp", s% "tel"]

/-- `_UNSAFE_URL_BYTES_TO_REMOVE`. -/
def unsafeChar (c : Char) : Bool := c == '\t' || c == '\r' || c == '\n'

/-- `url.lstrip(_WHATWG_C0_CONTROL_OR_SPACE)`, and the removal of unsafe characters. -/
def clean (s : Str) : Str := (s.dropWhile (fun c => decide (c.toNat ≤ 32))).filter (fun c => !unsafeChar c)

/-- `urlsplit`: the scheme and what follows it. -/
def schemeSplit (s : Str) : Str × Str :=
  match Str.cut ':' s with
  | (c :: a, some r) =>
    if c.isAlpha && (c :: a).all schemeChar then ((c :: a).map Char.toLower, r) else ([], s)
  | _ => ([], s)

/-- A character that ends the authority. -/
def endsNetloc (c : Char) : Bool := c == '/' || c == '?' || c == '#'

/-- `urlsplit`, `_splitnetloc`: the authority and what follows it. -/
def netlocSplit : Str → Str × Str
  | '/' :: '/' :: r => (r.takeWhile (fun c => !endsNetloc c), r.dropWhile (fun c => !endsNetloc c))
  | s => ([], s)

/-- `_splitparams`: the first `;` at or after the last `/`. -/
def splitParams (path : Str) : Str × Str :=
  match Str.cut ';' (Str.afterLast '/' path) with
  | (a, some b) => (Str.uptoLast '/' path ++ a, b)
  | (_, none) => (path, [])

/-- `urlparse(url)`. -/
def parse (ok : Str → Bool) (url : Str) : R Url :=
  let (scheme, r) := schemeSplit (clean url)
  let (netloc, r) := netlocSplit r
  if !ok netloc then .error .valueError
  else
    let (r, fragment) := Str.cut '#' r
    let (path, query) := Str.cut '?' r
    let (path, params) := if usesParams.contains scheme then splitParams path else (path, [])
    .ok ⟨scheme, netloc, path, params, query.getD [], fragment.getD []⟩

/-- `prefix + s` when `s` is not empty. -/
def withMark (c : Char) (s : Str) : Str := if s = [] then [] else c :: s

/-- `urlunparse(components)`. -/
def unparse (u : Url) : Str :=
  let url := u.path ++ withMark ';' u.params
  let url :=
    if u.netloc ≠ [] ∨ (u.scheme ≠ [] ∧ usesNetloc.contains u.scheme = true) ∨ (s% "//").isPrefixOf url = true then
      '/' :: '/' :: u.netloc ++ (if url ≠ [] ∧ url.head? ≠ some '/' then '/' :: url else url)
    else url
  let url := if u.scheme ≠ [] then u.scheme ++ ':' :: url else url
  url ++ withMark '?' u.query ++ withMark '#' u.fragment

end Url

/-- `posixpath.dirname`: up to the last slash, without trailing slashes unless there is nothing else. -/
def dirname (p : Str) : Str :=
  let head := Str.uptoLast '/' p
  if head.all (· == '/') then head else (head.reverse.dropWhile (· == '/')).reverse

/-- `posixpath.splitext(p)[1]`: from the last dot of the last segment, unless only dots precede it. -/
def splitextExt (p : Str) : Str :=
  let name := Str.afterLast '/' p
  if name.contains '.' then
    let stem := (Str.uptoLast '.' name).dropLast
    if stem.all (· == '.') then [] else '.' :: Str.afterLast '.' name
  else []

/-- consts.py:9-13 `VALID_FILE_EXT`. -/
def validFileExt : List Str := [s% ".json", s% ".yaml", s% ".yml"]

/-- utils.py:473-495 `patch_path` (`os.name != 'nt'`). -/
def patchPath (basePath path : Str) : Str :=
  let ext := splitextExt basePath
  let ext := if validFileExt.contains ext then ext else []
  let ext := if ext = [] then splitextExt path else ext
  let ext := if validFileExt.contains ext then ext else []
  let ext := if ext = [] then s% ".json" else ext
  if Str.endsWith path ext then path else path ++ ext

/-- utils.py:210-219 `url_dirname`. -/
def urlDirname (ok : Str → Bool) (url : Str) : R Str := do
  let u ← Url.parse ok url
  if Str.endsWith u.path (s% "json") || Str.endsWith u.path (s% "yaml") then
    .ok (Url.unparse { u with path := dirname u.path })
  else .ok url

/-- utils.py:222-238 `url_join`. -/
def urlJoin (ok : Str → Bool) (url name : Str) : R Str := do
  let u ← Url.parse ok url
  let newPath :=
    if u.path.getLast? = some '/' then
      u.path ++ (if name.head? = some '/' then name.tail else name)
    else if name.head? = some '/' then u.path ++ name
    else u.path ++ '/' :: name
  .ok (Url.unparse { u with path := newPath })

/-- utils.py:295-303: `.`, `..`, and (utils.py:277-281 with the pattern `\.{3,}`) three dots or more. -/
def isDots (chunk : Str) : Bool := chunk ≠ [] && chunk.all (· == '.')

/-- utils.py:292-304: the loop over the segments. -/
def dotLoop : List Str → List Str → List Str
  | newpath, [] => newpath
  | newpath, chunk :: rest =>
    if chunk = s% "." then dotLoop newpath rest
    else if chunk = s% ".." then dotLoop newpath.dropLast rest
    else if isDots chunk then dotLoop newpath.dropLast rest
    else dotLoop (newpath ++ [chunk]) rest

/-- utils.py:284-306 `derelativise_url`. -/
def derelativiseUrl (ok : Str → Bool) (url : Str) : R Str := do
  let u ← Url.parse ok url
  let newpath := dotLoop [] (Str.splitC '/' u.path.tail)
  .ok (Url.unparse { u with path := '/' :: Str.joinC '/' newpath })

/-- utils.py:257-270: the url part of a reference, made absolute. -/
def refUrl (ok : Str → Bool) (urlPart : Str) (url : Option Str) : R Str :=
  if urlPart = [] then .ok (url.getD [])
  else do
    let parsed ← Url.parse ok urlPart
    if parsed.scheme = [] ∧ url.getD [] ≠ [] then do
      let base ← Url.parse ok (url.getD [])
      derelativiseUrl ok (Url.unparse { base with path := Str.joinC '/' [dirname base.path, urlPart] })
    else .ok urlPart

/-- utils.py:272-274: url and pointer are put together again; `'#' + None` raises TypeError. -/
def joinRef (urlPart : Str) (jp : Option Str) : R (Option Str) :=
  if urlPart ≠ [] then
    match jp with
    | some (c :: jp) => .ok (some (urlPart ++ '#' :: c :: jp))
    | _ => .ok (some urlPart)
  else match jp with
    | some jp => .ok (some ('#' :: jp))
    | none => .error .typeError

/-- utils.py:241-274 `normalize_jr`; `none` is `None`. -/
def normalizeJr (ok : Str → Bool) (jsonRef : Option Str) (url : Option Str) : R (Option Str) :=
  match jsonRef with
  | none => .ok none
  | some ref =>
    match refUrl ok (Str.cut '#' ref).1 url with
    | .error e => .error e
    | .ok urlPart => joinRef urlPart (Str.cut '#' ref).2

/-- utils.py:188 `_WINDOWS_PATH_PREFIX_PATTERN`. -/
def isWindowsPath : Str → Bool
  | c :: ':' :: '\\' :: _ => c.isAlpha
  | _ => false

/-- utils.py:191-207 `normalize_url`.  `path2url` (utils.py:176-185) and `os.path.abspath` depend on the
platform and are parameters. -/
def normalizeUrl (ok : Str → Bool) (path2url abspath : Str → R Str) (url : Str) : R Str :=
  if url = [] then .ok url
  else if isWindowsPath url then path2url url
  else do
    let parsed ← Url.parse ok url
    if parsed.scheme = [] then
      if parsed.netloc = [] ∧ parsed.path ≠ [] then do
        let p ← abspath url
        path2url p
      else .error .valueError
    else .ok url

/-- utils.py:137-143 `jr_split`. -/
def jrSplit (ok : Str → Bool) (path2url abspath : Str → R Str) (ref : Str) : R (Str × Str) := do
  let parsed ← Url.parse ok ref
  let url ← normalizeUrl ok path2url abspath (Url.unparse { parsed with fragment := [] })
  .ok (url, '#' :: parsed.fragment)

end Pyopenapi
