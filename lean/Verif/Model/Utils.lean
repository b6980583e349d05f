import Verif.Base.Json
import Verif.Base.Sort

/-!
# pyopenapi/utils.py: scopes, JSON pointers, versions
-/

namespace Pyopenapi

/-- consts.py:21 `SCOPE_SEPARATOR`. -/
def scopeSeparator : Str := s% "!##!"

/-- utils.py:15-31 `scope_compose`.  `none` is Python `None`; `''` is falsy. -/
def scopeCompose (scope name : Option Str) (sep : Str) : Option Str :=
  let newScope := match name with
    | none => scope
    | some n => match scope with
      | some (c :: cs) => some (c :: cs)
      | _ => some n
  match scope, name with
  | some (c :: cs), some (d :: ds) => some ((c :: cs) ++ sep ++ (d :: ds))
  | _, _ => newScope

/-- utils.py:34-41 `scope_split` (a non-empty separator; Python raises on an empty one). -/
def scopeSplit (scope : Option Str) (sep : Str) : List (Option Str) :=
  match scope with
  | some (c :: cs) => (Str.split (c :: cs) sep).map some
  | _ => [none]

/-- What `s.rsplit(sep, 1)` finds to the right of the last occurrence of `sep`, if it occurs. -/
def lastAfter (sep : Str) : Str → Option Str
  | [] => none
  | c :: cs => match lastAfter sep cs with
    | some t => some t
    | none => if sep.isPrefixOf (c :: cs) then some ((c :: cs).drop sep.length) else none

/-- `s.rsplit(sep, 1)[-1]` (utils.py:90-92). -/
def lastToken (sep s : Str) : Str := (lastAfter sep s).getD s

/-- utils.py:73-75: the key of `ScopeDict.__getitem__`, given as a tuple
(`functools.reduce` raises TypeError on an empty tuple). -/
def scopeDictKey (sep : Str) : List (Option Str) → R (Option Str)
  | [] => .error .typeError
  | k :: ks => .ok (ks.foldl (fun k1 k2 => scopeCompose k1 k2 sep) k)

/-- utils.py:76-99 `ScopeDict.__getitem__` once the key `k` is computed.  A `None` key misses
(keys are strings) and `endswith(None)` raises TypeError as soon as there is a key to try. -/
def scopeDictGet {α : Type} (sep : Str) (d : Dict α) (k : Option Str) : R α :=
  match k with
  | none => if d.isEmpty then .error .keyError else .error .typeError
  | some k =>
    match Dict.get? d k with
    | some v => .ok v
    | none =>
      match (Dict.keys d).filter (fun n => Str.endsWith n k) with
      | [] => .error .keyError
      | [n] => Dict.get! d n
      | n1 :: n2 :: ns =>
        match (n1 :: n2 :: ns).filter (fun r => lastToken sep r == lastToken sep k) with
        | [m] => Dict.get! d m
        | _ => .error .valueError

/-- utils.py:123: the encoding of one token, `x.replace('~','~0').replace('/','~1')`. -/
def jpEncode (x : Str) : Str := ((Str.replace x ['~'] ['~', '0']).replace ['/'] ['~', '1'])

/-- utils.py:135-137 `_decode`: `x.replace('~1','/').replace('~0','~')`. -/
def jpDecode (x : Str) : Str := ((Str.replace x ['~', '1'] ['/']).replace ['~', '0'] ['~'])

/-- utils.py:116-126 `jp_compose` for a list of segments; a single string `x` is the list `[x]`
(utils.py:122).  `base` is skipped when falsy (`None` or `''`). -/
def jpCompose (segs : List Str) (base : Option Str) : Str :=
  let segs := segs.map jpEncode
  match base with
  | some (c :: cs) => Str.joinC '/' ((c :: cs) :: segs)
  | _ => Str.joinC '/' segs

/-- utils.py:129-139 `jp_split(jp)`; `None` behaves like `''`. -/
def jpSplit (jp : Str) : List Str :=
  if jp = [] then [] else (Str.splitC '/' jp).map jpDecode

/-- utils.py:129-139 `jp_split(jp, 1)`: both parts are decoded, also the unsplit remainder. -/
def jpSplit1 (jp : Str) : List Str :=
  if jp = [] then [] else (Str.splitC1 '/' jp).map jpDecode

/-- utils.py:309-319 `get_swagger_version` on a loaded document (a dict). -/
def getSwaggerVersion (d : Dict Json) : Json :=
  if Dict.has d (s% "swaggerVersion") then (Dict.get? d (s% "swaggerVersion")).getD .null
  else if Dict.has d (s% "swagger") then (Dict.get? d (s% "swagger")).getD .null
  else if Dict.has d (s% "openapi") then (Dict.get? d (s% "openapi")).getD .null
  else .null

/-! ### distutils.version.StrictVersion -/

/-- A parsed `StrictVersion`: three numbers and an optional pre-release tag
(`a`/`b` and a number). -/
structure StrictVersion where
  major : Nat
  minor : Nat
  patch : Nat
  pre : Option (Char × Nat)
  deriving DecidableEq, Repr

/-- Value of a non-empty run of ASCII digits (`\d+`; non-ASCII digits are not modelled). -/
def digits? (s : Str) : Option Nat :=
  if s ≠ [] ∧ s.all (fun c => c.isDigit) then
    some (Nat.ofDigitChars 10 s 0)
  else none

/-- The last dotted component with its optional pre-release tag: `(\d+)([ab](\d+))?`. -/
def lastComp? (s : Str) : Option (Nat × Option (Char × Nat)) :=
  match s.dropWhile (fun c => c.isDigit) with
  | [] => (digits? s).map (fun n => (n, none))
  | c :: rest =>
    if c = 'a' ∨ c = 'b' then
      match digits? (s.takeWhile (fun c => c.isDigit)), digits? rest with
      | some n, some p => some (n, some (c, p))
      | _, _ => none
    else none

/-- CPython distutils/version.py `StrictVersion.parse`: regex
`^(\d+)\.(\d+)(\.(\d+))?([ab](\d+))?$`; ValueError when it does not match. -/
def parseVersion (s : Str) : R StrictVersion :=
  match Str.splitC '.' s with
  | [a, b] => match digits? a, lastComp? b with
    | some x, some (y, p) => .ok ⟨x, y, 0, p⟩
    | _, _ => .error .valueError
  | [a, b, c] => match digits? a, digits? b, lastComp? c with
    | some x, some y, some (z, p) => .ok ⟨x, y, z, p⟩
    | _, _, _ => .error .valueError
  | _ => .error .valueError

/-- CPython distutils/version.py `StrictVersion._cmp` as a strict order: the number triples
lexicographically, then a pre-release is before the release, then the tags. -/
def StrictVersion.lt (a b : StrictVersion) : Bool :=
  if a.major ≠ b.major then a.major < b.major
  else if a.minor ≠ b.minor then a.minor < b.minor
  else if a.patch ≠ b.patch then a.patch < b.patch
  else match a.pre, b.pre with
    | none, _ => false
    | some _, none => true
    | some (c, n), some (d, m) => if c ≠ d then c.toNat < d.toNat else n < m

/-- utils.py:497-512 `get_supported_versions`, from the module names `pkgutil` lists (those
that are packages iff `is_pkg`): keep the names starting with `v`, `v1_2` becomes `1.2`, sort
by StrictVersion (which raises ValueError on a malformed one). -/
def getSupportedVersions (names : List Str) : R (List Str) := do
  let vs := (names.filter (fun n => Str.startsWith n ['v'])).map
    (fun v => Str.replace (v.drop 1) ['_'] ['.'])
  let keyed ← vs.mapM (fun v => do let k ← parseVersion v; pure (k, v))
  pure ((sortBy (fun a b => StrictVersion.lt a.1 b.1) keyed).map Prod.snd)

end Pyopenapi
