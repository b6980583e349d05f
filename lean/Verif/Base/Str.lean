/-!
# Strings

Python `str` is modelled as `List Char` (a sequence of code points).  Each function
below models a `str` method of CPython that /repo/pyopenapi uses.
-/

namespace Pyopenapi

/-- Python `str`. -/
abbrev Str := List Char

open Lean in
/-- `s% "abc"` is the literal `['a','b','c']`. -/
macro:max "s%" s:str : term => do
  let cs := s.getString.toList.map Syntax.mkCharLit
  let cs : Array (TSyntax `term) := (cs.map (fun c => (⟨c.raw⟩ : TSyntax `term))).toArray
  `(([$cs,*] : List Char))

namespace Str

/-- Python `s.startswith(p)`. -/
def startsWith (s p : Str) : Bool := p.isPrefixOf s

/-- Python `s.endswith(p)`. -/
def endsWith (s p : Str) : Bool := p.isSuffixOf s

/-- Python `s.split(c)` for a one-character separator: always at least one part. -/
def splitC (c : Char) : Str → List Str
  | [] => [[]]
  | x :: xs =>
    if x = c then [] :: splitC c xs
    else match splitC c xs with
      | [] => [[x]]
      | p :: ps => (x :: p) :: ps

/-- Python `s.split(c, 1)` for a one-character separator. -/
def splitC1 (c : Char) : Str → List Str
  | [] => [[]]
  | x :: xs =>
    if x = c then [[], xs]
    else match splitC1 c xs with
      | [] => [[x]]
      | p :: ps => (x :: p) :: ps

/-- Python `c.join(parts)` for a one-character separator. -/
def joinC (c : Char) : List Str → Str
  | [] => []
  | [p] => p
  | p :: q :: ps => p ++ c :: joinC c (q :: ps)

/-- Worker of `replace`: `skip` counts the characters of the last match still to be dropped. -/
def replaceGo (pat rep : Str) : Nat → Str → Str
  | _, [] => []
  | skip + 1, _ :: cs => replaceGo pat rep skip cs
  | 0, c :: cs =>
    if pat.isPrefixOf (c :: cs) then rep ++ replaceGo pat rep (pat.length - 1) cs
    else c :: replaceGo pat rep 0 cs

/-- Python `s.replace(pat, rep)` for a non-empty `pat`: non-overlapping, left to right. -/
def replace (s pat rep : Str) : Str := replaceGo pat rep 0 s

/-- Worker of `split`; `skip` as in `replaceGo`. -/
def splitGo (sep : Str) : Nat → Str → List Str
  | _, [] => [[]]
  | skip + 1, _ :: cs => splitGo sep skip cs
  | 0, c :: cs =>
    if sep.isPrefixOf (c :: cs) then [] :: splitGo sep (sep.length - 1) cs
    else match splitGo sep 0 cs with
      | [] => [[c]]
      | p :: ps => (c :: p) :: ps

/-- Python `s.split(sep)` for a non-empty separator string. -/
def split (s sep : Str) : List Str := splitGo sep 0 s

/-- Python `sep.join(parts)`. -/
def join (sep : Str) : List Str → Str
  | [] => []
  | [p] => p
  | p :: q :: ps => p ++ sep ++ join sep (q :: ps)

/-- The part of `s` before the first `c` and, when `c` occurs, the part after it:
models `i = s.find(c)` followed by `s[:i]`, `s[i+1:]`. -/
def cut (c : Char) : Str → Str × Option Str
  | [] => ([], none)
  | x :: xs => if x = c then ([], some xs) else
      let (a, b) := cut c xs
      (x :: a, b)

/-- The part of `s` after the last occurrence of `c` (all of `s` when there is none). -/
def afterLast (c : Char) (s : Str) : Str := (s.reverse.takeWhile (· ≠ c)).reverse

/-- The part of `s` up to and including the last occurrence of `c` (`""` when there is none). -/
def uptoLast (c : Char) (s : Str) : Str := (s.reverse.dropWhile (· ≠ c)).reverse

/-- Python `str(n)` for a non-negative int. -/
def ofNat (n : Nat) : Str := Nat.toDigits 10 n

end Str
end Pyopenapi
