import Verif.Model.Utils

/-!
# `int(s)` of a string

Used for the tokens that are indices of lists (spec/obj.py:244, 568; migration/resolve.py:74).  This is CPython's
`PyLong_FromUnicodeObject` with base 10 (as of 3.6): the characters that are decimal digits anywhere in Unicode count as the digit,
white space around the number is skipped, and single underscores may stand between digits.
-/

namespace Pyopenapi.Obj

/-- The characters that stand for zero: the first of each run of ten with the Unicode category Nd (Unicode 14). -/
def decimalZeros : List Nat :=
  [48, 1632, 1776, 1984, 2406, 2534, 2662, 2790, 2918, 3046, 3174, 3302, 3430, 3558, 3664, 3792, 3872, 4160, 4240, 6112, 6160, 6470,
    6608, 6784, 6800, 6992, 7088, 7232, 7248, 42528, 43216, 43264, 43472, 43504, 43600, 44016, 65296, 66720, 68912, 69734, 69872,
    69942, 70096, 70384, 70736, 70864, 71248, 71360, 71472, 71904, 72016, 72784, 73040, 73120, 92768, 92864, 93008, 120782, 120792,
    120802, 120812, 120822, 123200, 123632, 125264, 130032]

/-- `Py_UNICODE_TODECIMAL`: the value of a decimal digit (as `int` uses it, obj.py:568). -/
def decimal? (c : Char) : Option Nat :=
  (decimalZeros.find? (fun z => decide (z ≤ c.toNat ∧ c.toNat < z + 10))).map (fun z => c.toNat - z)

/-- The white space `int` skips around a number (obj.py:568); the separators U+001C to U+001F are none, unlike in `str.isspace`. -/
def blanks : List Nat :=
  [9, 10, 11, 12, 13, 32, 133, 160, 5760, 8192, 8193, 8194, 8195, 8196, 8197, 8198, 8199, 8200, 8201, 8202, 8232, 8233, 8239, 8287,
    12288]

/-- The character is skipped (obj.py:568). -/
def blank (c : Char) : Bool := decide (c.toNat ∈ blanks)

/-- The string without the white space around it (obj.py:568). -/
def stripped (s : Str) : Str := ((s.dropWhile blank).reverse.dropWhile blank).reverse

/-- The digits of a number: `n` is what has been read, `b` tells whether a digit was the last (obj.py:568). -/
def numeral : Nat → Bool → Str → Option Nat
  | n, b, [] => if b then some n else none
  | n, b, c :: s =>
    if b = true ∧ c = '_' then numeral n false s
    else match decimal? c with
      | some v => numeral (n * 10 + v) true s
      | none => none

/-- The number with its sign (obj.py:568). -/
def signed? : Str → Option Int
  | '-' :: r => (numeral 0 false r).map (fun n : Nat => -(n : Int))
  | '+' :: r => (numeral 0 false r).map (fun n : Nat => (n : Int))
  | r => (numeral 0 false r).map (fun n : Nat => (n : Int))

/-- `int(s)` (obj.py:244, 568; resolve.py:74).  The limit of 4300 digits of later Python versions is not modelled. -/
def pyInt (s : Str) : R Int :=
  match signed? (stripped s) with
  | some i => .ok i
  | none => .error .valueError

end Pyopenapi.Obj
