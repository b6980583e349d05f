import Verif.Model.Utils

/-!
# Specification: what texts Python takes for whole numbers

The tables of digits and white space are data of Unicode 14, written down here once more and not taken from the model.
-/

namespace Pyopenapi.Spec

/-- The digit zero of each script that has decimal digits; the other nine follow it. -/
def zeroDigits : List Nat :=
  [
    /- ASCII -/ 0x30,
    /- Arabic-Indic -/ 0x660,
    /- Extended Arabic-Indic -/ 0x6f0,
    /- Nko -/ 0x7c0,
    /- Devanagari -/ 0x966,
    /- Bengali -/ 0x9e6,
    /- Gurmukhi -/ 0xa66,
    /- Gujarati -/ 0xae6,
    /- Oriya -/ 0xb66,
    /- Tamil -/ 0xbe6,
    /- Telugu -/ 0xc66,
    /- Kannada -/ 0xce6,
    /- Malayalam -/ 0xd66,
    /- Sinhala Lith -/ 0xde6,
    /- Thai -/ 0xe50,
    /- Lao -/ 0xed0,
    /- Tibetan -/ 0xf20,
    /- Myanmar -/ 0x1040,
    /- Myanmar Shan -/ 0x1090,
    /- Khmer -/ 0x17e0,
    /- Mongolian -/ 0x1810,
    /- Limbu -/ 0x1946,
    /- New Tai Lue -/ 0x19d0,
    /- Tai Tham Hora -/ 0x1a80,
    /- Tai Tham Tham -/ 0x1a90,
    /- Balinese -/ 0x1b50,
    /- Sundanese -/ 0x1bb0,
    /- Lepcha -/ 0x1c40,
    /- Ol Chiki -/ 0x1c50,
    /- Vai -/ 0xa620,
    /- Saurashtra -/ 0xa8d0,
    /- Kayah Li -/ 0xa900,
    /- Javanese -/ 0xa9d0,
    /- Myanmar Tai Laing -/ 0xa9f0,
    /- Cham -/ 0xaa50,
    /- Meetei Mayek -/ 0xabf0,
    /- Fullwidth -/ 0xff10,
    /- Osmanya -/ 0x104a0,
    /- Hanifi Rohingya -/ 0x10d30,
    /- Brahmi -/ 0x11066,
    /- Sora Sompeng -/ 0x110f0,
    /- Chakma -/ 0x11136,
    /- Sharada -/ 0x111d0,
    /- Khudawadi -/ 0x112f0,
    /- Newa -/ 0x11450,
    /- Tirhuta -/ 0x114d0,
    /- Modi -/ 0x11650,
    /- Takri -/ 0x116c0,
    /- Ahom -/ 0x11730,
    /- Warang Citi -/ 0x118e0,
    /- Dives Akuru -/ 0x11950,
    /- Bhaiksuki -/ 0x11c50,
    /- Masaram Gondi -/ 0x11d50,
    /- Gunjala Gondi -/ 0x11da0,
    /- Mro -/ 0x16a60,
    /- Tangsa -/ 0x16ac0,
    /- Pahawh Hmong -/ 0x16b50,
    /- Mathematical Bold -/ 0x1d7ce,
    /- Mathematical Double-Struck -/ 0x1d7d8,
    /- Mathematical Sans-Serif -/ 0x1d7e2,
    /- Mathematical Sans-Serif Bold -/ 0x1d7ec,
    /- Mathematical Monospace -/ 0x1d7f6,
    /- Nyiakeng Puachue Hmong -/ 0x1e140,
    /- Wancho -/ 0x1e2f0,
    /- Adlam -/ 0x1e950,
    /- Segmented -/ 0x1fbf0
  ]

/-- White space: tab to carriage return, the blank, NEL, the no-break space, the Ogham space, U+2000 to U+200A, the separators of
lines and paragraphs, the narrow no-break space, the mathematical and the ideographic space. -/
def White (c : Char) : Prop :=
  (0x9 ≤ c.toNat ∧ c.toNat ≤ 0xd) ∨ c = ' ' ∨ c.toNat = 0x85 ∨ c.toNat = 0xa0 ∨ c.toNat = 0x1680 ∨ (0x2000 ≤ c.toNat ∧ c.toNat ≤ 0x200a) ∨
    c.toNat = 0x2028 ∨ c.toNat = 0x2029 ∨ c.toNat = 0x202f ∨ c.toNat = 0x205f ∨ c.toNat = 0x3000

/-- The character is the decimal digit `v` (of some script). -/
def DecimalOf (c : Char) (v : Nat) : Prop := v < 10 ∧ ∃ z ∈ zeroDigits, c.toNat = z + v

/-- A run of digits and the number it denotes; there may be single underscores between digits. -/
inductive Numeral : Str → Nat → Prop
  | one {c : Char} {v : Nat} : DecimalOf c v → Numeral [c] v
  | more {s : Str} {n : Nat} {c : Char} {v : Nat} : Numeral s n → DecimalOf c v → Numeral (s ++ [c]) (n * 10 + v)
  | under {s : Str} {n : Nat} {c : Char} {v : Nat} : Numeral s n → DecimalOf c v → Numeral (s ++ ['_', c]) (n * 10 + v)

/-- A number: digits, a sign before them perhaps, white space around. -/
def IntText (t : Str) (i : Int) : Prop :=
  ∃ a s b n, (∀ c ∈ a ++ b, White c) ∧ Numeral s n ∧
    (((t = a ++ s ++ b ∨ t = a ++ '+' :: s ++ b) ∧ i = n) ∨ (t = a ++ '-' :: s ++ b ∧ i = -n))

end Pyopenapi.Spec
