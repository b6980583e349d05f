import Verif.Base.Str

/-! # Specification: version numbers with pre-releases -/

namespace Pyopenapi.Spec

/-- A version: three numbers, and the pre-release (its letter and number) if it is one. -/
structure Release where
  major : Nat
  minor : Nat
  patch : Nat
  pre : Option (Char × Nat)
  deriving DecidableEq

/-- A non-empty run of decimal digits and the number it denotes. -/
inductive Digits : Str → Nat → Prop
  | one (c : Char) : c.isDigit = true → Digits [c] (c.toNat - 48)
  | more (s : Str) (n : Nat) (c : Char) : Digits s n → c.isDigit = true → Digits (s ++ [c]) (n * 10 + (c.toNat - 48))

/-- The suffix of a pre-release: nothing, or `a` or `b` and a number. -/
inductive PreText : Str → Option (Char × Nat) → Prop
  | none : PreText [] none
  | some (c : Char) (s : Str) (n : Nat) : c = 'a' ∨ c = 'b' → Digits s n → PreText (c :: s) (some (c, n))

/-- `MAJOR.MINOR`, `MAJOR.MINOR.PATCH`, and a suffix. -/
inductive Denotes : Str → Release → Prop
  | two (a b p : Str) (x y : Nat) (pre : Option (Char × Nat)) : Digits a x → Digits b y → PreText p pre →
      Denotes (a ++ '.' :: (b ++ p)) ⟨x, y, 0, pre⟩
  | three (a b c p : Str) (x y z : Nat) (pre : Option (Char × Nat)) : Digits a x → Digits b y → Digits c z → PreText p pre →
      Denotes (a ++ '.' :: (b ++ '.' :: (c ++ p))) ⟨x, y, z, pre⟩

/-- The numbers decide first; a pre-release comes before the release; `a` before `b`; then the number. -/
def Before (v w : Release) : Prop :=
  v.major < w.major ∨ v.major = w.major ∧
    (v.minor < w.minor ∨ v.minor = w.minor ∧
      (v.patch < w.patch ∨ v.patch = w.patch ∧
        match v.pre, w.pre with
        | none, _ => False
        | some _, none => True
        | some (c, n), some (d, m) => c = 'a' ∧ d = 'b' ∨ c = d ∧ n < m))

end Pyopenapi.Spec
