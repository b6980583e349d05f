import Verif.Base.Str

/-! # Specification: removal of dot segments -/

namespace Pyopenapi.Spec

/-- Only dots, at least two of them: "parent directory". -/
def Parent (seg : Str) : Prop := 2 ≤ seg.length ∧ ∀ c ∈ seg, c = '.'

instance (seg : Str) : Decidable (Parent seg) := inferInstanceAs (Decidable (_ ∧ _))

/-- A dot segment. -/
def Dotty (seg : Str) : Prop := seg = ['.'] ∨ Parent seg

instance (seg : Str) : Decidable (Dotty seg) := inferInstanceAs (Decidable (_ ∨ _))

/-- The segments that survive, read from the right: every parent segment cancels the nearest segment on its
left that is not cancelled yet; the number counts the parents that still look for one (they are ignored
at the root). -/
def survive : List Str → List Str × Nat
  | [] => ([], 0)
  | seg :: rest =>
    let (out, k) := survive rest
    if seg = ['.'] then (out, k)
    else if Parent seg then (out, k + 1)
    else if k = 0 then (seg :: out, 0)
    else (out, k - 1)

end Pyopenapi.Spec
