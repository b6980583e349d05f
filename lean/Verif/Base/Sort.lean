import Verif.Base.Dict

/-! # `sorted`: a stable sort -/

namespace Pyopenapi

/-- Stable insertion: before the first element that is strictly greater. -/
def insertBy {α : Type} (lt : α → α → Bool) (x : α) : List α → List α
  | [] => [x]
  | y :: ys => if lt x y then x :: y :: ys else y :: insertBy lt x ys

/-- Python `sorted(l)` for a strict weak order `lt`: any stable sort gives this list
(elements are inserted from left to right, after the ones they are equivalent to). -/
def sortBy {α : Type} (lt : α → α → Bool) (l : List α) : List α :=
  l.foldl (fun acc x => insertBy lt x acc) []

end Pyopenapi
