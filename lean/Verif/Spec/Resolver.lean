import Verif.Model.Resolver
import Verif.Spec.Obj
import Verif.Spec.IntText

/-! # Specification: histories of a resolver, and following a pointer -/

namespace Pyopenapi.Spec

/-- A loader that also writes down what was asked for and what came back, newest last. -/
def recording {W : Type} (load : W → Str → R Json × W) (w : W × List (Str × R Json)) (url : Str) :
    R Json × (W × List (Str × R Json)) :=
  ((load w.1 url).1, (load w.1 url).2, w.2 ++ [(url, (load w.1 url).1)])

/-- The state after a sequence of resolve calls, each with its own loader. -/
def history {W : Type} (split : Str → R (Str × Str)) : List (Str × (W → Str → R Json × W)) →
    Resolver.State (W × List (Str × R Json)) → Resolver.State (W × List (Str × R Json))
  | [], s => s
  | (jref, load) :: rest, s => history split rest (Resolver.resolve split (recording load) s jref).2

/-- Following tokens as the code does: members by name; elements by an integer, which may have a sign, and
counts from the end when negative. -/
inductive Walks : Json → List Str → Json → Prop
  | here (j : Json) : Walks j [] j
  | key {d : Dict Json} {k : Str} {v w : Json} {ts : List Str} : Dict.get? d k = some v → Walks v ts w →
      Walks (.obj d) (k :: ts) w
  | idx {l : List Json} {t : Str} {n : Nat} {v w : Json} {ts : List Str} : IntText t n → l[n]? = some v →
      Walks v ts w → Walks (.arr l) (t :: ts) w
  | fromEnd {l : List Json} {t : Str} {n : Nat} {v w : Json} {ts : List Str} : IntText t (-(n : Int)) → 0 < n →
      n ≤ l.length → l[l.length - n]? = some v → Walks v ts w → Walks (.arr l) (t :: ts) w

end Pyopenapi.Spec
