import Verif.Model.Store

/-!
# Specification of the object store: an abstract map

`Spec.Cache` is a plain function of (url, pointer, version).  `Op` are the mutating calls of the
public interface.
-/

namespace Pyopenapi
variable {O : Type}

/-- The calls that can change a store. -/
inductive StoreOp (O : Type) where
  | set (o : O) (url jp ver : Str)
  | getUnder (url jp ver : Str) (remove : Bool)
  | updateRoutes (url toSpec : Str) (rs : Routes)

/-- One call on the model (a call that raises leaves the state it had reached). -/
def Store.step (st : Store O) : StoreOp O → Store O
  | .set o url jp ver => st.set o url jp ver
  | .getUnder url jp ver remove => match st.getUnder url jp ver remove with
    | .ok (_, st') => st'
    | .error _ => st
  | .updateRoutes url toSpec rs => (st.updateRoutes url toSpec rs).1

/-- The store after a history of calls on a fresh store. -/
def Store.run (versions : List Str) (ops : List (StoreOp O)) : Store O :=
  ops.foldl Store.step (Store.init versions)

namespace Spec

/-- url, pointer, version ↦ object. -/
abbrev Cache (O : Type) := Str → Str → Str → Option O

/-- What each call means for the abstract map. -/
def Cache.step (m : Cache O) : StoreOp O → Cache O
  | .set o url jp ver => fun u p v => if url = u ∧ jp = p ∧ ver = v then some o else m u p v
  | .getUnder url jp ver remove => fun u p v =>
      if remove = true ∧ jp ≠ [] ∧ u = url ∧ v = ver ∧ Str.startsWith p jp = true then none
      else m u p v
  | .updateRoutes _ _ _ => m

def Cache.run (ops : List (StoreOp O)) : Cache O := ops.foldl Cache.step (fun _ _ _ => none)

/-- Segment-wise ancestor: equal, or followed by `/`. -/
def ancestor (p jp : Str) : Prop := jp = p ∨ ∃ r, jp = p ++ '/' :: r

end Spec
end Pyopenapi
