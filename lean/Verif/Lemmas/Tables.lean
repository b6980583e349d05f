import Verif.Spec.Obj
import Verif.Model.Tables
namespace Pyopenapi
open Spec

/-- The classes of the package are well formed. -/
theorem okTable_pkg : OkTable pkg := by
  have h : classes.all (fun kc => okClass pkg kc.2) = true := by decide +kernel
  intro c
  unfold pkg
  cases hg : Dict.get? classes c with
  | none => rfl
  | some cd => exact List.all_eq_true.1 h _ (Dict.mem_of_get? hg)

end Pyopenapi
