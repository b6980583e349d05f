import Verif.Spec.ConvSwagger
import Verif.Spec.Pointer
import Verif.Model.Store

/-!
# Specification of the relocation of references by a conversion
-/

namespace Pyopenapi.Spec

/-- The JSON pointer (RFC 6901, as a fragment) to these tokens. -/
def pointer (ts : List Str) : Str := '#' :: ts.flatMap (fun t => '/' :: escape t)

/-- The store of an application after the document at `url` has been converted to 3.0.0 with the relocations `rl`
(base.py:236-243: they are registered under the pointer of the document). -/
def migrated (O : Type) (url : Str) (rl : Routes) : Store O :=
  ((Store.init [s% "1.2", s% "2.0", s% "3.0.0"]).updateRoutes url (s% "3.0.0") [(s% "#", .nested rl)]).1

/-- A reference to `p` in the 2.0 document is relocated to `q` in the converted one. -/
def Relocated (url : Str) (rl : Routes) (p q : Str) : Prop :=
  ∀ O, (migrated O url rl).relocate url p (s% "2.0") (s% "3.0.0") = .ok q

/-- A named parameter becomes a request body. -/
def BodyNamed (d : Dict Json) (n : Str) : Prop :=
  ∃ e, Dict.get? (objAt d (s% "parameters")) n = some (.obj e) ∧ Part.isPlain ⟨e, none⟩ = false

end Pyopenapi.Spec
