import Verif.Base.Str

/-! # Specification: RFC 6901 token escaping, in one pass -/

namespace Pyopenapi.Spec

/-- RFC 6901 section 4: `~1` is `/`, `~0` is `~`, everything else is literal. -/
def unescape : Str → Str
  | '~' :: '1' :: r => '/' :: unescape r
  | '~' :: '0' :: r => '~' :: unescape r
  | c :: r => c :: unescape r
  | [] => []

/-- RFC 6901 section 3: `~` is written `~0`, `/` is written `~1`. -/
def escape : Str → Str
  | [] => []
  | '~' :: r => '~' :: '0' :: escape r
  | '/' :: r => '~' :: '1' :: escape r
  | c :: r => c :: escape r

end Pyopenapi.Spec
