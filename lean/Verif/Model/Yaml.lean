import Verif.Base.Dict
import Verif.Model.Utils

/-!
# pyopenapi/migration/versions/v2_0/scanner/yaml.py

A document read from YAML may have response codes that are no strings.  A response is an `α`: nothing looks into it.
-/

namespace Pyopenapi.Yaml

/-- A key of a mapping read by pyyaml: an integer, a boolean (also an `int` for Python), a string, or anything else
(None, a float, a date). -/
inductive Key where
  | int (i : Int)
  | bool (b : Bool)
  | str (s : Str)
  | other (n : Nat)
deriving DecidableEq

/-- Python `str(i)` of an int. -/
def ofInt : Int → Str
  | .ofNat n => Str.ofNat n
  | .negSucc n => '-' :: Str.ofNat (n + 1)

/-- yaml.py:30-33: the key a response gets. -/
def newKey : Key → Key
  | .int i => .str (ofInt i)
  | .bool true => .str (s% "True")
  | .bool false => .str (s% "False")
  | .str s => .str s
  | .other n => .other n

/-- yaml.py:28-33: the new map of responses, filled in the order of the old one. -/
def fixResponses {α : Type} (d : DictK Key α) : DictK Key α :=
  d.foldl (fun r p => Dict.set r (newKey p.1) p.2) []

/-- yaml.py:20-34 `YamlFixer._op`: an operation, as its responses. -/
def fixOp {α : Type} : Option (DictK Key α) → Option (DictK Key α)
  | none => none
  | some d => some (fixResponses d)

/-- utils.py:116-125 `jp_compose([name, key])`: `key.replace` needs a string. -/
def composeKey (name : Str) : Key → R Str
  | .str s => .ok (jpCompose [name, s] none)
  | _ => .error .attributeError

/-- obj.py:705-718 `get_children` of an operation, its part about `responses` (when these are objects). -/
def responseChildren {α : Type} (d : DictK Key α) : R (Dict α) :=
  d.foldlM (fun ret p => do let k ← composeKey (s% "responses") p.1; .ok (Dict.set ret k p.2)) []

/-- v2_0/main.py:30-33: the document is scanned for references, which asks each operation for its children
(scan.py:18), and only then the response codes are fixed. -/
def upgradeResponses {α : Type} (d : DictK Key α) : R (DictK Key α) := do
  let _ ← responseChildren d
  .ok (fixResponses d)

end Pyopenapi.Yaml
