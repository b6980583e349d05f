import Verif.Model.Scan
import Verif.Model.Statements

/-!
# pyopenapi/migration/scan.py: `Scanner`, which also calls the handlers of base classes
-/

namespace Pyopenapi.Scanner
open Meta

/-- obj.py:494-524, 742 and Python's class statement: `cls.__mro__[:-1]` of the classes made so far.  `Base2` stands for
`Base2Obj` with a metaclass (`six.with_metaclass` leaves no class of its own), whose base is `_Base`.  Classes have one
base (all of the package do); of more, only the first is looked at. -/
def mroStep (t : Dict (List Str)) : Statement → Dict (List Str)
  | .class_ n [] _ => Dict.set t n [n, s% "Base2Obj", s% "_Base"]
  | .class_ n (b :: _) _ => Dict.set t n (n :: (Dict.get? t b).getD [])
  | .attach _ _ _ => t

/-- `__mro__[:-1]` of every class a module makes. -/
def mros (p : List Statement) : Dict (List Str) := p.foldl mroStep []

/-- scan.py:100-106 `_handle_cls` (the application is the same for all calls of a scanner; handlers know it). -/
def handle {σ ρ : Type} (path : Str) (o : Obj) (d : Dispatcher σ ρ) (s : σ) (c : Str) : R σ :=
  match Dict.get? d.route c with
  | none => .ok s
  | some fs => fs.foldlM (callHandler d.result path o) s

/-- scan.py:140-143: the loop over the classes, up to `Base2Obj`. -/
def handleAll {σ ρ : Type} (path : Str) (o : Obj) (d : Dispatcher σ ρ) : List Str → σ → R σ
  | [], s => .ok s
  | c :: cs, s => if c = s% "Base2Obj" then .ok s else do
    let s' ← handle path o d s c
    handleAll path o d cs s'

/-- scan.py:139-143: one route object.  Lists and maps are of classes for which nothing can be registered. -/
def visit {σ ρ : Type} (mro : Str → List Str) (path : Str) (o : Obj) (s : σ) (d : Dispatcher σ ρ) : R σ :=
  match o.className? with
  | none => .ok s
  | some c => handleAll path o d (mro c) s

/-- scan.py:131-143 `Scanner(app).scan(route, root, leaves=leaves)`, with handlers that do not change the scanned
objects. -/
def scan {σ ρ : Type} (mro : Str → List Str) (routes : List (List (Option (Dispatcher σ ρ)))) (root : Option Obj)
    (leaves : List Str) (s : σ) : R σ :=
  match root with
  | none => .error .valueError
  | some root =>
    (Obj.traverse leaves root).foldlM
      (fun s po => (buildRoute routes).foldlM (visit mro po.1 po.2) s) s

end Pyopenapi.Scanner
