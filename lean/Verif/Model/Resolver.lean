import Verif.Model.Url
import Verif.Model.Obj

/-!
# pyopenapi/migration/resolve.py: Resolver
-/

namespace Pyopenapi
namespace Resolver

/-- resolve.py:68-79: the loop over the tokens of the JSON pointer. -/
def walk : List Str → Json → R Json
  | [], obj => .ok obj
  | head :: parts, .arr l => do
    let i ← Obj.pyInt head
    let x ← Obj.pyIndex l i
    walk parts x
  | head :: parts, .obj d => do
    let x ← Dict.get! d head
    walk parts x
  | _ :: _, _ => .error .generic

/-- The resolver and the outside world.  `cache` is `__cache` (resolve.py:31); `None` is cached for an empty
document. -/
structure State (W : Type) where
  cache : Dict (Option Json)
  world : W

/-- resolve.py:50: `self.__cache.get(url, None)`, when it is truthy. -/
def cached {W : Type} (s : State W) (url : Str) : Option Json :=
  match Dict.get? s.cache url with
  | some (some j) => if j.truthy then some j else none
  | _ => none

/-- resolve.py:40-83 `resolve`.  `split` is `jr_split`; `load` is the hook and the getter (resolve.py:46,
51-64): it looks at the world, changes it, and gives a document or raises.  (The hook is called for cached urls too; there its result is
not used.  A hook that raises for a url is covered by a `split` that raises for its references.) -/
def resolve {W : Type} (split : Str → R (Str × Str)) (load : W → Str → R Json × W) (s : State W) (jref : Str) :
    R Json × State W :=
  match split jref with
  | .error e => (.error e, s)
  | .ok (url, jp) =>
    match cached s url with
    | some obj => (walk ((jpSplit jp).drop 1) obj, s)
    | none =>
      match load s.world url with
      | (.error e, w) => (.error e, { s with world := w })
      | (.ok obj, w) =>
        let s' : State W := ⟨Dict.set s.cache url (if obj.truthy then some obj else none), w⟩
        if obj.truthy then (walk ((jpSplit jp).drop 1) obj, s') else (.error .generic, s')

end Resolver
end Pyopenapi
