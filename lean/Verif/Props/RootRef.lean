import Verif.Props.App
import Verif.Props.Url2
import Verif.Model.Main

/-!
# C108: a reference without url means the document of the application
-/

namespace Pyopenapi
namespace App

open Url

variable {O W : Type}

/-- What `resolve_obj` does with a reference depends on its two parts only, once the url of the application stands for an
empty url. -/
theorem resolveObj_parts (env : AppEnv O W) (jref from_ : Str) (parser : Option (Json → Str → W → R O × W)) (to : Option Str)
    (removeDummy : Bool) (a : App O W) (jp : Str) (hne : jref ≠ []) (hs : env.split jref = .ok ([], jp)) (hu : env.url ++ jp ≠ [])
    (hs' : env.split (env.url ++ jp) = .ok (env.url, jp)) :
    resolveObj env jref from_ parser to removeDummy a = resolveObj env (env.url ++ jp) from_ parser to removeDummy a := by
  unfold resolveObj
  rw [if_neg hne, if_neg hu]
  simp only [hs, hs', if_true]
  by_cases h : env.url = []
  · simp only [h, if_true]
  · simp only [h, if_false]

/-- **C108**: `resolve_obj('#/...')` does exactly what `resolve_obj(app.url + '#/...')` does, in every state of the application,
for every pair of versions, parser and flag: the same object, the same new reference, the same effects.  The url is one with a
scheme, written as `urlunparse` writes it. -/
theorem C108_root (env : AppEnv O W) (ok : Str → Bool) (p2u ab : Str → R Str) (hsplit : env.split = jrSplit ok p2u ab) (u : Url)
    (hf : '#' ∉ env.url) (hw : isWindowsPath env.url = false) (h : parse ok env.url = .ok u) (hsch : u.scheme ≠ [])
    (hcanon : unparse u = env.url) (h0 : ok [] = true) (jp : Str) (hjp : ∀ c ∈ jp, unsafeChar c = false)
    (from_ : Str) (parser : Option (Json → Str → W → R O × W)) (to : Option Str) (removeDummy : Bool) (a : App O W) :
    resolveObj env ('#' :: jp) from_ parser to removeDummy a =
      resolveObj env (env.url ++ '#' :: jp) from_ parser to removeDummy a := by
  refine resolveObj_parts env ('#' :: jp) from_ parser to removeDummy a ('#' :: jp) (by simp) ?_ (by simp) ?_
  · rw [hsplit]; exact C10_fragment ok p2u ab jp h0 hjp
  · rw [hsplit]; exact (C10_split ok p2u ab env.url jp u hf hw h hsch hcanon hjp).1

/-- **C108**: `to_spec_version` that is left out or empty means `from_spec_version`. -/
theorem C108_version (env : AppEnv O W) (jref from_ : Str) (hf : from_ ≠ []) (parser : Option (Json → Str → W → R O × W))
    (removeDummy : Bool) (a : App O W) :
    resolveObj env jref from_ parser none removeDummy a = resolveObj env jref from_ parser (some from_) removeDummy a ∧
    resolveObj env jref from_ parser (some []) removeDummy a = resolveObj env jref from_ parser (some from_) removeDummy a := by
  unfold resolveObj
  simp only [hf, if_false, if_true, and_self]

/-- **C108**: the empty reference is refused with ValueError, and nothing happens. -/
theorem C108_empty (env : AppEnv O W) (from_ : Str) (parser : Option (Json → Str → W → R O × W)) (to : Option Str)
    (removeDummy : Bool) (a : App O W) :
    resolveObj env [] from_ parser to removeDummy a = (.error .valueError, a) := rfl

/-- The small application of Props/App, at a url that `urlunparse` would write in another way. -/
def shoutingEnv : AppEnv (Str × Nat) (Nat × Nat) :=
  { toyEnv with url := s% "HTTP://h/b", split := jrSplit (fun _ => true) (fun _ => .error .valueError) (fun _ => .error .valueError) }

/-- The condition on how the url is written cannot be dropped: the document is kept under the rewritten url, the reference
without url is looked for under the url as it was given, and what was loaded is loaded again. -/
theorem C108_spelling_violation :
    let a := (loadObj shoutingEnv (s% "HTTP://h/b") none false toyApp).2
    (resolveObj shoutingEnv (s% "HTTP://h/b#") (s% "2.0") none none false a).2.world = a.world ∧
    (resolveObj shoutingEnv (s% "#") (s% "2.0") none none false a).2.world ≠ a.world := by decide +kernel

/-- The theorem covers the application of the package (Model/Main): a case of it. -/
example {W : Type} (out : Main.Outer W) (up : Str → Obj → Str → App Obj (Main.World W) → R (Obj × Routes) × App Obj (Main.World W))
    (hu : out.url = s% "http://h/api.json") (hok : out.ok = fun _ => true) (a : App Obj (Main.World W)) :
    resolveObj (Main.appWith out up) (s% "#/definitions/Pet") (s% "2.0") none (some (s% "3.0.0")) false a =
      resolveObj (Main.appWith out up) (s% "http://h/api.json#/definitions/Pet") (s% "2.0") none (some (s% "3.0.0")) false a := by
  have e : (Main.appWith out up).url = s% "http://h/api.json" := hu
  have := C108_root (Main.appWith out up) out.ok out.path2url out.abspath rfl
    ⟨s% "http", s% "h", s% "/api.json", [], [], []⟩ (by rw [e]; decide +kernel) (by rw [e]; decide +kernel)
    (by rw [e, hok]; decide +kernel) (by decide +kernel) (by rw [e]; decide +kernel) (by rw [hok]) (s% "/definitions/Pet") (by decide +kernel)
    (s% "2.0") none (some (s% "3.0.0")) false a
  rw [e] at this
  exact this

end App
end Pyopenapi
