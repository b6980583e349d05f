import Verif.Props.Url
import Verif.Props.Url2
import Verif.Props.NormUrl
import Verif.Props.Container
import Verif.Props.Resolver

/-!
# Instances: every hypothesis of C07-C13, C17-C19, C43, C44 and C92 is met by a concrete case
-/
namespace Pyopenapi
namespace Inst

open Spec Url

/-- Every authority is well formed. -/
def fine : Str → Bool := fun _ => true

/-- A url with dot segments, a query and a fragment that look alike. -/
def dots : Str := s% "http://h/a/../../b/./c/.../d?x=..#/../y"
def dotsU : Url := ⟨s% "http", s% "h", s% "/a/../../b/./c/.../d", [], s% "x=..", s% "/../y"⟩

/-- C07. -/
example : ∃ t, derelativiseUrl fine dots = .ok t ∧
    parse fine t = .ok { dotsU with path := '/' :: Str.joinC '/' (survive (Str.splitC '/' (s% "a/../../b/./c/.../d"))).1 } ∧
    (∀ seg ∈ Str.splitC '/' (Str.joinC '/' (survive (Str.splitC '/' (s% "a/../../b/./c/.../d"))).1), ¬ Dotty seg) ∧
    derelativiseUrl fine t = .ok t :=
  C07_derelativise_partial fine dots dotsU (s% "a/../../b/./c/.../d") (by decide +kernel) (Or.inl rfl) (by
    intro seg h
    have : (survive (Str.splitC '/' (s% "a/../../b/./c/.../d"))).1.getLast? = some (s% "d") := by decide +kernel
    rw [this] at h
    exact Option.some.inj h ▸ by decide)

example : unparse dotsU = s% "http" ++ s% "://" ++ s% "h" ++ s% "/a/../../b/./c/.../d" ++ withMark ';' [] ++ withMark '?' (s% "x=..") ++
    withMark '#' (s% "/../y") :=
  C07_text (s% "http") (s% "h") (s% "/a/../../b/./c/.../d") dotsU rfl (by decide) rfl (by decide) rfl rfl

/-- C08: each of the cases. -/
example : normalizeJr fine (some (s% "#/a")) none = .ok (some (s% "#/a")) := (C08_no_base fine none (Or.inl rfl) (s% "/a")).1

example : normalizeJr fine (some (s% "#/a")) (some (s% "http://h/b.json")) = .ok (some (s% "http://h/b.json#/a")) :=
  (C08_fragment fine (s% "http://h/b.json") (by decide) (s% "/a")).1

example : normalizeJr fine (some (s% "http://i/c.json#/a")) (some (s% "http://h/b.json")) = .ok (some (s% "http://i/c.json#/a")) :=
  C08_absolute fine (s% "http://i/c.json") (by decide) (some (s% "/a")) _ ⟨s% "http", s% "i", s% "/c.json", [], [], []⟩
    (by decide +kernel) (by decide)

example : normalizeJr fine (some (s% "../c.json#/a")) (some (s% "http://h/d/e/b.json")) = .ok (some (s% "http://h/d/c.json#/a")) :=
  C08_relative fine (s% "../c.json") (s% "http://h/d/e/b.json") (by decide) (some (s% "/a"))
    ⟨s% "http", s% "h", s% "/d/e/b.json", [], [], []⟩ ⟨[], [], s% "../c.json", [], [], []⟩ (by decide +kernel) rfl (by decide)
    (by decide) (by decide +kernel) (Or.inr rfl)

/-- C09. -/
example : normalizeJr fine (some (s% "http://h/d/c.json#/a")) (some (s% "http://h/d/e/b.json")) = .ok (some (s% "http://h/d/c.json#/a")) :=
  C09_idempotent fine (s% "../c.json#/a") (s% "http://h/d/e/b.json") (s% "http://h/d/c.json#/a")
    ⟨s% "http", s% "h", s% "/d/e/b.json", [], [], []⟩ (by decide +kernel) (by decide) (by decide) (Or.inr rfl) (by decide)
    (by decide +kernel)

/-- C10. -/
example : jrSplit fine .ok .ok (s% "http://h/a.json?x=1#/definitions/a~1b") = .ok (s% "http://h/a.json?x=1", s% "#/definitions/a~1b") :=
  (C10_split fine .ok .ok (s% "http://h/a.json?x=1") (s% "/definitions/a~1b") ⟨s% "http", s% "h", s% "/a.json", [], s% "x=1", []⟩
    (by decide) (by decide) (by decide +kernel) (by decide) (by decide) (by decide)).1

example : jrSplit fine .ok .ok (s% "#/definitions/a~1b") = .ok ([], s% "#/definitions/a~1b") :=
  C10_fragment fine .ok .ok (s% "/definitions/a~1b") rfl (by decide)

/-- C11. -/
example : ∃ t, urlJoin fine (s% "http://h/a/?x=1") (s% "/b/c.json") = .ok t ∧
    parse fine t = .ok ⟨s% "http", s% "h", s% "/a/b/c.json", [], s% "x=1", []⟩ :=
  C11_join fine (s% "http://h/a/?x=1") (s% "/b/c.json") (s% "/a") (s% "b/c.json") ⟨s% "http", s% "h", s% "/a/", [], s% "x=1", []⟩
    (by decide +kernel) (Or.inr rfl) (Or.inr rfl) (by decide) (Or.inr rfl) (by decide) (by decide)

/-- C12. -/
example : urlDirname fine (s% "http://h/a/b") = .ok (s% "http://h/a/b") :=
  C12_folder fine _ ⟨s% "http", s% "h", s% "/a/b", [], [], []⟩ (by decide +kernel)
    (fun h => absurd (Str.endsWith_iff.2 h) (by decide)) (fun h => absurd (Str.endsWith_iff.2 h) (by decide))

example : ∃ t, urlDirname fine (s% "http://h/a/b/swagger.json?x=1") = .ok t ∧
    parse fine t = .ok ⟨s% "http", s% "h", s% "/a/b", [], s% "x=1", []⟩ :=
  C12_file_partial fine (s% "http://h/a/b/swagger.json?x=1") (s% "/a/b") (s% "swagger.json")
    ⟨s% "http", s% "h", s% "/a/b/swagger.json", [], s% "x=1", []⟩ (by decide +kernel) rfl (by decide) (by decide) (Or.inr rfl)
    (Or.inl ⟨s% "/a/b/swagger.", rfl⟩) (by decide)

/-- C13. -/
example : patchPath (s% "/x/a.yaml") (s% "/y/b") = s% "/y/b.yaml" :=
  (C13_base_decides (s% "/x/a.yaml") (s% "/y/b") (s% ".yaml") (by decide) (by decide +kernel)).2
    (fun h => absurd (Str.endsWith_iff.2 h) (by decide))

example : patchPath (s% "/x") (s% "/y/b.yml") = s% "/y/b.yml" :=
  (C13_path_decides (s% "/x") (s% "/y/b.yml") (by decide +kernel)).1 (by decide +kernel)

/-- C92. -/
example : normalizeUrl fine (fun p => .ok (s% "file:///" ++ p)) .ok (s% "C:\\a.json") = .ok (s% "file:///C:\\a.json") :=
  C92_windows fine _ .ok 'C' (s% "a.json") (by decide)

/-! ### compare_container -/

/-- Whether something holds of every list inside a value, looked for at most `n` deep. -/
def listsB (f : List Json → Bool) : Nat → Json → Bool
  | 0, _ => false
  | n + 1, .arr l => f l && l.all (listsB f n)
  | n + 1, .obj d => d.all (fun e => listsB f n e.2)
  | _ + 1, _ => true

theorem listsB_sound {f : List Json → Bool} {j w : Json} (h : InJ j w) : ∀ {n : Nat} {l : List Json}, w = .arr l →
    listsB f n j = true → f l = true := by
  induction h with
  | here j =>
    rintro n l rfl hn
    cases n with
    | zero => cases hn
    | succ n => simp only [listsB, Bool.and_eq_true] at hn; exact hn.1
  | key hk _ ih =>
    intro n l hw hn
    cases n with
    | zero => cases hn
    | succ n =>
      simp only [listsB] at hn
      exact ih hw (List.all_eq_true.1 hn _ (Dict.mem_of_get? hk))
  | elem hm _ ih =>
    intro n l hw hn
    cases n with
    | zero => cases hn
    | succ n =>
      simp only [listsB, Bool.and_eq_true] at hn
      exact ih hw (List.all_eq_true.1 hn.2 _ hm)

theorem containerDoc_uniform : Uniform containerDoc := by
  intro l hl x hx y hy
  have := listsB_sound (f := fun l => l.all (fun x => l.all (fun y => x.typeName == y.typeName))) hl rfl (n := 9) (by decide +kernel)
  simpa using List.all_eq_true.1 (List.all_eq_true.1 this x hx) y hy

theorem containerDoc_sortable : Sortable simpleSorter containerDoc := by
  intro l hl hne hnd
  have := listsB_sound (f := fun l => l.any (fun x => match x with | .obj _ => true | _ => false) || (simpleSorter.sort l).isOk) hl rfl (n := 9)
    (by decide +kernel)
  rcases Bool.or_eq_true_iff.1 this with h | h
  · obtain ⟨x, hx, h⟩ := List.any_eq_true.1 h
    cases x with
    | obj d => exact absurd rfl (hnd _ hx d)
    | _ => cases h
  · revert h
    cases simpleSorter.sort l with
    | ok m => intro _; exact ⟨m, rfl⟩
    | error e => intro h; cases h

/-- C17. -/
example : compareContainer simpleSorter [] [] containerDoc containerDoc [] = .ok [] :=
  C17_reflexive simpleSorter [] [] containerDoc containerDoc [] (.refl _) containerDoc_uniform containerDoc_sortable

example : compareContainer simpleSorter [] [] (.arr [.int 1, .str (s% "a")]) (.arr [.int 1, .str (s% "a")]) [] = .error .valueError ∨
    compareContainer simpleSorter [] [] (.arr [.int 1, .str (s% "a")]) (.arr [.int 1, .str (s% "a")]) [] = .error .typeError :=
  C17_raises simpleSorter _ _ [] (.refl _) (fun h =>
    absurd (h.1 _ (.here _) (.int 1) (by simp) (.str (s% "a")) (by simp)) (by decide))

/-- C18: two documents that differ in the order of keys and in an excluded key. -/
example : Alike (Counts [] [s% "x"]) (.obj [(s% "x", .int 1), (s% "b", .obj [(s% "x", .int 1)]), (s% "c", .int 2)])
    (.obj [(s% "c", .int 2), (s% "b", .obj [])]) :=
  C18_nothing_reported simpleSorter [] [s% "x"] _ _ [] (by decide +kernel)

/-- C19. -/
example : compareContainer simpleSorter [] [s% "c"] (prune (Counts [] [s% "c"] ·) containerDoc) (prune (Counts [] [s% "c"] ·) containerDoc') [] =
    pruneOut (Counts [] [s% "c"] ·) (compareContainer simpleSorter [] [s% "c"] containerDoc containerDoc' []) :=
  C19_keys_ignored_partial simpleSorter [] [s% "c"] _ _ []
    (fun l hl x hx m hm => by
      have := listsB_sound (f := fun l => l.all (fun x => match x with | .arr _ => false | _ => true)) hl rfl (n := 9) (by decide +kernel)
      rw [hm] at hx
      exact absurd (List.all_eq_true.1 this _ hx) (by simp))
    (fun l hl x hx m hm => by
      have := listsB_sound (f := fun l => l.all (fun x => match x with | .arr _ => false | _ => true)) hl rfl (n := 9) (by decide +kernel)
      rw [hm] at hx
      exact absurd (List.all_eq_true.1 this _ hx) (by simp))

end Inst
end Pyopenapi
