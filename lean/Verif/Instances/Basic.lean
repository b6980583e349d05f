import Verif.Props.Pointer
import Verif.Props.Deref
import Verif.Props.Version
import Verif.Props.Version2

/-!
# Instances: every hypothesis of C01-C06, C14 and C15 is met by a concrete case
Each example applies the theorem it is about; what it proves is the theorem's conclusion there.
-/
namespace Pyopenapi

open Str Spec

/-- C01, tokens with every special character, one of them empty. -/
example : jpSplit (jpCompose [s% "", s% "a/b", s% "~01"] none) = [s% "", s% "a/b", s% "~01"] :=
  (C01_jp_roundtrip_nobase _ (by decide)).1

/-- C02. -/
example (ts us : List Str) (h : jpCompose ts (some (s% "#")) = jpCompose us (some (s% "#"))) : ts = us :=
  C02_jp_compose_injective ts us _ (by decide) h

example : jpCompose [s% "c~d"] (some (jpCompose [s% "a/b"] (some (s% "#")))) = jpCompose [s% "a/b", s% "c~d"] (some (s% "#")) :=
  C02_jp_compose_incremental [s% "a/b"] [s% "c~d"] _ (by decide)

example : (jpCompose [s% "a/b", s% "//"] (some (s% "#"))).count '/' = 2 :=
  C02_jp_compose_slashes [s% "a/b", s% "//"] (s% "#") (by decide)

/-- C03. -/
example : jpSplit (joinC '/' [s% "~01", s% "~1x", s% ""]) = [s% "~01", s% "~1x", s% ""].map Spec.unescape :=
  C03_jp_split_is_rfc6901 _ (by decide) (by decide) (by decide)

/-- C04, three parts. -/
example : scopeSplit (scopeCompose (scopeCompose (some (s% "pet")) (some (s% "get")) scopeSeparator) (some (s% "x")) scopeSeparator)
    scopeSeparator = [some (s% "pet"), some (s% "get"), some (s% "x")] :=
  C04_scope_roundtrip '!' (s% "##!") (s% "pet") [s% "get", s% "x"] (by decide) (by decide)

/-- The scoped names of the examples. -/
def scopes : Dict Nat := [(s% "a!##!get", 1), (s% "b!##!widget", 2), (s% "b!##!put", 3), (s% "c!##!put", 4)]

/-- C05: the exact name. -/
example : scopeDictGet scopeSeparator scopes (some (s% "c!##!put")) = .ok 4 :=
  C05_exact _ _ _ _ (by decide) (by simp [Dict.NodupKeys, Dict.keys, scopes])

theorem suffix_of_any {m k : Str} (h : ∃ u, m = u ++ k) : Str.endsWith m k = true := by
  obtain ⟨u, rfl⟩ := h
  simp [Str.endsWith]

/-- C05: the only one that ends so. -/
example : scopeDictGet scopeSeparator scopes (some (s% "widget")) = .ok 2 :=
  C05_unique_suffix _ _ (by simp [Dict.NodupKeys, Dict.keys, scopes]) _ (s% "b!##!widget") _ (by decide) (by decide)
    ⟨s% "b!##!", rfl⟩ (fun m hm hu => by
      have := suffix_of_any hu
      clear hu
      revert m
      decide)

/-- C05: two end so, one of them by its last token. -/
example : scopeDictGet scopeSeparator scopes (some (s% "get")) = .ok 1 :=
  (C05_ambiguous scopeSeparator scopes (by simp [Dict.NodupKeys, Dict.keys, scopes]) (s% "get") (by decide)
    (s% "a!##!get") (s% "b!##!widget") (by decide) (by decide) (by decide) ⟨s% "a!##!", rfl⟩ ⟨s% "b!##!wid", rfl⟩).1
    (s% "a!##!get") 1 (by decide) ⟨s% "a!##!", rfl⟩ (by decide) (fun m hm hu => by
      have := suffix_of_any hu
      clear hu
      revert m
      decide)

/-- C05: two end so, both by their last token. -/
example : scopeDictGet scopeSeparator scopes (some (s% "put")) = .error .valueError :=
  (C05_ambiguous scopeSeparator scopes (by simp [Dict.NodupKeys, Dict.keys, scopes]) (s% "put") (by decide)
    (s% "b!##!put") (s% "c!##!put") (by decide) (by decide) (by decide) ⟨s% "b!##!", rfl⟩ ⟨s% "c!##!", rfl⟩).2
    (fun ⟨m, _, _, h⟩ => by
      have h1 := h (s% "b!##!put") (by decide) ⟨s% "b!##!", rfl⟩ (by decide)
      have h2 := h (s% "c!##!put") (by decide) ⟨s% "c!##!", rfl⟩ (by decide)
      exact absurd (h1.trans h2.symm) (by decide))

/-- C05: none does. -/
example : scopeDictGet scopeSeparator scopes (some (s% "post")) = .error .keyError :=
  C05_none _ _ _ (fun m hm hu => by
    have := suffix_of_any hu
    clear hu
    revert m
    decide)

example : scopeDictKey scopeSeparator [some (s% "a"), some (s% "get")] = .ok (some (s% "a!##!get")) :=
  (C05_tuple scopeSeparator (s% "a") (s% "get") (by decide) (by decide)).1

theorem exampleRefHeap_closed : ∀ x ∈ [0, 1, 2, 3, 4], ∀ y, refersTo exampleRefHeap x = some y → y ∈ [0, 1, 2, 3, 4] := by
  intro x hx y hy
  simp at hx
  rcases hx with rfl | rfl | rfl | rfl | rfl <;> simp [refersTo, exampleRefHeap] at hy <;>
    subst hy <;> simp

/-- C06: a chain that ends and one that does not. -/
example : (deref exampleRefHeap 5 0).isSome = true :=
  C06_deref_terminates _ [0, 1, 2, 3, 4] exampleRefHeap_closed 0 (by decide) 5 (by decide)

example : ∃ n, chain (refersTo exampleRefHeap) 3 n = some 4 ∧ refersTo exampleRefHeap 4 = none :=
  (C06_deref_ok_iff _ [0, 1, 2, 3, 4] exampleRefHeap_closed 3 (by decide) 5 (by decide) 4).1 (by decide)

example : ∃ i j x, i < j ∧ chain (refersTo exampleRefHeap) 0 i = some x ∧ chain (refersTo exampleRefHeap) 0 j = some x :=
  (C06_deref_cycle_iff _ [0, 1, 2, 3, 4] exampleRefHeap_closed 0 (by decide) 5 (by decide)).1 (by decide)

example : Err.cycle = Err.cycle :=
  C06_deref_no_other_error _ [0, 1, 2, 3, 4] exampleRefHeap_closed 0 (by decide) 5 (by decide) .cycle (by decide)

/-- C14: two of the keys. -/
example : getSwaggerVersion [(s% "openapi", .str (s% "3.0.0")), (s% "swagger", .str (s% "2.0"))] = .str (s% "2.0") :=
  ((C14_version_detection _).2 rfl).1 _ rfl

example : getSwaggerVersion [(s% "openapi", .str (s% "3.0.0"))] = .str (s% "3.0.0") :=
  (((C14_version_detection _).2 rfl).2 rfl).1 _ rfl

end Pyopenapi
