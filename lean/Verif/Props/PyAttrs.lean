import Verif.Model.PyAttrs
import Verif.Props.Resolve
import Verif.Lemmas.ObjEq

/-!
# C25: tokens that are names of Python attributes
-/

namespace Pyopenapi
open Spec Obj

variable {special : Str → Str → Bool}

/-- Tokens that name an attribute of a Python object that no document declares: one with another name, a method, a variable. -/
def PythonName (special : Str → Str → Bool) (t : Str) : Prop :=
  (∃ c rs, (c, rs) ∈ renames ∧ t ∈ Dict.keys rs) ∨ t = s% "spec" ∨ t = s% "children" ∨ t ∈ methods ∨
    ∃ c, t ∈ hiddenNames c ∨ special c t = true

theorem renamed_none {c t : Str} (h : ¬ ∃ c rs, (c, rs) ∈ renames ∧ t ∈ Dict.keys rs) :
    Dict.get? ((Dict.get? renames c).getD []) t = none := by
  cases hg : Dict.get? renames c with
  | none => rfl
  | some rs =>
    rw [Option.getD_some, Dict.get?_eq_none_iff]
    exact fun hk => h ⟨c, rs, Dict.mem_of_get? hg, hk⟩

/-- **C25**: what `resolve` finds among the declared names (as C25_resolve says) it finds, whatever other attributes there
are. -/
theorem C25_declared_first (ts : List Str) : ∀ o x : Obj, Obj.resolve pkg ts o = .ok x → resolvePy special ts o = .ok (.obj x) := by
  induction ts with
  | nil => intro o x h; cases o <;> cases h <;> rfl
  | cons t ts ih =>
    intro o x h
    cases o with
    | prim j => cases h
    | base c p spec kids =>
      simp only [Obj.resolve, bind, Except.bind] at h
      have hd : Dict.has (pkg c).children t ∨ Dict.has (pkg c).fields t := by
        by_cases h1 : Dict.has (pkg c).children t = true
        · exact .inl h1
        · right
          cases hf : Dict.get? (pkg c).fields t with
          | some fd => simp [Dict.has, hf]
          | none =>
            have : getattr pkg c spec kids t = .error .attributeError := by
              unfold getattr
              rw [if_neg h1]
              simp only [hf]
            rw [this] at h; cases h
      rw [resolvePy.eq_def]
      dsimp only
      simp only [if_pos hd, bind, Except.bind]
      cases hg : getattr pkg c spec kids t with
      | error e => rw [hg] at h; cases h
      | ok y =>
        rw [hg] at h
        dsimp only at h ⊢
        cases y with
        | prim j =>
          dsimp only at h ⊢
          cases hr : resolvePrim j ts with
          | error e => rw [hr] at h; cases h
          | ok v => rw [hr] at h; cases h; rfl
        | base => exact ih _ _ h
        | list => exact ih _ _ h
        | map => exact ih _ _ h
    | list b p spec l =>
      simp only [Obj.resolve, bind, Except.bind] at h
      rw [resolvePy.eq_def]
      dsimp only
      simp only [bind, Except.bind]
      cases hi : pyInt t with
      | error e => rw [hi] at h; cases h
      | ok i =>
        rw [hi] at h
        dsimp only at h ⊢
        cases hx : pyIndex l i with
        | error e => rw [hx] at h; cases h
        | ok y =>
          rw [hx] at h
          cases y with
          | prim => cases h
          | base => exact ih _ _ h
          | list => exact ih _ _ h
          | map => exact ih _ _ h
    | map b p spec d =>
      simp only [Obj.resolve, bind, Except.bind] at h
      rw [resolvePy.eq_def]
      dsimp only
      simp only [bind, Except.bind]
      cases hx : Dict.get! d t with
      | error e => rw [hx] at h; cases h
      | ok y =>
        rw [hx] at h
        cases y with
        | prim => cases h
        | base => exact ih _ _ h
        | list => exact ih _ _ h
        | map => exact ih _ _ h

/-- **C25**: an undeclared name raises, if it is no name of a Python attribute either. -/
theorem C25_nothing_raises {c : Str} {p : Option Str} {spec : Json} {kids : Dict Obj} {t : Str} {ts : List Str}
    (hc : t ∉ Dict.keys (pkg c).children) (hf : t ∉ Dict.keys (pkg c).fields) (hp : ¬ PythonName special t) :
    resolvePy special (t :: ts) (.base c p spec kids) = .error .attributeError := by
  rw [resolvePy.eq_def]
  dsimp only
  have h1 : ¬ (Dict.has (pkg c).children t = true ∨ Dict.has (pkg c).fields t = true) := by
    simp [Dict.has, Dict.get?_eq_none_iff.2 hc, Dict.get?_eq_none_iff.2 hf]
  simp only [if_neg h1, renamed_none (fun h => hp (.inl h))]
  rw [if_neg (fun h => hp (.inr (.inl h))), if_neg (fun h => hp (.inr (.inr (.inl h)))),
    if_neg (fun h => hp (.inr (.inr (.inr (.inl h))))), if_neg (fun h => hp (.inr (.inr (.inr (.inr ⟨c, h⟩)))))]

/-- Tokens none of which is the name of a Python attribute lead to what they lead to among the declared names, and raise
where these do: what is said of `resolve` elsewhere is said of such tokens. -/
theorem C25_without_python_names (ts : List Str) (hp : ∀ t ∈ ts, ¬ PythonName special t) :
    ∀ o : Obj, resolvePy special ts o = (Obj.resolve pkg ts o).map .obj := by
  induction ts with
  | nil => intro o; cases o <;> rfl
  | cons t ts ih =>
    have ih := ih (fun u hu => hp u (List.mem_cons_of_mem _ hu))
    intro o
    cases o with
    | prim j => rfl
    | base c p spec kids =>
      by_cases hd : Dict.has (pkg c).children t = true ∨ Dict.has (pkg c).fields t = true
      · rw [resolvePy.eq_def]
        dsimp only
        simp only [if_pos hd, Obj.resolve, bind, Except.bind]
        cases hg : getattr pkg c spec kids t with
        | error e => rfl
        | ok y =>
          dsimp only
          cases y with
          | prim j => dsimp only; cases resolvePrim j ts <;> rfl
          | base => exact ih _
          | list => exact ih _
          | map => exact ih _
      · have h1 : Dict.get? (pkg c).children t = none := by
          cases h : Dict.get? (pkg c).children t with
          | none => rfl
          | some _ => exact absurd (.inl (by simp [Dict.has, h])) hd
        have h2 : Dict.get? (pkg c).fields t = none := by
          cases h : Dict.get? (pkg c).fields t with
          | none => rfl
          | some _ => exact absurd (.inr (by simp [Dict.has, h])) hd
        rw [C25_nothing_raises (Dict.get?_eq_none_iff.1 h1) (Dict.get?_eq_none_iff.1 h2) (hp t (by simp))]
        simp [Obj.resolve, getattr, Dict.has, h1, h2, bind, Except.bind, Except.map]
    | list b p spec l =>
      simp only [resolvePy, Obj.resolve, bind, Except.bind]
      cases pyInt t with
      | error e => rfl
      | ok i =>
        dsimp only
        cases pyIndex l i with
        | error e => rfl
        | ok y =>
          cases y with
          | prim => rfl
          | base => exact ih _
          | list => exact ih _
          | map => exact ih _
    | map b p spec d =>
      simp only [resolvePy, Obj.resolve, bind, Except.bind]
      cases Dict.get! d t with
      | error e => rfl
      | ok y =>
        cases y with
        | prim => rfl
        | base => exact ih _
        | list => exact ih _
        | map => exact ih _

theorem methods_undeclared : classes.all (fun q => methods.all (fun n => !(Dict.has (pkg q.1).children n) && !(Dict.has (pkg q.1).fields n) &&
    (Dict.get? ((Dict.get? renames q.1).getD []) n).isNone)) = true := by
  decide +kernel

/-- **C25** (violation): the name of a method does not raise: for every object of every class `resolve` gives the method, and
ignores the tokens after it. -/
theorem C25_method_violation {c : Str} (hc : c ∈ Dict.keys classes) {p : Option Str} {spec : Json} {kids : Dict Obj} {n : Str}
    (hn : n ∈ methods) (ts : List Str) : resolvePy special (n :: ts) (.base c p spec kids) = .ok (.method n) := by
  obtain ⟨⟨c', cd⟩, hm, rfl⟩ := List.mem_map.1 hc
  have h := List.all_eq_true.1 (List.all_eq_true.1 methods_undeclared _ hm) n hn
  simp only [Bool.and_eq_true, Bool.not_eq_true', Option.isNone_iff_eq_none] at h
  obtain ⟨⟨h1, h2⟩, h3⟩ := h
  rw [resolvePy.eq_def]
  dsimp only
  have hne : n ≠ s% "spec" ∧ n ≠ s% "children" := by
    have : ∀ m ∈ methods, m ≠ s% "spec" ∧ m ≠ s% "children" := by decide
    exact this n hn
  simp only [h1, h2, h3, Bool.false_eq_true, or_self, if_false, if_neg hne.1, if_neg hne.2, if_pos hn]

/-- **C25** (violation): attributes with another name are found as well: `#/…/ref` is the `$ref` of a schema. -/
theorem C25_renamed_violation {c name key : Str} {p : Option Str} {spec : Json} {kids : Dict Obj}
    (hc : Dict.has (pkg c).children name = false) (hf : Dict.has (pkg c).fields name = false)
    (hr : Dict.get? ((Dict.get? renames c).getD []) name = some key)
    (hk : Dict.has (pkg c).children key = true ∨ Dict.has (pkg c).fields key = true) (ts : List Str) :
    resolvePy special (name :: ts) (.base c p spec kids) = resolvePy special (key :: ts) (.base c p spec kids) := by
  rw [resolvePy.eq_def, resolvePy.eq_def]
  dsimp only
  simp only [hc, hf, Bool.false_eq_true, or_self, if_false, hr, if_pos hk]

/-- Instances: a method, a name in Python style, and a name that is nothing, of a schema of 2.0. -/
theorem C25_python_example : ∃ o, build pkg (.cls (s% "v2_0.Schema")) (.obj [(s% "$ref", .str (s% "#/definitions/A"))]) none [] = .ok o ∧
    resolvePy special [s% "dump", s% "a"] o = .ok (.method (s% "dump")) ∧
    resolvePy special [s% "ref"] o = .ok (.obj (.prim (.str (s% "#/definitions/A")))) ∧
    resolvePy (fun _ _ => false) [s% "nothing"] o = .error .attributeError := by
  refine ⟨.base (s% "v2_0.Schema") none (.obj [(s% "$ref", .str (s% "#/definitions/A"))]) [], by decide +kernel, ?_, ?_, ?_⟩
  · exact C25_method_violation (by decide +kernel) (by decide) _
  · rw [C25_renamed_violation (key := s% "$ref") (by decide +kernel) (by decide +kernel) (by decide +kernel) (by decide +kernel)]
    exact C25_declared_first _ _ _ (by decide +kernel)
  · exact C25_nothing_raises (by decide +kernel) (by decide +kernel) (by
      rintro (⟨c, rs, hm, ht⟩ | h | h | h | ⟨c, h | h⟩)
      · have key : renames.all (fun q => decide (s% "nothing" ∉ Dict.keys q.2)) = true := by decide +kernel
        exact absurd ht (of_decide_eq_true (List.all_eq_true.1 key _ hm))
      · exact absurd h (by decide)
      · exact absurd h (by decide)
      · exact absurd h (by decide)
      · unfold hiddenNames at h
        rcases List.mem_append.1 h with h | h
        · rcases List.mem_append.1 h with h | h
          · exact absurd h (by decide)
          · split at h
            · exact absurd h (by decide)
            · cases h
        · split at h
          · exact absurd h (by decide)
          · cases h
      · cases h)

end Pyopenapi
