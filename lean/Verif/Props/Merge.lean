import Verif.Model.Ops
import Verif.Lemmas.Tables
import Verif.Lemmas.Dump

/-!
# C28: merge_children
-/

namespace Pyopenapi
open Spec
variable {T : Table}

/-- `getattr(o, k)` for a declared child, `none` when it is `None`. -/
def Spec.childOf : Obj → Str → Option Obj
  | .base _ _ _ kids, k => Dict.get? kids k
  | _, _ => none

/-- A child that counts as missing: `None`, an empty list or map, or the raw `false`. -/
def Spec.Gap : Option Obj → Prop
  | none => True
  | some o => o.truthy = false

instance : ∀ o, Decidable (Spec.Gap o)
  | none => isTrue trivial
  | some o => inferInstanceAs (Decidable (o.truthy = false))

/-- What a child should be after a merge. -/
def Spec.merged (mine theirs : Option Obj) : Option Obj :=
  if Spec.Gap mine then (if Spec.Gap theirs then mine else theirs) else mine

theorem gap_none : Spec.Gap none := trivial
theorem gap_some {o : Obj} : Spec.Gap (some o) ↔ o.truthy = false := Iff.rfl

theorem mergeStep_eq {get : Str → R Obj} {kids kids' : Dict Obj} {k : Str} {theirs : Option Obj}
    (hget : get k = .ok (theirs.getD (.prim .null))) :
    Obj.mergeStep get kids k = .ok kids' ↔
      if Spec.Gap (Dict.get? kids k) ∧ ¬ Spec.Gap theirs then
        ∃ o, theirs = some o ∧ o.isPrim = false ∧ kids' = Dict.set kids k o
      else kids' = kids := by
  have hfill : Obj.mergeStep.fill get kids k = .ok kids' ↔
      if ¬ Spec.Gap theirs then ∃ o, theirs = some o ∧ o.isPrim = false ∧ kids' = Dict.set kids k o
      else kids' = kids := by
    simp only [Obj.mergeStep.fill, hget, bind, Except.bind]
    cases theirs with
    | none =>
      have h1 : (Obj.prim Json.null).truthy = false := rfl
      simp only [Option.getD_none, h1, Bool.false_eq_true, if_false, gap_none, not_true_eq_false,
        Except.ok.injEq]
      exact eq_comm
    | some o =>
      simp only [Option.getD_some, Obj.setKid, gap_some]
      by_cases ht : o.truthy = true
      · simp only [ht, if_true, Bool.true_eq_false, not_false_eq_true]
        cases hp : o.isPrim
        · constructor
          · intro h; simp at h; exact ⟨o, rfl, hp, h.symm⟩
          · rintro ⟨o', h1, _, h3⟩; cases h1; rw [h3]; rfl
        · constructor
          · intro h; simp at h
          · rintro ⟨o', h1, h2, _⟩; cases h1; rw [hp] at h2; cases h2
      · have ht : o.truthy = false := by simpa using ht
        simp only [ht, Bool.false_eq_true, if_false, not_true_eq_false, Except.ok.injEq]
        exact eq_comm
  unfold Obj.mergeStep
  cases hk : Dict.get? kids k with
  | none =>
    simp only
    rw [hfill]
    by_cases hg : Spec.Gap theirs
    · simp [hg]
    · simp [hg, gap_none]
  | some o =>
    simp only
    by_cases ht : o.truthy = true
    · rw [if_pos ht, if_neg (fun h => by rw [gap_some, ht] at h; simp at h)]
      simp [eq_comm]
    · rw [if_neg ht, hfill]
      have : Spec.Gap (some o) := gap_some.2 (by simpa using ht)
      by_cases hg : Spec.Gap theirs
      · simp [hg]
      · simp [hg, this]

/-- What the loop does, over any list of distinct names. -/
theorem merge_loop {get : Str → R Obj} {their : Str → Option Obj} {names : List Str}
    (hn : names.Nodup) (hget : ∀ k ∈ names, get k = .ok ((their k).getD (.prim .null))) {kids : Dict Obj} :
    ((∃ kids', names.foldlM (Obj.mergeStep get) kids = .ok kids') ↔
      ∀ k ∈ names, Spec.Gap (Dict.get? kids k) → ∀ j, their k = some (.prim j) → j.truthy = false) ∧
    (∀ kids', names.foldlM (Obj.mergeStep get) kids = .ok kids' →
      (∀ k ∈ names, Dict.get? kids' k = Spec.merged (Dict.get? kids k) (their k)) ∧
      (∀ k, k ∉ names → Dict.get? kids' k = Dict.get? kids k)) := by
  induction names generalizing kids with
  | nil =>
    simp only [List.foldlM, pure, Except.pure]
    simp
  | cons n names ih =>
    obtain ⟨hn1, hn2⟩ := List.nodup_cons.1 hn
    have hstep := fun kids' => mergeStep_eq (kids := kids) (kids' := kids') (hget n (by simp))
    have hget' : ∀ k ∈ names, get k = .ok ((their k).getD (.prim .null)) := fun k hk => hget k (by simp [hk])
    by_cases hc : Spec.Gap (Dict.get? kids n) ∧ ¬ Spec.Gap (their n)
    · simp only [hc, if_true, not_false_eq_true, and_self] at hstep
      cases hth : their n with
      | none => rw [hth] at hc; exact absurd trivial hc.2
      | some o =>
        rw [hth] at hc
        by_cases hp : o.isPrim = false
        · have hs : Obj.mergeStep get kids n = .ok (Dict.set kids n o) := (hstep _).2 ⟨o, hth, hp, rfl⟩
          simp only [List.foldlM_cons, hs, bind, Except.bind]
          obtain ⟨h1, h2⟩ := ih hn2 hget' (kids := Dict.set kids n o)
          have hne : ∀ k ∈ names, n ≠ k := fun k hk h => hn1 (h ▸ hk)
          refine ⟨?_, ?_⟩
          · rw [h1]
            constructor
            · intro h k hk hg j hj
              rcases List.mem_cons.1 hk with rfl | hk
              · rw [hth] at hj; cases hj; simp [Obj.isPrim] at hp
              · exact h k hk (by rw [Dict.get?_set_ne _ _ (hne k hk)]; exact hg) j hj
            · intro h k hk hg j hj
              rw [Dict.get?_set_ne _ _ (hne k hk)] at hg
              exact h k (by simp [hk]) hg j hj
          · intro kids' hk'
            obtain ⟨ha, hb⟩ := h2 kids' hk'
            refine ⟨?_, ?_⟩
            · intro k hk
              rcases List.mem_cons.1 hk with rfl | hk
              · rw [hb k hn1, Dict.get?_set_self, hth, Spec.merged, if_pos hc.1, if_neg hc.2]
              · rw [ha k hk, Dict.get?_set_ne _ _ (hne k hk)]
            · intro k hk
              simp only [List.mem_cons, not_or] at hk
              rw [hb k hk.2, Dict.get?_set_ne _ _ (Ne.symm hk.1)]
        · have hp : o.isPrim = true := by simpa using hp
          have hs : ∀ kids', Obj.mergeStep get kids n ≠ .ok kids' := by
            intro kids' h
            obtain ⟨o', h1, h2, _⟩ := (hstep kids').1 h
            rw [hth] at h1; cases h1; rw [hp] at h2; cases h2
          have hf : ∀ kids', (n :: names).foldlM (Obj.mergeStep get) kids ≠ .ok kids' := by
            intro kids' h
            simp only [List.foldlM_cons, bind, Except.bind] at h
            split at h
            · cases h
            · rename_i x hx; exact hs x hx
          refine ⟨⟨fun ⟨kids', h⟩ => absurd h (hf kids'), ?_⟩, fun kids' h => absurd h (hf kids')⟩
          intro h
          exfalso
          cases o with
          | prim j =>
            have := h n (by simp) hc.1 j hth
            exact hc.2 this
          | _ => simp [Obj.isPrim] at hp
    · simp only [hc, if_false] at hstep
      have hs : Obj.mergeStep get kids n = .ok kids := (hstep _).2 rfl
      simp only [List.foldlM_cons, hs, bind, Except.bind]
      obtain ⟨h1, h2⟩ := ih hn2 hget' (kids := kids)
      refine ⟨?_, ?_⟩
      · rw [h1]
        constructor
        · intro h k hk hg j hj
          rcases List.mem_cons.1 hk with rfl | hk
          · have : Spec.Gap (their k) := by
              by_cases hg' : Spec.Gap (their k)
              · exact hg'
              · exact absurd ⟨hg, hg'⟩ hc
            rw [hj] at this; exact this
          · exact h k hk hg j hj
        · intro h k hk hg j hj
          exact h k (by simp [hk]) hg j hj
      · intro kids' hk'
        obtain ⟨ha, hb⟩ := h2 kids' hk'
        refine ⟨?_, ?_⟩
        · intro k hk
          rcases List.mem_cons.1 hk with rfl | hk
          · rw [hb k hn1, Spec.merged]
            by_cases hg : Spec.Gap (Dict.get? kids k)
            · rw [if_pos hg, if_pos]
              by_cases hg' : Spec.Gap (their k)
              · exact hg'
              · exact absurd ⟨hg, hg'⟩ hc
            · rw [if_neg hg]
          · exact ha k hk
        · intro k hk
          simp only [List.mem_cons, not_or] at hk
          exact hb k hk.2

theorem attr_child {c : Str} {p : Option Str} {s : Json} {kids : Dict Obj} {k : Str}
    (hk : Dict.has (T c).children k = true) :
    Obj.attr T (.base c p s kids) k = .ok ((Spec.childOf (.base c p s kids) k).getD (.prim .null)) := by
  simp [Obj.attr, Obj.getattr, hk, Spec.childOf]

/-- C28: after `a.merge_children(b)`, for two objects of one class: same class, path and document; each
declared child is `a`'s own if `a` had one, else `b`'s; nothing else changes.  It fails exactly when
the raw value `true` (additionalProperties) would have to be copied into a gap. -/
theorem C28_merge (hT : OkTable T) {c : Str} {p p' : Option Str} {s s' : Json} {kids kids' : Dict Obj} :
    ((∃ a', Obj.mergeChildren T (.base c p s kids) (.base c p' s' kids') = .ok a') ↔
      ∀ k ∈ Dict.keys (T c).children, Spec.Gap (Dict.get? kids k) →
        ∀ j, Dict.get? kids' k = some (.prim j) → j.truthy = false) ∧
    (∀ a', Obj.mergeChildren T (.base c p s kids) (.base c p' s' kids') = .ok a' →
      ∃ kids1, a' = .base c p s kids1 ∧
        (∀ k ∈ Dict.keys (T c).children,
          Dict.get? kids1 k = Spec.merged (Dict.get? kids k) (Dict.get? kids' k)) ∧
        (∀ k, k ∉ Dict.keys (T c).children → Dict.get? kids1 k = Dict.get? kids k)) := by
  have hn : (Dict.keys (T c).children).Nodup := (hT.cls c).children
  obtain ⟨h1, h2⟩ := merge_loop (get := Obj.attr T (.base c p' s' kids')) (their := fun k => Dict.get? kids' k) hn
    (fun k hk => attr_child (Dict.has_iff.2 hk)) (kids := kids)
  constructor
  · rw [← h1]
    simp only [Obj.mergeChildren, bind, Except.bind]
    constructor
    · rintro ⟨a', h⟩
      split at h
      · simp at h
      · rename_i k hk; exact ⟨k, hk⟩
    · rintro ⟨k, hk⟩
      rw [hk]; exact ⟨_, rfl⟩
  · intro a' h
    simp only [Obj.mergeChildren, bind, Except.bind] at h
    split at h
    · simp at h
    · rename_i k hk
      simp only [Except.ok.injEq] at h
      subst h
      exact ⟨k, rfl, h2 k hk⟩

theorem merged_gap {a b : Option Obj} (h : ¬ Spec.Gap a) : Spec.merged a b = a := by
  simp [Spec.merged, h]

/-- C28: what `a` had stays, what it lacked comes from `b` when `b` has it. -/
theorem C28_keeps_and_fills (hT : OkTable T) {c : Str} {p p' : Option Str} {s s' : Json} {kids kids' : Dict Obj}
    {a' : Obj} (h : Obj.mergeChildren T (.base c p s kids) (.base c p' s' kids') = .ok a') {k : Str}
    (hk : Dict.has (T c).children k = true) :
    (∀ o, Spec.childOf (.base c p s kids) k = some o → o.truthy = true → Spec.childOf a' k = some o) ∧
    (∀ o, Spec.Gap (Spec.childOf (.base c p s kids) k) → Spec.childOf (.base c p' s' kids') k = some o →
      o.truthy = true → Spec.childOf a' k = some o) := by
  obtain ⟨kids1, rfl, h1, _⟩ := (C28_merge hT).2 a' h
  have := h1 k (Dict.has_iff.1 hk)
  simp only [Spec.childOf]
  rw [this]
  constructor
  · intro o ho ht
    rw [merged_gap (by rw [ho]; simp [Spec.Gap, ht]), ho]
  · intro o hg ho ht
    rw [Spec.merged, if_pos hg, ho, if_neg (by simp [Spec.Gap, ht])]

/-- C28: merging once more changes nothing. -/
theorem C28_idempotent (hT : OkTable T) {c : Str} {p p' : Option Str} {s s' : Json} {kids kids' : Dict Obj}
    {a' : Obj} (h : Obj.mergeChildren T (.base c p s kids) (.base c p' s' kids') = .ok a') :
    Obj.mergeChildren T a' (.base c p' s' kids') = .ok a' := by
  obtain ⟨kids1, rfl, h1, _⟩ := (C28_merge hT).2 a' h
  -- no step of the second merge changes anything
  have hstep : ∀ names : List Str, (∀ k ∈ names, k ∈ Dict.keys (T c).children) →
      names.foldlM (Obj.mergeStep (Obj.attr T (.base c p' s' kids'))) kids1 = .ok kids1 := by
    intro names
    induction names with
    | nil => intro _; rfl
    | cons n names ih =>
      intro hm
      have hmn := hm n (by simp)
      have hs : Obj.mergeStep (Obj.attr T (.base c p' s' kids')) kids1 n = .ok kids1 := by
        rw [mergeStep_eq (theirs := Dict.get? kids' n) (attr_child (Dict.has_iff.2 hmn)), if_neg]
        rw [h1 n hmn]
        unfold Spec.merged
        by_cases hg : Spec.Gap (Dict.get? kids n)
        · by_cases hg' : Spec.Gap (Dict.get? kids' n)
          · simp [hg']
          · simp [hg, hg']
        · simp [hg]
      simp only [List.foldlM_cons, hs, bind, Except.bind]
      exact ih (fun k hk => hm k (by simp [hk]))
  simp only [Obj.mergeChildren, hstep _ (fun k hk => hk), bind, Except.bind]

/-- C28: an object of another class that lacks a child of `a`'s class makes the merge raise. -/
theorem C28_other_class_raises :
    (Obj.mergeChildren pkg (.base (s% "v2_0.PathItem") none (.obj []) [])
      (.base (s% "v2_0.Info") none (.obj []) [])).map Obj.path? = .error .attributeError := by decide +kernel

/-- Instance: a path item with `get` merged with one that has `get` and `put`; and the raising case. -/
example : ((build pkg (.cls (s% "v2_0.PathItem")) (.obj [(s% "get", .obj [(s% "summary", .str (s% "mine"))])]) none []).bind
    (fun a => (build pkg (.cls (s% "v2_0.PathItem")) (.obj [(s% "get", .obj []),
        (s% "put", .obj [(s% "summary", .str (s% "theirs"))])]) none []).bind
      (fun b => (Obj.mergeChildren pkg a b).bind (Obj.dump pkg)))) =
    .ok (.obj [(s% "get", .obj [(s% "summary", .str (s% "mine"))]),
      (s% "put", .obj [(s% "summary", .str (s% "theirs"))])]) := by decide +kernel

example : ((build pkg (.cls (s% "v2_0.Schema")) (.obj []) none []).bind
    (fun a => (build pkg (.cls (s% "v2_0.Schema")) (.obj [(s% "additionalProperties", .bool true)]) none []).bind
      (fun b => (Obj.mergeChildren pkg a b).bind (Obj.dump pkg)))) = .error .generic := by decide +kernel

/-- `attach_child` sets that child and no other, and accepts declared children only. -/
theorem C28_attach_child {c : Str} {p : Option Str} {s : Json} {kids : Dict Obj} {k : Str} {o a' : Obj} :
    Obj.attachChild T (.base c p s kids) k o = .ok a' ↔
      Dict.has (T c).children k = true ∧ o.isPrim = false ∧ a' = .base c p s (Dict.set kids k o) := by
  simp only [Obj.attachChild, Obj.setKid, bind, Except.bind]
  cases Dict.has (T c).children k <;> cases o.isPrim <;> simp [eq_comm]

end Pyopenapi
