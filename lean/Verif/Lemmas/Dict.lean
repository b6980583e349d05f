import Verif.Base.Dict
import Batteries.Data.List.Basic

set_option linter.unusedSectionVars false

namespace Pyopenapi.Dict
variable {κ α : Type} [DecidableEq κ]

@[simp] theorem get?_nil (k : κ) : get? ([] : DictK κ α) k = none := rfl

theorem get?_cons (k' : κ) (v : α) (d : DictK κ α) (k : κ) :
    get? ((k', v) :: d) k = if k' = k then some v else get? d k := rfl

theorem get?_set (d : DictK κ α) (k k' : κ) (v : α) :
    get? (set d k v) k' = if k = k' then some v else get? d k' := by
  induction d with
  | nil => simp [set, get?]
  | cons p d ih =>
    obtain ⟨a, b⟩ := p
    simp only [set]
    split
    · rename_i h; subst h; simp only [get?]; split <;> simp_all
    · rename_i h
      simp only [get?, ih]
      split
      · rename_i h2; subst h2; rw [if_neg (Ne.symm h)]
      · rfl

theorem get?_set_self (d : DictK κ α) (k : κ) (v : α) : get? (set d k v) k = some v := by
  simp [get?_set]

theorem get?_set_ne (d : DictK κ α) {k k' : κ} (v : α) (h : k ≠ k') :
    get? (set d k v) k' = get? d k' := by
  simp [get?_set, h]

theorem mem_of_get? {d : DictK κ α} {k : κ} {v : α} (h : get? d k = some v) : (k, v) ∈ d := by
  induction d with
  | nil => simp at h
  | cons p d ih =>
    obtain ⟨a, b⟩ := p
    simp only [get?] at h
    split at h
    · rename_i h'; subst h'; simp at h; subst h; simp
    · exact List.mem_cons_of_mem _ (ih h)

theorem get?_isSome_iff {d : DictK κ α} {k : κ} : (get? d k).isSome = true ↔ k ∈ keys d := by
  induction d with
  | nil => simp [keys]
  | cons p d ih =>
    obtain ⟨a, b⟩ := p
    simp only [get?, keys, List.map_cons, List.mem_cons]
    split
    · rename_i h; simp [h]
    · rename_i h
      rw [ih]
      simp [keys, Ne.symm h]

theorem get?_eq_none_iff {d : DictK κ α} {k : κ} : get? d k = none ↔ k ∉ keys d := by
  rw [← get?_isSome_iff]
  cases get? d k <;> simp

theorem has_iff {d : DictK κ α} {k : κ} : has d k = true ↔ k ∈ keys d := get?_isSome_iff

theorem get?_of_mem {d : DictK κ α} {k : κ} {v : α} (hn : NodupKeys d) (h : (k, v) ∈ d) :
    get? d k = some v := by
  induction d with
  | nil => simp at h
  | cons p d ih =>
    obtain ⟨a, b⟩ := p
    simp only [NodupKeys, keys, List.map_cons, List.nodup_cons] at hn
    rcases List.mem_cons.1 h with h | h
    · simp only [Prod.mk.injEq] at h
      obtain ⟨rfl, rfl⟩ := h
      simp [get?]
    · have : a ≠ k := by
        rintro rfl
        exact hn.1 (List.mem_map.2 ⟨_, h, rfl⟩)
      simp [get?, this, ih hn.2 h]

theorem get?_iff_mem {d : DictK κ α} (hn : NodupKeys d) {k : κ} {v : α} :
    get? d k = some v ↔ (k, v) ∈ d := ⟨mem_of_get?, get?_of_mem hn⟩

theorem keys_set (d : DictK κ α) (k : κ) (v : α) :
    keys (set d k v) = if k ∈ keys d then keys d else keys d ++ [k] := by
  induction d with
  | nil => simp [set, keys]
  | cons p d ih =>
    obtain ⟨a, b⟩ := p
    simp only [set]
    split
    · rename_i h; subst h; simp [keys]
    · rename_i h
      simp only [keys, List.map_cons, List.mem_cons] at ih ⊢
      rw [ih]
      simp only [Ne.symm h, false_or]
      by_cases hk : k ∈ List.map Prod.fst d <;> simp [hk]

theorem mem_keys_set {d : DictK κ α} {k k' : κ} {v : α} :
    k' ∈ keys (set d k v) ↔ k' = k ∨ k' ∈ keys d := by
  rw [keys_set]
  split
  · rename_i h
    constructor
    · exact Or.inr
    · rintro (rfl | h') <;> assumption
  · simp [or_comm]

theorem nodupKeys_set {d : DictK κ α} (h : NodupKeys d) (k : κ) (v : α) :
    NodupKeys (set d k v) := by
  unfold NodupKeys at *
  rw [keys_set]
  split
  · exact h
  · rename_i hk
    rw [List.nodup_append]
    refine ⟨h, by simp, ?_⟩
    intro a ha b hb
    simp at hb; subst hb
    rintro rfl; exact hk ha

@[simp] theorem nodupKeys_nil : NodupKeys ([] : DictK κ α) := by simp [NodupKeys, keys]

theorem nodupKeys_cons {k : κ} {v : α} {d : DictK κ α} :
    NodupKeys ((k, v) :: d) ↔ k ∉ keys d ∧ NodupKeys d := by
  simp [NodupKeys, keys]

theorem update_cons (d : DictK κ α) (k : κ) (v : α) (e : DictK κ α) :
    update d ((k, v) :: e) = update (set d k v) e := rfl

@[simp] theorem update_nil (d : DictK κ α) : update d [] = d := rfl

theorem nodupKeys_update {d : DictK κ α} (h : NodupKeys d) (e : DictK κ α) :
    NodupKeys (update d e) := by
  induction e generalizing d with
  | nil => exact h
  | cons p e ih => exact ih (nodupKeys_set h _ _)

/-- `d.update(e)`: `e`'s entries win (its last one for a repeated key). -/
theorem get?_update {d e : DictK κ α} (hn : NodupKeys e) (k : κ) :
    get? (update d e) k = (get? e k).or (get? d k) := by
  induction e generalizing d with
  | nil => simp
  | cons p e ih =>
    obtain ⟨a, b⟩ := p
    rw [nodupKeys_cons] at hn
    rw [update_cons, ih hn.2, get?_set, get?]
    by_cases h : a = k
    · subst h
      simp [get?_eq_none_iff.2 hn.1]
    · simp [h]

theorem get?_erase {d : DictK κ α} (hn : NodupKeys d) (k k' : κ) :
    get? (erase d k) k' = if k = k' then none else get? d k' := by
  induction d with
  | nil => simp [erase]
  | cons p d ih =>
    obtain ⟨a, b⟩ := p
    rw [nodupKeys_cons] at hn
    simp only [erase]
    split
    · rename_i h; subst h
      split
      · rename_i h2; subst h2; exact get?_eq_none_iff.2 hn.1
      · rename_i h2; simp [get?, h2]
    · rename_i h
      simp only [get?, ih hn.2]
      split
      · rename_i h2; subst h2; simp [Ne.symm h]
      · rfl

theorem keys_erase_sub {d : DictK κ α} {k k' : κ} (h : k' ∈ keys (erase d k)) : k' ∈ keys d := by
  induction d with
  | nil => simpa [erase] using h
  | cons p d ih =>
    obtain ⟨a, b⟩ := p
    simp only [erase] at h
    split at h
    · simp [keys] at h ⊢; exact Or.inr h
    · simp only [keys, List.map_cons, List.mem_cons] at h ⊢
      rcases h with h | h
      · exact Or.inl h
      · exact Or.inr (ih h)

theorem nodupKeys_erase {d : DictK κ α} (hn : NodupKeys d) (k : κ) : NodupKeys (erase d k) := by
  induction d with
  | nil => simp [erase]
  | cons p d ih =>
    obtain ⟨a, b⟩ := p
    rw [nodupKeys_cons] at hn
    simp only [erase]
    split
    · exact hn.2
    · rw [nodupKeys_cons]
      exact ⟨fun h => hn.1 (keys_erase_sub h), ih hn.2⟩

theorem get!_ok {d : DictK κ α} {k : κ} {v : α} : get! d k = .ok v ↔ get? d k = some v := by
  unfold get!
  cases get? d k <;> simp

theorem get!_error {d : DictK κ α} {k : κ} : get! d k = .error .keyError ↔ k ∉ keys d := by
  unfold get!
  rw [← get?_eq_none_iff]
  cases get? d k <;> simp

theorem get?_map {β : Type} (f : κ → α → β) (d : DictK κ α) (k : κ) :
    get? (d.map (fun p => (p.1, f p.1 p.2))) k = (get? d k).map (f k) := by
  induction d with
  | nil => rfl
  | cons p d ih =>
    obtain ⟨a, b⟩ := p
    simp only [List.map_cons, get?]
    split
    · rename_i h; subst h; simp
    · exact ih

theorem get?_append (d e : DictK κ α) (k : κ) :
    get? (d ++ e) k = (get? d k).or (get? e k) := by
  induction d with
  | nil => simp
  | cons p d ih =>
    obtain ⟨a, b⟩ := p
    simp only [List.cons_append, get?]
    split <;> simp_all

theorem set_of_not_mem {d : DictK κ α} {k : κ} (v : α) (h : k ∉ keys d) :
    set d k v = d ++ [(k, v)] := by
  induction d with
  | nil => rfl
  | cons p d ih =>
    obtain ⟨a, b⟩ := p
    simp only [keys, List.map_cons, List.mem_cons, not_or] at h
    simp [set, Ne.symm h.1, ih h.2]

/-- `mapM` keeps keys and order, and succeeds exactly when every entry does. -/
theorem mapM_ok {β : Type} {f : κ → α → R β} {d : DictK κ α} {r : DictK κ β}
    (h : mapM f d = .ok r) : List.Forall₂ (fun p q => p.1 = q.1 ∧ f p.1 p.2 = .ok q.2) d r := by
  induction d generalizing r with
  | nil => simp [mapM] at h; subst h; exact .nil
  | cons p d ih =>
    obtain ⟨a, b⟩ := p
    simp only [mapM, bind, Except.bind, pure, Except.pure] at h
    split at h
    · simp at h
    · rename_i x hx
      split at h
      · simp at h
      · rename_i y hy
        simp only [Except.ok.injEq] at h
        subst h
        exact .cons ⟨rfl, hx⟩ (ih hy)

theorem mapM_of_forall₂ {β : Type} {f : κ → α → R β} {d : DictK κ α} {r : DictK κ β}
    (h : List.Forall₂ (fun p q => p.1 = q.1 ∧ f p.1 p.2 = .ok q.2) d r) : mapM f d = .ok r := by
  induction h with
  | nil => rfl
  | @cons p q d r hpq _ ih =>
    obtain ⟨a, b⟩ := p
    obtain ⟨c, e⟩ := q
    obtain ⟨h1, h2⟩ := hpq
    simp only at h1 h2
    subst h1
    simp [mapM, bind, Except.bind, pure, Except.pure, h2, ih]

theorem keys_of_forall₂ {β : Type} {P : κ × α → κ × β → Prop} {d : DictK κ α} {r : DictK κ β}
    (h : List.Forall₂ P d r) (hP : ∀ p q, P p q → p.1 = q.1) : keys d = keys r := by
  induction h with
  | nil => rfl
  | cons hpq _ ih =>
    simp only [keys, List.map_cons] at ih ⊢
    rw [ih, hP _ _ hpq]

theorem mapM_keys {β : Type} {f : κ → α → R β} {d : DictK κ α} {r : DictK κ β}
    (h : mapM f d = .ok r) : keys r = keys d :=
  (keys_of_forall₂ (mapM_ok h) (fun _ _ h => h.1)).symm

theorem get?_of_forall₂ {β : Type} {P : κ × α → κ × β → Prop} {d : DictK κ α} {r : DictK κ β}
    (h : List.Forall₂ P d r) (hP : ∀ p q, P p q → p.1 = q.1) (k : κ) :
    (get? d k = none ∧ get? r k = none) ∨
      ∃ v w, get? d k = some v ∧ get? r k = some w ∧ P (k, v) (k, w) := by
  induction h with
  | nil => simp
  | @cons p q d r hpq _ ih =>
    obtain ⟨a, b⟩ := p
    obtain ⟨c, e⟩ := q
    have := hP _ _ hpq
    simp only at this
    subst this
    simp only [get?]
    by_cases hk : a = k
    · subst hk
      simp only [if_true]
      exact Or.inr ⟨b, e, rfl, rfl, hpq⟩
    · simp only [if_neg hk]
      exact ih

theorem get?_mapM {β : Type} {f : κ → α → R β} {d : DictK κ α} {r : DictK κ β}
    (h : mapM f d = .ok r) (k : κ) :
    (get? d k = none ∧ get? r k = none) ∨
      ∃ v w, get? d k = some v ∧ get? r k = some w ∧ f k v = .ok w := by
  rcases get?_of_forall₂ (mapM_ok h) (fun _ _ h => h.1) k with h | ⟨v, w, h1, h2, _, h3⟩
  · exact Or.inl h
  · exact Or.inr ⟨v, w, h1, h2, h3⟩

theorem mapM_error {β : Type} {f : κ → α → R β} {d : DictK κ α} {e : Err}
    (h : mapM f d = .error e) : ∃ p ∈ d, f p.1 p.2 = .error e := by
  induction d with
  | nil => simp [mapM] at h
  | cons p d ih =>
    obtain ⟨a, b⟩ := p
    simp only [mapM, bind, Except.bind, pure, Except.pure] at h
    split at h
    · rename_i x hx
      simp only [Except.error.injEq] at h
      subst h
      exact ⟨(a, b), by simp, hx⟩
    · split at h
      · rename_i y hy
        simp only [Except.error.injEq] at h
        subst h
        obtain ⟨p, hp, hpe⟩ := ih hy
        exact ⟨p, by simp [hp], hpe⟩
      · simp at h

/-- What `collect` keeps. -/
def kept {β : Type} (f : κ → α → R (Option β)) (k : κ) (v : α) : Option β :=
  match f k v with
  | .ok (some o) => some o
  | _ => none

theorem collect_iff {β : Type} {f : κ → α → R (Option β)} {d : DictK κ α} {r : DictK κ β} :
    collect f d = .ok r ↔ (∀ p ∈ d, ∃ o, f p.1 p.2 = .ok o) ∧
      r = d.filterMap (fun p => (kept f p.1 p.2).map (fun o => (p.1, o))) := by
  induction d generalizing r with
  | nil => simp [collect, eq_comm]
  | cons p d ih =>
    obtain ⟨k, cd⟩ := p
    rw [collect]
    simp only [bind, Except.bind, List.mem_cons, forall_eq_or_imp, List.filterMap_cons, kept]
    cases hk : f k cd with
    | error e => simp
    | ok o =>
      simp only [Except.ok.injEq, exists_eq', true_and]
      cases hks : collect f d with
      | error e =>
        simp only [reduceCtorEq, false_iff]
        rintro ⟨h1, _⟩
        have := (ih (r := _)).2 ⟨h1, rfl⟩
        rw [hks] at this; simp at this
      | ok r =>
        obtain ⟨h1, h2⟩ := ih.1 hks
        simp only [kept] at h2
        cases o with
        | none => simp only [Except.ok.injEq, Option.map_none]; rw [← h2]; exact ⟨fun h => ⟨h1, h.symm⟩, fun h => h.2.symm⟩
        | some o => simp only [Except.ok.injEq, Option.map_some]; rw [← h2]; exact ⟨fun h => ⟨h1, h.symm⟩, fun h => h.2.symm⟩

theorem get?_filterMap {β : Type} {f : κ → α → Option β} {cs : DictK κ α} (hn : NodupKeys cs) (k : κ) :
    get? (cs.filterMap (fun p => (f p.1 p.2).map (fun o => (p.1, o)))) k = (get? cs k).bind (f k) := by
  induction cs with
  | nil => simp
  | cons p cs ih =>
    obtain ⟨k', cd⟩ := p
    rw [nodupKeys_cons] at hn
    rw [List.filterMap_cons, get?_cons]
    by_cases hk : k' = k
    · subst hk
      simp only [if_true, Option.bind_some]
      cases hf : f k' cd with
      | some o => simp [get?_cons]
      | none =>
        simp only [Option.map_none]
        rw [ih hn.2, get?_eq_none_iff.2 hn.1]; rfl
    · simp only [hk, if_false]
      cases hf : f k' cd with
      | some o => simp only [Option.map_some, get?_cons, hk, if_false]; exact ih hn.2
      | none => simp only [Option.map_none]; exact ih hn.2

/-- Lookup in what `collect` returns. -/
theorem get?_collect {β : Type} {f : κ → α → R (Option β)} {d : DictK κ α} {r : DictK κ β}
    (hn : NodupKeys d) (h : collect f d = .ok r) (k : κ) :
    get? r k = (get? d k).bind (kept f k) := by
  rw [(collect_iff.1 h).2, get?_filterMap hn]

theorem keys_filterMap_sub {β : Type} {f : κ → α → Option β} {d : DictK κ α} {k : κ}
    (h : k ∈ keys (d.filterMap (fun p => (f p.1 p.2).map (fun o => (p.1, o))))) : k ∈ keys d := by
  simp only [keys, List.mem_map, List.mem_filterMap] at h ⊢
  obtain ⟨q, ⟨p, hp, hq⟩, rfl⟩ := h
  cases hf : f p.1 p.2 with
  | none => simp [hf] at hq
  | some o => simp [hf] at hq; subst hq; exact ⟨p, hp, rfl⟩

theorem nodupKeys_filterMap {β : Type} {f : κ → α → Option β} {d : DictK κ α} (hn : NodupKeys d) :
    NodupKeys (d.filterMap (fun p => (f p.1 p.2).map (fun o => (p.1, o)))) := by
  induction d with
  | nil => simp
  | cons p d ih =>
    obtain ⟨k, v⟩ := p
    rw [nodupKeys_cons] at hn
    rw [List.filterMap_cons]
    cases hf : f k v with
    | none => simpa using ih hn.2
    | some o =>
      simp only [Option.map_some]
      rw [nodupKeys_cons]
      exact ⟨fun h => hn.1 (keys_filterMap_sub h), ih hn.2⟩

theorem keys_collect_sub {β : Type} {f : κ → α → R (Option β)} {d : DictK κ α} {r : DictK κ β}
    (h : collect f d = .ok r) {k : κ} (hk : k ∈ keys r) : k ∈ keys d := by
  rw [(collect_iff.1 h).2] at hk; exact keys_filterMap_sub hk

theorem nodupKeys_collect {β : Type} {f : κ → α → R (Option β)} {d : DictK κ α} {r : DictK κ β}
    (hn : NodupKeys d) (h : collect f d = .ok r) : NodupKeys r := by
  rw [(collect_iff.1 h).2]; exact nodupKeys_filterMap hn

theorem set_set_comm_get (d : DictK κ α) (k k' : κ) (v v' : α) (h : k ≠ k') (x : κ) :
    get? (set (set d k v) k' v') x = get? (set (set d k' v') k v) x := by
  simp only [get?_set]
  by_cases h1 : k' = x <;> by_cases h2 : k = x <;> simp_all

end Pyopenapi.Dict
