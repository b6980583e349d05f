import Verif.Model.Yaml
import Verif.Model.Obj
import Verif.Lemmas.Dict
import Verif.Lemmas.Version

/-!
# C60 and C78: response codes that are numbers
-/

namespace Pyopenapi.Yaml

namespace Spec
/-- A response code that Python takes for an integer. -/
def Number : Key → Prop
  | .int _ | .bool _ => True
  | _ => False

/-- The text that stands for the code in a JSON document. -/
inductive Text : Key → Str → Prop
  | nat (n : Nat) : Text (.int n) (Str.ofNat n)
  | neg (n : Nat) : Text (.int (-(n + 1 : Nat))) ('-' :: Str.ofNat (n + 1))
  | yes : Text (.bool true) (s% "True")
  | no : Text (.bool false) (s% "False")
  | str (s : Str) : Text (.str s) s

/-- No two codes of the document have the same text: not both 200 and "200". -/
def Distinct {α : Type} (d : DictK Key α) : Prop :=
  ∀ k ∈ Dict.keys d, ∀ k' ∈ Dict.keys d, ∀ s, Text k s → Text k' s → k = k'
end Spec
open _root_.Pyopenapi.Yaml.Spec

theorem text_newKey {k : Key} {s : Str} (h : Text k s) : newKey k = .str s := by
  cases h <;> rfl

theorem text_total (k : Key) : (∃ s, Text k s) ∨ ∃ n, k = .other n := by
  cases k with
  | int i =>
    left
    cases i with
    | ofNat n => exact ⟨_, .nat n⟩
    | negSucc n => exact ⟨_, .neg n⟩
  | bool b => left; cases b <;> exact ⟨_, by constructor⟩
  | str s => exact .inl ⟨_, .str s⟩
  | other n => exact .inr ⟨n, rfl⟩

theorem newKey_inj {α : Type} {d : DictK Key α} (hd : Distinct d) {k k' : Key} (hk : k ∈ Dict.keys d) (hk' : k' ∈ Dict.keys d)
    (h : newKey k = newKey k') : k = k' := by
  rcases text_total k with ⟨s, hs⟩ | ⟨n, rfl⟩
  · rcases text_total k' with ⟨s', hs'⟩ | ⟨n, rfl⟩
    · rw [text_newKey hs, text_newKey hs'] at h
      cases h
      exact hd k hk k' hk' s hs hs'
    · rw [text_newKey hs] at h; cases h
  · rcases text_total k' with ⟨s', hs'⟩ | ⟨m, rfl⟩
    · rw [text_newKey hs'] at h; cases h
    · exact h

theorem fix_keys {α : Type} : ∀ (d r : DictK Key α) (k : Key),
    k ∈ Dict.keys (d.foldl (fun r p => Dict.set r (newKey p.1) p.2) r) ↔ k ∈ Dict.keys r ∨ ∃ k0 ∈ Dict.keys d, newKey k0 = k := by
  intro d
  induction d with
  | nil => intro r k; simp [Dict.keys]
  | cons p d ih =>
    intro r k
    rw [List.foldl_cons, ih, Dict.mem_keys_set]
    simp only [Dict.keys, List.map_cons, List.mem_cons, exists_eq_or_imp]
    constructor
    · rintro ((h | h) | h)
      · exact .inr (.inl h.symm)
      · exact .inl h
      · exact .inr (.inr h)
    · rintro (h | h | h)
      · exact .inl (.inr h)
      · exact .inl (.inl h.symm)
      · exact .inr h

theorem fix_get {α : Type} : ∀ (d r : DictK Key α) (k : Key),
    Dict.get? (d.foldl (fun r p => Dict.set r (newKey p.1) p.2) r) k =
      ((d.reverse.find? (fun p => newKey p.1 = k)).map (·.2)).or (Dict.get? r k) := by
  intro d
  induction d with
  | nil => intro r k; simp
  | cons p d ih =>
    intro r k
    rw [List.foldl_cons, ih, Dict.get?_set, List.reverse_cons, List.find?_append]
    cases List.find? (fun p => newKey p.1 = k) d.reverse with
    | some q => simp
    | none => by_cases h : newKey p.1 = k <;> simp [h]

theorem fix_nodup {α : Type} (d : DictK Key α) : Dict.NodupKeys (fixResponses d) := by
  unfold fixResponses
  have : ∀ (d r : DictK Key α), Dict.NodupKeys r → Dict.NodupKeys (d.foldl (fun r p => Dict.set r (newKey p.1) p.2) r) := by
    intro d
    induction d with
    | nil => intro r h; exact h
    | cons p d ih => intro r h; exact ih _ (Dict.nodupKeys_set h _ _)
  exact this d [] (by simp)

/-- **C60 (no number left).** After the fix no response code is a number. -/
theorem C60_strings {α : Type} (d : DictK Key α) : ∀ k ∈ Dict.keys (fixResponses d), ¬ Number k := by
  intro k hk
  unfold fixResponses at hk
  rw [fix_keys] at hk
  rcases hk with hk | ⟨k0, _, rfl⟩
  · simp [Dict.keys] at hk
  · cases k0 with
    | bool b => cases b <;> exact id
    | _ => exact id

/-- **C60 (every response stays).** When no two codes have the same text, every response is found again under the text of
its code, and there is nothing else. -/
theorem C60_kept {α : Type} (d : DictK Key α) (hn : Dict.NodupKeys d) (hd : Distinct d) :
    (∀ k s v, Text k s → Dict.get? d k = some v → Dict.get? (fixResponses d) (.str s) = some v) ∧
    (∀ n, Dict.get? (fixResponses d) (.other n) = Dict.get? d (.other n)) ∧
    (∀ s v, Dict.get? (fixResponses d) (.str s) = some v → ∃ k, Text k s ∧ Dict.get? d k = some v) ∧
    (fixResponses d).length = d.length := by
  have key : ∀ k0 v, Dict.get? d k0 = some v → Dict.get? (fixResponses d) (newKey k0) = some v := by
    intro k0 v h
    unfold fixResponses
    rw [fix_get]
    have hm := Dict.mem_of_get? h
    have hk0 : k0 ∈ Dict.keys d := by rw [← Dict.get?_isSome_iff, h]; rfl
    cases hf : List.find? (fun p => decide (newKey p.1 = newKey k0)) d.reverse with
    | none =>
      rw [List.find?_eq_none] at hf
      exact absurd (by simp) (hf (k0, v) (by simpa using hm))
    | some q =>
      have hq := List.find?_some hf
      have hqm : q ∈ d := by simpa using List.mem_of_find?_eq_some hf
      simp only [decide_eq_true_eq] at hq
      have hqk : q.1 ∈ Dict.keys d := List.mem_map.2 ⟨q, hqm, rfl⟩
      have e := newKey_inj hd hqk hk0 hq
      have := Dict.get?_of_mem hn (k := q.1) (v := q.2) hqm
      rw [e, h] at this
      simp [this]
  have back : ∀ k v, Dict.get? (fixResponses d) k = some v → ∃ k0, newKey k0 = k ∧ Dict.get? d k0 = some v := by
    intro k v h
    unfold fixResponses at h
    rw [fix_get] at h
    cases hf : List.find? (fun p => decide (newKey p.1 = k)) d.reverse with
    | none => rw [hf] at h; simp at h
    | some q =>
      rw [hf] at h
      have hq := List.find?_some hf
      have hqm : q ∈ d := by simpa using List.mem_of_find?_eq_some hf
      simp only [decide_eq_true_eq] at hq
      simp at h
      subst h
      exact ⟨q.1, hq, Dict.get?_of_mem hn hqm⟩
  refine ⟨fun k s v ht h => ?_, fun n => ?_, fun s v h => ?_, ?_⟩
  · rw [← text_newKey ht]; exact key k v h
  · cases h : Dict.get? d (.other n) with
    | some v => exact key (.other n) v h
    | none =>
      cases h' : Dict.get? (fixResponses d) (.other n) with
      | none => rfl
      | some v =>
        obtain ⟨k0, e, h0⟩ := back _ _ h'
        rcases text_total k0 with ⟨s, hs⟩ | ⟨m, rfl⟩
        · rw [text_newKey hs] at e; cases e
        · cases e; rw [h] at h0; cases h0
  · obtain ⟨k0, e, h0⟩ := back _ _ h
    rcases text_total k0 with ⟨s', hs⟩ | ⟨m, rfl⟩
    · rw [text_newKey hs] at e; cases e; exact ⟨k0, hs, h0⟩
    · cases e
  · have : ∀ (d r : DictK Key α), Dict.NodupKeys d → (∀ k ∈ Dict.keys d, ∀ k' ∈ Dict.keys d, newKey k = newKey k' → k = k') →
        (∀ k ∈ Dict.keys d, newKey k ∉ Dict.keys r) →
        (d.foldl (fun r p => Dict.set r (newKey p.1) p.2) r).length = r.length + d.length := by
      intro d
      induction d with
      | nil => intros; rfl
      | cons p d ih =>
        intro r hn hi hr
        obtain ⟨k, v⟩ := p
        rw [Dict.nodupKeys_cons] at hn
        rw [List.foldl_cons, ih _ hn.2 (fun a ha b hb => hi a (List.mem_cons_of_mem _ ha) b (List.mem_cons_of_mem _ hb)),
          Dict.set_of_not_mem _ (hr k (by simp [Dict.keys]))]
        · simp; omega
        · intro a ha hc
          rw [Dict.mem_keys_set] at hc
          rcases hc with hc | hc
          · exact hn.1 (hi a (List.mem_cons_of_mem _ ha) k (by simp [Dict.keys]) hc ▸ ha)
          · exact hr a (List.mem_cons_of_mem _ ha) hc
    have := this d [] hn (fun k hk k' hk' h => newKey_inj hd hk hk' h) (by simp [Dict.keys])
    unfold fixResponses
    rw [this]
    simp

/-- A document from JSON, whose codes are all strings, is not changed: neither the codes nor their order. -/
theorem C60_json {α : Type} (d : DictK Key α) (hn : Dict.NodupKeys d) (hs : ∀ k ∈ Dict.keys d, ¬ Number k) : fixResponses d = d := by
  have : ∀ (d r : DictK Key α), Dict.NodupKeys d → (∀ k ∈ Dict.keys d, ¬ Number k) → (∀ k ∈ Dict.keys d, k ∉ Dict.keys r) →
      d.foldl (fun r p => Dict.set r (newKey p.1) p.2) r = r ++ d := by
    intro d
    induction d with
    | nil => intro r _ _ _; simp
    | cons p d ih =>
      intro r hn hs hr
      obtain ⟨k, v⟩ := p
      rw [Dict.nodupKeys_cons] at hn
      have hk : newKey k = k := by
        have := hs k (by simp [Dict.keys])
        cases k with
        | int _ => exact absurd trivial this
        | bool _ => exact absurd trivial this
        | str _ => rfl
        | other _ => rfl
      rw [List.foldl_cons, hk, Dict.set_of_not_mem _ (hr k (by simp [Dict.keys])), ih _ hn.2
        (fun a ha => hs a (List.mem_cons_of_mem _ ha))]
      · simp
      · intro a ha hc
        simp only [Dict.keys, List.map_append, List.map_cons, List.map_nil, List.mem_append, List.mem_singleton] at hc
        rcases hc with hc | hc
        · exact hr a (List.mem_cons_of_mem _ ha) hc
        · subst hc; exact hn.1 ha
  have := this d [] hn hs (by simp [Dict.keys])
  simpa [fixResponses] using this

/-- Fixing twice is fixing once. -/
theorem C60_twice {α : Type} (d : DictK Key α) : fixResponses (fixResponses d) = fixResponses d :=
  C60_json _ (fix_nodup d) (C60_strings d)

/-- An operation without responses is left alone. -/
theorem C60_none {α : Type} : fixOp (none : Option (DictK Key α)) = none := rfl

/-- Two different numbers never have the same text: only a number and a string can meet. -/
theorem C60_numbers {k k' : Key} {s : Str} (hk : Number k) (hk' : Number k') (h : Text k s) (h' : Text k' s) : k = k' := by
  have inj : ∀ {a b : Nat}, Str.ofNat a = Str.ofNat b → a = b := by
    intro a b h
    have := digits?_ofNat a
    rw [h, digits?_ofNat] at this
    exact (Option.some.inj this).symm
  have hd : ∀ n : Nat, ∀ r, Str.ofNat n ≠ '-' :: r := by
    intro n r e
    exact not_mem_ofNat (n := n) (c := '-') (by decide) (by rw [e]; simp)
  have ht : ∀ n : Nat, ∀ r, Str.ofNat n ≠ 'T' :: r := by
    intro n r e
    exact not_mem_ofNat (n := n) (c := 'T') (by decide) (by rw [e]; simp)
  have hf : ∀ n : Nat, ∀ r, Str.ofNat n ≠ 'F' :: r := by
    intro n r e
    exact not_mem_ofNat (n := n) (c := 'F') (by decide) (by rw [e]; simp)
  cases h with
  | str s => exact absurd hk id
  | nat n =>
    generalize hg : Str.ofNat n = t at h'
    cases h' with
    | str s => exact absurd hk' id
    | nat m => rw [inj hg]
    | neg m => exact absurd hg (hd n _)
    | yes => exact absurd hg (ht n _)
    | no => exact absurd hg (hf n _)
  | neg n =>
    generalize hg : '-' :: Str.ofNat (n + 1) = t at h'
    cases h' with
    | str s => exact absurd hk' id
    | nat m => exact absurd hg.symm (hd m _)
    | neg m =>
      have := inj (List.cons.inj hg).2
      obtain rfl : n = m := by omega
      rfl
    | yes => cases hg
    | no => cases hg
  | yes =>
    generalize hg : (s% "True") = t at h'
    cases h' with
    | str s => exact absurd hk' id
    | nat m => exact absurd hg.symm (ht m _)
    | neg m => cases hg
    | yes => rfl
    | no => cases hg
  | no =>
    generalize hg : (s% "False") = t at h'
    cases h' with
    | str s => exact absurd hk' id
    | nat m => exact absurd hg.symm (hf m _)
    | neg m => cases hg
    | yes => cases hg
    | no => rfl

/-- **C60 (violated: 200 and "200").** A document may have both; one of the two responses is then lost. -/
theorem C60_collision_violation {α : Type} (a b : α) :
    fixResponses [(.int 200, a), (.str (s% "200"), b)] = [(.str (s% "200"), b)] ∧
    fixResponses [(.str (s% "200"), b), (.int 200, a)] = [(.str (s% "200"), a)] := ⟨rfl, rfl⟩

/-- Codes as pyyaml reads them: the hypotheses of `C60_kept`. -/
example : Distinct [(.int 200, 1), (.str (s% "default"), 2), (.int 404, 3)] ∧
    Dict.NodupKeys [(Key.int 200, 1), (.str (s% "default"), 2), (.int 404, 3)] ∧
    fixResponses [(.int 200, 1), (.str (s% "default"), 2), (.int 404, 3)] =
      [(.str (s% "200"), 1), (.str (s% "default"), 2), (.str (s% "404"), 3)] := by
  refine ⟨fun k hk k' hk' s h h' => ?_, by decide, rfl⟩
  have e : newKey k = newKey k' := by rw [text_newKey h, text_newKey h']
  simp [Dict.keys] at hk hk'
  rcases hk with rfl | rfl | rfl <;> rcases hk' with rfl | rfl | rfl <;> first | rfl | (exfalso; revert e; decide)

/-! ## C78: the fix comes too late -/

theorem children_error {α : Type} : ∀ (d : DictK Key α) (r : Dict α), (∃ k ∈ Dict.keys d, ∀ s, k ≠ .str s) →
    d.foldlM (fun ret p => do let k ← composeKey (s% "responses") p.1; .ok (Dict.set ret k p.2)) r = (.error .attributeError : R (Dict α)) := by
  intro d
  induction d with
  | nil => rintro r ⟨k, hk, _⟩; simp [Dict.keys] at hk
  | cons p d ih =>
    rintro r ⟨k, hk, hs⟩
    rw [List.foldlM_cons]
    by_cases h : ∃ s, p.1 = .str s
    · obtain ⟨s, hs'⟩ := h
      simp only [hs', composeKey, bind, Except.bind]
      refine ih _ ⟨k, ?_, hs⟩
      simp only [Dict.keys, List.map_cons, List.mem_cons] at hk
      rcases hk with rfl | hk
      · exact absurd hs' (hs s)
      · exact hk
    · have : composeKey (s% "responses") p.1 = .error .attributeError := by
        cases hp : p.1 with
        | str s => exact absurd ⟨s, hp⟩ h
        | _ => rfl
      rw [this]; rfl

theorem children_ok {α : Type} : ∀ (d : DictK Key α) (r : Dict α), (∀ k ∈ Dict.keys d, ∃ s, k = .str s) →
    ∃ x, d.foldlM (fun ret p => do let k ← composeKey (s% "responses") p.1; .ok (Dict.set ret k p.2)) r = (.ok x : R (Dict α)) := by
  intro d
  induction d with
  | nil => intro r _; exact ⟨r, rfl⟩
  | cons p d ih =>
    intro r hs
    obtain ⟨s, hp⟩ := hs p.1 (by simp [Dict.keys])
    rw [List.foldlM_cons, hp]
    exact ih _ (fun k hk => hs k (List.mem_cons_of_mem _ hk))

/-- **C78 (violated: numbers).** The upgrade of a document with a numeric response code raises: it asks the operation for
its children before it fixes the codes. -/
theorem C78_number_violation {α : Type} (d : DictK Key α) (h : ∃ k ∈ Dict.keys d, Number k) :
    upgradeResponses d = .error .attributeError := by
  obtain ⟨k, hk, hn⟩ := h
  unfold upgradeResponses responseChildren
  rw [children_error d [] ⟨k, hk, fun s e => by subst e; exact hn⟩]
  rfl

example : upgradeResponses [(.str (s% "default"), 1), (.int 200, 2)] = .error .attributeError := rfl

/-- When all codes are strings the upgrade passes, and it changes no code. -/
theorem C78_strings {α : Type} (d : DictK Key α) (hn : Dict.NodupKeys d) (h : ∀ k ∈ Dict.keys d, ∃ s, k = .str s) :
    upgradeResponses d = .ok d := by
  obtain ⟨x, hx⟩ := children_ok d [] h
  unfold upgradeResponses responseChildren
  rw [hx]
  show Except.ok (fixResponses d) = _
  rw [C60_json d hn]
  intro k hk hn
  obtain ⟨s, rfl⟩ := h k hk
  exact hn

example : upgradeResponses [(.str (s% "default"), 1), (.str (s% "200"), 2)] = .ok [(.str (s% "default"), 1), (.str (s% "200"), 2)] := rfl

/-- Were the codes fixed first, the scan would pass: numbers are then no obstacle. -/
theorem C78_other_order {α : Type} (d : DictK Key α) (h : ∀ k ∈ Dict.keys d, Number k ∨ ∃ s, k = .str s) :
    ∃ x, responseChildren (fixResponses d) = .ok x := by
  refine children_ok _ _ (fun k hk => ?_)
  unfold fixResponses at hk
  rw [fix_keys] at hk
  rcases hk with hk | ⟨k0, hk0, rfl⟩
  · simp [Dict.keys] at hk
  · rcases h k0 hk0 with h | ⟨s, rfl⟩
    · cases k0 with
      | int i => exact ⟨_, rfl⟩
      | bool b => cases b <;> exact ⟨_, rfl⟩
      | str s => exact ⟨_, rfl⟩
      | other n => exact absurd h id
    · exact ⟨_, rfl⟩

end Pyopenapi.Yaml
