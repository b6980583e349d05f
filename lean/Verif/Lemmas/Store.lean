import Verif.Model.Store
import Verif.Lemmas.Str
import Verif.Lemmas.Sort
import Verif.Lemmas.Version

namespace Pyopenapi
variable {O : Type}

/-- The object cached under exactly (url, pointer, version). -/
def Store.entry (st : Store O) (url jp ver : Str) : Option O :=
  match Dict.get? st.objs url with
  | none => none
  | some uc => match Dict.get? uc jp with
    | none => none
    | some c => Dict.get? c ver

/-- Dictionaries inside the store have unique keys. -/
def Store.Wf (st : Store O) : Prop :=
  Dict.NodupKeys st.objs ∧ (∀ url uc, Dict.get? st.objs url = some uc →
    Dict.NodupKeys uc ∧ ∀ jp c, Dict.get? uc jp = some c → Dict.NodupKeys c)

theorem entry_getD (st : Store O) (url jp ver : Str) :
    st.entry url jp ver =
      Dict.get? ((Dict.get? ((Dict.get? st.objs url).getD []) jp).getD []) ver := by
  unfold Store.entry
  cases Dict.get? st.objs url with
  | none => simp
  | some uc =>
    simp only [Option.getD_some]
    cases Dict.get? uc jp <;> simp

theorem entry_set (st : Store O) (o : O) (url jp ver url' jp' ver' : Str) :
    (st.set o url jp ver).entry url' jp' ver' =
      if url = url' ∧ jp = jp' ∧ ver = ver' then some o else st.entry url' jp' ver' := by
  simp only [entry_getD, Store.set, Dict.get?_set]
  by_cases h1 : url = url'
  · subst h1
    simp only [if_true, Option.getD_some, Dict.get?_set, true_and]
    by_cases h2 : jp = jp'
    · subst h2
      simp [Dict.get?_set]
    · simp [h2]
  · simp [h1]

theorem wf_init (vs : List Str) : (Store.init vs : Store O).Wf := by
  constructor
  · simp [Store.init]
  · intro url uc h; simp [Store.init] at h

theorem wf_set {st : Store O} (h : st.Wf) (o : O) (url jp ver : Str) : (st.set o url jp ver).Wf := by
  refine ⟨Dict.nodupKeys_set h.1 _ _, ?_⟩
  intro url' uc' h'
  simp only [Store.set, Dict.get?_set] at h'
  split at h'
  · rename_i hu
    subst hu
    simp only [Option.some.injEq] at h'
    subst h'
    have huc : Dict.NodupKeys ((Dict.get? st.objs url).getD []) := by
      cases hg : Dict.get? st.objs url with
      | none => simp
      | some uc => simpa using (h.2 url uc hg).1
    refine ⟨Dict.nodupKeys_set huc _ _, ?_⟩
    intro jp' c' hc'
    simp only [Dict.get?_set] at hc'
    split at hc'
    · simp only [Option.some.injEq] at hc'
      subst hc'
      apply Dict.nodupKeys_set
      cases hg : Dict.get? st.objs url with
      | none => simp
      | some uc =>
        simp only [Option.getD_some]
        cases hg2 : Dict.get? uc jp with
        | none => simp
        | some c => simpa using (h.2 url uc hg).2 jp c hg2
    · cases hg : Dict.get? st.objs url with
      | none => rw [hg] at hc'; simp at hc'
      | some uc =>
        rw [hg] at hc'
        exact (h.2 url uc hg).2 jp' c' hc'
  · exact h.2 url' uc' h'

/-! ### get -/

theorem getLoop_cases (ops : ObjOps O) (jp ver : Str) (uc : Dict (Dict O)) :
    (Store.getLoop ops jp ver uc = .ok none ∧
      ∀ p c, (p, c) ∈ uc → Str.startsWith jp p = true → Dict.get? c ver = none) ∨
    ∃ p c o, (p, c) ∈ uc ∧ Str.startsWith jp p = true ∧ Dict.get? c ver = some o ∧
      Store.getLoop ops jp ver uc = ops.resolve o ((jpSplit (jp.drop p.length)).drop 1) := by
  induction uc with
  | nil => left; simp [Store.getLoop]
  | cons x rest ih =>
    obtain ⟨p, c⟩ := x
    simp only [Store.getLoop]
    cases hs : Str.startsWith jp p with
    | false =>
      rcases ih with ⟨h1, h2⟩ | ⟨p', c', o, h1, h2, h3, h4⟩
      · left
        refine ⟨h1, ?_⟩
        intro p' c' hm hp
        rcases List.mem_cons.1 hm with e | hm
        · simp only [Prod.mk.injEq] at e; rw [e.1, hs] at hp; simp at hp
        · exact h2 p' c' hm hp
      · right; exact ⟨p', c', o, by simp [h1], h2, h3, h4⟩
    | true =>
      cases hg : Dict.get? c ver with
      | none =>
        rcases ih with ⟨h1, h2⟩ | ⟨p', c', o, h1, h2, h3, h4⟩
        · left
          refine ⟨h1, ?_⟩
          intro p' c' hm hp
          rcases List.mem_cons.1 hm with e | hm
          · simp only [Prod.mk.injEq] at e; rw [e.2, hg]
          · exact h2 p' c' hm hp
        · right; exact ⟨p', c', o, by simp [h1], h2, h3, h4⟩
      | some o => right; exact ⟨p, c, o, by simp, hs, hg, rfl⟩

/-- `get` answers from *some* cached object whose pointer is a string prefix, or says `None`
when there is none. -/
theorem get_cases (ops : ObjOps O) (st : Store O) (hw : st.Wf) (url jp ver : Str) :
    (st.get ops url jp ver = .ok none ∧
      ∀ p, Str.startsWith jp p = true → st.entry url p ver = none) ∨
    ∃ p o, Str.startsWith jp p = true ∧ st.entry url p ver = some o ∧
      st.get ops url jp ver = ops.resolve o ((jpSplit (jp.drop p.length)).drop 1) := by
  unfold Store.get Store.entry
  cases hu : Dict.get? st.objs url with
  | none => left; simp
  | some uc =>
    simp only
    obtain ⟨hn, _⟩ := hw.2 url uc hu
    rcases getLoop_cases ops jp ver uc with ⟨h1, h2⟩ | ⟨p, c, o, h1, h2, h3, h4⟩
    · left
      refine ⟨h1, ?_⟩
      intro p hp
      cases hg : Dict.get? uc p with
      | none => rfl
      | some c => exact h2 p c (Dict.mem_of_get? hg) hp
    · right
      exact ⟨p, o, h2, by rw [Dict.get?_of_mem hn h1]; exact h3, h4⟩

/-! ### get_under -/

theorem get?_withoutUnder (jp ver : Str) (uc : Dict (Dict O)) (p : Str) :
    Dict.get? (Store.withoutUnder jp ver uc) p =
      (Dict.get? uc p).map (fun c =>
        if Str.startsWith p jp && Dict.has c ver then Dict.erase c ver else c) := by
  induction uc with
  | nil => simp [Store.withoutUnder]
  | cons x rest ih =>
    obtain ⟨q, c⟩ := x
    simp only [Store.withoutUnder, Dict.get?]
    split
    · rename_i h; subst h; simp
    · exact ih

theorem keys_withoutUnder (jp ver : Str) (uc : Dict (Dict O)) :
    Dict.keys (Store.withoutUnder jp ver uc) = Dict.keys uc := by
  induction uc with
  | nil => rfl
  | cons x rest ih =>
    obtain ⟨q, c⟩ := x
    simp only [Store.withoutUnder, Dict.keys, List.map_cons] at ih ⊢
    rw [ih]

theorem underOf_spec (jp ver : Str) (uc : Dict (Dict O)) (ret : Dict O) (k : Str) :
    (∀ o, Dict.get? (Store.underOf jp ver uc ret) k = some o →
      (∃ p c, (p, c) ∈ uc ∧ Str.startsWith p jp = true ∧ Dict.get? c ver = some o ∧
        k = p.drop (jp.length + 1)) ∨ Dict.get? ret k = some o) ∧
    (Dict.get? (Store.underOf jp ver uc ret) k = none →
      Dict.get? ret k = none ∧
      ∀ p c, (p, c) ∈ uc → Str.startsWith p jp = true → k = p.drop (jp.length + 1) →
        Dict.get? c ver = none) := by
  induction uc generalizing ret with
  | nil =>
    simp only [Store.underOf]
    exact ⟨fun o h => Or.inr h, fun h => ⟨h, by simp⟩⟩
  | cons x rest ih =>
    obtain ⟨q, c⟩ := x
    simp only [Store.underOf]
    cases hs : Str.startsWith q jp with
    | false =>
      obtain ⟨i1, i2⟩ := ih ret
      refine ⟨?_, ?_⟩
      · intro o h
        rcases i1 o h with ⟨p, c', hm, h2⟩ | h
        · exact Or.inl ⟨p, c', by simp [hm], h2⟩
        · exact Or.inr h
      · intro h
        refine ⟨(i2 h).1, ?_⟩
        intro p c' hm hp hk
        rcases List.mem_cons.1 hm with e | hm
        · simp only [Prod.mk.injEq] at e; rw [e.1, hs] at hp; simp at hp
        · exact (i2 h).2 p c' hm hp hk
    | true =>
      cases hg : Dict.get? c ver with
      | none =>
        obtain ⟨i1, i2⟩ := ih ret
        refine ⟨?_, ?_⟩
        · intro o h
          rcases i1 o h with ⟨p, c', hm, h2⟩ | h
          · exact Or.inl ⟨p, c', by simp [hm], h2⟩
          · exact Or.inr h
        · intro h
          refine ⟨(i2 h).1, ?_⟩
          intro p c' hm hp hk
          rcases List.mem_cons.1 hm with e | hm
          · simp only [Prod.mk.injEq] at e; rw [e.2, hg]
          · exact (i2 h).2 p c' hm hp hk
      | some o0 =>
        obtain ⟨i1, i2⟩ := ih (Dict.set ret (q.drop (jp.length + 1)) o0)
        refine ⟨?_, ?_⟩
        · intro o h
          rcases i1 o h with ⟨p, c', hm, h2⟩ | h
          · exact Or.inl ⟨p, c', by simp [hm], h2⟩
          · rw [Dict.get?_set] at h
            split at h
            · rename_i hk
              simp only [Option.some.injEq] at h
              subst h
              exact Or.inl ⟨q, c, by simp, hs, hg, hk.symm⟩
            · exact Or.inr h
        · intro h
          have h0 := (i2 h).1
          rw [Dict.get?_set] at h0
          split at h0
          · simp at h0
          · rename_i hk
            refine ⟨h0, ?_⟩
            intro p c' hm hp hk'
            rcases List.mem_cons.1 hm with e | hm
            · simp only [Prod.mk.injEq] at e
              rw [e.1] at hk'
              exact absurd hk'.symm hk
            · exact (i2 h).2 p c' hm hp hk'

end Pyopenapi
