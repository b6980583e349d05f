import Verif.Lemmas.Pointer
import Verif.Lemmas.Scope
import Verif.Lemmas.Sort

/-!
# C01-C05: JSON pointers and scopes
-/

namespace Pyopenapi
open Str

/-! ## C01 JSON pointer round trip -/

/-- C01: splitting a composed pointer gives back the base's tokens, then the tokens. -/
theorem C01_jp_roundtrip_base (ts : List Str) (b : Str) (hb : b ≠ []) :
    jpSplit (jpCompose ts (some b)) = jpSplit b ++ ts := by
  rw [jpCompose_base hb]
  cases ts with
  | nil => simp [joinC]
  | cons t ts =>
    rw [List.map_cons, joinC, jpSplit, if_neg (by simp), splitC_append, List.map_append]
    rw [← List.map_cons, splitC_join_encoded (by simp), map_decode_encode, jpSplit, if_neg hb]

/-- C01, no base (or an empty one): every token list except `['']` comes back. -/
theorem C01_jp_roundtrip_nobase (ts : List Str) (h : ts ≠ [[]]) :
    jpSplit (jpCompose ts none) = ts ∧ jpSplit (jpCompose ts (some [])) = ts := by
  have key : jpSplit (joinC '/' (ts.map jpEncode)) = ts := by
    by_cases hts : ts = []
    · subst hts; rfl
    · unfold jpSplit
      rw [if_neg, splitC_join_encoded hts, map_decode_encode]
      intro he
      rcases joinC_eq_nil he with h1 | h1
      · simp at h1; exact hts h1
      · cases ts with
        | nil => simp at h1
        | cons a as =>
          simp only [List.map_cons, List.cons.injEq, List.map_eq_nil_iff, jpEncode_eq_nil] at h1
          exact h (by rw [h1.1, h1.2])
  exact ⟨key, key⟩

/-- C01: the excluded list composes to the empty pointer, which splits to no token at all. -/
theorem C01_jp_roundtrip_nobase_exception :
    jpCompose [[]] none = [] ∧ jpSplit (jpCompose [[]] none) = [] := by decide

example : jpSplit (jpCompose [s% "a/b", s% "~1", s% ""] (some (s% "#/x~1y"))) =
    [s% "#", s% "x/y", s% "a/b", s% "~1", s% ""] := by decide

/-! ## C02 composition is injective and incremental -/

theorem C02_jp_compose_injective (ts us : List Str) (b : Str) (hb : b ≠ [])
    (h : jpCompose ts (some b) = jpCompose us (some b)) : ts = us := by
  have h1 := C01_jp_roundtrip_base ts b hb
  rw [h, C01_jp_roundtrip_base us b hb] at h1
  exact (List.append_cancel_left h1).symm

theorem C02_jp_compose_incremental (ts us : List Str) (b : Str) (hb : b ≠ []) :
    jpCompose us (some (jpCompose ts (some b))) = jpCompose (ts ++ us) (some b) := by
  have hne : jpCompose ts (some b) ≠ [] := by
    intro he
    rw [jpCompose_base hb] at he
    rcases joinC_eq_nil he with h | h
    · simp at h
    · simp only [List.cons.injEq, List.map_eq_nil_iff] at h; exact hb h.1
  rw [jpCompose_base hne, jpCompose_base hb, jpCompose_base hb]
  cases us with
  | nil => simp [joinC]
  | cons u us =>
    rw [joinC_cons (by simp), List.map_append]
    rw [← List.cons_append, joinC_append (by simp) (by simp)]

/-- C02: between the base and each token exactly one `/` is written; a token contributes none. -/
theorem C02_jp_compose_slashes (ts : List Str) (b : Str) (hb : b ≠ []) :
    (jpCompose ts (some b)).count '/' = b.count '/' + ts.length := by
  rw [jpCompose_base hb]
  induction ts generalizing b with
  | nil => simp [joinC]
  | cons t ts ih =>
    rw [List.map_cons, joinC_cons (by simp)]
    have h0 : (jpEncode t).count '/' = 0 := List.count_eq_zero.2 (slash_not_mem_jpEncode t)
    by_cases ht : jpEncode t = []
    · rw [ht]
      have : joinC '/' ([] :: ts.map jpEncode) = [] ++ (joinC '/' ([] :: ts.map jpEncode)) := rfl
      have h1 : (joinC '/' ([] :: List.map jpEncode ts)).count '/' = ts.length := by
        have := ih (b := ['x']) (by simp)
        cases ts with
        | nil => simp [joinC]
        | cons t2 ts2 =>
          rw [List.map_cons, joinC_cons (by simp)] at this ⊢
          simpa using this
      simp [h1]
    · have := ih (b := jpEncode t) ht
      rw [h0] at this
      simp [this]

example : jpCompose [s% "a/b"] (some (s% "#")) = s% "#/a~1b" := by decide

/-! ## C03 decoding is RFC 6901 decoding -/

/-- C03: on a pointer made of `/`-free parts, `jp_split` returns the one-pass RFC 6901
decoding of every part. -/
theorem C03_jp_split_is_rfc6901 (parts : List Str) (hne : parts ≠ []) (hp : parts ≠ [[]])
    (h : ∀ p ∈ parts, '/' ∉ p) :
    jpSplit (joinC '/' parts) = parts.map Spec.unescape := by
  unfold jpSplit
  rw [if_neg, splitC_joinC hne h]
  · apply List.map_congr_left; intro a _; exact jpDecode_eq_unescape a
  · intro he
    rcases joinC_eq_nil he with h1 | h1
    · exact hne h1
    · exact hp h1

/-- C03 for arbitrary pointers: every non-empty string is such a join. -/
theorem C03_jp_split_total (jp : Str) (h : jp ≠ []) :
    ∃ parts, joinC '/' parts = jp ∧ (∀ p ∈ parts, '/' ∉ p) ∧
      jpSplit jp = parts.map Spec.unescape := by
  refine ⟨splitC '/' jp, joinC_splitC _ _, fun p hp => not_mem_of_mem_splitC hp, ?_⟩
  unfold jpSplit
  rw [if_neg h]
  apply List.map_congr_left; intro a _; exact jpDecode_eq_unescape a

/-- C03: what `jp_compose` writes is RFC 6901 escaping. -/
theorem C03_jp_compose_is_rfc6901 (t b : Str) (hb : b ≠ []) :
    jpCompose [t] (some b) = b ++ '/' :: Spec.escape t := by
  rw [jpCompose_base hb, ← jpEncode_eq_escape]; simp [joinC]

example : jpSplit (s% "~01/~10/~~1") = [s% "~1", s% "/0", s% "~/"] := by decide

/-! ## C04 scopes -/

/-- C04: composing non-empty names (that do not contain the separator's first character) one after
the other and splitting the result gives the names back. -/
theorem C04_scope_roundtrip (c : Char) (t : Str) (n : Str) (ns : List Str)
    (hne : ∀ x ∈ n :: ns, x ≠ []) (h : ∀ x ∈ n :: ns, c ∉ x) :
    scopeSplit (ns.foldl (fun acc x => scopeCompose acc (some x) (c :: t)) (some n)) (c :: t) =
      (n :: ns).map some := by
  have key : ∀ (ns pre : List Str), (∀ x ∈ ns, x ≠ []) → Str.join (c :: t) (pre ++ [n]) ≠ [] →
      ns.foldl (fun acc x => scopeCompose acc (some x) (c :: t))
        (some (Str.join (c :: t) (pre ++ [n]))) = some (Str.join (c :: t) (pre ++ [n] ++ ns)) := by
    intro ns
    have hj : ∀ (ps : List Str) (q : Str), ps ≠ [] →
        Str.join (c :: t) (ps ++ [q]) = Str.join (c :: t) ps ++ (c :: t) ++ q := by
      intro ps q hps
      induction ps with
      | nil => exact absurd rfl hps
      | cons p ps ih =>
        cases ps with
        | nil => simp [Str.join]
        | cons p2 ps2 => simp only [List.cons_append, Str.join] at ih ⊢; rw [ih (by simp)]; simp
    have gen : ∀ (ns ps : List Str), ps ≠ [] → (∀ x ∈ ns, x ≠ []) → Str.join (c :: t) ps ≠ [] →
        ns.foldl (fun acc x => scopeCompose acc (some x) (c :: t)) (some (Str.join (c :: t) ps)) =
          some (Str.join (c :: t) (ps ++ ns)) := by
      intro ns
      induction ns with
      | nil => intro ps _ _ _; simp
      | cons x xs ih =>
        intro ps hps hx hj0
        have hx0 := hx x (by simp)
        have hstep : scopeCompose (some (Str.join (c :: t) ps)) (some x) (c :: t) =
            some (Str.join (c :: t) (ps ++ [x])) := by
          rw [hj ps x hps]
          obtain ⟨a, as, ha⟩ := List.exists_cons_of_ne_nil hj0
          obtain ⟨b, bs, hb⟩ := List.exists_cons_of_ne_nil hx0
          rw [ha, hb]; rfl
        rw [List.foldl_cons, hstep, ih (ps ++ [x]) (by simp) (fun y hy => hx y (by simp [hy])) (by rw [hj ps x hps]; simp)]
        simp
    intro pre hns h0
    exact gen ns (pre ++ [n]) (by simp) hns h0
  have h1 := key ns [] (fun x hx => hne x (by simp [hx])) (by simpa [Str.join] using hne n (by simp))
  simp only [List.nil_append, Str.join] at h1
  rw [h1]
  have hne' : Str.join (c :: t) ([n] ++ ns) ≠ [] := by
    intro he
    have := split_join (c := c) (t := t) (ps := n :: ns) (by simp) h
    rw [List.singleton_append] at he
    rw [he] at this
    simp only [Str.split, splitGo, List.cons.injEq] at this
    exact hne n (by simp) this.1.symm
  obtain ⟨a, as, ha⟩ := List.exists_cons_of_ne_nil hne'
  rw [ha]
  simp only [scopeSplit]
  rw [← ha, List.singleton_append, split_join (by simp) h]

/-- C04: the unrestricted round trip is false: a name ending in part of the separator is cut
at the wrong place. -/
theorem C04_scope_roundtrip_fails :
    ¬ ∀ a b : Str, a ≠ [] → b ≠ [] →
      scopeSplit (scopeCompose (some a) (some b) scopeSeparator) scopeSeparator =
        [some a, some b] := by
  intro h
  exact absurd (h (s% "x!##") (s% "y") (by decide) (by decide)) (by decide)

/-- C04: with an absent or empty part, composing returns the other part. -/
theorem C04_scope_compose_absent (a : Str) (ha : a ≠ []) (sep : Str) :
    scopeCompose none (some a) sep = some a ∧ scopeCompose (some a) none sep = some a ∧
    scopeCompose (some []) (some a) sep = some a ∧ scopeCompose (some a) (some []) sep = some a ∧
    scopeCompose none none sep = none ∧
    scopeSplit none sep = [none] ∧ scopeSplit (some []) sep = [none] := by
  cases a with
  | nil => exact absurd rfl ha
  | cons c cs => simp [scopeCompose, scopeSplit]

example : scopeSplit (scopeCompose (some (s% "pet")) (some (s% "get")) scopeSeparator)
    scopeSeparator = [some (s% "pet"), some (s% "get")] := by decide

/-! ## C05 ScopeDict lookup -/

/-- C05: an exact entry wins. -/
theorem C05_exact {α : Type} (sep : Str) (d : Dict α) (k : Str) (v : α)
    (h : (k, v) ∈ d) (hn : Dict.NodupKeys d) : scopeDictGet sep d (some k) = .ok v := by
  simp [scopeDictGet, Dict.get?_of_mem hn h]

/-- C05: no exact entry, exactly one key ends with `k`: its entry. -/
theorem C05_unique_suffix {α : Type} (sep : Str) (d : Dict α) (hn : Dict.NodupKeys d)
    (k n : Str) (v : α) (hk : k ∉ Dict.keys d) (h : (n, v) ∈ d) (he : ∃ u, n = u ++ k)
    (hu : ∀ m ∈ Dict.keys d, (∃ u, m = u ++ k) → m = n) :
    scopeDictGet sep d (some k) = .ok v := by
  have hf : (Dict.keys d).filter (fun n => Str.endsWith n k) = [n] := by
    have hnd : ((Dict.keys d).filter (fun n => Str.endsWith n k)).Nodup := hn.filter _
    have hmem : ∀ m, m ∈ (Dict.keys d).filter (fun n => Str.endsWith n k) ↔ m = n := by
      intro m
      rw [List.mem_filter, endsWith_iff]
      constructor
      · rintro ⟨h1, h2⟩; exact hu m h1 h2
      · rintro rfl; exact ⟨List.mem_map.2 ⟨_, h, rfl⟩, he⟩
    match hl : (Dict.keys d).filter (fun n => Str.endsWith n k) with
    | [] => have := (hmem n).2 rfl; rw [hl] at this; simp at this
    | [x] => rw [hl] at hmem; have := (hmem x).1 (by simp); rw [this]
    | x :: y :: zs =>
      rw [hl] at hmem hnd
      have hx := (hmem x).1 (by simp)
      have hy := (hmem y).1 (by simp)
      subst hx; subst hy
      simp at hnd
  simp only [scopeDictGet, Dict.get?_eq_none_iff.2 hk, hf]
  exact Dict.get!_ok.2 (Dict.get?_of_mem hn h)

/-- C05: no key ends with `k`: KeyError. -/
theorem C05_none {α : Type} (sep : Str) (d : Dict α) (k : Str)
    (h : ∀ m ∈ Dict.keys d, ¬ ∃ u, m = u ++ k) :
    scopeDictGet sep d (some k) = .error .keyError := by
  have hf : (Dict.keys d).filter (fun n => Str.endsWith n k) = [] := by
    rw [List.filter_eq_nil_iff]
    intro a ha
    rw [endsWith_iff]; exact h a ha
  have hk : k ∉ Dict.keys d := fun hk => h k hk ⟨[], rfl⟩
  simp only [scopeDictGet, Dict.get?_eq_none_iff.2 hk, hf]

/-- C05: several keys end with `k` (and none equals it): the only one of them whose last scope
token is the last scope token of `k`, otherwise ValueError. -/
theorem C05_ambiguous {α : Type} (sep : Str) (d : Dict α) (hn : Dict.NodupKeys d) (k : Str)
    (hk : k ∉ Dict.keys d) (n1 n2 : Str) (h12 : n1 ≠ n2)
    (h1 : n1 ∈ Dict.keys d) (h2 : n2 ∈ Dict.keys d)
    (e1 : ∃ u, n1 = u ++ k) (e2 : ∃ u, n2 = u ++ k) :
    (∀ m v, (m, v) ∈ d → (∃ u, m = u ++ k) → lastToken sep m = lastToken sep k →
      (∀ m' ∈ Dict.keys d, (∃ u, m' = u ++ k) → lastToken sep m' = lastToken sep k → m' = m) →
      scopeDictGet sep d (some k) = .ok v) ∧
    ((¬ ∃ m ∈ Dict.keys d, ((∃ u, m = u ++ k) ∧ lastToken sep m = lastToken sep k) ∧
      ∀ m' ∈ Dict.keys d, (∃ u, m' = u ++ k) → lastToken sep m' = lastToken sep k → m' = m) →
      scopeDictGet sep d (some k) = .error .valueError) := by
  have hnd : ((Dict.keys d).filter (fun n => Str.endsWith n k)).Nodup := hn.filter _
  have hm1 : n1 ∈ (Dict.keys d).filter (fun n => Str.endsWith n k) :=
    List.mem_filter.2 ⟨h1, endsWith_iff.2 e1⟩
  have hm2 : n2 ∈ (Dict.keys d).filter (fun n => Str.endsWith n k) :=
    List.mem_filter.2 ⟨h2, endsWith_iff.2 e2⟩
  obtain ⟨a, b, cs, hl⟩ : ∃ a b cs, (Dict.keys d).filter (fun n => Str.endsWith n k) = a :: b :: cs := by
    match hl : (Dict.keys d).filter (fun n => Str.endsWith n k) with
    | [] => rw [hl] at hm1; simp at hm1
    | [x] => rw [hl] at hm1 hm2; simp at hm1 hm2; exact absurd (hm1.trans hm2.symm) h12
    | x :: y :: zs => exact ⟨x, y, zs, rfl⟩
  have hunf : scopeDictGet sep d (some k) =
      match ((Dict.keys d).filter (fun n => Str.endsWith n k)).filter
        (fun r => lastToken sep r == lastToken sep k) with
      | [m] => Dict.get! d m
      | _ => .error .valueError := by
    simp only [scopeDictGet, Dict.get?_eq_none_iff.2 hk, hl]
    rfl
  have hnd2 := hnd.filter (fun r => lastToken sep r == lastToken sep k)
  have hmem : ∀ m, m ∈ ((Dict.keys d).filter (fun n => Str.endsWith n k)).filter
      (fun r => lastToken sep r == lastToken sep k) ↔
      m ∈ Dict.keys d ∧ (∃ u, m = u ++ k) ∧ lastToken sep m = lastToken sep k := by
    intro m
    rw [List.mem_filter, List.mem_filter, endsWith_iff, beq_iff_eq]
    constructor
    · rintro ⟨⟨x, y⟩, z⟩; exact ⟨x, y, z⟩
    · rintro ⟨x, y, z⟩; exact ⟨⟨x, y⟩, z⟩
  rw [hunf]
  generalize ((Dict.keys d).filter (fun n => Str.endsWith n k)).filter
      (fun r => lastToken sep r == lastToken sep k) = L at hnd2 hmem
  constructor
  · intro m v hmv hmk hml hu
    have hmL : m ∈ L := (hmem m).2 ⟨List.mem_map.2 ⟨_, hmv, rfl⟩, hmk, hml⟩
    match L, hnd2, hmem, hmL with
    | [x], _, hmem, hmL =>
      simp only [List.mem_singleton] at hmL
      subst hmL
      exact Dict.get!_ok.2 (Dict.get?_of_mem hn hmv)
    | x :: y :: zs, hnd2, hmem, hmL =>
      have hx := (hmem x).1 (by simp)
      have hy := (hmem y).1 (by simp)
      have := hu x hx.1 hx.2.1 hx.2.2
      have := hu y hy.1 hy.2.1 hy.2.2
      subst_vars
      simp at hnd2
  · intro hno
    match L, hmem with
    | [], _ => rfl
    | [x], hmem =>
      exfalso
      apply hno
      have hx := (hmem x).1 (by simp)
      exact ⟨x, hx.1, ⟨hx.2.1, hx.2.2⟩, fun m' h1 h2 h3 => by simpa using (hmem m').2 ⟨h1, h2, h3⟩⟩
    | x :: y :: zs, _ => rfl

/-- C05: a tuple key is the scoped name of its parts. -/
theorem C05_tuple (sep : Str) (a b : Str) (ha : a ≠ []) (hb : b ≠ []) :
    scopeDictKey sep [some a, some b] = .ok (some (a ++ sep ++ b)) ∧
    scopeDictKey sep [some a] = .ok (some a) ∧ scopeDictKey sep [] = .error .typeError := by
  obtain ⟨c, cs, rfl⟩ := List.exists_cons_of_ne_nil ha
  obtain ⟨e, es, rfl⟩ := List.exists_cons_of_ne_nil hb
  simp [scopeDictKey, scopeCompose]

/-- C05: the suffix test is on characters, not on scope tokens: `get` also finds
`a!##!widget`. -/
theorem C05_suffix_not_token_aligned :
    scopeDictGet scopeSeparator [(s% "a!##!widget", 1)] (some (s% "get")) = .ok 1 := by decide

example : scopeDictGet scopeSeparator [(s% "a!##!get", 1), (s% "b!##!something-get", 2)]
    (some (s% "get")) = .ok 1 := by decide
example : scopeDictGet scopeSeparator [(s% "a!##!get", 1), (s% "b!##!get", 2)]
    (some (s% "get")) = .error .valueError := by decide

end Pyopenapi
