import Verif.Lemmas.MainCheck
import Verif.Lemmas.ConvCongr
import Verif.Lemmas.FineObj
import Verif.Spec.MainDoc
import Verif.Props.ConvReloc
import Verif.Props.ConvLoads

/-!
# What references of a 2.0 document lead to, by its text
-/

namespace Pyopenapi.Main
open _root_.Pyopenapi.Spec _root_.Pyopenapi.Refs.Spec Obj

theorem tokens_pointer (us : List Str) : tokens (pointer us) = us := by
  unfold tokens
  rw [pointer_compose, C01_jp_roundtrip_base us ['#'] (by simp)]
  rfl

theorem pointer_inj {us vs : List Str} (h : pointer us = pointer vs) : us = vs := by
  rw [← tokens_pointer us, h, tokens_pointer]

theorem refers_inj {classes : List Str} {x : Obj} {r r' : Str} (h : Refers classes x r) (h' : Refers classes x r') : r = r' := by
  obtain ⟨c, q, d, kids, rfl, _, h1, _⟩ := h
  obtain ⟨c', q', d', kids', e, _, h2, _⟩ := h'
  cases e
  rw [h1] at h2
  cases h2
  rfl

theorem at_inj {root x y : Obj} {us : List Str} (h : At root us x) (h' : At root us y) : x = y := by
  have := h.1.symm.trans h'.1
  cases this
  rfl

theorem chain_inj {root x z z' : Obj} {k k' : Nat} (h : Chain root k x z) (h' : Chain root k' x z') : k = k' ∧ z = z' := by
  induction h generalizing k' with
  | stop hn =>
    cases h' with
    | stop _ => exact ⟨rfl, rfl⟩
    | step hr _ _ => exact absurd hr (hn _)
  | step hr ha _ ih =>
    cases h' with
    | stop hn => exact absurd hr (hn _)
    | step hr' ha' hc' =>
      have e := pointer_inj (refers_inj hr hr')
      subst e
      have e := at_inj ha ha'
      subst e
      obtain ⟨e1, e2⟩ := ih hc'
      exact ⟨by rw [e1], e2⟩

/-! ### the objects of a loaded document -/

/-- A 2.0 document. -/
theorem keyed_of {c : Str} {j : Json} {p : Option Str} {root : Obj} (hj : j.wf = true) (h : build pkg (.cls c) j p [] = .ok root) : Keyed root :=
  loaded_keyed okTable_pkg closed_all ⟨_, j, p, trivial, hj, h⟩

theorem declared_of {c : Str} {j : Json} {p : Option Str} {root : Obj} (hj : j.wf = true) (h : build pkg (.cls c) j p [] = .ok root) :
    Declared pkg root := loaded_declared closed_all ⟨_, j, p, trivial, hj, h⟩

/-- An entry of a section. -/
theorem target {R : Str} {d : Dict Json} {root : Obj} (h : Built (.cls R) (.obj d) root) {sec C n : Str} {v : Json}
    (hc : (Dict.get? (pkg R).children sec).map (fun cd => cd.builder) = some (.mapOf (.cls C)))
    (hv : Dict.get? (objAt d sec) n = some v) :
    ∃ y, Visited [] root [sec, n] y ∧ At root [sec, n] y ∧ Built (.cls C) v y := by
  obtain ⟨h1, _, h3, _⟩ := kid_objAt h hc
  obtain ⟨⟨n', y⟩, hm, hn, hb⟩ := forall₂_mem_left h1 (Dict.mem_of_get? hv)
  dsimp only at hn hb
  subst hn
  obtain ⟨m, _, hm', _⟩ := h3 (objAt_ne hv)
  rw [hm'] at hm
  obtain ⟨p, hp⟩ := h.path
  have hyb : y.isBase = true := by
    obtain ⟨q, hq⟩ := hb.path
    rw [build_cls] at hq
    split at hq
    · simp at hq
    · simp only [Except.ok.injEq] at hq; subst hq; rfl
  have hvis : Visited [] root [sec, n] y := by
    refine visited_iff.2 (.inr ⟨?_, [sec, n], y, [], ?_, .root, rfl⟩)
    · cases root <;> simp [isLeaf]
    · cases root with
      | base c q s ks =>
        cases m with
        | map b q' s' es => exact .through (.child (Dict.mem_of_get? hm')) rfl (.direct (.item hm) hyb)
        | _ => cases hm
      | _ => cases hm'
  refine ⟨y, hvis, ⟨?_, hyb⟩, hb⟩
  have := resolve_visited hvis (keyed_of h.wf hp) (declared_of h.wf hp) []
  rw [List.append_nil] at this
  rw [this]
  cases y <;> rfl

/-- Objects inside an object are those visited, with what is around them. -/
theorem inside_visited {root m : Obj} (hr : root.isBase = true) (h : Inside root m) (hm : m.isBase = true) :
    ∃ ts, Visited [] root ts m := by
  have key : ∀ {x m : Obj}, Inside x m → m.isBase = true → (x.isBase = true → ∃ ts, Visited [] x ts m) ∧
      (x.isBase = false → ∃ us y ts, Leads x us y ∧ Visited [] y ts m) := by
    intro x m h
    induction h with
    | here o => exact fun hm => ⟨fun _ => ⟨[], .root⟩, fun hf => by rw [hm] at hf; cases hf⟩
    | @child c p s kids k o a hk hi ih =>
      intro hm
      refine ⟨fun _ => ?_, fun hf => by cases hf⟩
      obtain ⟨i1, i2⟩ := ih hm
      by_cases hb : o.isBase = true
      · obtain ⟨ts, ht⟩ := i1 hb
        exact ⟨_, visited_iff.2 (.inr ⟨by simp [isLeaf], [k], o, ts, .direct (.child hk) hb, ht, rfl⟩)⟩
      · obtain ⟨us, y, ts, hl, hv⟩ := i2 (by simpa using hb)
        exact ⟨_, visited_iff.2 (.inr ⟨by simp [isLeaf], k :: us, y, ts, .through (.child hk) (by simpa using hb) hl, hv, rfl⟩)⟩
    | @elem b p s es o a hk hi ih =>
      intro hm
      refine ⟨(fun hf => by cases hf), fun _ => ?_⟩
      obtain ⟨i1, i2⟩ := ih hm
      obtain ⟨i, hi, he⟩ := List.getElem_of_mem hk
      have hs : Slot (.list b p s es) (Str.ofNat i) o := .elem (by rw [List.getElem?_eq_getElem hi, he])
      by_cases hb : o.isBase = true
      · obtain ⟨ts, ht⟩ := i1 hb
        exact ⟨_, o, ts, .direct hs hb, ht⟩
      · obtain ⟨us, y, ts, hl, hv⟩ := i2 (by simpa using hb)
        exact ⟨_, y, ts, .through hs (by simpa using hb) hl, hv⟩
    | @item b p s es k o a hk hi ih =>
      intro hm
      refine ⟨(fun hf => by cases hf), fun _ => ?_⟩
      obtain ⟨i1, i2⟩ := ih hm
      by_cases hb : o.isBase = true
      · obtain ⟨ts, ht⟩ := i1 hb
        exact ⟨_, o, ts, .direct (.item hk) hb, ht⟩
      · obtain ⟨us, y, ts, hl, hv⟩ := i2 (by simpa using hb)
        exact ⟨_, y, ts, .through (.item hk) (by simpa using hb) hl, hv⟩
  exact (key h hm).1 hr

/-! ### following references by the text -/

/-- Decides `Fits`. -/
def fits (c sec : Str) : Bool :=
  (c = s% "v2_0.Schema" && sec = s% "definitions") || (c = s% "v2_0.Reference" && (sec = s% "parameters" || sec = s% "responses"))

theorem fits_iff {c sec : Str} : fits c sec = true ↔ Fits c sec := by
  simp [fits, Fits]

/-- Where a conventional reference leads. -/
def next (root : Obj) (x : Obj) : Option Obj :=
  match x with
  | .base c _ (.obj e) _ => match Dict.get? e (s% "$ref") with
    | some (.str r) => match tokens r with
      | [sec, n] => if fits c sec then match Obj.resolve pkg [sec, n] root with
          | .ok y => if y.isBase then some y else none
          | .error _ => none
        else none
      | _ => none
    | _ => none
  | _ => none

/-- References are followed, at most so many times. -/
def follow (root : Obj) : Nat → Obj → Obj
  | 0, x => x
  | n + 1, x => match next root x with
    | some y => follow root n y
    | none => x

theorem next_of {root : Obj} {c sec n : Str} {q : Option Str} {e : Dict Json} {kids : Dict Obj} {y : Obj}
    (h : Dict.get? e (s% "$ref") = some (.str (pointer [sec, n]))) (hf : Fits c sec) (hy : At root [sec, n] y) :
    next root (.base c q (.obj e) kids) = some y := by
  unfold next
  simp only [h, tokens_pointer, fits_iff.2 hf, if_true, hy.1, hy.2]

theorem next_none {root x : Obj} (h : ∀ r, ¬ Refers Refs.normClasses2 x r) : next root x = none := by
  unfold next
  split
  · rename_i c q e kids
    split
    · rename_i r hr
      split
      · rename_i sec n ht
        split
        · rename_i hf
          exfalso
          refine h r ⟨c, q, e, kids, rfl, ?_, hr, ?_⟩
          · rcases fits_iff.1 hf with ⟨rfl, _⟩ | ⟨rfl, _⟩ <;> decide
          · rintro rfl
            have : tokens [] = [sec, n] := ht
            revert this
            simp [tokens, jpSplit]
        · rfl
      · rfl
    · rfl
  · rfl

/-- What is known about a conventional document. -/
structure Std (d : Dict Json) (root : Obj) (K : Nat) : Prop where
  built : Built (.cls (s% "v2_0.Swagger")) (.obj d) root
  conv : Conventional root d
  grounded : Grounded root K
  noFiles : NoFiles d

theorem sec_class {c sec : Str} (h : Fits c sec) : ∃ C, (Dict.get? (pkg (s% "v2_0.Swagger")).children sec).map (fun cd => cd.builder) =
    some (.mapOf (.cls C)) ∧ ((c = s% "v2_0.Schema" ∧ C = s% "v2_0.Schema") ∨
      (sec = s% "parameters" ∧ C = s% "v2_0.Parameter") ∨ (sec = s% "responses" ∧ C = s% "v2_0.Response")) := by
  rcases h with ⟨rfl, rfl⟩ | ⟨rfl, rfl | rfl⟩
  · exact ⟨_, by decide +kernel, .inl ⟨rfl, rfl⟩⟩
  · exact ⟨_, by decide +kernel, .inr (.inl ⟨rfl, rfl⟩)⟩
  · exact ⟨_, by decide +kernel, .inr (.inr ⟨rfl, rfl⟩)⟩

theorem root_base {c : Str} {j : Json} {o : Obj} (h : Built (.cls c) j o) : o.isBase = true := by
  obtain ⟨q, hq⟩ := h.path
  rw [build_cls] at hq
  split at hq
  · simp at hq
  · simp only [Except.ok.injEq] at hq; subst hq; rfl

/-- A visited object with a reference. -/
theorem refers_next {d : Dict Json} {root : Obj} {K : Nat} (h : Std d root K) {ts : List Str} {x : Obj} {r : Str} (hv : Visited [] root ts x)
    (hr : Refers Refs.normClasses2 x r) :
    ∃ sec n y, r = pointer [sec, n] ∧ At root [sec, n] y ∧ Visited [] root [sec, n] y ∧ next root x = some y := by
  obtain ⟨c, q, e, kids, rfl, hc, hg, _⟩ := hr
  obtain ⟨e', he, h2⟩ := h.conv ts c q _ kids hv hc
  cases he
  rcases h2 with h2 | ⟨v, h2, sec, n, w, rfl, _, hw, hf⟩
  · rw [h2] at hg; cases hg
  · rw [h2] at hg
    cases hg
    obtain ⟨C, hC, _⟩ := sec_class hf
    obtain ⟨y, hy1, hy2, _⟩ := target h.built hC hw
    exact ⟨sec, n, y, rfl, hy2, hy1, next_of h2 hf hy2⟩

theorem follow_chain {d : Dict Json} {root : Obj} {K : Nat} (h : Std d root K) {k : Nat} {x z : Obj} (hc : Chain root k x z) :
    ∀ ts, Visited [] root ts x → ∀ m, k ≤ m → follow root m x = z := by
  induction hc with
  | stop hn =>
    intro ts hv m _
    cases m with
    | zero => rfl
    | succ m => rw [follow, next_none hn]
  | step hr ha _ ih =>
    intro ts hv m hm
    obtain ⟨sec, n, y', e, hy, hvy, hn⟩ := refers_next h hv hr
    have e := pointer_inj e
    subst e
    have e := at_inj ha hy
    subst e
    cases m with
    | zero => omega
    | succ m =>
      rw [follow, hn]
      exact ih _ hvy m (by omega)

theorem follow_visited {d : Dict Json} {root : Obj} {K : Nat} (h : Std d root K) (m : Nat) : ∀ x, (∃ ts, Visited [] root ts x) →
    ∃ ts, Visited [] root ts (follow root m x) := by
  induction m with
  | zero => exact fun x hx => hx
  | succ m ih =>
    intro x hx
    rw [follow]
    cases hn : next root x with
    | none => exact hx
    | some y =>
      obtain ⟨ts, hv⟩ := hx
      have : ∃ r, Refers Refs.normClasses2 x r := by
        by_cases hr : ∃ r, Refers Refs.normClasses2 x r
        · exact hr
        · rw [next_none (fun r hrr => hr ⟨r, hrr⟩)] at hn; cases hn
      obtain ⟨r, hr⟩ := this
      obtain ⟨sec, n, y', _, _, hvy, hn'⟩ := refers_next h hv hr
      rw [hn] at hn'
      cases hn'
      exact ih y ⟨_, hvy⟩

/-! ### what the application knows -/

variable {W : Type}

theorem refValue_ref {c : Str} {q : Option Str} {e : Dict Json} {kids : Dict Obj} {r : Str} (hc : c ∈ Refs.normClasses2)
    (h : Dict.get? e (s% "$ref") = some (.str r)) : refValue (.base c q (.obj e) kids) = .str r := by
  unfold refValue
  rw [Refs.refOf_get (Refs.refField2 hc) h]

theorem derefLoop_chain {d : Dict Json} {root : Obj} {K : Nat} (h : Std d root K) {w : World W} {url : Str}
    (hk : Knows w root Refs.normClasses2 url) {k : Nat} {x z : Obj} (hc : Chain root k x z) :
    ∀ ts, Visited [] root ts x → ∀ n V, k < n → (∀ v ∈ V, ∃ kv zv, k ≤ kv ∧ Chain root kv v zv) → derefLoop w n V x = .ok z := by
  induction hc with
  | @stop x hn =>
    intro ts hv n V hn' _
    cases n with
    | zero => omega
    | succ n =>
      unfold derefLoop
      rw [((hk ts x hv).2 hn)]
      simp
  | @step k x y z us hr ha hc ih =>
    intro ts hv n V hn' hV
    cases n with
    | zero => omega
    | succ n =>
      obtain ⟨us', y', e, ha', hat⟩ := (hk ts x hv).1 _ hr
      have e := pointer_inj e
      subst e
      have e := at_inj ha ha'
      subst e
      obtain ⟨sec, nm, y', e, hy, hvy, _⟩ := refers_next h hv hr
      have e := pointer_inj e
      subst e
      have e := at_inj ha hy
      subst e
      have hrv : refValue x ≠ .null := by
        obtain ⟨c, q, e, kids, rfl, hcl, hg, _⟩ := hr
        rw [refValue_ref hcl hg]
        simp
      unfold derefLoop
      rw [if_neg hrv, hat]
      dsimp only
      have hnot : y ∉ V := by
        intro hyV
        obtain ⟨kv, zv, h1, h2⟩ := hV y hyV
        have := (chain_inj hc h2).1
        omega
      rw [if_neg hnot]
      refine ih _ hvy n _ (by omega) ?_
      intro v hv
      rcases List.mem_append.1 hv with hv | hv
      · obtain ⟨kv, zv, h1, h2⟩ := hV v hv
        exact ⟨kv, zv, by omega, h2⟩
      · simp only [List.mem_singleton] at hv
        subst hv
        exact ⟨k, z, Nat.le_refl _, hc⟩

theorem attrs_mem {w : World W} {x : Obj} (h : attrsOf w x ≠ {}) : x ∈ w.attrs.map Prod.fst := by
  unfold attrsOf at h
  split at h
  · rename_i p hp
    have h1 := List.mem_of_find?_eq_some hp
    have h2 := List.find?_some hp
    simp only [decide_eq_true_eq] at h2
    exact List.mem_map.2 ⟨p, h1, h2⟩
  · exact absurd rfl h

theorem length_le {α : Type} [DecidableEq α] {L M : List α} (hL : L.Nodup) (h : ∀ x ∈ L, x ∈ M) : L.length ≤ M.length := by
  induction L generalizing M with
  | nil => exact Nat.zero_le _
  | cons x L ih =>
    rw [List.nodup_cons] at hL
    have hx := h x List.mem_cons_self
    have := ih (M := M.erase x) hL.2 (fun y hy => by
      refine (List.mem_erase_of_ne ?_).2 (h y (List.mem_cons_of_mem _ hy))
      rintro rfl
      exact hL.1 hy)
    rw [List.length_erase_of_mem hx] at this
    have hpos : 0 < M.length := List.length_pos_of_mem hx
    simp only [List.length_cons]
    omega

theorem chain_le {d : Dict Json} {root : Obj} {K : Nat} (h : Std d root K) {w : World W} {url : Str}
    (hk : Knows w root Refs.normClasses2 url) {k : Nat} {x z : Obj} (hc : Chain root k x z) : ∀ ts, Visited [] root ts x →
    ∃ L : List Obj, L.length = k ∧ L.Nodup ∧ ∀ y ∈ L, y ∈ w.attrs.map Prod.fst ∧ ∃ ky zy, ky ≤ k ∧ Chain root ky y zy := by
  induction hc with
  | stop _ => exact fun ts _ => ⟨[], rfl, List.nodup_nil, fun _ h => by cases h⟩
  | @step k x y z us hr ha hc ih =>
    intro ts hv
    obtain ⟨us', y', e, ha', hat⟩ := (hk ts x hv).1 _ hr
    obtain ⟨sec, nm, y', e, hy, hvy, _⟩ := refers_next h hv hr
    have e := pointer_inj e
    subst e
    have e := at_inj ha hy
    subst e
    obtain ⟨L, h1, h2, h3⟩ := ih _ hvy
    refine ⟨x :: L, by simp [h1], List.nodup_cons.2 ⟨fun hx => ?_, h2⟩, ?_⟩
    · obtain ⟨_, ky, zy, h4, h5⟩ := h3 x hx
      have := (chain_inj (.step hr ha hc) h5).1
      omega
    · intro v hv
      rcases List.mem_cons.1 hv with rfl | hv
      · exact ⟨attrs_mem (by rw [hat]; simp), k + 1, z, Nat.le_refl _, .step hr ha hc⟩
      · obtain ⟨g1, ky, zy, g2, g3⟩ := h3 v hv
        exact ⟨g1, ky, zy, by omega, g3⟩

/-- The application follows references as the text does. -/
theorem deref_follow {d : Dict Json} {root : Obj} {K : Nat} (h : Std d root K) {w : World W} {url : Str}
    (hk : Knows w root Refs.normClasses2 url) {x : Obj} (hx : Inside root x) : deref w x = .ok (follow root K x) := by
  by_cases hb : x.isBase = true
  · obtain ⟨ts, hv⟩ := inside_visited (root_base h.built) hx hb
    obtain ⟨k, z, hkK, hc⟩ := h.grounded ts x hv
    rw [follow_chain h hc ts hv K hkK]
    obtain ⟨L, h1, h2, h3⟩ := chain_le h hk hc ts hv
    have := length_le h2 (fun y hy => (h3 y hy).1)
    rw [List.length_map] at this
    exact derefLoop_chain h hk hc ts hv _ _ (by omega) (fun v hv' => by
      simp only [List.mem_singleton] at hv'
      subst hv'
      exact ⟨k, z, Nat.le_refl _, hc⟩)
  · have hn : next root x = none := by
      cases x <;> first | rfl | exact absurd rfl hb
    have hf : follow root K x = x := by
      cases K with
      | zero => rfl
      | succ K => rw [follow, hn]
    rw [hf]
    unfold deref derefLoop
    have : refValue x = .null := by
      cases x <;> first | rfl | exact absurd rfl hb
    rw [if_pos this]

end Pyopenapi.Main
