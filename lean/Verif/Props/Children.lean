import Verif.Lemmas.Heap

/-!
# C31: `get_children` reflects the current children

The claim is false of the code: a list or map that is changed directly forgets its own remembered
children but not those of the objects around it.  Proved: the violation; that this (with the plain
assignment of a child, and a `merge_children` that raises half way) is the only way; and, with no
condition, that a list or map of objects is always up to date.
-/

namespace Pyopenapi.Heap
open Spec

/-- **C31** (partial): after any history of safe operations, from objects that have not yet
remembered anything, `get_children` of any object gives the children it has now.
Missing: histories with an unsafe operation, where the claim is false. -/
theorem C31_current_partial (names : Str → List Str) (limit : Nat) (h0 h h' : Store) (ops : List Op)
    (a : Nat) (d : Dict Nat) (hw : Wf h0) (hc : ∀ x, (h0 x).cache = [])
    (hs : SafeRun names limit h0 ops) (hr : run names limit h0 ops = .ok h)
    (hg : getChildren limit h a = .ok (h', d)) : Current h a d := by
  have hi : Inv h0 := ⟨hw, fun x hx => absurd (hc x) hx, fun x => by rw [hc x]; simp⟩
  obtain ⟨h1, _, h3, _⟩ := getChildren_good limit h a h' d (inv_run hi hs hr) hg
  exact current_of_body (fun x => (h1 x).symm) h3

/-- **C31**: a history made of `attach_child`, `merge_children` (not raising) and `get_children` only
is always safe. -/
theorem C31_attach_merge (names : Str → List Str) (limit : Nat) (h0 h h' : Store) (ops : List Op)
    (a : Nat) (d : Dict Nat) (hw : Wf h0) (hc : ∀ x, (h0 x).cache = [])
    (ho : ∀ op ∈ ops, match op with
      | .attachChild _ _ _ | .getChildren _ => True
      | .mergeChildren x y => ∀ g, (mergeChildren names g x y).2 = none
      | _ => False)
    (hr : run names limit h0 ops = .ok h) (hg : getChildren limit h a = .ok (h', d)) :
    Current h a d := by
  refine C31_current_partial names limit h0 h h' ops a d hw hc ?_ hr hg
  clear hr hg hc hw
  induction ops generalizing h0 with
  | nil => trivial
  | cons op ops ih =>
    refine ⟨?_, fun h1 _ => ih h1 (fun o hm => ho o (List.mem_cons_of_mem _ hm))⟩
    have := ho op (by simp)
    cases op with
    | attachChild => trivial
    | getChildren => trivial
    | mergeChildren x y => exact .inl (this h0)
    | setItem => cases this
    | extend => cases this
    | assign => cases this

/-! ### Lists and maps of objects are always up to date -/

/-- Address `m` is a list or map whose elements are objects of classes or raw values. -/
def Spec.Flat (h : Store) (m : Nat) : Prop :=
  ¬ IsBase h m ∧ ∀ k x, Holds h m k (.ref x) → IsBase h x

/-- The operation puts no list or map into `m`. -/
def Spec.PutsObjects (h : Store) (m : Nat) : Op → Prop
  | .setItem m' _ v => m' = m → ∀ x, v = .ref x → IsBase h x
  | .extend m' vs => m' = m → ∀ x, .ref x ∈ vs → IsBase h x
  | _ => True

theorem collectKids_flat (rec rec' : Store → Nat → R (Store × Dict Nat)) (ss : List (Str × Val))
    (h h' : Store) (ret : Dict Nat) (hb : ∀ x, (h x).body = (h' x).body)
    (hf : ∀ k x, (k, .ref x) ∈ ss → IsBase h x) :
    ∃ d, collectKids rec ss h ret = .ok (h, d) ∧ collectKids rec' ss h' ret = .ok (h', d) := by
  induction ss generalizing ret with
  | nil => exact ⟨ret, rfl, rfl⟩
  | cons s ss ih =>
    have hf' : ∀ k x, (k, .ref x) ∈ ss → IsBase h x := fun k x hm => hf k x (List.mem_cons_of_mem _ hm)
    obtain ⟨k, v⟩ := s
    cases v with
    | raw j => exact ih ret hf'
    | ref x =>
      have h1 : isBase (h x).body = true := isBase_iff.2 (hf k x (by simp))
      have h2 : isBase (h' x).body = true := by rw [← hb]; exact h1
      rw [collectKids, collectKids, if_pos h1, if_pos h2]
      exact ih _ hf'

/-- What is needed of a flat container: its cache is empty or current. -/
def FlatInv (m : Nat) (h : Store) : Prop :=
  Wf h ∧ Flat h m ∧ ((h m).cache ≠ [] → Current h m (h m).cache)

theorem flat_of_body {h h' : Store} {m : Nat} (hb : ∀ x, (h x).body = (h' x).body) (hf : Flat h m) :
    Flat h' m :=
  ⟨fun x => hf.1 ((isBase_of_body hb m).2 x), fun k x hh =>
    (isBase_of_body hb x).1 (hf.2 k x (holds_congr (hb m).symm hh))⟩

theorem flat_fill {rec : Store → Nat → R (Store × Dict Nat)} {m : Nat} {h h' : Store} {d : Dict Nat}
    (hw : Wf h) (hf : Flat h m) (H : collectKids rec (slots (h m).body) h [] = .ok (h', d)) :
    h' = h ∧ Current h m d := by
  let h0 : Store := fun x => { h x with cache := [] }
  have hb : ∀ x, (h x).body = (h0 x).body := fun _ => rfl
  have hi : Inv h0 := ⟨wf_of_body hb hw, fun x hx => absurd rfl hx, fun x => by simp [h0]⟩
  obtain ⟨d', e1, e2⟩ := collectKids_flat rec (fun _ _ => .error .generic) (slots (h m).body) h h0 [] hb
    (fun k x hm => hf.2 k x ((holds_iff hw).2 hm))
  rw [e1] at H
  simp only [Except.ok.injEq, Prod.mk.injEq] at H
  obtain ⟨rfl, rfl⟩ := H
  refine ⟨rfl, ?_⟩
  have hgood : Good (fun _ _ => .error .generic) := fun _ _ _ _ _ hh => by cases hh
  obtain ⟨_, _, g3, _, g5, _⟩ := collectKids_good hgood _ _ _ _ _ hi (by simp) e2
  refine current_of_body (fun x => (hb x).symm) ⟨?_, ?_⟩
  · intro n b hn
    rcases g3 n b hn with hh | hs
    · simp at hh
    · exact (child_iff hi.1).2 hs
  · rintro n ⟨b, hb'⟩
    obtain ⟨s, hs, hc⟩ := (child_iff hi.1).1 hb'
    exact g5 n b s hs hc

theorem getChildren_flat (m n : Nat) : ∀ h a h' d, FlatInv m h → getChildren n h a = .ok (h', d) →
    (∀ x, (h x).body = (h' x).body) ∧ FlatInv m h' ∧ (a = m → Current h' m d) := by
  induction n with
  | zero => intro h a h' d _ H; simp [getChildren] at H
  | succ n ih =>
    have loop : ∀ ss h ret h' d, FlatInv m h → collectKids (getChildren n) ss h ret = .ok (h', d) →
        (∀ x, (h x).body = (h' x).body) ∧ FlatInv m h' := by
      intro ss
      induction ss with
      | nil => intro h ret h' d hi H; cases H; exact ⟨fun _ => rfl, hi⟩
      | cons s ss ihs =>
        intro h ret h' d hi H
        obtain ⟨k, v⟩ := s
        cases v with
        | raw j => exact ihs _ _ _ _ hi H
        | ref b =>
          rw [collectKids] at H
          split at H
          · exact ihs _ _ _ _ hi H
          · cases hr : getChildren n h b with
            | error e => rw [hr] at H; cases H
            | ok p =>
              rw [hr] at H
              obtain ⟨g1, g2, _⟩ := ih _ _ _ _ hi hr
              obtain ⟨g3, g4⟩ := ihs _ _ _ _ g2 H
              exact ⟨fun x => (g1 x).trans (g3 x), g4⟩
    intro h a h' d hi H
    rw [getChildren] at H
    split at H
    next hc =>
      simp only [Except.ok.injEq, Prod.mk.injEq] at H
      obtain ⟨rfl, rfl⟩ := H
      exact ⟨fun _ => rfl, hi, fun ha => ha ▸ hi.2.2 (ha ▸ hc)⟩
    next hc =>
      cases hk : collectKids (getChildren n) (slots (h a).body) h [] with
      | error e => rw [hk] at H; cases H
      | ok p =>
        obtain ⟨h0, d0⟩ := p
        rw [hk] at H
        simp only [bind, Except.bind, Except.ok.injEq, Prod.mk.injEq] at H
        obtain ⟨rfl, rfl⟩ := H
        obtain ⟨g1, g2⟩ := loop _ _ _ _ _ hi hk
        have hbody : ∀ x, (h0 x).body = (upd h0 a { h0 a with cache := d0 } x).body := body_upd_cache
        have hm : a = m → Current h0 m d0 := by
          rintro rfl
          obtain ⟨rfl, hcur⟩ := flat_fill hi.1 hi.2.1 hk
          exact hcur
        refine ⟨fun x => (g1 x).trans (hbody x), ⟨wf_of_body hbody g2.1, flat_of_body hbody g2.2.1, ?_⟩,
          fun ha => current_of_body hbody (hm ha)⟩
        intro hx
        by_cases ha : m = a
        · subst ha
          rw [upd_self] at hx ⊢
          exact current_of_body hbody (hm rfl)
        · rw [upd_ne ha] at hx ⊢
          exact current_of_body hbody (g2.2.2 hx)

/-- One object other than `m` changes its content but not its kind. -/
theorem flatInv_other {h : Store} {m a : Nat} {n : Node} (hi : FlatInv m h) (ha : m ≠ a)
    (hk : isBase n.body = isBase (h a).body) (hw : WfBody n.body) : FlatInv m (upd h a n) := by
  have hbase := isBase_upd (h := h) (a := a) (n := n) hk
  have hbm : (h m).body = (upd h a n m).body := by rw [upd_ne ha]
  refine ⟨wf_upd hi.1 hw, ⟨fun x => hi.2.1.1 ((hbase m).2 x), fun k x hh =>
    (hbase x).1 (hi.2.1.2 k x (holds_congr hbm.symm hh))⟩, ?_⟩
  intro hc
  rw [upd_ne ha] at hc ⊢
  refine current_congr (fun y => y = m) (fun y hy => by rw [hy]; exact hbm) hbase ?_ rfl (hi.2.2 hc)
  rintro y k x rfl hh hx
  exact absurd (hi.2.1.2 k x hh) hx

theorem flatInv_onlyKids {h h' : Store} {m a : Nat} {c : Str} {kids : Dict Val} (hi : FlatInv m h)
    (hb : (h a).body = .base c kids) (ho : OnlyKids h h' a c) : FlatInv m h' := by
  obtain ⟨kids', hn, rfl⟩ := ho
  refine flatInv_other hi ?_ (by rw [hb]; rfl) hn
  rintro rfl
  exact hi.2.1.1 ⟨c, kids, hb⟩

theorem flatInv_invalidate {h : Store} {m a : Nat} (hi : FlatInv m h) : FlatInv m (invalidate h a) := by
  have hbody : ∀ x, (h x).body = (invalidate h a x).body := body_upd_cache
  refine ⟨wf_of_body hbody hi.1, flat_of_body hbody hi.2.1, ?_⟩
  intro hc
  refine current_of_body hbody ?_
  unfold invalidate at hc ⊢
  by_cases hm : m = a
  · subst hm; rw [upd_self] at hc; exact absurd rfl hc
  · rw [upd_ne hm] at hc ⊢; exact hi.2.2 hc

theorem flatInv_self {h : Store} {m : Nat} {b : Body} (hi : FlatInv m h) (hk : isBase b = false)
    (hw : WfBody b) (hf : ∀ k x, Holds (renew h m b) m k (.ref x) → IsBase h x) :
    FlatInv m (renew h m b) := by
  have hm : isBase (h m).body = false := by
    cases hq : isBase (h m).body with
    | false => rfl
    | true => exact absurd (isBase_iff.1 hq) hi.2.1.1
  have hbase := isBase_upd (h := h) (a := m) (n := { body := b, cache := [] }) (by rw [hm, ← hk])
  refine ⟨wf_upd hi.1 hw, ⟨fun x => hi.2.1.1 ((hbase m).2 x), fun k x hh => (hbase x).1 (hf k x hh)⟩, ?_⟩
  intro hc
  unfold renew at hc
  rw [upd_self] at hc
  exact absurd rfl hc

theorem flatInv_step {names : Str → List Str} {limit m : Nat} {h h' : Store} {op : Op}
    (hi : FlatInv m h) (hp : PutsObjects h m op) (H : step names limit h op = .ok h') : FlatInv m h' := by
  cases op with
  | attachChild a k v =>
    simp only [step, Except.ok.injEq] at H
    subst H
    unfold attachChild
    cases hb : (h a).body with
    | list es => exact hi
    | map es => exact hi
    | base c kids =>
      dsimp only
      split
      · cases ha : assign h a k v with
        | error e => exact hi
        | ok h1 =>
          exact flatInv_invalidate (flatInv_onlyKids hi hb (assign_onlyKids (onlyKids_refl hi.1 hb) ha))
      · exact hi
  | mergeChildren a b =>
    simp only [step, Except.ok.injEq] at H
    subst H
    unfold mergeChildren
    cases hb : (h a).body with
    | list es => exact hi
    | map es => exact hi
    | base c kids =>
      have hk := flatInv_onlyKids hi hb (mergeLoop_onlyKids (b := b) (names c) (onlyKids_refl hi.1 hb))
      dsimp only
      cases hm : mergeLoop a b (names c) h with
      | mk h1 e =>
        rw [hm] at hk
        cases e with
        | none => exact flatInv_invalidate hk
        | some e => exact hk
  | setItem m' k v =>
    simp only [step, Except.ok.injEq] at H
    subst H
    unfold setItem
    cases hb : (h m').body with
    | list es => exact hi
    | base c kids => exact hi
    | map es =>
      have hwf : Dict.NodupKeys es := by have := hi.1 m'; rw [hb] at this; exact this
      have hn : WfBody (.map (Dict.set es k v)) := Dict.nodupKeys_set hwf k v
      by_cases hm : m = m'
      · subst hm
        refine flatInv_self hi rfl hn ?_
        intro k' x hh
        cases hh with
        | child hb' _ => unfold renew at hb'; rw [upd_self] at hb'; cases hb'
        | elem hb' _ => unfold renew at hb'; rw [upd_self] at hb'; cases hb'
        | item hb' hk =>
          unfold renew at hb'; rw [upd_self] at hb'; cases hb'
          by_cases hkk : k = k'
          · subst hkk
            rw [Dict.get?_set_self] at hk
            exact hp rfl x (by simpa using hk)
          · rw [Dict.get?_set_ne _ _ hkk] at hk
            exact hi.2.1.2 k' x (.item hb hk)
      · exact flatInv_other hi hm (by rw [hb]; rfl) hn
  | extend l vs =>
    simp only [step, Except.ok.injEq] at H
    subst H
    unfold extend
    cases hb : (h l).body with
    | map es => exact hi
    | base c kids => exact hi
    | list es =>
      by_cases hm : m = l
      · subst hm
        refine flatInv_self hi rfl trivial ?_
        intro k' x hh
        cases hh with
        | child hb' _ => unfold renew at hb'; rw [upd_self] at hb'; cases hb'
        | item hb' _ => unfold renew at hb'; rw [upd_self] at hb'; cases hb'
        | elem hb' hk =>
          unfold renew at hb'; rw [upd_self] at hb'; cases hb'
          rcases List.mem_append.1 (List.mem_of_getElem? hk) with hx | hx
          · obtain ⟨i, hi', he⟩ := List.getElem_of_mem hx
            exact hi.2.1.2 _ x (.elem hb (i := i) (by rw [List.getElem?_eq_getElem hi', he]))
          · exact hp rfl x hx
      · exact flatInv_other hi hm (by rw [hb]; rfl) trivial
  | getChildren a =>
    simp only [step] at H
    cases hg : getChildren limit h a with
    | error e => rw [hg] at H; cases H
    | ok p =>
      rw [hg] at H
      cases H
      exact (getChildren_flat m limit h a _ _ hi hg).2.1
  | assign a k v =>
    simp only [step, Except.ok.injEq] at H
    subst H
    cases ha : assign h a k v with
    | error e => exact hi
    | ok h1 =>
      cases hb : (h a).body with
      | list es => unfold assign at ha; rw [hb] at ha; cases v <;> cases ha
      | map es => unfold assign at ha; rw [hb] at ha; cases v <;> cases ha
      | base c kids => exact flatInv_onlyKids hi hb (assign_onlyKids (onlyKids_refl hi.1 hb) ha)

/-- All operations of a history put only objects into `m`. -/
def Spec.PutsObjectsRun (names : Str → List Str) (limit m : Nat) : Store → List Op → Prop
  | _, [] => True
  | h, op :: ops => PutsObjects h m op ∧
      ∀ h', step names limit h op = .ok h' → PutsObjectsRun names limit m h' ops

/-- **C31**, for a list or map of objects (the only containers the classes of 2.0 and 3.0.0 have,
`security` and `callbacks` excepted): after any history whatsoever in which only objects are put
into it, safe or not, `get_children` gives its children. -/
theorem C31_flat_container (names : Str → List Str) (limit m : Nat) (h0 h h' : Store) (ops : List Op)
    (d : Dict Nat) (hw : Wf h0) (hc : (h0 m).cache = []) (hf : Flat h0 m)
    (hp : PutsObjectsRun names limit m h0 ops) (hr : run names limit h0 ops = .ok h)
    (hg : getChildren limit h m = .ok (h', d)) : Current h m d := by
  have hi : FlatInv m h0 := ⟨hw, hf, fun x => absurd hc x⟩
  have key : FlatInv m h := by
    clear hg hf hc hw
    induction ops generalizing h0 with
    | nil => cases hr; exact hi
    | cons op ops ih =>
      rw [run] at hr
      cases hstep : step names limit h0 op with
      | error e => rw [hstep] at hr; cases hr
      | ok h1 =>
        rw [hstep] at hr
        exact ih h1 (hp.2 h1 hstep) hr (flatInv_step hi hp.1 hstep)
  obtain ⟨g1, _, g3⟩ := getChildren_flat m limit h m h' d key hg
  exact current_of_body (fun x => (g1 x).symm) (g3 rfl)

/-! ### The violation -/

/-- A root object (0) with a map `paths` (1); 2 and 3 are path items; and everything else is an empty
list. -/
def sample : Store := fun a =>
  if a = 0 then ⟨.base (s% "OpenApi") [(s% "paths", .ref 1)], []⟩
  else if a = 1 then ⟨.map [(s% "/a", .ref 2)], []⟩
  else if a = 2 ∨ a = 3 then ⟨.base (s% "PathItem") [], []⟩
  else ⟨.list [], []⟩

/-- The children classes declare in the sample. -/
def sampleNames : Str → List Str := fun c => if c = s% "OpenApi" then [s% "paths", s% "info"] else []

/-- **C31, violation**: look at the children of the root, add a path, look again: the new path item is
a child of the root, and `get_children` does not tell. -/
theorem C31_stale_violation : ∃ h h' d, run sampleNames 100 sample
      [.getChildren 0, .setItem 1 (s% "/b") (.ref 3)] = .ok h ∧
    getChildren 100 h 0 = .ok (h', d) ∧
    Child h 0 (s% "paths/~1b") 3 ∧ Dict.get? d (s% "paths/~1b") = none := by
  refine ⟨_, _, _, rfl, rfl, ?_, by decide +kernel⟩
  refine .through (k := s% "paths") (n := s% "/b") (m := 1) (.child (c := s% "OpenApi") rfl rfl) ?_ ?_
  · rintro ⟨c, kids, hb⟩; cases hb
  · exact .direct (.item rfl (by decide +kernel)) ⟨s% "PathItem", [], rfl⟩

/-- **C31, violation** by plain assignment `root.info = obj` (the setter of obj.py:118-124 does not
forget): the child is there and is not told. -/
theorem C31_assign_violation : ∃ h h' d, run sampleNames 100 sample
      [.getChildren 0, .assign 0 (s% "info") (.ref 3)] = .ok h ∧
    getChildren 100 h 0 = .ok (h', d) ∧
    Child h 0 (s% "info") 3 ∧ Dict.get? d (s% "info") = none := by
  refine ⟨_, _, _, rfl, rfl, ?_, by decide +kernel⟩
  exact .direct (.child (c := s% "OpenApi") rfl (by decide +kernel)) ⟨s% "PathItem", [], rfl⟩

/-- Non-vacuity of `C31_current_partial`: the same with `attach_child` is safe, and changing the map
before anything was remembered is safe. -/
example : ∃ h h' d, SafeRun sampleNames 100 sample
      [.setItem 1 (s% "/b") (.ref 3), .getChildren 0, .attachChild 0 (s% "info") (.ref 3)] ∧
    run sampleNames 100 sample
      [.setItem 1 (s% "/b") (.ref 3), .getChildren 0, .attachChild 0 (s% "info") (.ref 3)] = .ok h ∧
    getChildren 100 h 0 = .ok (h', d) ∧
    Dict.keys d = [s% "paths/~1a", s% "paths/~1b", s% "info"] := by
  refine ⟨_, _, _, ⟨?_, fun _ _ => ⟨trivial, fun _ _ => ⟨trivial, fun _ _ => trivial⟩⟩⟩, rfl, rfl,
    by decide +kernel⟩
  intro a _
  unfold sample
  repeat' split
  all_goals rfl

theorem sample_wf : Wf sample := by
  intro a
  unfold sample
  repeat' split
  all_goals first | trivial | (simp only [WfBody]; decide)

/-- Non-vacuity of `C31_flat_container`: the map of the sample, also after the unsafe history. -/
example : Flat sample 1 ∧ PutsObjectsRun sampleNames 100 1 sample
      [.getChildren 0, .setItem 1 (s% "/b") (.ref 3)] ∧
    ((run sampleNames 100 sample [.getChildren 0, .setItem 1 (s% "/b") (.ref 3)]).bind
      (fun h => getChildren 100 h 1)).map (fun p => Dict.keys p.2) = .ok [s% "/a", s% "/b"] := by
  refine ⟨⟨?_, ?_⟩, ⟨trivial, ?_⟩, by decide +kernel⟩
  · rintro ⟨c, kids, hb⟩; cases hb
  · intro k x hh
    rw [holds_iff sample_wf] at hh
    simp only [sample, slots] at hh
    simp at hh
    obtain ⟨_, rfl⟩ := hh
    exact ⟨s% "PathItem", [], rfl⟩
  · intro h' hh
    simp only [step] at hh
    refine ⟨?_, fun _ _ => trivial⟩
    rintro _ x hx
    cases hx
    have : h' = (match getChildren 100 sample 0 with | .ok p => p.1 | .error _ => sample) := by
      cases hg : getChildren 100 sample 0 with
      | error e => rw [hg] at hh; cases hh
      | ok p => rw [hg] at hh; cases hh; rfl
    subst this
    exact ⟨s% "PathItem", [], rfl⟩

end Pyopenapi.Heap
