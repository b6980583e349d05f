import Verif.Spec.Heap

namespace Pyopenapi.Heap
open Spec

theorem enum_iff {es : List Val} {i : Nat} {k : Str} {v : Val} :
    (k, v) ∈ enum i es ↔ ∃ j : Nat, es[j]? = some v ∧ k = Str.ofNat (i + j) := by
  induction es generalizing i with
  | nil => simp [enum]
  | cons x es ih =>
    simp only [enum, List.mem_cons, Prod.mk.injEq, ih]
    constructor
    · rintro (⟨rfl, rfl⟩ | ⟨j, hj, rfl⟩)
      · exact ⟨0, by simp, rfl⟩
      · exact ⟨j + 1, by simpa using hj, by congr 1; omega⟩
    · rintro ⟨j, hj, rfl⟩
      cases j with
      | zero => left; simp at hj; exact ⟨rfl, hj.symm⟩
      | succ j => right; exact ⟨j, by simpa using hj, by congr 1; omega⟩

theorem holds_iff {h : Store} (hw : Wf h) {a : Nat} {k : Str} {v : Val} :
    Holds h a k v ↔ (k, v) ∈ slots (h a).body := by
  have hwa := hw a
  constructor
  · rintro (⟨hb, hk⟩ | ⟨hb, hk⟩ | ⟨hb, hk⟩)
    · rw [hb]; exact Dict.mem_of_get? hk
    · rw [hb]; exact Dict.mem_of_get? hk
    · rw [hb]; exact enum_iff.2 ⟨_, hk, by simp⟩
  · intro hm
    cases hb : (h a).body with
    | base c kids =>
      rw [hb] at hm hwa
      exact .child hb (Dict.get?_of_mem hwa hm)
    | map es =>
      rw [hb] at hm hwa
      exact .item hb (Dict.get?_of_mem hwa hm)
    | list es =>
      rw [hb] at hm
      obtain ⟨j, hj, rfl⟩ := enum_iff.1 hm
      rw [Nat.zero_add]
      exact .elem hb hj

theorem isBase_iff {h : Store} {a : Nat} : isBase (h a).body = true ↔ IsBase h a := by
  unfold IsBase
  cases hb : (h a).body <;> simp [isBase]

theorem holds_congr {h h' : Store} {a : Nat} (he : (h a).body = (h' a).body) {k : Str} {v : Val}
    (H : Holds h a k v) : Holds h' a k v := by
  cases H with
  | child hb hk => exact .child (he ▸ hb) hk
  | item hb hk => exact .item (he ▸ hb) hk
  | elem hb hk => exact .elem (he ▸ hb) hk

/-- The children of an object whose containers are not changed are not changed. -/
theorem child_congr {h h' : Store} (P : Nat → Prop)
    (hbody : ∀ a, P a → (h a).body = (h' a).body)
    (hbase : ∀ a, IsBase h a ↔ IsBase h' a)
    (hcl : ∀ a k x, P a → Holds h a k (.ref x) → ¬ IsBase h x → P x)
    {a : Nat} {n : Str} {b : Nat} (hP : P a) (H : Child h a n b) : Child h' a n b := by
  induction H with
  | direct hh hb => exact .direct (holds_congr (hbody _ hP) hh) ((hbase _).1 hb)
  | through hh hb _ ih =>
    exact .through (holds_congr (hbody _ hP) hh) (fun x => hb ((hbase _).2 x)) (ih (hcl _ _ _ hP hh hb))

theorem current_congr {h h' : Store} (P : Nat → Prop)
    (hbody : ∀ a, P a → (h a).body = (h' a).body)
    (hbase : ∀ a, IsBase h a ↔ IsBase h' a)
    (hcl : ∀ a k x, P a → Holds h a k (.ref x) → ¬ IsBase h x → P x)
    {a : Nat} {d : Dict Nat} (hP : P a) (H : Current h a d) : Current h' a d := by
  have hcl' : ∀ a k x, P a → Holds h' a k (.ref x) → ¬ IsBase h' x → P x := fun a k x hp hh hb =>
    hcl a k x hp (holds_congr (hbody a hp).symm hh) (fun y => hb ((hbase _).1 y))
  refine ⟨fun n b hn => child_congr P hbody hbase hcl hP (H.1 n b hn), ?_⟩
  rintro n ⟨b, hb⟩
  exact H.2 n ⟨b, child_congr P (fun a hp => (hbody a hp).symm) (fun a => (hbase a).symm) hcl' hP hb⟩

/-- All remembered children are current. -/
def Inv (h : Store) : Prop :=
  Wf h ∧ (∀ a, (h a).cache ≠ [] → Current h a (h a).cache) ∧ ∀ a, Dict.NodupKeys (h a).cache

theorem isBase_of_body {h h' : Store} (hb : ∀ a, (h a).body = (h' a).body) (a : Nat) :
    IsBase h a ↔ IsBase h' a := by
  unfold IsBase; rw [hb]

theorem wf_of_body {h h' : Store} (hb : ∀ a, (h a).body = (h' a).body) (hw : Wf h) : Wf h' := by
  intro a
  have := hw a
  rw [hb] at this
  exact this

theorem current_of_body {h h' : Store} (hb : ∀ a, (h a).body = (h' a).body) {a : Nat} {d : Dict Nat}
    (H : Current h a d) : Current h' a d :=
  current_congr (fun _ => True) (fun a _ => hb a) (isBase_of_body hb) (fun _ _ _ _ _ _ => trivial) trivial H

theorem get?_addAll {ch ret : Dict Nat} {k n : Str} {b : Nat}
    (H : Dict.get? (addAll ret k ch) n = some b) :
    Dict.get? ret n = some b ∨ ∃ m, n = jpCompose [k, m] none ∧ (m, b) ∈ ch := by
  induction ch generalizing ret with
  | nil => exact .inl H
  | cons x ch ih =>
    rcases ih (ret := Dict.set ret (jpCompose [k, x.1] none) x.2) H with h1 | ⟨m, hn, hm⟩
    · by_cases hx : jpCompose [k, x.1] none = n
      · subst hx
        rw [Dict.get?_set_self] at h1
        exact .inr ⟨x.1, rfl, by cases h1; simp⟩
      · rw [Dict.get?_set_ne _ _ hx] at h1
        exact .inl h1
    · exact .inr ⟨m, hn, List.mem_cons_of_mem _ hm⟩

theorem addAll_old {ch ret : Dict Nat} {k n : Str} (H : ∃ b, Dict.get? ret n = some b) :
    ∃ b, Dict.get? (addAll ret k ch) n = some b := by
  induction ch generalizing ret with
  | nil => exact H
  | cons x ch ih =>
    apply ih (ret := Dict.set ret (jpCompose [k, x.1] none) x.2)
    by_cases hx : jpCompose [k, x.1] none = n
    · subst hx; exact ⟨_, Dict.get?_set_self _ _ _⟩
    · rw [Dict.get?_set_ne _ _ hx]; exact H

theorem addAll_new {ch ret : Dict Nat} {k m : Str} {b : Nat} (H : (m, b) ∈ ch) :
    ∃ b, Dict.get? (addAll ret k ch) (jpCompose [k, m] none) = some b := by
  induction ch generalizing ret with
  | nil => simp at H
  | cons x ch ih =>
    rcases List.mem_cons.1 H with rfl | H
    · exact addAll_old (ret := Dict.set ret (jpCompose [k, m] none) b) ⟨_, Dict.get?_set_self _ _ _⟩
    · exact ih (ret := Dict.set ret (jpCompose [k, x.1] none) x.2) H

theorem nodupKeys_addAll {ch ret : Dict Nat} {k : Str} (H : Dict.NodupKeys ret) :
    Dict.NodupKeys (addAll ret k ch) := by
  induction ch generalizing ret with
  | nil => exact H
  | cons x ch ih => exact ih (Dict.nodupKeys_set H _ _)

/-- Children under one slot. -/
def SlotChild (h : Store) (s : Str × Val) (n : Str) (b : Nat) : Prop :=
  ∃ m, s.2 = .ref m ∧ ((IsBase h m ∧ n = s.1 ∧ b = m) ∨
    (¬ IsBase h m ∧ ∃ n', n = jpCompose [s.1, n'] none ∧ Child h m n' b))

theorem child_iff {h : Store} (hw : Wf h) {a : Nat} {n : Str} {b : Nat} :
    Child h a n b ↔ ∃ s ∈ slots (h a).body, SlotChild h s n b := by
  constructor
  · intro H
    cases H with
    | direct hh hb => exact ⟨_, (holds_iff hw).1 hh, _, rfl, .inl ⟨hb, rfl, rfl⟩⟩
    | through hh hb hc => exact ⟨_, (holds_iff hw).1 hh, _, rfl, .inr ⟨hb, _, rfl, hc⟩⟩
  · rintro ⟨⟨k, v⟩, hs, m, rfl, ⟨hb, rfl, rfl⟩ | ⟨hb, n', rfl, hc⟩⟩
    · exact .direct ((holds_iff hw).2 hs) hb
    · exact .through ((holds_iff hw).2 hs) hb hc

/-- What a call of `get_children` guarantees. -/
def Good (rec : Store → Nat → R (Store × Dict Nat)) : Prop :=
  ∀ h a h' d, Inv h → rec h a = .ok (h', d) →
    (∀ x, (h x).body = (h' x).body) ∧ Inv h' ∧ Current h' a d ∧ Dict.NodupKeys d

theorem collectKids_good {rec : Store → Nat → R (Store × Dict Nat)} (hr : Good rec)
    (ss : List (Str × Val)) (h : Store) (ret : Dict Nat) (h' : Store) (d : Dict Nat) (hi : Inv h)
    (hn : Dict.NodupKeys ret) (H : collectKids rec ss h ret = .ok (h', d)) :
    (∀ x, (h x).body = (h' x).body) ∧ Inv h' ∧
    (∀ n b, Dict.get? d n = some b → Dict.get? ret n = some b ∨ ∃ s ∈ ss, SlotChild h s n b) ∧
    (∀ n, (∃ b, Dict.get? ret n = some b) → ∃ b, Dict.get? d n = some b) ∧
    (∀ n b s, s ∈ ss → SlotChild h s n b → ∃ b, Dict.get? d n = some b) ∧
    Dict.NodupKeys d := by
  induction ss generalizing h ret with
  | nil =>
    simp only [collectKids, Except.ok.injEq, Prod.mk.injEq] at H
    obtain ⟨rfl, rfl⟩ := H
    exact ⟨fun _ => rfl, hi, fun n b hb => .inl hb, fun n hn => hn, by simp, hn⟩
  | cons s ss ih =>
    obtain ⟨k, v⟩ := s
    cases v with
    | raw j =>
      simp only [collectKids] at H
      obtain ⟨h1, h2, h3, h4, h5, h6⟩ := ih h ret hi hn H
      refine ⟨h1, h2, ?_, h4, ?_, h6⟩
      · intro n b hb
        rcases h3 n b hb with hh | ⟨s, hs, hc⟩
        · exact .inl hh
        · exact .inr ⟨s, List.mem_cons_of_mem _ hs, hc⟩
      · intro n b s hs hc
        rcases List.mem_cons.1 hs with rfl | hs
        · obtain ⟨m, hm, _⟩ := hc; cases hm
        · exact h5 n b s hs hc
    | ref m =>
      simp only [collectKids] at H
      split at H
      next hb =>
        have hbase := isBase_iff.1 hb
        obtain ⟨h1, h2, h3, h4, h5, h6⟩ := ih h _ hi (Dict.nodupKeys_set hn _ _) H
        refine ⟨h1, h2, ?_, ?_, ?_, h6⟩
        · intro n b hb
          rcases h3 n b hb with hh | ⟨s, hs, hc⟩
          · by_cases hk : k = n
            · subst hk
              rw [Dict.get?_set_self] at hh
              cases hh
              exact .inr ⟨(k, .ref m), by simp, m, rfl, .inl ⟨hbase, rfl, rfl⟩⟩
            · rw [Dict.get?_set_ne _ _ hk] at hh
              exact .inl hh
          · exact .inr ⟨s, List.mem_cons_of_mem _ hs, hc⟩
        · intro n hn
          apply h4
          by_cases hk : k = n
          · subst hk; exact ⟨_, Dict.get?_set_self _ _ _⟩
          · rw [Dict.get?_set_ne _ _ hk]; exact hn
        · intro n b s hs hc
          rcases List.mem_cons.1 hs with rfl | hs
          · obtain ⟨m', hm, hc⟩ := hc
            cases hm
            rcases hc with ⟨_, rfl, rfl⟩ | ⟨hnb, _⟩
            · exact h4 _ ⟨_, Dict.get?_set_self _ _ _⟩
            · exact absurd hbase hnb
          · exact h5 n b s hs hc
      next hb =>
        have hbase : ¬ IsBase h m := fun x => hb (isBase_iff.2 x)
        cases hrec : rec h m with
        | error e => rw [hrec] at H; cases H
        | ok p =>
          obtain ⟨h0, ch⟩ := p
          rw [hrec] at H
          obtain ⟨g1, g2, g3, g4⟩ := hr h m h0 ch hi hrec
          obtain ⟨h1, h2, h3, h4, h5, h6⟩ := ih h0 _ g2 (nodupKeys_addAll hn) H
          have g1' : ∀ x, (h0 x).body = (h x).body := fun x => (g1 x).symm
          have hcur : Current h m ch := current_of_body g1' g3
          have hslot : ∀ s n b, SlotChild h0 s n b ↔ SlotChild h s n b := by
            intro s n b
            have hc : ∀ x n b, Child h0 x n b ↔ Child h x n b := fun x n b =>
              ⟨child_congr (fun _ => True) (fun a _ => g1' a) (isBase_of_body g1') (fun _ _ _ _ _ _ => trivial) trivial,
               child_congr (fun _ => True) (fun a _ => g1 a) (isBase_of_body g1) (fun _ _ _ _ _ _ => trivial) trivial⟩
            unfold SlotChild
            simp only [hc, isBase_of_body g1']
          refine ⟨fun x => (g1 x).trans (h1 x), h2, ?_, ?_, ?_, h6⟩
          · intro n b hb
            rcases h3 n b hb with hh | ⟨s, hs, hc⟩
            · rcases get?_addAll hh with hh | ⟨n', rfl, hm⟩
              · exact .inl hh
              · exact .inr ⟨(k, .ref m), by simp, m, rfl, .inr ⟨hbase, n', rfl,
                  hcur.1 n' b (Dict.get?_of_mem g4 hm)⟩⟩
            · exact .inr ⟨s, List.mem_cons_of_mem _ hs, (hslot s n b).1 hc⟩
          · intro n hn
            exact h4 n (addAll_old hn)
          · intro n b s hs hc
            rcases List.mem_cons.1 hs with rfl | hs
            · obtain ⟨m', hm, hc⟩ := hc
              cases hm
              rcases hc with ⟨hnb, _⟩ | ⟨_, n', rfl, hc⟩
              · exact absurd hnb hbase
              · obtain ⟨b', hb'⟩ := hcur.2 n' ⟨b, hc⟩
                exact h4 _ (addAll_new (Dict.mem_of_get? hb'))
            · exact h5 n b s hs ((hslot s n b).2 hc)

theorem upd_self {h : Store} {a : Nat} {n : Node} : upd h a n a = n := by simp [upd]
theorem upd_ne {h : Store} {a b : Nat} {n : Node} (hb : b ≠ a) : upd h a n b = h b := by simp [upd, hb]

/-- Changing a cache does not change the content. -/
theorem body_upd_cache {h : Store} {a : Nat} {d : Dict Nat} (x : Nat) :
    (h x).body = (upd h a { h a with cache := d } x).body := by
  by_cases hx : x = a
  · subst hx; rw [upd_self]
  · rw [upd_ne hx]

theorem inv_upd_cache {h : Store} {a : Nat} {d : Dict Nat} (hi : Inv h)
    (hd : d ≠ [] → Current h a d) (hn : Dict.NodupKeys d) : Inv (upd h a { h a with cache := d }) := by
  refine ⟨wf_of_body body_upd_cache hi.1, ?_, ?_⟩
  · intro x hx
    by_cases hxa : x = a
    · subst hxa
      rw [upd_self] at hx ⊢
      exact current_of_body body_upd_cache (hd hx)
    · rw [upd_ne hxa] at hx ⊢
      exact current_of_body body_upd_cache (hi.2.1 x hx)
  · intro x
    by_cases hxa : x = a
    · subst hxa; rw [upd_self]; exact hn
    · rw [upd_ne hxa]; exact hi.2.2 x

/-- `get_children` gives the current children and leaves only current caches behind. -/
theorem getChildren_good (n : Nat) : Good (getChildren n) := by
  induction n with
  | zero => intro h a h' d _ H; simp [getChildren] at H
  | succ n ih =>
    intro h a h' d hi H
    rw [getChildren] at H
    split at H
    next hc =>
      simp only [Except.ok.injEq, Prod.mk.injEq] at H
      obtain ⟨rfl, rfl⟩ := H
      exact ⟨fun _ => rfl, hi, hi.2.1 a hc, hi.2.2 a⟩
    next hc =>
      cases hk : collectKids (getChildren n) (slots (h a).body) h [] with
      | error e => rw [hk] at H; cases H
      | ok p =>
        obtain ⟨h0, d0⟩ := p
        rw [hk] at H
        simp only [bind, Except.bind, Except.ok.injEq, Prod.mk.injEq] at H
        obtain ⟨rfl, rfl⟩ := H
        obtain ⟨g1, g2, g3, g4, g5, g6⟩ := collectKids_good ih _ _ _ _ _ hi (by simp) hk
        have hcur : Current h a d0 := by
          refine ⟨?_, ?_⟩
          · intro m b hm
            rcases g3 m b hm with hh | hs
            · simp at hh
            · exact (child_iff hi.1).2 hs
          · rintro m ⟨b, hb⟩
            obtain ⟨s, hs, hc⟩ := (child_iff hi.1).1 hb
            exact g5 m b s hs hc
        have hcur0 := current_of_body g1 hcur
        exact ⟨fun x => (g1 x).trans (body_upd_cache x), inv_upd_cache g2 (fun _ => hcur0) g6,
          current_of_body body_upd_cache hcur0, g6⟩

theorem isBase_upd {h : Store} {a : Nat} {n : Node} (hb : isBase n.body = isBase (h a).body) (x : Nat) :
    IsBase h x ↔ IsBase (upd h a n) x := by
  rw [← isBase_iff, ← isBase_iff]
  by_cases hx : x = a
  · subst hx; rw [upd_self, hb]
  · rw [upd_ne hx]

theorem wf_upd {h : Store} {a : Nat} {n : Node} (hw : Wf h)
    (hb : WfBody n.body) : Wf (upd h a n) := by
  intro x
  by_cases hx : x = a
  · subst hx; rw [upd_self]; exact hb
  · rw [upd_ne hx]; exact hw x

/-- A new content for a `Base2Obj` whose cache is empty afterwards. -/
theorem inv_base {h : Store} {a : Nat} {c c' : Str} {kids kids' : Dict Val} (hi : Inv h)
    (hb : (h a).body = .base c kids) (hn : Dict.NodupKeys kids') :
    Inv (upd h a { body := .base c' kids', cache := [] }) := by
  have hbase := isBase_upd (h := h) (a := a) (n := { body := .base c' kids', cache := [] }) (by rw [hb]; rfl)
  refine ⟨wf_upd hi.1 hn, ?_, ?_⟩
  · intro x hx
    by_cases hxa : x = a
    · subst hxa; rw [upd_self] at hx; exact absurd rfl hx
    · rw [upd_ne hxa] at hx ⊢
      refine current_congr (fun y => y ≠ a) (fun y hy => by rw [upd_ne hy]) hbase ?_ hxa (hi.2.1 x hx)
      rintro y k z _ _ hz rfl
      exact hz ⟨c, kids, hb⟩
  · intro x
    by_cases hxa : x = a
    · subst hxa; rw [upd_self]; simp
    · rw [upd_ne hxa]; exact hi.2.2 x

/-- A new content for a list or map, when no object around it has a filled cache. -/
theorem inv_container {h : Store} {m : Nat} {b : Body} (hi : Inv h)
    (hb : isBase (h m).body = false) (hb' : isBase b = false)
    (hn : WfBody b)
    (hs : ∀ a, Inside h m a → (h a).cache = []) : Inv (renew h m b) := by
  have hbase := isBase_upd (h := h) (a := m) (n := { body := b, cache := [] }) (by rw [hb, ← hb'])
  refine ⟨wf_upd hi.1 hn, ?_, ?_⟩
  · intro x hx
    unfold renew at hx ⊢
    by_cases hxa : x = m
    · subst hxa; rw [upd_self] at hx; exact absurd rfl hx
    · rw [upd_ne hxa] at hx ⊢
      refine current_congr (fun y => y ≠ m ∧ ¬ Inside h m y) (fun y hy => by rw [upd_ne hy.1]) hbase ?_
        ⟨hxa, fun hin => hx (hs x hin)⟩ (hi.2.1 x hx)
      rintro y k z ⟨_, hy⟩ hh hz
      refine ⟨?_, fun hin => hy (.through hh hz hin)⟩
      rintro rfl
      exact hy (.direct hh)
  · intro x
    unfold renew
    by_cases hxa : x = m
    · subst hxa; rw [upd_self]; simp
    · rw [upd_ne hxa]; exact hi.2.2 x

/-- `h'` differs from `h` only in the children of `a`. -/
def OnlyKids (h h' : Store) (a : Nat) (c : Str) : Prop :=
  ∃ kids', Dict.NodupKeys kids' ∧ h' = upd h a { body := .base c kids', cache := (h a).cache }

theorem onlyKids_refl {h : Store} (hw : Wf h) {a : Nat} {c : Str} {kids : Dict Val}
    (hb : (h a).body = .base c kids) : OnlyKids h h a c := by
  refine ⟨kids, ?_, ?_⟩
  · have := hw a; rw [hb] at this; exact this
  · funext x
    by_cases hx : x = a
    · subst hx; rw [upd_self, ← hb]
    · rw [upd_ne hx]

theorem assign_onlyKids {h h0 h' : Store} {a : Nat} {c : Str} {k : Str} {v : Val}
    (ho : OnlyKids h h0 a c) (H : assign h0 a k v = .ok h') : OnlyKids h h' a c := by
  obtain ⟨kids, hn, rfl⟩ := ho
  unfold assign at H
  rw [upd_self] at H
  cases v with
  | raw j => simp at H
  | ref b =>
    simp only [Except.ok.injEq] at H
    subst H
    refine ⟨_, Dict.nodupKeys_set hn k (.ref b), ?_⟩
    funext x
    by_cases hx : x = a
    · subst hx; simp [upd_self]
    · simp [upd_ne hx]

theorem mergeLoop_onlyKids {h h0 : Store} {a b : Nat} {c : Str} (ks : List Str)
    (ho : OnlyKids h h0 a c) : OnlyKids h (mergeLoop a b ks h0).1 a c := by
  induction ks generalizing h0 with
  | nil => exact ho
  | cons k ks ih =>
    rw [mergeLoop]
    cases hm : mergeStep a b h0 k with
    | error e => exact ho
    | ok h1 =>
      apply ih
      unfold mergeStep at hm
      cases ha : attr h0 a k with
      | error e => rw [ha] at hm; cases hm
      | ok v =>
        rw [ha] at hm
        simp only [bind, Except.bind] at hm
        split at hm
        · cases hm; exact ho
        · cases hb : attr h0 b k with
          | error e => rw [hb] at hm; cases hm
          | ok w =>
            rw [hb] at hm
            simp only at hm
            split at hm
            · exact assign_onlyKids ho hm
            · cases hm; exact ho

theorem inv_onlyKids {h h' : Store} {a : Nat} {c : Str} {kids : Dict Val} (hi : Inv h)
    (hb : (h a).body = .base c kids) (hc : (h a).cache = []) (ho : OnlyKids h h' a c) : Inv h' := by
  obtain ⟨kids', hn, rfl⟩ := ho
  rw [hc]
  exact inv_base hi hb hn

theorem inv_onlyKids_invalidate {h h' : Store} {a : Nat} {c : Str} {kids : Dict Val} (hi : Inv h)
    (hb : (h a).body = .base c kids) (ho : OnlyKids h h' a c) : Inv (invalidate h' a) := by
  obtain ⟨kids', hn, rfl⟩ := ho
  have : invalidate (upd h a { body := .base c kids', cache := (h a).cache }) a =
      upd h a { body := .base c kids', cache := [] } := by
    funext x
    unfold invalidate
    by_cases hx : x = a
    · subst hx; simp [upd_self]
    · simp [upd_ne hx]
  rw [this]
  exact inv_base hi hb hn

/-- A safe operation keeps all caches current. -/
theorem inv_step {names : Str → List Str} {limit : Nat} {h h' : Store} {op : Op} (hi : Inv h)
    (hs : Safe names h op) (H : step names limit h op = .ok h') : Inv h' := by
  cases op with
  | attachChild a k v =>
    simp only [step, Except.ok.injEq] at H
    subst H
    unfold attachChild
    cases hb : (h a).body with
    | list es => exact hi
    | map es => exact hi
    | base c kids =>
      dsimp only
      split
      · cases ha : assign h a k v with
        | error e => exact hi
        | ok h1 => exact inv_onlyKids_invalidate hi hb (assign_onlyKids (onlyKids_refl hi.1 hb) ha)
      · exact hi
  | mergeChildren a b =>
    simp only [step, Except.ok.injEq] at H
    subst H
    simp only [Safe] at hs
    unfold mergeChildren at hs ⊢
    cases hb : (h a).body with
    | list es => exact hi
    | map es => exact hi
    | base c kids =>
      rw [hb] at hs
      have hk := mergeLoop_onlyKids (b := b) (names c) (onlyKids_refl hi.1 hb)
      dsimp only at hs ⊢
      cases hm : mergeLoop a b (names c) h with
      | mk h1 e =>
        rw [hm] at hs hk
        cases e with
        | none => exact inv_onlyKids_invalidate hi hb hk
        | some e =>
          rcases hs with hs | hs | hs
          · cases hs
          · exact inv_onlyKids hi hb hs hk
          · exact absurd ⟨c, kids, hb⟩ hs
  | setItem m k v =>
    simp only [step, Except.ok.injEq] at H
    subst H
    unfold setItem
    cases hb : (h m).body with
    | list es => exact hi
    | base c kids => exact hi
    | map es =>
      refine inv_container hi (by rw [hb]; rfl) rfl ?_ hs
      have := hi.1 m
      rw [hb] at this
      exact Dict.nodupKeys_set this k v
  | extend l vs =>
    simp only [step, Except.ok.injEq] at H
    subst H
    unfold extend
    cases hb : (h l).body with
    | map es => exact hi
    | base c kids => exact hi
    | list es => exact inv_container hi (by rw [hb]; rfl) rfl trivial hs
  | getChildren a =>
    simp only [step] at H
    cases hg : getChildren limit h a with
    | error e => rw [hg] at H; cases H
    | ok p =>
      rw [hg] at H
      cases H
      exact (getChildren_good limit h a _ _ hi hg).2.1
  | assign a k v =>
    simp only [step, Except.ok.injEq] at H
    subst H
    cases ha : assign h a k v with
    | error e => exact hi
    | ok h1 =>
      cases hb : (h a).body with
      | list es => unfold assign at ha; rw [hb] at ha; cases v <;> cases ha
      | map es => unfold assign at ha; rw [hb] at ha; cases v <;> cases ha
      | base c kids => exact inv_onlyKids hi hb hs (assign_onlyKids (onlyKids_refl hi.1 hb) ha)

theorem inv_run {names : Str → List Str} {limit : Nat} {h h' : Store} {ops : List Op} (hi : Inv h)
    (hs : SafeRun names limit h ops) (H : run names limit h ops = .ok h') : Inv h' := by
  induction ops generalizing h with
  | nil => cases H; exact hi
  | cons op ops ih =>
    rw [run] at H
    cases hstep : step names limit h op with
    | error e => rw [hstep] at H; cases H
    | ok h1 =>
      rw [hstep] at H
      exact ih (inv_step hi hs.1 hstep) (hs.2 h1 hstep) H

end Pyopenapi.Heap
