import Verif.Spec.PathItem
import Verif.Lemmas.Heap
import Verif.Lemmas.Dict
import Verif.Lemmas.Eval
import Verif.Model.Ops
import Verif.Model.Tables
import Batteries.Data.List.Perm

/-!
# C59: merging a path item with the path items it refers to
-/

namespace Pyopenapi.PathItem
open Heap _root_.Pyopenapi.PathItem.Spec

variable {W : Type}

theorem truthy_upd_base {h : Store} {a : Nat} {c c' : Str} {kids kids' : Dict Val} {ch : Dict Nat} (hb : (h a).body = .base c kids)
    (v : Val) : Heap.truthy (upd h a { body := .base c' kids', cache := ch }) v = Heap.truthy h v := by
  cases v with
  | raw j => rfl
  | ref b =>
    unfold Heap.truthy
    by_cases hx : b = a
    · subst hx; simp [upd_self, hb]
    · simp [upd_ne hx]

theorem truthy_body {h h' : Store} (hb : ∀ a, (h' a).body = (h a).body) (v : Val) : Heap.truthy h' v = Heap.truthy h v := by
  cases v with
  | raw j => rfl
  | ref b => unfold Heap.truthy; simp only [hb]

/-- The non-empty child among `kids`. -/
def pick (h : Store) (kids : Dict Val) (k : Str) : Option Val := (Dict.get? kids k).filter (Heap.truthy h)

theorem child_pick {h : Store} {a : Nat} {c : Str} {kids : Dict Val} (hb : (h a).body = .base c kids) (k : Str) :
    child h a k = pick h kids k := by
  unfold child pick; rw [hb]

theorem getD_truthy {h : Store} {kids : Dict Val} {k : Str} :
    Heap.truthy h ((Dict.get? kids k).getD (.raw .null)) = (pick h kids k).isSome := by
  unfold pick
  cases Dict.get? kids k with
  | none => rfl
  | some v => simp only [Option.getD_some, Option.filter]; split <;> simp_all

theorem mergeLoop_one {f b : Nat} {c cb : Str} {kb : Dict Val} : ∀ (ks : List Str) {h h' : Store} {kids : Dict Val},
    f ≠ b → (h f).body = .base c kids → (h b).body = .base cb kb → mergeLoop f b ks h = (h', none) →
    ∃ kids', (h' f).body = .base c kids' ∧ (∀ x, x ≠ f → h' x = h x) ∧ (∀ v, Heap.truthy h' v = Heap.truthy h v) ∧
      (∀ k, pick h kids' k = if k ∈ ks then (pick h kids k).or (pick h kb k) else pick h kids k) ∧
      (∀ k, Dict.get? kids' k = Dict.get? kids k ∨ (k ∈ ks ∧ Dict.get? kids' k = pick h kb k)) := by
  intro ks
  induction ks with
  | nil =>
    intro h h' kids _ hf _ hr
    cases hr
    exact ⟨kids, hf, fun _ _ => rfl, fun _ => rfl, fun k => by simp, fun k => .inl rfl⟩
  | cons k ks ih =>
    intro h h' kids hne hf hb hr
    rw [mergeLoop] at hr
    have hstep : mergeStep f b h k = (if (pick h kids k).isSome then .ok h else
        if (pick h kb k).isSome then assign h f k ((Dict.get? kb k).getD (.raw .null)) else .ok h) := by
      unfold mergeStep
      have e1 : attr h f k = .ok ((Dict.get? kids k).getD (.raw .null)) := by unfold attr; rw [hf]
      have e2 : attr h b k = .ok ((Dict.get? kb k).getD (.raw .null)) := by unfold attr; rw [hb]
      simp only [e1, e2, bind, Except.bind, getD_truthy]
    rw [hstep] at hr
    by_cases h1 : (pick h kids k).isSome
    · rw [if_pos h1] at hr
      obtain ⟨kids', a1, a2, a3, a4, a5⟩ := ih hne hf hb hr
      refine ⟨kids', a1, a2, a3, fun j => ?_, fun j => ?_⟩
      · rw [a4 j]
        by_cases hj : j = k
        · subst hj
          obtain ⟨v, hv⟩ := Option.isSome_iff_exists.1 h1
          simp [hv]
        · simp [hj]
      · rcases a5 j with e | ⟨e1, e2⟩
        · exact .inl e
        · exact .inr ⟨List.mem_cons_of_mem _ e1, e2⟩
    · rw [if_neg h1] at hr
      have h1' : pick h kids k = none := by simpa using h1
      by_cases h2 : (pick h kb k).isSome
      · rw [if_pos h2] at hr
        obtain ⟨v, hv⟩ := Option.isSome_iff_exists.1 h2
        have hg : Dict.get? kb k = some v := by
          unfold pick at hv
          rw [Option.filter_eq_some_iff] at hv
          exact hv.1
        rw [hg, Option.getD_some] at hr
        cases v with
        | raw j => unfold assign at hr; rw [hf] at hr; cases hr
        | ref y =>
          have ha : assign h f k (.ref y) = .ok (upd h f { body := .base c (Dict.set kids k (.ref y)), cache := (h f).cache }) := by
            unfold assign; rw [hf]
          rw [ha] at hr
          have ht := fun v => truthy_upd_base (c' := c) (kids' := Dict.set kids k (.ref y)) (ch := (h f).cache) hf v
          have hp : ∀ d j, pick (upd h f { body := .base c (Dict.set kids k (.ref y)), cache := (h f).cache }) d j = pick h d j := by
            intro d j; unfold pick; congr 1; funext v; exact ht v
          obtain ⟨kids', a1, a2, a3, a4, a5⟩ := ih (kids := Dict.set kids k (.ref y)) hne (by rw [upd_self]) (by rw [upd_ne (Ne.symm hne)]; exact hb) hr
          have hset : ∀ j, pick h (Dict.set kids k (.ref y)) j = if j = k then some (.ref y) else pick h kids j := by
            intro j
            unfold pick
            by_cases hj : j = k
            · subst hj
              rw [Dict.get?_set_self, if_pos rfl]
              unfold pick at hv
              rw [hg] at hv
              exact hv
            · rw [Dict.get?_set_ne _ _ (Ne.symm hj), if_neg hj]
          refine ⟨kids', a1, fun x hx => by rw [a2 x hx, upd_ne hx], fun v => by rw [a3, ht], fun j => ?_, fun j => ?_⟩
          · have := a4 j
            rw [hp, hp, hp, hset] at this
            rw [this]
            by_cases hj : j = k
            · subst hj; simp [h1', hv]
            · simp [hj]
          · have := a5 j
            rw [hp] at this
            by_cases hj : j = k
            · subst hj
              right
              refine ⟨by simp, ?_⟩
              rcases this with e | ⟨_, e⟩
              · rw [e, Dict.get?_set_self, hv]
              · exact e
            · rcases this with e | ⟨e1, e2⟩
              · exact .inl (by rw [e, Dict.get?_set_ne _ _ (Ne.symm hj)])
              · exact .inr ⟨List.mem_cons_of_mem _ e1, e2⟩
      · rw [if_neg h2] at hr
        have h2' : pick h kb k = none := by simpa using h2
        obtain ⟨kids', a1, a2, a3, a4, a5⟩ := ih hne hf hb hr
        refine ⟨kids', a1, a2, a3, fun j => ?_, fun j => ?_⟩
        · rw [a4 j]
          by_cases hj : j = k
          · subst hj; simp [h1', h2']
          · simp [hj]
        · rcases a5 j with e | ⟨e1, e2⟩
          · exact .inl e
          · exact .inr ⟨List.mem_cons_of_mem _ e1, e2⟩

theorem mergeStep_other {f b : Nat} {h h' : Store} {k : Str} (H : mergeStep f b h k = .ok h') :
    ∀ x, x ≠ f → h' x = h x := by
  intro x hx
  unfold mergeStep at H
  cases e1 : attr h f k with
  | error e => rw [e1] at H; cases H
  | ok v =>
    simp only [e1, bind, Except.bind] at H
    by_cases h1 : Heap.truthy h v = true
    · rw [if_pos h1] at H; cases H; rfl
    · rw [if_neg h1] at H
      cases e2 : attr h b k with
      | error e => rw [e2] at H; cases H
      | ok v' =>
        simp only [e2] at H
        by_cases h2 : Heap.truthy h v' = true
        · rw [if_pos h2] at H
          unfold assign at H
          split at H
          · cases H; rw [upd_ne hx]
          · cases H
          · cases H
        · rw [if_neg h2] at H; cases H; rfl

theorem mergeLoop_other {f b : Nat} : ∀ (ks : List Str) (h : Store) (x : Nat), x ≠ f → (mergeLoop f b ks h).1 x = h x := by
  intro ks
  induction ks with
  | nil => intros; rfl
  | cons k ks ih =>
    intro h x hx
    rw [mergeLoop]
    cases e : mergeStep f b h k with
    | error _ => rfl
    | ok h1 => simp only [ih h1 x hx, mergeStep_other e x hx]

theorem mergeChildren_other {names : Str → List Str} {f b : Nat} (h : Store) (x : Nat) (hx : x ≠ f) :
    ((mergeChildren names h f b).1 x).body = (h x).body := by
  unfold mergeChildren
  split
  · rename_i c kids _
    have := mergeLoop_other (f := f) (b := b) (names c) h x hx
    generalize hg : mergeLoop f b (names c) h = g at this ⊢
    obtain ⟨h', o⟩ := g
    cases o with
    | none => simp only [invalidate]; rw [upd_ne hx]; simp only at this; rw [this]
    | some e => simp only at this ⊢; rw [this]
  · rfl

/-- The number of rounds is never the reason for not answering, once it is as large as the number of objects in play. -/
theorem loop_some {env : Env W} {names : Str → List Str} {final : Nat} {univ : List Nat}
    (hu : ∀ r h w b, (env.resolve r h w).1 = .ok (some b) → b ∈ univ) :
    ∀ (n : Nat) (visited : List Nat) (r : Option Str) (h : Store) (w : W), visited.Nodup → (∀ x ∈ visited, x ∈ univ) →
      univ.length < n + visited.length → loop env names final n visited r h w ≠ none := by
  intro n
  induction n with
  | zero =>
    intro visited r h w hn hs hl
    exfalso
    have : visited.length ≤ univ.length := (List.subperm_of_subset hn hs).length_le
    omega
  | succ n ih =>
    intro visited r h w hn hs hl
    match r with
    | none => simp [loop]
    | some [] => simp [loop]
    | some (c :: r) =>
      rw [loop]
      have hu' := hu (c :: r) h w
      generalize env.resolve (c :: r) h w = g at hu' ⊢
      obtain ⟨ans, h1, w1⟩ := g
      match ans with
      | .error e => simp
      | .ok none => simp
      | .ok (some b) =>
        have hb := hu' b rfl
        simp only
        unfold guardUpdate
        by_cases hm : b ∈ visited
        · rw [if_pos hm]; simp
        · rw [if_neg hm]
          simp only
          split
          · simp
          · refine ih _ _ _ _ ?_ ?_ ?_
            · rw [List.nodup_append]
              exact ⟨hn, by simp, by intro a ha c hc; simp at hc; subst hc; intro e; exact hm (e ▸ ha)⟩
            · intro x hx
              rcases List.mem_append.1 hx with hx | hx
              · exact hs x hx
              · simp at hx; subst hx; exact hb
            · simp; omega

/-- **C59 (it ends).** Whatever the references, cyclic or not: when the answers are among finitely many objects, the
merge answers or raises.  -/
theorem C59_terminates (env : Env W) (names : Str → List Str) (c : Str) (final obj : Nat) (h : Store) (w : W) (univ : List Nat)
    (ho : obj ∈ univ) (hu : ∀ r h w b, (env.resolve r h w).1 = .ok (some b) → b ∈ univ) :
    ∀ fuel, univ.length ≤ fuel → mergePathItem env names c final obj fuel h w ≠ none := by
  intro fuel hf
  unfold mergePathItem
  split
  · simp
  · exact loop_some hu fuel [obj] _ _ _ (by simp) (by simpa using ho) (by simp; omega)

theorem loop_mono {env : Env W} {names : Str → List Str} {final : Nat} : ∀ (n m : Nat) (visited : List Nat) (r : Option Str)
    (h : Store) (w : W) (x : R Unit × Store × W), n ≤ m → loop env names final n visited r h w = some x →
    loop env names final m visited r h w = some x := by
  intro n
  induction n with
  | zero => intro m _ _ _ _ _ _ H; cases H
  | succ n ih =>
    intro m visited r h w x hm H
    obtain ⟨m, rfl⟩ : ∃ m', m = m' + 1 := ⟨m - 1, by omega⟩
    match r with
    | none => exact H
    | some [] => exact H
    | some (c :: r) =>
      rw [loop] at H ⊢
      generalize env.resolve (c :: r) h w = g at H ⊢
      obtain ⟨ans, h1, w1⟩ := g
      match ans with
      | .error e => exact H
      | .ok none => exact H
      | .ok (some b) =>
        simp only at H ⊢
        cases hg : guardUpdate visited b with
        | error e => rw [hg] at H; exact H
        | ok v =>
          simp only [hg] at H ⊢
          generalize mergeChildren names h1 final b = q at H ⊢
          obtain ⟨h2, o⟩ := q
          cases o with
          | some e => exact H
          | none => exact ih m _ _ _ _ _ (by omega) H

/-- The answer does not depend on the number of rounds allowed. -/
theorem C59_fuel {env : Env W} {names : Str → List Str} {c : Str} {final obj n m : Nat} {h : Store} {w : W} {x : R Unit × Store × W}
    (hm : n ≤ m) (H : mergePathItem env names c final obj n h w = some x) :
    mergePathItem env names c final obj m h w = some x := by
  unfold mergePathItem at H ⊢
  generalize mergeChildren names (renew h final (.base c [])) final obj = q at H ⊢
  obtain ⟨h2, o⟩ := q
  cases o with
  | some e => exact H
  | none => exact loop_mono n m _ _ _ _ _ hm H

theorem loop_other {env : Env W} {names : Str → List Str} {final : Nat} {good : W → Prop}
    (hs : ∀ r h w, good w → good (env.resolve r h w).2.2)
    (hb : ∀ r h w, good w → ∀ a, ((env.resolve r h w).2.1 a).body = (h a).body) :
    ∀ (n : Nat) (visited : List Nat) (r : Option Str) (h : Store) (w : W) (res : R Unit) (h' : Store) (w' : W), good w →
      loop env names final n visited r h w = some (res, h', w') → ∀ a, a ≠ final → (h' a).body = (h a).body := by
  intro n
  induction n with
  | zero => intro _ _ _ _ _ _ _ _ H; cases H
  | succ n ih =>
    intro visited r h w res h' w' hg H a ha
    match r with
    | none => rw [loop] at H; cases H; rfl
    | some [] => rw [loop] at H; cases H; rfl
    | some (c :: r) =>
      rw [loop] at H
      have hs' := hs (c :: r) h w hg
      have hb' := hb (c :: r) h w hg a
      generalize env.resolve (c :: r) h w = g at H hs' hb'
      obtain ⟨ans, h1, w1⟩ := g
      simp only at hs' hb'
      match ans with
      | .error e => cases H; exact hb'
      | .ok none => cases H; exact hb'
      | .ok (some b) =>
        simp only at H
        cases hgu : guardUpdate visited b with
        | error e => rw [hgu] at H; cases H; exact hb'
        | ok v =>
          simp only [hgu] at H
          have ho := mergeChildren_other (names := names) (f := final) (b := b) h1 a ha
          generalize mergeChildren names h1 final b = q at H ho
          obtain ⟨h2, o⟩ := q
          simp only at ho
          cases o with
          | some e => cases H; rw [ho, hb']
          | none => rw [ih _ _ _ _ _ _ _ hs' H a ha, ho, hb']

/-- **C59 (nothing else changes).** Merging changes no other object than the new one, whether it succeeds or raises:
the path items that are merged keep exactly the children they had. -/
theorem C59_original {env : Env W} {names : Str → List Str} {c : Str} {final obj fuel : Nat} {h h' : Store} {w w' : W}
    {res : R Unit} {ref : Nat → Option Str} {target : Str → Option Nat} {good : W → Prop} (hs : Steady env ref target good)
    (hw : good w) (H : mergePathItem env names c final obj fuel h w = some (res, h', w')) :
    ∀ a, a ≠ final → (h' a).body = (h a).body := by
  intro a ha
  unfold mergePathItem at H
  have ho := mergeChildren_other (names := names) (f := final) (b := obj) (renew h final (.base c [])) a ha
  have hr : (renew h final (.base c []) a) = h a := by unfold renew; rw [upd_ne ha]
  rw [hr] at ho
  generalize mergeChildren names (renew h final (.base c [])) final obj = q at H ho
  obtain ⟨h2, o⟩ := q
  simp only at ho
  cases o with
  | some e => cases H; exact ho
  | none => rw [loop_other hs.stays hs.bodies _ _ _ _ _ _ _ _ hw H a ha, ho]

/-- What the new object is after merging the objects `l`. -/
structure Now (names : Str → List Str) (c : Str) (final : Nat) (h0 : Store) (l : List Nat) (h : Store) : Prop where
  made : ∃ kids, (h final).body = .base c kids ∧
    ∀ k, Dict.get? kids k = if k ∈ names c then first h0 l k else none
  others : ∀ a, a ≠ final → (h a).body = (h0 a).body
  same : ∀ v, Heap.truthy h v = Heap.truthy h0 v

theorem first_truthy {h : Store} {l : List Nat} {k : Str} {v : Val} (H : first h l k = some v) : Heap.truthy h v = true := by
  unfold first at H
  obtain ⟨a, _, ha⟩ := List.exists_of_findSome?_eq_some H
  unfold child at ha
  split at ha
  · rw [Option.filter_eq_some_iff] at ha; exact ha.2
  · cases ha

theorem first_append {h : Store} {l : List Nat} {b : Nat} {k : Str} :
    first h (l ++ [b]) k = (first h l k).or (child h b k) := by
  unfold first
  rw [List.findSome?_append]
  simp [List.findSome?]
  cases List.findSome? (fun a => child h a k) l <;> simp
  cases child h b k <;> rfl

theorem now_step {names : Str → List Str} {c : Str} {final b : Nat} {h0 h h' : Store} {l : List Nat}
    (hn : Now names c final h0 l h) (hb : b ≠ final) (hbb : ∃ cb kb, (h0 b).body = .base cb kb)
    (H : mergeChildren names h final b = (h', none)) : Now names c final h0 (l ++ [b]) h' := by
  obtain ⟨⟨kids, hf, hk⟩, hoth, hsame⟩ := hn
  obtain ⟨cb, kb, hbb⟩ := hbb
  unfold mergeChildren at H
  rw [hf] at H
  simp only at H
  generalize hg : mergeLoop final b (names c) h = g at H
  obtain ⟨h1, o⟩ := g
  cases o with
  | some e => cases H
  | none =>
    cases H
    have hb1 : (h b).body = .base cb kb := by rw [hoth b hb, hbb]
    obtain ⟨kids', a1, a2, a3, a4, a5⟩ := mergeLoop_one (names c) (Ne.symm hb) hf hb1 hg
    have hi : ∀ x, (invalidate h1 final x).body = (h1 x).body := by
      intro x
      unfold invalidate
      by_cases hx : x = final
      · subst hx; rw [upd_self]
      · rw [upd_ne hx]
    have hpk : ∀ d k, pick h d k = pick h0 d k := by
      intro d k; unfold pick; congr 1; funext v; exact hsame v
    have hkids : ∀ k, pick h kids k = if k ∈ names c then first h0 l k else none := by
      intro k
      unfold pick
      rw [hk k]
      split
      · cases hfst : first h0 l k with
        | none => rfl
        | some v => simp only [Option.filter, hsame, first_truthy hfst, if_true]
      · rfl
    have hchild : ∀ k, pick h kb k = child h0 b k := by
      intro k; rw [hpk, child_pick hbb]
    refine ⟨⟨kids', by rw [hi, a1], fun k => ?_⟩, fun a ha => by rw [hi, a2 a ha, hoth a ha], fun v => ?_⟩
    · have h4 := a4 k
      rw [hkids, hchild] at h4
      have hpg : pick h kids' k = Dict.get? kids' k := by
        rcases a5 k with e | ⟨_, e⟩
        · unfold pick
          rw [e, hk k]
          split
          · cases hfst : first h0 l k with
            | none => rfl
            | some v => simp only [Option.filter, hsame, first_truthy hfst, if_true]
          · rfl
        · rw [e]
          unfold pick
          rw [e]
          unfold pick
          cases Dict.get? kb k with
          | none => rfl
          | some v => by_cases hv : Heap.truthy h v = true <;> simp [Option.filter, hv]
      rw [← hpg, h4]
      split
      · rw [first_append]
      · rfl
    · rw [truthy_body hi, a3, hsame]

theorem trail_snoc {next : Nat → Option Nat} {a b z : Nat} {l : List Nat} (ht : Trail next a l) (hz : l.getLast? = some z)
    (hb : next z = some b) : Trail next a (l ++ [b]) := by
  induction ht with
  | one => simp at hz; subst hz; exact .more hb .one
  | @more a c l hn ht ih =>
    refine .more hn (ih ?_)
    cases ht with
    | one => simpa using hz
    | more _ _ => simpa [List.getLast?_cons_cons] using hz

theorem loop_first {env : Env W} {names : Str → List Str} {c : Str} {final obj : Nat} {h0 : Store}
    {ref : Nat → Option Str} {target : Str → Option Nat} {good : W → Prop} (hs : Steady env ref target good)
    (ht : ∀ r b, target r = some b → b ≠ final ∧ ∃ cb kb, (h0 b).body = .base cb kb) :
    ∀ (n : Nat) (l : List Nat) (z : Nat) (h : Store) (w : W) (h' : Store) (w' : W), good w →
      Trail (nextOf ref target) obj l → l.Nodup → l.getLast? = some z → Now names c final h0 l h →
      loop env names final n l (ref z) h w = some (.ok (), h', w') →
      ∃ l', Whole (nextOf ref target) obj l' ∧ Now names c final h0 l' h' := by
  intro n
  induction n with
  | zero => intro _ _ _ _ _ _ _ _ _ _ _ H; cases H
  | succ n ih =>
    intro l z h w h' w' hw htr hnd hz hnow H
    match hr : ref z with
    | none =>
      rw [hr, loop] at H; cases H
      refine ⟨l, ⟨htr, hnd, fun z' hz' b hb => ?_⟩, hnow⟩
      rw [hz] at hz'; cases hz'
      unfold nextOf at hb; rw [hr] at hb; cases hb
    | some [] =>
      rw [hr, loop] at H; cases H
      refine ⟨l, ⟨htr, hnd, fun z' hz' b hb => ?_⟩, hnow⟩
      rw [hz] at hz'; cases hz'
      unfold nextOf at hb; rw [hr] at hb; cases hb
    | some (q :: r) =>
      rw [hr, loop] at H
      have hst := hs.stays (q :: r) h w hw
      have hbo := hs.bodies (q :: r) h w hw
      have han := hs.answers (q :: r) h w
      generalize env.resolve (q :: r) h w = g at H hst hbo han
      obtain ⟨ans, h1, w1⟩ := g
      simp only at hst hbo han
      match ans with
      | .error e => cases H
      | .ok none => cases H
      | .ok (some b) =>
        have htb := han b hw rfl
        have hnext : nextOf ref target z = some b := by unfold nextOf; rw [hr]; exact htb
        simp only at H
        unfold guardUpdate at H
        have hnow1 : Now names c final h0 l h1 := by
          obtain ⟨⟨kids, k1, k2⟩, k3, k4⟩ := hnow
          exact ⟨⟨kids, by rw [hbo, k1], k2⟩, fun a ha => by rw [hbo, k3 a ha], fun v => by rw [truthy_body hbo, k4]⟩
        by_cases hm : b ∈ l
        · rw [if_pos hm] at H
          cases H
          refine ⟨l, ⟨htr, hnd, fun z' hz' b' hb' => ?_⟩, hnow1⟩
          rw [hz] at hz'; cases hz'
          rw [hnext] at hb'; cases hb'
          exact hm
        · rw [if_neg hm] at H
          simp only at H
          generalize hq : mergeChildren names h1 final b = p at H
          obtain ⟨h2, o⟩ := p
          cases o with
          | some e => cases H
          | none =>
            simp only at H
            rw [hs.refs _ hst] at H
            have hnd' : (l ++ [b]).Nodup := by
              rw [List.nodup_append]
              exact ⟨hnd, by simp, by intro a ha c hc; simp at hc; subst hc; intro e; exact hm (e ▸ ha)⟩
            exact ih (l ++ [b]) b h2 w1 h' w' hst (trail_snoc htr hz hnext) hnd' (by simp)
              (now_step hnow1 (ht _ _ htb).1 (ht _ _ htb).2 hq) H

/-- **C59 (who wins).** When the merge succeeds, the new object has, for each kind of child, the one of the first path
item that has it, going from the given one along the references, each path item once, until there is no reference or it
leads back; it has nothing else. -/
theorem C59_first {env : Env W} {names : Str → List Str} {c : Str} {final obj fuel : Nat} {h h' : Store} {w w' : W}
    {ref : Nat → Option Str} {target : Str → Option Nat} {good : W → Prop} (hs : Steady env ref target good) (hw : good w)
    (hobj : obj ≠ final ∧ ∃ cb kb, (h obj).body = .base cb kb)
    (ht : ∀ r b, target r = some b → b ≠ final ∧ ∃ cb kb, (h b).body = .base cb kb)
    (hfresh : ∀ a cb kb k, (h a).body = .base cb kb → Dict.get? kb k ≠ some (.ref final))
    (H : mergePathItem env names c final obj fuel h w = some (.ok (), h', w')) :
    ∃ l kids, Whole (nextOf ref target) obj l ∧ (h' final).body = .base c kids ∧
      ∀ k, Dict.get? kids k = if k ∈ names c then first h l k else none := by
  have hren : ∀ a, a ≠ final → (renew h final (.base c []) a) = h a := by
    intro a ha; unfold renew; rw [upd_ne ha]
  have hchild : ∀ a k, a ≠ final → child (renew h final (.base c [])) a k = child h a k := by
    intro a k ha
    unfold child
    rw [hren a ha]
    split
    · rename_i cb kb hb
      cases hg : Dict.get? kb k with
      | none => rfl
      | some v =>
        have : Heap.truthy (renew h final (.base c [])) v = Heap.truthy h v := by
          cases v with
          | raw j => rfl
          | ref x =>
            have hx : x ≠ final := by rintro rfl; exact hfresh a cb kb k hb hg
            unfold Heap.truthy; simp only [hren x hx]
        simp only [Option.filter, this]
    · rfl
  have hbase : ∀ b, b ≠ final → (∃ cb kb, (h b).body = .base cb kb) →
      ∃ cb kb, (renew h final (.base c []) b).body = .base cb kb := by
    intro b hb he; rw [hren b hb]; exact he
  unfold mergePathItem at H
  generalize hq : mergeChildren names (renew h final (.base c [])) final obj = q at H
  obtain ⟨h2, o⟩ := q
  cases o with
  | some e => cases H
  | none =>
    simp only at H
    have hnow0 : Now names c final (renew h final (.base c [])) [] (renew h final (.base c [])) := by
      refine ⟨⟨[], by unfold renew; rw [upd_self], fun k => ?_⟩, fun _ _ => rfl, fun _ => rfl⟩
      unfold first; simp [Dict.get?]
    have hnow1 := now_step hnow0 hobj.1 (hbase obj hobj.1 hobj.2) hq
    rw [hs.refs w hw] at H
    obtain ⟨l, hl, hn⟩ := loop_first hs (fun r b hb => ⟨(ht r b hb).1, hbase b (ht r b hb).1 (ht r b hb).2⟩)
      fuel [obj] obj h2 w h' w' hw .one (by simp) (by simp) hnow1 H
    obtain ⟨kids, k1, k2⟩ := hn.made
    refine ⟨l, kids, hl, k1, fun k => ?_⟩
    rw [k2 k]
    split
    · unfold first
      have hne : ∀ a ∈ l, a ≠ final := by
        have : ∀ a l, Trail (nextOf ref target) a l → a ≠ final → ∀ x ∈ l, x ≠ final := by
          intro a l ht'
          induction ht' with
          | one => intro ha x hx; simp at hx; subst hx; exact ha
          | @more a b l hn _ ih =>
            intro ha x hx
            rcases List.mem_cons.1 hx with rfl | hx
            · exact ha
            · refine ih ?_ x hx
              unfold nextOf at hn
              split at hn
              · cases hn
              · cases hn
              · exact (ht _ _ hn).1
        exact this obj l hl.trail hobj.1
      clear k1 k2 hl hn
      induction l with
      | nil => rfl
      | cons a l ih =>
        simp only [List.findSome?_cons]
        rw [hchild a k (hne a (by simp)), ih (fun x hx => hne x (List.mem_cons_of_mem _ hx))]
    · rfl

theorem mergeLoop_ok {f b : Nat} {c cb : Str} {kb : Dict Val} (hraw : ∀ k j, Dict.get? kb k = some (.raw j) → j.truthy = false) :
    ∀ (ks : List Str) {h : Store} {kids : Dict Val},
    f ≠ b → (h f).body = .base c kids → (h b).body = .base cb kb → (mergeLoop f b ks h).2 = none := by
  intro ks
  induction ks with
  | nil => intros; rfl
  | cons k ks ih =>
    intro h kids hne hf hb
    rw [mergeLoop]
    unfold mergeStep
    have e1 : attr h f k = .ok ((Dict.get? kids k).getD (.raw .null)) := by unfold attr; rw [hf]
    have e2 : attr h b k = .ok ((Dict.get? kb k).getD (.raw .null)) := by unfold attr; rw [hb]
    simp only [e1, e2, bind, Except.bind]
    by_cases h1 : Heap.truthy h ((Dict.get? kids k).getD (.raw .null)) = true
    · rw [if_pos h1]; exact ih hne hf hb
    · rw [if_neg h1]
      by_cases h2 : Heap.truthy h ((Dict.get? kb k).getD (.raw .null)) = true
      · rw [if_pos h2]
        cases hg : Dict.get? kb k with
        | none => rw [hg] at h2; cases h2
        | some v =>
          cases v with
          | raw j =>
            rw [hg, Option.getD_some] at h2
            have : Heap.truthy h (.raw j) = j.truthy := rfl
            rw [this, hraw k j hg] at h2
            cases h2
          | ref y =>
            unfold assign
            rw [hf]
            simp only [Option.getD_some]
            exact ih (kids := Dict.set kids k (.ref y)) hne (by rw [upd_self]) (by rw [upd_ne (Ne.symm hne)]; exact hb)
      · rw [if_neg h2]; exact ih hne hf hb

theorem mergeChildren_ok {names : Str → List Str} {f b : Nat} {c cb : Str} {kb : Dict Val} {h : Store} {kids : Dict Val}
    (hraw : ∀ k j, Dict.get? kb k = some (.raw j) → j.truthy = false) (hne : f ≠ b) (hf : (h f).body = .base c kids)
    (hb : (h b).body = .base cb kb) : (mergeChildren names h f b).2 = none := by
  unfold mergeChildren
  rw [hf]
  simp only
  have := mergeLoop_ok hraw (names c) hne hf hb
  generalize mergeLoop f b (names c) h = g at this ⊢
  obtain ⟨h', o⟩ := g
  simp only at this
  subst this
  rfl

/-- A path item as a parser makes it: its children are objects (or nothing). -/
def Parsed (h : Store) (b : Nat) : Prop :=
  ∃ cb kb, (h b).body = .base cb kb ∧ ∀ k j, Dict.get? kb k = some (.raw j) → j.truthy = false

theorem loop_succeeds {env : Env W} {names : Str → List Str} {c : Str} {final : Nat} {h0 : Store}
    {ref : Nat → Option Str} {target : Str → Option Nat} {good : W → Prop} (hs : Steady env ref target good)
    (hall : ∀ r h w, good w → ∃ b, (env.resolve r h w).1 = .ok (some b))
    (ht : ∀ r b, target r = some b → b ≠ final ∧ Parsed h0 b) :
    ∀ (n : Nat) (l : List Nat) (z : Nat) (h : Store) (w : W) (res : R Unit) (h' : Store) (w' : W), good w →
      Now names c final h0 l h →
      loop env names final n l (ref z) h w = some (res, h', w') → res = .ok () := by
  intro n
  induction n with
  | zero => intro _ _ _ _ _ _ _ _ _ H; cases H
  | succ n ih =>
    intro l z h w res h' w' hw hnow H
    match hr : ref z with
    | none => rw [hr, loop] at H; cases H; rfl
    | some [] => rw [hr, loop] at H; cases H; rfl
    | some (q :: r) =>
      rw [hr, loop] at H
      obtain ⟨b, hall⟩ := hall (q :: r) h w hw
      have hst := hs.stays (q :: r) h w hw
      have hbo := hs.bodies (q :: r) h w hw
      have htb := hs.answers (q :: r) h w b hw hall
      generalize env.resolve (q :: r) h w = g at H hst hbo hall
      obtain ⟨ans, h1, w1⟩ := g
      simp only at hst hbo hall
      subst hall
      simp only at H
      unfold guardUpdate at H
      have hnow1 : Now names c final h0 l h1 := by
        obtain ⟨⟨kids, k1, k2⟩, k3, k4⟩ := hnow
        exact ⟨⟨kids, by rw [hbo, k1], k2⟩, fun a ha => by rw [hbo, k3 a ha], fun v => by rw [truthy_body hbo, k4]⟩
      by_cases hm : b ∈ l
      · rw [if_pos hm] at H; cases H; rfl
      · rw [if_neg hm] at H
        simp only at H
        obtain ⟨hne, cb, kb, hb0, hraw⟩ := ht _ _ htb
        obtain ⟨kids, k1, _⟩ := hnow1.made
        have hok := mergeChildren_ok (names := names) hraw (Ne.symm hne) k1 (by rw [hnow1.others b hne, hb0])
        generalize hq : mergeChildren names h1 final b = p at H hok
        obtain ⟨h2, o⟩ := p
        simp only at hok
        subst hok
        simp only at H
        rw [hs.refs _ hst] at H
        exact ih (l ++ [b]) b h2 w1 res h' w' hst (now_step hnow1 hne ⟨cb, kb, hb0⟩ hq) H

/-- **C59 (it succeeds).** When every reference is resolved to a parsed path item, the merge raises nothing: a chain of
references that leads back to where it has been is no error either. -/
theorem C59_succeeds {env : Env W} {names : Str → List Str} {c : Str} {final obj fuel : Nat} {h h' : Store} {w w' : W}
    {ref : Nat → Option Str} {target : Str → Option Nat} {good : W → Prop} {res : R Unit} (hs : Steady env ref target good) (hw : good w)
    (hall : ∀ r h w, good w → ∃ b, (env.resolve r h w).1 = .ok (some b))
    (hobj : obj ≠ final ∧ Parsed h obj)
    (ht : ∀ r b, target r = some b → b ≠ final ∧ Parsed h b)
    (H : mergePathItem env names c final obj fuel h w = some (res, h', w')) : res = .ok () := by
  have hren : ∀ a, a ≠ final → (renew h final (.base c []) a) = h a := by
    intro a ha; unfold renew; rw [upd_ne ha]
  have hpar : ∀ a, a ≠ final ∧ Parsed h a → a ≠ final ∧ Parsed (renew h final (.base c [])) a := by
    intro a ha
    refine ⟨ha.1, ?_⟩
    unfold Parsed
    rw [hren a ha.1]
    exact ha.2
  unfold mergePathItem at H
  have hnow0 : Now names c final (renew h final (.base c [])) [] (renew h final (.base c [])) := by
    refine ⟨⟨[], by unfold renew; rw [upd_self], fun k => ?_⟩, fun _ _ => rfl, fun _ => rfl⟩
    unfold first; simp [Dict.get?]
  obtain ⟨kids, k1, _⟩ := hnow0.made
  obtain ⟨hne, cb, kb, hb0, hraw⟩ := hpar obj hobj
  have hok := mergeChildren_ok (names := names) hraw (Ne.symm hne) k1 hb0
  generalize hq : mergeChildren names (renew h final (.base c [])) final obj = q at H hok
  obtain ⟨h2, o⟩ := q
  simp only at hok
  subst hok
  simp only at H
  rw [hs.refs w hw] at H
  exact loop_succeeds hs hall (fun r b hb => hpar b (ht r b hb)) fuel [obj] obj h2 w res h' w' hw
    (now_step hnow0 hne ⟨cb, kb, hb0⟩ hq) H

/-- A reference that nothing answers is an error, not an incomplete object. -/
theorem C59_unresolved {env : Env W} {names : Str → List Str} {c : Str} {final obj fuel : Nat} {h : Store} {w : W} {q : Char} {r : Str}
    (hobj : obj ≠ final ∧ Parsed h obj) (hr : env.ref w obj = some (q :: r))
    (hno : ∀ h, (env.resolve (q :: r) h w).1 = .ok none) :
    ∃ h' w', mergePathItem env names c final obj (fuel + 1) h w = some (.error .generic, h', w') := by
  unfold mergePathItem
  have hren : (renew h final (.base c []) obj) = h obj := by unfold renew; rw [upd_ne hobj.1]
  obtain ⟨hne, cb, kb, hb0, hraw⟩ := hobj
  have hok := mergeChildren_ok (names := names) (c := c) (kids := []) (h := renew h final (.base c [])) hraw (Ne.symm hne)
    (by unfold renew; rw [upd_self]) (by rw [hren]; exact hb0)
  generalize mergeChildren names (renew h final (.base c [])) final obj = q' at hok ⊢
  obtain ⟨h2, o⟩ := q'
  simp only at hok
  subst hok
  simp only
  rw [hr, loop]
  have := hno h2
  generalize env.resolve (q :: r) h2 w = g at this ⊢
  obtain ⟨ans, h3, w3⟩ := g
  simp only at this
  subst this
  exact ⟨_, _, rfl⟩

/-! ## A chain that leads back -/

/-- Path items 1 → 2 → 3 → 2: 1 has `get`; 2 has `get` and `put`; 3 has an empty list of parameters and `put`. -/
def demoStore : Store := fun a =>
  if a = 1 then { body := .base (s% "P") [(s% "get", .ref 11)], cache := [] }
  else if a = 2 then { body := .base (s% "P") [(s% "get", .ref 12), (s% "put", .ref 13)], cache := [] }
  else if a = 3 then { body := .base (s% "P") [(s% "parameters", .ref 14), (s% "put", .ref 15), (s% "head", .ref 16)], cache := [] }
  else if a = 14 then { body := .list [], cache := [] }
  else { body := .base (s% "O") [], cache := [] }

def demoRef : Nat → Option Str
  | 1 => some (s% "#/two")
  | 2 => some (s% "#/three")
  | 3 => some (s% "#/two")
  | _ => none

def demoTarget (r : Str) : Option Nat := if r = s% "#/three" then some 3 else some 2

def demoEnv : Env Unit where
  resolve r h w := (.ok (demoTarget r), h, w)
  ref _ := demoRef

theorem demo_steady : Steady demoEnv demoRef demoTarget (fun _ => True) where
  refs _ _ := rfl
  stays _ _ _ _ := trivial
  bodies _ _ _ _ _ := rfl
  answers _ _ _ _ _ H := Except.ok.inj H

def demoNames (_ : Str) : List Str := [s% "get", s% "put", s% "head", s% "parameters"]

/-- The merge of the demo ends, and its object has `get` of 1, `put` of 2 and `head` of 3, no parameters. -/
theorem demo_merge : ∃ h' , mergePathItem demoEnv demoNames (s% "P") 0 1 3 demoStore () = some (.ok (), h', ()) ∧
    (h' 0).body = .base (s% "P") [(s% "get", .ref 11), (s% "put", .ref 13), (s% "head", .ref 16)] := by
  refine ⟨_, rfl, rfl⟩

theorem demo_parsed : Parsed demoStore 1 ∧ Parsed demoStore 2 ∧ Parsed demoStore 3 := by
  refine ⟨⟨_, _, rfl, fun k j hk => ?_⟩, ⟨_, _, rfl, fun k j hk => ?_⟩, ⟨_, _, rfl, fun k j hk => ?_⟩⟩ <;>
  · have := Dict.mem_of_get? hk
    simp at this

theorem demo_target : ∀ r b, demoTarget r = some b → b ≠ 0 ∧ Parsed demoStore b := by
  intro r b hb
  unfold demoTarget at hb
  split at hb <;> cases hb
  · exact ⟨by decide, demo_parsed.2.2⟩
  · exact ⟨by decide, demo_parsed.2.1⟩

/-- The hypotheses of `C59_first` and `C59_succeeds` are met by the demo. -/
example : ∃ (l : List Nat) (kids : Dict Val) (h' : Store), Whole (nextOf demoRef demoTarget) 1 l ∧ (h' 0).body = .base (s% "P") kids ∧
      ∀ k, Dict.get? kids k = if k ∈ demoNames (s% "P") then first demoStore l k else none := by
  obtain ⟨h', e, _⟩ := demo_merge
  have hp : ∀ b, Parsed demoStore b → ∃ cb kb, (demoStore b).body = .base cb kb := fun b ⟨cb, kb, hb, _⟩ => ⟨cb, kb, hb⟩
  have hf : ∀ a cb kb k, (demoStore a).body = .base cb kb → Dict.get? kb k ≠ some (.ref 0) := by
    intro a cb kb k hb hk
    have hk := Dict.mem_of_get? hk
    unfold demoStore at hb
    repeat' split at hb
    all_goals (cases hb <;> simp at hk)
  obtain ⟨l, kids, a, b, c⟩ := C59_first demo_steady trivial ⟨by decide, hp 1 demo_parsed.1⟩
    (fun r b hb => ⟨(demo_target r b hb).1, hp b (demo_target r b hb).2⟩) hf e
  exact ⟨l, kids, h', a, b, c⟩

/-! ## Fields are not merged -/

/-- Whatever is merged into an object, its own document stays as it was: only children are taken over. -/
theorem merge_spec {T : Table} : ∀ (l : List Obj) {c : Str} {p : Option Str} {spec : Json} {kids : Dict Obj} {f : Obj},
    l.foldlM (fun a b => Obj.mergeChildren T a b) (.base c p spec kids) = .ok f → ∃ kids', f = .base c p spec kids' := by
  intro l
  induction l with
  | nil => intro c p spec kids f H; cases H; exact ⟨kids, rfl⟩
  | cons b l ih =>
    intro c p spec kids f H
    rw [List.foldlM_cons] at H
    cases e : Obj.mergeChildren T (.base c p spec kids) b with
    | error _ => rw [e] at H; cases H
    | ok x =>
      rw [e] at H
      unfold Obj.mergeChildren at e
      simp only [bind, Except.bind] at e
      split at e
      · cases e
      · cases e; exact ih H

/-- **C59 (violated: summary and description).** The merged path item (of version 3) never has a summary or a
description, whatever the path items that are merged have. -/
theorem C59_fields_violation (l : List Obj) (f : Obj)
    (H : l.foldlM (fun a b => Obj.mergeChildren pkg a b) (.base (s% "v3_0_0.PathItem") none (.obj []) []) = .ok f) :
    Obj.attr pkg f (s% "summary") = .ok (.prim .null) ∧ Obj.attr pkg f (s% "description") = .ok (.prim .null) := by
  obtain ⟨kids, rfl⟩ := merge_spec l H
  exact ⟨rfl, rfl⟩

/-- Two path items that are merged, the first with a summary and a description, the second with an operation. -/
def lostA : Obj := .base (s% "v3_0_0.PathItem") none (.obj [(s% "$ref", .str (s% "#/b")), (s% "summary", .str (s% "pets")),
  (s% "description", .str (s% "all pets"))]) []
def lostB : Obj := .base (s% "v3_0_0.PathItem") none (.obj [(s% "get", .obj [(s% "responses", .obj [])])])
  [(s% "get", .base (s% "v3_0_0.Operation") none (.obj [(s% "responses", .obj [])]) [(s% "responses", .map (.cls (s% "v3_0_0.Response")) none (.obj []) [])])]

example : build pkg (.cls (s% "v3_0_0.PathItem")) (.obj []) none [] = .ok (.base (s% "v3_0_0.PathItem") none (.obj []) []) :=
  buildF_sound 3 _ _ _ _ rfl

example : Obj.attr pkg lostA (s% "summary") = .ok (.prim (.str (s% "pets"))) ∧
    ∃ f, [lostA, lostB].foldlM (fun a b => Obj.mergeChildren pkg a b) (.base (s% "v3_0_0.PathItem") none (.obj []) []) = .ok f :=
  ⟨rfl, _, rfl⟩

end Pyopenapi.PathItem
