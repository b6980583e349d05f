import Verif.Lemmas.PiecesUp

/-!
# The scans of a piece that has been migrated to 2.0 before
-/

namespace Pyopenapi.Main
open _root_.Pyopenapi.Spec _root_.Pyopenapi.Refs.Spec Obj

variable {W : Type}

theorem foldlM_fixed {β σ : Type} {f : σ → β → R σ} {s : σ} : ∀ {l : List β}, (∀ x ∈ l, f s x = .ok s) → l.foldlM f s = .ok s
  | [], _ => rfl
  | x :: l, h => by
    rw [List.foldlM_cons, h x List.mem_cons_self]
    exact foldlM_fixed (fun y hy => h y (List.mem_cons_of_mem _ hy))

theorem byPlace_mem {root : Obj} {L : List (List Str × Obj)} (hL : Scanned root L) {w : World W} {ts : List Str} {x : Obj}
    (h : Visited [] root ts x) : byPlace w L ts = attrsOf w x := by
  unfold byPlace
  cases hf : L.find? (fun v => decide (v.1 = ts)) with
  | none =>
    have := List.find?_eq_none.1 hf _ ((hL.2.2 _ _).2 h)
    simp at this
  | some v =>
    have h1 := List.mem_of_find?_eq_some hf
    have h2 := List.find?_some hf
    simp only [decide_eq_true_eq] at h2
    obtain ⟨us, y⟩ := v
    dsimp only at h2 ⊢
    subst h2
    rw [Refs.scanned_unique hL h ((hL.2.2 _ _).1 h1)]

theorem remember_same {root : Obj} {L : List (List Str × Obj)} (hL : Scanned root L) {w : World W} (x : Obj) :
    attrsOf (remember w L (byPlace w L)) x = attrsOf w x := by
  by_cases h : ∃ ts, (ts, x) ∈ L
  · exact attrs_find h (fun ts hm => byPlace_mem hL ((hL.2.2 _ _).1 hm))
  · exact attrs_keep (fun ts hm => h ⟨ts, hm⟩)

/-- The objects of the piece know what they refer to. -/
def Piece.Knew (p : Piece) (out : Outer W) (w : World W) : Prop :=
  ∀ ts x, Visited [] p.obj ts x →
    (∀ r, Refers Refs.normClasses2 x r → ∃ n y, normalizeJr out.ok (some r) (some p.url) = .ok (some n) ∧
      attrsOf w x = { normalized := some n, refObj := some y }) ∧
    ((∀ r, ¬ Refers Refs.normClasses2 x r) → attrsOf w x = {})

theorem finish20_again {out : Outer W} {main p : Piece} {pieces : List Piece} (hg : p.Good out) (hl : p.Linked out main pieces)
    (hpath : NoPathRef p.obj (s% "v2_0.PathItem")) {app : AppEnv Obj (World W)} {a : App Obj (World W)} {jref : Str}
    (hs : jrSplit out.ok out.path2url out.abspath jref = .ok (p.url, pointer p.place))
    (hset : a.store.set p.obj p.url (pointer p.place) (s% "2.0") = a.store) (hk : p.Knew out a.world) :
    ∃ w', finish20 out app p.obj jref a = (.ok (p.obj, []), { a with world := w' }) ∧ (∀ x, attrsOf w' x = attrsOf a.world x) ∧
      w'.finals = a.world.finals ∧ w'.cached = a.world.cached ∧ w'.rest = a.world.rest := by
  have hL := hg.scan
  have hd := Refs.doc_of_build hg.wf hg.built
  have hnorm : ∀ (env : Refs.Env Obj (App Obj (World W))) (a0 : App Obj (World W)), env.ok = out.ok → env.url = p.url →
      Refs.normalizeAll env Refs.normClasses2 (visits p.obj) ⟨byPlace a.world (visits p.obj), a0⟩ =
      .ok ⟨byPlace a.world (visits p.obj), a0⟩ := by
    intro env a0 he1 he2
    unfold Refs.normalizeAll
    refine foldlM_fixed ?_
    rintro ⟨ts, x⟩ hm
    have hv := (hL.2.2 _ _).1 hm
    dsimp only
    cases x with
    | base c q spec kids =>
      simp only [className?]
      split
      · rename_i hc
        obtain ⟨d, rfl, h⟩ := hl ts c q spec kids hv hc
        unfold Refs.normalizeOne
        rcases h with h | ⟨r, n, t, y, h1, h2, h3, _⟩
        · rw [Refs.refOf_none (q := q) (Refs.refField2 hc) (Refs.reqs2 c hc (by simp)) h]
          rfl
        · rw [Refs.refOf_get (q := q) (Refs.refField2 hc) h1]
          obtain ⟨n', y', h4, h5⟩ := (hk ts _ hv).1 r ⟨c, q, d, kids, rfl, hc, h1, h2⟩
          have ht : (Json.str r).truthy = true := by cases r with
            | nil => exact absurd rfl h2
            | cons _ _ => rfl
          simp only [bind, Except.bind, ht, if_true, he1, he2, h4]
          congr 1
          unfold Refs.St.put
          congr 1
          funext us
          dsimp only
          split
          · rename_i e
            subst e
            rw [byPlace_mem hL hv, h5]
          · rfl
      · rfl
    | _ => rfl
  have hres : ∀ (env : Refs.Env Obj (App Obj (World W))) (a0 : App Obj (World W)),
      (visits p.obj).foldlM (Refs.handle (Refs.resolve2 env) Refs.own2 Refs.steps2) ⟨byPlace a.world (visits p.obj), a0⟩ =
      .ok ⟨byPlace a.world (visits p.obj), a0⟩ := by
    intro env a0
    refine foldlM_fixed ?_
    rintro ⟨ts, o⟩ hm
    have hv := (hL.2.2 _ _).1 hm
    rw [Refs.handle_calls (Refs.held2 hd hv)]
    refine foldlM_fixed ?_
    rintro ⟨b, us, x⟩ hx
    show Refs.resolve2 env b us x _ = _
    unfold Refs.resolve2
    cases x with
    | base c q spec kids =>
      have hvx := (Refs.call_expected Refs.own2_ok Refs.steps2_ok hd hv hx rfl).2
      simp only [className?]
      split
      · rfl
      · rename_i hc
        have hc : c ∈ Refs.normClasses2 := by
          by_cases h : c ∈ Refs.normClasses2
          · exact h
          · exact absurd h hc
        obtain ⟨d, rfl, h⟩ := hl us c q spec kids hvx hc
        rcases h with h | ⟨r, n, t, y, h1, h2, h3, _⟩
        · rw [Refs.refOf_none (q := q) (Refs.refField2 hc) (Refs.reqs2 c hc (by simp)) h]
          rfl
        · rw [Refs.refOf_get (q := q) (Refs.refField2 hc) h1]
          obtain ⟨n', y', h4, h5⟩ := (hk us _ hvx).1 r ⟨c, q, d, kids, rfl, hc, h1, h2⟩
          have ht : (Json.str r).truthy = true := by cases r with
            | nil => exact absurd rfl h2
            | cons _ _ => rfl
          simp only [bind, Except.bind, ht, Bool.not_true, Bool.false_eq_true, if_false, byPlace_mem hL hvx, h5, Option.isSome_some, if_true]
    | _ => rfl
  have hmerge : ∀ ts x, (ts, x) ∈ visits p.obj → x.className? = some (s% "v2_0.PathItem") → ∃ v, Refs.refOf x = .ok v ∧ v.truthy = false := by
    intro ts x hm hx
    have hv := (hL.2.2 _ _).1 hm
    cases x with
    | base c q spec kids =>
      simp only [className?, Option.some.injEq] at hx
      subst hx
      obtain ⟨d, rfl, _⟩ := hl ts _ q spec kids hv (by decide)
      exact ⟨.null, Refs.refOf_none (q := q) (by decide +kernel) (by decide +kernel) (hpath ts q d kids hv), rfl⟩
    | _ => cases hx
  unfold finish20
  rw [hs]
  dsimp only
  rw [hset]
  have e0 : ({ a with store := a.store } : App Obj (World W)) = a := rfl
  rw [e0, hnorm _ a rfl rfl]
  dsimp only
  rw [hres]
  dsimp only
  rw [mergeAll_nothing hmerge]
  refine ⟨_, rfl, fun x => ?_, rfl, rfl, rfl⟩
  have h1 : ∀ x, attrsOf (remember a.world (visits p.obj) (byPlace a.world (visits p.obj))) x = attrsOf a.world x := remember_same hL
  by_cases h : ∃ ts, (ts, x) ∈ visits p.obj
  · exact attrs_find h (fun ts hm => byPlace_mem hL ((hL.2.2 _ _).1 hm))
  · rw [attrs_keep (fun ts hm => h ⟨ts, hm⟩)]
    exact h1 x

end Pyopenapi.Main
