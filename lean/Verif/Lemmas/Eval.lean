import Verif.Lemmas.Obj

/-!
# Loading, by computation

`build` is defined by well-founded recursion, which the kernel does not unfold.  For concrete documents of the
examples, a version with fuel.
-/

namespace Pyopenapi
variable {T : Table}

/-- The elements of a list. -/
def elemsF (f : Str → Json → R Obj) : List Json → Nat → R (List Obj)
  | [], _ => .ok []
  | x :: l, i => match f (Str.ofNat i) x with
    | .error e => .error e
    | .ok o => match elemsF f l (i + 1) with
      | .error e => .error e
      | .ok r => .ok (o :: r)

/-- The entries of a map. -/
def itemsF (f : Str → Json → R Obj) : List (Str × Json) → R (List (Str × Obj))
  | [] => .ok []
  | (k, x) :: l => match f k x with
    | .error e => .error e
    | .ok o => match itemsF f l with
      | .error e => .error e
      | .ok r => .ok ((k, o) :: r)

/-- One child. -/
def kidF (f : Builder → Json → Option Str → R Obj) (j : Json) (p : Option Str) (k : Str) (cd : ChildDef) : R (Option Obj) :=
  match specGet j k with
  | .error e => .error e
  | .ok none => if cd.required then .error .fieldNotExist else .ok none
  | .ok (some v) => if v = .null then .ok none
    else match f cd.builder v (some (jpCompose [k] p)) with
      | .error e => .error e
      | .ok o => .ok (some o)

/-- `build` without overrides, with fuel. -/
def buildF (T : Table) : Nat → Builder → Json → Option Str → R Obj
  | 0, _, _, _ => .error .generic
  | n + 1, b, j, p =>
    match b.head j with
    | .error e => .error e
    | .ok .raw => .ok (.prim j)
    | .ok (.cls c) => match Dict.collect (kidF (buildF T n) j p) (T c).children with
      | .error e => .error e
      | .ok kids => .ok (.base c p j kids)
    | .ok .isStr => isStr j []
    | .ok .isStrOrInt => isStrOrInt j []
    | .ok (.listOf b') => match j with
      | .arr l => match elemsF (fun k x => buildF T n b' x (some (jpCompose [k] p))) l 0 with
        | .error e => .error e
        | .ok es => .ok (.list b' p j es)
      | _ => .error .generic
    | .ok (.mapOf b') => match j with
      | .obj d => match itemsF (fun k x => buildF T n b' x (some (jpCompose [k] p))) d with
        | .error e => .error e
        | .ok es => .ok (.map b' p j es)
      | _ => .error .generic

theorem elemsF_sound {f : Str → Json → R Obj} {b : Builder} {p : Option Str}
    (hf : ∀ k x o, f k x = .ok o → build T b x (some (jpCompose [k] p)) [] = .ok o) :
    ∀ (l : List Json) (i : Nat) (r : List Obj), elemsF f l i = .ok r → buildElems T b l i p [] = .ok r
  | [], _, r, h => by rw [buildElems]; exact h
  | x :: l, i, r, h => by
    rw [elemsF] at h
    rw [buildElems, buildAt, ovFor_nil, ovHere_nil]
    cases h1 : f (Str.ofNat i) x with
    | error e => rw [h1] at h; cases h
    | ok o =>
      rw [h1] at h
      dsimp only at h
      cases h2 : elemsF f l (i + 1) with
      | error e => rw [h2] at h; cases h
      | ok r' =>
        rw [h2] at h
        simp only [hf _ _ _ h1, elemsF_sound hf l (i + 1) r' h2, bind, Except.bind]
        exact h

theorem itemsF_sound {f : Str → Json → R Obj} {b : Builder} {p : Option Str}
    (hf : ∀ k x o, f k x = .ok o → build T b x (some (jpCompose [k] p)) [] = .ok o) :
    ∀ (l : List (Str × Json)) (r : List (Str × Obj)), itemsF f l = .ok r → buildItems T b l p [] = .ok r
  | [], r, h => by rw [buildItems]; exact h
  | (k, x) :: l, r, h => by
    rw [itemsF] at h
    rw [buildItems, buildAt, ovFor_nil, ovHere_nil]
    cases h1 : f k x with
    | error e => rw [h1] at h; cases h
    | ok o =>
      rw [h1] at h
      dsimp only at h
      cases h2 : itemsF f l with
      | error e => rw [h2] at h; cases h
      | ok r' =>
        rw [h2] at h
        simp only [hf _ _ _ h1, itemsF_sound hf l r' h2, bind, Except.bind]
        exact h

theorem collect_sound {α β : Type} {f g : Str → α → R (Option β)} :
    ∀ (d : Dict α) (r : Dict β), (∀ k v o, f k v = .ok o → g k v = .ok o) → Dict.collect f d = .ok r →
      Dict.collect g d = .ok r
  | [], r, _, h => h
  | (k, v) :: d, r, hfg, h => by
    rw [Dict.collect] at h ⊢
    simp only [bind, Except.bind] at h ⊢
    cases h1 : f k v with
    | error e => rw [h1] at h; cases h
    | ok o =>
      rw [h1] at h
      rw [hfg _ _ _ h1]
      dsimp only at h ⊢
      cases h2 : Dict.collect f d with
      | error e => rw [h2] at h; cases h
      | ok r' =>
        rw [h2] at h
        rw [collect_sound d r' hfg h2]
        exact h

/-- What is computed is what is loaded. -/
theorem buildF_sound : ∀ (n : Nat) (b : Builder) (j : Json) (p : Option Str) (o : Obj),
    buildF T n b j p = .ok o → build T b j p [] = .ok o
  | 0, _, _, _, _, h => by cases h
  | n + 1, b, j, p, o, h => by
    rw [buildF] at h
    rw [build]
    cases hb : b.head j with
    | error e => rw [hb] at h; cases h
    | ok hd =>
      rw [hb] at h
      simp only [bind, Except.bind]
      cases hd with
      | raw => exact h
      | isStr => exact h
      | isStrOrInt => exact h
      | cls c =>
        dsimp only at h
        simp only [splitOverride_nil]
        cases hk : Dict.collect (kidF (buildF T n) j p) (T c).children with
        | error e => rw [hk] at h; cases h
        | ok kids =>
          rw [hk] at h
          rw [collect_sound _ _ (fun k cd o' ho => ?_) hk]
          · exact h
          · rw [buildKid_eq]
            unfold kidF at ho
            cases hg : specGet j k with
            | error e => rw [hg] at ho; cases ho
            | ok v =>
              rw [hg] at ho
              cases v with
              | none => exact ho
              | some v =>
                dsimp only at ho ⊢
                by_cases hv : v = .null
                · rw [if_pos hv] at ho ⊢; exact ho
                · rw [if_neg hv] at ho ⊢
                  cases hx : buildF T n cd.builder v (some (jpCompose [k] p)) with
                  | error e => rw [hx] at ho; cases ho
                  | ok o2 =>
                    rw [hx] at ho
                    rw [buildF_sound n _ _ _ _ hx]
                    exact ho
      | listOf b' =>
        simp only [splitOverride_nil]
        cases j with
        | arr l =>
          dsimp only at h ⊢
          cases hk : elemsF (fun k x => buildF T n b' x (some (jpCompose [k] p))) l 0 with
          | error e => rw [hk] at h; cases h
          | ok es =>
            rw [hk] at h
            rw [elemsF_sound (fun k x o ho => buildF_sound n _ _ _ _ ho) _ _ _ hk]
            exact h
        | null => cases h
        | bool _ => cases h
        | int _ => cases h
        | flt _ => cases h
        | str _ => cases h
        | obj _ => cases h
      | mapOf b' =>
        simp only [splitOverride_nil]
        cases j with
        | obj d =>
          dsimp only at h ⊢
          cases hk : itemsF (fun k x => buildF T n b' x (some (jpCompose [k] p))) d with
          | error e => rw [hk] at h; cases h
          | ok es =>
            rw [hk] at h
            rw [itemsF_sound (fun k x o ho => buildF_sound n _ _ _ _ ho) _ _ hk]
            exact h
        | null => cases h
        | bool _ => cases h
        | int _ => cases h
        | flt _ => cases h
        | str _ => cases h
        | arr _ => cases h

end Pyopenapi
