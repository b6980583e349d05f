import Verif.Model.Statements
import Verif.Lemmas.Tables

/-!
# C91: what a class declares
-/

namespace Pyopenapi.Meta

theorem get?_fromParent {α : Type} (own parent : Dict α) (k : Str) :
    Dict.get? (fromParent own parent) k = (Dict.get? own k).or (Dict.get? parent k) := by
  unfold fromParent
  rw [Dict.get?_append]
  cases h : Dict.get? own k with
  | some v => rfl
  | none =>
    have hh : Dict.has own k = false := by simp [Dict.has, h]
    show Dict.get? _ _ = Dict.get? _ _
    induction parent with
    | nil => rfl
    | cons p l ih =>
      rw [List.filter_cons]
      by_cases hp : Dict.has own p.1 = true
      · rw [if_neg (by simp [hp]), ih, Dict.get?_cons, if_neg]
        rintro rfl
        rw [hh] at hp
        cases hp
      · rw [if_pos (by simpa using hp), Dict.get?_cons, Dict.get?_cons, ih]

theorem derive_fields (own : ClassDef) (bs : List ClassDef) (k : Str) :
    Dict.get? (derive own bs).fields k = (Dict.get? own.fields k).or (bs.findSome? (fun b => Dict.get? b.fields k)) := by
  induction bs generalizing own with
  | nil => simp [derive]
  | cons b bs ih =>
    rw [derive, ih, get?_fromParent, Option.or_assoc, List.findSome?_cons]
    cases Dict.get? b.fields k <;> simp

theorem derive_children (own : ClassDef) (bs : List ClassDef) (k : Str) :
    Dict.get? (derive own bs).children k = (Dict.get? own.children k).or (bs.findSome? (fun b => Dict.get? b.children k)) := by
  induction bs generalizing own with
  | nil => simp [derive]
  | cons b bs ih =>
    rw [derive, ih, get?_fromParent, Option.or_assoc, List.findSome?_cons]
    cases Dict.get? b.children k <;> simp

/-- The child `k` that is attached last to the class `n`. -/
def attached (n k : Str) (p : List Statement) : Option ChildDef :=
  p.reverse.findSome? (fun s => match s with
    | .attach c k' cd => if c = n ∧ k' = k then some cd else none
    | _ => none)

/-- No class of that name is made. -/
def Keeps (n : Str) (p : List Statement) : Prop := ∀ b o, Statement.class_ n b o ∉ p

theorem run_keeps (n : Str) (t : Dict ClassDef) (p : List Statement) (hk : Keeps n p) (hn : Dict.has t n = true) :
    Dict.has (run t p) n = true ∧ (∀ k, Dict.get? (find (run t p) n).fields k = Dict.get? (find t n).fields k) ∧
      ∀ k, Dict.get? (find (run t p) n).children k = (attached n k p).or (Dict.get? (find t n).children k) := by
  induction p generalizing t with
  | nil => exact ⟨hn, fun _ => rfl, fun _ => rfl⟩
  | cons s p ih =>
    have hk' : Keeps n p := fun b o h => hk b o (List.mem_cons_of_mem _ h)
    have hstep : Dict.has (exec t s) n = true ∧ (∀ k, Dict.get? (find (exec t s) n).fields k = Dict.get? (find t n).fields k) ∧
        ∀ k, Dict.get? (find (exec t s) n).children k = (attached n k [s]).or (Dict.get? (find t n).children k) := by
      cases s with
      | class_ m bs o =>
        have hne : m ≠ n := fun e => hk bs o (e ▸ List.mem_cons_self)
        have e : Dict.get? (exec t (.class_ m bs o)) n = Dict.get? t n := by
          rw [exec, Dict.get?_set, if_neg hne]
        refine ⟨by rw [Dict.has, e]; exact hn, fun k => by rw [find, e]; rfl, fun k => by rw [find, e]; rfl⟩
      | attach c k0 cd =>
        rw [exec]
        cases hc : Dict.get? t c with
        | none =>
          have hne : c ≠ n := by
            rintro rfl
            simp [Dict.has, hc] at hn
          refine ⟨hn, fun _ => rfl, fun k => ?_⟩
          simp [attached, hne]
        | some d =>
          by_cases hcn : c = n
          · subst hcn
            have hf : find t c = d := by rw [find, hc]; rfl
            have e : Dict.get? (Dict.set t c { d with children := Dict.set d.children k0 cd }) c =
              some { d with children := Dict.set d.children k0 cd } := Dict.get?_set_self _ _ _
            dsimp only
            refine ⟨by rw [Dict.has, e]; rfl, fun k => by rw [hf, find, e]; rfl, fun k => ?_⟩
            rw [hf, find, e]
            show Dict.get? (Dict.set d.children k0 cd) k = _
            rw [Dict.get?_set]
            by_cases hkk : k0 = k
            · simp [attached, hkk]
            · simp [attached, hkk]
          · have e : Dict.get? (Dict.set t c { d with children := Dict.set d.children k0 cd }) n = Dict.get? t n := by
              rw [Dict.get?_set, if_neg hcn]
            dsimp only
            refine ⟨by rw [Dict.has, e]; exact hn, fun k => by rw [find, e]; rfl, fun k => ?_⟩
            rw [find, e]
            simp [attached, hcn, find]
    obtain ⟨h1, h2, h3⟩ := ih _ hk' hstep.1
    refine ⟨h1, fun k => (h2 k).trans (hstep.2.1 k), fun k => (h3 k).trans ?_⟩
    rw [hstep.2.2 k, ← Option.or_assoc]
    congr 1
    simp [attached, List.findSome?_append]

/-- C91: a class has, whatever the statements before and after its own: the fields it declares, else those of the first of
its bases that has them; and the children that are attached to it, else those it declares, else those the first of its bases
had at that time. -/
theorem C91_declared (t : Dict ClassDef) (p q : List Statement) (n : Str) (bases : List Str) (own : ClassDef) (hq : Keeps n q) (k : Str) :
    Dict.get? (find (run t (p ++ .class_ n bases own :: q)) n).fields k =
        (Dict.get? own.fields k).or (bases.findSome? (fun b => Dict.get? (find (run t p) b).fields k)) ∧
      Dict.get? (find (run t (p ++ .class_ n bases own :: q)) n).children k =
        (attached n k q).or ((Dict.get? own.children k).or (bases.findSome? (fun b => Dict.get? (find (run t p) b).children k))) := by
  have e : run t (p ++ .class_ n bases own :: q) = run (exec (run t p) (.class_ n bases own)) q := by
    simp [run, List.foldl_append]
  have hg : Dict.get? (exec (run t p) (.class_ n bases own)) n = some (derive own (bases.map (find (run t p)))) := by
    rw [exec, Dict.get?_set_self]
  obtain ⟨_, h2, h3⟩ := run_keeps n (exec (run t p) (.class_ n bases own)) q hq (by rw [Dict.has, hg]; rfl)
  rw [e]
  refine ⟨?_, ?_⟩
  · rw [h2 k, find, hg]
    show Dict.get? (derive _ _).fields k = _
    rw [derive_fields, List.findSome?_map]
    rfl
  · rw [h3 k, find, hg]
    show _ = _
    congr 1
    show Dict.get? (derive _ _).children k = _
    rw [derive_children, List.findSome?_map]
    rfl

/-- C91: the tables the whole model works with are what the statements of the three modules make, run in their order. -/
theorem C91_tables (c : Str) : c ∉ [s% "v1_2.BaseObj_v1_2", s% "v2_0.BaseObj_v2_0", s% "v3_0_0.Base2_v3_0_0"] →
    pkg c = find (run [] (v1_2_statements ++ v2_0_statements ++ v3_0_0_statements)) c := by
  have h : classes = (run [] (v1_2_statements ++ v2_0_statements ++ v3_0_0_statements)).filter
      (fun p => decide (p.1 ∉ [s% "v1_2.BaseObj_v1_2", s% "v2_0.BaseObj_v2_0", s% "v3_0_0.Base2_v3_0_0"])) := by rfl
  intro hc
  show (Dict.get? classes c).getD _ = _
  rw [h, find]
  congr 1
  generalize run [] (v1_2_statements ++ v2_0_statements ++ v3_0_0_statements) = l
  induction l with
  | nil => rfl
  | cons p l ih =>
    rw [List.filter_cons]
    by_cases hp : p.1 = c
    · rw [if_pos (by rw [hp]; exact decide_eq_true hc), Dict.get?_cons, Dict.get?_cons, if_pos hp, if_pos hp]
    · rw [Dict.get?_cons, if_neg hp, ← ih]
      split
      · rw [Dict.get?_cons, if_neg hp]
      · rfl

/-- What a class statement declares. -/
def ownOf (l : List Statement) (i : Nat) : ClassDef :=
  match l[i]? with
  | some (.class_ _ _ own) => own
  | _ => ⟨[], [], []⟩

/-- The statements of 2.0 up to `Header`: it has the `type` of its base `BaseSchema`, and its own `collectionFormat`. -/
example : ∃ p q own, v2_0_statements = p ++ .class_ (s% "v2_0.Header") [s% "v2_0.BaseSchema"] own :: q ∧ Keeps (s% "v2_0.Header") q ∧
    Dict.get? own.fields (s% "type") = none ∧ (Dict.get? (pkg (s% "v2_0.Header")).fields (s% "type")).isSome := by
  refine ⟨v2_0_statements.take 17, v2_0_statements.drop 18, ownOf v2_0_statements 17, rfl, fun b o h => ?_, rfl, rfl⟩
  have : (v2_0_statements.drop 18).all (fun s => match s with
    | .class_ n _ _ => decide (n ≠ s% "v2_0.Header")
    | _ => true) = true := by decide +kernel
  have := List.all_eq_true.1 this _ h
  simp at this

/-- C91 (deviation): what is attached to a class after another was derived from it, is no child of that one: a header has
no `content` (C89), though its base `Parameter` has, and the statement that derives it does not say so. -/
theorem C91_attached_violation :
    (∃ p q r own cd, v3_0_0_statements = p ++ .class_ (s% "v3_0_0.Header") [s% "v3_0_0.Parameter"] own :: q ++
        .attach (s% "v3_0_0.Parameter") (s% "content") cd :: r) ∧
      (Dict.get? (pkg (s% "v3_0_0.Parameter")).children (s% "content")).isSome ∧
      Dict.get? (pkg (s% "v3_0_0.Header")).children (s% "content") = none := by
  refine ⟨⟨v3_0_0_statements.take 20, (v3_0_0_statements.take 23).drop 21, v3_0_0_statements.drop 24, ownOf v3_0_0_statements 20,
    (Dict.get? (pkg (s% "v3_0_0.Parameter")).children (s% "content")).getD ⟨.isStr, false⟩, rfl⟩, by decide +kernel, by decide +kernel⟩

end Pyopenapi.Meta
