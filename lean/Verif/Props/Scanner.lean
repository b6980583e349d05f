import Verif.Model.Scanner
import Verif.Props.Scan

/-!
# C102: `Scanner.scan` calls the handlers of the class of an object and of the classes it derives from
-/

namespace Pyopenapi.Scanner
open Meta _root_.Pyopenapi.Spec Obj

/-! ### Specification -/

/-- The classes `c` derives from by the class statements `p`: itself, its base, the base of that one, and so on. -/
inductive Lineage (p : List Statement) : Str → List Str → Prop
  | root {c : Str} {own : ClassDef} : .class_ c [] own ∈ p → Lineage p c [c]
  | step {c b : Str} {own : ClassDef} {l : List Str} : .class_ c [b] own ∈ p → Lineage p b l → Lineage p c (c :: l)

/-- `c` is `b`, or made (in some steps) from it. -/
inductive Derives (p : List Statement) : Str → Str → Prop
  | self {c : Str} : Derives p c c
  | base {c b a : Str} {own : ClassDef} : .class_ c [b] own ∈ p → Derives p b a → Derives p c a

/-- A module as Python accepts it: a base is made before; and no class is made twice, has two bases, or takes the name of
one of the common bases. -/
def Modular (p : List Statement) : Prop :=
  ∀ pre n bs own post, p = pre ++ .class_ n bs own :: post →
    (∀ bs' own', .class_ n bs' own' ∉ pre) ∧ bs.length ≤ 1 ∧ (∀ b ∈ bs, ∃ bs' own', .class_ b bs' own' ∈ pre) ∧
      n ≠ s% "Base2Obj" ∧ n ≠ s% "_Base"

/-- The calls of a scan, in order: for every visit, for every route object in turn, for every class of the lineage of the
object's class, the handlers registered for it in the order of registration. -/
def calls {σ ρ : Type} (line : Str → List Str) (plans : List (Plan σ ρ)) (visits : List (Str × Obj)) : List (σ → R σ) :=
  visits.flatMap (fun po => plans.flatMap (fun plan =>
    match po.2 with
    | .base c _ _ _ => (line c).flatMap (fun b => (handlersOf plan.1 b).map (fun f => oneCall plan.2 po.1 po.2 f))
    | _ => []))

/-! ### Lineages -/

theorem modular_init {p q : List Statement} (h : Modular (p ++ q)) : Modular p := by
  intro pre n bs own post he
  exact h pre n bs own (post ++ q) (by rw [he]; simp)

theorem lineage_mono {p q : List Statement} {c : Str} {l : List Str} (h : Lineage p c l) : Lineage (p ++ q) c l := by
  induction h with
  | root h => exact .root (List.mem_append.2 (.inl h))
  | step h _ ih => exact .step (List.mem_append.2 (.inl h)) ih

theorem lineage_stated {p : List Statement} {c : Str} {l : List Str} (h : Lineage p c l) : ∃ bs own, .class_ c bs own ∈ p := by
  cases h with
  | root h => exact ⟨_, _, h⟩
  | step h _ => exact ⟨_, _, h⟩

theorem stated_once {p : List Statement} (hm : Modular p) {n : Str} {bs bs' : List Str} {own own' : ClassDef}
    (h : .class_ n bs own ∈ p) (h' : .class_ n bs' own' ∈ p) : bs = bs' ∧ own = own' := by
  obtain ⟨pre, post, he⟩ := List.append_of_mem h
  rw [he] at h'
  rcases List.mem_append.1 h' with h1 | h1
  · exact absurd h1 ((hm pre n bs own post he).1 _ _)
  · rcases List.mem_cons.1 h1 with h2 | h2
    · cases h2; exact ⟨rfl, rfl⟩
    · obtain ⟨a, b, hb⟩ := List.append_of_mem h2
      refine absurd ?_ ((hm (pre ++ .class_ n bs own :: a) n bs' own' b (by rw [he, hb]; simp)).1 bs own)
      exact List.mem_append.2 (.inr List.mem_cons_self)

theorem lineage_unique {p : List Statement} (hm : Modular p) {c : Str} {l : List Str} (h : Lineage p c l) :
    ∀ l', Lineage p c l' → l' = l := by
  induction h with
  | root h =>
    intro l' h'
    cases h' with
    | root => rfl
    | step h2 _ => exact nomatch (stated_once hm h h2).1
  | step h _ ih =>
    intro l' h'
    cases h' with
    | root h2 => exact nomatch (stated_once hm h h2).1
    | step h2 h3 =>
      have e := (stated_once hm h h2).1
      cases e
      rw [ih _ h3]

/-- What a class is made with, by the model, is its lineage and the common bases. -/
theorem mros_get : ∀ (n : Nat) (p : List Statement), p.length = n → Modular p → ∀ c,
    (∀ bs own, .class_ c bs own ∈ p → ∃ l, Lineage p c l ∧ Dict.get? (mros p) c = some (l ++ [s% "Base2Obj", s% "_Base"])) := by
  intro n
  induction n with
  | zero =>
    intro p hp _ c bs own h
    rw [List.length_eq_zero_iff.1 hp] at h
    cases h
  | succ n ih =>
    intro p hp hm c bs own h
    have hne : p ≠ [] := by intro e; rw [e] at hp; cases hp
    obtain ⟨q, st, rfl⟩ : ∃ q st, p = q ++ [st] := ⟨p.dropLast, p.getLast hne, (List.dropLast_concat_getLast hne).symm⟩
    have hq : q.length = n := by simpa using hp
    have hmq := modular_init hm
    have hfold : mros (q ++ [st]) = mroStep (mros q) st := by simp [mros]
    rw [hfold]
    cases st with
    | attach a k cd =>
      have h1 : .class_ c bs own ∈ q := by
        rcases List.mem_append.1 h with h1 | h1
        · exact h1
        · cases List.mem_singleton.1 h1
      obtain ⟨l, hl, hg⟩ := ih q hq hmq c bs own h1
      exact ⟨l, lineage_mono hl, hg⟩
    | class_ m ms mo =>
      obtain ⟨hnew, hlen, hbase, _, _⟩ := hm q m ms mo [] rfl
      rcases List.mem_append.1 h with h1 | h1
      · have hcm : m ≠ c := by rintro rfl; exact hnew _ _ h1
        obtain ⟨l, hl, hg⟩ := ih q hq hmq c bs own h1
        refine ⟨l, lineage_mono hl, ?_⟩
        cases ms with
        | nil => exact (Dict.get?_set_ne _ _ hcm).trans hg
        | cons b t => exact (Dict.get?_set_ne _ _ hcm).trans hg
      · cases List.mem_singleton.1 h1
        cases bs with
        | nil =>
          exact ⟨[c], .root (List.mem_append.2 (.inr List.mem_cons_self)), Dict.get?_set_self _ _ _⟩
        | cons b t =>
          have ht : t = [] := by cases t with
            | nil => rfl
            | cons x y => simp at hlen
          subst ht
          obtain ⟨bs', own', hb⟩ := hbase b List.mem_cons_self
          obtain ⟨l, hl, hg⟩ := ih q hq hmq b bs' own' hb
          refine ⟨c :: l, .step (List.mem_append.2 (.inr List.mem_cons_self)) (lineage_mono hl), ?_⟩
          show Dict.get? (Dict.set (mros q) c (c :: (Dict.get? (mros q) b).getD [])) c = _
          rw [Dict.get?_set_self, hg]
          rfl

/-- A lineage has no class twice, and none of the common bases. -/
theorem lineage_fresh {p : List Statement} (hm : Modular p) {c : Str} {l : List Str} (h : Lineage p c l) :
    l.Nodup ∧ s% "Base2Obj" ∉ l ∧ ∀ b ∈ l, ∀ pre bs own post, p = pre ++ .class_ c bs own :: post →
      b = c ∨ ∃ bs' own', .class_ b bs' own' ∈ pre := by
  induction h with
  | @root c own h =>
    obtain ⟨pre, post, he⟩ := List.append_of_mem h
    obtain ⟨_, _, _, h1, _⟩ := hm _ _ _ _ _ he
    exact ⟨by simp, by intro hx; exact h1 (List.mem_singleton.1 hx).symm, fun b hb _ _ _ _ _ => .inl (List.mem_singleton.1 hb)⟩
  | @step c b own l h hl ih =>
    obtain ⟨i1, i2, i3⟩ := ih
    obtain ⟨pre, post, he⟩ := List.append_of_mem h
    obtain ⟨h0, _, hb, h1, _⟩ := hm _ _ _ _ _ he
    obtain ⟨bs', own', hb⟩ := hb b List.mem_cons_self
    have hin : ∀ x ∈ l, ∃ bs' own', .class_ x bs' own' ∈ pre := by
      intro x hx
      obtain ⟨a, z, hz⟩ := List.append_of_mem hb
      rcases i3 x hx a bs' own' (z ++ .class_ c [b] own :: post) (by rw [he, hz]; simp) with rfl | ⟨b2, o2, h2⟩
      · exact ⟨_, _, hb⟩
      · exact ⟨b2, o2, by rw [hz]; exact List.mem_append.2 (.inl h2)⟩
    refine ⟨List.nodup_cons.2 ⟨?_, i1⟩, ?_, ?_⟩
    · intro hx
      obtain ⟨b2, o2, h2⟩ := hin c hx
      exact h0 _ _ h2
    · intro hx
      rcases List.mem_cons.1 hx with hx | hx
      · exact h1 hx.symm
      · exact i2 hx
    · intro x hx pre' bs2 own2 post' he'
      rcases List.mem_cons.1 hx with rfl | hx
      · exact .inl rfl
      · refine .inr ?_
        obtain ⟨b2, o2, h2⟩ := hin x hx
        -- the statement of `c` is the same one
        obtain ⟨e1, e2⟩ := stated_once hm h (by rw [he']; exact List.mem_append.2 (.inr List.mem_cons_self))
        subst e1 e2
        have : pre = pre' := by
          rcases List.append_eq_append_iff.1 (he.symm.trans he') with ⟨r, hr, hs⟩ | ⟨r, hr, hs⟩
          · cases r with
            | nil => simpa using hr.symm
            | cons y ys =>
              have hy : y = .class_ c [b] own := by simpa using (List.cons.inj hs).1.symm
              exact absurd (by rw [hr, hy]; simp) ((hm _ _ _ _ _ he').1 [b] own)
          · cases r with
            | nil => simpa using hr
            | cons y ys =>
              have hy : y = .class_ c [b] own := by simpa using (List.cons.inj hs).1.symm
              exact absurd (by rw [hr, hy]; simp) (h0 [b] own)
        rw [← this]
        exact ⟨b2, o2, h2⟩

/-! ### The scan -/

theorem handleAll_line {σ ρ : Type} (path : Str) (o : Obj) (d : Dispatcher σ ρ) (rest : List Str) : ∀ (l : List Str) (s : σ),
    s% "Base2Obj" ∉ l → handleAll path o d (l ++ s% "Base2Obj" :: rest) s = l.foldlM (handle path o d) s := by
  intro l
  induction l with
  | nil => intro s _; simp [handleAll]; rfl
  | cons c l ih =>
    intro s h
    rw [List.cons_append, handleAll, if_neg (by rintro rfl; exact h List.mem_cons_self), List.foldlM_cons]
    congr 1
    funext s'
    exact ih s' (fun hx => h (List.mem_cons_of_mem _ hx))

/-- **C102**: `Scanner.scan` is exactly its calls, one after the other, and raises what the first failing call raises: for
every visited object, its own class first, then those it derives from. -/
theorem C102_scan {σ ρ : Type} (p : List Statement) (hm : Modular p) (isObjClass : Str → Bool) (plans : List (Plan σ ρ))
    (ds : List (Dispatcher σ ρ))
    (hds : plans.mapM (fun plan => registerAll isObjClass { result := plan.2 } plan.1) = .ok ds)
    (root : Obj) (leaves : List Str) (line : Str → List Str)
    (hline : ∀ path c q j ks, (path, Obj.base c q j ks) ∈ traverse leaves root → Lineage p c (line c)) (s : σ) :
    scan (fun c => (Dict.get? (mros p) c).getD []) (ds.map (fun d => [some d])) (some root) leaves s =
      (calls line plans (traverse leaves root)).foldlM (fun s call => call s) s := by
  have hbr : buildRoute (ds.map (fun d => [some d])) = ds := by
    unfold buildRoute
    rw [List.filterMap_map]
    simp [Function.comp_def]
  unfold scan calls
  rw [foldlM_flatMap, hbr]
  dsimp only
  have hcongr : ∀ (l : List (Str × Obj)) (f g : σ → Str × Obj → R σ), (∀ x ∈ l, ∀ s, f s x = g s x) → ∀ s, l.foldlM f s = l.foldlM g s := by
    intro l f g
    induction l with
    | nil => intro _ _; rfl
    | cons a l ih =>
      intro h s
      rw [List.foldlM_cons, List.foldlM_cons, h a List.mem_cons_self]
      congr 1
      funext s'
      exact ih (fun x hx => h x (List.mem_cons_of_mem _ hx)) s'
  refine hcongr _ _ _ ?_ s
  intro po hpo s
  clear hbr
  induction plans generalizing ds s with
  | nil => cases hds; rfl
  | cons plan plans ih =>
    rw [List.mapM_cons] at hds
    cases h1 : registerAll isObjClass { result := plan.2 } plan.1 with
    | error e => rw [h1] at hds; cases hds
    | ok d =>
      rw [h1] at hds
      cases h2 : plans.mapM (fun plan => registerAll isObjClass { result := plan.2 } plan.1) with
      | error e => rw [h2] at hds; cases hds
      | ok ds' =>
        rw [h2] at hds
        cases hds
        rw [List.foldlM_cons, List.flatMap_cons, List.foldlM_append]
        have hh : visit (fun c => (Dict.get? (mros p) c).getD []) po.1 po.2 s d = (match po.2 with
            | .base c _ _ _ => (line c).flatMap (fun b => (handlersOf plan.1 b).map (fun f => oneCall plan.2 po.1 po.2 f))
            | _ => []).foldlM (fun s (call : σ → R σ) => call s) s := by
          obtain ⟨path, o⟩ := po
          cases o with
          | base c q j ks =>
            have hl := hline _ _ _ _ _ hpo
            obtain ⟨bs, own, hst⟩ := lineage_stated hl
            obtain ⟨l, hl', hg⟩ := mros_get _ p rfl hm c bs own hst
            have el := lineage_unique hm hl' _ hl
            show handleAll path _ d ((Dict.get? (mros p) c).getD []) s = _
            rw [hg, Option.getD_some, handleAll_line _ _ _ _ _ _ (lineage_fresh hm hl').2.1]
            dsimp only
            rw [foldlM_flatMap, el]
            congr 1
            funext s b
            obtain ⟨hr, hg⟩ := registerAll_get b plan.1 _ d h1
            simp only [Dict.get?, Option.getD_none, List.nil_append] at hg
            unfold handle
            rw [List.foldlM_map, ← hg, hr]
            simp only [← callHandler_eq]
            cases Dict.get? d.route b <;> rfl
          | _ => rfl
        rw [hh]
        congr 1
        funext s
        exact ih ds' h2 s

/-- **C102**: every class of a module has exactly one lineage; it begins with the class, has no class twice, and consists of
the classes it derives from. -/
theorem C102_lineage (p : List Statement) (hm : Modular p) (c : Str) (bs : List Str) (own : ClassDef) (hc : .class_ c bs own ∈ p) :
    ∃ l, Lineage p c l ∧ (∀ l', Lineage p c l' → l' = l) ∧ l.head? = some c ∧ l.Nodup ∧ ∀ b, b ∈ l ↔ Derives p c b := by
  obtain ⟨l, hl, hg⟩ := mros_get _ p rfl hm c bs own hc
  clear hg
  refine ⟨l, hl, fun l' h => lineage_unique hm hl l' h, ?_, (lineage_fresh hm hl).1, ?_⟩
  · cases hl <;> rfl
  · intro b
    constructor
    · intro hb
      clear hc
      induction hl with
      | root h => rw [List.mem_singleton.1 hb]; exact .self
      | step h _ ih =>
        rcases List.mem_cons.1 hb with rfl | hb
        · exact .self
        · exact .base h (ih hb)
    · intro hd
      clear hc
      induction hd generalizing l with
      | self => cases hl <;> exact List.mem_cons_self
      | base h _ ih =>
        cases hl with
        | root h2 => exact nomatch (stated_once hm h h2).1
        | step h2 h3 =>
          have e := (stated_once hm h h2).1
          cases e
          exact List.mem_cons_of_mem _ (ih _ h3)

/-- **C102**: of one registration, the handler is called for a visit as often as classes named in it are in the lineage of
the object: not at all, if it derives from none of them; twice, if it derives from two. -/
theorem C102_times {σ ρ : Type} (p : List Statement) (hm : Modular p) (c : Str) (l : List Str) (hl : Lineage p c l)
    (names : List Str) (f : σ → Str → Obj → R (σ × ρ)) :
    l.flatMap (handlersOf [(names, f)]) = List.replicate (names.filter (fun n => decide (n ∈ l))).length f := by
  have hnd := (lineage_fresh hm hl).1
  clear hl
  have hone : ∀ b, handlersOf [(names, f)] b = List.replicate (names.filter (fun n => n == b)).length f := by
    intro b
    simp [handlersOf, List.map_const']
  have hpl : ∀ l : List Str, l.Nodup → (l.map (fun b => (names.filter (fun n => n == b)).length)).sum = (names.filter (fun n => decide (n ∈ l))).length := by
    intro l
    induction l with
    | nil => intro _; exact (by induction names with
      | nil => rfl
      | cons n ns ih => exact ih (fun b => by simp [handlersOf, List.map_const']))
    | cons b l ih =>
      intro h
      obtain ⟨hb, h⟩ := List.nodup_cons.1 h
      rw [List.map_cons, List.sum_cons, ih h]
      clear ih
      induction names with
      | nil => rfl
      | cons n ns ihn =>
        have ihn := ihn (fun b => by simp [handlersOf, List.map_const'])
        simp only [List.filter_cons, List.mem_cons] at ihn ⊢
        by_cases hnb : n = b
        · subst hnb
          simp [hb] at ihn ⊢; omega
        · by_cases hnl : n ∈ l
          · simp [hnb, hnl] at ihn ⊢; omega
          · simp [hnb, hnl] at ihn ⊢; omega
  rw [← hpl l hnd]
  clear hpl hnd
  induction l with
  | nil => rfl
  | cons b l ih => rw [List.flatMap_cons, ih, hone, List.map_cons, List.sum_cons, List.replicate_append_replicate]

/-- **C102**: without a root, `Scanner.scan` raises ValueError. -/
theorem C102_no_root {σ ρ : Type} (mro : Str → List Str) (routes : List (List (Option (Dispatcher σ ρ)))) (leaves : List Str) (s : σ) :
    scan mro routes none leaves s = .error .valueError := rfl

/-! ### The classes of the package -/

/-- A check of `Modular`. -/
def modularB : List Statement → List Str → Bool
  | [], _ => true
  | .attach _ _ _ :: p, seen => modularB p seen
  | .class_ n bs _ :: p, seen => !seen.elem n && decide (bs.length ≤ 1) && bs.all (fun b => seen.elem b) &&
      !(n == s% "Base2Obj") && !(n == s% "_Base") && modularB p (seen ++ [n])

theorem modularB_sound : ∀ (p q : List Statement) (seen : List Str), (∀ n, n ∈ seen ↔ ∃ bs own, .class_ n bs own ∈ q) → modularB p seen = true →
    ∀ pre n bs own post, p = pre ++ .class_ n bs own :: post →
    (∀ bs' own', .class_ n bs' own' ∉ q ++ pre) ∧ bs.length ≤ 1 ∧ (∀ b ∈ bs, ∃ bs' own', .class_ b bs' own' ∈ q ++ pre) ∧
      n ≠ s% "Base2Obj" ∧ n ≠ s% "_Base" := by
  intro p
  induction p with
  | nil => intro q seen _ _ pre n bs own post he; simp at he
  | cons st p ih =>
    intro q seen hs hb pre n bs own post he
    cases pre with
    | nil =>
      obtain ⟨rfl, rfl⟩ := List.cons.inj he
      simp only [modularB, Bool.and_eq_true, Bool.not_eq_true', decide_eq_true_eq, List.all_eq_true, beq_eq_false_iff_ne] at hb
      obtain ⟨⟨⟨⟨⟨h1, h2⟩, h3⟩, h4⟩, h5⟩, _⟩ := hb
      have h1 : n ∉ seen := fun hx => by rw [List.elem_eq_true_of_mem hx] at h1; cases h1
      refine ⟨fun bs' own' hx => h1 ((hs n).2 ⟨bs', own', by simpa using hx⟩), h2, fun b hb => ?_, h4, h5⟩
      obtain ⟨b1, o1, hx⟩ := (hs b).1 (List.mem_of_elem_eq_true (h3 b hb))
      exact ⟨b1, o1, by simpa using hx⟩
    | cons st' pre =>
      obtain ⟨rfl, he'⟩ := List.cons.inj he
      have key : ∃ seen', (∀ n, n ∈ seen' ↔ ∃ bs own, .class_ n bs own ∈ q ++ [st]) ∧ modularB p seen' = true := by
        cases st with
        | attach a k cd =>
          refine ⟨seen, fun n => (hs n).trans ?_, hb⟩
          simp
        | class_ m ms mo =>
          simp only [modularB, Bool.and_eq_true] at hb
          refine ⟨seen ++ [m], fun n => ?_, hb.2⟩
          rw [List.mem_append, List.mem_singleton, hs n]
          constructor
          · rintro (⟨b, o, h⟩ | rfl)
            · exact ⟨b, o, List.mem_append.2 (.inl h)⟩
            · exact ⟨ms, mo, List.mem_append.2 (.inr List.mem_cons_self)⟩
          · rintro ⟨b, o, h⟩
            rcases List.mem_append.1 h with h | h
            · exact .inl ⟨b, o, h⟩
            · cases List.mem_singleton.1 h; exact .inr rfl
      obtain ⟨seen', hs', hb'⟩ := key
      have := ih (q ++ [st]) seen' hs' hb' pre n bs own post he'
      simpa using this

/-- The statements of the package. -/
def package : List Statement := v1_2_statements ++ v2_0_statements ++ v3_0_0_statements

/-- The package is a module as Python accepts it. -/
theorem package_modular : Modular package := by
  have hb : modularB package [] = true := by decide +kernel
  intro pre n bs own post he
  have := modularB_sound package [] [] (fun n => by simp) hb pre n bs own post he
  simpa using this

/-- What the model holds of a class is its lineage. -/
theorem lineage_check {p : List Statement} (hm : Modular p) {c : Str} {l : List Str}
    (hs : p.any (fun st => match st with | .class_ n _ _ => n == c | _ => false) = true)
    (hg : Dict.get? (mros p) c = some (l ++ [s% "Base2Obj", s% "_Base"])) : Lineage p c l := by
  obtain ⟨st, hst, h⟩ := List.any_eq_true.1 hs
  cases st with
  | attach => cases h
  | class_ n bs own =>
    have hn : n = c := by simpa using h
    subst hn
    obtain ⟨l', hl, hg'⟩ := mros_get _ p rfl hm n bs own hst
    exact (List.append_cancel_right (Option.some.inj (hg.symm.trans hg'))) ▸ hl

/-- In the package, a header of 3.0.0 derives from a parameter. -/
theorem header_lineage : Lineage package (s% "v3_0_0.Header") [s% "v3_0_0.Header", s% "v3_0_0.Parameter", s% "v3_0_0.Base2_v3_0_0"] :=
  lineage_check package_modular (by decide +kernel) (by decide +kernel)

/-- Every class objects are loaded of has its lineage. -/
theorem C102_package (c : Str) (h : c ∈ Dict.keys classes) : ∃ l, Lineage package c l := by
  have : (Dict.keys classes).all (fun c => package.any (fun st => match st with | .class_ n _ _ => n == c | _ => false)) = true := by decide +kernel
  obtain ⟨st, hst, h⟩ := List.any_eq_true.1 (List.all_eq_true.1 this c h)
  cases st with
  | attach => cases h
  | class_ n bs own =>
    have hn : n = c := by simpa using h
    subst hn
    obtain ⟨l, hl, _⟩ := mros_get _ package rfl package_modular n bs own hst
    exact ⟨l, hl⟩

/-- **C102** (what users may not expect): a handler registered for parameters and headers of 3.0.0 is called twice for every
header. -/
theorem C102_header_twice {σ ρ : Type} (f : σ → Str → Obj → R (σ × ρ)) :
    [s% "v3_0_0.Header", s% "v3_0_0.Parameter", s% "v3_0_0.Base2_v3_0_0"].flatMap (handlersOf [([s% "v3_0_0.Parameter", s% "v3_0_0.Header"], f)]) = [f, f] :=
  (C102_times package package_modular _ _ header_lineage _ f).trans
    (congrArg (List.replicate · f) (show _ = 2 by decide +kernel))

/-- A scan of a 2.0 document: a handler for `BaseSchema` is called for schemas and parameters, after those of the class
itself; one for `Base2Obj` is never called. -/
example : (do
    let d ← registerAll (fun c => c == s% "Base2Obj" || Dict.has (mros package) c) { result := none }
      [([s% "v2_0.BaseSchema"], logger (s% "base")), ([s% "v2_0.Schema"], logger (s% "own")), ([s% "Base2Obj"], logger (s% "never"))]
    let root ← build pkg (.cls (s% "v2_0.Swagger")) sampleDoc none []
    scan (fun c => (Dict.get? (mros package) c).getD []) [[none, some d]] (some root) [] []) = .ok [
      (s% "own", s% "#/definitions/A"), (s% "base", s% "#/definitions/A"),
      (s% "own", s% "#/definitions/A/properties/y"), (s% "base", s% "#/definitions/A/properties/y"),
      (s% "own", s% "#/definitions/A/properties/x"), (s% "base", s% "#/definitions/A/properties/x"),
      (s% "base", s% "#/paths/~1a/get/parameters/0")] := by decide +kernel

end Pyopenapi.Scanner
