import Verif.Model.Attr
import Verif.Lemmas.Dict

/-!
# C94: attributes attached to objects
-/

namespace Pyopenapi.Attr
variable {V : Type}

/-! ## specification -/

/-- What an operation writes to the attribute `name` of `o` in the namespace `ns`. -/
def writes (o : Nat) (ns name : Str) : Op V → Option V
  | .write o' ns' _ name' v => if o' = o ∧ ns' = ns ∧ name' = name then some v else none
  | .read .. => none

/-- The class an operation gives for the group of `o` in `ns`. -/
def gives (o : Nat) (ns : Str) : Op V → Option (GroupCls V)
  | .write o' ns' c _ _ => if o' = o ∧ ns' = ns then c else none
  | .read o' ns' c _ => if o' = o ∧ ns' = ns then c else none

/-- The value last written (through whatever class). -/
def lastWrite (o : Nat) (ns name : Str) (p : List (Op V)) : Option V := p.reverse.findSome? (writes o ns name)

/-- The class of the group of `o` in `ns`: the first that was given. -/
def firstCls (o : Nat) (ns : Str) (p : List (Op V)) : Option (GroupCls V) := p.findSome? (gives o ns)

/-- No two attributes of a class use the same key. -/
def Distinct (c : GroupCls V) : Prop :=
  ∀ n m d e, Dict.get? c n = some d → Dict.get? c m = some e → d.key = e.key → n = m

/-- The classes given in a program have distinct keys, and each write is given a class. -/
def Usual (p : List (Op V)) : Prop :=
  (∀ o ns c, ∀ op ∈ p, gives o ns op = some c → Distinct c) ∧ (∀ o ns cls name v, .write o ns cls name v ∈ p → cls ≠ none)

/-! ## proof -/

/-- The value of an attribute in a group. -/
def Group.val (g : Group V) (name : Str) : Option V :=
  match Dict.get? g.cls name with
  | some d => Dict.get? g.attrs d.key
  | none => Dict.get? g.others name

theorem val_write {g : Group V} (hd : Distinct g.cls) (name : Str) (v : V) (n : Str) :
    (g.write name v).val n = if n = name then some v else g.val n := by
  unfold Group.write Group.val
  cases h1 : Dict.get? g.cls name with
  | none =>
    dsimp only
    cases h2 : Dict.get? g.cls n with
    | none =>
      dsimp only
      split
      · rename_i e; rw [e, Dict.get?_set_self]
      · rename_i e; rw [Dict.get?_set_ne _ _ (Ne.symm e)]
    | some d =>
      dsimp only
      rw [if_neg]
      rintro rfl
      rw [h1] at h2
      cases h2
  | some d =>
    dsimp only
    cases h2 : Dict.get? g.cls n with
    | none =>
      dsimp only
      rw [if_neg]
      rintro rfl
      rw [h1] at h2
      cases h2
    | some e =>
      dsimp only
      split
      · rename_i e'
        subst e'
        rw [h1] at h2
        cases h2
        exact Dict.get?_set_self _ _ _
      · rename_i e'
        rw [Dict.get?_set_ne]
        intro hk
        exact e' (hd _ _ _ _ h2 h1 hk.symm)

theorem write_cls (g : Group V) (name : Str) (v : V) : (g.write name v).cls = g.cls := by
  unfold Group.write
  split <;> rfl

/-- What a program leaves of the group of `o` in `ns`. -/
def Inv (o : Nat) (ns : Str) (w : World V) (p : List (Op V)) : Prop :=
  match firstCls o ns p with
  | none => Dict.get? (w o) ns = none ∧ ∀ name, lastWrite o ns name p = none
  | some c => ∃ g, Dict.get? (w o) ns = some g ∧ g.cls = c ∧ ∀ name, g.val name = lastWrite o ns name p

theorem run_snoc (p : List (Op V)) (op : Op V) : run (p ++ [op]) = (step (run p) op).1 := by
  unfold run
  rw [List.foldl_append]
  rfl

theorem first_snoc (o : Nat) (ns : Str) (p : List (Op V)) (op : Op V) :
    firstCls o ns (p ++ [op]) = (firstCls o ns p).or (gives o ns op) := by
  unfold firstCls
  rw [List.findSome?_append]
  cases List.findSome? (gives o ns) p <;> simp [List.findSome?]
  cases gives o ns op <;> rfl

theorem last_snoc (o : Nat) (ns name : Str) (p : List (Op V)) (op : Op V) :
    lastWrite o ns name (p ++ [op]) = (writes o ns name op).or (lastWrite o ns name p) := by
  unfold lastWrite
  rw [List.reverse_append, List.reverse_singleton, List.singleton_append, List.findSome?_cons]
  cases writes o ns name op <;> rfl

theorem inv_run (o : Nat) (ns : Str) : ∀ (n : Nat) (p : List (Op V)), p.length = n → Usual p → Inv o ns (run p) p := by
  intro n
  induction n with
  | zero =>
    intro p hp _
    rw [List.length_eq_zero_iff] at hp
    subst hp
    exact ⟨rfl, fun _ => rfl⟩
  | succ n ih =>
    intro p hp hu
    obtain ⟨q, op, rfl⟩ : ∃ q op, p = q ++ [op] := by
      have hne : p ≠ [] := by intro h; rw [h] at hp; cases hp
      exact ⟨p.dropLast, p.getLast hne, (List.dropLast_concat_getLast hne).symm⟩
    have hq : q.length = n := by simpa using hp
    have hu' : Usual q := ⟨fun o ns c op h => hu.1 o ns c op (List.mem_append_left _ h),
      fun o ns cls name v h => hu.2 o ns cls name v (List.mem_append_left _ h)⟩
    have hi := ih q hq hu'
    rw [run_snoc]
    generalize run q = w at hi
    have hdis : ∀ c, firstCls o ns q = some c → Distinct c := by
      intro c hc
      obtain ⟨_, b, _, e, hb2, _⟩ := List.findSome?_eq_some_iff.1 hc
      exact hu'.1 o ns c b (by rw [e]; simp) hb2
    unfold Inv
    rw [first_snoc]
    simp only [last_snoc]
    unfold Inv at hi
    cases op with
    | read o' ns' cls name =>
      have hw : ∀ n, writes o ns n (Op.read (V := V) o' ns' cls name) = none := fun _ => rfl
      simp only [hw, Option.none_or]
      by_cases hat : o' = o ∧ ns' = ns
      · obtain ⟨rfl, rfl⟩ := hat
        have hg : gives o' ns' (Op.read (V := V) o' ns' cls name) = cls := if_pos ⟨rfl, rfl⟩
        rw [hg]
        cases hf : firstCls o' ns' q with
        | none =>
          rw [hf] at hi
          rw [Option.none_or]
          unfold step getAttrs
          dsimp only
          rw [hi.1]
          cases cls with
          | none => exact hi
          | some c =>
            dsimp only
            rw [if_pos rfl]
            refine ⟨⟨c, [], []⟩, Dict.get?_set_self _ _ _, rfl, fun n => ?_⟩
            rw [hi.2 n]
            unfold Group.val
            split <;> rfl
        | some c =>
          rw [hf] at hi
          obtain ⟨g, g1, g2, g3⟩ := hi
          rw [Option.some_or]
          unfold step getAttrs
          dsimp only
          rw [g1]
          exact ⟨g, g1, g2, g3⟩
      · have hg : gives o ns (Op.read (V := V) o' ns' cls name) = none := if_neg hat
        rw [hg, Option.or_none]
        have hsame : Dict.get? ((step w (Op.read o' ns' cls name)).1 o) ns = Dict.get? (w o) ns := by
          unfold step getAttrs
          dsimp only
          cases Dict.get? (w o') ns' with
          | some g => rfl
          | none =>
            cases cls with
            | none => rfl
            | some c =>
              dsimp only
              split
              · rename_i e
                subst e
                rw [Dict.get?_set_ne]
                exact fun e => hat ⟨rfl, e⟩
              · rfl
        rw [hsame]
        exact hi
    | write o' ns' cls name v =>
      by_cases hat : o' = o ∧ ns' = ns
      · obtain ⟨rfl, rfl⟩ := hat
        have hg : gives o' ns' (Op.write (V := V) o' ns' cls name v) = cls := if_pos ⟨rfl, rfl⟩
        have hw : ∀ n, writes o' ns' n (Op.write (V := V) o' ns' cls name v) = if n = name then some v else none := by
          intro n
          unfold writes
          dsimp only
          by_cases hn : n = name
          · rw [if_pos ⟨rfl, rfl, hn.symm⟩, if_pos hn]
          · rw [if_neg (fun h => hn h.2.2.symm), if_neg hn]
        have hor : ∀ n (x : Option V), (if n = name then some v else none : Option V).or x = if n = name then some v else x := by
          intro n x; split <;> rfl
        simp only [hw, hor]
        rw [hg]
        obtain ⟨c, rfl⟩ := Option.ne_none_iff_exists'.1 (hu.2 o' ns' cls name v (by simp))
        cases hf : firstCls o' ns' q with
        | none =>
          rw [hf] at hi
          rw [Option.none_or]
          unfold step getAttrs
          dsimp only
          rw [hi.1]
          dsimp only
          rw [if_pos rfl, if_pos rfl]
          have hdc : Distinct c := hu.1 o' ns' c _ (by simp) hg
          refine ⟨_, Dict.get?_set_self _ _ _, write_cls _ _ _, fun n => ?_⟩
          rw [val_write (g := ⟨c, [], []⟩) hdc, hi.2 n]
          split
          · rfl
          · unfold Group.val
            split <;> rfl
        | some c' =>
          rw [hf] at hi
          obtain ⟨g, g1, g2, g3⟩ := hi
          rw [Option.some_or]
          unfold step getAttrs
          dsimp only
          rw [g1]
          dsimp only
          rw [if_pos rfl]
          refine ⟨_, Dict.get?_set_self _ _ _, by rw [write_cls, g2], fun n => ?_⟩
          rw [val_write (g2 ▸ hdis c' hf), g3]
      · have hg : gives o ns (Op.write (V := V) o' ns' cls name v) = none := if_neg hat
        have hw : ∀ n, writes o ns n (Op.write (V := V) o' ns' cls name v) = none := by
          intro n
          unfold writes
          exact if_neg (fun h => hat ⟨h.1, h.2.1⟩)
        simp only [hw, Option.none_or]
        rw [hg, Option.or_none]
        have hsame : Dict.get? ((step w (Op.write o' ns' cls name v)).1 o) ns = Dict.get? (w o) ns := by
          unfold step getAttrs
          dsimp only
          cases Dict.get? (w o') ns' with
          | some g =>
            dsimp only
            split
            · rename_i e
              subst e
              rw [Dict.get?_set_ne]
              exact fun e => hat ⟨rfl, e⟩
            · rfl
          | none =>
            cases cls with
            | none => rfl
            | some c =>
              dsimp only
              split
              · rename_i e
                subst e
                rw [if_pos rfl, Dict.get?_set_ne _ _ (fun e => hat ⟨rfl, e⟩), Dict.get?_set_ne _ _ (fun e => hat ⟨rfl, e⟩)]
              · rfl
        rw [hsame]
        exact hi

/-- **C94**: whatever a program has done before with the attributes of all objects, reading an attribute of an object in a
namespace gives what was last written to that very attribute of that object in that namespace; when nothing was, the
default (or an exception, when it is required) if the class of the group, which is the first one given, has the
attribute, and AttributeError otherwise (or when no class was ever given). -/
theorem C94_read (p : List (Op V)) (hu : Usual p) (o : Nat) (ns name : Str) (cls : Option (GroupCls V)) :
    (step (run p) (.read o ns cls name)).2 =
      match lastWrite o ns name p, ((firstCls o ns p).or cls).bind (Dict.get? · name) with
      | some v, _ => .ok (some v)
      | none, some d => if d.required then .error .generic else .ok (some d.default)
      | none, none => .error .attributeError := by
  have hi := inv_run o ns _ p rfl hu
  generalize run p = w at hi
  unfold Inv at hi
  have hrd : ∀ g : Group V, (g.read name).map some = match g.val name, Dict.get? g.cls name with
      | some v, _ => .ok (some v)
      | none, some d => if d.required then .error .generic else .ok (some d.default)
      | none, none => .error .attributeError := by
    intro g
    unfold Group.read Group.val
    cases Dict.get? g.cls name with
    | none =>
      dsimp only
      cases Dict.get? g.others name <;> rfl
    | some d =>
      dsimp only
      cases Dict.get? g.attrs d.key with
      | some v => rfl
      | none =>
        dsimp only
        split <;> rfl
  cases hf : firstCls o ns p with
  | none =>
    rw [hf] at hi
    rw [hi.2 name, Option.none_or]
    unfold step getAttrs
    dsimp only
    rw [hi.1]
    cases cls with
    | none => rfl
    | some c =>
      dsimp only
      rw [hrd]
      have : Group.val ⟨c, [], []⟩ name = (none : Option V) := by
        unfold Group.val
        split <;> rfl
      rw [this]
      rfl
  | some c =>
    rw [hf] at hi
    obtain ⟨g, g1, g2, g3⟩ := hi
    rw [Option.some_or]
    unfold step getAttrs
    dsimp only
    rw [g1]
    dsimp only
    rw [hrd, g3, g2]
    rfl

/-- **C94**: without a group and without a class for one, writing raises AttributeError and nothing is written. -/
theorem C94_refused (p : List (Op V)) (hu : Usual p) (o : Nat) (ns name : Str) (v : V) (h : firstCls o ns p = none) :
    step (run p) (.write o ns none name v) = (run p, .error .attributeError) := by
  have hi := inv_run o ns _ p rfl hu
  unfold Inv at hi
  rw [h] at hi
  unfold step getAttrs
  dsimp only
  rw [hi.1]

/-- **C94**, of the package: an attribute of one of its groups that was never set reads as `None`, when the first class
that was given has it. -/
theorem C94_unset (p : List (Op (Option V))) (hu : Usual p) (o : Nat) (ns name : Str) (c : GroupCls (Option V))
    (hc : c ∈ [referenceGroup V, schemaGroup V, pathItemGroup2 V, pathItemGroup3 V])
    (hf : ((firstCls o ns p).or (some c)) = some c) (hn : name ∈ Dict.keys c) (hl : lastWrite o ns name p = none) :
    (step (run p) (.read o ns (some c) name)).2 = .ok (some none) := by
  rw [C94_read p hu o ns name (some c), hl, hf]
  have key : ∃ d, Dict.get? c name = some d ∧ d.required = false ∧ d.default = none := by
    simp only [List.mem_cons, List.not_mem_nil, or_false] at hc
    have hm : ∀ (spec : Dict (Option Str × Bool × Option (Option V))), (∀ x ∈ spec, x.2.2.1 = false ∧ x.2.2.2 = none) →
        name ∈ Dict.keys (groupCls (none : Option V) spec) →
        ∃ d, Dict.get? (groupCls (none : Option V) spec) name = some d ∧ d.required = false ∧ d.default = none := by
      intro spec hs hm
      obtain ⟨d, hd⟩ := Option.ne_none_iff_exists'.1 (fun h0 => Dict.get?_eq_none_iff.1 h0 hm)
      obtain ⟨x, hx, e⟩ := List.mem_map.1 (Dict.mem_of_get? hd)
      cases e
      exact ⟨_, hd, (hs x hx).1, by show x.2.2.2.getD none = none; rw [(hs x hx).2]; rfl⟩
    rcases hc with rfl | rfl | rfl | rfl <;> refine hm _ ?_ hn <;> intro x hx <;>
      simp only [List.mem_cons, List.not_mem_nil, or_false] at hx
    · rcases hx with rfl | rfl <;> exact ⟨rfl, rfl⟩
    · rcases hx with rfl | rfl | rfl | rfl <;> exact ⟨rfl, rfl⟩
    · rcases hx with rfl | rfl <;> exact ⟨rfl, rfl⟩
    · rcases hx with rfl | rfl | rfl <;> exact ⟨rfl, rfl⟩
  obtain ⟨d, h1, h2, h3⟩ := key
  have hb : (some c).bind (Dict.get? · name) = some d := h1
  rw [hb]
  dsimp only
  rw [h2, h3]
  rfl

/-- C94 fails for the attribute `final_obj` of 2.0 path items, which the merge sets although their group does not have
it: before, reading it raises AttributeError instead of giving `None`; afterwards it can be read. -/
theorem C94_final_violation (o : Nat) (ns : Str) (v : V) :
    (step (run []) (.read o ns (some (pathItemGroup2 V)) (s% "final_obj"))).2 = .error .attributeError ∧
    (step (run []) (.read o ns (some (pathItemGroup3 V)) (s% "final_obj"))).2 = .ok (some none) ∧
    (step (run [.write o ns (some (pathItemGroup2 V)) (s% "final_obj") (some v)])
      (.read o ns (some (pathItemGroup2 V)) (s% "final_obj"))).2 = .ok (some (some v)) := by
  have hd : Distinct (pathItemGroup2 V) := by
    intro n m d e h1 h2 hk
    have hx : ∀ n d, Dict.get? (pathItemGroup2 V) n = some d → d.key = n := by
      intro n d h
      obtain ⟨x, hx, e⟩ := List.mem_map.1 (Dict.mem_of_get? h)
      simp only [List.mem_cons, List.not_mem_nil, or_false] at hx
      rcases hx with rfl | rfl <;> cases e <;> rfl
    rw [← hx n d h1, ← hx m e h2, hk]
  refine ⟨?_, ?_, ?_⟩
  · rw [C94_read [] ⟨by simp, by simp⟩]; rfl
  · rw [C94_read [] ⟨by simp, by simp⟩]; rfl
  · rw [C94_read]
    · have : lastWrite o ns (s% "final_obj") [.write o ns (some (pathItemGroup2 V)) (s% "final_obj") (some v)] = some (some v) := by
        unfold lastWrite
        rw [List.reverse_singleton, List.findSome?_cons]
        unfold writes
        dsimp only
        rw [if_pos ⟨rfl, rfl, rfl⟩]
      rw [this]
    · refine ⟨fun o' ns' c op hop hg => ?_, fun o' ns' cls n' v' h => ?_⟩
      · rw [List.mem_singleton] at hop
        subst hop
        unfold gives at hg
        dsimp only at hg
        split at hg
        · cases hg; exact hd
        · cases hg
      · rw [List.mem_singleton] at h
        cases h
        simp

/-- C94: two objects and two namespaces do not interfere. -/
example : (step (run [.write 0 (s% "m") (some (referenceGroup Nat)) (s% "ref_obj") (some 1),
      .write 1 (s% "m") (some (referenceGroup Nat)) (s% "ref_obj") (some 2),
      .write 0 (s% "x") (some (schemaGroup Nat)) (s% "ref_obj") (some 3),
      .write 0 (s% "m") (some (schemaGroup Nat)) (s% "name") (some 4)])
    (.read 0 (s% "m") none (s% "ref_obj"))).2 = .ok (some (some 1)) := by rfl

end Pyopenapi.Attr
