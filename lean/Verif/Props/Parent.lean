import Verif.Lemmas.ParentTree
import Verif.Lemmas.Eval
import Verif.Model.Tables
import Verif.Lemmas.ObjEq

/-!
# C100: the parent of an object is the object that holds it
-/

namespace Pyopenapi.Parent

open Pyopenapi.Heap (Val Body)
open Spec

variable {T : Table}

/-- The objects of a document are the nodes of a tidy tree. -/
theorem made {b : Builder} {j : Json} {path : Option Str} {v : Val} {m : Mem}
    (h : make T b j path [] = .ok (v, m)) : ∃ o, build T b j path [] = .ok o ∧ v = valOf 0 o ∧ m = layout none 0 o := by
  rw [make_eq j b path []] at h
  cases hb : build T b j path [] with
  | error e => rw [hb] at h; cases h
  | ok o =>
    rw [hb] at h
    have := Except.ok.inj h
    injection this with h1 h2
    exact ⟨o, rfl, h1.symm, by simpa using h2.symm⟩

theorem seg_self (L : Mem) : Seg L 0 L := fun i _ => by rw [Nat.zero_add]

/-- Only addresses of objects hold something. -/
theorem holds_lt {m : Mem} {a : Nat} {k : Str} {v : Val} (h : Holds m a k v) : a < m.length := by
  cases h with
  | child h1 => exact (List.getElem?_eq_some_iff.1 h1).1
  | item h1 => exact (List.getElem?_eq_some_iff.1 h1).1
  | elem h1 => exact (List.getElem?_eq_some_iff.1 h1).1

/-- **C100.** Whatever the classes and the document: once it is loaded, `get_parent()` of every object is the object
that holds it, every object but the first is held, and by one slot only; the first has no parent.  The exception
(`C100_empty_violation`): a list or map without elements that is the child of an object of a class has no parent. -/
theorem C100_parent_partial {b : Builder} {j : Json} {path : Option Str} {v : Val} {m : Mem}
    (h : make T b j path [] = .ok (v, m)) :
    (∃ o, build T b j path [] = .ok o ∧ Shows m v o) ∧
    (∀ a, v = .ref a → getParent m a = none) ∧
    (∀ a k x, Holds m a k (.ref x) → getParent m x = some a ∨
      IsBase m a ∧ Spec.Empty m x ∧ getParent m x = none) ∧
    (∀ x, x < m.length → v ≠ .ref x → ∃ a k, Holds m a k (.ref x)) ∧
    (∀ a k a' k' x, Holds m a k (.ref x) → Holds m a' k' (.ref x) → a = a' ∧ k = k') := by
  obtain ⟨o, hb, rfl, rfl⟩ := made h
  refine ⟨⟨o, hb, shows_layout o (seg_self _)⟩, ?_⟩
  by_cases hp : IsPrim o
  · obtain ⟨j', rfl⟩ := hp
    refine ⟨fun a ha => by simp [valOf] at ha, fun a k x hh => ?_, fun x hx => by simp [layout] at hx,
      fun a k a' k' x hh => ?_⟩
    · have := holds_lt hh; simp [layout] at this
    · have := holds_lt hh; simp [layout] at this
  · have B := block_of (M := layout none 0 o) o none 0 hp (seg_self _)
    have hl : (layout none 0 o).length = size o := layout_length _ _ _
    have lt : ∀ {a k v}, Holds (layout none 0 o) a k v → a < 0 + size o := fun hh => by
      have := holds_lt hh; omega
    refine ⟨fun a ha => ?_, fun a k x hh => B.tidy.parent a k x (Nat.zero_le _) (lt hh) hh, fun x hx hv => ?_,
      fun a k a' k' x hh hh' => B.tidy.once a k a' k' x (Nat.zero_le _) (lt hh) (Nat.zero_le _) (lt hh') hh hh'⟩
    · rw [valOf_ref hp] at ha
      cases ha
      exact B.parent
    · rw [valOf_ref hp] at hv
      obtain ⟨a, k, _, _, hh⟩ := B.all x (by
        rcases Nat.eq_zero_or_pos x with rfl | h0
        · exact absurd rfl hv
        · exact h0) (by omega)
      exact ⟨a, k, hh⟩

/-- Whatever loads can be loaded so. -/
theorem C100_loads {b : Builder} {j : Json} {path : Option Str} (o : Obj) (h : build T b j path [] = .ok o) :
    ∃ v m, make T b j path [] = .ok (v, m) ∧ Shows m v o := by
  refine ⟨valOf 0 o, layout none 0 o, ?_, shows_layout o (seg_self _)⟩
  rw [make_eq j b path [], h]
  rfl

theorem up_succ (p : Nat → Option Nat) : (n a : Nat) → up p (n + 1) a = (up p n a).bind p
  | 0, a => by cases h : p a <;> simp [up, h]
  | n + 1, a => by
    rw [up]
    cases h : p a with
    | none => simp [up, h]
    | some b => simp only [Option.bind_some]; rw [up_succ p n b, up, h]; rfl

theorem not_empty {m : Mem} {a : Nat} {k : Str} {v : Val} (h : Holds m a k v) : ¬ Spec.Empty m a := by
  rintro ⟨n, h1, h2⟩
  cases h with
  | child h3 h4 h5 => rw [h1] at h3; cases h3; rw [h4] at h2; simp at h2
  | item h3 h4 h5 =>
    rw [h1] at h3; cases h3; rw [h4] at h2
    rcases h2 with h2 | h2
    · cases h2
    · cases h2; simp at h5
  | elem h3 h4 h5 =>
    rw [h1] at h3; cases h3; rw [h4] at h2
    rcases h2 with h2 | h2
    · cases h2; simp at h5
    · cases h2

/-- **C100, walking up.** The `n`-th parent of what is `n` steps below an object is that object. -/
theorem C100_up_partial {b : Builder} {j : Json} {path : Option Str} {v : Val} {m : Mem}
    (h : make T b j path [] = .ok (v, m)) {a x : Nat} {names : List Str} (hd : Down m a names x)
    (hne : ¬ Spec.Empty m x) : up (getParent m) names.length x = some a := by
  induction hd with
  | here a => rfl
  | step hh hd ih =>
    rw [List.length_cons, up_succ, ih hne]
    refine ((C100_parent_partial h).2.2.1 _ _ _ hh).resolve_right (fun hc => ?_)
    cases hd with
    | here => exact hne hc.2.1
    | step h2 _ => exact not_empty h2 hc.2.1

/-- **C100, later on.** Through any history of operations on the objects, `get_parent()` of an object answers the object
it was attached to last by `attach_child`, and what it answered at the beginning when it never was. -/
theorem C100_history {names : Str → List Str} {limit : Nat} {w w' : World} {ops : List Heap.Op}
    (h : run names limit w ops = .ok w') (b : Nat) :
    ∃ as, Attached names limit b w ops as ∧
      w'.parent b = match as.getLast? with
        | some a => some a
        | none => w.parent b := by
  induction ops generalizing w with
  | nil => cases h; exact ⟨[], .nil _, rfl⟩
  | cons op ops ih =>
    rw [run] at h
    cases hs : step names limit w op with
    | error e => rw [hs] at h; cases h
    | ok w₁ =>
      rw [hs] at h
      obtain ⟨as, ha, hp⟩ := ih h
      by_cases hat : ∃ a k h', op = .attachChild a k (.ref b) ∧ Heap.attachChild names w.objs a k (.ref b) = .ok h'
      · obtain ⟨a, k, h', rfl, hok⟩ := hat
        refine ⟨a :: as, .attach hok hs ha, ?_⟩
        rw [hp]
        have hw : w₁.parent b = some a := by
          simp only [step, hok, bind, Except.bind] at hs
          cases hx : Heap.step names limit w.objs (.attachChild a k (.ref b)) with
          | error e => rw [hx] at hs; cases hs
          | ok y => rw [hx] at hs; cases hs; simp
        cases as with
        | nil => simp [hw]
        | cons a' as => simp [List.getLast?_cons]
      · refine ⟨as, .other (fun a k h' he hok => hat ⟨a, k, h', he, hok⟩) hs ha, ?_⟩
        rw [hp]
        have hw : w₁.parent b = w.parent b := by
          simp only [step, bind, Except.bind] at hs
          cases hx : Heap.step names limit w.objs op with
          | error e => rw [hx] at hs; cases hs
          | ok y =>
            rw [hx] at hs
            cases hs
            dsimp only
            cases op with
            | attachChild a k v =>
              cases v with
              | raw j => rfl
              | ref x =>
                cases hk : Heap.attachChild names w.objs a k (.ref x) with
                | error e => simp [hk]
                | ok h' =>
                  have : b ≠ x := fun hbx => hat ⟨a, k, h', by rw [hbx], by rw [hbx]; exact hk⟩
                  simp [hk, this]
            | _ => rfl
        rw [hw]

/-! ## A document -/

/-- A 3.0.0 document: no servers, and two path items, one of which has an operation. -/
def house : Json := .obj [(s% "openapi", .str (s% "3.0.0")),
  (s% "info", .obj [(s% "title", .str (s% "t")), (s% "version", .str (s% "1"))]), (s% "servers", .arr []),
  (s% "paths", .obj [(s% "/a", .obj [(s% "summary", .str (s% "s"))]), (s% "/b", .obj [(s% "get",
    .obj [(s% "responses", .obj [(s% "200", .obj [(s% "description", .str (s% "d"))])])])])])]

/-- It, loaded. -/
def houseObj : Obj := match buildF pkg 30 (.cls (s% "v3_0_0.OpenApi")) house none with
  | .ok o => o
  | .error _ => .prim .null

def houseMem : Mem := layout none 0 houseObj

theorem house_loaded : make pkg (.cls (s% "v3_0_0.OpenApi")) house none [] = .ok (.ref 0, houseMem) := by
  rw [make_eq house _ none [], buildF_sound 30 _ _ _ houseObj (by decide +kernel)]
  rfl

/-- The addresses: the document, its info, its servers, its paths, the first path item, the second, its operation,
the responses and the response. -/
theorem house_paths : houseMem.map (fun n => (n.path, n.parent)) = [(none, none), (some (s% "info"), some 0),
    (some (s% "servers"), none), (some (s% "paths"), some 0), (some (s% "paths/~1a"), some 3),
    (some (s% "paths/~1b"), some 3), (some (s% "paths/~1b/get"), some 5), (some (s% "paths/~1b/get/responses"), some 6),
    (some (s% "paths/~1b/get/responses/200"), some 7)] := by decide +kernel

/-- Non-vacuity of `C100_up_partial`: from the response, five steps up to the document. -/
example : Down houseMem 0 [s% "paths", s% "/b", s% "get", s% "responses", s% "200"] 8 ∧ ¬ Spec.Empty houseMem 8 ∧
    up (getParent houseMem) 5 8 = some 0 := by
  refine ⟨?_, ?_, by decide +kernel⟩
  · refine .step (b := 3) (.child (by rfl) (by rfl) (by decide +kernel)) ?_
    refine .step (b := 5) (.item (by rfl) (by rfl) (by decide +kernel)) ?_
    refine .step (b := 6) (.child (by rfl) (by rfl) (by decide +kernel)) ?_
    refine .step (b := 7) (.child (by rfl) (by rfl) (by decide +kernel)) ?_
    exact .step (b := 8) (.item (by rfl) (by rfl) (by decide +kernel)) (.here 8)
  · rintro ⟨n, h1, h2⟩
    have : (houseMem[8]?).map Node.body = some (.base (s% "v3_0_0.Response") []) := by decide +kernel
    rw [h1] at this
    rcases h2 with h2 | h2 <;> rw [Option.map_some, h2] at this <;> cases this

/-- **An empty list of servers has no parent**, although the document holds it. -/
theorem C100_empty_violation : ∃ (j : Json) (m : Mem) (a x : Nat),
    make pkg (.cls (s% "v3_0_0.OpenApi")) j none [] = .ok (.ref a, m) ∧ Holds m a (s% "servers") (.ref x) ∧
    getParent m x ≠ some a :=
  ⟨house, houseMem, 0, 2, house_loaded, .child (by rfl) (by rfl) (by decide +kernel), by decide +kernel⟩

/-- **A merged path item is not the parent of its operations**: after `merge_children` the first path item holds the
operation of the second, whose parent is still the second. -/
theorem C100_merge_violation : ∃ w', run (fun c => Dict.keys (pkg c).children) 100 (world houseMem) [.mergeChildren 4 5] = .ok w' ∧
    Heap.attr w'.objs 4 (s% "get") = .ok (.ref 6) ∧ w'.parent 6 = some 5 :=
  ⟨_, rfl, by decide +kernel, by decide +kernel⟩

/-- **What is appended to a list, or put into a map, does not get it as its parent**: here the response is also
put under another code, into the servers and into the paths, and keeps its parent. -/
theorem C100_put_violation : ∃ w', run (fun c => Dict.keys (pkg c).children) 100 (world houseMem)
      [.setItem 7 (s% "201") (.ref 8), .extend 2 [.ref 8], .setItem 3 (s% "/c") (.ref 8)] = .ok w' ∧
    (w'.objs 2).body = .list [.ref 8] ∧ w'.parent 8 = some 7 :=
  ⟨_, rfl, by decide +kernel, by decide +kernel⟩

/-- Non-vacuity of `C100_history`: the operation is attached to the first path item, and has it as its parent. -/
example : ∃ w', run (fun c => Dict.keys (pkg c).children) 100 (world houseMem) [.attachChild 4 (s% "put") (.ref 6), .getChildren 3] = .ok w' ∧
    Heap.attr w'.objs 4 (s% "put") = .ok (.ref 6) ∧ w'.parent 6 = some 4 :=
  ⟨_, rfl, by decide +kernel, by decide +kernel⟩

end Pyopenapi.Parent
