import Verif.Lemmas.Main20

/-!
# The reference an object was loaded from tells where it is
-/

namespace Pyopenapi
open Spec Obj Refs.Spec

/-- The `path` of an object (none for raw values). -/
def pathOf : Obj → Option Str
  | .base _ p _ _ | .list _ p _ _ | .map _ p _ _ => p
  | .prim _ => none

/-- What tokens add to a reference. -/
def tail (ts : List Str) : Str := ts.flatMap (fun t => '/' :: escape t)

theorem tail_append (ts us : List Str) : tail (ts ++ us) = tail ts ++ tail us := by simp [tail]

theorem pointer_tail (ts : List Str) : pointer ts = '#' :: tail ts := rfl

theorem tail_inj {ts us : List Str} (h : tail ts = tail us) : ts = us := by
  have : pointer ts = pointer us := by rw [pointer_tail, pointer_tail, h]
  rw [← Main.split_back ts, this, Main.split_back us]

theorem compose_one {p : Str} (hp : p ≠ []) (k : Str) : jpCompose [k] (some p) = p ++ tail [k] := by
  rw [jpCompose_base hp]
  simp [Str.joinC, tail, jpEncode_eq_escape]

theorem built_path {b : Builder} {j : Json} {p : Option Str} {o : Obj} (h : build pkg b j p [] = .ok o) (ho : o.isPrim = false) :
    pathOf o = p := by
  have hi := build_inv (T := pkg) closed_all (B := fun _ => True) trivial h
  cases o with
  | prim => cases ho
  | _ => exact hi.1

theorem slot_built {b : Builder} {j : Json} {p : Option Str} {o x : Obj} {k : Str} (h : build pkg b j p [] = .ok o) (hs : Slot o k x) :
    ∃ b' j', build pkg b' j' (some (jpCompose [k] p)) [] = .ok x := by
  have hi := build_inv (T := pkg) closed_all (B := fun _ => True) trivial h
  cases hs with
  | child hm =>
    obtain ⟨_, _, _, h⟩ := hi
    obtain ⟨cd, d, v, h1, rfl, h3, h4⟩ := (base_kids h).2 _ _ hm
    exact ⟨_, _, h4⟩
  | item hm =>
    obtain ⟨_, _, _, h⟩ := hi
    cases j with
    | obj d =>
      rw [build_map] at h
      split at h
      · simp at h
      · rename_i es' hes
        simp only [Except.ok.injEq, Obj.map.injEq] at h
        obtain ⟨_, _, _, rfl⟩ := h
        rw [buildItems_eq] at hes
        obtain ⟨⟨k', x⟩, hx, hkk, hq⟩ := forall₂_mem_right (Dict.mapM_ok hes) hm
        simp only at hkk hq
        subst hkk
        rw [buildAt_nil] at hq
        exact ⟨_, _, hq⟩
    | _ => rw [build_map_other _ _ _ (by simp)] at h; simp at h
  | @elem _ _ _ _ i _ hm =>
    obtain ⟨_, _, _, h⟩ := hi
    cases j with
    | arr l =>
      rw [build_list] at h
      split at h
      · simp at h
      · rename_i es' hes
        simp only [Except.ok.injEq, Obj.list.injEq] at h
        obtain ⟨_, _, _, rfl⟩ := h
        obtain ⟨hl, h⟩ := buildElems_iff.1 hes
        have hi : i < l.length := by
          have := (List.getElem?_eq_some_iff.1 hm).1
          omega
        have := h i l[i] _ (List.getElem?_eq_getElem hi) hm
        rw [buildAt_nil, Nat.zero_add] at this
        exact ⟨_, _, this⟩
    | _ => rw [build_list_other _ _ _ (by simp)] at h; simp at h

theorem leads_built {o x : Obj} {us : List Str} (hl : Leads o us x) : ∀ {b : Builder} {j : Json} {p : Str}, p ≠ [] →
    build pkg b j (some p) [] = .ok o → ∃ b' j', build pkg b' j' (some (p ++ tail us)) [] = .ok x := by
  induction hl with
  | direct hs _ =>
    intro b j p hp h
    obtain ⟨b', j', h'⟩ := slot_built h hs
    rw [compose_one hp] at h'
    exact ⟨b', j', h'⟩
  | @through o m x k ts hs _ _ ih =>
    intro b j p hp h
    obtain ⟨b', j', h'⟩ := slot_built h hs
    rw [compose_one hp] at h'
    have := ih (p := p ++ tail [k]) (by simp [hp]) h'
    rw [List.append_assoc, ← tail_append] at this
    exact this

theorem visited_built {b : Builder} {j : Json} {p : Str} {root x : Obj} {ts : List Str} (hp : p ≠ [])
    (h : build pkg b j (some p) [] = .ok root) (hv : Visited [] root ts x) : ∃ b' j', build pkg b' j' (some (p ++ tail ts)) [] = .ok x := by
  induction hv with
  | root => exact ⟨b, j, by simpa [tail] using h⟩
  | child _ _ hl ih =>
    obtain ⟨b', j', h'⟩ := ih
    have := leads_built hl (by simp [hp]) h'
    rw [List.append_assoc, ← tail_append] at this
    exact this

theorem visited_path {c : Str} {j : Json} {p : Str} {root x : Obj} {ts : List Str} (hp : p ≠ [])
    (h : build pkg (.cls c) j (some p) [] = .ok root) (hv : Visited [] root ts x) : pathOf x = some (p ++ tail ts) := by
  obtain ⟨b', j', h'⟩ := visited_built hp h hv
  refine built_path h' ?_
  cases hv with
  | root =>
    obtain ⟨_, rfl⟩ := Refs.build_class h
    rfl
  | child _ _ hl =>
    have := leads_base hl
    cases x <;> first | rfl | cases this

/-- An object is at one place only. -/
theorem visited_place {c : Str} {j : Json} {p : Str} {root x : Obj} {ts us : List Str} (hp : p ≠ [])
    (h : build pkg (.cls c) j (some p) [] = .ok root) (hv : Visited [] root ts x) (hu : Visited [] root us x) : ts = us := by
  have := (visited_path hp h hv).symm.trans (visited_path hp h hu)
  exact tail_inj (List.append_cancel_left (Option.some.inj this))

/-- Objects loaded from references none of which begins with the other are different. -/
theorem visited_apart {c c' : Str} {j j' : Json} {p p' : Str} {root root' x : Obj} {ts us : List Str} (hp : p ≠ []) (hp' : p' ≠ [])
    (h : build pkg (.cls c) j (some p) [] = .ok root) (h' : build pkg (.cls c') j' (some p') [] = .ok root')
    (hv : Visited [] root ts x) (hu : Visited [] root' us x) : p <+: p' ∨ p' <+: p := by
  have := Option.some.inj ((visited_path hp h hv).symm.trans (visited_path hp' h' hu))
  have h2 : p' <+: p ++ tail ts := by rw [this]; exact List.prefix_append _ _
  exact List.prefix_or_prefix_of_prefix (List.prefix_append _ _) h2

end Pyopenapi
