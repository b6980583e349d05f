import Verif.Model.Obj

/-! Decidable equality of loaded objects, used to evaluate examples. -/

namespace Pyopenapi.Obj

mutual
def decEqO : (a b : Obj) → Decidable (a = b)
  | .prim x, b => match b with
    | .prim y => if h : x = y then .isTrue (by rw [h]) else .isFalse (fun e => h (Obj.prim.inj e))
    | .base _ _ _ _ | .list _ _ _ _ | .map _ _ _ _ => .isFalse nofun
  | .base c p s k, b => match b with
    | .base c' p' s' k' =>
      if h : c = c' ∧ p = p' ∧ s = s' then
        match decEqOD k k' with
        | .isTrue hk => .isTrue (by rw [h.1, h.2.1, h.2.2, hk])
        | .isFalse hk => .isFalse (fun e => hk (Obj.base.inj e).2.2.2)
      else .isFalse (fun e => h ⟨(Obj.base.inj e).1, (Obj.base.inj e).2.1, (Obj.base.inj e).2.2.1⟩)
    | .prim _ | .list _ _ _ _ | .map _ _ _ _ => .isFalse nofun
  | .list c p s k, b => match b with
    | .list c' p' s' k' =>
      if h : c = c' ∧ p = p' ∧ s = s' then
        match decEqOL k k' with
        | .isTrue hk => .isTrue (by rw [h.1, h.2.1, h.2.2, hk])
        | .isFalse hk => .isFalse (fun e => hk (Obj.list.inj e).2.2.2)
      else .isFalse (fun e => h ⟨(Obj.list.inj e).1, (Obj.list.inj e).2.1, (Obj.list.inj e).2.2.1⟩)
    | .prim _ | .base _ _ _ _ | .map _ _ _ _ => .isFalse nofun
  | .map c p s k, b => match b with
    | .map c' p' s' k' =>
      if h : c = c' ∧ p = p' ∧ s = s' then
        match decEqOD k k' with
        | .isTrue hk => .isTrue (by rw [h.1, h.2.1, h.2.2, hk])
        | .isFalse hk => .isFalse (fun e => hk (Obj.map.inj e).2.2.2)
      else .isFalse (fun e => h ⟨(Obj.map.inj e).1, (Obj.map.inj e).2.1, (Obj.map.inj e).2.2.1⟩)
    | .prim _ | .base _ _ _ _ | .list _ _ _ _ => .isFalse nofun
def decEqOL : (a b : List Obj) → Decidable (a = b)
  | [], [] => .isTrue rfl
  | [], _ :: _ => .isFalse nofun
  | _ :: _, [] => .isFalse nofun
  | x :: xs, y :: ys => match decEqO x y with
    | .isFalse h => .isFalse (fun e => h (List.cons.inj e).1)
    | .isTrue h => match decEqOL xs ys with
      | .isFalse h' => .isFalse (fun e => h' (List.cons.inj e).2)
      | .isTrue h' => .isTrue (by rw [h, h'])
def decEqOD : (a b : List (Str × Obj)) → Decidable (a = b)
  | [], [] => .isTrue rfl
  | [], _ :: _ => .isFalse nofun
  | _ :: _, [] => .isFalse nofun
  | (k, x) :: xs, (l, y) :: ys =>
    if hk : k = l then
      match decEqO x y with
      | .isFalse h => .isFalse (fun e => h (Prod.mk.inj (List.cons.inj e).1).2)
      | .isTrue h => match decEqOD xs ys with
        | .isFalse h' => .isFalse (fun e => h' (List.cons.inj e).2)
        | .isTrue h' => .isTrue (by rw [hk, h, h'])
    else .isFalse (fun e => hk (Prod.mk.inj (List.cons.inj e).1).1)
end

instance : DecidableEq Obj := decEqO

end Pyopenapi.Obj
