import Verif.Lemmas.PiecesUp
import Verif.Lemmas.MainCheck

/-!
# Checking by computation that pieces make an application
-/

namespace Pyopenapi.Main
open _root_.Pyopenapi.Spec _root_.Pyopenapi.Refs.Spec Obj

variable {W : Type}

/-- `Suits`. -/
def suitsB (q : Piece) (ts : List Str) (x : Obj) : Bool :=
  decide (x.className? = some q.cls) ||
    (decide (x.className? = some (s% "v2_0.Reference")) && (match q.json with | .obj d => (Dict.get? d (s% "$ref")).isNone | _ => false) &&
      (match ts.reverse with
        | _ :: k :: _ => (decide (q.cls = s% "v2_0.Parameter") && decide (k = s% "parameters")) ||
            (decide (q.cls = s% "v2_0.Response") && decide (k = s% "responses"))
        | _ => false))

theorem suits_check {q : Piece} {ts : List Str} {x : Obj} (h : suitsB q ts x = true) : q.Suits ts x := by
  simp only [suitsB, Bool.or_eq_true, Bool.and_eq_true, decide_eq_true_eq] at h
  refine h.imp_right (fun ⟨⟨h1, h2⟩, h3⟩ => ⟨h1, ?_, ?_⟩)
  · split at h2
    · rename_i d hd
      exact ⟨d, hd, by simpa using h2⟩
    · cases h2
  · split at h3
    · rename_i i k us hr
      have e : ts = us.reverse ++ [k, i] := by
        rw [← List.reverse_reverse ts, hr]
        simp
      simp only [Bool.or_eq_true, Bool.and_eq_true, decide_eq_true_eq] at h3
      rcases h3 with ⟨h3, rfl⟩ | ⟨h3, rfl⟩
      · exact .inl ⟨h3, us.reverse, i, e⟩
      · exact .inr ⟨h3, us.reverse, i, e⟩
    · cases h3

/-- What a path item leads to. -/
def pathB (t : Piece) (c : Str) (y : Obj) : Bool :=
  !decide (c = s% "v2_0.PathItem") || (decide (y.className? = some (s% "v2_0.PathItem")) && decide (y ∈ (visits t.obj).map Prod.snd))

theorem path_check {out : Outer W} {t : Piece} (hg : t.Good out) {c : Str} {y : Obj} (h : pathB t c y = true) (hc : c = s% "v2_0.PathItem") :
    y.className? = some (s% "v2_0.PathItem") ∧ ∃ us, Visited [] t.obj us y := by
  simp only [pathB, hc, decide_true, Bool.not_true, Bool.false_or, Bool.and_eq_true, decide_eq_true_eq] at h
  obtain ⟨v, hv, e⟩ := List.mem_map.1 h.2
  exact ⟨h.1, v.1, (hg.scan.2.2 _ _).1 (by rw [← e]; exact hv)⟩

/-- The reference `n` in `p`. -/
def leadsB (main : Piece) (pieces : List Piece) (p : Piece) (ts : List Str) (c : Str) (x : Obj) (n : Str) : Bool :=
  (main :: pieces).any (fun t => decide (n = t.ref) && suitsB t ts x && pathB t c t.obj) ||
    [p, main].any (fun t =>
      let us := (tokens (n.drop t.url.length)).drop t.place.length
      decide (n ≠ t.ref) && decide (n = t.url ++ pointer (t.place ++ us)) && (pointer (t.place ++ us)).all (fun c => !Url.unsafeChar c) &&
        (match Obj.resolve pkg us t.obj with
          | .ok y => y.isBase && pathB t c y
          | .error _ => false))

/-- `Piece.Linked`, for one object. -/
def linkedPieceB (out : Outer W) (main : Piece) (pieces : List Piece) (p : Piece) (ts : List Str) (x : Obj) : Bool :=
  match x with
  | .base c _ spec _ => !decide (c ∈ Refs.normClasses2) || (match spec with
    | .obj d => match Dict.get? d (s% "$ref") with
      | none => true
      | some (.str r) => !r.isEmpty && (match normalizeJr out.ok (some r) (some p.url) with
        | .ok (some n) => leadsB main pieces p ts c x n
        | _ => false)
      | some _ => false
    | _ => false)
  | _ => true

theorem linked_pieces {out : Outer W} {main : Piece} {pieces : List Piece} (hgood : ∀ p, p = main ∨ p ∈ pieces → p.Good out) {p : Piece}
    (hp : p = main ∨ p ∈ pieces) (h : (visits p.obj).all (fun v => linkedPieceB out main pieces p v.1 v.2) = true) : p.Linked out main pieces := by
  intro ts c q spec kids hv hc
  have := List.all_eq_true.1 h _ (((hgood p hp).scan.2.2 _ _).2 hv)
  simp only [linkedPieceB, hc, decide_true, Bool.not_true, Bool.false_or] at this
  split at this
  · rename_i d
    refine ⟨d, rfl, ?_⟩
    split at this
    · rename_i hg
      exact .inl hg
    · rename_i r hg
      simp only [Bool.and_eq_true] at this
      obtain ⟨h1, h2⟩ := this
      split at h2
      · rename_i n hn
        simp only [leadsB, Bool.or_eq_true] at h2
        rcases h2 with h2 | h2
        · obtain ⟨t, ht, h2⟩ := List.any_eq_true.1 h2
          simp only [Bool.and_eq_true, decide_eq_true_eq] at h2
          have ht' : t = main ∨ t ∈ pieces := by simpa using ht
          exact .inr ⟨r, n, t, t.obj, hg, (fun e => by rw [e] at h1; simp at h1), hn, ht', .inl ⟨h2.1.1, rfl⟩, fun _ => suits_check h2.1.2,
            path_check (hgood t ht') h2.2⟩
        · obtain ⟨t, ht, h2⟩ := List.any_eq_true.1 h2
          have ht1 : t = p ∨ t = main := by simpa using ht
          have ht' : t = main ∨ t ∈ pieces := by
            rcases ht1 with rfl | rfl
            · exact hp
            · exact .inl rfl
          simp only [Bool.and_eq_true, decide_eq_true_eq] at h2
          obtain ⟨⟨⟨h3, h4⟩, h5⟩, h6⟩ := h2
          split at h6
          · rename_i y hy
            simp only [Bool.and_eq_true] at h6
            refine .inr ⟨r, n, t, y, hg, (fun e => by rw [e] at h1; simp at h1), hn, ht', .inr ⟨ht1, _, h4, ?_, hy, h6.1⟩, fun e => absurd e h3,
              path_check (hgood t ht') h6.2⟩
            intro c hc
            simpa using List.all_eq_true.1 h5 c hc
          · cases h6
      · cases h2
    · cases this
  · cases this

/-- `Piece.Apart`. -/
def apartB (p q : Piece) : Bool :=
  (visits p.obj).all (fun v => !decide (v.2 ∈ (visits q.obj).map Prod.snd)) && (!decide (p.url = q.url) || !(pointer p.place).isPrefixOf (pointer q.place))

theorem apart_check {out : Outer W} {p q : Piece} (hp : p.Good out) (hq : q.Good out) (h : apartB p q = true) : p.Apart q := by
  simp only [apartB, Bool.and_eq_true, Bool.or_eq_true, Bool.not_eq_true', decide_eq_false_iff_not] at h
  refine ⟨fun ts us x hv hu => ?_, fun e hpre => ?_⟩
  · have := List.all_eq_true.1 h.1 _ ((hp.scan.2.2 _ _).2 hv)
    simp only [Bool.not_eq_true', decide_eq_false_iff_not] at this
    exact this (List.mem_map.2 ⟨_, (hq.scan.2.2 _ _).2 hu, rfl⟩)
  · rcases h.2 with h2 | h2
    · exact h2 e
    · rw [List.isPrefixOf_iff_prefix.2 hpre] at h2; cases h2

/-- Each two of them. -/
def apartAllB : List Piece → Bool
  | [] => true
  | p :: L => L.all (fun q => apartB p q && apartB q p) && apartAllB L

theorem apart_all {p q : Piece} : ∀ {L : List Piece}, apartAllB L = true → p ∈ L → q ∈ L → p ≠ q → apartB p q = true
  | [], _, hp, _, _ => by cases hp
  | r :: L, h, hp, hq, hne => by
    simp only [apartAllB, Bool.and_eq_true] at h
    rcases List.mem_cons.1 hp with e | hp'
    · rcases List.mem_cons.1 hq with e' | hq'
      · exact absurd (e.trans e'.symm) hne
      · have := List.all_eq_true.1 h.1 q hq'
        simp only [Bool.and_eq_true] at this
        rw [e]
        exact this.1
    · rcases List.mem_cons.1 hq with e' | hq'
      · have := List.all_eq_true.1 h.1 p hp'
        simp only [Bool.and_eq_true] at this
        rw [e']
        exact this.2
      · exact apart_all h.2 hp' hq' hne

/-- A main document and pieces, checked. -/
theorem application_check {out : Outer W} {main : Piece} {pieces : List Piece} (hgood : ∀ p ∈ main :: pieces, p.Good out)
    (hserved : ∀ p ∈ pieces, p.Served out) (hapart : apartAllB (main :: pieces) = true)
    (hlink : (main :: pieces).all (fun p => (visits p.obj).all (fun v => linkedPieceB out main pieces p v.1 v.2)) = true)
    (hroot : main.place = [] ∧ main.ref = main.url ∧ main.cls = s% "v2_0.Swagger") : Application out main pieces := by
  have hg : ∀ p, p = main ∨ p ∈ pieces → p.Good out := fun p hp => hgood p (List.mem_cons.2 hp)
  exact ⟨hg, hserved, fun p q hp hq hne => apart_check (hg p hp) (hg q hq) (apart_all hapart (List.mem_cons.2 hp) (List.mem_cons.2 hq) hne),
    fun p hp => linked_pieces hg hp (List.all_eq_true.1 hlink p (List.mem_cons.2 hp)), hroot⟩

end Pyopenapi.Main
