import Verif.Lemmas.NativeUp
import Verif.Lemmas.PiecesCheck
import Verif.Lemmas.Eval

/-!
# Checking by computation that pieces make an application of 3.0.0
-/

namespace Pyopenapi.Main.Native
open _root_.Pyopenapi.Spec _root_.Pyopenapi.Refs.Spec Obj

variable {W : Type}

/-- What is expected at `ts`. -/
def expectedL (root : Obj) (ts : List Str) : List Builder :=
  (visits root).flatMap (fun v => match v.2 with
    | .base c _ _ _ => (if v.1 = ts ∧ c ∉ [s% "v2_0.Reference", s% "v3_0_0.Reference"] then [.cls c] else []) ++ (pkg c).children.flatMap (fun kc =>
        (slots 0 kc.2.builder).filterMap (fun s =>
          if ts.take (v.1.length + 1) = v.1 ++ [kc.1] ∧ ts.length = v.1.length + 1 + s.1 then some (.ifNotRef s.2.1 s.2.2) else none))
    | _ => [])

theorem expected_mem {root : Obj} (hL : Scanned root (visits root)) {ts : List Str} {b : Builder} (h : Expected root ts b) : b ∈ expectedL root ts := by
  cases h with
  | @slot ts us c k r q spec kids cd b hv hm hat =>
    refine List.mem_flatMap.2 ⟨_, (hL.2.2 _ _).2 hv, List.mem_append.2 (.inr (List.mem_flatMap.2 ⟨_, hm, List.mem_filterMap.2
      ⟨_, builderAt_slots hat rfl 0, ?_⟩⟩))⟩
    rw [if_pos]
    constructor
    · show (ts ++ k :: us).take (ts.length + 1) = ts ++ [k]
      rw [List.take_append, List.take_of_length_le (by omega)]
      simp
    · simp only [List.length_append, List.length_cons]
      omega
  | @self _ c q spec kids hv hc =>
    exact List.mem_flatMap.2 ⟨_, (hL.2.2 _ _).2 hv, List.mem_append.2 (.inl (by rw [if_pos ⟨rfl, hc⟩]; exact List.mem_singleton.2 rfl))⟩

/-- `Suits`. -/
def suitsB (p q : Piece) (ts : List Str) : Bool :=
  (expectedL p.obj ts).all (fun b => match buildF pkg 30 b q.json (some q.ref) with
    | .ok o => decide (o = q.obj)
    | .error _ => false)

theorem suits_check {out : Outer W} {p q : Piece} (hg : Good out p) {ts : List Str} (h : suitsB p q ts = true) : Suits p q ts := by
  intro b hb
  have := List.all_eq_true.1 h b (expected_mem hg.scan hb)
  split at this
  · rename_i o ho
    rw [← of_decide_eq_true this]
    exact buildF_sound 30 _ _ _ _ ho
  · cases this

/-- What a path item leads to. -/
def pathB (t : Piece) (c : Str) (y : Obj) : Bool :=
  !decide (c = s% "v3_0_0.PathItem") || (decide (y.className? = some (s% "v3_0_0.PathItem")) && decide (y ∈ (visits t.obj).map Prod.snd))

theorem path_check {out : Outer W} {t : Piece} (hg : Good out t) {c : Str} {y : Obj} (h : pathB t c y = true) (hc : c = s% "v3_0_0.PathItem") :
    y.className? = some (s% "v3_0_0.PathItem") ∧ ∃ us, Visited [] t.obj us y := by
  simp only [pathB, hc, decide_true, Bool.not_true, Bool.false_or, Bool.and_eq_true, decide_eq_true_eq] at h
  obtain ⟨v, hv, e⟩ := List.mem_map.1 h.2
  exact ⟨h.1, v.1, (hg.scan.2.2 _ _).1 (by rw [← e]; exact hv)⟩

/-- The reference `n` in `p`. -/
def leadsB (main : Piece) (pieces : List Piece) (p : Piece) (ts : List Str) (c n : Str) : Bool :=
  (main :: pieces).any (fun t => decide (n = t.ref) && suitsB p t ts && pathB t c t.obj) ||
    [p, main].any (fun t =>
      let us := (tokens (n.drop t.url.length)).drop t.place.length
      decide (n ≠ t.ref) && decide (n = t.url ++ pointer (t.place ++ us)) && (pointer (t.place ++ us)).all (fun c => !Url.unsafeChar c) &&
        (match Obj.resolve pkg us t.obj with
          | .ok y => y.isBase && pathB t c y
          | .error _ => false))

/-- `Linked`, for one object. -/
def linkedB (out : Outer W) (main : Piece) (pieces : List Piece) (p : Piece) (ts : List Str) (x : Obj) : Bool :=
  match x with
  | .base c _ spec _ => !decide (c ∈ Refs.normClasses3) || (match spec with
    | .obj d => match Dict.get? d (s% "$ref") with
      | none => decide (c ≠ s% "v3_0_0.Reference")
      | some (.str r) => !r.isEmpty && (match normalizeJr out.ok (some r) (some p.url) with
        | .ok (some n) => leadsB main pieces p ts c n
        | _ => false)
      | some _ => false
    | _ => false)
  | _ => true

theorem linked_check {out : Outer W} {main : Piece} {pieces : List Piece} (hgood : ∀ p, p = main ∨ p ∈ pieces → Good out p) {p : Piece}
    (hp : p = main ∨ p ∈ pieces) (h : (visits p.obj).all (fun v => linkedB out main pieces p v.1 v.2) = true) : Linked p out main pieces := by
  intro ts c q spec kids hv hc
  have := List.all_eq_true.1 h _ (((hgood p hp).scan.2.2 _ _).2 hv)
  simp only [linkedB, hc, decide_true, Bool.not_true, Bool.false_or] at this
  split at this
  · rename_i d
    refine ⟨d, rfl, ?_⟩
    split at this
    · rename_i hg
      exact .inl ⟨hg, of_decide_eq_true this⟩
    · rename_i r hg
      simp only [Bool.and_eq_true] at this
      obtain ⟨h1, h2⟩ := this
      split at h2
      · rename_i n hn
        simp only [leadsB, Bool.or_eq_true] at h2
        rcases h2 with h2 | h2
        · obtain ⟨t, ht, h2⟩ := List.any_eq_true.1 h2
          simp only [Bool.and_eq_true, decide_eq_true_eq] at h2
          have ht' : t = main ∨ t ∈ pieces := by simpa using ht
          exact .inr ⟨r, n, t, [], t.obj, hg, (fun e => by rw [e] at h1; simp at h1), hn, ht', .inl ⟨h2.1.1, rfl, rfl⟩,
            fun _ => suits_check (hgood p hp) h2.1.2, path_check (hgood t ht') h2.2⟩
        · obtain ⟨t, ht, h2⟩ := List.any_eq_true.1 h2
          have ht1 : t = p ∨ t = main := by simpa using ht
          have ht' : t = main ∨ t ∈ pieces := by
            rcases ht1 with rfl | rfl
            · exact hp
            · exact .inl rfl
          simp only [Bool.and_eq_true, decide_eq_true_eq] at h2
          obtain ⟨⟨⟨h3, h4⟩, h5⟩, h6⟩ := h2
          split at h6
          · rename_i y hy
            simp only [Bool.and_eq_true] at h6
            refine .inr ⟨r, n, t, _, y, hg, (fun e => by rw [e] at h1; simp at h1), hn, ht', .inr ⟨ht1, h4, ?_, hy, h6.1⟩, fun e => absurd e h3,
              path_check (hgood t ht') h6.2⟩
            intro c hc
            simpa using List.all_eq_true.1 h5 c hc
          · cases h6
      · cases h2
    · cases this
  · cases this

theorem apart_check {out : Outer W} {p q : Piece} (hp : Good out p) (hq : Good out q) (h : apartB p q = true) : p.Apart q := by
  simp only [apartB, Bool.and_eq_true, Bool.or_eq_true, Bool.not_eq_true', decide_eq_false_iff_not] at h
  refine ⟨fun ts us x hv hu => ?_, fun e hpre => ?_⟩
  · have := List.all_eq_true.1 h.1 _ ((hp.scan.2.2 _ _).2 hv)
    simp only [Bool.not_eq_true', decide_eq_false_iff_not] at this
    exact this (List.mem_map.2 ⟨_, (hq.scan.2.2 _ _).2 hu, rfl⟩)
  · rcases h.2 with h2 | h2
    · exact h2 e
    · rw [List.isPrefixOf_iff_prefix.2 hpre] at h2; cases h2

/-- `Good`, checked. -/
theorem good_check {out : Outer W} {p : Piece} (hu : DocUrl out.ok p.url) (hs : (pointer p.place).all (fun c => !Url.unsafeChar c) = true)
    (href : p.ref = p.url ++ pointer p.place ∨ (p.place = [] ∧ p.ref = p.url)) (hc : p.cls ≠ s% "v3_0_0.Reference")
    (hv : (pkg p.cls).version = s% "3.0.0") (hw : p.json.wf = true) (hb : buildF pkg 30 (.cls p.cls) p.json (some p.ref) = .ok p.obj)
    (hm : noMixB 30 p.obj = true) (he : (visits p.obj).all (fun v => noExB v.2) = true) : Good out p := by
  have hb' := buildF_sound 30 _ _ _ _ hb
  have hm' : NoMix p.obj := noMix_check hm
  exact ⟨hu, (fun c hc => by simpa using List.all_eq_true.1 hs c hc), href, hc, hv, hw, hb', hm',
    noEx_check (Refs.scanned_walk (loaded_keyed okTable_pkg closed_all ⟨_, p.json, _, trivial, hw, hb'⟩) hm') he⟩

/-- A main document and pieces, checked. -/
theorem application_check {out : Outer W} {main : Piece} {pieces : List Piece} (hgood : ∀ p ∈ main :: pieces, Good out p)
    (hserved : ∀ p ∈ pieces, Served out p) (hapart : apartAllB (main :: pieces) = true)
    (hlink : (main :: pieces).all (fun p => (visits p.obj).all (fun v => linkedB out main pieces p v.1 v.2)) = true)
    (hroot : main.place = [] ∧ main.ref = main.url ∧ main.cls = s% "v3_0_0.OpenApi") : Application out main pieces := by
  have hg : ∀ p, p = main ∨ p ∈ pieces → Good out p := fun p hp => hgood p (List.mem_cons.2 hp)
  exact ⟨hg, hserved, fun p q hp hq hne => apart_check (hg p hp) (hg q hq) (apart_all hapart (List.mem_cons.2 hp) (List.mem_cons.2 hq) hne),
    fun p hp => linked_check hg hp (List.all_eq_true.1 hlink p (List.mem_cons.2 hp)), hroot⟩

end Pyopenapi.Main.Native
