import Verif.Lemmas.Pieces3Up
import Verif.Lemmas.PiecesEnv
import Verif.Props.MainUp
import Verif.Lemmas.PathRefs

/-!
# An application that can be migrated, when its pieces have been migrated to 2.0
-/

namespace Pyopenapi.Main
open _root_.Pyopenapi.Spec _root_.Pyopenapi.Refs.Spec Obj Conv

variable {W : Type}

/-! ### the first token of a place -/

theorem docs_kids {j : Json} {p : Option Str} {o : Obj} (h : build pkg (.cls (s% "v3_0_0.ExternalDocumentation")) j p [] = .ok o) :
    ∃ q s, o = .base (s% "v3_0_0.ExternalDocumentation") q s [] := by
  obtain ⟨⟨q, s, kids⟩, rfl⟩ := show ∃ x : Option Str × Json × Dict Obj, o = .base (s% "v3_0_0.ExternalDocumentation") x.1 x.2.1 x.2.2 by
    obtain ⟨k, e⟩ := Refs.build_class h
    exact ⟨(_, _, _), e⟩
  refine ⟨q, s, ?_⟩
  cases kids with
  | nil => rfl
  | cons a l =>
    obtain ⟨cd, _, _, hm, _⟩ := fine_kids h a.1 a.2 List.mem_cons_self
    have : (pkg (s% "v3_0_0.ExternalDocumentation")).children = [] := by decide +kernel
    rw [this] at hm
    cases hm

theorem visited_first {c : Str} {j : Json} {p : Option Str} {root x : Obj} {ts : List Str} (h : build pkg (.cls c) j p [] = .ok root)
    (hv : Visited [] root ts x) : (ts = [] ∧ x = root) ∨ ∃ k us, ts = k :: us ∧ k ∈ Dict.keys (pkg c).children ∧
      ((∀ cd, (k, cd) ∈ (pkg c).children → cd.builder = .cls (s% "v3_0_0.ExternalDocumentation")) →
        ∃ q s, x = .base (s% "v3_0_0.ExternalDocumentation") q s []) := by
  induction hv with
  | root => exact .inl ⟨rfl, rfl⟩
  | @child ts us o x _ _ hl ih =>
    refine .inr ?_
    rcases ih with ⟨rfl, rfl⟩ | ⟨k, us', rfl, hk, hd⟩
    · obtain ⟨kk, rfl⟩ := Refs.build_class h
      have key : ∀ {k : Str} {m : Obj}, Slot (.base c p j kk) k m → k ∈ Dict.keys (pkg c).children ∧
          ((∀ cd, (k, cd) ∈ (pkg c).children → cd.builder = .cls (s% "v3_0_0.ExternalDocumentation")) →
            ∃ q s, m = .base (s% "v3_0_0.ExternalDocumentation") q s []) := by
        intro k m hs
        cases hs with
        | child hm =>
          obtain ⟨cd, _, v, g1, _, _, _, g2⟩ := fine_kids h k m hm
          refine ⟨List.mem_map.2 ⟨_, g1, rfl⟩, fun hh => ?_⟩
          rw [hh cd g1] at g2
          exact docs_kids g2
      cases hl with
      | direct hs _ => exact ⟨_, [], rfl, key hs⟩
      | through hs hb hl' =>
        refine ⟨_, _, rfl, (key hs).1, fun hh => ?_⟩
        obtain ⟨q, s, e⟩ := (key hs).2 hh
        rw [e] at hb
        cases hb
    · refine ⟨k, us' ++ us, rfl, hk, fun hh => ?_⟩
      obtain ⟨q, s, rfl⟩ := hd hh
      cases hl with
      | direct hs _ => cases hs with | child hm => cases hm
      | through hs _ _ => cases hs with | child hm => cases hm

/-! ### references of what is converted -/

theorem pieceSource {out : Outer W} {main : Piece} {pieces : List Piece} (hA : Application out main pieces) {p : Piece}
    (hp : p = main ∨ p ∈ pieces) : Source (Inside p.obj) (MainRef p) where
  loaded hx := by
    have hg := hA.good p hp
    exact loaded_inside closed_all ⟨_, _, _, trivial, hg.wf, hg.built⟩ hx
  slot hx hs := inside_trans hx (inside_slot hs (.here _))
  ref hx hf ht := by
    obtain ⟨c, q, e, kids, ts, rfl, h1, h2, h3⟩ := fld_ref (hA.good p hp) (linked_spec (hA.linked p hp)) hx hf ht
    exact .inl ⟨rfl, ts, c, q, e, kids, h1, h2, h3, ht⟩

/-- What a piece is converted to. -/
theorem piece_converted {out : Outer W} {main : Piece} {pieces : List Piece} {d : Dict Json} (hU : Upgradable out main pieces d) {p : Piece}
    (hp : p ∈ pieces) : ∃ o j, toSchema false p.obj = .ok (.obj j) ∧ SchemaTo p.json (.obj j) ∧ (Json.obj j).wf = true ∧
      build pkg (.cls (s% "v3_0_0.Schema")) (.obj j) (some (pointer p.place)) [] = .ok o ∧ FineObj (MainRef p) o ∧ Scanned o (visits o) := by
  obtain ⟨r, h1, h2, h3⟩ := toSchema_built _ p.json p.obj (Nat.le_refl _) (piece_built hU hp)
  haveI : Source (Inside p.obj) (MainRef p) := pieceSource hU.app (.inr hp)
  obtain ⟨⟨j, rfl⟩, h4, _⟩ := toSchema_loads (P := Inside p.obj) _ false p.obj r (Nat.le_refl _) (.here _) h1
  obtain ⟨e, he, hnr⟩ := (hU.schemas p hp).plain
  have hno : Dict.get? j (s% "$ref") = none := by
    rw [he] at h2
    cases h2 with
    | ref hv _ => rw [hnr] at hv; cases hv
    | file _ _ => rfl
    | plain _ _ hflat =>
      cases hg : Dict.get? j (s% "$ref") with
      | none => rfl
      | some v => exact absurd (hflat.2.2.2.2.2 _ (by rw [hg]; simp)) (by decide)
  have hf : Fine (MainRef p) (.cls (s% "v3_0_0.Schema")) (.obj j) := by
    cases h4 with
    | ref hv _ => rw [hno] at hv; cases hv
    | notRef _ h => exact h
  obtain ⟨o, ho, _⟩ := built_exists hf.regular h3 (some (pointer p.place))
  obtain ⟨g1, g2⟩ := fine_scanned (by decide) hf h3 ho
  exact ⟨o, j, h1, h2, h3, ho, g1, g2⟩

theorem converted_inj {p : Piece} {o o' : Obj} (h : p.Converted o) (h' : p.Converted o') : o = o' := by
  obtain ⟨j, h1, h2⟩ := h
  obtain ⟨j', h1', h2'⟩ := h'
  rw [h1] at h1'
  cases h1'
  rw [h2] at h2'
  cases h2'
  rfl

/-- What a `$ref` of a piece is. -/
theorem ref_what {out : Outer W} {main : Piece} {pieces : List Piece} {d : Dict Json} (hU : Upgradable out main pieces d) {p : Piece}
    (hp : Reached out main pieces p) {b : Bool} {v : Json} (h : MainRef p b v) :
    ∃ r n, v = .str r ∧ r ≠ [] ∧ normalizeJr out.ok (some r) (some p.url) = .ok (some n) ∧
      ((∃ t ∈ pieces, n = t.ref ∧ Reached out main pieces t) ∨
        ∃ sec m w c, n = main.url ++ pointer [sec, m] ∧ Safe [sec, m] ∧ Dict.get? (objAt d sec) m = some w ∧ FitsP c sec) := by
  have hp' := reached_in hp
  rcases h with ⟨_, ts, c, q, e, kids, hv, hc, hg, ht⟩ | ⟨_, ts, q, e, kids, r, hv, hg, hne, rfl⟩
  case inr =>
    have hpm : p = main := by
      rcases hp' with h | h
      · exact h
      · exact absurd (schema_only (hU.app.good p (.inr h)) (hU.schemas p h) hv) (by decide)
    subst hpm
    have hgm := hU.app.good p (.inl rfl)
    obtain ⟨e', he, h⟩ := hU.refs ts _ q _ kids hv (by decide)
    cases he
    rcases h with h | ⟨v', h, hh⟩
    · rw [hg] at h; cases h
    · rw [hg] at h
      cases h
      rcases hh with ⟨_, _, _, _, _, _, hfit⟩ | ⟨_, k, u, e, hs, hu⟩ | ⟨hc', _⟩
      · rcases hfit with ⟨hc, _⟩ | ⟨hc, _⟩ <;> exact absurd hc (by decide)
      · cases e
        exact ⟨_, _, rfl, by simp [hgm.url.ne], norm_absolute hgm.url _, .inr ⟨_, k, u, _, rfl, hs, hu, .inr ⟨rfl, rfl⟩⟩⟩
      · exact absurd hc' (by decide)
  obtain ⟨e', he, hl⟩ := hU.app.linked p hp' ts c q _ kids hv hc
  cases he
  rcases hl with hl | ⟨r, n, t, y, h1, h2, h3, _⟩
  · rw [hg] at hl; cases hl
  · rw [hg] at h1
    cases h1
    have hr : Refers Refs.normClasses2 (.base c q (.obj e) kids) r := ⟨c, q, e, kids, rfl, hc, hg, h2⟩
    refine ⟨r, n, rfl, h2, h3, ?_⟩
    rcases ref_kinds hU hp' hv hr h3 with ⟨t, ht, e, _⟩ | ⟨sec, m, w, e, hs, hw, hf⟩
    · exact .inl ⟨t, ht, e, reached_next hp hv hr h3 (.inr ht) (.inl ⟨e, rfl⟩)⟩
    · exact .inr ⟨sec, m, w, c, e, hs, hw, hf⟩

/-- The environment of the conversion does not change while pieces are converted. -/
theorem farStable {out : Outer W} {main : Piece} {pieces : List Piece} {d : Dict Json} (hU : Upgradable out main pieces d) {w w' : World W}
    (hk : AllKnown out main pieces w) (hs : ∀ p, Reached out main pieces p → ∀ ts x, Visited [] p.obj ts x → attrsOf w' x = attrsOf w x) :
    Agree (Somewhere out main pieces) (convEnv out w') (farEnv out main pieces w) := by
  have hk' : AllKnown out main pieces w' := fun p hp ts x hv => by rw [hs p hp ts x hv]; exact hk p hp ts x hv
  refine ⟨rfl, rfl, fun o ho => ?_, (farAgree hU hk).closed, fun o v ho hf ht => ?_⟩
  · rw [← (farAgree hU hk).deref o ho]
    show deref w' o = deref w o
    obtain ⟨p, hp, hi⟩ := ho
    by_cases hb : o.isBase = true
    · obtain ⟨ts, hv⟩ := inside_base hU.app hp hi hb
      obtain ⟨k, z, hc⟩ := hU.ends p (reached_in hp) ts o hv
      rw [deref_ends hU hk hc hp hv, deref_ends hU hk' hc hp hv]
    · rw [deref_plain (by simpa using hb), deref_plain (by simpa using hb)]
  · obtain ⟨p, hp, hi⟩ := ho
    obtain ⟨c, q, e, kids, ts, rfl, hv, _⟩ := fld_ref (hU.app.good p (reached_in hp)) (linked_spec (hU.app.linked p (reached_in hp))) hi hf ht
    show (match (attrsOf w' _).normalized with | some r => Json.str r | none => .null) = _
    rw [hs p hp ts _ hv]
    rfl

theorem pathOps_keys {env : Conv.Env} {o : Obj} {root : Str} {ps cs : List Str} {ms : List Str} {b b' : Option (Dict Json)}
    {acc ops : List (Str × Dict Json)} (h : pathOps env o root ps cs ms b acc = .ok (ops, b')) : ∀ p ∈ ops, p ∈ acc ∨ p.1 ∈ ms := by
  induction ms generalizing b acc with
  | nil => cases h; exact fun p hp => .inl hp
  | cons m ms ih =>
    unfold pathOps at h
    split at h
    · exact fun p hp => (ih h p hp).imp_right (List.mem_cons_of_mem _)
    · obtain ⟨⟨r, b1⟩, _, h⟩ := bindOk h
      dsimp only at h
      have key : ∀ {b2 : Option (Dict Json)} {x : Dict Json}, pathOps env o root ps cs ms b2 (acc ++ [(m, x)]) = .ok (ops, b') →
          ∀ p ∈ ops, p ∈ acc ∨ p.1 ∈ m :: ms := by
        intro b2 x h p hp
        rcases ih h p hp with h1 | h1
        · rcases List.mem_append.1 h1 with h1 | h1
          · exact .inl h1
          · rw [List.mem_singleton.1 h1]
            exact .inr List.mem_cons_self
        · exact .inr (List.mem_cons_of_mem _ h1)
      cases b with
      | none => exact key h
      | some _ => exact key h

theorem update_other {e : Dict Json} {k : Str} : ∀ (d : Dict Json), k ∉ Dict.keys e → Dict.get? (Dict.update d e) k = Dict.get? d k := by
  induction e with
  | nil => exact fun _ _ => rfl
  | cons x e ih =>
    intro d hk
    have h1 : k ∉ Dict.keys e := fun h => hk (List.mem_cons_of_mem _ h)
    have h2 : x.1 ≠ k := fun h => hk (h ▸ List.mem_cons_self)
    exact (ih _ h1).trans (Dict.get?_set_ne _ _ h2)

theorem nodup_places {l : List Str} (h : l.Nodup) (s : Str) : (l.map (fun k => [s, k])).Nodup := by
  induction l with
  | nil => exact List.nodup_nil
  | cons x l ih =>
    rw [List.nodup_cons] at h
    refine List.nodup_cons.2 ⟨fun hm => ?_, ih h.2⟩
    obtain ⟨k, hk, e⟩ := List.mem_map.1 hm
    cases e
    exact h.1 hk

/-- The `$ref` of a converted path item. -/
theorem toPathItem_ref {env : Conv.Env} {o : Obj} {root : Str} {cs ps : List Str} {j : Dict Json} {rl : Routes} {ref : Json}
    (h : toPathItem env o root cs ps = .ok (j, rl)) (hf : fld o (s% "$ref") = .ok ref) :
    Dict.get? j (s% "$ref") = if ref.truthy = true then some (env.normRef o) else none := by
  unfold toPathItem at h
  rw [hf] at h
  obtain ⟨ref', e, h⟩ := bindOk h
  cases e
  obtain ⟨⟨qs, body⟩, h1, h⟩ := bindOk h
  obtain ⟨idx, h2, h⟩ := bindOk h
  obtain ⟨⟨ops, body'⟩, h3, h⟩ := bindOk h
  cases h
  have hops : (s% "$ref") ∉ Dict.keys (ops.map (fun p => (p.1, Json.obj (putBody body' p.2)))) := by
    intro hm
    obtain ⟨e, hm, hk⟩ := List.mem_map.1 hm
    obtain ⟨e', hm', rfl⟩ := List.mem_map.1 hm
    rcases pathOps_keys h3 e' hm' with h | h
    · cases h
    · dsimp only at hk
      rw [hk] at h
      exact absurd h (by decide)
  have h0 : Dict.get? (if ref.truthy = true then [(s% "$ref", env.normRef o)] else []) (s% "$ref") =
      if ref.truthy = true then some (env.normRef o) else none := by split <;> rfl
  have h1 : ∀ D : Dict Json, Dict.get? (if qs = [] then D else Dict.set D (s% "parameters") (.arr qs)) (s% "$ref") = Dict.get? D (s% "$ref") := by
    intro D
    split
    · rfl
    · exact Dict.get?_set_ne _ _ (by decide)
  rw [← h0]
  cases body' with
  | none =>
    dsimp only
    rw [update_other _ hops, h1]
  | some b =>
    dsimp only
    rw [Dict.get?_set_ne _ _ (by decide), update_other _ hops, h1]

/-- There are fewer paths than objects. -/
theorem paths_fewer {out : Outer W} {main : Piece} {pieces : List Piece} {d : Dict Json} (hU : Upgradable out main pieces d) :
    (objAt d (s% "paths")).length < size main pieces := by
  have hB := main_built hU
  obtain ⟨_, _, _, hw⟩ := kid_objAt (k := s% "paths") (b := .cls (s% "v2_0.PathItem")) hB (by decide +kernel)
  have hnd : (Dict.keys (objAt d (s% "paths"))).Nodup := wf_nodup hw
  have hL := (hU.app.good main (.inl rfl)).scan
  have hsub : ∀ ts ∈ [] :: (Dict.keys (objAt d (s% "paths"))).map (fun k => [s% "paths", k]), ts ∈ (visits main.obj).map Prod.fst := by
    intro ts hm
    rcases List.mem_cons.1 hm with rfl | hm
    · exact List.mem_map.2 ⟨([], _), (hL.2.2 _ _).2 .root, rfl⟩
    · obtain ⟨k, hk, rfl⟩ := List.mem_map.1 hm
      obtain ⟨e, he, rfl⟩ := List.mem_map.1 hk
      have : Dict.get? (objAt d (s% "paths")) e.1 = some e.2 := Dict.get?_of_mem hnd he
      obtain ⟨y, hy, _⟩ := target hB (sec := s% "paths") (C := s% "v2_0.PathItem") (by decide +kernel) this
      exact List.mem_map.2 ⟨(_, y), (hL.2.2 _ _).2 hy, rfl⟩
  have hnd' : ([] :: (Dict.keys (objAt d (s% "paths"))).map (fun k => [s% "paths", k])).Nodup := by
    refine List.nodup_cons.2 ⟨fun hm => ?_, ?_⟩
    · obtain ⟨k, _, e⟩ := List.mem_map.1 hm
      cases e
    · exact nodup_places hnd _
  have := length_le hnd' hsub
  simp only [List.length_cons, List.length_map, Dict.keys] at this
  unfold size
  rw [List.flatMap_cons, List.length_append]
  omega

/-- The path item `y` is what the one at the path `k` has become. -/
def PathMoved (main : Piece) (rl : Routes) (root : Obj) (v : Json) (k : Str) (y : Obj) : Prop :=
  Visited [] root [s% "paths", k] y ∧ At root [s% "paths", k] y ∧ y.className? = some (s% "v3_0_0.PathItem") ∧
    patchJp (pointer [s% "paths", k]) [(['#'], .nested rl)] = pointer [s% "paths", k] ∧
    ∀ e r, v = .obj e → (Refers Refs.normClasses3 y r ↔ ∃ r', Dict.get? e (s% "$ref") = some (.str r') ∧ r' ≠ [] ∧ r = main.url ++ r')

theorem entries_visited {root p : Obj} {sec k : Str} (hr : root.isBase = true) (hm : (k, p) ∈ entries (kid root sec)) (hp : p.isBase = true) :
    Visited [] root [sec, k] p := by
  refine visited_iff.2 (.inr ⟨?_, [sec, k], p, [], ?_, .root, rfl⟩)
  · cases root <;> simp [isLeaf]
  · cases root with
    | base c q s ks =>
      cases hk : kid (.base c q s ks) sec with
      | none => rw [hk] at hm; cases hm
      | some m =>
        rw [hk] at hm
        cases m with
        | map b q' s' es => exact .through (.child (Dict.mem_of_get? hk)) rfl (.direct (.item hm) hp)
        | _ => cases hm
    | _ => cases hr

theorem path_moved {out : Outer W} {main : Piece} {pieces : List Piece} {d : Dict Json} (hU : Upgradable out main pieces d) {w : World W}
    (hk : AllKnown out main pieces w) (hE : EnvOk (docRefs d) (farEnv out main pieces w)) (hval : NamedValid d) {r : Dict Json} {rl : Routes}
    (hr : toOpenapi (farEnv out main pieces w) main.obj = .ok (r, rl)) {o3 : Obj} (hB3 : Built (.cls (s% "v3_0_0.OpenApi")) (.obj r) o3)
    {k : Str} {v : Json} (hv : Dict.get? (objAt d (s% "paths")) k = some v) : ∃ y, PathMoved main rl o3 v k y := by
  have hB := main_built hU
  obtain ⟨x, hx1, hx2, hx3⟩ := target hB (sec := s% "paths") (C := s% "v2_0.PathItem") (by decide +kernel) hv
  obtain ⟨e, rfl⟩ := built_obj hx3
  obtain ⟨P, pr, root, p, j, r1, hP, hnd, hks, hpr, hnd', hbp, _, hto, hPk, _, hmem, hall⟩ := doc_paths_at hE hB hU.resolves hval hr hv
  have hPo : objAt r (s% "paths") = P := objAt_of hP
  obtain ⟨y, hy1, hy2, hy3⟩ := target hB3 (sec := s% "paths") (C := s% "v3_0_0.PathItem") (n := k) (v := .obj j) (by decide +kernel) (by rw [hPo]; exact hPk)
  obtain ⟨j', q3, kids3, hj', rfl, _⟩ := built_cls hy3
  cases hj'
  refine ⟨_, hy1, hy2, rfl, path_fixed hnd hks hpr hall k, ?_⟩
  intro e' r0 he'
  cases he'
  obtain ⟨e', q2, kids2, he', rfl, _⟩ := built_cls hbp
  cases he'
  have hpx := entries_visited (root_base hB) hmem rfl
  have hplain : plainFields (s% "v2_0.PathItem") [s% "$ref"] = true := by decide +kernel
  have hf := built_fld hbp (plainFields_cls hplain) (s% "$ref")
  rw [plainFields_val hplain (by simp)] at hf
  have hj := toPathItem_ref hto hf
  have hiff : Refers Refs.normClasses3 (.base (s% "v3_0_0.PathItem") q3 (.obj j) kids3) r0 ↔ Dict.get? j (s% "$ref") = some (.str r0) ∧ r0 ≠ [] := by
    constructor
    · rintro ⟨c, q, e, kids, heq, _, h1, h2⟩
      cases heq
      exact ⟨h1, h2⟩
    · rintro ⟨h1, h2⟩
      exact ⟨_, _, _, _, rfl, by decide, h1, h2⟩
  rw [hiff, hj]
  cases hg : Dict.get? e (s% "$ref") with
  | none =>
    have : look e (s% "$ref") = .null := by unfold look; rw [hg]; rfl
    rw [this]
    constructor
    · rintro ⟨h, _⟩; cases h
    · rintro ⟨_, h, _⟩; cases h
  | some v =>
    obtain ⟨k', u, rfl, _, _, hnr⟩ := path_ref hU hk hpx hg
    have hnr : (farEnv out main pieces w).normRef (.base (s% "v2_0.PathItem") q2 (.obj e) kids2) = _ := hnr
    have : look e (s% "$ref") = .str (pointer [s% "paths", k']) := by unfold look; rw [hg]; rfl
    rw [this, if_pos (show (Json.str (pointer [s% "paths", k'])).truthy = true from rfl), hnr]
    constructor
    · rintro ⟨h, _⟩
      cases h
      exact ⟨_, rfl, pointer_nonempty _, rfl⟩
    · rintro ⟨r', h, h2, rfl⟩
      cases h
      exact ⟨rfl, by simp [(hU.app.good main (.inl rfl)).url.ne]⟩

/-- The stage of an application that can be migrated, when its pieces have been migrated to 2.0. -/
theorem stage_of {out : Outer W} {main : Piece} {pieces live : List Piece} {d : Dict Json} (hU : Upgradable out main pieces d) {w : World W}
    (hk : AllKnown out main pieces w) (hlive : ∀ p, p ∈ live ↔ Reached out main pieces p) (hrounds : size main pieces ≤ out.rounds) :
    ∃ r rl cv, toOpenapi (farEnv out main pieces w) main.obj = .ok (r, rl) ∧ DocTo (docRefs d) d r ∧
      build pkg (.cls (s% "v3_0_0.OpenApi")) (.obj r) (some ['#']) [] = .ok (cv main) ∧
      (∀ p ∈ pieces, p.Converted (cv p) ∧ ∃ j, SchemaTo p.json (.obj j) ∧
        build pkg (.cls (s% "v3_0_0.Schema")) (.obj j) (some (pointer p.place)) [] = .ok (cv p)) ∧
      (∀ sec n v, sec ∈ [s% "definitions", s% "parameters", s% "responses"] → Dict.get? (objAt d sec) n = some v →
        ∃ x v' p y, x ∈ places ∧ EntryTo d sec x v v' ∧ build pkg (.ifNotRef (s% "v3_0_0.Reference") (.cls (sectionClass x))) v' p [] = .ok y ∧
          At (cv main) [s% "components", x, n] y ∧
          patchJp (pointer [sec, n]) [(['#'], .nested rl)] = pointer [s% "components", x, n]) ∧
      (∀ k v, Dict.get? (objAt d (s% "paths")) k = some v → ∃ y, PathMoved main rl (cv main) v k y) ∧
      Stage out main pieces live cv rl (attrsOf w) := by
  classical
  have hB := main_built hU
  have hA := hU.app
  have hgm := hA.good main (.inl rfl)
  have hE := farEnv_ok hU hk
  have hval : NamedValid d := fun k e hk => named_valid (hU.able.parameters k e hk)
  obtain ⟨r, rl, hr⟩ := C53_total hE d main.obj hB hU.resolves hU.able
  obtain ⟨hd, _, url', B, pr, _, _, hBo, hrl, _⟩ := toOpenapi_built hE hB hU.resolves hval hr
  haveI : Source (Inside main.obj) (MainRef main) := mainSource hA
  have hbm : build pkg (.cls (s% "v2_0.Swagger")) (.obj d) (some main.ref) [] = .ok main.obj := by
    have := hgm.built
    rwa [hA.root.2.2, hU.json] at this
  have hl := toOpenapi_loads (mainLoads hU hk) ⟨.here _, _, _, hB.wf, hbm⟩ (fun x hx k y hy => by
    obtain ⟨h1, _⟩ := kid_objAt (b := .cls (s% "v2_0.SecurityScheme")) (k := s% "securityDefinitions") hB (by decide +kernel)
    rw [(kidT_kid hx).1] at h1
    obtain ⟨⟨k', j⟩, hm, hk, hb⟩ := forall₂_mem h1 hy
    obtain ⟨e, he⟩ := built_obj hb
    dsimp only at he hk
    subst he hk
    exact scopesGiven_ok hb (hU.scopes _ _ hm)) hr
  obtain ⟨o3, hb3, _⟩ := built_exists hl.1.regular hl.2 (some ['#'])
  obtain ⟨hfine, hL3⟩ := fine_scanned (by decide) hl.1 hl.2 hb3
  let cv : Piece → Obj := fun p => if p = main then o3 else if h : ∃ o, p.Converted o then h.choose else o3
  have hcm : cv main = o3 := if_pos rfl
  have hmain : main ∉ pieces := main_out hA
  have hcp : ∀ p ∈ pieces, p.Converted (cv p) := by
    intro p hp
    obtain ⟨o, j, h1, _, _, h4, _⟩ := piece_converted hU hp
    have hne : p ≠ main := fun e => hmain (e ▸ hp)
    have hex : ∃ o, p.Converted o := ⟨o, _, h1, h4⟩
    have : cv p = hex.choose := by
      show (if p = main then o3 else if h : ∃ o, p.Converted o then h.choose else o3) = _
      rw [if_neg hne, dif_pos hex]
    rw [this]
    exact hex.choose_spec
  have hcpj : ∀ p ∈ pieces, ∃ j, toSchema false p.obj = .ok (.obj j) ∧ SchemaTo p.json (.obj j) ∧ (Json.obj j).wf = true ∧
      build pkg (.cls (s% "v3_0_0.Schema")) (.obj j) (some (pointer p.place)) [] = .ok (cv p) ∧ FineObj (MainRef p) (cv p) ∧
      Scanned (cv p) (visits (cv p)) := by
    intro p hp
    obtain ⟨o, j, h1, h2, h3, h4, h5, h6⟩ := piece_converted hU hp
    have := converted_inj ⟨_, h1, h4⟩ (hcp p hp)
    subst this
    exact ⟨j, h1, h2, h3, h4, h5, h6⟩
  have hroot : main.place = [] := hA.root.1
  have hbuilt : ∀ p, (p = main ∨ p ∈ pieces) → ∃ c j, c ≠ s% "v3_0_0.Reference" ∧ (c = s% "v3_0_0.OpenApi" ↔ p = main) ∧
      (pkg c).version = s% "3.0.0" ∧ j.wf = true ∧ build pkg (.cls c) j (some (pointer p.place)) [] = .ok (cv p) := by
    intro p hp
    rcases hp with rfl | hp
    · exact ⟨s% "v3_0_0.OpenApi", .obj r, by decide, by simp, by decide +kernel, hl.2, by rw [hroot, hcm]; exact hb3⟩
    · obtain ⟨j, _, _, h3, h4, _⟩ := hcpj p hp
      exact ⟨s% "v3_0_0.Schema", .obj j, by decide, ⟨fun h => absurd h (by decide), fun h => absurd (h ▸ hp) hmain⟩, by decide +kernel, h3, h4⟩
  have hfineP : ∀ p, (p = main ∨ p ∈ pieces) → FineObj (MainRef p) (cv p) ∧ Scanned (cv p) (visits (cv p)) := by
    intro p hp
    rcases hp with rfl | hp
    · rw [hcm]; exact ⟨hfine, hL3⟩
    · obtain ⟨j, _, _, _, _, h5, h6⟩ := hcpj p hp
      exact ⟨h5, h6⟩
  have hbase : ∀ p, (p = main ∨ p ∈ pieces) → (cv p).isBase = true := by
    intro p hp
    obtain ⟨c, j, _, _, _, _, hb⟩ := hbuilt p hp
    obtain ⟨_, e⟩ := Refs.build_class hb
    rw [e]; rfl
  have hmoved : ∀ sec n v, sec ∈ [s% "definitions", s% "parameters", s% "responses"] → Dict.get? (objAt d sec) n = some v →
      ∃ x v' p y, x ∈ places ∧ EntryTo d sec x v v' ∧ build pkg (.ifNotRef (s% "v3_0_0.Reference") (.cls (sectionClass x))) v' p [] = .ok y ∧
        At (cv main) [s% "components", x, n] y ∧
        patchJp (pointer [sec, n]) [(['#'], .nested rl)] = pointer [s% "components", x, n] := by
    intro sec n v hsec hv
    rw [hcm]
    exact entry_moved hE hB hU.resolves hval hU.names hr hb3 hsec hv
  have hpaths : ∀ k v, Dict.get? (objAt d (s% "paths")) k = some v → ∃ y, PathMoved main rl (cv main) v k y := by
    intro k v hv
    rw [hcm]
    exact path_moved hU hk hE hval hr (⟨hl.1.regular, hl.2, _, hb3⟩) hv
  have hin : ∀ p ∈ live, p = main ∨ p ∈ pieces := fun p hp => reached_in ((hlive p).1 hp)
  have hapart : ∀ q ∈ pieces, ∀ ts us x rr, Visited [] (cv main) ts x → Visited [] (cv q) us x → ¬ Refers Refs.normClasses3 x rr := by
    intro q hq ts us x rr hv hu hrr
    obtain ⟨j, _, _, _, h4, _⟩ := hcpj q hq
    have e1 := visited_path (p := ['#']) (by simp) (by rw [hcm]; exact hb3) hv
    have e2 := visited_path (pointer_nonempty _) h4 hu
    rw [e1] at e2
    have e3 : ts = q.place ++ us := by
      refine pointer_inj ?_
      rw [pointer_append]
      exact Option.some.inj e2
    rcases visited_first (by rw [hcm]; exact hb3) hv with ⟨rfl, rfl⟩ | ⟨k, us', rfl, hkk, hdoc⟩
    · have := List.append_eq_nil_iff.1 e3.symm
      obtain ⟨g1, rfl⟩ := this
      rcases visited_first h4 hu with ⟨_, e⟩ | ⟨k, us', e, _⟩
      · have h1 := (version_of hb3).1
        have h2 := (version_of h4).1
        rw [← e, hcm, h1] at h2
        exact absurd (Option.some.inj h2) (by decide)
      · cases e
    · cases hpl : q.place with
      | cons t tl =>
        rw [hpl] at e3
        cases e3
        exact hU.places q hq _ _ hpl hkk
      | nil =>
        rw [hpl] at e3
        subst e3
        rcases visited_first h4 hu with ⟨e, _⟩ | ⟨k', us'', e, hkk', _⟩
        · cases e
        · cases e
          have : ∀ k ∈ Dict.keys (pkg (s% "v3_0_0.OpenApi")).children, k ∈ Dict.keys (pkg (s% "v3_0_0.Schema")).children →
              k = s% "externalDocs" := by decide +kernel
          have := this _ hkk hkk'
          subst this
          obtain ⟨qq, s, rfl⟩ := hdoc (fun cd hm => by
            have : ∀ e ∈ (pkg (s% "v3_0_0.OpenApi")).children, e.1 = s% "externalDocs" → e.2.builder = .cls (s% "v3_0_0.ExternalDocumentation") := by
              decide +kernel
            exact this _ hm rfl)
          obtain ⟨_, _, _, _, e, hc, _⟩ := hrr
          cases e
          exact absurd hc (by decide)
  refine ⟨r, rl, cv, hr, hd, by rw [hcm]; exact hb3, fun p hp => ?_, hmoved, hpaths, ?_⟩
  · obtain ⟨j, h1, h2, _, h4, _⟩ := hcpj p hp
    exact ⟨⟨_, h1, h4⟩, j, h2, h4⟩
  refine ⟨hA, hin, (hlive _).2 .main, ?_, ?_, ?_, ?_, fun p hp => hbuilt p (hin p hp), fun p hp => (hfineP p (hin p hp)).2,
    fun p hp => fine_noExamples (hfineP p (hin p hp)).1 (hbase p (hin p hp)), ?_, ?_, ?_, ?_⟩
  · intro p hp hne
    have := (hin p hp).resolve_left hne
    exact schema_noPath (hA.good p (.inr this)) (hU.schemas p this)
  · intro p hp ts x hv
    obtain ⟨h1, h2⟩ := hk p ((hlive p).1 hp) ts x hv
    refine ⟨fun rr hrr => ?_, h2⟩
    obtain ⟨n, _, y, g1, _, _, g4⟩ := h1 rr hrr
    exact ⟨n, y, g1, g4⟩
  · intro p hp w' hw'
    rcases hin p hp with rfl | hpp
    · refine ⟨rl, ?_, fun _ => rfl, fun h => absurd rfl h⟩
      have hs : ∀ q, Reached out p pieces q → ∀ ts x, Visited [] q.obj ts x → attrsOf w' x = attrsOf w x :=
        fun q hq ts x hv => hw' q ((hlive q).2 hq) ts x hv
      haveI := farSource hA
      have hc := (toOpenapi_congr (farStable hU hk hs) ⟨p, .main, .here _⟩).trans hr
      unfold convert
      rw [(version_of hgm.built).1, hA.root.2.2]
      dsimp only
      rw [if_pos rfl, hc, hroot, hcm]
      show (do let o ← build pkg (.cls (s% "v3_0_0.OpenApi")) (.obj r) (some ['#']) []; .ok (o, rl)) = _
      rw [hb3]
      rfl
    · have hne : p ≠ main := fun e => hmain (e ▸ hpp)
      refine ⟨[], ?_, fun h => absurd h hne, fun _ => rfl⟩
      obtain ⟨j, h1, _, _, h4, _⟩ := hcpj p hpp
      unfold convert
      rw [(version_of (hA.good p (.inr hpp)).built).1, (hU.schemas p hpp).cls]
      dsimp only
      rw [if_neg (by decide), if_neg (by decide), if_neg (by decide), if_pos rfl, h1]
      show (do let o ← build pkg (.cls (s% "v3_0_0.Schema")) (.obj j) (some (pointer p.place)) []; .ok (o, [])) = _
      rw [h4]
      rfl
  · intro k hkk
    rw [hrl] at hkk
    have := docRoutes_keys _ _ _ k hkk
    rintro rfl
    exact absurd this (by decide)
  · intro p hp ts c q spec kids hv hc
    have hpi := hin p hp
    obtain ⟨c', q', e, kids', heq, _, hky, _⟩ := fine_visited (hfineP p hpi).1 (hbase p hpi) hv
    cases heq
    refine ⟨e, rfl, ?_⟩
    cases hg : Dict.get? e (s% "$ref") with
    | none =>
      refine .inl ⟨rfl, fun hcr => ?_⟩
      subst hcr
      obtain ⟨cc, jj, hcc, _, _, _, hbb⟩ := hbuilt p hpi
      obtain ⟨v, hv⟩ := refs_have hcc hbb (visited_inside hv _ (.here _))
      rw [hg] at hv; cases hv
    | some v =>
      have hM : ∃ b, MainRef p b v := by
        rcases hky _ _ hg with h | ⟨_, h⟩ | h
        · exact absurd h (by decide)
        · exact ⟨_, h⟩
        · subst h; exact absurd hc (by decide)
      obtain ⟨b, hM⟩ := hM
      obtain ⟨rr, n, rfl, hne, hn, hwhat⟩ := ref_what hU ((hlive p).1 hp) hM
      rcases hwhat with ⟨t, ht, e, hrt⟩ | ⟨sec, m, v, c', e, hs, hw, hf⟩
      · exact .inr ⟨rr, n, t, t.place, cv t, rfl, hne, hn, (hlive t).2 hrt, .inl ⟨fun e => hmain (e ▸ ht), e, rfl, rfl⟩, (hA.good t (.inr ht)).safe⟩
      · rcases hf with hf | ⟨_, rfl⟩
        · obtain ⟨x, _, _, y, hx, _, _, hy, hm⟩ := hmoved sec m v (entry_sec hf) hw
          exact .inr ⟨rr, n, main, _, y, rfl, hne, hn, (hlive _).2 .main, .inr ⟨rfl, _, e, hs, hm, hy⟩, safe_moved hs hx⟩
        · obtain ⟨y, _, hy, _, hm, _⟩ := hpaths m v hw
          exact .inr ⟨rr, n, main, _, y, rfl, hne, hn, (hlive _).2 .main, .inr ⟨rfl, _, e, hs, hm, hy⟩, hs⟩
  · let pick : Str × Json → Obj := fun kv => if h : ∃ y, At (cv main) [s% "paths", kv.1] y then h.choose else cv main
    refine ⟨(objAt d (s% "paths")).map pick, ?_, ?_⟩
    · rw [List.length_map]
      exact Nat.lt_of_lt_of_le (paths_fewer hU) hrounds
    · intro p hp ts q e kids hv
      have hpi := hin p hp
      obtain ⟨c', q', e', kids', heq, _, hky, _⟩ := fine_visited (hfineP p hpi).1 (hbase p hpi) hv
      cases heq
      cases hg : Dict.get? e (s% "$ref") with
      | none => exact .inl rfl
      | some v =>
        rcases hky _ _ hg with h | ⟨_, h⟩ | h
        · exact absurd h (by decide)
        · rcases h with ⟨h, _⟩ | ⟨_, ts0, q0, e0, kids0, r0, hv0, hg0, hne0, rfl⟩
          · exact absurd h (by decide)
          · have hpm : p = main := by
              rcases hpi with h | h
              · exact h
              · exact absurd (schema_only (hA.good p (.inr h)) (hU.schemas p h) hv0) (by decide)
            subst hpm
            obtain ⟨k, u, ek, hs, hu, _⟩ := path_ref hU hk hv0 hg0
            cases ek
            obtain ⟨y, g1, g2, g3, g4, _⟩ := hpaths k u hu
            refine .inr ⟨rfl, k, y, rfl, hs, g4, g2, ⟨_, g1⟩, g3, List.mem_map.2 ⟨_, Dict.mem_of_get? hu, ?_⟩⟩
            have hex : ∃ y, At (cv p) [s% "paths", k] y := ⟨y, g2⟩
            show (if h : ∃ y, At (cv p) [s% "paths", k] y then h.choose else cv p) = y
            rw [dif_pos hex]
            exact at_inj hex.choose_spec g2
        · exact absurd h (by decide)
  · intro p hp q hq hne ts us x rr hv hu
    rcases hin p hp with rfl | hpp <;> rcases hin q hq with rfl | hqq
    · exact absurd rfl hne
    · exact hapart q hqq ts us x rr hv hu
    · exact hapart p hpp us ts x rr hu hv
    · exact hU.differ p q hpp hqq hne _ _ (hcp p hpp) (hcp q hqq) ts us x rr hv hu
  · intro p hp q hq ts us x h3 h2
    have hpi := hin p hp
    obtain ⟨c', q', e', kids', rfl, hv3, _⟩ := fine_visited (hfineP p hpi).1 (hbase p hpi) h3
    exact version_apart (class_v2 (hA.good q (hin q hq)) h2) hv3

end Pyopenapi.Main
