import Verif.Props.PiecesUp
import Verif.Props.PiecesExample
import Verif.Props.MainUpExample
import Verif.Lemmas.MainDocCheck

/-!
# An instance of C96: a 2.0 document and schemas in another document that refer to each other and back
-/

namespace Pyopenapi.Main
open _root_.Pyopenapi.Spec _root_.Pyopenapi.Refs.Spec Obj Conv

variable {W : Type}

/-! ### checking by computation -/

/-- The pieces an absolute reference may be that of. -/
def isPieceB (out : Outer W) (pieces : List Piece) (url r : Str) : Bool :=
  match normalizeJr out.ok (some r) (some url) with
  | .ok (some n) => pieces.any (fun t => decide (n = t.ref))
  | _ => false

theorem isPiece_check {out : Outer W} {pieces : List Piece} {url r : Str} (h : isPieceB out pieces url r = true) :
    ∃ t ∈ pieces, normalizeJr out.ok (some r) (some url) = .ok (some t.ref) := by
  unfold isPieceB at h
  split at h
  · rename_i n hn
    obtain ⟨t, ht, e⟩ := List.any_eq_true.1 h
    exact ⟨t, ht, by rw [hn, of_decide_eq_true e]⟩
  · cases h

/-- `Upgradable.refs`, for one object. -/
def farB (out : Outer W) (pieces : List Piece) (url : Str) (d : Dict Json) (x : Obj) : Bool :=
  match x with
  | .base c _ spec _ => !decide (c ∈ Refs.normClasses2) || (match spec with
    | .obj e => match Dict.get? e (s% "$ref") with
      | none => true
      | some (.str r) => (match tokens r with
        | [sec, n] => decide (pointer [sec, n] = r) && r.all (fun c => !Url.unsafeChar c) && (Dict.get? (objAt d sec) n).isSome &&
            (fitsB c sec || (decide (c = s% "v2_0.PathItem") && decide (sec = s% "paths")))
        | _ => false) || (decide (c = s% "v2_0.Schema") && isPieceB out pieces url r)
      | some _ => false
    | _ => false)
  | _ => true

theorem far_check {out : Outer W} {main : Piece} {pieces : List Piece} {d : Dict Json} (hL : Scanned main.obj (visits main.obj))
    (h : (visits main.obj).all (fun v => farB out pieces main.url d v.2) = true) :
    ∀ ts c q spec kids, Visited [] main.obj ts (.base c q spec kids) → c ∈ Refs.normClasses2 → ∃ e, spec = .obj e ∧
      (Dict.get? e (s% "$ref") = none ∨ ∃ v, Dict.get? e (s% "$ref") = some v ∧ (Entry d c v ∨ PathEntry d c v ∨
        c = s% "v2_0.Schema" ∧ ∃ r t, v = .str r ∧ t ∈ pieces ∧ normalizeJr out.ok (some r) (some main.url) = .ok (some t.ref))) := by
  intro ts c q spec kids hv hc
  have := List.all_eq_true.1 h _ ((hL.2.2 _ _).2 hv)
  unfold farB at this
  simp only [hc, decide_true, Bool.not_true, Bool.false_or] at this
  split at this
  · rename_i e
    refine ⟨e, rfl, ?_⟩
    split at this
    · rename_i hg; exact .inl hg
    · rename_i r hg
      refine .inr ⟨_, hg, ?_⟩
      rcases Bool.or_eq_true_iff.1 this with this | this
      · split at this
        · rename_i sec n ht
          simp only [Bool.and_eq_true, decide_eq_true_eq] at this
          obtain ⟨⟨⟨h1, h2⟩, h3⟩, h4⟩ := this
          obtain ⟨w, hw⟩ := Option.isSome_iff_exists.1 h3
          have hsafe : Safe [sec, n] := by
            intro c hc
            rw [h1] at hc
            simpa using List.all_eq_true.1 h2 c hc
          rcases Bool.or_eq_true_iff.1 h4 with h4 | h4
          · exact .inl ⟨sec, n, w, by rw [h1], hsafe, hw, by simpa [fitsB, Fits] using h4⟩
          · simp only [Bool.and_eq_true, decide_eq_true_eq] at h4
            obtain ⟨hcl, rfl⟩ := h4
            exact .inr (.inl ⟨hcl, n, w, by rw [h1], hsafe, hw⟩)
        · cases this
      · simp only [Bool.and_eq_true, decide_eq_true_eq] at this
        obtain ⟨t, ht, e⟩ := isPiece_check this.2
        exact .inr (.inr ⟨this.1, r, t, rfl, ht, e⟩)
    · cases this
  · cases this

/-- `Upgradable.inner`, for one object. -/
def innerB (out : Outer W) (main : Piece) (pieces : List Piece) (url : Str) (d : Dict Json) (x : Obj) : Bool :=
  match refB x with
  | none => true
  | some r => match normalizeJr out.ok (some r) (some url) with
    | .ok (some n) => pieces.any (fun t => decide (n = t.ref)) || (match tokens (n.drop main.url.length) with
      | [sec, m] => decide (sec = s% "definitions") && decide (n = main.url ++ pointer [s% "definitions", m]) &&
          (pointer [s% "definitions", m]).all (fun c => !Url.unsafeChar c) && (Dict.get? (objAt d (s% "definitions")) m).isSome
      | _ => false)
    | _ => false

theorem inner_check {out : Outer W} {main : Piece} {pieces : List Piece} {d : Dict Json} {p : Piece} (hL : Scanned p.obj (visits p.obj))
    (h : (visits p.obj).all (fun v => innerB out main pieces p.url d v.2) = true) :
    ∀ ts x r n, Visited [] p.obj ts x → Refers Refs.normClasses2 x r →
      normalizeJr out.ok (some r) (some p.url) = .ok (some n) → (∃ t ∈ pieces, n = t.ref) ∨
        ∃ m w, n = main.url ++ pointer [s% "definitions", m] ∧ Safe [s% "definitions", m] ∧ Dict.get? (objAt d (s% "definitions")) m = some w := by
  intro ts x r n hv hr hn
  have := List.all_eq_true.1 h _ ((hL.2.2 _ _).2 hv)
  unfold innerB at this
  rw [refB_iff.2 hr] at this
  dsimp only at this
  rw [hn] at this
  dsimp only at this
  rcases Bool.or_eq_true_iff.1 this with this | this
  · obtain ⟨t, ht, e⟩ := List.any_eq_true.1 this
    exact .inl ⟨t, ht, of_decide_eq_true e⟩
  · split at this
    · rename_i sec m ht
      simp only [Bool.and_eq_true, decide_eq_true_eq] at this
      obtain ⟨⟨⟨_, h1⟩, h2⟩, h3⟩ := this
      obtain ⟨w, hw⟩ := Option.isSome_iff_exists.1 h3
      exact .inr ⟨m, w, h1, (fun c hc => by simpa using List.all_eq_true.1 h2 c hc), hw⟩
    · cases this

/-- Where the absolute reference `n` leads. -/
def stepB (main : Piece) (pieces : List Piece) (n : Str) : Option (Piece × Obj) :=
  match pieces.find? (fun t => decide (n = t.ref)) with
  | some t => some (t, t.obj)
  | none =>
    let us := tokens (n.drop main.url.length)
    if n = main.url ++ pointer us ∧ (pointer us).all (fun c => !Url.unsafeChar c) = true then
      match Obj.resolve pkg us main.obj with
      | .ok y => if y.isBase then some (main, y) else none
      | .error _ => none
    else none

theorem step_check {out : Outer W} {main : Piece} {pieces : List Piece} (hA : Application out main pieces) {p q : Piece} {n : Str} {y : Obj}
    (h : stepB main pieces n = some (q, y)) : (q = main ∨ q ∈ pieces) ∧ LeadsTo main p n q y := by
  unfold stepB at h
  split at h
  · rename_i t ht
    cases h
    exact ⟨.inr (List.mem_of_find?_eq_some ht), .inl ⟨by simpa using List.find?_some ht, rfl⟩⟩
  · dsimp only at h
    split at h
    · rename_i hc
      split at h
      · rename_i y' hy
        split at h
        · rename_i hb
          cases h
          refine ⟨.inl rfl, .inr ⟨.inr rfl, tokens (n.drop main.url.length), ?_, ?_, ?_, hb⟩⟩
          · rw [hA.root.1]; exact hc.1
          · rw [hA.root.1]
            intro c hc'
            simpa using List.all_eq_true.1 hc.2 c hc'
          · exact hy
        · cases h
      · cases h
    · cases h

/-- `Ends`, of at most `k` steps. -/
def endsB (out : Outer W) (main : Piece) (pieces : List Piece) : Nat → Piece → Obj → Bool
  | k, p, x => match refB x with
    | none => true
    | some r => match k with
      | 0 => false
      | k + 1 => match normalizeJr out.ok (some r) (some p.url) with
        | .ok (some n) => match stepB main pieces n with
          | some (q, y) => decide (y ∈ (visits q.obj).map Prod.snd) && endsB out main pieces k q y
          | none => false
        | _ => false

theorem ends_check {out : Outer W} {main : Piece} {pieces : List Piece} (hA : Application out main pieces) : ∀ {k : Nat} {p : Piece} {ts : List Str} {x : Obj},
    (p = main ∨ p ∈ pieces) → Visited [] p.obj ts x → endsB out main pieces k p x = true → ∃ k z, Ends out main pieces k x z
  | k, p, ts, x, hp, hv, h => by
    unfold endsB at h
    split at h
    · rename_i hr
      exact ⟨0, x, .stop (fun r hn => by rw [refB_iff.2 hn] at hr; cases hr)⟩
    · rename_i r hr
      split at h
      · cases h
      · rename_i k'
        split at h
        · rename_i n hn
          split at h
          · rename_i q y hs
            simp only [Bool.and_eq_true, decide_eq_true_eq] at h
            obtain ⟨h1, h2⟩ := step_check hA (p := p) hs
            obtain ⟨v, hvm, e⟩ := List.mem_map.1 h.1
            have hvy : Visited [] q.obj v.1 y := ((hA.good q h1).scan.2.2 _ _).1 (by rw [← e]; exact hvm)
            obtain ⟨m, z, hm⟩ := ends_check hA h1 hvy h.2
            exact ⟨m + 1, z, .step ⟨p, ts, r, n, q, hp, hv, refB_iff.1 hr, hn, h1, h2⟩ hm⟩
          · cases h
        · cases h

/-- Pieces at places none of which begins with the other. -/
theorem differ_check {p q : Piece} (h1 : ¬ pointer p.place <+: pointer q.place) (h2 : ¬ pointer q.place <+: pointer p.place) :
    ∀ o o', p.Converted o → q.Converted o' → ∀ ts us x r, Visited [] o ts x → Visited [] o' us x → ¬ Refers Refs.normClasses3 x r := by
  rintro o o' ⟨j, _, hb⟩ ⟨j', _, hb'⟩ ts us x r hv hu _
  exact (visited_apart (pointer_nonempty _) (pointer_nonempty _) hb hb' hv hu).elim h1 h2

/-! ### the documents -/

def fleetGet : Dict Json := [
  (s% "parameters", .arr [.obj [(s% "$ref", .str (s% "#/parameters/q"))]]),
  (s% "responses", .obj [(s% "200", .obj [(s% "description", .str (s% "ok")), (s% "schema", .obj [(s% "$ref", .str (s% "b.json#/definitions/A"))])])])]
def fleetItem : Dict Json := [(s% "get", .obj fleetGet)]
def fleetAlias : Dict Json := [(s% "$ref", .str (s% "#/paths/~1a"))]

def fleetDoc : Dict Json := [
  (s% "swagger", .str (s% "2.0")),
  (s% "info", .obj [(s% "title", .str (s% "t")), (s% "version", .str (s% "1"))]),
  (s% "paths", .obj [(s% "/a", .obj fleetItem), (s% "/b", .obj fleetAlias)]),
  (s% "parameters", .obj [(s% "q", .obj shopQ)]),
  (s% "definitions", .obj [
    (s% "C", .obj [(s% "properties", .obj [(s% "x", .obj [(s% "$ref", .str (s% "b.json#/definitions/B"))])])]),
    (s% "D", .obj [(s% "$ref", .str (s% "#/definitions/C"))])])]

def fleetOut : Outer (List Str) where
  url := s% "http://h/d/a.json"
  ok := fun _ => true
  path2url := .ok
  abspath := .ok
  fetch := fun r w => (if r = s% "http://h/d/a.json" then .ok (.obj fleetDoc)
    else if r = s% "http://h/d/b.json#/definitions/A" then .ok isleA
    else if r = s% "http://h/d/b.json#/definitions/B" then .ok isleB
    else .error .generic, w ++ [r])
  setOrder := plainEnv.setOrder
  up12 := { sep := s% "!##!", lower := fun s => s, float := .ok, trunc := .ok, urlOk := fun _ => true }
  rounds := 1000

def fleet : Piece := pieceOf (s% "http://h/d/a.json") [] (s% "http://h/d/a.json") (s% "v2_0.Swagger") (.obj fleetDoc)
def fleetA : Piece := pieceOf (s% "http://h/d/b.json") [s% "definitions", s% "A"] (s% "http://h/d/b.json#/definitions/A") (s% "v2_0.Schema") isleA
def fleetB : Piece := pieceOf (s% "http://h/d/b.json") [s% "definitions", s% "B"] (s% "http://h/d/b.json#/definitions/B") (s% "v2_0.Schema") isleB
def fleetPieces : List Piece := [fleetA, fleetB]

theorem fleet_good : ∀ p ∈ fleet :: fleetPieces, p.Good fleetOut := by
  intro p hp
  obtain ⟨ua, ub⟩ := isle_urls
  simp only [fleetPieces, List.mem_cons, List.not_mem_nil, or_false] at hp
  rcases hp with rfl | rfl | rfl
  · exact ⟨ua, by unfold Safe; decide +kernel, by decide, by decide, by decide +kernel, by decide +kernel, buildF_sound 30 _ _ _ _ (by decide +kernel)⟩
  all_goals
    exact ⟨ub, by unfold Safe; decide +kernel, by decide, by decide, by decide +kernel, by decide +kernel, buildF_sound 30 _ _ _ _ (by decide +kernel)⟩

theorem fleet_served : ∀ p ∈ fleetPieces, p.Served fleetOut := by
  intro p hp
  simp only [fleetPieces, List.mem_cons, List.not_mem_nil, or_false] at hp
  rcases hp with rfl | rfl <;> exact ⟨fun w => rfl, by decide, by decide⟩

theorem fleet_application : Application fleetOut fleet fleetPieces :=
  application_check fleet_good fleet_served (by decide +kernel) (by decide +kernel) ⟨rfl, rfl, rfl⟩

theorem fleet_path {k : Str} {e : Dict Json} (h : (k, Json.obj e) ∈ objAt fleetDoc (s% "paths")) :
    k = s% "/a" ∧ e = fleetItem ∨ k = s% "/b" ∧ e = fleetAlias := by
  rcases List.mem_append.1 (show (k, Json.obj e) ∈ [(s% "/a", Json.obj fleetItem)] ++ [(s% "/b", Json.obj fleetAlias)] from h) with this | this
  · exact .inl (by simpa only [List.mem_singleton, Prod.mk.injEq, Json.obj.injEq] using this)
  · exact .inr (by simpa only [List.mem_singleton, Prod.mk.injEq, Json.obj.injEq] using this)

theorem fleet_ops : ∀ p ∈ opsOf fleetItem, p = (s% "get", fleetGet) := by
  intro p hp
  have : p ∈ [(s% "get", fleetGet)] := hp
  simpa using this

theorem fleet_get : paramsOf (docRefs fleetDoc) fleetGet = [⟨shopQ, some (.str (s% "#/parameters/q"))⟩] := by rfl

theorem fleet_param {k : Str} {e : Dict Json} (h : (k, Json.obj e) ∈ objAt fleetDoc (s% "parameters")) : k = s% "q" ∧ e = shopQ := by
  have : (k, Json.obj e) ∈ [(s% "q", Json.obj shopQ)] := h
  simpa only [List.mem_singleton, Prod.mk.injEq, Json.obj.injEq] using this

theorem fleet_resp {kv : Str × Json} (h : kv ∈ objAt fleetGet (s% "responses")) :
    kv = (s% "200", Json.obj [(s% "description", .str (s% "ok")), (s% "schema", .obj [(s% "$ref", .str (s% "b.json#/definitions/A"))])]) := by
  have : kv ∈ [(s% "200", Json.obj [(s% "description", .str (s% "ok")), (s% "schema", .obj [(s% "$ref", .str (s% "b.json#/definitions/A"))])])] := h
  rwa [List.mem_singleton] at this

theorem fleet_item : ItemFits (docRefs fleetDoc) (fun _ => true) fleetDoc fleetItem := by
  refine ⟨fun p hp => ?_, .inl ⟨(fun f hf => by cases hf), (fun ⟨f, hf, _⟩ => by cases hf), fun p hp => ?_⟩⟩
  · have := fleet_ops p hp
    subst this
    refine ⟨fun kv hkv k d hd => ?_, .inl rfl⟩
    have := fleet_resp hkv
    subst this
    cases hd
  · have := fleet_ops p hp
    subst this
    show ParamsFit _ (paramsOf (docRefs fleetDoc) fleetGet)
    rw [fleet_get]
    exact shop_fitQ _ _

theorem fleet_alias : ItemFits (docRefs fleetDoc) (fun _ => true) fleetDoc fleetAlias :=
  ⟨(fun p hp => by cases hp), .inl ⟨(fun f hf => by cases hf), (fun ⟨f, hf, _⟩ => by cases hf), (fun p hp => by cases hp)⟩⟩

theorem fleet_convertible : Convertible (docRefs fleetDoc) (fun _ => true) fleetDoc where
  host := ⟨[], .inr ⟨rfl, rfl⟩⟩
  basePath := ⟨[], .inr ⟨rfl, rfl⟩⟩
  security := rfl
  paths := fun k e h => by
    rcases fleet_path h with ⟨rfl, rfl⟩ | ⟨rfl, rfl⟩
    · exact ⟨by decide, fleet_item⟩
    · exact ⟨by decide, fleet_alias⟩
  parameters := fun k e h => by
    obtain ⟨_, rfl⟩ := fleet_param h
    exact shop_fitQ _ _
  responses := fun k e h => by cases h
  schemes := fun k e h => by cases h

theorem fleet_resolves : DocResolves (docRefs fleetDoc) fleetDoc := by
  intro k e h
  rcases fleet_path h with ⟨rfl, rfl⟩ | ⟨rfl, rfl⟩
  rotate_left
  · exact ⟨(fun j hj => by cases hj), fun p hp => by cases hp⟩
  refine ⟨(fun j hj => by cases hj), fun p hp => ?_⟩
  have := fleet_ops p hp
  subst this
  refine ⟨fun j hj d v hd hv => ?_, fun kv hkv d v hd hv => ?_⟩
  · have : j ∈ [Json.obj [(s% "$ref", .str (s% "#/parameters/q"))]] := hj
    rw [List.mem_singleton] at this
    subst this
    cases hd
    cases hv
    exact ⟨rfl, by decide⟩
  · have := fleet_resp hkv
    subst this
    cases hd
    cases hv

theorem fleet_files : NoFiles fleetDoc := by
  rintro n w h ⟨e, rfl, hf⟩
  have := Dict.mem_of_get? h
  rcases List.mem_cons.1 (show (n, Json.obj e) ∈ (_ :: [_] : Dict Json) from this) with h | h
  · cases h; exact absurd hf (by decide)
  · rw [List.mem_singleton] at h; cases h; exact absurd hf (by decide)

theorem fleet_names : NamesOk fleetDoc := by
  intro n e h
  obtain ⟨rfl, rfl⟩ := fleet_param (Dict.mem_of_get? h)
  refine ⟨by decide, fun _ => by decide, fun _ k hk ⟨s, hs⟩ => ?_⟩
  obtain ⟨e, he, hp⟩ := hk
  obtain ⟨rfl, rfl⟩ := fleet_param (Dict.mem_of_get? he)
  exact absurd hp (by decide)

theorem fleet_schemas : ∀ p ∈ fleetPieces, p.IsSchema := by
  intro p hp
  simp only [fleetPieces, List.mem_cons, List.not_mem_nil, or_false] at hp
  rcases hp with rfl | rfl
  · exact ⟨rfl, regularB_sound 12 _ _ (by decide +kernel), ⟨_, rfl, rfl⟩, fun ⟨e, he, hf⟩ => by
      cases he; exact absurd hf (by decide)⟩
  · exact ⟨rfl, regularB_sound 12 _ _ (by decide +kernel), ⟨_, rfl, rfl⟩, fun ⟨e, he, hf⟩ => by
      cases he; exact absurd hf (by decide)⟩

theorem fleet_upgradable : Upgradable fleetOut fleet fleetPieces fleetDoc where
  app := fleet_application
  json := rfl
  regular := regularB_sound 12 _ _ (by decide +kernel)
  refs := far_check (fleet_good _ List.mem_cons_self).scan (by decide +kernel)
  schemas := fleet_schemas
  inner := fun p hp => inner_check (fleet_good p (List.mem_cons_of_mem _ hp)).scan
    (List.all_eq_true.1 (show fleetPieces.all (fun p => (visits p.obj).all (fun v => innerB fleetOut fleet fleetPieces p.url fleetDoc v.2)) = true by
      decide +kernel) p hp)
  ends := fun p hp ts x hv => ends_check fleet_application hp hv
    (List.all_eq_true.1 (List.all_eq_true.1 (show (fleet :: fleetPieces).all (fun p => (visits p.obj).all (fun v =>
      endsB fleetOut fleet fleetPieces 3 p v.2)) = true by decide +kernel) p (List.mem_cons.2 hp)) (ts, x)
      (((fleet_good p (List.mem_cons.2 hp)).scan.2.2 _ _).2 hv))
  noFiles := fleet_files
  names := fleet_names
  resolves := fleet_resolves
  able := fleet_convertible
  scopes := fun k e h => by cases h
  sets := plainEnv_set
  places := by
    intro p hp t ts e
    simp only [fleetPieces, List.mem_cons, List.not_mem_nil, or_false] at hp
    rcases hp with rfl | rfl <;> (cases e; decide +kernel)
  differ := by
    intro p q hp hq hne
    simp only [fleetPieces, List.mem_cons, List.not_mem_nil, or_false] at hp hq
    rcases hp with rfl | rfl <;> rcases hq with rfl | rfl
    · exact absurd rfl hne
    · exact differ_check (by decide) (by decide)
    · exact differ_check (by decide) (by decide)
    · exact absurd rfl hne

/-- The documents meet the hypotheses of C96.  The second path refers to the first; migrated it does too, and is merged with it. -/
theorem C96_example : ∃ a a' r o3 move, App.loadObj (application fleetOut 3) fleet.url none false (opened []) = (.ok fleet.obj, a) ∧
    App.migrateObj (application fleetOut 3) fleet.obj fleet.url (s% "3.0.0") a = (.ok o3, a') ∧
    DocTo (docRefs fleetDoc) fleetDoc r ∧ build pkg (.cls (s% "v3_0_0.OpenApi")) (.obj r) (some ['#']) [] = .ok o3 ∧
    Moved move (application fleetOut 3) a' fleet.url fleetDoc o3 ∧
    ∃ y, At o3 [s% "paths", s% "/b"] y ∧ Refers Refs.normClasses3 y (s% "http://h/d/a.json#/paths/~1a") ∧
      ∃ l, Trail3 fleet.url o3 [y] y l ∧ Native.MergedFrom l (final a'.world y) := by
  obtain ⟨a, a', r, o3, move, h1, h2, _, _, h3, h4, h5, h6, h7, _⟩ := C96_documents_partial fleetOut fleet fleetPieces fleetDoc fleet_upgradable []
    rfl (by decide +kernel) 2 (by decide) (by decide +kernel)
  obtain ⟨y, hv, k1, k2, k3⟩ := h6 (s% "/b") fleetAlias rfl
  have hr : Refers Refs.normClasses3 y (s% "http://h/d/a.json#/paths/~1a") := (k3 _).2 ⟨s% "#/paths/~1a", rfl, by decide, rfl⟩
  exact ⟨a, a', r, o3, move, h1, h2, h3, h4, h5, y, k1, hr, h7 _ y _ hv k2 hr⟩

end Pyopenapi.Main
