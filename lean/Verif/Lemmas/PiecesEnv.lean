import Verif.Lemmas.PiecesAgain
import Verif.Spec.PiecesUp
import Verif.Props.Pieces

/-!
# What the converters are told of a document that refers to pieces
-/

namespace Pyopenapi.Main
open _root_.Pyopenapi.Spec _root_.Pyopenapi.Refs.Spec Obj Conv

variable {W : Type}

/-! ### the classes inside schemas -/

def schemaClasses : List Str := [s% "v2_0.Schema", s% "v2_0.XML_", s% "v2_0.XMLObject", s% "v2_0.ExternalDocumentation"]

theorem closed_schema : Closed pkg (fun b => within (fun c => decide (c ∈ schemaClasses)) (fun _ => true) b = true) := by
  refine closed_within ?_
  intro c hc
  have h := pkg_children (p := fun c kc => !(decide (c ∈ schemaClasses)) || within (fun c => decide (c ∈ schemaClasses)) (fun _ => true) kc.2.builder)
    (by decide +kernel) c
  simpa [hc] using h

theorem schema_only {out : Outer W} {p : Piece} (hg : p.Good out) (hs : p.IsSchema) {ts : List Str} {c : Str} {q : Option Str} {s : Json}
    {kids : Dict Obj} (hv : Visited [] p.obj ts (.base c q s kids)) : c ∈ schemaClasses := by
  have hb := hg.built
  rw [hs.cls] at hb
  obtain ⟨b, j, p', hb, hw, hbuild⟩ := Refs.loaded_visited closed_schema (T := pkg) (o := p.obj) ⟨_, _, _, by decide, hg.wf, hb⟩ hv
  obtain ⟨h1, h2, h3, h4⟩ := build_inv closed_schema hb hbuild
  subst h1
  simpa [within] using h3

theorem schema_noPath {out : Outer W} {p : Piece} (hg : p.Good out) (hs : p.IsSchema) : NoPathRef p.obj (s% "v2_0.PathItem") := by
  intro ts q e kids hv
  exact absurd (schema_only hg hs hv) (by decide)

theorem schema_refers {out : Outer W} {p : Piece} (hg : p.Good out) (hs : p.IsSchema) {ts : List Str} {x : Obj} {r : Str}
    (hv : Visited [] p.obj ts x) (hr : Refers Refs.normClasses2 x r) : x.className? = some (s% "v2_0.Schema") := by
  obtain ⟨c, q, e, kids, rfl, hc, _⟩ := hr
  have h1 := schema_only hg hs hv
  have : ∀ c ∈ Refs.normClasses2, c ∈ schemaClasses → c = s% "v2_0.Schema" := by decide
  rw [this c hc h1]
  rfl

/-! ### where references lead -/

theorem leads_same {out : Outer W} {main p q : Piece} {n : Str} {y y' : Obj} (hg : q.Good out) (h : LeadsTo main p n q y)
    (h' : LeadsTo main p n q y') : y = y' := by
  have key : ∀ {us : List Str} {y : Obj}, q.ref = q.url ++ pointer (q.place ++ us) → At q.obj us y → y = q.obj := by
    intro us y e ha
    have hus : us = [] := by
      rcases hg.ref with e' | ⟨_, e'⟩
      · rw [e'] at e
        have := pointer_inj (List.append_cancel_left e)
        have := congrArg List.length this
        simp at this
        exact this
      · rw [e'] at e
        have := congrArg List.length e
        simp [pointer] at this
    subst hus
    have := ha.1
    simp only [Obj.resolve, Except.ok.injEq] at this
    exact this.symm
  rcases h with ⟨e, h⟩ | ⟨_, us, e, _, h⟩ <;> rcases h' with ⟨e', h'⟩ | ⟨_, us', e', _, h'⟩
  · rw [h, h']
  · rw [h, key (e ▸ e') h']
  · rw [h', key (e' ▸ e) h]
  · rw [e] at e'
    have := pointer_inj (List.append_cancel_left e')
    have := List.append_cancel_left this
    subst this
    exact at_inj h h'

theorem points_inj {out : Outer W} {main : Piece} {pieces : List Piece} (hA : Application out main pieces) {x y y' : Obj}
    (h : Points out main pieces x y) (h' : Points out main pieces x y') : y = y' := by
  obtain ⟨p, ts, r, n, q, h1, h2, h3, h4, h5, h6⟩ := h
  obtain ⟨p', ts', r', n', q', h1', h2', h3', h4', h5', h6'⟩ := h'
  have e : p = p' := by
    by_cases e : p = p'
    · exact e
    · exact absurd h2' ((hA.apart p p' h1 h1' e).1 ts ts' x h2)
  subst e
  have e := refers_inj h3 h3'
  subst e
  rw [h4] at h4'
  cases h4'
  have e := leads_one hA h5 h5' h6 h6'
  subst e
  exact leads_same (hA.good _ h5) h6 h6'

theorem ends_inj {out : Outer W} {main : Piece} {pieces : List Piece} (hA : Application out main pieces) {x z z' : Obj} {k k' : Nat}
    (h : Ends out main pieces k x z) (h' : Ends out main pieces k' x z') : k = k' ∧ z = z' := by
  have no : ∀ {x y : Obj}, (∀ r, ¬ Refers Refs.normClasses2 x r) → ¬ Points out main pieces x y := by
    rintro x y hn ⟨p, ts, r, n, q, _, _, h3, _⟩
    exact hn r h3
  induction h generalizing k' with
  | stop hn =>
    cases h' with
    | stop _ => exact ⟨rfl, rfl⟩
    | step hp _ => exact absurd hp (no hn)
  | step hp _ ih =>
    cases h' with
    | stop hn => exact absurd hp (no hn)
    | step hp' hc' =>
      have e := points_inj hA hp hp'
      subst e
      obtain ⟨e1, e2⟩ := ih hc'
      exact ⟨by rw [e1], e2⟩

/-- The sections a reference of the main document may point into. -/
def FitsP (c sec : Str) : Prop := Fits c sec ∨ (c = s% "v2_0.PathItem" ∧ sec = s% "paths")

theorem sec_classP {c sec : Str} (h : FitsP c sec) : ∃ C, (Dict.get? (pkg (s% "v2_0.Swagger")).children sec).map (fun cd => cd.builder) =
    some (.mapOf (.cls C)) ∧ ((c = s% "v2_0.Schema" ∧ C = s% "v2_0.Schema") ∨
      (sec = s% "parameters" ∧ C = s% "v2_0.Parameter") ∨ (sec = s% "responses" ∧ C = s% "v2_0.Response") ∨
      (sec = s% "paths" ∧ C = s% "v2_0.PathItem")) := by
  rcases h with h | ⟨rfl, rfl⟩
  · obtain ⟨C, h1, h2⟩ := sec_class h
    refine ⟨C, h1, ?_⟩
    rcases h2 with h2 | h2 | h2
    · exact .inl h2
    · exact .inr (.inl h2)
    · exact .inr (.inr (.inl h2))
  · exact ⟨_, by decide +kernel, .inr (.inr (.inr ⟨rfl, rfl⟩))⟩

/-- What the references of an application are. -/
theorem ref_kinds {out : Outer W} {main : Piece} {pieces : List Piece} {d : Dict Json} (hU : Upgradable out main pieces d) {p : Piece}
    (hp : p = main ∨ p ∈ pieces) {ts : List Str} {c : Str} {q : Option Str} {s : Json} {kids : Dict Obj} {r n : Str}
    (hv : Visited [] p.obj ts (.base c q s kids)) (hr : Refers Refs.normClasses2 (.base c q s kids) r)
    (hn : normalizeJr out.ok (some r) (some p.url) = .ok (some n)) :
    (∃ t ∈ pieces, n = t.ref ∧ c = s% "v2_0.Schema") ∨
      ∃ sec m w, n = main.url ++ pointer [sec, m] ∧ Safe [sec, m] ∧ Dict.get? (objAt d sec) m = some w ∧ FitsP c sec := by
  have hr0 := hr
  obtain ⟨c', q', e, kids', heq, hc, hd, hne⟩ := hr
  cases heq
  rcases hp with rfl | hp
  · obtain ⟨e', he, h⟩ := hU.refs ts c q _ kids hv hc
    cases he
    rcases h with h | ⟨v, h, hh⟩
    · rw [hd] at h; cases h
    · rw [hd] at h
      cases h
      rcases hh with ⟨sec, m, w, e1, hs, hw, hf⟩ | ⟨hc', m, w, e1, hs, hw⟩ | ⟨hc', r', t, e1, ht, hnt⟩
      · cases e1
        rw [norm_pointer (hU.app.good _ (.inl rfl)).url.ne] at hn
        cases hn
        exact .inr ⟨sec, m, w, rfl, hs, hw, .inl hf⟩
      · cases e1
        rw [norm_pointer (hU.app.good _ (.inl rfl)).url.ne] at hn
        cases hn
        exact .inr ⟨_, m, w, rfl, hs, hw, .inr ⟨hc', rfl⟩⟩
      · cases e1
        rw [hn] at hnt
        cases hnt
        exact .inl ⟨t, ht, rfl, hc'⟩
  · have hg := hU.app.good p (.inr hp)
    have hcl := schema_refers hg (hU.schemas p hp) hv hr0
    simp only [className?, Option.some.injEq] at hcl
    rcases hU.inner p hp ts _ r n hv hr0 hn with ⟨t, ht, e⟩ | ⟨m, w, e, hs, hw⟩
    · exact .inl ⟨t, ht, e, hcl⟩
    · exact .inr ⟨s% "definitions", m, w, e, hs, hw, .inl (.inl ⟨hcl, rfl⟩)⟩

theorem main_built {out : Outer W} {main : Piece} {pieces : List Piece} {d : Dict Json} (hU : Upgradable out main pieces d) :
    Built (.cls (s% "v2_0.Swagger")) (.obj d) main.obj := by
  have hg := hU.app.good main (.inl rfl)
  refine ⟨hU.regular, by rw [← hU.json]; exact hg.wf, main.ref, ?_⟩
  have := hg.built
  rwa [hU.app.root.2.2, hU.json] at this

theorem piece_built {out : Outer W} {main : Piece} {pieces : List Piece} {d : Dict Json} (hU : Upgradable out main pieces d) {p : Piece}
    (hp : p ∈ pieces) : Built (.cls (s% "v2_0.Schema")) p.json p.obj := by
  have hg := hU.app.good p (.inr hp)
  have hs := hU.schemas p hp
  refine ⟨hs.regular, hg.wf, p.ref, ?_⟩
  have := hg.built
  rwa [hs.cls] at this

theorem main_leads {out : Outer W} {main : Piece} {pieces : List Piece} {d : Dict Json} (hU : Upgradable out main pieces d) (p : Piece)
    {us : List Str} {y : Obj} (hs : Safe us) (hy : At main.obj us y) : LeadsTo main p (main.url ++ pointer us) main y := by
  refine .inr ⟨.inr rfl, us, ?_, ?_, hy⟩
  · rw [hU.app.root.1]; rfl
  · rw [hU.app.root.1]; exact hs

/-- A reference leads to an object of the application; that of a schema, to a schema. -/
theorem points_to {out : Outer W} {main : Piece} {pieces : List Piece} {d : Dict Json} (hU : Upgradable out main pieces d) {p : Piece}
    (hp : p = main ∨ p ∈ pieces) {ts : List Str} {x : Obj} {r n : Str} (hv : Visited [] p.obj ts x) (hr : Refers Refs.normClasses2 x r)
    (hn : normalizeJr out.ok (some r) (some p.url) = .ok (some n)) :
    ∃ q y us, (q = main ∨ q ∈ pieces) ∧ LeadsTo main p n q y ∧ Visited [] q.obj us y ∧
      (x.className? = some (s% "v2_0.Schema") → ∃ j, Built (.cls (s% "v2_0.Schema")) j y ∧ ¬ IsFile j) ∧
      (x.className? ≠ some (s% "v2_0.Schema") → q = main) := by
  obtain ⟨c, q, e, kids, rfl, hc, hd, hne⟩ := id hr
  rcases ref_kinds hU hp hv hr hn with ⟨t, ht, e, hcl⟩ | ⟨sec, m, w, e, hs, hw, hf⟩
  · refine ⟨t, t.obj, [], .inr ht, .inl ⟨e, rfl⟩, .root, fun _ => ⟨_, piece_built hU ht, (hU.schemas t ht).noFile⟩, fun h => ?_⟩
    rw [hcl] at h
    exact absurd rfl h
  · obtain ⟨C, hC, hC'⟩ := sec_classP hf
    obtain ⟨y, h1, h2, h3⟩ := target (main_built hU) hC hw
    refine ⟨main, y, _, .inl rfl, e ▸ main_leads hU p hs h2, h1, fun h => ?_, fun _ => rfl⟩
    simp only [className?, Option.some.injEq] at h
    subst h
    rcases hf with (⟨_, rfl⟩ | ⟨hc, _⟩) | ⟨hc, _⟩
    · rcases hC' with ⟨_, rfl⟩ | ⟨hc, _⟩ | ⟨hc, _⟩ | ⟨hc, _⟩
      · exact ⟨w, h3, hU.noFiles m w hw⟩
      · exact absurd hc (by decide)
      · exact absurd hc (by decide)
      · exact absurd hc (by decide)
    · exact absurd hc (by decide)
    · exact absurd hc (by decide)

/-! ### following references -/

/-- The pieces that can be reached are there and known. -/
def AllKnown (out : Outer W) (main : Piece) (pieces : List Piece) (w : World W) : Prop :=
  ∀ p, Reached out main pieces p → p.Known out main pieces w

theorem reached_in {out : Outer W} {main : Piece} {pieces : List Piece} {p : Piece} (h : Reached out main pieces p) : p = main ∨ p ∈ pieces := by
  cases h with
  | main => exact .inl rfl
  | next _ _ h => exact .inr h

theorem reached_next {out : Outer W} {main : Piece} {pieces : List Piece} {p q : Piece} {ts : List Str} {x y : Obj} {r n : Str}
    (h : Reached out main pieces p) (hv : Visited [] p.obj ts x) (hr : Refers Refs.normClasses2 x r)
    (hn : normalizeJr out.ok (some r) (some p.url) = .ok (some n)) (hq : q = main ∨ q ∈ pieces) (hl : LeadsTo main p n q y) :
    Reached out main pieces q := by
  rcases hq with rfl | hq
  · exact .main
  · exact .next h ⟨ts, x, r, n, y, hv, hr, hn, hl⟩ hq

/-- One step, in a known application. -/
theorem points_known {out : Outer W} {main : Piece} {pieces : List Piece} {d : Dict Json} (hU : Upgradable out main pieces d) {w : World W}
    (hk : AllKnown out main pieces w) {p : Piece} (hp : Reached out main pieces p) {ts : List Str} {x y : Obj} (hv : Visited [] p.obj ts x)
    (h : Points out main pieces x y) :
    ∃ n q us, Reached out main pieces q ∧ Visited [] q.obj us y ∧ attrsOf w x = { normalized := some n, refObj := some y } ∧
      (x.className? = some (s% "v2_0.Schema") → ∃ j, Built (.cls (s% "v2_0.Schema")) j y ∧ ¬ IsFile j) ∧
      (x.className? ≠ some (s% "v2_0.Schema") → q = main) ∧ ∃ r, Refers Refs.normClasses2 x r := by
  obtain ⟨p', ts', r, n, q, h1, h2, h3, h4, h5, h6⟩ := id h
  obtain ⟨n', q', y', g1, g2, g3, g4⟩ := (hk p hp ts x hv).1 r h3
  have hy' : Points out main pieces x y' := ⟨p, ts, r, n', q', reached_in hp, hv, h3, g1, g2, g3⟩
  have e := points_inj hU.app h hy'
  subst e
  obtain ⟨q2, y2, us, k1, k2, k3, k4, k5⟩ := points_to hU (reached_in hp) hv h3 g1
  have hy2 : Points out main pieces x y2 := ⟨p, ts, r, n', q2, reached_in hp, hv, h3, g1, k1, k2⟩
  have e := points_inj hU.app h hy2
  subst e
  exact ⟨n', q2, us, reached_next hp hv h3 g1 k1 k2, k3, g4, k4, k5, r, h3⟩

theorem derefLoop_ends {out : Outer W} {main : Piece} {pieces : List Piece} {d : Dict Json} (hU : Upgradable out main pieces d) {w : World W}
    (hk : AllKnown out main pieces w) {k : Nat} {x z : Obj} (hc : Ends out main pieces k x z) : ∀ p ts, Reached out main pieces p →
    Visited [] p.obj ts x → ∀ n V, k < n → (∀ v ∈ V, ∃ kv zv, k ≤ kv ∧ Ends out main pieces kv v zv) → derefLoop w n V x = .ok z := by
  induction hc with
  | @stop x hn =>
    intro p ts hp hv n V hn' _
    cases n with
    | zero => omega
    | succ n =>
      unfold derefLoop
      rw [((hk p hp ts x hv).2 hn)]
      simp
  | @step k x y z hr hc ih =>
    intro p ts hp hv n V hn' hV
    cases n with
    | zero => omega
    | succ n =>
      obtain ⟨nm, q, us, h1, h2, h3, _, _, r, h4⟩ := points_known hU hk hp hv hr
      have hrv : refValue x ≠ .null := by
        obtain ⟨c, q, e, kids, rfl, hcl, hg, _⟩ := h4
        rw [refValue_ref hcl hg]
        simp
      unfold derefLoop
      rw [if_neg hrv, h3]
      dsimp only
      have hnot : y ∉ V := by
        intro hyV
        obtain ⟨kv, zv, h1, h2⟩ := hV y hyV
        have := (ends_inj hU.app hc h2).1
        omega
      rw [if_neg hnot]
      refine ih q us h1 h2 n _ (by omega) ?_
      intro v hv
      rcases List.mem_append.1 hv with hv | hv
      · obtain ⟨kv, zv, h1, h2⟩ := hV v hv
        exact ⟨kv, zv, by omega, h2⟩
      · simp only [List.mem_singleton] at hv
        subst hv
        exact ⟨k, z, Nat.le_refl _, hc⟩

theorem ends_le {out : Outer W} {main : Piece} {pieces : List Piece} {d : Dict Json} (hU : Upgradable out main pieces d) {w : World W}
    (hk : AllKnown out main pieces w) {k : Nat} {x z : Obj} (hc : Ends out main pieces k x z) : ∀ p ts, Reached out main pieces p →
    Visited [] p.obj ts x →
    ∃ L : List Obj, L.length = k ∧ L.Nodup ∧ ∀ y ∈ L, y ∈ w.attrs.map Prod.fst ∧ ∃ ky zy, ky ≤ k ∧ Ends out main pieces ky y zy := by
  induction hc with
  | stop _ => exact fun p ts _ _ => ⟨[], rfl, List.nodup_nil, fun _ h => by cases h⟩
  | @step k x y z hr hc ih =>
    intro p ts hp hv
    obtain ⟨nm, q, us, g1, g2, g3, _⟩ := points_known hU hk hp hv hr
    obtain ⟨L, h1, h2, h3⟩ := ih q us g1 g2
    refine ⟨x :: L, by simp [h1], List.nodup_cons.2 ⟨fun hx => ?_, h2⟩, ?_⟩
    · obtain ⟨_, ky, zy, h4, h5⟩ := h3 x hx
      have := (ends_inj hU.app (.step hr hc) h5).1
      omega
    · intro v hv
      rcases List.mem_cons.1 hv with rfl | hv
      · exact ⟨attrs_mem (by rw [g3]; simp), k + 1, z, Nat.le_refl _, .step hr hc⟩
      · obtain ⟨g1, ky, zy, g2, g3⟩ := h3 v hv
        exact ⟨g1, ky, zy, by omega, g3⟩

theorem deref_ends {out : Outer W} {main : Piece} {pieces : List Piece} {d : Dict Json} (hU : Upgradable out main pieces d) {w : World W}
    (hk : AllKnown out main pieces w) {k : Nat} {x z : Obj} (hc : Ends out main pieces k x z) {p : Piece} {ts : List Str}
    (hp : Reached out main pieces p) (hv : Visited [] p.obj ts x) : deref w x = .ok z := by
  obtain ⟨L, h1, h2, h3⟩ := ends_le hU hk hc p ts hp hv
  have := length_le h2 (fun y hy => (h3 y hy).1)
  rw [List.length_map] at this
  exact derefLoop_ends hU hk hc p ts hp hv _ _ (by omega) (fun v hv' => by
    simp only [List.mem_singleton] at hv'
    subst hv'
    exact ⟨k, z, Nat.le_refl _, hc⟩)

/-- Where they end. -/
theorem ends_end {out : Outer W} {main : Piece} {pieces : List Piece} {d : Dict Json} (hU : Upgradable out main pieces d) {w : World W}
    (hk : AllKnown out main pieces w) {k : Nat} {x z : Obj} (hc : Ends out main pieces k x z) : ∀ p ts, Reached out main pieces p →
    Visited [] p.obj ts x → (∃ q us, Reached out main pieces q ∧ Visited [] q.obj us z) ∧
      ((∃ j, Built (.cls (s% "v2_0.Schema")) j x ∧ ¬ IsFile j) → ∃ j, Built (.cls (s% "v2_0.Schema")) j z ∧ ¬ IsFile j) := by
  induction hc with
  | stop _ => exact fun p ts hp hv => ⟨⟨p, ts, hp, hv⟩, fun h => h⟩
  | @step k x y z hr hc ih =>
    intro p ts hp hv
    obtain ⟨nm, q, us, g1, g2, g3, g4, _⟩ := points_known hU hk hp hv hr
    obtain ⟨h1, h2⟩ := ih q us g1 g2
    refine ⟨h1, fun ⟨j, hj, _⟩ => h2 (g4 ?_)⟩
    obtain ⟨_, _, _, _, rfl, _⟩ := built_cls hj
    rfl

/-! ### what the converters are told -/

/-- Some object of a piece that can be reached. -/
def Somewhere (out : Outer W) (main : Piece) (pieces : List Piece) (o : Obj) : Prop := ∃ p, Reached out main pieces p ∧ Inside p.obj o

open Classical in
/-- What the converters are told, also of objects that are not there. -/
noncomputable def farEnv (out : Outer W) (main : Piece) (pieces : List Piece) (w : World W) : Conv.Env where
  deref o := if Somewhere out main pieces o then deref w o
    else if o.className? = some (s% "v2_0.Reference") then .ok (follow main.obj 1 o) else .ok o
  setOrder := out.setOrder
  normRef := (convEnv out w).normRef
  ok := out.ok

theorem inside_base {out : Outer W} {main : Piece} {pieces : List Piece} (hA : Application out main pieces) {p : Piece}
    (hp : Reached out main pieces p) {o : Obj} (h : Inside p.obj o) (hb : o.isBase = true) : ∃ ts, Visited [] p.obj ts o :=
  inside_visited (base_of (hA.good p (reached_in hp))) h hb

theorem deref_plain {w : World W} {o : Obj} (h : o.isBase = false) : deref w o = .ok o := by
  unfold deref derefLoop
  have : refValue o = .null := by
    cases o <;> first | rfl | cases h
  rw [if_pos this]

/-- Objects that refer to nothing. -/
theorem far_none {out : Outer W} {main : Piece} {pieces : List Piece} {d : Dict Json} (hU : Upgradable out main pieces d) {w : World W}
    (hk : AllKnown out main pieces w) {o : Obj} (h : ∀ r, ¬ Refers Refs.normClasses2 o r) (hc : o.className? ≠ some (s% "v2_0.Reference")) :
    (farEnv out main pieces w).deref o = .ok o := by
  unfold farEnv
  dsimp only
  split
  · rename_i hs
    obtain ⟨p, hp, hi⟩ := hs
    by_cases hb : o.isBase = true
    · obtain ⟨ts, hv⟩ := inside_base hU.app hp hi hb
      exact deref_ends hU hk (.stop h) hp hv
    · exact deref_plain (by simpa using hb)
  · first | rfl | (split <;> first | rfl | (rename_i h'; exact absurd h' hc))

theorem refers_cls {c : Str} {j : Json} {o : Obj} (h : Built (.cls c) j o) (hc : c ∉ Refs.normClasses2) (r : Str) :
    ¬ Refers Refs.normClasses2 o r := by
  obtain ⟨e, p, kids, _, rfl, _⟩ := built_cls h
  rintro ⟨c', q, d, kids, e, hc', _⟩
  cases e
  exact hc hc'

theorem far_entry {out : Outer W} {main : Piece} {pieces : List Piece} {d : Dict Json} (hU : Upgradable out main pieces d) {w : World W}
    (hk : AllKnown out main pieces w) {sec C : Str} {r e : Dict Json} {v : Json} {o : Obj}
    (hc : (Dict.get? (pkg (s% "v2_0.Swagger")).children sec).map (fun cd => cd.builder) = some (.mapOf (.cls C)))
    (hf : Fits (s% "v2_0.Reference") sec) (hC : C ∉ Refs.normClasses2) (ho : Built (.cls (s% "v2_0.Reference")) (.obj r) o)
    (hv : Dict.get? r (s% "$ref") = some v) (he : entryAt d sec v = some e) :
    ∃ p, (farEnv out main pieces w).deref o = .ok p ∧ Built (.cls C) (.obj e) p := by
  have hB := main_built hU
  obtain ⟨n, rfl, hn⟩ := entryAt_some (kid_objAt hB hc).2.2.2 he
  obtain ⟨y, hy1, h2, h3⟩ := target hB hc hn
  obtain ⟨d', p, kids, hd, rfl, _⟩ := built_cls ho
  cases hd
  refine ⟨y, ?_, h3⟩
  unfold farEnv
  dsimp only
  split
  · rename_i hs
    obtain ⟨p0, hp, hi⟩ := hs
    obtain ⟨ts, hvx⟩ := inside_base hU.app hp hi rfl
    have hpm : p0 = main := by
      rcases reached_in hp with h | h
      · exact h
      · exact absurd (schema_only (hU.app.good p0 (.inr h)) (hU.schemas p0 h) hvx) (by decide)
    subst hpm
    have hr : Refers Refs.normClasses2 (.base (s% "v2_0.Reference") p (.obj r) kids) (pointer [sec, n]) := refers_of (by decide) hv
    have hsafe : Safe [sec, n] := by
      obtain ⟨e', he', h⟩ := hU.refs ts _ p _ kids hvx (by decide)
      cases he'
      rcases h with h | ⟨v', h, hh⟩
      · rw [hv] at h; cases h
      · rw [hv] at h
        cases h
        rcases hh with ⟨sec', m', _, e1, hs, _⟩ | ⟨hc', _⟩ | ⟨hc', _⟩
        · have := pointer_inj (Json.str.inj e1)
          simp only [List.cons.injEq] at this
          obtain ⟨rfl, rfl, _⟩ := this
          exact hs
        · exact absurd hc' (by decide)
        · exact absurd hc' (by decide)
    have hn' : normalizeJr out.ok (some (pointer [sec, n])) (some p0.url) = .ok (some (p0.url ++ pointer [sec, n])) :=
      norm_pointer (hU.app.good _ (.inl rfl)).url.ne
    have hpt : Points out p0 pieces (.base (s% "v2_0.Reference") p (.obj r) kids) y :=
      ⟨p0, ts, _, _, p0, .inl rfl, hvx, hr, hn', .inl rfl, main_leads hU p0 hsafe h2⟩
    exact deref_ends hU hk (.step hpt (.stop (refers_cls h3 hC))) hp hvx
  · rw [if_pos (show (Obj.base (s% "v2_0.Reference") p (.obj r) kids).className? = some (s% "v2_0.Reference") from rfl), follow, next_of hv hf h2]
    exact congrArg _ (follow_cls h3 (by
      intro sec' hf'
      rcases hf' with ⟨rfl, _⟩ | ⟨rfl, _⟩ <;> exact hC (by decide)) 0)

theorem farEnv_ok {out : Outer W} {main : Piece} {pieces : List Piece} {d : Dict Json} (hU : Upgradable out main pieces d) {w : World W}
    (hk : AllKnown out main pieces w) : EnvOk (docRefs d) (farEnv out main pieces w) where
  set := hU.sets
  param := fun _ o ho => far_none hU hk (refers_cls ho (by decide)) (by
    obtain ⟨_, _, _, _, rfl, _⟩ := built_cls ho
    show some (s% "v2_0.Parameter") ≠ some _
    decide)
  resp := fun _ o ho => far_none hU hk (refers_cls ho (by decide)) (by
    obtain ⟨_, _, _, _, rfl, _⟩ := built_cls ho
    show some (s% "v2_0.Response") ≠ some _
    decide)
  paramRef := fun r v e o ho hv he => far_entry hU hk (sec := s% "parameters") (C := s% "v2_0.Parameter") (by decide +kernel)
      (.inr ⟨rfl, .inl rfl⟩) (by decide) ho hv he
  respRef := fun r v e o ho hv he => far_entry hU hk (sec := s% "responses") (C := s% "v2_0.Response") (by decide +kernel)
      (.inr ⟨rfl, .inr rfl⟩) (by decide) ho hv he
  schema := fun j o ho hj => by
    have key : ∃ s j', (farEnv out main pieces w).deref o = .ok s ∧ Built (.cls (s% "v2_0.Schema")) j' s ∧ ¬ IsFile j' := by
      unfold farEnv
      dsimp only
      split
      · rename_i hs
        obtain ⟨p, hp, hi⟩ := hs
        obtain ⟨ts, hv⟩ := inside_base hU.app hp hi (root_base ho)
        obtain ⟨k, z, hc⟩ := hU.ends p (reached_in hp) ts o hv
        obtain ⟨j', h1, h2⟩ := (ends_end hU hk hc p ts hp hv).2 ⟨j, ho, hj⟩
        exact ⟨z, j', deref_ends hU hk hc hp hv, h1, h2⟩
      · rw [if_neg (by
          obtain ⟨_, _, _, _, rfl, _⟩ := built_cls ho
          show ¬ some (s% "v2_0.Schema") = some _
          decide)]
        exact ⟨o, j, rfl, ho, hj⟩
    obtain ⟨s, j', h0, h1, h2⟩ := key
    have hk : plainFields (s% "v2_0.Schema") [s% "type"] = true := by decide +kernel
    obtain ⟨e, p, kids, rfl, _⟩ := built_cls h1
    refine ⟨s, _, h0, built_fld h1 (plainFields_cls hk) _, ?_⟩
    rw [plainFields_val hk (by simp)]
    exact fun ht => h2 ⟨e, rfl, ht⟩

theorem farSource {out : Outer W} {main : Piece} {pieces : List Piece} (hA : Application out main pieces) :
    Source (Somewhere out main pieces) (fun _ _ => True) where
  loaded hx := by
    obtain ⟨p, hp, hi⟩ := hx
    have hg := hA.good p (reached_in hp)
    exact loaded_inside closed_all ⟨_, _, _, trivial, hg.wf, hg.built⟩ hi
  slot hx hs := by
    obtain ⟨p, hp, hi⟩ := hx
    exact ⟨p, hp, inside_trans hi (inside_slot hs (.here _))⟩
  ref _ _ _ := trivial

theorem farAgree {out : Outer W} {main : Piece} {pieces : List Piece} {d : Dict Json} (hU : Upgradable out main pieces d) {w : World W}
    (hk : AllKnown out main pieces w) : Agree (Somewhere out main pieces) (convEnv out w) (farEnv out main pieces w) where
  setOrder := rfl
  ok := rfl
  deref o ho := by
    show deref w o = _
    unfold farEnv
    dsimp only
    rw [if_pos ho]
  closed o p ho hp := by
    unfold farEnv at hp
    dsimp only at hp
    rw [if_pos ho] at hp
    obtain ⟨p0, h0, hi⟩ := ho
    by_cases hb : o.isBase = true
    · obtain ⟨ts, hv⟩ := inside_base hU.app h0 hi hb
      obtain ⟨k, z, hc⟩ := hU.ends p0 (reached_in h0) ts o hv
      rw [deref_ends hU hk hc h0 hv] at hp
      cases hp
      obtain ⟨q, us, h1, h2⟩ := (ends_end hU hk hc p0 ts h0 hv).1
      exact ⟨q, h1, visited_inside h2 _ (.here _)⟩
    · rw [deref_plain (by simpa using hb)] at hp
      cases hp
      exact ⟨p0, h0, hi⟩
  normRef _ _ _ _ _ := rfl

/-- A `$ref` of the main document; that of a path item has become absolute. -/
def MainRef (main : Piece) (b : Bool) (v : Json) : Prop :=
  (b = false ∧ ∃ ts c q e kids, Visited [] main.obj ts (.base c q (.obj e) kids) ∧ c ∈ Refs.normClasses2 ∧ Dict.get? e (s% "$ref") = some v ∧
    v.truthy = true) ∨
  (b = true ∧ ∃ ts q e kids r, Visited [] main.obj ts (.base (s% "v2_0.PathItem") q (.obj e) kids) ∧ Dict.get? e (s% "$ref") = some (.str r) ∧
    r ≠ [] ∧ v = .str (main.url ++ r))

/-- An object with a `$ref`. -/
theorem fld_ref {out : Outer W} {p : Piece} (hg : p.Good out)
    (hspec : ∀ ts c q spec kids, Visited [] p.obj ts (.base c q spec kids) → c ∈ Refs.normClasses2 → ∃ e, spec = .obj e) {x : Obj} {v : Json}
    (hx : Inside p.obj x) (hf : fld x (s% "$ref") = .ok v) (ht : v.truthy = true) :
    ∃ c q e kids ts, x = .base c q (.obj e) kids ∧ Visited [] p.obj ts x ∧ c ∈ Refs.normClasses2 ∧ Dict.get? e (s% "$ref") = some v := by
  cases x with
  | base c q s kids =>
    simp only [fld] at hf
    cases hg' : Dict.get? (pkg c).fields (s% "$ref") with
    | none => rw [hg'] at hf; cases hf; cases ht
    | some fd =>
      rw [hg'] at hf
      dsimp only at hf
      obtain ⟨ts, hv⟩ := inside_visited (base_of hg) hx rfl
      have hc := ref_classes (class_v2 hg hv) hg'
      obtain ⟨e, rfl⟩ := hspec ts c q s kids hv hc
      have h2 := Refs.refField2 hc
      unfold Refs.refField at h2
      rw [hg'] at h2
      simp only [Bool.and_eq_true, decide_eq_true_eq, Bool.not_eq_true'] at h2
      simp only [readField, specGet] at hf
      cases he : Dict.get? e (s% "$ref") with
      | none =>
        rw [he] at hf
        dsimp only at hf
        split at hf
        · cases hf
        · rw [h2.2.2] at hf; cases hf; cases ht
      | some v' =>
        rw [he] at hf
        dsimp only at hf
        rw [h2.2.1, if_neg (by decide)] at hf
        cases hf
        exact ⟨c, q, e, kids, ts, rfl, hv, hc, he⟩
  | _ => cases hf; cases ht

theorem linked_spec {out : Outer W} {main p : Piece} {pieces : List Piece} (hl : p.Linked out main pieces) :
    ∀ ts c q spec kids, Visited [] p.obj ts (.base c q spec kids) → c ∈ Refs.normClasses2 → ∃ e, spec = .obj e := by
  intro ts c q spec kids hv hc
  obtain ⟨d, e, _⟩ := hl ts c q spec kids hv hc
  exact ⟨d, e⟩

theorem mainSource {out : Outer W} {main : Piece} {pieces : List Piece} (hA : Application out main pieces) :
    Source (Inside main.obj) (MainRef main) where
  loaded hx := by
    have hg := hA.good main (.inl rfl)
    exact loaded_inside closed_all ⟨_, _, _, trivial, hg.wf, hg.built⟩ hx
  slot hx hs := inside_trans hx (inside_slot hs (.here _))
  ref hx hf ht := by
    obtain ⟨c, q, e, kids, ts, rfl, h1, h2, h3⟩ := fld_ref (hA.good main (.inl rfl)) (linked_spec (hA.linked main (.inl rfl))) hx hf ht
    exact .inl ⟨rfl, ts, c, q, e, kids, h1, h2, h3, ht⟩

/-- References that are not those of schemas stay in the main document. -/
theorem ends_main {out : Outer W} {main : Piece} {pieces : List Piece} {d : Dict Json} (hU : Upgradable out main pieces d) {k : Nat} {x z : Obj}
    (hc : Ends out main pieces k x z) : ∀ ts, Visited [] main.obj ts x → x.className? ≠ some (s% "v2_0.Schema") → Inside main.obj z := by
  induction hc with
  | stop _ => exact fun ts hv _ => visited_inside hv _ (.here _)
  | @step k x y z hr hc ih =>
    intro ts hv hn
    obtain ⟨p', ts', r0, n0, q0, g1, g2, g3, g4, g5, g6⟩ := id hr
    have e : p' = main := by
      by_cases e : p' = main
      · exact e
      · exact absurd hv ((hU.app.apart p' main g1 (.inl rfl) e).1 ts' ts x g2)
    subst e
    obtain ⟨c, qq, e, kids, rfl, hcl, hd, hne⟩ := id g3
    rcases ref_kinds hU (.inl rfl) g2 g3 g4 with ⟨t, ht, e, hcl⟩ | ⟨sec, m, w, e, hs, hw, hf⟩
    · subst hcl; exact absurd rfl hn
    · obtain ⟨C, hC, hC'⟩ := sec_classP hf
      obtain ⟨y', k1, k2, k3⟩ := target (main_built hU) hC hw
      have hpt := points_inj hU.app hr ⟨p', ts', r0, n0, p', .inl rfl, g2, g3, g4, .inl rfl, e ▸ main_leads hU p' hs k2⟩
      subst hpt
      refine ih _ k1 ?_
      obtain ⟨_, _, _, _, rfl, _⟩ := built_cls k3
      rcases hC' with ⟨rfl, _⟩ | ⟨_, rfl⟩ | ⟨_, rfl⟩ | ⟨_, rfl⟩
      · exact absurd rfl hn
      · exact fun h => absurd (Option.some.inj h) (by decide)
      · exact fun h => absurd (Option.some.inj h) (by decide)
      · exact fun h => absurd (Option.some.inj h) (by decide)

/-- What the converters are told of a path item with a `$ref`. -/
theorem path_ref {out : Outer W} {main : Piece} {pieces : List Piece} {d : Dict Json} (hU : Upgradable out main pieces d) {w : World W}
    (hk : AllKnown out main pieces w) {ts : List Str} {q : Option Str} {e : Dict Json} {kids : Dict Obj} {v : Json}
    (hv : Visited [] main.obj ts (.base (s% "v2_0.PathItem") q (.obj e) kids)) (hg : Dict.get? e (s% "$ref") = some v) :
    ∃ k u, v = .str (pointer [s% "paths", k]) ∧ Safe [s% "paths", k] ∧ Dict.get? (objAt d (s% "paths")) k = some u ∧
      (convEnv out w).normRef (.base (s% "v2_0.PathItem") q (.obj e) kids) = .str (main.url ++ pointer [s% "paths", k]) := by
  obtain ⟨e', he, h⟩ := hU.refs ts _ q _ kids hv (by decide)
  cases he
  rcases h with h | ⟨v', h, hh⟩
  · rw [hg] at h; cases h
  · rw [hg] at h
    cases h
    rcases hh with ⟨_, _, _, _, _, _, hfit⟩ | ⟨_, k, u, rfl, hs, hu⟩ | ⟨hc', _⟩
    · rcases hfit with ⟨hc, _⟩ | ⟨hc, _⟩ <;> exact absurd hc (by decide)
    · refine ⟨k, u, rfl, hs, hu, ?_⟩
      obtain ⟨n, _, y, g1, _, _, g4⟩ := (hk main .main ts _ hv).1 _ (refers_of (by decide) hg)
      rw [norm_pointer (hU.app.good _ (.inl rfl)).url.ne] at g1
      cases g1
      show (match (attrsOf w _).normalized with | some r => Json.str r | none => .null) = _
      rw [g4]
    · exact absurd hc' (by decide)

theorem mainLoads {out : Outer W} {main : Piece} {pieces : List Piece} {d : Dict Json} (hU : Upgradable out main pieces d) {w : World W}
    (hk : AllKnown out main pieces w) : EnvLoads (Inside main.obj) (MainRef main) (farEnv out main pieces w) where
  deref o p ho hn hp := by
    unfold farEnv at hp
    dsimp only at hp
    rw [if_pos ⟨main, .main, ho⟩] at hp
    by_cases hb : o.isBase = true
    · obtain ⟨ts, hv⟩ := inside_base hU.app .main ho hb
      obtain ⟨k, z, hc⟩ := hU.ends main (.inl rfl) ts o hv
      rw [deref_ends hU hk hc .main hv] at hp
      cases hp
      exact ends_main hU hc ts hv hn
    · rw [deref_plain (by simpa using hb)] at hp
      cases hp
      exact ho
  normRef o v ho hf ht := by
    obtain ⟨hi, j, p, hw, hb⟩ := ho
    obtain ⟨c, q, e, kids, ts, rfl, hv, hc, hg⟩ := fld_ref (hU.app.good main (.inl rfl)) (linked_spec (hU.app.linked main (.inl rfl))) hi hf ht
    have := (version_of hb).1
    simp only [Obj.className?, Option.some.injEq] at this
    subst this
    obtain ⟨k, u, rfl, hs, _, hnr⟩ := path_ref hU hk hv hg
    have hnr : (farEnv out main pieces w).normRef (.base (s% "v2_0.PathItem") q (.obj e) kids) = _ := hnr
    rw [hnr]
    exact ⟨rfl, .inr ⟨rfl, ts, q, e, kids, _, hv, hg, pointer_nonempty _, rfl⟩⟩

end Pyopenapi.Main
