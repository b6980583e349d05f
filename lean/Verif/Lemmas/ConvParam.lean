import Verif.Lemmas.Conv
import Verif.Spec.ConvParam

/-!
# What the converters make of parameters and headers
-/

namespace Pyopenapi
open Spec Obj Conv

theorem toStyleExplode_error {cf in_ type_ : Json} : (∃ e, toStyleExplode cf in_ type_ = .error e) ↔
    (cf = .str (s% "ssv") ∨ cf = .str (s% "pipes")) ∧ (in_ ≠ .str (s% "query") ∨ type_ ≠ .str (s% "array")) := by
  unfold toStyleExplode
  by_cases h1 : cf = .str (s% "csv")
  · subst h1
    constructor
    · rintro ⟨e, he⟩; repeat' split at he <;> try cases he
    · rintro ⟨h | h, _⟩ <;> cases h
  by_cases h2 : cf = .str (s% "ssv")
  · subst h2
    rw [if_neg (by decide), if_pos rfl]
    split
    · rename_i h; exact ⟨fun _ => ⟨.inl rfl, h⟩, fun _ => ⟨_, rfl⟩⟩
    · rename_i h; exact ⟨(fun ⟨e, he⟩ => by cases he), fun h' => absurd h'.2 h⟩
  by_cases h3 : cf = .str (s% "pipes")
  · subst h3
    rw [if_neg (by decide), if_neg (by decide), if_pos rfl]
    split
    · rename_i h; exact ⟨fun _ => ⟨.inr rfl, h⟩, fun _ => ⟨_, rfl⟩⟩
    · rename_i h; exact ⟨(fun ⟨e, he⟩ => by cases he), fun h' => absurd h'.2 h⟩
  rw [if_neg h1, if_neg h2, if_neg h3]
  constructor
  · rintro ⟨e, he⟩; repeat' split at he <;> try cases he
  · rintro ⟨h | h, _⟩
    · exact absurd h h2
    · exact absurd h h3

theorem toStyleExplode_schemaError {cf in_ type_ : Json} {e : Err} (h : toStyleExplode cf in_ type_ = .error e) :
    e = .schemaError := by
  unfold toStyleExplode at h
  repeat' split at h
  all_goals cases h <;> rfl

theorem fromItems_eq (o : Obj) : fromItems o = (do
    let ref ← fld o (s% "$ref")
    if ref.truthy then .ok (.obj [(s% "$ref", ref)])
    else do
      let ret ← genFields o baseSchemaFields []
      match kidT o (s% "items") with
      | some it => do
        let r ← fromItems it
        .ok (.obj (Dict.set ret (s% "items") r))
      | none => .ok (.obj ret)) := by
  rw [fromItems]
  simp only [bind, Except.bind]
  cases fld o (s% "$ref") with
  | error e => rfl
  | ok ref =>
    dsimp only
    split
    · rfl
    cases genFields o baseSchemaFields [] with
    | error e => rfl
    | ok ret => dsimp only; split <;> simp_all

/-- What is put under `items`. -/
theorem simple_of {d r0 r : Dict Json} (hcop : Copied simpleKeywords d r0)
    (honly : ∀ k, k ∉ simpleKeywords → Dict.get? r0 k = none) (hs : Step (s% "items") r0 r)
    (h1 : given d (s% "items") = none → Dict.get? r (s% "items") = none)
    (h2 : ∀ v, given d (s% "items") = some v → ∃ w, Dict.get? r (s% "items") = some w ∧ ItemsTo v w) :
    ItemsTo (.obj d) (.obj r) := by
  refine .mk (fun k hk => ?_) ⟨h1, fun h => ?_⟩ (fun v w hv hw => ?_) (fun k hk => ?_)
  · rw [hs.frame k (by rintro rfl; exact absurd hk (by decide))]; exact hcop k hk
  · cases hg : given d (s% "items") with
    | none => rfl
    | some v => obtain ⟨w, hw, _⟩ := h2 v hg; rw [h] at hw; cases hw
  · obtain ⟨w', hw', hi⟩ := h2 v hv
    rw [hw] at hw'; cases hw'; exact hi
  · refine Decidable.byContradiction (fun hn => hk ?_)
    simp only [List.mem_append, List.mem_singleton, not_or] at hn
    rw [hs.frame k hn.2]; exact honly k hn.1

theorem genFields_simple {c : Str} {d : Dict Json} {o : Obj} (h : Built (.cls c) (.obj d) o)
    (hp : plainFields c simpleKeywords = true) : ∃ r, genFields o baseSchemaFields [] = .ok r ∧
      Copied simpleKeywords d r ∧ (∀ k, k ∉ simpleKeywords → Dict.get? r k = none) ∧ (Json.obj r).wf = true := by
  obtain ⟨r, h1, h2, h3, h4⟩ := genFields_copied (ks := simpleKeywords) h hp [] (by simp)
  exact ⟨r, h1, h2, fun k hk => by rw [h3 k hk]; rfl, h4 rfl⟩

theorem fromItems_built : ∀ (n : Nat) (j : Json) (o : Obj), sizeOf j ≤ n → Built (.cls (s% "v2_0.Items")) j o →
    ∃ r, fromItems o = .ok r ∧ ItemsTo j r ∧ r.wf = true := by
  intro n
  induction n with
  | zero => intro j o hs _; cases j <;> simp at hs
  | succ n ih =>
    intro j o hs h
    obtain ⟨d, p, kids, rfl, ho, _⟩ := built_cls h
    have hpc : plainClass (s% "v2_0.Items") = true := by decide +kernel
    rw [fromItems_eq, built_fld h hpc, valOf_absent (by decide +kernel) d]
    simp only [bind, Except.bind]
    rw [if_neg (by decide)]
    obtain ⟨r0, e0, c0, o0, w0⟩ := genFields_simple h (by decide +kernel)
    simp only [e0]
    rcases built_kid_cls h (k := s% "items") (c' := s% "v2_0.Items") rfl with ⟨g1, g2, _⟩ | ⟨e, x, g1, g2, _, g3⟩
    · rw [g2]
      exact ⟨_, rfl, simple_of c0 o0 (.refl _ _) (fun _ => o0 _ (by decide)) (fun v hv => by rw [g1] at hv; cases hv), w0⟩
    · have := size_get (given_some.1 g1).1
      obtain ⟨w, a1, a2, a3⟩ := ih _ x (by omega) g3
      simp only [g2, a1]
      refine ⟨_, rfl, simple_of c0 o0 (.set _ _ a3) (fun hn => by rw [g1] at hn; cases hn) (fun v hv => ?_), wf_set_obj w0 a3⟩
      rw [g1] at hv; cases hv
      exact ⟨w, Dict.get?_set_self _ _ _, a2⟩

/-- The schema of a parameter or header. -/
theorem simpleSchema_built {c : Str} {d : Dict Json} {o : Obj} (h : Built (.cls c) (.obj d) o)
    (hp : plainFields c simpleKeywords = true)
    (hc : (Dict.get? (pkg c).children (s% "items")).map (fun cd => cd.builder) = some (.cls (s% "v2_0.Items"))) :
    ∃ r0 r, genFields o baseSchemaFields [] = .ok r0 ∧ putSimpleItems o r0 = .ok r ∧ SimpleTo d r ∧
      (Json.obj r).wf = true := by
  obtain ⟨r0, e0, c0, o0, w0⟩ := genFields_simple h hp
  refine ⟨r0, ?_⟩
  unfold putSimpleItems
  rcases built_kid_cls h hc with ⟨g1, g2, _⟩ | ⟨e, x, g1, g2, _, g3⟩
  · rw [g2]
    refine ⟨_, e0, rfl, simple_of c0 o0 (.refl _ _) (fun _ => o0 _ (by decide)) (fun v hv => by rw [g1] at hv; cases hv), w0⟩
  · obtain ⟨w, a1, a2, a3⟩ := fromItems_built _ _ x (Nat.le_refl _) g3
    simp only [g2, a1]
    refine ⟨_, e0, rfl, simple_of c0 o0 (.set _ _ a3) (fun hn => by rw [g1] at hn; cases hn) (fun v hv => ?_), wf_set_obj w0 a3⟩
    rw [g1] at hv; cases hv
    exact ⟨w, Dict.get?_set_self _ _ _, a2⟩

theorem simpleTo_empty {d r : Dict Json} (h : SimpleTo d r) : r.isEmpty = true ↔ ¬ Typed d := by
  cases h with
  | mk h1 h2 _ h4 =>
    constructor
    · intro he
      have hr : r = [] := by simpa using he
      subst hr
      rintro ⟨k, hk, hg⟩
      rcases List.mem_append.1 hk with hk | hk
      · exact hg (by rw [← h1 k hk]; rfl)
      · simp only [List.mem_singleton] at hk; subst hk; exact hg (h2.2 rfl)
    · intro hn
      cases r with
      | nil => rfl
      | cons kv r =>
        obtain ⟨k, v⟩ := kv
        have hg : Dict.get? ((k, v) :: r) k = some v := by rw [Dict.get?_cons, if_pos rfl]
        have hk := h4 k (by rw [hg]; simp)
        refine absurd ⟨k, hk, fun hd => ?_⟩ hn
        rcases List.mem_append.1 hk with hk | hk
        · rw [h1 k hk, hd] at hg; cases hg
        · simp only [List.mem_singleton] at hk; subst hk; rw [h2.1 hd] at hg; cases hg

/-! ### style -/

/-- The outcome of putting style and explode. -/
theorem get_putStyle (se : Option Str × Option Bool) (ret : Dict Json) (h1 : Dict.get? ret (s% "style") = none)
    (h2 : Dict.get? ret (s% "explode") = none) :
    Dict.get? (putStyle se ret) (s% "style") = se.1.map .str ∧
    Dict.get? (putStyle se ret) (s% "explode") = se.2.map .bool ∧
    (∀ k, k ≠ s% "style" → k ≠ s% "explode" → Dict.get? (putStyle se ret) k = Dict.get? ret k) ∧
    ((Json.obj ret).wf = true → (Json.obj (putStyle se ret)).wf = true) := by
  obtain ⟨a, b⟩ := se
  cases a <;> cases b <;> simp only [putStyle, Option.map_none, Option.map_some]
  · exact ⟨h1, h2, fun _ _ _ => trivial, id⟩
  · refine ⟨by rw [Dict.get?_set_ne _ _ (by decide)]; exact h1, Dict.get?_set_self _ _ _,
      fun k _ hk => Dict.get?_set_ne _ _ (Ne.symm hk), fun h => wf_set_obj h rfl⟩
  · refine ⟨Dict.get?_set_self _ _ _, by rw [Dict.get?_set_ne _ _ (by decide)]; exact h2,
      fun k hk _ => Dict.get?_set_ne _ _ (Ne.symm hk), fun h => wf_set_obj h rfl⟩
  · refine ⟨by rw [Dict.get?_set_ne _ _ (by decide)]; exact Dict.get?_set_self _ _ _, Dict.get?_set_self _ _ _,
      fun k hk hk' => ?_, fun h => wf_set_obj (wf_set_obj h rfl) rfl⟩
    rw [Dict.get?_set_ne _ _ (Ne.symm hk'), Dict.get?_set_ne _ _ (Ne.symm hk)]

theorem style_table {cf in_ : Str} {type_ : Json} {se : Option Str × Option Bool} {w : Wire} {r : Dict Json}
    (he : toStyleExplode (.str cf) (.str in_) type_ = .ok se) (hw : wire2 cf in_ = some w) (ht : cf ≠ s% "tsv")
    (hin : in_ ∈ [s% "query", s% "path", s% "header"]) (h1 : Dict.get? r (s% "style") = se.1.map .str)
    (h2 : Dict.get? r (s% "explode") = se.2.map .bool) : wireOf in_ r = some w := by
  unfold wireOf
  rw [h1, h2]
  unfold wire2 at hw
  rw [if_neg ht] at hw
  by_cases c1 : cf = s% "csv"
  · subst c1
    rw [if_pos rfl] at hw
    cases hw
    simp only [List.mem_cons, List.not_mem_nil, or_false] at hin
    rcases hin with rfl | rfl | rfl <;> cases he <;> decide
  rw [if_neg c1] at hw
  by_cases c2 : cf = s% "ssv"
  · subst c2
    cases hw
    unfold toStyleExplode at he
    rw [if_neg (by decide), if_pos rfl] at he
    split at he
    · cases he
    · cases he; rfl
  rw [if_neg c2] at hw
  by_cases c3 : cf = s% "pipes"
  · subst c3
    cases hw
    unfold toStyleExplode at he
    rw [if_neg (by decide), if_neg (by decide), if_pos rfl] at he
    split at he
    · cases he
    · cases he; rfl
  rw [if_neg c3] at hw
  split at hw
  · rename_i h
    obtain ⟨rfl, h⟩ := h
    cases hw
    rcases h with rfl | rfl
    · cases he; decide
    · exact absurd hin (by decide)
  · cases hw

/-- `collectionFormat` of a parameter or header. -/
theorem putCollection_built {c : Str} {d : Dict Json} {o : Obj} (h : Built (.cls c) (.obj d) o)
    (hp : plainFields c simpleKeywords = true)
    (hcf : (Dict.get? (pkg c).fields (s% "collectionFormat")).isSome = true) (in_ : Json) (ret : Dict Json)
    (h1 : Dict.get? ret (s% "style") = none) (h2 : Dict.get? ret (s% "explode") = none) :
    (BadStyle d in_ (look d (s% "type")) ∧ putCollection o in_ ret = .error .schemaError) ∨
    (¬ BadStyle d in_ (look d (s% "type")) ∧ ∃ ret', putCollection o in_ ret = .ok ret' ∧
      (∀ s, in_ = .str s → s ∈ [s% "query", s% "path", s% "header"] → StyleKept d s ret') ∧
      (Dict.get? d (s% "collectionFormat") = none →
        Dict.get? ret' (s% "style") = none ∧ Dict.get? ret' (s% "explode") = none) ∧
      (∀ k, k ≠ s% "style" → k ≠ s% "explode" → Dict.get? ret' k = Dict.get? ret k) ∧
      ((Json.obj ret).wf = true → (Json.obj ret').wf = true)) := by
  unfold putCollection
  rw [built_isSet h]
  simp only [bind, Except.bind]
  cases hg : Dict.get? d (s% "collectionFormat") with
  | none =>
    have hh : Dict.has d (s% "collectionFormat") = false := by simp [Dict.has, hg]
    rw [hh]
    refine .inr ⟨?_, ret, rfl, ?_, fun _ => ⟨h1, h2⟩, fun _ _ _ => rfl, id⟩
    · rintro ⟨h | h, _⟩ <;> rw [hg] at h <;> cases h
    · intro s _ _ cf w hcf; rw [hg] at hcf; cases hcf
  | some cf =>
    have hh : Dict.has d (s% "collectionFormat") = true := by simp [Dict.has, hg]
    have hcv : valOf c d (s% "collectionFormat") = cf := by
      unfold valOf
      obtain ⟨fd, hfd⟩ := Option.isSome_iff_exists.1 hcf
      rw [hfd, hg]; rfl
    rw [hh, if_pos rfl, built_fld h (plainFields_cls hp), built_fld h (plainFields_cls hp), hcv,
      plainFields_val hp (k := s% "type") (by decide) d]
    dsimp only
    have hbad : BadStyle d in_ (look d (s% "type")) ↔ ∃ e, toStyleExplode cf in_ (look d (s% "type")) = .error e := by
      rw [toStyleExplode_error, BadStyle, hg]; simp
    cases he : toStyleExplode cf in_ (look d (s% "type")) with
    | error e =>
      have := toStyleExplode_schemaError he
      subst this
      exact .inl ⟨hbad.2 ⟨_, he⟩, rfl⟩
    | ok se =>
      obtain ⟨p1, p2, p3, p4⟩ := get_putStyle se ret h1 h2
      refine .inr ⟨fun hb => ?_, _, rfl, ?_, (fun hn => by cases hn), p3, p4⟩
      · obtain ⟨e, he'⟩ := hbad.1 hb
        rw [he] at he'; cases he'
      · rintro s rfl hs cf' w hcf' ht hw
        rw [hg] at hcf'
        cases hcf'
        exact style_table he hw ht hs p1 p2

theorem toParameter_built {d : Dict Json} {o : Obj} (h : Built (.cls (s% "v2_0.Parameter")) (.obj d) o) :
    (BadStyle d (look d (s% "in")) (look d (s% "type")) ∧ toParameter o = .error .schemaError) ∨
    (¬ BadStyle d (look d (s% "in")) (look d (s% "type")) ∧
      ∃ r, toParameter o = .ok (.obj r) ∧ ParamTo d r ∧ (Json.obj r).wf = true) := by
  have hk : plainFields (s% "v2_0.Parameter") ([s% "description", s% "required", s% "allowEmptyValue", s% "in",
    s% "name"] ++ simpleKeywords) = true := by decide +kernel
  have hpc := plainFields_cls hk
  obtain ⟨r0, e0, c0, o0, w0⟩ := genFields_copied (ks := [s% "description", s% "required", s% "allowEmptyValue"]) h
    (by decide +kernel) [] (by simp)
  obtain ⟨s0, s1, e1, e2, st, w1⟩ := simpleSchema_built h (by decide +kernel) (by decide +kernel)
  have hin : fld o (s% "in") = .ok (look d (s% "in")) := by
    rw [built_fld h hpc, plainFields_val hk (by decide)]
  have hname : fld o (s% "name") = .ok (look d (s% "name")) := by
    rw [built_fld h hpc, plainFields_val hk (by decide)]
  have wn : (look d (s% "name")).wf = true := by
    have := valOf_wf (c := s% "v2_0.Parameter") h.wf (s% "name"); rwa [plainFields_val hk (by decide)] at this
  have wi : (look d (s% "in")).wf = true := by
    have := valOf_wf (c := s% "v2_0.Parameter") h.wf (s% "in"); rwa [plainFields_val hk (by decide)] at this
  unfold toParameter
  simp only [e0, hin, hname, e1, e2, bind, Except.bind]
  generalize hr1 : (if s1.isEmpty = true then r0 else Dict.set r0 (s% "schema") (.obj s1)) = r1
  have g0 : ∀ k, k ∉ [s% "description", s% "required", s% "allowEmptyValue"] → Dict.get? r0 k = none := by
    intro k hk; rw [o0 k hk]; rfl
  have w1' : (Json.obj r1).wf = true := by
    rw [← hr1]; split
    · exact w0 rfl
    · exact wf_set_obj (w0 rfl) w1
  have g1 : ∀ k, k ≠ s% "schema" → Dict.get? r1 k = Dict.get? r0 k := by
    intro k hk; rw [← hr1]; split
    · rfl
    · exact Dict.get?_set_ne _ _ (Ne.symm hk)
  have gs : (¬ Typed d → Dict.get? r1 (s% "schema") = none) ∧
      (Typed d → Dict.get? r1 (s% "schema") = some (.obj s1)) := by
    refine ⟨fun hn => ?_, fun ht => ?_⟩
    · rw [← hr1, if_pos ((simpleTo_empty st).2 hn)]; exact g0 _ (by decide)
    · rw [← hr1, if_neg (fun he => (simpleTo_empty st).1 he ht)]; exact Dict.get?_set_self _ _ _
  generalize hr2 : Dict.set (Dict.set r1 (s% "name") (look d (s% "name"))) (s% "in") (look d (s% "in")) = r2
  have g2 : ∀ k, k ≠ s% "name" → k ≠ s% "in" → Dict.get? r2 k = Dict.get? r1 k := by
    intro k k1 k2; rw [← hr2, Dict.get?_set_ne _ _ (Ne.symm k2), Dict.get?_set_ne _ _ (Ne.symm k1)]
  have w2 : (Json.obj r2).wf = true := by rw [← hr2]; exact wf_set_obj (wf_set_obj w1' wn) wi
  rcases putCollection_built h (by decide +kernel) (by decide +kernel) (look d (s% "in")) r2
    (by rw [g2 _ (by decide) (by decide), g1 _ (by decide)]; exact g0 _ (by decide))
    (by rw [g2 _ (by decide) (by decide), g1 _ (by decide)]; exact g0 _ (by decide)) with
    ⟨hb, he⟩ | ⟨hb, r3, he, k1, k2, k3, k4⟩
  · simp only [he]; exact .inl ⟨hb, trivial⟩
  · simp only [he]
    refine .inr ⟨hb, r3, rfl, ⟨fun k hk' => ?_, ?_, ?_, fun hn => ?_, fun ht => ⟨s1, ?_, st⟩, fun s hs => ?_, k2, fun k hk' => ?_⟩,
      k4 w2⟩
    · have hne : k ≠ s% "style" ∧ k ≠ s% "explode" ∧ k ≠ s% "name" ∧ k ≠ s% "in" ∧ k ≠ s% "schema" := by
        revert hk'; revert k; decide
      rw [k3 k hne.1 hne.2.1, g2 k hne.2.2.1 hne.2.2.2.1, g1 k hne.2.2.2.2]
      exact c0 k hk'
    · rw [k3 _ (by decide) (by decide), ← hr2, Dict.get?_set_ne _ _ (by decide)]; exact Dict.get?_set_self _ _ _
    · rw [k3 _ (by decide) (by decide), ← hr2]; exact Dict.get?_set_self _ _ _
    · rw [k3 _ (by decide) (by decide), g2 _ (by decide) (by decide)]; exact gs.1 hn
    · rw [k3 _ (by decide) (by decide), g2 _ (by decide) (by decide)]; exact gs.2 ht
    · exact k1 s (by unfold look; rw [hs]; rfl)
    · refine Decidable.byContradiction (fun hn => hk' ?_)
      simp only [List.mem_cons, List.not_mem_nil, or_false, not_or] at hn
      obtain ⟨n1, n2, n3, n4, n5, n6, n7, n8⟩ := hn
      rw [k3 k n7 n8, g2 k n4 n5, g1 k n6]
      exact g0 k (by simp [n1, n2, n3])

theorem toHeader_built {d : Dict Json} {o : Obj} (h : Built (.cls (s% "v2_0.Header")) (.obj d) o) :
    (BadStyle d (.str (s% "header")) (look d (s% "type")) ∧ toHeader o = .error .schemaError) ∨
    (¬ BadStyle d (.str (s% "header")) (look d (s% "type")) ∧
      ∃ r, toHeader o = .ok (.obj r) ∧ HeaderTo d r ∧ (Json.obj r).wf = true) := by
  obtain ⟨r0, e0, c0, o0, w0⟩ := genFields_copied (ks := [s% "description"]) h (by decide +kernel) [] (by simp)
  obtain ⟨s0, s1, e1, e2, st, w1⟩ := simpleSchema_built h (by decide +kernel) (by decide +kernel)
  unfold toHeader
  simp only [e0, e1, e2, bind, Except.bind]
  have g0 : ∀ k, k ∉ [s% "description"] → Dict.get? r0 k = none := by
    intro k hk; rw [o0 k hk]; rfl
  rcases putCollection_built h (by decide +kernel) (by decide +kernel) (.str (s% "header"))
    (Dict.set r0 (s% "schema") (.obj s1))
    (by rw [Dict.get?_set_ne _ _ (by decide)]; exact g0 _ (by decide))
    (by rw [Dict.get?_set_ne _ _ (by decide)]; exact g0 _ (by decide)) with
    ⟨hb, he⟩ | ⟨hb, r3, he, k1, k2, k3, k4⟩
  · simp only [he]; exact .inl ⟨hb, trivial⟩
  · simp only [he]
    refine .inr ⟨hb, r3, rfl, ⟨fun k hk' => ?_, ⟨s1, ?_, st⟩, k1 _ rfl (by decide), k2, fun k hk' => ?_⟩,
      k4 (wf_set_obj (w0 rfl) w1)⟩
    · have hne : k ≠ s% "style" ∧ k ≠ s% "explode" ∧ k ≠ s% "schema" := by
        revert hk'; revert k; decide
      rw [k3 k hne.1 hne.2.1, Dict.get?_set_ne _ _ (Ne.symm hne.2.2)]
      exact c0 k hk'
    · rw [k3 _ (by decide) (by decide)]; exact Dict.get?_set_self _ _ _
    · refine Decidable.byContradiction (fun hn => hk' ?_)
      simp only [List.mem_cons, List.not_mem_nil, or_false, not_or] at hn
      obtain ⟨n1, n2, n3, n4⟩ := hn
      rw [k3 k n3 n4, Dict.get?_set_ne _ _ (Ne.symm n2)]
      exact g0 k (by simp [n1])

end Pyopenapi
