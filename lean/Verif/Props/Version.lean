import Verif.Lemmas.Version
import Verif.Lemmas.Dict

/-! # C14, C15: version detection and ordering -/

namespace Pyopenapi
open Str

namespace Spec
/-- A numeric version: major, minor, optional patch. -/
abbrev Ver := Nat × Nat × Option Nat

/-- The components joined by `sep`. -/
def verText (sep : Char) : Ver → Str
  | (a, b, none) => Str.ofNat a ++ sep :: Str.ofNat b
  | (a, b, some c) => Str.ofNat a ++ sep :: (Str.ofNat b ++ sep :: Str.ofNat c)

/-- Numeric order, a missing patch level counting as 0. -/
def verLe (x y : Ver) : Prop :=
  x.1 < y.1 ∨ x.1 = y.1 ∧ (x.2.1 < y.2.1 ∨ x.2.1 = y.2.1 ∧ x.2.2.getD 0 ≤ y.2.2.getD 0)
end Spec

/-- C14: `swaggerVersion` if present, else `swagger`, else `openapi`, else None. -/
theorem C14_version_detection (d : Dict Json) :
    (∀ v, Dict.get? d (s% "swaggerVersion") = some v → getSwaggerVersion d = v) ∧
    (Dict.get? d (s% "swaggerVersion") = none →
      (∀ v, Dict.get? d (s% "swagger") = some v → getSwaggerVersion d = v) ∧
      (Dict.get? d (s% "swagger") = none →
        (∀ v, Dict.get? d (s% "openapi") = some v → getSwaggerVersion d = v) ∧
        (Dict.get? d (s% "openapi") = none → getSwaggerVersion d = .null))) := by
  refine ⟨?_, ?_⟩
  · intro v h; simp [getSwaggerVersion, Dict.has, h]
  · intro h1
    refine ⟨?_, ?_⟩
    · intro v h; simp [getSwaggerVersion, Dict.has, h, h1]
    · intro h2
      refine ⟨?_, ?_⟩
      · intro v h; simp [getSwaggerVersion, Dict.has, h, h1, h2]
      · intro h; simp [getSwaggerVersion, Dict.has, h, h1, h2]

example : getSwaggerVersion [(s% "openapi", .str (s% "3.0.0")), (s% "swagger", .str (s% "2.0"))] =
    .str (s% "2.0") := by decide

theorem replace_underscore (v : Spec.Ver) :
    Str.replace (Spec.verText '_' v) ['_'] ['.'] = Spec.verText '.' v := by
  have hd : ∀ n, (Str.ofNat n).flatMap (fun x => if x = '_' then ['.'] else [x]) = Str.ofNat n := by
    intro n
    have : ∀ l : Str, '_' ∉ l → l.flatMap (fun x => if x = '_' then ['.'] else [x]) = l := by
      intro l
      induction l with
      | nil => simp
      | cons c cs ih =>
        intro h
        simp only [List.mem_cons, not_or] at h
        simp [Ne.symm h.1, ih h.2]
    exact this _ (not_mem_ofNat (by decide))
  unfold Str.replace
  rw [replaceGo_one]
  obtain ⟨a, b, c⟩ := v
  cases c <;> simp [Spec.verText, hd]

theorem parseVersion_text (v : Spec.Ver) :
    parseVersion (Spec.verText '.' v) = .ok ⟨v.1, v.2.1, v.2.2.getD 0, none⟩ := by
  obtain ⟨a, b, c⟩ := v
  have hn : ∀ n, '.' ∉ Str.ofNat n := fun n => not_mem_ofNat (by decide)
  cases c with
  | none =>
    simp only [parseVersion, Spec.verText]
    rw [splitC_append, splitC_of_not_mem (hn a), splitC_of_not_mem (hn b)]
    simp [digits?_ofNat, lastComp?_ofNat]
  | some c =>
    simp only [parseVersion, Spec.verText]
    rw [splitC_append, splitC_append, splitC_of_not_mem (hn a), splitC_of_not_mem (hn b),
      splitC_of_not_mem (hn c)]
    simp [digits?_ofNat, lastComp?_ofNat]

theorem strictVersion_not_lt_iff (x y : Spec.Ver) :
    StrictVersion.lt ⟨y.1, y.2.1, y.2.2.getD 0, none⟩ ⟨x.1, x.2.1, x.2.2.getD 0, none⟩ = false ↔
      Spec.verLe x y := by
  unfold StrictVersion.lt Spec.verLe
  simp only [ne_eq, ite_not]
  generalize x.2.2.getD 0 = x3
  generalize y.2.2.getD 0 = y3
  obtain ⟨x1, x2, _⟩ := x
  obtain ⟨y1, y2, _⟩ := y
  simp only
  by_cases h1 : y1 = x1
  · subst h1
    by_cases h2 : y2 = x2
    · subst h2
      by_cases h3 : y3 = x3
      · subst h3; simp
      · simp only [h3, if_true, if_false, decide_eq_false_iff_not, true_and]; omega
    · simp only [h2, if_true, if_false, decide_eq_false_iff_not, true_and]; omega
  · simp only [h1, if_false, decide_eq_false_iff_not]; omega

theorem mapM_parse (vs : List Spec.Ver) :
    (vs.map (Spec.verText '.')).mapM (m := Except Err)
      (fun v => do let k ← parseVersion v; pure (k, v)) =
    .ok (vs.map (fun v => (⟨v.1, v.2.1, v.2.2.getD 0, none⟩, Spec.verText '.' v))) := by
  induction vs with
  | nil => rfl
  | cons v vs ih =>
    rw [List.map_cons, List.mapM_cons, parseVersion_text, ih]
    rfl

theorem insertBy_map {α β : Type} (f : α → β) (lt : β → β → Bool) (x : α) (l : List α) :
    insertBy lt (f x) (l.map f) = (insertBy (fun a b => lt (f a) (f b)) x l).map f := by
  induction l with
  | nil => rfl
  | cons y ys ih =>
    simp only [List.map_cons, insertBy]
    split
    · simp
    · simp [ih]

theorem sortBy_map {α β : Type} (f : α → β) (lt : β → β → Bool) (l : List α) :
    sortBy lt (l.map f) = (sortBy (fun a b => lt (f a) (f b)) l).map f := by
  unfold sortBy
  have : ∀ (l acc : List α), (l.map f).foldl (fun acc x => insertBy lt x acc) (acc.map f) =
      (l.foldl (fun acc x => insertBy (fun a b => lt (f a) (f b)) x acc) acc).map f := by
    intro l
    induction l with
    | nil => intro acc; rfl
    | cons x xs ih => intro acc; simp only [List.map_cons, List.foldl_cons, insertBy_map, ih]
  simpa using this l []

/-- C15: when every package whose name starts with `v` is named `v<major>_<minor>[_<patch>]`, the
supported versions are exactly those, written with dots, each as often as listed, in numeric
order; other names are skipped. -/
theorem C15_supported_versions_sorted (names : List Str)
    (h : ∀ n ∈ names, Str.startsWith n ['v'] = true → ∃ v, n = 'v' :: Spec.verText '_' v) :
    ∃ vs : List Spec.Ver, getSupportedVersions names = .ok (vs.map (Spec.verText '.')) ∧
      vs.Pairwise Spec.verLe ∧
      (vs.map (fun v => 'v' :: Spec.verText '_' v)).Perm
        (names.filter (fun n => Str.startsWith n ['v'])) := by
  have hex : ∃ ws : List Spec.Ver, ws.map (fun v => 'v' :: Spec.verText '_' v) =
      names.filter (fun n => Str.startsWith n ['v']) := by
    induction names with
    | nil => exact ⟨[], rfl⟩
    | cons n ns ih =>
      obtain ⟨ws, hws⟩ := ih (fun m hm => h m (by simp [hm]))
      by_cases hn : Str.startsWith n ['v'] = true
      · obtain ⟨v, rfl⟩ := h n (by simp) hn
        refine ⟨v :: ws, ?_⟩
        simp only [List.map_cons, hws, List.filter_cons, hn, if_true]
      · exact ⟨ws, by simp [List.filter_cons, hn, hws]⟩
  obtain ⟨ws, hws⟩ := hex
  let key : Spec.Ver → StrictVersion := fun v => ⟨v.1, v.2.1, v.2.2.getD 0, none⟩
  refine ⟨sortBy (fun a b => StrictVersion.lt (key a) (key b)) ws, ?_, ?_, ?_⟩
  · unfold getSupportedVersions
    have hm : (names.filter (fun n => Str.startsWith n ['v'])).map
        (fun v => Str.replace (v.drop 1) ['_'] ['.']) = ws.map (Spec.verText '.') := by
      rw [← hws, List.map_map]
      apply List.map_congr_left
      intro v _
      exact replace_underscore v
    simp only [hm]
    rw [mapM_parse]
    simp only [bind, Except.bind, pure, Except.pure]
    rw [sortBy_map, List.map_map]
    rfl
  · have hsw : StrictWeak (fun a b : Spec.Ver => StrictVersion.lt (key a) (key b)) :=
      ⟨fun a b => StrictVersion.lt_strictWeak.asymm _ _,
        fun a b c => StrictVersion.lt_strictWeak.negtrans _ _ _⟩
    exact (sortBy_sorted hsw ws).imp (fun {a b} hab => (strictVersion_not_lt_iff a b).1 hab)
  · rw [← hws]
    exact (sortBy_perm _ ws).map _

/-- C15: a package name with another shape makes the function raise. -/
theorem C15_malformed_raises :
    getSupportedVersions [s% "v1_2", s% "vx"] = .error .valueError := by decide +kernel

example : getSupportedVersions [s% "v10_0", s% "v2_0", s% "base", s% "v1_2", s% "v3_0_0"] =
    .ok [s% "1.2", s% "2.0", s% "3.0.0", s% "10.0"] := by decide +kernel

end Pyopenapi
