import Verif.Props.Moved
import Verif.Props.AloneExample

/-!
# Instances of C106, and where it is false
-/

namespace Pyopenapi.Main
open _root_.Pyopenapi.Spec _root_.Pyopenapi.Refs.Spec Obj Conv

/-- The content that stands for the schema `s` of the response `k` of the operation `m`. -/
def ContentIn (m k : Str) (r content : Dict Json) : Prop :=
  ∃ x rs y, Dict.get? r m = some (.obj x) ∧ Dict.get? x (s% "responses") = some (.obj rs) ∧ Dict.get? rs k = some (.obj y) ∧
    Dict.get? y (s% "content") = some (.obj content)

theorem entries_get {P : Json → Json → Prop} {d r : Dict Json} (h : EntriesTo P d r) {k : Str} {x : Json}
    (hx : Dict.get? d k = some x) : ∃ y, Dict.get? r k = some y ∧ P x y := by
  unfold EntriesTo at h
  induction h with
  | nil => cases hx
  | @cons a b d r hab _ ih =>
    obtain ⟨k1, v1⟩ := a
    obtain ⟨k2, v2⟩ := b
    obtain ⟨rfl, h2⟩ := hab
    simp only [Dict.get?] at hx ⊢
    split at hx
    · rename_i hk
      cases hx
      rw [if_pos hk]
      exact ⟨_, rfl, h2⟩
    · rename_i hk
      rw [if_neg hk]
      exact ih hx

/-- The media types of a response of a converted path item: those of its operation, or those that the converter is given. -/
theorem content_of {refs : Spec.Refs} {produces : List Str} {d r : Dict Json} (h : PathItemTo refs produces d r) {m k : Str}
    {e q : Dict Json} (hm : (m, e) ∈ opsOf d) (hk : Dict.get? (objAt e (s% "responses")) k = some (.obj q))
    (hn : Dict.get? q (s% "$ref") = none) {s : Json} (hs : given q (s% "schema") = some s) (hf : ¬ IsFile s) :
    ∃ content, ContentIn m k r content ∧ ContentTo (ownOr e (s% "produces") produces) s content := by
  obtain ⟨m', hm', he⟩ := List.mem_filterMap.1 (show (m, e) ∈ List.filterMap _ _ from hm)
  have : m' = m ∧ Dict.get? d m = some (.obj e) := by
    revert he
    cases hg : Dict.get? d m' with
    | none => intro h; cases h
    | some v =>
      cases v <;> intro h <;> first | (cases h; done) | (cases h; exact ⟨rfl, hg⟩)
  obtain ⟨rfl, hd⟩ := this
  obtain ⟨e', y, h0, hy, x, rfl, hx⟩ := (h.1 m' hm').2 _ (given_some.2 ⟨hd, by simp⟩)
  cases h0
  have hne : objAt e (s% "responses") ≠ [] := by
    intro h0; rw [h0] at hk; cases hk
  obtain ⟨rs, h2, h3⟩ := hx.2.2.2.2.1.2 hne
  obtain ⟨z, h4, h5⟩ := entries_get h3 hk
  simp only [behind, hn] at h5
  obtain ⟨w, rfl, _, h6⟩ := h5
  obtain ⟨content, h7, h8, _⟩ := (h6 (.inl rfl)).2.2.1 s hs
  exact ⟨content, ⟨x, rs, w, hy, h2, h4, h7⟩, h8 hf⟩

/-- **C106** is false of path items that leave their media types to the document: read from a document of its own, the path item
`lonePath` says `text/plain` for the response of its operation; as a part of a document that produces `application/xml`, it says
`application/xml`. -/
theorem C106_media_violation :
    (∃ a1 r o3 a2 content,
      App.loadObj (application loneOut 1) lonePath.ref (some (fun j path w => (build pkg (.cls lonePath.cls) j (some path) [], w))) false (opened []) =
        (.ok lonePath.obj, a1) ∧
      App.migrateObj (application loneOut 1) lonePath.obj lonePath.ref (s% "3.0.0") a1 = (.ok o3, a2) ∧
      build pkg (.cls (s% "v3_0_0.PathItem")) (.obj r) (some (pointer lonePath.place)) [] = .ok o3 ∧
      ContentIn (s% "post") (s% "200") r content ∧ ∀ t, Dict.get? content t ≠ none ↔ t = s% "text/plain") ∧
    ∀ (refs : Spec.Refs) (env : Env) (root : Str) (consumes : List Str) (r : Dict Json) (rl : Routes), EnvOk refs env →
      toPathItem env lonePath.obj root consumes [s% "application/xml"] = .ok (r, rl) →
      ∃ content, ContentIn (s% "post") (s% "200") r content ∧ ∀ t, Dict.get? content t ≠ none ↔ t = s% "application/xml" := by
  have hf : ¬ IsFile (.obj [(s% "type", .str (s% "string"))]) := by
    rintro ⟨e, he, ht⟩
    cases he
    exact absurd ht (by decide)
  constructor
  · obtain ⟨a1, c3, r, o3, a2, h1, h2, h3, h4, _⟩ := C87_example
    rcases h3 with ⟨h, _⟩ | ⟨h, _⟩ | ⟨h, _⟩ | ⟨_, rfl, h3, _⟩
    · exact absurd h (by decide)
    · exact absurd h (by decide)
    · exact absurd h (by decide)
    · obtain ⟨content, g1, x, _, g2⟩ := content_of (m := s% "post") (k := s% "200") (e := lonePost) h3 (by decide) rfl rfl rfl hf
      refine ⟨a1, r, o3, a2, content, h1, h2, h4, g1, fun t => ?_⟩
      rw [g2]
      show (if t ∈ [s% "text/plain"] then _ else _) ≠ none ↔ _
      by_cases ht : t = s% "text/plain"
      · simp [ht]
      · rw [if_neg (by simpa using ht)]
        simp [ht]
  · intro refs env root consumes r rl he hr
    have hb : Built (.cls (s% "v2_0.PathItem")) (.obj loneItem) lonePath.obj :=
      ⟨regularB_sound 30 _ _ (by decide +kernel), by decide +kernel, _, lonePath_good.built⟩
    have hres : PathResolves refs loneItem := by
      refine ⟨(fun j hj => by cases hj), fun p hp => ?_⟩
      rcases lone_ops p hp with rfl | rfl
      · refine ⟨fun j hj d v hd hv => ?_, fun kv hkv d v hd hv => ?_⟩
        · have : j ∈ [Json.obj loneQ] := hj
          rw [List.mem_singleton] at this
          subst this
          cases hd
          cases hv
        · have : kv ∈ [(s% "200", Json.obj [(s% "description", .str (s% "ok"))])] := hkv
          rw [List.mem_singleton] at this
          subst this
          cases hd
          cases hv
      · refine ⟨fun j hj d v hd hv => ?_, fun kv hkv d v hd hv => ?_⟩
        · have : j ∈ [Json.obj loneB] := hj
          rw [List.mem_singleton] at this
          subst this
          cases hd
          cases hv
        · have : kv ∈ [(s% "200", Json.obj [(s% "description", .str (s% "ok")), (s% "schema", .obj [(s% "type", .str (s% "string"))])])] := hkv
          rw [List.mem_singleton] at this
          subst this
          cases hd
          cases hv
    have h3 := C53_path_item he loneItem _ hb hres root consumes _ r rl hr
    obtain ⟨content, g1, x, _, g2⟩ := content_of (m := s% "post") (k := s% "200") (e := lonePost) h3 (by decide) rfl rfl rfl hf
    refine ⟨content, g1, fun t => ?_⟩
    rw [g2]
    show (if t ∈ [s% "application/xml"] then _ else _) ≠ none ↔ _
    by_cases ht : t = s% "application/xml"
    · simp [ht]
    · rw [if_neg (by simpa using ht)]
      simp [ht]

/-! A path item that meets the hypotheses of C106_moved_partial. -/

def roamPost : Dict Json := [(s% "consumes", .arr [.str (s% "text/json")]), (s% "produces", .arr [.str (s% "text/json")]), (s% "parameters", .arr [.obj loneB]),
  (s% "responses", .obj [(s% "200", .obj [(s% "description", .str (s% "ok")), (s% "schema", .obj [(s% "type", .str (s% "string"))])])])]
def roamGet : Dict Json := [(s% "parameters", .arr [.obj loneQ]), (s% "responses", .obj [(s% "200", .obj [(s% "description", .str (s% "ok"))])])]
def roamItem : Dict Json := [(s% "parameters", .arr [.obj loneQ]), (s% "get", .obj roamGet), (s% "post", .obj roamPost)]

theorem roam_ops : ∀ p ∈ opsOf roamItem, p = (s% "get", roamGet) ∨ p = (s% "post", roamPost) := by
  intro p hp
  have : p ∈ [(s% "get", roamGet), (s% "post", roamPost)] := hp
  simpa using this

theorem roam_saysAll : ItemSaysAll noRefs roamItem := by
  refine ⟨by decide, fun p hp => ?_⟩
  rcases roam_ops p hp with rfl | rfl
  · refine ⟨.inr (by decide), .inr (fun kv hkv s hs => ?_), rfl⟩
    have : kv ∈ [(s% "200", Json.obj [(s% "description", .str (s% "ok"))])] := hkv
    rw [List.mem_singleton] at this
    subst this
    cases hs
  · exact ⟨.inl (by decide), .inl (by decide), rfl⟩

theorem roam_resolves : PathResolves noRefs roamItem := by
  have hq : ∀ j ∈ [Json.obj loneQ], Spec.Resolves noRefs.param j := by
    intro j hj d v hd hv
    rw [List.mem_singleton] at hj
    subst hj
    cases hd
    cases hv
  have hb : ∀ j ∈ [Json.obj loneB], Spec.Resolves noRefs.param j := by
    intro j hj d v hd hv
    rw [List.mem_singleton] at hj
    subst hj
    cases hd
    cases hv
  refine ⟨hq, fun p hp => ?_⟩
  rcases roam_ops p hp with rfl | rfl
  · refine ⟨hq, fun kv hkv d v hd hv => ?_⟩
    have : kv ∈ [(s% "200", Json.obj [(s% "description", .str (s% "ok"))])] := hkv
    rw [List.mem_singleton] at this
    subst this
    cases hd
    cases hv
  · refine ⟨hb, fun kv hkv d v hd hv => ?_⟩
    have : kv ∈ [(s% "200", Json.obj [(s% "description", .str (s% "ok")), (s% "schema", .obj [(s% "type", .str (s% "string"))])])] := hkv
    rw [List.mem_singleton] at this
    subst this
    cases hd
    cases hv

example : ∃ o, Built (.cls (s% "v2_0.PathItem")) (.obj roamItem) o ∧
    toPathItem plainEnv o (s% "https://h/api") [s% "text/plain"] [s% "application/xml"] = toPathItem plainEnv o (s% "/") [] [] := by
  obtain ⟨o, _, h⟩ := built_exists (regularB_sound 9 (.cls (s% "v2_0.PathItem")) (.obj roamItem) (by decide +kernel)) (by decide +kernel) none
  exact ⟨o, h, C106_moved_partial plainEnv_ok roamItem o h roam_resolves roam_saysAll _ _ _ _ _ _⟩

end Pyopenapi.Main
