import Verif.Lemmas.MainEnv
import Verif.Lemmas.RefHas
import Verif.Props.ConvReloc
import Verif.Props.ConvLoads

/-!
# Where the entries of a document are after its conversion
-/

namespace Pyopenapi.Main
open _root_.Pyopenapi.Spec _root_.Pyopenapi.Refs.Spec Obj Conv

variable {W : Type}

/-- The sections of the components a conversion fills with what can be referred to. -/
def places : List Str := [s% "schemas", s% "responses", s% "parameters", s% "requestBodies"]

theorem component_at {r c m : Dict Json} {x n : Str} {w : Json} {q : Option Str} {o3 : Obj}
    (hb : build pkg (.cls (s% "v3_0_0.OpenApi")) (.obj r) q [] = .ok o3) (hx : x ∈ places)
    (h1 : Dict.get? r (s% "components") = some (.obj c)) (h2 : Dict.get? c x = some (.obj m)) (h3 : Dict.get? m n = some w) :
    ∃ p y, build pkg (.ifNotRef (s% "v3_0_0.Reference") (.cls (sectionClass x))) w p [] = .ok y ∧ At o3 [s% "components", x, n] y := by
  have key : ∀ x ∈ places, (Dict.get? (pkg (s% "v3_0_0.Components")).children x).map (fun cd => cd.builder) =
      some (.mapOf (.ifNotRef (s% "v3_0_0.Reference") (.cls (sectionClass x)))) := by decide +kernel
  obtain ⟨cd, hcd, hcb⟩ := Option.map_eq_some_iff.1 (key x hx)
  have hre : Reach pkg (.cls (s% "v3_0_0.OpenApi")) (.obj r) [s% "components", x, n]
      (.ifNotRef (s% "v3_0_0.Reference") (.cls (sectionClass x))) w := by
    refine .child (cd := { builder := .cls (s% "v3_0_0.Components") }) (by decide +kernel) h1 (by simp) (.child hcd h2 (by simp) ?_)
    rw [hcb]
    exact .item h3 .here
  obtain ⟨y, hy, hby⟩ := C25_resolve okTable_pkg hre (by rfl) (by rfl) q o3 hb
  refine ⟨_, y, hby, hy, ?_⟩
  rw [build_ifNotRef] at hby
  split at hby
  · cases hby
  · obtain ⟨_, rfl⟩ := Refs.build_class hby; rfl
  · obtain ⟨_, rfl⟩ := Refs.build_class hby; rfl

/-- An entry of a section is moved to where its conversion is. -/
theorem entry_moved {env : Conv.Env} {refs : Refs} (he : EnvOk refs env) {d : Dict Json} {o : Obj}
    (h : Built (.cls (s% "v2_0.Swagger")) (.obj d) o) (hres : DocResolves refs d) (hv : NamedValid d) (hnames : NamesOk d)
    {r : Dict Json} {rl : Routes} (hr : toOpenapi env o = .ok (r, rl)) {q : Option Str} {o3 : Obj}
    (hb : build pkg (.cls (s% "v3_0_0.OpenApi")) (.obj r) q [] = .ok o3) {sec n : Str} {w : Json}
    (hsec : sec ∈ [s% "definitions", s% "parameters", s% "responses"]) (hw : Dict.get? (objAt d sec) n = some w) :
    ∃ x w' p y, x ∈ places ∧ EntryTo d sec x w w' ∧
      build pkg (.ifNotRef (s% "v3_0_0.Reference") (.cls (sectionClass x))) w' p [] = .ok y ∧
      At o3 [s% "components", x, n] y ∧
      patchJp (pointer [sec, n]) [(['#'], .nested rl)] = pointer [s% "components", x, n] := by
  obtain ⟨hd, _, url', B, pr, _, _, hB, hrl, _⟩ := toOpenapi_built he h hres hv hr
  obtain ⟨c, hc, hc'⟩ := hd.2.2.2.2.2.2.1
  have comp : ∀ {x : Str} {m : Dict Json} {w' : Json}, x ∈ places → Dict.get? c x = some (.obj m) → Dict.get? m n = some w' →
      ∃ p y, build pkg (.ifNotRef (s% "v3_0_0.Reference") (.cls (sectionClass x))) w' p [] = .ok y ∧
        At o3 [s% "components", x, n] y := by
    intro x m w' hx h2 h3
    have hne : c ≠ [] := fun e => by rw [e] at h2; cases h2
    rw [if_neg hne] at hc'
    exact component_at hb hx hc' h2 h3
  simp only [List.mem_cons, List.not_mem_nil, or_false] at hsec
  rcases hsec with rfl | rfl | rfl
  · obtain ⟨m, m1, m2⟩ := hc.1.2 (objAt_ne hw)
    obtain ⟨w', hy, hP⟩ := entriesTo_lookup m2 hw
    obtain ⟨p, y, hy1, hy2⟩ := comp (by simp [places]) m1 hy
    exact ⟨s% "schemas", w', p, y, by simp [places], .inl ⟨rfl, rfl, hP⟩, hy1, hy2,
      relocated_iff.1 ((C54_definitions he d o h hres hv r rl hr [] n w hw []).1)⟩
  · obtain ⟨h1, _⟩ := kid_objAt h (k := s% "parameters") (b := .cls (s% "v2_0.Parameter")) (by decide +kernel)
    obtain ⟨⟨_, po⟩, _, _, hpo⟩ := forall₂_mem_left h1 (Dict.mem_of_get? hw)
    obtain ⟨e, rfl⟩ := built_obj hpo
    obtain ⟨h0, hb1, hb2⟩ := hnames n e hw
    have hnd : Dict.NodupKeys (objAt d (s% "parameters")) := (doc_params he h hres hv hr (objAt_ne hw)).2.2.1
    by_cases hp : Part.isPlain ⟨e, none⟩ = true
    · have hg := paramsWhere_get (p := Part.isPlain) hw hp hnd
      obtain ⟨m, m1, m2⟩ := (hc.2.1 _ rfl).2 (by intro hx; rw [hx] at hg; cases hg)
      obtain ⟨w', hy, hP⟩ := entriesTo_lookup m2 hg
      obtain ⟨p, y, hy1, hy2⟩ := comp (by simp [places]) m1 hy
      have hnb : ¬ BodyNamed d n := by
        rintro ⟨e', g1, g2⟩
        rw [hw] at g1
        cases g1
        rw [hp] at g2; cases g2
      exact ⟨s% "parameters", w', p, y, by simp [places], .inr (.inr (.inl ⟨rfl, rfl, hP⟩)), hy1, hy2,
        relocated_iff.1 ((C55_plain_partial he d o h hres hv r rl hr [] n e hw hp h0 (fun k hk _ => hb2 hnb k hk)).1)⟩
    · have hp : Part.isPlain ⟨e, none⟩ = false := by simpa using hp
      have hg := paramsWhere_get (p := fun f => !f.isPlain) hw (by simp [hp]) hnd
      obtain ⟨m, m1, m2⟩ := (hc.2.2.1 _ rfl).2 (by intro hx; rw [hx] at hg; cases hg)
      obtain ⟨w', hy, hP⟩ := entriesTo_lookup m2 hg
      obtain ⟨p, y, hy1, hy2⟩ := comp (by simp [places]) m1 hy
      exact ⟨s% "requestBodies", w', p, y, by simp [places], .inr (.inr (.inr ⟨rfl, rfl, hP⟩)), hy1, hy2,
        relocated_iff.1 ((C55_body_partial he d o h hres hv r rl hr [] n e hw hp h0 (hb1 ⟨e, hw, hp⟩)).1)⟩
  · obtain ⟨h1, _⟩ := kid_objAt h (k := s% "responses") (b := .cls (s% "v2_0.Response")) (by decide +kernel)
    obtain ⟨⟨_, po⟩, _, _, hpo⟩ := forall₂_mem_left h1 (Dict.mem_of_get? hw)
    obtain ⟨e, rfl⟩ := built_obj hpo
    obtain ⟨m, m1, m2⟩ := hc.2.2.2.1.2 (objAt_ne hw)
    obtain ⟨w', hy, hP⟩ := entriesTo_lookup m2 hw
    obtain ⟨p, y, hy1, hy2⟩ := comp (by simp [places]) m1 hy
    exact ⟨s% "responses", w', p, y, by simp [places], .inr (.inl ⟨rfl, rfl, hP⟩), hy1, hy2,
      relocated_iff.1 ((C54_responses he d o h hres hv r rl hr [] n e hw).1 [])⟩

/-- The pointer stays one that stands in a url as it is. -/
theorem safe_moved {sec n x : Str} (h : Safe [sec, n]) (hx : x ∈ places) : Safe [s% "components", x, n] := by
  intro ch hc
  have hx' : escape x = x := (show ∀ x ∈ places, escape x = x by decide) x hx
  rw [pointer_components hx'] at hc
  have hc := (List.mem_append.1 hc).imp_right (fun h => (List.mem_append.1 h).imp_right List.mem_cons.1)
  have h1 : ∀ ch ∈ s% "#/components/", Url.unsafeChar ch = false := by decide
  have h2 : ∀ x ∈ places, ∀ ch ∈ x, Url.unsafeChar ch = false := by decide
  rcases hc with hc | hc | hc | hc
  · exact h1 ch hc
  · exact h2 x hx ch hc
  · subst hc; decide
  · refine h ch ?_
    simp only [pointer, List.flatMap_cons, List.flatMap_nil, List.mem_cons, List.mem_append]
    exact .inr (.inr (.inl (.inr hc)))

end Pyopenapi.Main
