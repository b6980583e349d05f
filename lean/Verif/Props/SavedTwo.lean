import Verif.Spec.SavedTwo
import Verif.Props.Saved

/-!
# C113: a document of 2.0 that stays one can be saved
-/

namespace Pyopenapi.Main
open _root_.Pyopenapi.Spec _root_.Pyopenapi.Refs.Spec Obj

variable {W : Type}

mutual
theorem rewritten_asIs : ∀ o : Obj, rewritten asIs o = o
  | .prim _ => rfl
  | .base c p s kids => by rw [rewritten, rewrittenD_asIs kids]; rfl
  | .list b p s l => by rw [rewritten, rewrittenL_asIs l]
  | .map b p s d => by rw [rewritten, rewrittenD_asIs d]
theorem rewrittenL_asIs : ∀ l : List Obj, rewrittenL asIs l = l
  | [] => rfl
  | o :: l => by rw [rewrittenL, rewritten_asIs o, rewrittenL_asIs l]
theorem rewrittenD_asIs : ∀ l : List (Str × Obj), rewrittenD asIs l = l
  | [] => rfl
  | (k, o) :: l => by rw [rewrittenD, rewritten_asIs o, rewrittenD_asIs l]
end

theorem norm2_field {c : Str} (h : c ∈ Refs.normClasses2) : ∃ fd, (s% "$ref", fd) ∈ (pkg c).fields := by
  have key : ∀ c ∈ Refs.normClasses2, ((pkg c).fields.any fun q => q.1 == s% "$ref") = true := by decide +kernel
  have := key c h
  rw [List.any_eq_true] at this
  obtain ⟨⟨k, fd⟩, hm, hk⟩ := this
  have hk := eq_of_beq hk
  subst hk
  exact ⟨fd, hm⟩

theorem rewritable_two {o : Obj} {j : Json} {p : Option Str}
    (hb : build pkg (.cls (s% "v2_0.Swagger")) j p [] = .ok o) (hj : j.wf = true)
    (hl : Linked o Refs.normClasses2 [s% "v2_0.Reference"]) : Rewritable asIs o := by
  intro c q s kids hi h
  have hbase : o.isBase = true := by obtain ⟨_, rfl⟩ := Refs.build_class hb; rfl
  obtain ⟨ts, hv⟩ := inside_visited hbase hi rfl
  rcases h with h | h
  · have hc : c = s% "v2_0.Reference" := by
      rcases refClass_of h with h | rfl
      · exact h
      · obtain ⟨b, j', p', hb', _, hbuild⟩ := loaded_inside closed_v2 (T := pkg) (o := o) ⟨_, _, p, by decide, hj, hb⟩ hi
        obtain ⟨_, _, h3, _⟩ := build_inv closed_v2 hb' hbuild
        exact absurd h3 (by decide)
    subst hc
    obtain ⟨d, rfl, hd⟩ := hl ts _ q s kids hv (by decide)
    rcases hd with ⟨_, hd⟩ | ⟨t, us, y, hg, _⟩
    · exact absurd (List.mem_singleton.2 rfl) hd
    · exact ⟨_, said_some.2 ⟨d, rfl, hg, by simp⟩⟩
  · exact absurd rfl h

/-- What is said under `$ref` is said by the saved form. -/
theorem saved_said {c : Str} {q q' : Option Str} {s : Json} {d' : Dict Json} {kids kids' : Dict Obj}
    (hs : SavedAs asIs (.base c q s kids) (.base c q' (.obj d') kids')) (hc : c ∈ Refs.normClasses2) :
    Dict.get? d' (s% "$ref") = said (s% "$ref") s := by
  obtain ⟨fd, hm⟩ := norm2_field hc
  cases hs with
  | base h1 _ _ =>
    have h := h1 _ fd hm
    rwa [if_pos rfl] at h

/-- **C113** for documents of 2.0 (as in C86) that are not migrated further. -/
theorem C113_two {out : Outer W} {n : Nat} {w w' : W} {url : Str} {d : Dict Json} {o : Obj} (hu : DocUrl out.ok url)
    (hf : out.fetch url w = (.ok (.obj d), w')) (hv : Dict.get? d (s% "swagger") = some (.str (s% "2.0")))
    (hv' : SaysVersion (.obj d) (some (s% "2.0"))) (hj : (Json.obj d).wf = true)
    (hb : build pkg (.cls (s% "v2_0.Swagger")) (.obj d) (some url) [] = .ok o)
    (hlink : Linked o Refs.normClasses2 [s% "v2_0.Reference"]) (hpath : NoPathRef o (s% "v2_0.PathItem")) :
    ∃ a a', App.loadObj (application out (n + 1)) url none false (opened w) = (.ok o, a) ∧
      App.migrateObj (application out (n + 1)) o url (s% "2.0") a = (.ok o, a') ∧ SavableTwo a'.world o := by
  have weak : ∀ {o : Obj}, Linked o Refs.normClasses2 [s% "v2_0.Reference"] → Linked o Refs.normClasses2 [] := by
    intro o h ts c q spec kids hv hc
    obtain ⟨e, he, hd⟩ := h ts c q spec kids hv hc
    exact ⟨e, he, hd.imp_left fun h => ⟨h.1, by simp⟩⟩
  obtain ⟨a, a', h1, h2, _, _, hk, _, _⟩ := C86_two (n := n) hu hf hv' hj hb (weak hlink) hpath
  refine ⟨a, a', h1, h2, ?_⟩
  have hR := rewritable_two hb hj hlink
  have hbase0 : o.isPrim = false := by obtain ⟨_, rfl⟩ := Refs.build_class hb; rfl
  refine ⟨fun hwh => ?_, ?_⟩
  · obtain ⟨j', h1, h2⟩ := total_of (.cls (s% "v2_0.Swagger")) (.obj d) rfl _ _ hb hR hwh hbase0
    rw [rewritten_asIs] at h1
    exact ⟨j', h1, fun url => (C21_build_iff_shaped _ _ _).2 h2⟩
  intro j' hd V out n v v' url' o' hu hf hb'
  rw [← rewritten_asIs o] at hd
  have hs := savedAs_of (.cls (s% "v2_0.Swagger")) (.obj d) rfl _ _ _ _ _ hb hR hd hb'
  have hj' := dump_rewritten_wf (.cls (s% "v2_0.Swagger")) (.obj d) rfl hj _ _ _ hb hR hd
  have hkeyed : Keyed o' := keyed_of hj' hb'
  -- the references of the saved one are those of the document
  have same : ∀ {x x' : Obj} {ts : List Str}, Visited [] o ts x → SavedAs asIs x x' → ∀ r, Refers Refs.normClasses2 x r ↔ Refers Refs.normClasses2 x' r := by
    intro x x' ts hx hsx r
    constructor
    · rintro ⟨c, q, e, kids, rfl, hc, hg, hr⟩
      cases hsx with
      | @base _ _ q' _ d' _ kids' h1 h2 h3 =>
        refine ⟨c, q', d', kids', rfl, hc, ?_, hr⟩
        rw [saved_said (q := none) (q' := none) (.base h1 h2 h3) hc]
        exact said_some.2 ⟨_, rfl, hg, by simp⟩
    · rintro ⟨c, q', e, kids', rfl, hc, hg, hr⟩
      cases hsx with
      | @base _ q _ s _ kids _ h1 h2 h3 =>
        rw [saved_said (q := none) (q' := none) (.base h1 h2 h3) hc] at hg
        obtain ⟨e0, rfl, hg0, _⟩ := said_some.1 hg
        exact ⟨c, q, e0, kids, rfl, hc, hg0, hr⟩
  have hlink' : Linked o' Refs.normClasses2 [s% "v2_0.Reference"] := by
    intro ts c q spec kids hv hc
    obtain ⟨x, hx, hsx⟩ := saved_visited hs hkeyed hv
    cases hsx with
    | @base _ q0 _ s d' kids0 _ h1 h2 h3 =>
      refine ⟨d', rfl, ?_⟩
      rw [saved_said (q := none) (q' := none) (.base h1 h2 h3) hc]
      obtain ⟨e0, rfl, hd⟩ := hlink _ _ _ _ _ hx hc
      rcases hd with ⟨hg, hc'⟩ | ⟨t, us, y, hg, hsafe, hy⟩
      · exact .inl ⟨by simp only [said, hg], hc'⟩
      · obtain ⟨y', hy', _⟩ := saved_at (t :: us) hs hy
        exact .inr ⟨t, us, y', said_some.2 ⟨_, rfl, hg, by simp⟩, hsafe, hy'⟩
  have hpath' : NoPathRef o' (s% "v2_0.PathItem") := by
    intro ts q e kids hv
    obtain ⟨x, hx, hsx⟩ := saved_visited hs hkeyed hv
    cases hsx with
    | @base _ q0 _ s _ kids0 _ h1 h2 h3 =>
      rw [saved_said (q := none) (q' := none) (.base h1 h2 h3) (by decide)]
      obtain ⟨e0, rfl, _⟩ := hlink _ _ _ _ _ hx (by decide)
      simp only [said, hpath _ _ _ _ hx]
  have hsays : SaysVersion j' (some (s% "2.0")) := by
    obtain ⟨kids, d', rfl, rfl, _, _, _, hfield, hsub, _⟩ := dump_rewritten hb hR hd
    have absent : ∀ k, k ∉ Dict.keys (pkg (s% "v2_0.Swagger")).children → k ∉ Dict.keys (pkg (s% "v2_0.Swagger")).fields → Dict.get? d' k = none := by
      intro k h1 h2
      rw [Dict.get?_eq_none_iff]
      intro hk
      rcases hsub k hk with h | h
      · exact h1 h
      · exact h2 h
    have hm : ∃ fd, (s% "swagger", fd) ∈ (pkg (s% "v2_0.Swagger")).fields := by
      have : ((pkg (s% "v2_0.Swagger")).fields.any fun q => q.1 == s% "swagger") = true := by decide +kernel
      rw [List.any_eq_true] at this
      obtain ⟨⟨k, fd⟩, hm, hk⟩ := this
      have hk := eq_of_beq hk
      subst hk
      exact ⟨fd, hm⟩
    obtain ⟨fd, hm⟩ := hm
    have h := hfield _ fd hm
    rw [if_neg (by decide), said_some.2 ⟨d, rfl, hv, by simp⟩] at h
    simp only [SaysVersion, versionKeys, List.findSome?_cons, absent (s% "swaggerVersion") (by decide +kernel) (by decide +kernel), h]
    rfl
  obtain ⟨b, b', h1, h2, h3, _, h5, h6, h7⟩ := C86_two (n := n) hu hf hsays hj' hb' (weak hlink') hpath'
  refine ⟨b, b', h1, h2, h3, h7, h6, hs, ?_⟩
  intro ts x' hv
  obtain ⟨x, hx, hsx⟩ := saved_visited hs hkeyed hv
  refine ⟨x, hx, hsx, same hx hsx, fun r hr => ?_⟩
  obtain ⟨us, y, e, hy, ha⟩ := (hk ts x hx).1 r hr
  obtain ⟨us', y', e', hy', ha'⟩ := (h5 ts x' hv).1 r ((same hx hsx r).1 hr)
  obtain rfl := pointer_inj (e.symm.trans e')
  obtain ⟨z, hz, hsz⟩ := saved_at us hs hy
  have : z = y' := by
    have := hz.1.symm.trans hy'.1
    cases this; rfl
  subst this
  exact ⟨y, z, by rw [ha], by rw [ha'], hsz⟩

end Pyopenapi.Main
