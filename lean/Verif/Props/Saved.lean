import Verif.Spec.SavedDoc
import Verif.Lemmas.SavedDoc
import Verif.Lemmas.SavedTotal
import Verif.Props.MainUp

/-!
# C113: a document that has been prepared can be saved
-/

namespace Pyopenapi.Main
open _root_.Pyopenapi.Spec _root_.Pyopenapi.Refs.Spec Obj

variable {W : Type}

theorem closed_v3 : Closed pkg (fun b => within v3 (fun _ => true) b = true) := by
  refine closed_within ?_
  intro c hc
  have h := pkg_children (p := fun c kc => !v3 c || within v3 (fun _ => true) kc.2.builder) (by decide +kernel) c
  simpa [hc] using h

theorem refClass_of {c : Str} (h : refClass pkg c = true) : c = s% "v2_0.Reference" ∨ c = s% "v3_0_0.Reference" := by
  have key : ∀ x ∈ classes, refClass pkg x.1 = true → x.1 = s% "v2_0.Reference" ∨ x.1 = s% "v3_0_0.Reference" := by decide +kernel
  cases hg : Dict.get? classes c with
  | none =>
    unfold refClass pkg at h
    rw [hg] at h
    simp at h
  | some cd => exact key _ (Dict.mem_of_get? hg) h

theorem norm3_field {c : Str} (h : c ∈ Refs.normClasses3) : ∃ fd, (s% "$ref", fd) ∈ (pkg c).fields := by
  have key : ∀ c ∈ Refs.normClasses3, ((pkg c).fields.any fun q => q.1 == s% "$ref") = true := by decide +kernel
  have := key c h
  rw [List.any_eq_true] at this
  obtain ⟨⟨k, fd⟩, hm, hk⟩ := this
  have hk := eq_of_beq hk
  subst hk
  exact ⟨fd, hm⟩

/-- References that are written are written into references. -/
theorem written_refers {w : World W} {o x : Obj} {url : Str} {move : Str → Str} (hk : KnowsVia move w o Refs.normClasses3 url) {ts : List Str}
    (hv : Visited [] o ts x) (h : written w x ≠ none) : ∃ r, Refers Refs.normClasses3 x r := by
  by_cases hr : ∃ r, Refers Refs.normClasses3 x r
  · exact hr
  · exact absurd (by rw [written, (hk ts x hv).2 fun r hr' => hr ⟨r, hr'⟩]) h

theorem rewritable_of {w : World W} {o : Obj} {url : Str} {move : Str → Str} {j : Json} {p : Option Str}
    (hb : build pkg (.cls (s% "v3_0_0.OpenApi")) j p [] = .ok o) (hj : j.wf = true)
    (hl : LinkedVia move o Refs.normClasses3 [s% "v3_0_0.Reference"])
    (hk : KnowsVia move w o Refs.normClasses3 url) : Rewritable (written w) o := by
  intro c q s kids hi h
  have hbase : o.isBase = true := by obtain ⟨_, rfl⟩ := Refs.build_class hb; rfl
  obtain ⟨ts, hv⟩ := inside_visited hbase hi rfl
  rcases h with h | h
  · have hc : c = s% "v3_0_0.Reference" := by
      rcases refClass_of h with rfl | h
      · obtain ⟨b, j', p', hb', _, hbuild⟩ := loaded_inside closed_v3 (T := pkg) (o := o) ⟨_, _, p, by decide, hj, hb⟩ hi
        obtain ⟨_, _, h3, _⟩ := build_inv closed_v3 hb' hbuild
        exact absurd h3 (by decide)
      · exact h
    subst hc
    obtain ⟨d, rfl, hd⟩ := hl ts _ q s kids hv (by decide)
    rcases hd with ⟨_, hd⟩ | ⟨t, us, vs, y, hg, _⟩
    · exact absurd (List.mem_singleton.2 rfl) hd
    · exact ⟨_, said_some.2 ⟨d, rfl, hg, by simp⟩⟩
  · obtain ⟨r, c', q', d, kids', heq, _, hg, _⟩ := written_refers hk hv h
    cases heq
    exact ⟨_, said_some.2 ⟨d, rfl, hg, by simp⟩⟩

/-- What is at the place of a reference of the saved document. -/
theorem saved_ref {f : Obj → Option Str} {x x' : Obj} {r' : Str} (hs : SavedAs f x x') {r : Str} (hr : Refers Refs.normClasses3 x r)
    (hf : f x = some r') (hne : r' ≠ []) : Refers Refs.normClasses3 x' r' := by
  obtain ⟨c, q, d, kids, rfl, hc, _⟩ := hr
  obtain ⟨fd, hm⟩ := norm3_field hc
  cases hs with
  | base h1 _ _ =>
    have h := h1 _ fd hm
    rw [if_pos rfl, hf] at h
    exact ⟨c, _, _, _, rfl, hc, h, hne⟩

/-- A document that has been prepared (its references known and rewritten) can be saved. -/
theorem savable_of {w : World W} {o : Obj} {url : Str} {move : Str → Str} {d : Dict Json} {p : Option Str}
    (hb : build pkg (.cls (s% "v3_0_0.OpenApi")) (.obj d) p [] = .ok o) (hj : (Json.obj d).wf = true)
    (hver : Dict.get? d (s% "openapi") = some (.str (s% "3.0.0")))
    (hm : NoMix o) (hex : NoExamples o)
    (hl : LinkedVia move o Refs.normClasses3 [s% "v3_0_0.Reference"]) (hpath : NoPathRef o (s% "v3_0_0.PathItem"))
    (hne : ∀ ts x r, Visited [] o ts x → Refers Refs.normClasses3 x r → move r ≠ pointer [])
    (hk : KnowsVia move w o Refs.normClasses3 url) : Savable w o := by
  have hR := rewritable_of hb hj hl hk
  have hbase0 : o.isPrim = false := by obtain ⟨_, rfl⟩ := Refs.build_class hb; rfl
  refine ⟨fun hwh => ?_, ?_⟩
  · obtain ⟨j', h1, h2⟩ := total_of (.cls (s% "v3_0_0.OpenApi")) (.obj d) rfl _ _ hb hR hwh hbase0
    exact ⟨j', h1, fun url => (C21_build_iff_shaped _ _ _).2 h2⟩
  intro j' hd V out n v v' url' o' hu hf hb'
  have hs := savedAs_of (.cls (s% "v3_0_0.OpenApi")) (.obj d) rfl _ _ _ _ _ hb hR hd hb'
  have hj' := dump_rewritten_wf (.cls (s% "v3_0_0.OpenApi")) (.obj d) rfl hj _ _ _ hb hR hd
  have hkeyed : Keyed o' := keyed_of hj' hb'
  have hbase : o.isBase = true := by obtain ⟨_, rfl⟩ := Refs.build_class hb; rfl
  -- the references of the document
  have known : ∀ ts x r, Visited [] o ts x → Refers Refs.normClasses3 x r → ∃ t us y, At o (t :: us) y ∧ Safe (t :: us) ∧
      attrsOf w x = { normalized := some (url ++ pointer (t :: us)), refObj := some y, newRef := some (pointer (t :: us)) } := by
    intro ts x r hv hr
    obtain ⟨vs, y, h1, h2, h3⟩ := (hk ts x hv).1 r hr
    obtain ⟨c, q, e, kids, rfl, hc, hg, hr0⟩ := hr
    obtain ⟨e', he, hd⟩ := hl ts c q _ kids hv hc
    cases he
    rcases hd with ⟨hd, _⟩ | ⟨t, us, vs', y', hg', _, hm', hs', _⟩
    · rw [hd] at hg; cases hg
    · rw [hg] at hg'
      cases hg'
      have e := pointer_inj (h1.symm.trans hm')
      subst e
      cases vs with
      | nil => exact absurd h1 (hne _ _ _ hv ⟨c, q, _, kids, rfl, hc, hg, hr0⟩)
      | cons t us => exact ⟨t, us, y, h2, hs', h3⟩
  have unref : ∀ ts c q s kids, Visited [] o ts (.base c q s kids) → c ∈ Refs.normClasses3 →
      (∀ r, ¬ Refers Refs.normClasses3 (.base c q s kids) r) → written w (.base c q s kids) = none ∧ said (s% "$ref") s = none ∧
        c ∉ [s% "v3_0_0.Reference"] := by
    intro ts c q s kids hv hc hn
    refine ⟨by rw [written, (hk ts _ hv).2 hn], ?_⟩
    obtain ⟨e, rfl, hd⟩ := hl ts c q s kids hv hc
    rcases hd with ⟨hd, hc'⟩ | ⟨t, us, vs, y, hg, _⟩
    · exact ⟨by simp only [said, hd], hc'⟩
    · exact absurd ⟨c, q, e, kids, rfl, hc, hg, by simp [pointer]⟩ (hn _)
  -- the same for the saved one
  have hlink : Linked o' Refs.normClasses3 [s% "v3_0_0.Reference"] := by
    intro ts c q spec kids hv hc
    obtain ⟨x, hx, hsx⟩ := saved_visited hs hkeyed hv
    cases hsx with
    | @base _ q0 _ s d' kids0 _ h1 h2 h3 =>
      refine ⟨d', rfl, ?_⟩
      by_cases hr : ∃ r, Refers Refs.normClasses3 (.base c q0 s kids0) r
      · obtain ⟨r, hr⟩ := hr
        obtain ⟨t, us, y, hy, hsafe, ha⟩ := known _ _ _ hx hr
        obtain ⟨y', hy', _⟩ := saved_at (t :: us) hs hy
        obtain ⟨fd, hm⟩ := norm3_field hc
        have h := h1 _ fd hm
        rw [if_pos rfl, written, ha] at h
        exact .inr ⟨t, us, y', h, hsafe, hy'⟩
      · obtain ⟨u1, u2, u3⟩ := unref _ _ _ _ _ hx hc (fun r h => hr ⟨r, h⟩)
        obtain ⟨fd, hm⟩ := norm3_field hc
        have h := h1 _ fd hm
        rw [if_pos rfl, u1, u2] at h
        exact .inl ⟨h, u3⟩
  have hpath' : NoPathRef o' (s% "v3_0_0.PathItem") := by
    intro ts q e kids hv
    obtain ⟨x, hx, hsx⟩ := saved_visited hs hkeyed hv
    cases hsx with
    | @base _ q0 _ s _ kids0 _ h1 h2 h3 =>
      obtain ⟨e0, rfl, _⟩ := hl _ _ _ _ _ hx (by decide)
      have hnone := hpath _ _ _ _ hx
      obtain ⟨u1, u2, _⟩ := unref _ _ _ _ _ hx (by decide) (by
        rintro r ⟨c', q', d', kids', heq, _, hg, _⟩
        cases heq
        rw [hnone] at hg; cases hg)
      obtain ⟨fd, hm⟩ := norm3_field (show s% "v3_0_0.PathItem" ∈ Refs.normClasses3 by decide)
      have h := h1 _ fd hm
      rwa [if_pos rfl, u1, u2] at h
  have hsays : SaysVersion j' (some (s% "3.0.0")) := by
    obtain ⟨kids, d', rfl, rfl, _, _, _, hfield, hsub, _⟩ := dump_rewritten hb hR hd
    have absent : ∀ k, k ∉ Dict.keys (pkg (s% "v3_0_0.OpenApi")).children → k ∉ Dict.keys (pkg (s% "v3_0_0.OpenApi")).fields → Dict.get? d' k = none := by
      intro k h1 h2
      rw [Dict.get?_eq_none_iff]
      intro hk
      rcases hsub k hk with h | h
      · exact h1 h
      · exact h2 h
    have hm : ∃ fd, (s% "openapi", fd) ∈ (pkg (s% "v3_0_0.OpenApi")).fields := by
      have : ((pkg (s% "v3_0_0.OpenApi")).fields.any fun q => q.1 == s% "openapi") = true := by decide +kernel
      rw [List.any_eq_true] at this
      obtain ⟨⟨k, fd⟩, hm, hk⟩ := this
      have hk := eq_of_beq hk
      subst hk
      exact ⟨fd, hm⟩
    obtain ⟨fd, hm⟩ := hm
    have h := hfield _ fd hm
    rw [if_neg (by decide), said_some.2 ⟨d, rfl, hver, by simp⟩] at h
    simp only [SaysVersion, versionKeys, List.findSome?_cons, absent (s% "swaggerVersion") (by decide +kernel) (by decide +kernel),
      absent (s% "swagger") (by decide +kernel) (by decide +kernel), h]
    rfl
  obtain ⟨b, b', h1, h2, h3, _, h5, h6, h7⟩ := C86_native_partial (n := n) hu hf hsays hj' hb' (saved_noMix hs hkeyed hm)
    (saved_noExamples hs hkeyed hex) hlink hpath'
  refine ⟨b, b', h1, h2, h3, h7, h6, hs, ?_⟩
  intro ts x' hv
  obtain ⟨x, hx, hsx⟩ := saved_visited hs hkeyed hv
  refine ⟨x, hx, hsx, fun r hr => ?_⟩
  obtain ⟨t, us, y, hy, hsafe, ha⟩ := known _ _ _ hx hr
  obtain ⟨y', hy', hsy⟩ := saved_at (t :: us) hs hy
  have hw : written w x = some (pointer (t :: us)) := by rw [written, ha]
  have hr' := saved_ref hsx hr hw (by simp [pointer])
  obtain ⟨vs, z, e, hz, haz⟩ := (h5 ts x' hv).1 _ hr'
  have e := pointer_inj e
  subst e
  have : z = y' := by
    have := hz.1.symm.trans hy'.1
    cases this; rfl
  subst this
  exact ⟨_, y, z, hr', hw, by rw [ha], by rw [haz], hsy⟩

/-- **C113** for documents of 2.0 migrated to 3.0.0: a converted document can be saved. -/
theorem C113_converted {out : Outer W} {n : Nat} {w w' : W} {url : Str} {d : Dict Json} {o : Obj} {K : Nat} (hu : DocUrl out.ok url)
    (hset : SetOrdered out) (hf : out.fetch url w = (.ok (.obj d), w')) (hv : SaysVersion (.obj d) (some (s% "2.0")))
    (hreg : Regular pkg (.cls (s% "v2_0.Swagger")) (.obj d)) (hj : (Json.obj d).wf = true)
    (hb : build pkg (.cls (s% "v2_0.Swagger")) (.obj d) (some url) [] = .ok o)
    (hconv : Conventional o d) (hground : Grounded o K) (hfiles : NoFiles d) (hnames : NamesOk d)
    (hres : DocResolves (docRefs d) d) (hable : Convertible (docRefs d) out.ok d)
    (hscopes : ∀ k e, (k, .obj e) ∈ objAt d (s% "securityDefinitions") → ScopesGiven e) :
    ∃ a a' r o3, App.loadObj (application out (n + 1)) url none false (opened w) = (.ok o, a) ∧
      App.migrateObj (application out (n + 1)) o url (s% "3.0.0") a = (.ok o3, a') ∧
      build pkg (.cls (s% "v3_0_0.OpenApi")) (.obj r) (some ['#']) [] = .ok o3 ∧ DocTo (docRefs d) d r ∧ RefersTo o3 d ∧
      Savable a'.world o3 := by
  replace hv := specVersion_says hv
  have hB : Built (.cls (s% "v2_0.Swagger")) (.obj d) o := ⟨hreg, hj, _, hb⟩
  obtain ⟨r, rl, o3, hr⟩ := ready_of (out := out) (url := url) hset hB hconv hground hfiles hnames hres hable hscopes
  have std : Std d o K := ⟨hB, hconv, hground, hfiles⟩
  obtain ⟨a', h1, h2, h3, h4, h5, h6, h7, h8⟩ := runUp (n := n) (a := loaded w' o url (s% "2.0")) hu hj hb (scanned_of (by decide) hj hb)
    (loaded_start w' o url) (linked_of std) (noPathRef_of std) (loaded_fresh _ _ _ _) (show s% "2.0" ≠ s% "3.0.0" by decide)
    hr.conv hr.keys hr.wf hr.built hr.scanned hr.noExamples hr.linked hr.noPath hr.fresh
  refine ⟨_, a', r, o3, load_first hu hf hv (.inl ⟨rfl, rfl⟩) hb, h1, hr.built, hr.docTo, hr.refersTo, ?_⟩
  refine savable_of hr.built hr.wf hr.docTo.1 hr.noMix hr.noExamples hr.linked hr.noPath ?_ h6
  intro ts x ref hx href he
  obtain ⟨c, sec, m, w0, e, hsafe, hw, hfit⟩ := hr.refersTo ts x ref hx href
  cases e
  obtain ⟨x0, w1, p, y, _, _, _, hm⟩ := hr.moved sec m w0 (entry_sec hfit) hw
  rw [hm] at he
  have := pointer_inj he
  cases this

/-- **C113** for documents of 3.0.0 (as in C86). -/
theorem C113_native_partial {out : Outer W} {n : Nat} {w w' : W} {url : Str} {d : Dict Json} {o : Obj} (hu : DocUrl out.ok url)
    (hf : out.fetch url w = (.ok (.obj d), w')) (hv : Dict.get? d (s% "openapi") = some (.str (s% "3.0.0")))
    (hv' : SaysVersion (.obj d) (some (s% "3.0.0"))) (hj : (Json.obj d).wf = true)
    (hb : build pkg (.cls (s% "v3_0_0.OpenApi")) (.obj d) (some url) [] = .ok o) (hm : NoMix o) (hex : NoExamples o)
    (hlink : Linked o Refs.normClasses3 [s% "v3_0_0.Reference"]) (hpath : NoPathRef o (s% "v3_0_0.PathItem")) :
    ∃ a a', App.loadObj (application out (n + 1)) url none false (opened w) = (.ok o, a) ∧
      App.migrateObj (application out (n + 1)) o url (s% "3.0.0") a = (.ok o, a') ∧ Savable a'.world o := by
  obtain ⟨a, a', h1, h2, _, _, h5, _, _⟩ := C86_native_partial (n := n) hu hf hv' hj hb hm hex hlink hpath
  refine ⟨a, a', h1, h2, savable_of (move := fun p => p) hb hj hv hm hex ?_ hpath ?_ h5⟩
  · intro ts c q spec kids hx hc
    obtain ⟨e, he, hd⟩ := hlink ts c q spec kids hx hc
    exact ⟨e, he, hd.imp_right fun ⟨t, us, y, g, hs, ha⟩ => ⟨t, us, t :: us, y, g, hs, rfl, hs, ha⟩⟩
  · rintro ts x r hx ⟨c, q, e, kids, rfl, hc, hg, hr0⟩ he
    obtain ⟨e', h, hd⟩ := hlink ts c q _ kids hx hc
    cases h
    rcases hd with ⟨hd, _⟩ | ⟨t, us, y, g, _, _⟩
    · rw [hd] at hg; cases hg
    · rw [hg] at g
      cases g
      have := pointer_inj he
      cases this

end Pyopenapi.Main
