import Verif.Lemmas.Says
import Verif.Spec.MainPaths
import Verif.Props.Pieces
import Verif.Props.Native
import Verif.Props.PiecesUp

/-!
# C86 for documents whose path items refer to one another
-/

namespace Pyopenapi.Main
open _root_.Pyopenapi.Spec _root_.Pyopenapi.Refs.Spec Obj

variable {W : Type}

/-- What is visited is found at its place. -/
theorem at_of_visited {c : Str} {j : Json} {p : Option Str} {root y : Obj} {us : List Str} (hj : j.wf = true)
    (hb : build pkg (.cls c) j p [] = .ok root) (hv : Visited [] root us y) (hy : y.isBase = true) : At root us y := by
  refine ⟨?_, hy⟩
  have := resolve_visited hv (keyed_of hj hb) (declared_of hj hb) []
  rw [List.append_nil] at this
  rw [this]
  cases y <;> rfl

/-- The main document of an application without other pieces. -/
def alone (url cls : Str) (j : Json) (o : Obj) : Piece := ⟨url, [], url, cls, j, o⟩

theorem ref_hash {url : Str} (h : '#' ∉ url) {us : List Str} : url ++ pointer us ≠ url := by
  intro e
  apply h
  rw [← e]
  exact List.mem_append_right _ List.mem_cons_self

theorem only_one {α : Type} {l : List α} {x : α} (l1 : l.Nodup) (hall : ∀ p ∈ l, p = x) (hmem : x ∈ l) : l = [x] := by
  match l, l1, hall, hmem with
  | [], _, _, hmem => cases hmem
  | [p], _, hall, _ => rw [hall p List.mem_cons_self]
  | p :: q :: l, l1, hall, _ =>
    have e1 := hall p List.mem_cons_self
    have e2 := hall q (List.mem_cons_of_mem _ List.mem_cons_self)
    rw [e1, e2] at l1
    exact absurd List.mem_cons_self (List.nodup_cons.1 l1).1

section two
variable {out : Outer W} {url : Str} {j : Json} {o : Obj}

theorem alone_good (hu : DocUrl out.ok url) (hj : j.wf = true) (hb : build pkg (.cls (s% "v2_0.Swagger")) j (some url) [] = .ok o) :
    (alone url (s% "v2_0.Swagger") j o).Good out :=
  ⟨hu, (show Safe [] by unfold Safe; decide), .inr ⟨rfl, rfl⟩, (show s% "v2_0.Swagger" ≠ s% "v2_0.Reference" by decide), rfl, hj, hb⟩

theorem alone_application (hu : DocUrl out.ok url) (hj : j.wf = true) (hb : build pkg (.cls (s% "v2_0.Swagger")) j (some url) [] = .ok o)
    (hlink : Linked o Refs.normClasses2 []) (hpath : PathRefs o (s% "v2_0.PathItem")) :
    Application out (alone url (s% "v2_0.Swagger") j o) [] where
  good := fun p hp => by
    obtain rfl := hp.resolve_right (fun h => by cases h)
    exact alone_good hu hj hb
  served := fun p hp => by cases hp
  apart := fun p q hp hq hne => by
    obtain rfl := hp.resolve_right (fun h => by cases h)
    obtain rfl := hq.resolve_right (fun h => by cases h)
    exact absurd rfl hne
  linked := fun p hp => by
    obtain rfl := hp.resolve_right (fun h => by cases h)
    intro ts c q spec kids hv hc
    obtain ⟨d, rfl, h⟩ := hlink ts c q spec kids hv hc
    refine ⟨d, rfl, ?_⟩
    rcases h with h | ⟨t, us, y, h1, h2, h3⟩
    · exact .inl h.1
    · refine .inr ⟨_, _, alone url (s% "v2_0.Swagger") j o, y, h1, List.cons_ne_nil _ _, norm_pointer hu.ne, .inl rfl,
        .inr ⟨.inl rfl, t :: us, rfl, h2, h3⟩, fun e => absurd e (ref_hash hu.hash), ?_⟩
      rintro rfl
      obtain ⟨y', k1, k2⟩ := hpath ts q d kids _ hv h1
      have := at_of_visited hj hb k1 (by cases y' <;> first | rfl | cases k2)
      have e := this.1.symm.trans h3.1
      cases e
      exact ⟨k2, _, k1⟩
  root := ⟨rfl, rfl, rfl⟩

/-- Where a reference of the document leads, as a step of the application. -/
theorem alone_step (hu : DocUrl out.ok url) (hlink : Linked o Refs.normClasses2 []) {ts : List Str} {x : Obj} {r n : Str} {q : Piece} {y : Obj}
    (hv : Visited [] o ts x) (hr : Refers Refs.normClasses2 x r) (hn : normalizeJr out.ok (some r) (some url) = .ok (some n))
    (hq : q = alone url (s% "v2_0.Swagger") j o) (hl : LeadsTo (alone url (s% "v2_0.Swagger") j o) (alone url (s% "v2_0.Swagger") j o) n q y) :
    ∃ us, r = pointer us ∧ At o us y ∧ n = url ++ r := by
  subst hq
  obtain ⟨c, p, d, kids, rfl, hc, hg, hne⟩ := hr
  obtain ⟨d', he, h⟩ := hlink ts _ _ _ _ hv hc
  cases he
  rcases h with h | ⟨t, us, y', h1, h2, h3⟩
  · rw [hg] at h; cases h.1
  · rw [hg] at h1
    cases h1
    rw [norm_pointer hu.ne] at hn
    cases hn
    refine ⟨t :: us, rfl, ?_, rfl⟩
    rcases hl with ⟨e, _⟩ | ⟨_, vs, e, _, hat⟩
    · exact absurd e (ref_hash hu.hash)
    · have := List.append_cancel_left (show url ++ pointer (t :: us) = url ++ pointer vs from e)
      rw [pointer_inj this]
      exact hat

theorem alone_trail (hu : DocUrl out.ok url) (hlink : Linked o Refs.normClasses2 []) {seen l : List Obj} {x : Obj}
    (h : Trail out (alone url (s% "v2_0.Swagger") j o) [] seen x l) : LocalTrail Refs.normClasses2 o seen x l := by
  have step : ∀ {x y}, Points out (alone url (s% "v2_0.Swagger") j o) [] x y → ∃ us, Refers Refs.normClasses2 x (pointer us) ∧ At o us y := by
    rintro x y ⟨p, ts, r, n, q, hp, hv, hr, hn, hq, hl⟩
    obtain rfl := hp.resolve_right (fun h => by cases h)
    obtain ⟨us, rfl, h, _⟩ := alone_step hu hlink hv hr hn (hq.resolve_right (fun h => by cases h)) hl
    exact ⟨us, hr, h⟩
  induction h with
  | last h => exact .last h
  | again hp hs => obtain ⟨us, h1, h2⟩ := step hp; exact .again h1 h2 hs
  | more hp hs _ ih => obtain ⟨us, h1, h2⟩ := step hp; exact .more h1 h2 hs ih

/-- **C86** for documents of 2.0 whose path items may refer to one another, in circles too: what a path item with a `$ref`
finally is, is what those along the references are merged into. -/
theorem C86_two_paths {n : Nat} {w w' : W} (hu : DocUrl out.ok url)
    (hf : out.fetch url w = (.ok j, w')) (hv : SaysVersion j (some (s% "2.0"))) (hj : j.wf = true)
    (hb : build pkg (.cls (s% "v2_0.Swagger")) j (some url) [] = .ok o) (hlink : Linked o Refs.normClasses2 [])
    (hpath : PathRefs o (s% "v2_0.PathItem")) (hrounds : (visits o).length ≤ out.rounds) :
    ∃ a a', App.loadObj (application out (n + 1)) url none false (opened w) = (.ok o, a) ∧
      App.migrateObj (application out (n + 1)) o url (s% "2.0") a = (.ok o, a') ∧
      a'.original = s% "2.0" ∧ a'.current = some (s% "2.0") ∧ Knows a'.world o Refs.normClasses2 url ∧
      LocalMerged Refs.normClasses2 (s% "v2_0.PathItem") o a'.world ∧
      Found (application out (n + 1)) a' url (s% "2.0") o ∧ a'.world.rest = w' := by
  have hA := alone_application hu hj hb hlink hpath
  obtain ⟨a, a', h1, h2, h3, h4, h5, l, l1, l2, l3⟩ := C88_pieces out (alone url (s% "v2_0.Swagger") j o) [] hA w (by
    show (out.fetch url w).1 = _; rw [hf]; rfl) hv n (Nat.zero_le _) (by
      show ((visits o) ++ []).length ≤ _; rwa [List.append_nil])
  obtain ⟨hk, hm, hfound⟩ := h5 _ .main
  refine ⟨a, a', h1, h2, h3, h4, ?_, ?_, ?_, ?_⟩
  · intro ts x hv
    refine ⟨fun r hr => ?_, (hk ts x hv).2⟩
    obtain ⟨n, q, y, g1, g2, g3, g4⟩ := (hk ts x hv).1 r hr
    obtain ⟨us, rfl, k1, rfl⟩ := alone_step hu hlink hv hr g1 (g2.resolve_right (fun h => by cases h)) g3
    exact ⟨us, y, rfl, k1, g4⟩
  · intro ts x r hv hc hr
    obtain ⟨l, g1, g2⟩ := hm ts x r hv hc hr
    exact ⟨l, alone_trail hu hlink g1, g2⟩
  · intro ts x parser dummy hs hx
    exact hfound (n + 1) ts x parser _ dummy hs hx (.inr rfl)
  · have : l = [alone url (s% "v2_0.Swagger") j o] := only_one l1 (fun p hp => by
      cases (l2 p).1 hp with
      | main => rfl
      | next _ _ h => cases h) ((l2 _).2 .main)
    rw [l3, this]
    show (out.fetch url w).2 = _
    rw [hf]

end two

section native
variable {out : Outer W} {url : Str} {j : Json} {o : Obj}

theorem native_application (hu : DocUrl out.ok url) (hj : j.wf = true) (hb : build pkg (.cls (s% "v3_0_0.OpenApi")) j (some url) [] = .ok o)
    (hm : NoMix o) (hex : NoExamples o)
    (hlink : Linked o Refs.normClasses3 [s% "v3_0_0.Reference"]) (hpath : PathRefs o (s% "v3_0_0.PathItem")) :
    Native.Application out (alone url (s% "v3_0_0.OpenApi") j o) [] where
  good := fun p hp => by
    obtain rfl := hp.resolve_right (fun h => by cases h)
    exact ⟨hu, (show Safe [] by unfold Safe; decide), .inr ⟨rfl, rfl⟩, (show s% "v3_0_0.OpenApi" ≠ s% "v3_0_0.Reference" by decide), rfl, hj, hb, hm, hex⟩
  served := fun p hp => by cases hp
  apart := fun p q hp hq hne => by
    obtain rfl := hp.resolve_right (fun h => by cases h)
    obtain rfl := hq.resolve_right (fun h => by cases h)
    exact absurd rfl hne
  linked := fun p hp => by
    obtain rfl := hp.resolve_right (fun h => by cases h)
    intro ts c q spec kids hv hc
    obtain ⟨d, rfl, h⟩ := hlink ts c q spec kids hv hc
    refine ⟨d, rfl, ?_⟩
    rcases h with h | ⟨t, us, y, h1, h2, h3⟩
    · exact .inl ⟨h.1, fun e => h.2 (e ▸ List.mem_cons_self)⟩
    · refine .inr ⟨_, _, alone url (s% "v3_0_0.OpenApi") j o, t :: us, y, h1, List.cons_ne_nil _ _, norm_pointer hu.ne, .inl rfl,
        .inr ⟨.inl rfl, rfl, h2, h3⟩, fun e => absurd e (ref_hash hu.hash), ?_⟩
      rintro rfl
      obtain ⟨y', k1, k2⟩ := hpath ts q d kids _ hv h1
      have := at_of_visited hj hb k1 (by cases y' <;> first | rfl | cases k2)
      have e := this.1.symm.trans h3.1
      cases e
      exact ⟨k2, _, k1⟩
  root := ⟨rfl, rfl, rfl⟩

theorem native_step (hu : DocUrl out.ok url) (hlink : Linked o Refs.normClasses3 [s% "v3_0_0.Reference"]) {ts us : List Str} {x : Obj} {r n : Str}
    {q : Piece} {y : Obj} (hv : Visited [] o ts x) (hr : Refers Refs.normClasses3 x r) (hn : normalizeJr out.ok (some r) (some url) = .ok (some n))
    (hq : q = alone url (s% "v3_0_0.OpenApi") j o)
    (hl : Native.LeadsTo (alone url (s% "v3_0_0.OpenApi") j o) (alone url (s% "v3_0_0.OpenApi") j o) n q us y) :
    r = pointer us ∧ At o us y ∧ n = url ++ r := by
  subst hq
  obtain ⟨c, p, d, kids, rfl, hc, hg, hne⟩ := hr
  obtain ⟨d', he, h⟩ := hlink ts _ _ _ _ hv hc
  cases he
  rcases h with h | ⟨t, vs, y', h1, h2, h3⟩
  · rw [hg] at h; cases h.1
  · rw [hg] at h1
    cases h1
    rw [norm_pointer hu.ne] at hn
    cases hn
    rcases hl with ⟨e, _⟩ | ⟨_, e, _, hat⟩
    · exact absurd e (ref_hash hu.hash)
    · have := List.append_cancel_left (show url ++ pointer (t :: vs) = url ++ pointer us from e)
      exact ⟨this, hat, rfl⟩

theorem native_trail (hu : DocUrl out.ok url) (hlink : Linked o Refs.normClasses3 [s% "v3_0_0.Reference"]) {seen l : List Obj} {x : Obj}
    (h : Native.Trail out (alone url (s% "v3_0_0.OpenApi") j o) [] seen x l) : LocalTrail Refs.normClasses3 o seen x l := by
  have step : ∀ {x y}, Native.Points out (alone url (s% "v3_0_0.OpenApi") j o) [] x y → ∃ us, Refers Refs.normClasses3 x (pointer us) ∧ At o us y := by
    rintro x y ⟨p, ts, r, n, q, us, hp, hv, hr, hn, hq, hl⟩
    obtain rfl := hp.resolve_right (fun h => by cases h)
    obtain ⟨rfl, h, _⟩ := native_step hu hlink hv hr hn (hq.resolve_right (fun h => by cases h)) hl
    exact ⟨us, hr, h⟩
  induction h with
  | last h => exact .last h
  | again hp hs => obtain ⟨us, h1, h2⟩ := step hp; exact .again h1 h2 hs
  | more hp hs _ ih => obtain ⟨us, h1, h2⟩ := step hp; exact .more h1 h2 hs ih

/-- **C86** for documents of 3.0.0 whose path items may refer to one another.  The restrictions are those of `C86_native_partial`. -/
theorem C86_native_paths_partial {n : Nat} {w w' : W} (hu : DocUrl out.ok url)
    (hf : out.fetch url w = (.ok j, w')) (hv : SaysVersion j (some (s% "3.0.0"))) (hj : j.wf = true)
    (hb : build pkg (.cls (s% "v3_0_0.OpenApi")) j (some url) [] = .ok o) (hm : NoMix o) (hex : NoExamples o)
    (hlink : Linked o Refs.normClasses3 [s% "v3_0_0.Reference"]) (hpath : PathRefs o (s% "v3_0_0.PathItem"))
    (hrounds : (visits o).length ≤ out.rounds) :
    ∃ a a', App.loadObj (application out (n + 1)) url none false (opened w) = (.ok o, a) ∧
      App.migrateObj (application out (n + 1)) o url (s% "3.0.0") a = (.ok o, a') ∧
      a'.original = s% "3.0.0" ∧ a'.current = some (s% "3.0.0") ∧ KnowsVia (fun p => p) a'.world o Refs.normClasses3 url ∧
      LocalMerged Refs.normClasses3 (s% "v3_0_0.PathItem") o a'.world ∧
      Found (application out (n + 1)) a' url (s% "3.0.0") o ∧ a'.world.rest = w' := by
  have hA := native_application hu hj hb hm hex hlink hpath
  obtain ⟨a, a', h1, h2, h3, h4, h5, l, l1, l2, l3⟩ := Native.C97_pieces_partial out (alone url (s% "v3_0_0.OpenApi") j o) [] hA w (by
    show (out.fetch url w).1 = _; rw [hf]; rfl) hv n (Nat.zero_le _) (by
      show ((visits o) ++ []).length ≤ _; rwa [List.append_nil])
  obtain ⟨hk, hmg, hfound⟩ := h5 _ .main
  refine ⟨a, a', h1, h2, h3, h4, ?_, ?_, ?_, ?_⟩
  · intro ts x hv
    refine ⟨fun r hr => ?_, (hk ts x hv).2⟩
    obtain ⟨n, q, us, y, g1, g2, g3, g4⟩ := (hk ts x hv).1 r hr
    obtain rfl := g2.resolve_right (fun h => by cases h)
    obtain ⟨rfl, k1, rfl⟩ := native_step hu hlink hv hr g1 rfl g3
    exact ⟨us, y, rfl, k1, g4⟩
  · intro ts x r hv hc hr
    obtain ⟨l, g1, g2⟩ := hmg ts x r hv hc hr
    exact ⟨l, native_trail hu hlink g1, g2⟩
  · intro ts x parser dummy hs hx
    exact hfound (n + 1) ts x parser _ dummy hs hx (.inr rfl)
  · have : l = [alone url (s% "v3_0_0.OpenApi") j o] := only_one l1 (fun p hp => by
      cases (l2 p).1 hp with
      | main => rfl
      | next _ _ h => cases h) ((l2 _).2 .main)
    rw [l3, this]
    show (out.fetch url w).2 = _
    rw [hf]

end native

section up
variable {out : Outer W} {url : Str} {d : Dict Json} {o : Obj} {K : Nat}

theorem entry_fits {c : Str} {v : Json} (h : Entry d c v ∨ PathEntry d c v) : ∃ sec n w, v = .str (pointer [sec, n]) ∧ Safe [sec, n] ∧
    Dict.get? (objAt d sec) n = some w ∧ FitsP c sec := by
  rcases h with ⟨sec, n, w, h1, h2, h3, h4⟩ | ⟨hc, k, w, h1, h2, h3⟩
  · exact ⟨sec, n, w, h1, h2, h3, .inl h4⟩
  · exact ⟨_, k, w, h1, h2, h3, .inr ⟨hc, rfl⟩⟩

theorem linked_conventional (hB : Built (.cls (s% "v2_0.Swagger")) (.obj d) o) (hconv : Conventional2 o d) :
    Linked o Refs.normClasses2 [] ∧ PathRefs o (s% "v2_0.PathItem") := by
  constructor
  · intro ts c q spec kids hv hc
    obtain ⟨e, rfl, h⟩ := hconv ts c q spec kids hv hc
    refine ⟨e, rfl, ?_⟩
    rcases h with h | ⟨v, h, he⟩
    · exact .inl ⟨h, fun h => by cases h⟩
    · obtain ⟨sec, n, w, rfl, h2, h3, h4⟩ := entry_fits he
      obtain ⟨C, hC, _⟩ := sec_classP h4
      obtain ⟨y, _, k2, _⟩ := target hB hC h3
      exact .inr ⟨sec, [n], y, h, h2, k2⟩
  · intro ts q e kids us hv hg
    obtain ⟨e', he, h⟩ := hconv ts _ q _ kids hv (by decide)
    cases he
    rcases h with h | ⟨v, h, he⟩
    · rw [hg] at h; cases h
    · rw [hg] at h
      cases h
      rcases he with ⟨_, _, _, _, _, _, hf⟩ | ⟨_, k, w, h1, h2, h3⟩
      · rcases hf with ⟨hf, _⟩ | ⟨hf, _⟩ <;> exact absurd hf (by decide)
      · rw [pointer_inj (Json.str.inj h1)]
        obtain ⟨y, k1, _, k3⟩ := target (C := s% "v2_0.PathItem") hB rfl h3
        obtain ⟨_, _, _, _, rfl, _⟩ := built_cls k3
        exact ⟨_, k1, rfl⟩

theorem alone_ends (hu : DocUrl out.ok url) (hB : Built (.cls (s% "v2_0.Swagger")) (.obj d) o) (hconv : Conventional2 o d) {k : Nat} {x z : Obj}
    (hc : Chain o k x z) : ∀ ts, Visited [] o ts x → Ends out (alone url (s% "v2_0.Swagger") (.obj d) o) [] k x z := by
  induction hc with
  | stop h => exact fun _ _ => .stop h
  | @step k x y z us hr hy _ ih =>
    intro ts hv
    have hr' := hr
    obtain ⟨c, p, e, kids, rfl, hc, hg, hne⟩ := hr'
    obtain ⟨e', he, h⟩ := hconv ts _ _ _ kids hv hc
    cases he
    rcases h with h | ⟨v, h, he⟩
    · rw [hg] at h; cases h
    · rw [hg] at h
      cases h
      obtain ⟨sec, n, w, e1, h2, h3, h4⟩ := entry_fits he
      have e1 := pointer_inj (Json.str.inj e1)
      subst e1
      obtain ⟨C, hC, _⟩ := sec_classP h4
      obtain ⟨y', k1, k2, _⟩ := target hB hC h3
      cases k2.1.symm.trans hy.1
      exact .step ⟨alone url (s% "v2_0.Swagger") (.obj d) o, ts, _, url ++ pointer [sec, n], alone url (s% "v2_0.Swagger") (.obj d) o, .inl rfl, hv, hr,
        norm_pointer hu.ne, .inl rfl, .inr ⟨.inl rfl, [sec, n], rfl, h2, hy⟩⟩ (ih _ k1)

/-- **C86** for documents of 2.0 that are migrated to 3.0.0, whose path items may refer to one another (but not in circles): they
still do afterwards, with absolute references, and are merged with those they refer to. -/
theorem C86_up_paths {n : Nat} {w w' : W} (hu : DocUrl out.ok url)
    (hset : SetOrdered out) (hf : out.fetch url w = (.ok (.obj d), w')) (hv : SaysVersion (.obj d) (some (s% "2.0")))
    (hreg : Regular pkg (.cls (s% "v2_0.Swagger")) (.obj d)) (hj : (Json.obj d).wf = true)
    (hb : build pkg (.cls (s% "v2_0.Swagger")) (.obj d) (some url) [] = .ok o)
    (hconv : Conventional2 o d) (hground : Grounded o K) (hfiles : NoFiles d) (hnames : NamesOk d)
    (hres : DocResolves (docRefs d) d) (hable : Convertible (docRefs d) out.ok d)
    (hscopes : ∀ k e, (k, .obj e) ∈ objAt d (s% "securityDefinitions") → ScopesGiven e) (hrounds : (visits o).length ≤ out.rounds) :
    ∃ a a' r o3 move, App.loadObj (application out (n + 1)) url none false (opened w) = (.ok o, a) ∧
      App.migrateObj (application out (n + 1)) o url (s% "3.0.0") a = (.ok o3, a') ∧
      a'.original = s% "2.0" ∧ a'.current = some (s% "3.0.0") ∧
      build pkg (.cls (s% "v3_0_0.OpenApi")) (.obj r) (some ['#']) [] = .ok o3 ∧ DocTo (docRefs d) d r ∧
      Moved move (application out (n + 1)) a' url d o3 ∧ PathsKept url d o3 ∧ KnowsMoved out.ok move a'.world o3 url ∧
      Merged3 url o3 a'.world ∧ Knows a'.world o Refs.normClasses2 url ∧
      Found (application out (n + 1)) a' url (s% "2.0") o ∧ Found (application out (n + 1)) a' url (s% "3.0.0") o3 ∧
      a'.world.rest = w' := by
  have hB : Built (.cls (s% "v2_0.Swagger")) (.obj d) o := ⟨hreg, hj, _, hb⟩
  obtain ⟨hlink, hpath⟩ := linked_conventional hB hconv
  have hA := alone_application (out := out) hu hj hb hlink hpath
  have hU : Upgradable out (alone url (s% "v2_0.Swagger") (.obj d) o) [] d := {
    app := hA
    json := rfl
    regular := hreg
    refs := fun ts c q spec kids hv hc => by
      obtain ⟨e, rfl, h⟩ := hconv ts c q spec kids hv hc
      refine ⟨e, rfl, h.imp_right ?_⟩
      rintro ⟨v, h1, h2⟩
      exact ⟨v, h1, h2.imp_right .inl⟩
    schemas := fun p hp => by cases hp
    inner := fun p hp => by cases hp
    ends := fun p hp ts x hv => by
      obtain rfl := hp.resolve_right (fun h => by cases h)
      obtain ⟨k, z, _, hc⟩ := hground ts x hv
      exact ⟨k, z, alone_ends hu hB hconv hc ts hv⟩
    noFiles := hfiles
    names := hnames
    resolves := hres
    able := hable
    scopes := hscopes
    sets := hset
    places := fun p hp => by cases hp
    differ := fun p q hp => by cases hp }
  obtain ⟨a, a', r, o3, move, h1, h2, h3, h4, h5, h6, h7, h8, h9, h10, h11, l, l1, l2, l3⟩ := C96_documents_partial out _ [] d hU w (by
    show (out.fetch url w).1 = _; rw [hf]; rfl) hv n (Nat.zero_le _) (by
      show ((visits o) ++ []).length ≤ _; rwa [List.append_nil])
  obtain ⟨_, hk3, hf3, _⟩ := h10 _ _ .main
  obtain ⟨hk, hf2, _⟩ := h11 _ .main
  refine ⟨a, a', r, o3, move, h1, h2, h3, h4, h6, h5, h7, h8, ?_, h9, ?_, ?_, ?_, ?_⟩
  · intro ts x hv
    refine ⟨fun r hr => ?_, (hk3 ts x hv).2⟩
    obtain ⟨n, y, u, us, g1, g2, g3⟩ := (hk3 ts x hv).1 r hr
    rcases g2 with ⟨t, ht, _⟩ | ⟨vs, rfl, _, rfl, k2, k3⟩
    · cases ht
    · exact ⟨vs, us, y, g1, k2, k3, g3⟩
  · intro ts x hv
    refine ⟨fun r hr => ?_, (hk ts x hv).2⟩
    obtain ⟨n, q, y, g1, g2, g3, g4⟩ := (hk ts x hv).1 r hr
    obtain ⟨us, rfl, k1, rfl⟩ := alone_step hu hlink hv hr g1 (g2.resolve_right (fun h => by cases h)) g3
    exact ⟨us, y, rfl, k1, g4⟩
  · intro ts x parser dummy hs hx
    exact hf2 (n + 1) ts x parser _ dummy hs hx (.inr rfl)
  · intro ts x parser dummy hs hx
    exact hf3 (n + 1) ts x parser _ dummy hs hx (.inr rfl)
  · have : l = [alone url (s% "v2_0.Swagger") (.obj d) o] := only_one l1 (fun p hp => by
      cases (l2 p).1 hp with
      | main => rfl
      | next _ _ h => cases h) ((l2 _).2 .main)
    rw [l3, this]
    show (out.fetch url w).2 = _
    rw [hf]

end up

end Pyopenapi.Main
