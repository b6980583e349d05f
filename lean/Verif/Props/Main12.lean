import Verif.Lemmas.Main12Steps
import Verif.Lemmas.Up12To3
import Verif.Props.MainUp

/-!
# C98: applications of Swagger 1.2 are loaded, with all their resources, and migrated to 2.0
-/

namespace Pyopenapi.Main
open _root_.Pyopenapi.Spec _root_.Pyopenapi.Refs.Spec Obj

variable {W : Type}

theorem Api12.source12 {out : Outer W} {url : Str} {l : Dict Json} {listing : Obj} {rs : List Resource} (h : Api12 out url l listing rs)
    {num : Numbers} {lower : Str → Str} (hup : Spec.Upgradable num lower l (rs.map Resource.doc)) :
    Source12 l (rs.map Resource.doc) listing (rs.map (fun r => (r.name, r.obj))) := by
  refine ⟨h.source, ?_, fun e he => ?_⟩
  · have := h.resources
    clear hup
    clear h
    induction rs with
    | nil => exact .nil
    | cons r rs ih =>
      obtain ⟨h1, h2, h3⟩ := this r (List.mem_cons_self ..)
      exact .cons ⟨h1, h2, _, h3⟩ (ih (fun r hr => this r (List.mem_cons_of_mem _ hr)))
  · intro k m hm ht
    obtain ⟨ss, hs⟩ := ((hup.resources e he).2.2.2.2 k m hm).2.2 ht
    exact ⟨_, hs⟩

theorem Api12.declared {out : Outer W} {url : Str} {l : Dict Json} {listing : Obj} {rs : List Resource} (h : Api12 out url l listing rs) :
    Declared (rs.map Resource.doc) := by
  intro e he
  obtain ⟨r, hr, rfl⟩ := List.mem_map.1 he
  obtain ⟨h1, h2, h3⟩ := h.resources r hr
  exact ⟨r.obj, h1, h2, _, h3⟩

theorem among_of {ok : Str → Bool} {lower : Str → Str} {ds : List (Dict Json)} {host : Str} {ops : List Op12}
    (h : SiteOf ok (allOps lower ds) host ops) : Among lower ds ops := by
  intro x hx
  rcases h with ⟨_, _, scheme, _, _, _, rfl⟩ | ⟨_, _, _, rfl⟩
  · obtain ⟨y, hy, rfl⟩ := List.mem_map.1 hx
    exact ⟨y, hy, rfl, rfl, rfl⟩
  · exact ⟨x, hx, rfl, rfl, rfl⟩

theorem method_ne {num : Numbers} {lower : Str → Str} {l : Dict Json} {ds : List (Dict Json)} (hup : Spec.Upgradable num lower l ds) :
    ∀ x ∈ allOps lower ds, x.method ≠ s% "parameters" := by
  intro x hx
  obtain ⟨e, he, hx⟩ := List.mem_flatMap.1 hx
  obtain ⟨api, ha, hx⟩ := List.mem_flatMap.1 hx
  obtain ⟨op, hop, rfl⟩ := List.mem_map.1 hx
  exact (((hup.resources e he).2.2.2.1 api ha).2.2 op hop).2.2.2.2.1

/-- The upgrade of the listing. -/
theorem upgraded12 {out : Outer W} {url : Str} {l : Dict Json} {listing : Obj} {rs : List Resource} {host : Str} {ops : List Op12}
    (hpy : PythonOk out.up12) (h : Api12 out url l listing rs)
    (hup : Spec.Upgradable out.up12.numbers out.up12.lower l (rs.map Resource.doc))
    (hsite : SiteOf out.up12.urlOk (allOps out.up12.lower (rs.map Resource.doc)) host ops) :
    ∃ doc o, Up12.upgrade12 out.up12 listing (rs.map (fun r => (r.name, r.obj))) = .ok (doc, o) ∧
      Built (.cls (s% "v2_0.Swagger")) (.obj doc) o ∧ build pkg (.cls (s% "v2_0.Swagger")) (.obj doc) (some (s% "#")) [] = .ok o ∧
      UpgradedTo out.up12.numbers out.up12.lower out.up12.sep l (rs.map Resource.doc) host ops doc := by
  have hs := h.source12 hup
  rcases hsite with ⟨h1, h2, scheme, h3, h4, h5, rfl⟩ | ⟨rfl, h2, h5, rfl⟩
  · obtain ⟨doc, o, e, hB⟩ := C77_site hpy hs hup scheme host h3 h4 h1 h2 h5
    exact ⟨doc, o, e, hB, C75_object hpy hs doc o e, C75_document hpy hs doc o e, C63_site hpy hs doc o e scheme host h3 h4 h1 h2 hup.operations h5⟩
  · obtain ⟨doc, o, e, hB⟩ := C77_noSite hpy hs hup h2 h5
    exact ⟨doc, o, e, hB, C75_object hpy hs doc o e, C75_document hpy hs doc o e, C63_noSite hpy hs doc o e h2 hup.operations h5⟩

/-- **C98**: a resource listing is loaded, each of its resources is fetched, once and in order, and the migration to 2.0 makes one
document of them (`UpgradedTo`: C61-C64, C75-C77), all of whose references lead to its definitions, are known and are found;
the listing stays available; nothing else is fetched. -/
theorem C98_two {out : Outer W} {n : Nat} {w w' : W} {url : Str} {l : Dict Json} {listing : Obj} {rs : List Resource} {host : Str}
    {ops : List Op12} (hpy : PythonOk out.up12) (h : Api12 out url l listing rs)
    (hf : Fetched out ((url, .obj l) :: rs.map (fun r => (r.url, Json.obj r.doc))) w w')
    (hup : Spec.Upgradable out.up12.numbers out.up12.lower l (rs.map Resource.doc))
    (hsite : SiteOf out.up12.urlOk (allOps out.up12.lower (rs.map Resource.doc)) host ops)
    (hc : Closed12 out.up12.lower out.up12.sep (rs.map Resource.doc)) :
    ∃ a a' doc o, App.loadObj (application out (n + 1)) url none false (opened w) = (.ok listing, a) ∧
      a.original = s% "1.2" ∧ a.world.rest = w' ∧
      App.migrateObj (application out (n + 1)) listing url (s% "2.0") a = (.ok o, a') ∧
      a'.original = s% "1.2" ∧ a'.current = some (s% "2.0") ∧
      build pkg (.cls (s% "v2_0.Swagger")) (.obj doc) (some (s% "#")) [] = .ok o ∧
      UpgradedTo out.up12.numbers out.up12.lower out.up12.sep l (rs.map Resource.doc) host ops doc ∧
      Conventional o doc ∧ Knows a'.world o Refs.normClasses2 url ∧
      Found (application out (n + 1)) a' url (s% "1.2") listing ∧ Found (application out (n + 1)) a' url (s% "2.0") o ∧
      a'.world.rest = w' := by
  obtain ⟨doc, o, he, hB, hb, hto⟩ := upgraded12 hpy h hup hsite
  have std := std12 hto hc h.declared (among_of hsite) (method_ne hup) hB
  obtain ⟨last, hload⟩ := load_listing (n := n + 1) h hf
  obtain ⟨a1, h1, h2, h3, h4, h5⟩ := step12_local (out := out) (n := n) (vs := [s% "2.0"]) (o := listing) (loaded12_start w' listing last url rs)
  have hvl := (version_of h.built).2
  obtain ⟨a2, g1, g2, g3, g4, g5, g6, g7⟩ := step20_from12 (n := n) (vs := []) h.docUrl hvl (by rw [h5]; exact loaded12_cached w' listing last rs)
    he hB.wf hb h2 (linked_of std) (noPathRef_of std) (fun v _ => by rw [h5]; rfl)
  obtain ⟨cache, k1, k2, k3⟩ := g2.objs
  refine ⟨_, { a2 with current := some (s% "2.0") }, doc, o, hload, rfl, rfl, ?_, g3.trans h3, rfl, hb, hto, std.conv, g5,
    found_of h.docUrl (by decide) ⟨cache, k1, k3 _ (List.mem_cons_self ..)⟩,
    found_of h.docUrl (by decide) ⟨cache, k1, k3 (s% "2.0", o) (by simp)⟩, g7.trans (by rw [h5]; rfl)⟩
  unfold App.migrateObj
  rw [show (loaded12 w' listing last rs).store.versions = [s% "1.2", s% "2.0", s% "3.0.0"] from rfl, if_neg (by decide)]
  have hv : (application out (n + 1)).versionOf listing = .ok (s% "1.2") := hvl
  rw [hv]
  dsimp only
  rw [plan12_2]
  have hsp : (application out (n + 1)).split url = .ok (url, ['#']) := split_url h.docUrl
  dsimp only
  rw [hsp]
  dsimp only
  rw [h1, g1, App.migrateLoop]
  dsimp only
  rw [isRoot_of hb (by decide)]
  rfl

/-! ### C99: and to 3.0.0 -/

theorem slash_of {ok : Str → Bool} {all : List Op12} {host : Str} {ops : List Op12} (h : SiteOf ok all host ops) :
    ∀ x ∈ ops, ∃ r, x.path = '/' :: r := by
  intro x hx
  rcases h with ⟨_, _, scheme, _, _, h5, rfl⟩ | ⟨_, _, h5, rfl⟩
  · obtain ⟨y, hy, rfl⟩ := List.mem_map.1 hx
    obtain ⟨r, hr⟩ := h5 y hy
    refine ⟨r, ?_⟩
    show y.path.drop _ = _
    rw [hr, List.drop_left]
  · obtain ⟨r, hr, _⟩ := h5 x hx
    exact ⟨r, hr⟩

/-- The step from 2.0 to 3.0.0, of a document that has come from 1.2. -/
theorem step30_up {out : Outer W} {n : Nat} {a : App Obj (World W)} {url : Str} {d : Dict Json} {o o3 : Obj} {r : Dict Json} {rl r1 r2 : Routes}
    {has : List (Str × Obj)} {vs : List Str} (hu : DocUrl out.ok url) (hr : Ready out url d o r rl o3)
    (ho : o.className? = some (s% "v2_0.Swagger") ∧ versionOf o = .ok (s% "2.0")) (hs : Stepped a url r1 r2 has)
    (hk : Knows a.world o Refs.normClasses2 url) (hor : a.original ≠ s% "3.0.0")
    (hfresh : ∀ ts x, Visited [] o3 ts x → attrsOf a.world x = {}) :
    ∃ a', App.migrateLoop (application out (n + 1)) url url (s% "3.0.0" :: vs) ['#'] (s% "2.0") o a =
        App.migrateLoop (application out (n + 1)) url url vs ['#'] (s% "3.0.0") o3 a' ∧
      Dict.get? a'.store.routes url = some [(s% "1.2", r1), (s% "2.0", r2), (s% "3.0.0", [(['#'], .nested rl)])] ∧
      Has a' url (s% "3.0.0") o3 ∧ (∀ p ∈ has, p.1 ≠ s% "3.0.0" → Has a' url p.1 p.2) ∧
      a'.original = a.original ∧ KnowsVia (fun p => patchJp p [(['#'], .nested rl)]) a'.world o3 Refs.normClasses3 url ∧
      a'.world.rest = a.world.rest := by
  obtain ⟨cache, c1, c2, c3⟩ := hs.objs
  obtain ⟨a3, g1, g2, g3, g4, g5, g6, g7, g8, g9⟩ := step30_local (n := n) (vs := vs) (o0 := o) (from_ := s% "2.0") (reloc := rl) (a := a)
    (r1 := r1) (r2 := r2) hu (by decide) hr.wf hr.built hr.scanned (.inr ⟨cache, c1⟩) hr.noExamples hr.linked hr.noPath
    (fun v hv => hfresh v.1 v.2 ((hr.scanned.2.2 _ _).1 hv))
    (fun st e1 _ => routes_next (st := st) rl (by rw [e1]; exact hs.routes))
    (fun ts => .inr ⟨hor, rfl⟩) (.inr ⟨rfl, hr.keys⟩)
    (fun up => by
      unfold upgrade30
      rw [split_url hu, ho.2]
      dsimp only
      rw [if_pos (by decide), under_none (.inr ⟨cache, c1, c2⟩)]
      dsimp only
      have : convert (convEnv out a.world) o url ['#'] [] = .ok (o3, rl) := by
        unfold convert
        rw [ho.1]
        dsimp only
        rw [if_pos rfl, hr.conv _ hk]
        simp only [bind, Except.bind]
        rw [hr.built]
      rw [this])
  exact ⟨a3, g1, g2, g3, fun p hp hne => g4 _ _ hne ⟨cache, c1, c3 p hp⟩, g5, g7, g9⟩

/-- The server of the document: its host, without a scheme. -/
theorem server12 {out : Outer W} {url : Str} {num : Numbers} {lower : Str → Str} {sep : Str} {l : Dict Json} {ds : List (Dict Json)} {host : Str}
    {ops : List Op12} {d : Dict Json} {o o3 : Obj} {r : Dict Json} {rl : Routes} (hto : UpgradedTo num lower sep l ds host ops d)
    (hr : Ready out url d o r rl o3) : Dict.get? r (s% "servers") = some (.arr [.obj [(s% "url", .str (ite (host = []) ['/'] host))]]) := by
  have hs : strsAt d (s% "schemes") = [s% "http", s% "https"] := by unfold strsAt; rw [listAt_get hto.1.schemes]; rfl
  obtain ⟨u, h1, h2⟩ := hr.server host [] (.inl (by unfold look; rw [hto.2.1]; rfl)) (.inl (by unfold look; rw [hto.1.basePath]; rfl))
    (by rw [hs]; decide)
  rw [h1]
  by_cases hh : host = []
  · rw [if_pos hh, h2.2.2 rfl hh]
  · rw [if_neg hh, h2.2.1 rfl hh]

/-- **C99**: a resource listing is migrated to 3.0.0: the document made for 2.0 (`UpgradedTo`) becomes one of 3.0.0 that says the
same (`DocTo`: C53-C60) with the host as its server; its references are references to the models, rewritten, known and found; each version stays available; nothing but
the listing and its resources is fetched. -/
theorem C99_three {out : Outer W} {n : Nat} {w w' : W} {url : Str} {l : Dict Json} {listing : Obj} {rs : List Resource} {host : Str}
    {ops : List Op12} (hpy : PythonOk out.up12) (hset : SetOrdered out) (h : Api12 out url l listing rs)
    (hf : Fetched out ((url, .obj l) :: rs.map (fun r => (r.url, Json.obj r.doc))) w w')
    (hup : Spec.Upgradable out.up12.numbers out.up12.lower l (rs.map Resource.doc))
    (hsite : SiteOf out.up12.urlOk (allOps out.up12.lower (rs.map Resource.doc)) host ops)
    (hc : Closed12 out.up12.lower out.up12.sep (rs.map Resource.doc)) (hsay : Sayable12 out.up12.lower l (rs.map Resource.doc)) :
    ∃ a a' doc o r o3 move, App.loadObj (application out (n + 1)) url none false (opened w) = (.ok listing, a) ∧
      a.original = s% "1.2" ∧ a.world.rest = w' ∧
      App.migrateObj (application out (n + 1)) listing url (s% "3.0.0") a = (.ok o3, a') ∧
      a'.original = s% "1.2" ∧ a'.current = some (s% "3.0.0") ∧
      build pkg (.cls (s% "v2_0.Swagger")) (.obj doc) (some (s% "#")) [] = .ok o ∧
      UpgradedTo out.up12.numbers out.up12.lower out.up12.sep l (rs.map Resource.doc) host ops doc ∧ Conventional o doc ∧
      build pkg (.cls (s% "v3_0_0.OpenApi")) (.obj r) (some ['#']) [] = .ok o3 ∧ DocTo (docRefs doc) doc r ∧
      Dict.get? r (s% "servers") = some (.arr [.obj [(s% "url", .str (ite (host = []) ['/'] host))]]) ∧ RefersTo o3 doc ∧ Moved move (application out (n + 1)) a' url doc o3 ∧ KnowsVia move a'.world o3 Refs.normClasses3 url ∧
      Found (application out (n + 1)) a' url (s% "1.2") listing ∧ Found (application out (n + 1)) a' url (s% "2.0") o ∧
      Found (application out (n + 1)) a' url (s% "3.0.0") o3 ∧ a'.world.rest = w' := by
  obtain ⟨doc, o, he, hB, hb, hto⟩ := upgraded12 hpy h hup hsite
  have std := std12 hto hc h.declared (among_of hsite) (method_ne hup) hB
  obtain ⟨r, rl, o3, hr⟩ := ready_of (out := out) (url := url) hset hB std.conv std.grounded std.noFiles (names12 hto.1)
    (docResolves12 hto (among_of hsite) (method_ne hup) hB.wf _)
    (convertible12 hto h.declared (among_of hsite) (method_ne hup) hB.wf (slash_of hsite) hsay _ _) (scopes12 hto.1 hB.wf hup.listing hsay)
  obtain ⟨last, hload⟩ := load_listing (n := n + 1) h hf
  obtain ⟨a1, h1, h2, h3, h4, h5⟩ := step12_local (out := out) (n := n) (vs := [s% "2.0", s% "3.0.0"]) (o := listing) (loaded12_start w' listing last url rs)
  have hvl := (version_of h.built).2
  obtain ⟨a2, g1, g2, g3, g4, g5, g6, g7⟩ := step20_from12 (n := n) (vs := [s% "3.0.0"]) h.docUrl hvl (by rw [h5]; exact loaded12_cached w' listing last rs)
    he hB.wf hb h2 (linked_of std) (noPathRef_of std) (fun v _ => by rw [h5]; rfl)
  obtain ⟨a3, k1, k2, k3, k4, k5, k6, k7⟩ := step30_up (n := n) (vs := []) h.docUrl hr (version_of hb) g2 g5
    (by rw [g3, h3]; exact (show s% "1.2" ≠ s% "3.0.0" by decide))
    (fun ts x hx => by
      rw [g6 x (fun us hus => hr.fresh ts us x hx hus), h5]
      rfl)
  refine ⟨_, { a3 with current := some (s% "3.0.0") }, doc, o, r, o3, _, hload, rfl, rfl, ?_, (k5.trans g3).trans h3, rfl, hb, hto, std.conv,
    hr.built, hr.docTo, server12 hto hr, hr.refersTo, hr.found h.docUrl k3 k2, k6,
    found_of h.docUrl (by decide) (k4 (s% "1.2", listing) (by simp) (show s% "1.2" ≠ s% "3.0.0" by decide)),
    found_of h.docUrl (by decide) (k4 (s% "2.0", o) (by simp) (show s% "2.0" ≠ s% "3.0.0" by decide)),
    found_of h.docUrl (by decide) k3, (k7.trans g7).trans (by rw [h5]; rfl)⟩
  unfold App.migrateObj
  rw [show (loaded12 w' listing last rs).store.versions = [s% "1.2", s% "2.0", s% "3.0.0"] from rfl, if_neg (by decide)]
  have hv : (application out (n + 1)).versionOf listing = .ok (s% "1.2") := hvl
  rw [hv]
  dsimp only
  rw [plan12_3]
  have hsp : (application out (n + 1)).split url = .ok (url, ['#']) := split_url h.docUrl
  dsimp only
  rw [hsp]
  dsimp only
  rw [h1, g1, k1, App.migrateLoop]
  dsimp only
  rw [isRoot_of hr.built (by decide)]
  rfl

/-- C99 (deviation): of an API of Swagger 1.2 at `scheme://host`, the server of 3.0.0 is `host`: a relative url, which says neither the
scheme nor, to a client, the host. -/
theorem C99_server_violation {out : Outer W} {n : Nat} {w w' : W} {url : Str} {l : Dict Json} {listing : Obj} {rs : List Resource} {host : Str}
    {ops : List Op12} (hpy : PythonOk out.up12) (hset : SetOrdered out) (h : Api12 out url l listing rs)
    (hf : Fetched out ((url, .obj l) :: rs.map (fun r => (r.url, Json.obj r.doc))) w w')
    (hup : Spec.Upgradable out.up12.numbers out.up12.lower l (rs.map Resource.doc))
    (hsite : SiteOf out.up12.urlOk (allOps out.up12.lower (rs.map Resource.doc)) host ops) (hh : host ≠ [])
    (hc : Closed12 out.up12.lower out.up12.sep (rs.map Resource.doc)) (hsay : Sayable12 out.up12.lower l (rs.map Resource.doc)) :
    ∃ a a' r o3, App.loadObj (application out (n + 1)) url none false (opened w) = (.ok listing, a) ∧
      App.migrateObj (application out (n + 1)) listing url (s% "3.0.0") a = (.ok o3, a') ∧
      build pkg (.cls (s% "v3_0_0.OpenApi")) (.obj r) (some ['#']) [] = .ok o3 ∧
      Dict.get? r (s% "servers") = some (.arr [.obj [(s% "url", .str host)]]) ∧ ∀ scheme rest, host ≠ scheme ++ s% "://" ++ rest := by
  obtain ⟨a, a', doc, o, r, o3, move, h1, _, _, h4, _, _, _, _, _, h10, _, h12, _⟩ := C99_three (n := n) hpy hset h hf hup hsite hc hsay
  rw [if_neg hh] at h12
  refine ⟨a, a', r, o3, h1, h4, h10, h12, fun scheme rest e => ?_⟩
  rcases hsite with ⟨_, _, _, _, h, _⟩ | ⟨h, _⟩
  · refine (h '/' ?_).2 (by decide)
    rw [e]
    exact List.mem_append_left _ (List.mem_append_right _ (by decide))
  · exact hh h

/-- The flows of OAuth 2 in Swagger 2.0. -/
def flows2 : List Str := [s% "implicit", s% "password", s% "application", s% "accessCode"]

/-- C98 (deviation): the grant by authorization code of Swagger 1.2 becomes the flow `access_code`, which Swagger 2.0 does not have. -/
theorem C98_flow_violation {num : Numbers} {lower : Str → Str} {sep : Str} {l : Dict Json} {ds : List (Dict Json)} {host : Str} {ops : List Op12}
    {doc d : Dict Json} {n : Str} (hto : UpgradedTo num lower sep l ds host ops doc)
    (hd : Dict.get? (objAt l (s% "authorizations")) n = some (.obj d)) (h1 : '/' ∉ n) (h2 : '~' ∉ n)
    (ht : look d (s% "type") = .str (s% "oauth2")) (hl : loginUrl d = none) (hu : tokenUrl d ≠ none) :
    ∃ r, Dict.get? (objAt doc (s% "securityDefinitions")) n = some (.obj r) ∧ Dict.get? r (s% "flow") = some (.str (s% "access_code")) ∧
      s% "access_code" ∉ flows2 := by
  obtain ⟨sd, e, h⟩ := hto.1.security
  have ho : objAt doc (s% "securityDefinitions") = sd := by unfold objAt; rw [e]
  have := h n
  rw [ho]
  cases hq : Dict.get? sd n with
  | none => rw [hq] at this; rw [this n (escape_plain h1 h2)] at hd; cases hd
  | some v =>
    rw [hq] at this
    obtain ⟨n', d', r, e1, e2, rfl, e4⟩ := this
    have : n' = n := by
      have e2 := unescape_escape n
      rw [escape_plain h1 h2, e1, unescape_escape] at e2
      exact e2.trans e1.symm
    subst this
    rw [hd] at e2
    cases e2
    obtain ⟨_, _, e5, _⟩ := e4.2.2.1 ht
    rw [hl, if_neg (by simp), if_pos hu] at e5
    exact ⟨r, rfl, e5, by decide⟩

end Pyopenapi.Main
