import Verif.Lemmas.Says
import Verif.Lemmas.MainLoad
import Verif.Spec.Main12
import Verif.Props.Up12More

/-!
# A resource listing is loaded, and goes through the steps to 1.2 and 2.0
-/

namespace Pyopenapi.Main
open _root_.Pyopenapi.Spec _root_.Pyopenapi.Refs.Spec Obj

variable {W : Type}

theorem mapM_paths {es : List (Dict Json)} {os : List Obj} {ps : List Str}
    (h : List.Forall₂ (fun e o => Built (.cls (s% "v1_2.ResourceInListing")) (.obj e) o) es os)
    (hp : es.map (fun e => Dict.get? e (s% "path")) = ps.map (fun p => some (.str p))) :
    os.mapM (fun e => match e with
      | .base c _ spec kids => do
        match ← Obj.getattr pkg c spec kids (s% "path") with
        | .prim (.str s) => (.ok s : R Str)
        | _ => .error .typeError
      | _ => .error .attributeError) = .ok ps := by
  induction h generalizing ps with
  | nil => cases ps with
    | nil => rfl
    | cons _ _ => cases hp
  | @cons e o es os hb hbs ih =>
    cases ps with
    | nil => cases hp
    | cons p ps =>
      simp only [List.map_cons, List.cons.injEq] at hp
      obtain ⟨d', q, kids, hd, rfl, _⟩ := built_cls hb
      cases hd
      have hg : Obj.getattr pkg (s% "v1_2.ResourceInListing") (.obj e) kids (s% "path") = .ok (.prim (.str p)) := by
        unfold Obj.getattr
        rw [if_neg (by decide), show Dict.get? (pkg (s% "v1_2.ResourceInListing")).fields (s% "path") = some { } from rfl]
        dsimp only
        unfold readField
        simp only [specGet, hp.1]
        rfl
      rw [List.mapM_cons]
      dsimp only
      rw [hg, ih hp.2]
      rfl

theorem paths_of {l : Dict Json} {listing : Obj} {ps : List Str} (h : Built (.cls (s% "v1_2.ResourceListing")) (.obj l) listing)
    (ha : given l (s% "apis") ≠ none) (hp : (dictsAt l (s% "apis")).map (fun e => Dict.get? e (s% "path")) = ps.map (fun p => some (.str p))) :
    listingPaths listing = .ok ps := by
  have hk := Up12.kid_dictsAt h (k := s% "apis") (c' := s% "v1_2.ResourceInListing") (by decide +kernel)
  obtain ⟨v, hv⟩ := Option.ne_none_iff_exists'.1 ha
  obtain ⟨x, hx, hbx⟩ := built_kid_some h (cd := { builder := .listOf (.cls (s% "v1_2.ResourceInListing")) }) (by decide +kernel) hv
  obtain ⟨p, hp'⟩ := hbx.path
  obtain ⟨d', q, kids, hd, rfl, _⟩ := built_cls h
  cases hd
  have hm := mapM_paths hk hp
  rw [hx] at hm
  cases v with
  | arr l =>
    dsimp only at hp'
    rw [build_list] at hp'
    split at hp'
    · cases hp'
    · cases hp'
      unfold listingPaths
      dsimp only
      have hx : Dict.get? kids (s% "apis") = _ := hx
      rw [hx]
      exact hm
  | _ => rw [build_list_other _ _ _ (by simp)] at hp'; cases hp'

theorem resources_load {out : Outer W} {up : Str → Obj → Str → App Obj (World W) → R (Obj × Routes) × App Obj (World W)} {url : Str}
    {rs : List Resource} (hu : ∀ r ∈ rs, resourceUrl out url r.path = .ok r.url)
    (hb : ∀ r ∈ rs, build pkg (.cls (s% "v1_2.ApiDeclaration")) (.obj r.doc) (some (jpCompose [r.name] (some r.url))) [] = .ok r.obj) :
    ∀ {w w' : W} (a f c) (last : Str) (apis : Dict Obj), Fetched out (rs.map (fun r => (r.url, Json.obj r.doc))) w w' →
      ((rs.map Resource.name).Nodup) → (∀ r ∈ rs, r.name ∉ Dict.keys apis) →
      ∃ last', App.resources (appWith out up) url (rs.map Resource.path) last apis ⟨a, f, c, w⟩ =
        (.ok (last', apis ++ rs.map (fun r => (r.name, r.obj))), ⟨a, f, c, w'⟩) := by
  induction rs with
  | nil =>
    intro w w' a f c last apis hf _ _
    cases hf
    exact ⟨last, by simp [App.resources]⟩
  | cons r rs ih =>
    intro w w' a f c last apis hf hn hk
    cases hf with
    | @one _ _ _ _ w1 _ h1 h2 =>
    rw [List.map_cons, App.resources]
    rw [show (appWith out up).resourceUrl url r.path = .ok r.url from hu r (List.mem_cons_self ..)]
    dsimp only
    have hfe : (appWith out up).fetch r.url ⟨a, f, c, w⟩ = (.ok (.obj r.doc), ⟨a, f, c, w1⟩) := by
      show ((out.fetch r.url w).1, (⟨a, f, c, (out.fetch r.url w).2⟩ : World W)) = _
      rw [h1]
    rw [hfe]
    dsimp only
    rw [if_neg (by simp)]
    have hd : (appWith out up).declaration (.obj r.doc) (jpCompose [r.path.drop 1] (some r.url)) ⟨a, f, c, w1⟩ = (.ok r.obj, ⟨a, f, c, w1⟩) := by
      show (build pkg _ _ _ [], _) = _
      rw [show jpCompose [r.path.drop 1] (some r.url) = jpCompose [r.name] (some r.url) from rfl, hb r (List.mem_cons_self ..)]
    rw [hd]
    dsimp only
    have hnot : r.path.drop 1 ∉ Dict.keys apis := hk r (List.mem_cons_self ..)
    rw [List.map_cons, List.nodup_cons] at hn
    obtain ⟨last', e⟩ := ih (fun r hr => hu r (List.mem_cons_of_mem _ hr)) (fun r hr => hb r (List.mem_cons_of_mem _ hr)) a f c r.url
      (Dict.set apis (r.path.drop 1) r.obj) h2 hn.2 (fun x hx hm => by
        rcases Dict.mem_keys_set.1 hm with h | h
        · exact hn.1 (List.mem_map.2 ⟨x, hx, h⟩)
        · exact hk x (List.mem_cons_of_mem _ hx) h)
    refine ⟨last', e.trans ?_⟩
    rw [Dict.set_of_not_mem _ hnot]
    simp [Resource.name]

/-- What `load_obj` leaves behind: the listing is kept under the url of the last resource (C68). -/
def loaded12 (w' : W) (listing : Obj) (last : Str) (rs : List Resource) : App Obj (World W) where
  store := (Store.init [s% "1.2", s% "2.0", s% "3.0.0"]).set listing last ['#'] (s% "1.2")
  original := s% "1.2"
  current := none
  world := ⟨[], [], [(listing, rs.map (fun r => (r.name, r.obj)))], w'⟩

theorem Api12.source {out : Outer W} {url : Str} {l : Dict Json} {listing : Obj} {rs : List Resource} (h : Api12 out url l listing rs) :
    Built (.cls (s% "v1_2.ResourceListing")) (.obj l) listing := ⟨h.regular, h.wf, _, h.built⟩

theorem resource_url {out : Outer W} {url path name there : Str} (hp : path = '/' :: name) (h : Beside out.ok url name there) :
    resourceUrl out url path = .ok there := by
  obtain ⟨u, folder, hu, h1, h2, h3, h4, rfl⟩ := h
  unfold resourceUrl
  rw [hp]
  simp only [List.drop_succ_cons, List.drop_zero]
  rcases h3 with ⟨file, g1, g2, g3, g4⟩ | ⟨g1, g2, g3⟩
  · obtain ⟨t, e1, e2⟩ := C12_file_partial out.ok url folder file u hu g1 g2 h2 h1 g3 g4
    rw [e1]
    simp only [bind, Except.bind]
    have := C11_text out.ok t name folder name _ e2 (by by_cases hf : folder = [] <;> simp [hf]) h2 (.inl rfl) h4
    exact this
  · rw [C12_folder out.ok url u hu g2 g3]
    simp only [bind, Except.bind]
    exact C11_text out.ok url name folder name u hu g1 h2 (.inl rfl) h4

theorem load_listing {out : Outer W} {n : Nat} {w w' : W} {url : Str} {l : Dict Json} {listing : Obj} {rs : List Resource}
    (h : Api12 out url l listing rs) (hf : Fetched out ((url, .obj l) :: rs.map (fun r => (r.url, Json.obj r.doc))) w w') :
    ∃ last, App.loadObj (application out n) url none false (opened w) = (.ok listing, loaded12 w' listing last rs) := by
  cases hf with
  | @one _ _ _ _ w1 _ hf1 hf2 =>
  have hb := h.built
  have hr := isRoot_of (out := out) (n := n) hb (by decide)
  obtain ⟨up, e⟩ := application_with out n
  rw [e] at hr ⊢
  have hsp : (appWith out up).split url = .ok (url, ['#']) := split_url h.docUrl
  have hfe : (appWith out up).fetch url (opened w).world = (.ok (.obj l), ⟨[], [], [], w1⟩) := by
    show ((out.fetch url w).1, (⟨[], [], [], (out.fetch url w).2⟩ : World W)) = _
    rw [hf1]
  have hvo : (appWith out up).versionOf listing = .ok (s% "1.2") := (version_of hb).2
  have ht := truthy_of hb
  have hps : listingPaths listing = .ok (rs.map Resource.path) := paths_of h.source h.apis (by rw [h.paths]; simp)
  obtain ⟨last, hres⟩ := resources_load (up := up) (fun r hr => resource_url (h.urls r hr).1 (h.urls r hr).2) (fun r hr => (h.resources r hr).2.2) [] [] [] url [] hf2 h.names (fun _ _ hm => by cases hm)
  refine ⟨last, ?_⟩
  unfold App.loadObj
  rw [hfe]
  dsimp only
  rw [specVersion_says h.version]
  dsimp only
  rw [hsp]
  dsimp only
  have hg : Store.get ((appWith out up).ops ⟨[], [], [], w1⟩) (opened w).store url ['#'] (s% "1.2") = .ok none := rfl
  have hun : Store.getUnder (opened w).store url ['#'] (s% "1.2") false = .ok (none, (opened w).store) := rfl
  simp only [Option.getD_some, hg, hun, Option.filter_none]
  have hbd : App.build (appWith out up) (.obj l) url url (some (s% "1.2")) none none ⟨[], [], [], w1⟩ =
      (.ok (listing, last, s% "1.2"), ⟨[], [], [(listing, rs.map (fun r => (r.name, r.obj)))], w'⟩) := by
    unfold App.build
    dsimp only
    rw [if_pos rfl]
    have : (appWith out up).listing (.obj l) url ⟨[], [], [], w1⟩ = (.ok (listing, rs.map Resource.path), ⟨[], [], [], w1⟩) := by
      show ((do
        let o ← build pkg (.cls (s% "v1_2.ResourceListing")) (.obj l) (some url) []
        let ps ← listingPaths o
        .ok (o, ps) : R (Obj × List Str)), _) = _
      rw [hb]
      simp only [bind, Except.bind]
      rw [hps]
    rw [this]
    dsimp only
    rw [hres]
    rfl
  rw [hbd]
  dsimp only
  rw [if_neg (by
    show ¬ (listing.truthy = false)
    rw [ht]
    decide), if_pos hr, hvo]
  rfl

end Pyopenapi.Main
