import Verif.Lemmas.MainSteps

/-!
# A document is loaded into an application that has nothing yet
-/

namespace Pyopenapi.Main
open _root_.Pyopenapi.Spec _root_.Pyopenapi.Refs.Spec Obj

variable {W : Type}

/-- What `load_obj` leaves behind. -/
def loaded (w' : W) (o : Obj) (url ver : Str) : App Obj (World W) where
  store := (Store.init [s% "1.2", s% "2.0", s% "3.0.0"]).set o url ['#'] ver
  original := ver
  current := none
  world := ⟨[], [], [], w'⟩

theorem truthy_of {c : Str} {j : Json} {p : Option Str} {o : Obj} (h : build pkg (.cls c) j p [] = .ok o) : o.truthy = true := by
  rw [build_cls] at h
  split at h
  · simp at h
  · simp only [Except.ok.injEq] at h; subst h; rfl

theorem load_first {out : Outer W} {n : Nat} {w w' : W} {url ver c : Str} {j : Json} {o : Obj}
    (hu : DocUrl out.ok url) (hf : out.fetch url w = (.ok j, w')) (hv : App.specVersion j = .ok (some ver))
    (hc : (ver = s% "2.0" ∧ c = s% "v2_0.Swagger") ∨ (ver = s% "3.0.0" ∧ c = s% "v3_0_0.OpenApi"))
    (hb : build pkg (.cls c) j (some url) [] = .ok o) :
    App.loadObj (application out n) url none false (opened w) = (.ok o, loaded w' o url ver) := by
  have hr := isRoot_of (out := out) (n := n) hb (by rcases hc with ⟨_, rfl⟩ | ⟨_, rfl⟩ <;> decide)
  obtain ⟨up, e⟩ := application_with out n
  rw [e] at hr ⊢
  have hsp : (appWith out up).split url = .ok (url, ['#']) := split_url hu
  have hfe : (appWith out up).fetch url (opened w).world = (.ok j, ⟨[], [], [], w'⟩) := by
    show ((out.fetch url w).1, (⟨[], [], [], (out.fetch url w).2⟩ : World W)) = _
    rw [hf]
  have hvo : (appWith out up).versionOf o = .ok ver := by
    have := (version_of hb).2
    rw [show (appWith out up).versionOf o = versionOf o from rfl, this]
    rcases hc with ⟨rfl, rfl⟩ | ⟨rfl, rfl⟩ <;> rfl
  have ht := truthy_of hb
  unfold App.loadObj
  rw [hfe]
  dsimp only
  rw [hv]
  dsimp only
  rw [hsp]
  dsimp only
  have hg : Store.get ((appWith out up).ops ⟨[], [], [], w'⟩) (opened w).store url ['#'] ver = .ok none := rfl
  have hun : Store.getUnder (opened w).store url ['#'] ver false = .ok (none, (opened w).store) := rfl
  simp only [Option.getD_some, hg, hun, Option.filter_none]
  have hbd : App.build (appWith out up) j url url (some ver) none none ⟨[], [], [], w'⟩ = (.ok (o, url, ver), ⟨[], [], [], w'⟩) := by
    unfold App.build
    rcases hc with ⟨rfl, rfl⟩ | ⟨rfl, rfl⟩
    · dsimp only
      rw [if_neg (by decide), if_pos rfl]
      have : (appWith out up).swagger j url none ⟨[], [], [], w'⟩ = (.ok o, ⟨[], [], [], w'⟩) := by
        show (build pkg _ j (some url) [], _) = _
        rw [hb]
      rw [this]
    · dsimp only
      rw [if_neg (by decide), if_neg (by decide), if_pos rfl]
      have : (appWith out up).openapi j url none ⟨[], [], [], w'⟩ = (.ok o, ⟨[], [], [], w'⟩) := by
        show (build pkg _ j (some url) [], _) = _
        rw [hb]
      rw [this]
  rw [hbd]
  dsimp only
  rw [if_neg (by
    show ¬ (o.truthy = false)
    rw [ht]
    decide), if_pos hr, hvo]
  rfl

theorem loaded_fresh (w' : W) (o : Obj) (url ver : Str) (x : Obj) : attrsOf (loaded w' o url ver).world x = {} := rfl

theorem loaded_clean (w' : W) (o : Obj) (url ver : Str) : Clean (loaded w' o url ver) url :=
  (has_set (a := opened w') (.inl rfl) o ver).clean

theorem loaded_start (w' : W) (o : Obj) (url : Str) : Start (loaded w' o url (s% "2.0")) url :=
  ⟨rfl, rfl, .inr ⟨[(s% "2.0", o)], by
    show Dict.get? (Dict.set [] url _) url = _
    rw [Dict.get?_set_self]
    rfl, rfl⟩⟩

theorem scanned_of {c : Str} (hc : noCallbacks c = true) {j : Json} (hj : j.wf = true) {p : Option Str} {root : Obj}
    (h : build pkg (.cls c) j p [] = .ok root) : Scanned root (visits root) := by
  have hC : ∀ c, noCallbacks c = true → (pkg c).children.all
      (fun kc => within noCallbacks (fun b => flatB b || contB b) kc.2.builder) = true := by
    intro c hc
    have h := pkg_children (p := fun c kc => !noCallbacks c ||
      within noCallbacks (fun b => flatB b || contB b) kc.2.builder) (by decide +kernel) c
    simpa [hc] using h
  have hl : Loaded pkg (fun b => within noCallbacks (fun b => flatB b || contB b) b = true) root :=
    ⟨_, j, p, by simpa [within] using hc, hj, h⟩
  exact Refs.scanned_walk (loaded_keyed okTable_pkg (closed_within hC) hl) (loaded_noMix plainNames_pkg hC hl)

end Pyopenapi.Main
