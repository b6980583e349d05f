import Verif.Spec.Main
import Verif.Lemmas.RefSteady
import Verif.Props.App
import Verif.Props.Url2
import Verif.Props.ConvReloc

/-!
# References that lead into a document the application has
-/

namespace Pyopenapi.Main
open _root_.Pyopenapi.Spec _root_.Pyopenapi.Refs.Spec Obj

variable {W : Type}

theorem DocUrl.ne {ok : Str → Bool} {url : Str} (h : DocUrl ok url) : url ≠ [] := by
  rintro rfl
  obtain ⟨u, h1, h2, _⟩ := h.parsed
  have : Url.parse ok [] = if !ok [] then .error .valueError else .ok ⟨[], [], [], [], [], []⟩ := by
    unfold Url.parse; rfl
  rw [this] at h1
  split at h1
  · cases h1
  · cases h1; exact h2 rfl

theorem pointer_compose (ts : List Str) : pointer ts = jpCompose ts (some ['#']) := by
  rw [jpCompose_base (by simp)]
  have : ∀ ts : List Str, ts.flatMap (fun t => '/' :: escape t) = match ts.map jpEncode with
      | [] => []
      | t :: us => '/' :: Str.joinC '/' (t :: us) := by
    intro ts
    induction ts with
    | nil => rfl
    | cons t ts ih =>
      simp only [List.flatMap_cons, List.map_cons]
      rw [ih]
      have he : escape t = jpEncode t := (jpEncode_eq_escape t).symm
      cases ts with
      | nil => simp [Str.joinC, he]
      | cons u us => simp [Str.joinC, he]
  unfold pointer
  rw [this ts]
  cases ts.map jpEncode with
  | nil => rfl
  | cons t us => rfl

theorem pointer_ne (ts : List Str) : ∃ jp, pointer ts = '#' :: jp := ⟨_, rfl⟩

theorem split_pointer {out : Outer W} {url : Str} (h : DocUrl out.ok url) {ts : List Str} (hs : Safe ts) :
    jrSplit out.ok out.path2url out.abspath (url ++ pointer ts) = .ok (url, pointer ts) := by
  obtain ⟨u, h1, h2, h3⟩ := h.parsed
  exact (C10_split out.ok out.path2url out.abspath url _ u h.hash h.win h1 h2 h3
    (fun c hc => hs c (List.mem_cons_of_mem _ hc))).1

theorem split_url {out : Outer W} {url : Str} (h : DocUrl out.ok url) :
    jrSplit out.ok out.path2url out.abspath url = .ok (url, ['#']) := by
  obtain ⟨u, h1, h2, h3⟩ := h.parsed
  exact (C10_split out.ok out.path2url out.abspath url [] u h.hash h.win h1 h2 h3 (by simp)).2

theorem norm_pointer {ok : Str → Bool} {url : Str} (h : url ≠ []) {t : Str} {ts : List Str} :
    normalizeJr ok (some (pointer (t :: ts))) (some url) = .ok (some (url ++ pointer (t :: ts))) := by
  have := (C08_fragment ok url h ((t :: ts).flatMap (fun t => '/' :: escape t))).1
  rw [show '#' :: (t :: ts).flatMap (fun t => '/' :: escape t) = pointer (t :: ts) from rfl] at this
  rw [this]
  rfl

/-- The absolute reference to a place of a document. -/
theorem norm_absolute {ok : Str → Bool} {url : Str} (h : DocUrl ok url) {t : Str} {ts : List Str} (base : Option Str) :
    normalizeJr ok (some (url ++ pointer (t :: ts))) base = .ok (some (url ++ pointer (t :: ts))) := by
  obtain ⟨u, h1, h2, _⟩ := h.parsed
  have := C08_absolute ok url h.hash (some ((t :: ts).flatMap (fun t => '/' :: escape t))) base u h1 h2
  exact this

theorem has_get {a : App Obj (World W)} {url ver : Str} {root : Obj} (h : Has a url ver root) (ops : ObjOps Obj) (ts : List Str) :
    a.store.get ops url (pointer ts) ver = ops.resolve root ts := by
  obtain ⟨cache, h1, h2⟩ := h
  unfold Store.get
  rw [h1]
  have hs : Str.startsWith (pointer ts) ['#'] = true := by
    rw [pointer_compose]; exact startsWith_compose ts ['#'] (by simp)
  have ht : (jpSplit ((pointer ts).drop 1)).drop 1 = ts := by
    rw [pointer_compose]; exact tokens_of_compose ts ['#'] (by simp)
  show Store.getLoop _ _ _ _ = _
  unfold Store.getLoop
  rw [hs, h2]
  exact congrArg _ ht

theorem resolveObject_at {root x : Obj} {ts : List Str} (h : At root ts x) : resolveObject root ts = .ok (some x) := by
  obtain ⟨h1, h2⟩ := h
  unfold resolveObject
  rw [h1]
  cases x <;> first | rfl | cases h2

/-- A reference into a document the application has, of the same version. -/
theorem hit_same {out : Outer W} {up : Str → Obj → Str → App Obj (World W) → R (Obj × Routes) × App Obj (World W)}
    {a : App Obj (World W)} {url ver : Str} {root x : Obj} {ts : List Str} (hu : DocUrl out.ok url) (hv : ver ≠ []) (hs : Safe ts)
    (h : Has a url ver root) (hx : At root ts x) (to : Option Str) (hto : to = none ∨ to = some ver) (dummy : Bool) (p : Builder) :
    resolveIn (appWith out up) dummy ver to (url ++ pointer ts) p a = (.ok (some (x, url ++ pointer ts)), a) := by
  have hg : a.store.get ((appWith out up).ops a.world) url (pointer ts) ver = .ok (some x) :=
    (has_get h _ ts).trans (resolveObject_at hx)
  have hne : url ++ pointer ts ≠ [] := by simp [hu.ne]
  have hp : (appWith out up).isPrim x = false := by
    obtain ⟨_, h2⟩ := hx
    cases x <;> first | rfl | cases h2
  have ht : x.truthy = true := by
    obtain ⟨_, h2⟩ := hx
    cases x <;> first | rfl | cases h2
  have key : ∀ parser, App.resolveObj (appWith out up) (url ++ pointer ts) ver parser to dummy a = (.ok (x, url ++ pointer ts), a) := by
    intro parser
    rcases hto with rfl | rfl
    · unfold App.resolveObj
      rw [if_neg hne]
      simp only [show (appWith out up).split (url ++ pointer ts) = .ok (url, pointer ts) from split_pointer hu hs, hu.ne, if_false,
        ne_eq, not_true_eq_false, hg, hp]
      rfl
    · rw [C66_cached (appWith out up) _ ver parser ver dummy a url (pointer ts) (pointer ts) x hne hv (split_pointer hu hs) hu.ne
        (.inr ⟨rfl, rfl⟩) hg, hp]
      rfl
  unfold resolveIn
  rw [key]
  simp only [ht, if_true]

/-- A reference into a document the application has in another version. -/
theorem hit_moved {out : Outer W} {up : Str → Obj → Str → App Obj (World W) → R (Obj × Routes) × App Obj (World W)}
    {a : App Obj (World W)} {url from_ to : Str} {root x : Obj} {ts us : List Str} (hu : DocUrl out.ok url) (hv : to ≠ []) (hft : from_ ≠ to)
    (hs : Safe ts) (h : Has a url to root) (hr : a.store.relocate url (pointer ts) from_ to = .ok (pointer us)) (hx : At root us x)
    (dummy : Bool) (p : Builder) :
    resolveIn (appWith out up) dummy from_ (some to) (url ++ pointer ts) p a = (.ok (some (x, url ++ pointer us)), a) := by
  have hg : a.store.get ((appWith out up).ops a.world) url (pointer us) to = .ok (some x) :=
    (has_get h _ us).trans (resolveObject_at hx)
  have hne : url ++ pointer ts ≠ [] := by simp [hu.ne]
  have hp : (appWith out up).isPrim x = false := by
    obtain ⟨_, h2⟩ := hx
    cases x <;> first | rfl | cases h2
  have ht : x.truthy = true := by
    obtain ⟨_, h2⟩ := hx
    cases x <;> first | rfl | cases h2
  unfold resolveIn
  rw [C66_cached (appWith out up) _ from_ _ to dummy a url (pointer ts) (pointer us) x hne hv (split_pointer hu hs) hu.ne
        (.inl ⟨hft, hr⟩) hg, hp]
  simp only [ht, if_true, Bool.false_eq_true, if_false]

theorem has_set {a : App Obj (World W)} {url : Str} (h : Clean a url) (o : Obj) (ver : Str) :
    Has { a with store := a.store.set o url ['#'] ver } url ver o := by
  unfold Has Store.set
  rcases h with h | ⟨cache, h⟩
  · simp only [h, Option.getD_none, Dict.get?_nil, Dict.get?_set_self]
    exact ⟨_, rfl, by rw [Dict.get?_set_self]⟩
  · simp only [h, Option.getD_some, Dict.get?, Dict.set, if_true, Dict.get?_set_self]
    exact ⟨_, rfl, Dict.get?_set_self _ _ _⟩

theorem has_set_keep {a : App Obj (World W)} {url ver ver' : Str} {root : Obj} (h : Has a url ver root) (o : Obj) (hv : ver' ≠ ver) :
    Has { a with store := a.store.set o url ['#'] ver' } url ver root := by
  obtain ⟨cache, h1, h2⟩ := h
  refine ⟨Dict.set cache ver' o, ?_, by rw [Dict.get?_set_ne _ _ hv]; exact h2⟩
  unfold Store.set
  simp only [h1, Option.getD_some, Dict.get?, Dict.set, if_true, Dict.get?_set_self]

theorem Has.clean {a : App Obj (World W)} {url ver : Str} {root : Obj} (h : Has a url ver root) : Clean a url := by
  obtain ⟨cache, h1, _⟩ := h
  exact .inr ⟨cache, h1⟩

end Pyopenapi.Main
