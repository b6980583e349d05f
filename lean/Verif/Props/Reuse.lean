import Verif.Props.Override
import Verif.Props.Store
import Verif.Lemmas.MainRun
import Verif.Lemmas.MainHit
import Verif.Lemmas.Pieces
import Verif.Props.Main

/-!
# C95: what was migrated before is reused

An object below the root that was migrated to 3.0.0 on its own (it is in the store) is put into the document when the document
is migrated: the same object, not a second conversion.
-/

namespace Pyopenapi.Main
open _root_.Pyopenapi.Spec _root_.Pyopenapi.Refs.Spec
variable {W : Type}

/-- After these calls on the store, the only object of 3.0.0 held for `url` is `x`, at the pointer of `ts`. -/
def OnlyMigrated (hist : List (StoreOp Obj)) (url : Str) (ts : List Str) (x : Obj) : Prop :=
  ∀ p y, Spec.Cache.run hist url p (s% "3.0.0") = some y ↔ p = pointer ts ∧ y = x

theorem underOf_other (jp ver : Str) : ∀ (uc : Dict (Dict Obj)) (ret : Dict Obj),
    (∀ p c, (p, c) ∈ uc → Dict.get? c ver = none) → Store.underOf jp ver uc ret = ret
  | [], _, _ => rfl
  | (p, c) :: uc, ret, h => by
    unfold Store.underOf
    rw [h p c (by simp)]
    have := underOf_other jp ver uc ret (fun q c' hm => h q c' (List.mem_cons_of_mem _ hm))
    cases Str.startsWith p jp <;> exact this

theorem underOf_one {jp ver P : Str} {x : Obj} (hP : Str.startsWith P jp = true) : ∀ (uc : Dict (Dict Obj)), Dict.NodupKeys uc →
    (∀ p c, (p, c) ∈ uc → p ≠ P → Dict.get? c ver = none) → (∃ c, (P, c) ∈ uc ∧ Dict.get? c ver = some x) →
    Store.underOf jp ver uc [] = [(P.drop (jp.length + 1), x)]
  | [], _, _, h => by obtain ⟨c, hc, _⟩ := h; simp at hc
  | (p, c) :: uc, hn, ho, h => by
    have hn2 : p ∉ Dict.keys uc ∧ Dict.NodupKeys uc := by
      have := List.nodup_cons.1 (show (p :: Dict.keys uc).Nodup from hn)
      exact this
    unfold Store.underOf
    by_cases hp : p = P
    · subst hp
      obtain ⟨c', hc', hx⟩ := h
      have : c' = c := by
        rcases List.mem_cons.1 hc' with e | hm
        · exact (Prod.mk.inj e).2
        · exact absurd (List.mem_map.2 ⟨_, hm, rfl⟩) hn2.1
      subst this
      rw [hP, hx]
      simp only [Dict.set]
      exact underOf_other jp ver uc _ (fun q c'' hm => ho q c'' (List.mem_cons_of_mem _ hm) (by
        rintro rfl; exact hn2.1 (List.mem_map.2 ⟨_, hm, rfl⟩)))
    · rw [ho p c (by simp) hp]
      have := underOf_one hP uc hn2.2 (fun q c' hm => ho q c' (List.mem_cons_of_mem _ hm)) (by
        obtain ⟨c', hc', hx⟩ := h
        rcases List.mem_cons.1 hc' with e | hm
        · exact absurd (Prod.mk.inj e).1.symm hp
        · exact ⟨c', hm, hx⟩)
      cases Str.startsWith p jp <;> exact this

theorem pointer_drop {ts : List Str} (h : ts ≠ []) : (pointer ts).drop 2 = jpCompose ts none := by
  rw [pointer_compose]
  unfold jpCompose
  simp only
  rw [Str.joinC_cons (by simpa using h)]
  rfl

/-- What is put into the document when it is converted. -/
theorem drop_more {α : Type} (l m : List α) : (l ++ m).drop (l.length + 1) = m.drop 1 := by
  rw [List.drop_append, List.drop_of_length_le (by omega)]
  simp

theorem override_one {vs : List Str} {hist : List (StoreOp Obj)} {a : App Obj (World W)} (hst : a.store = Store.run vs hist)
    {url t c : Str} {ts us : List Str} {x o : Obj} (hx : OnlyMigrated hist url (us ++ t :: ts) x)
    (ho : o.className? = some c) (hin : c ∈ [s% "v2_0.Swagger", s% "v2_0.License", s% "v2_0.Info", s% "v2_0.Schema"]) :
    overrideFor o url (pointer us) a = .ok [(jpCompose (t :: ts) none, x)] := by
  obtain ⟨hw, href⟩ := run_refines vs hist
  rw [← hst] at hw href
  unfold overrideFor
  rw [ho]
  dsimp only
  rw [if_pos hin]
  unfold Store.getUnder
  simp only [Bool.false_and, Bool.false_eq_true, if_false]
  have h0 := (hx (pointer (us ++ t :: ts)) x).2 ⟨rfl, rfl⟩
  rw [← href, Store.entry] at h0
  cases huc : Dict.get? a.store.objs url with
  | none => rw [huc] at h0; simp at h0
  | some uc =>
    rw [huc] at h0
    dsimp only at h0
    cases hc : Dict.get? uc (pointer (us ++ t :: ts)) with
    | none => rw [hc] at h0; simp at h0
    | some c =>
      rw [hc] at h0
      dsimp only at h0
      have hne : uc.isEmpty = false := by
        cases uc with
        | nil => simp at hc
        | cons _ _ => rfl
      dsimp only
      rw [if_neg (by rw [hne]; decide)]
      have := underOf_one (jp := pointer us) (ver := s% "3.0.0") (P := pointer (us ++ t :: ts)) (x := x)
        (by rw [pointer_append]; simp [Str.startsWith]) uc (hw.2 url uc huc).1 (fun p c' hm hp => by
          cases hg : Dict.get? c' (s% "3.0.0") with
          | none => rfl
          | some y =>
            refine absurd ((hx p y).1 ?_).1 hp
            rw [← href, Store.entry, huc]
            dsimp only
            rw [Dict.get?_of_mem (hw.2 url uc huc).1 hm]
            exact hg) ⟨c, Dict.mem_of_get? hc, h0⟩
      dsimp only
      rw [this]
      rw [pointer_append, drop_more, ← pointer_drop (by simp)]
      rfl

theorem finish30_same {out : Outer W} {app : AppEnv Obj (World W)} {o o' : Obj} {rl rl' : Routes} {url jp : Str} {a a' : App Obj (World W)}
    (h : finish30 out app o rl url jp a = (.ok (o', rl'), a')) : o' = o ∧ rl' = rl := by
  unfold finish30 at h
  split at h
  · simp at h
  · dsimp only at h
    split at h
    · simp at h
    · split at h
      · simp at h
      · split at h
        · simp at h
        · simp only [Prod.mk.injEq, Except.ok.injEq] at h
          exact ⟨h.1.1.symm, h.1.2.symm⟩

/-- C95: when a document of 2.0 is migrated to 3.0.0 and one object `x` below its root has been migrated before (the store of the
application holds it at the pointer of `t :: ts`, whose tokens need no escaping), the document that results is the converted
document with that very object at its place, and is otherwise as without it (`PutAt`).

`hreach`: the place is one of objects in the converted document; `hb`: the converted document is a document of 3.0.0. -/
theorem C95_reuse {out : Outer W} {app : AppEnv Obj (World W)} {vs : List Str} {hist : List (StoreOp Obj)} {a a' : App Obj (World W)}
    (hst : a.store = Store.run vs hist) {url t : Str} {ts : List Str} {x o o3 o0 : Obj} {rl rl' : Routes} {j : Dict Json}
    (hu : DocUrl out.ok url) (ho : o.className? = some (s% "v2_0.Swagger")) (hx : OnlyMigrated hist url (t :: ts) x)
    (hxt : x.truthy = true) (hxp : x.isPrim = false) (ht : t ≠ []) (hplain : ∀ u ∈ ts, u ≠ [] ∧ '/' ∉ u ∧ '~' ∉ u)
    (hj : Conv.toOpenapi (convEnv out a.world) o = .ok (j, rl')) (hwf : (Json.obj j).wf = true)
    (hb : build pkg (.cls (s% "v3_0_0.OpenApi")) (.obj j) (some ['#']) [] = .ok o0) {b' : Builder} {w : Json}
    (hreach : Reach pkg (.cls (s% "v3_0_0.OpenApi")) (.obj j) (t :: ts) b' w)
    (h : upgrade30 out app o url a = (.ok (o3, rl), a')) :
    PutAt pkg (.obj j) (t :: ts) x o0 o3 ∧ rl = rl' ∧ Obj.resolve pkg (t :: ts) o3 = .ok x := by
  obtain ⟨o1, h1, h2⟩ := C27_override_partial okTable_pkg hxt hxp hreach rfl hwf ht hplain hb
  have hv : versionOf o = .ok (s% "2.0") := by
    unfold versionOf
    cases o with
    | base c p s k =>
      simp only [Obj.className?, Option.some.injEq] at ho
      subst ho; rfl
    | _ => simp [Obj.className?] at ho
  unfold upgrade30 at h
  rw [split_url hu] at h
  dsimp only at h
  rw [hv] at h
  dsimp only at h
  rw [if_pos (by decide), (show overrideFor o url ['#'] a = _ from override_one (us := []) hst hx ho (by decide))] at h
  dsimp only at h
  have hc : convert (convEnv out a.world) o url ['#'] [(jpCompose (t :: ts) none, x)] = .ok (o1, rl') := by
    unfold convert
    rw [ho]
    dsimp only
    rw [if_pos rfl, hj]
    simp only [bind, Except.bind]
    rw [h1]
  rw [hc] at h
  obtain ⟨rfl, rfl⟩ := finish30_same h
  refine ⟨h2, rfl, ?_⟩
  have := h2.below []
  rw [List.append_nil] at this
  rw [this]
  unfold Obj.resolve
  rfl

/-- C95 for an object of a document: when a schema (or the information) at the pointer of `us` is migrated on its own and one
object `x` below it has been migrated before, what results is its conversion with that very object at its place. -/
theorem C95_part {out : Outer W} {app : AppEnv Obj (World W)} {vs : List Str} {hist : List (StoreOp Obj)} {a a' : App Obj (World W)}
    (hst : a.store = Store.run vs hist) {url t c' : Str} {us ts : List Str} {x o o3 o0 : Obj} {rl : Routes} {j : Json}
    (hu : DocUrl out.ok url) (hus : Safe us)
    (ho : (o.className? = some (s% "v2_0.Schema") ∧ c' = s% "v3_0_0.Schema" ∧ Conv.toSchema false o = .ok j) ∨
      (o.className? = some (s% "v2_0.Info") ∧ c' = s% "v3_0_0.Info" ∧ ∃ d, Conv.toInfo o = .ok d ∧ j = .obj d))
    (hx : OnlyMigrated hist url (us ++ t :: ts) x) (hxt : x.truthy = true) (hxp : x.isPrim = false) (ht : t ≠ [])
    (hplain : ∀ u ∈ ts, u ≠ [] ∧ '/' ∉ u ∧ '~' ∉ u) (hwf : j.wf = true)
    (hb : build pkg (.cls c') j (some (pointer us)) [] = .ok o0) {b' : Builder} {w : Json}
    (hreach : Reach pkg (.cls c') j (t :: ts) b' w)
    (h : upgrade30 out app o (url ++ pointer us) a = (.ok (o3, rl), a')) :
    PutAt pkg j (t :: ts) x o0 o3 ∧ Obj.resolve pkg (t :: ts) o3 = .ok x := by
  have hok : okBuilder pkg (.cls c') = true := by
    rcases ho with ⟨_, rfl, _⟩ | ⟨_, rfl, _⟩ <;> rfl
  obtain ⟨o1, h1, h2⟩ := C27_override_partial okTable_pkg hxt hxp hreach hok hwf ht hplain hb
  obtain ⟨c, hc, hin, hv⟩ : ∃ c, o.className? = some c ∧
      c ∈ [s% "v2_0.Swagger", s% "v2_0.License", s% "v2_0.Info", s% "v2_0.Schema"] ∧ versionOf o = .ok (s% "2.0") := by
    have : ∀ c, o.className? = some c → c = s% "v2_0.Schema" ∨ c = s% "v2_0.Info" → versionOf o = .ok (s% "2.0") := by
      intro c hc h
      unfold versionOf
      cases o with
      | base c' p s k =>
        simp only [Obj.className?, Option.some.injEq] at hc
        subst hc
        rcases h with rfl | rfl <;> rfl
      | _ => simp [Obj.className?] at hc
    rcases ho with ⟨h, _⟩ | ⟨h, _⟩
    · exact ⟨_, h, by decide, this _ h (.inl rfl)⟩
    · exact ⟨_, h, by decide, this _ h (.inr rfl)⟩
  unfold upgrade30 at h
  rw [split_pointer hu hus] at h
  dsimp only at h
  rw [hv] at h
  dsimp only at h
  rw [if_pos (by decide), override_one hst hx hc hin] at h
  dsimp only at h
  have hc : convert (convEnv out a.world) o url (pointer us) [(jpCompose (t :: ts) none, x)] = .ok (o1, []) := by
    unfold convert
    rcases ho with ⟨ho, rfl, hj⟩ | ⟨ho, rfl, d, hj, rfl⟩
    · rw [ho]
      dsimp only
      rw [if_neg (by decide), if_neg (by decide), if_neg (by decide), if_pos rfl, hj]
      simp only [bind, Except.bind]
      rw [h1]
    · rw [ho]
      dsimp only
      rw [if_neg (by decide), if_neg (by decide), if_pos rfl, hj]
      simp only [bind, Except.bind]
      rw [h1]
  rw [hc] at h
  obtain ⟨rfl, rfl⟩ := finish30_same h
  refine ⟨h2, ?_⟩
  have := h2.below []
  rw [List.append_nil] at this
  rw [this]
  unfold Obj.resolve
  rfl

theorem collect_same {α β : Type} {f g : Str → α → R (Option β)} : ∀ (d : Dict α), (∀ q ∈ d, f q.1 q.2 = g q.1 q.2) →
    Dict.collect f d = Dict.collect g d
  | [], _ => rfl
  | (k, v) :: d, h => by
    unfold Dict.collect
    rw [h (k, v) (by simp), collect_same d (fun q hq => h q (List.mem_cons_of_mem _ hq))]

/-- An override for a name that is no child of the class is not used. -/
theorem build_beside {c t : Str} {ts : List Str} (x : Obj) (hplain : ∀ u ∈ ts, Plain u) (ht : t ≠ [])
    (hc : Dict.get? (pkg c).children t = none) (j : Json) (p : Option Str) :
    build pkg (.cls c) j p [(jpCompose (t :: ts) none, x)] = build pkg (.cls c) j p [] := by
  have hne : jpCompose (t :: ts) none ≠ [] := by
    intro h
    simp only [jpCompose, List.map_cons] at h
    rcases Str.joinC_eq_nil h with h1 | h1
    · simp at h1
    · simp only [List.cons.injEq] at h1
      have := congrArg jpDecode h1.1
      rw [jpDecode_jpEncode] at this
      exact ht this
  have : ∀ q ∈ (pkg c).children, buildKid pkg q.1 q.2 j p [(t, [(jpCompose ts none, x)])] = buildKid pkg q.1 q.2 j p [] := by
    intro q hq
    have : t ≠ q.1 := by
      rintro rfl
      exact (Dict.get?_eq_none_iff.1 hc) (List.mem_map.2 ⟨q, hq, rfl⟩)
    rw [buildKid_ov, buildKid_ov, ovFor_single_ne this, ovFor_nil]
  rw [build_cls_ov, splitOverride_one x hplain hne, build_cls]
  dsimp only
  rw [show Dict.collect (fun k cd => buildKid pkg k cd j p [(t, [(jpCompose ts none, x)])]) (pkg c).children =
    Dict.collect (fun k cd => buildKid pkg k cd j p []) (pkg c).children from collect_same _ this]

/-- C95 (violation): a definition, a shared parameter, a shared response or a security scheme that was migrated before is not
reused: these move in 3.0.0, the place they had is no place of the new document, so the document gets a second conversion of
each and the object migrated before is not in it. -/
theorem C95_moved_violation {out : Outer W} {app : AppEnv Obj (World W)} {vs : List Str} {hist : List (StoreOp Obj)} {a a' : App Obj (World W)}
    (hst : a.store = Store.run vs hist) {url sec name : Str} {x o o3 o0 : Obj} {rl rl' : Routes} {j : Dict Json}
    (hu : DocUrl out.ok url) (ho : o.className? = some (s% "v2_0.Swagger"))
    (hsec : sec ∈ [s% "definitions", s% "parameters", s% "responses", s% "securityDefinitions"])
    (hname : name ≠ [] ∧ '/' ∉ name ∧ '~' ∉ name) (hx : OnlyMigrated hist url [sec, name] x)
    (hj : Conv.toOpenapi (convEnv out a.world) o = .ok (j, rl'))
    (hb : build pkg (.cls (s% "v3_0_0.OpenApi")) (.obj j) (some ['#']) [] = .ok o0)
    (h : upgrade30 out app o url a = (.ok (o3, rl), a')) : o3 = o0 := by
  have hv : versionOf o = .ok (s% "2.0") := by
    unfold versionOf
    cases o with
    | base c p s k =>
      simp only [Obj.className?, Option.some.injEq] at ho
      subst ho; rfl
    | _ => simp [Obj.className?] at ho
  have hs : sec ≠ [] ∧ Dict.get? (pkg (s% "v3_0_0.OpenApi")).children sec = none := by
    simp only [List.mem_cons, List.not_mem_nil, or_false] at hsec
    rcases hsec with rfl | rfl | rfl | rfl <;> exact ⟨by decide, by decide +kernel⟩
  unfold upgrade30 at h
  rw [split_url hu] at h
  dsimp only at h
  rw [hv] at h
  dsimp only at h
  rw [if_pos (by decide), (show overrideFor o url ['#'] a = _ from override_one (us := []) hst hx ho (by decide))] at h
  dsimp only at h
  have hc : convert (convEnv out a.world) o url ['#'] [(jpCompose [sec, name] none, x)] = .ok (o0, rl') := by
    unfold convert
    rw [ho]
    dsimp only
    rw [if_pos rfl, hj]
    simp only [bind, Except.bind]
    rw [build_beside x (fun u hu => by rw [List.mem_singleton] at hu; subst hu; exact hname) hs.1 hs.2, hb]
  rw [hc] at h
  exact (finish30_same h).1

/-! ### an instance -/

def reuseDoc : Dict Json := [
  (s% "swagger", .str (s% "2.0")),
  (s% "info", .obj [(s% "title", .str (s% "t")), (s% "version", .str (s% "1"))])]

def reuseX : Obj := .base (s% "v3_0_0.Info") none (.obj [(s% "title", .str (s% "new")), (s% "version", .str (s% "2"))]) []

def reuseObj : Obj := match build pkg (.cls (s% "v2_0.Swagger")) (.obj reuseDoc) (some (s% "file:///a/b.json")) [] with
  | .ok o => o
  | .error _ => .prim .null

def reuseOut : Outer Unit := serving (.obj reuseDoc)

def reuseHist : List (StoreOp Obj) :=
  [.set reuseObj (s% "file:///a/b.json") (s% "#") (s% "2.0"), .set reuseX (s% "file:///a/b.json") (s% "#/info") (s% "3.0.0")]

def reuseApp : App Obj (World Unit) :=
  { store := Store.run [s% "1.2", s% "2.0", s% "3.0.0"] reuseHist, original := s% "2.0", current := none, world := { attrs := [], finals := [], cached := [], rest := () } }

def reuseJ : Dict Json × Routes := match Conv.toOpenapi (convEnv reuseOut reuseApp.world) reuseObj with
  | .ok j => j
  | .error _ => ([], [])

def infoJ : Dict Json := [(s% "title", .str (s% "t")), (s% "version", .str (s% "1"))]

def reuse0 : Obj := match build pkg (.cls (s% "v3_0_0.OpenApi")) (.obj reuseJ.1) (some ['#']) [] with
  | .ok o => o
  | .error _ => .prim .null

theorem reuse_only : OnlyMigrated reuseHist (s% "file:///a/b.json") [s% "info"] reuseX := by
  intro p y
  have : Spec.Cache.run reuseHist (s% "file:///a/b.json") p (s% "3.0.0") = if s% "#/info" = p then some reuseX else none := by
    show (if s% "file:///a/b.json" = s% "file:///a/b.json" ∧ s% "#/info" = p ∧ s% "3.0.0" = s% "3.0.0" then some reuseX else
      if s% "file:///a/b.json" = s% "file:///a/b.json" ∧ s% "#" = p ∧ s% "2.0" = s% "3.0.0" then some reuseObj else none) = _
    by_cases h : s% "#/info" = p
    · rw [if_pos ⟨rfl, h, rfl⟩, if_pos h]
    · rw [if_neg (fun e => h e.2.1), if_neg (fun e => absurd e.2.2 (by decide)), if_neg h]
  rw [this, show pointer [s% "info"] = s% "#/info" by decide]
  by_cases h : s% "#/info" = p
  · rw [if_pos h]
    exact ⟨fun e => ⟨h.symm, (Option.some.inj e).symm⟩, fun e => by rw [e.2]⟩
  · rw [if_neg h]
    exact ⟨(fun e => by cases e), fun e => absurd e.1.symm h⟩

/-- `C95_reuse` for a document whose information was migrated before. -/
example : ∃ o3 rl a', upgrade30 reuseOut (application reuseOut 0) reuseObj (s% "file:///a/b.json") reuseApp = (.ok (o3, rl), a') ∧
    Obj.resolve pkg [s% "info"] o3 = .ok reuseX := by
  have hok : (upgrade30 reuseOut (application reuseOut 0) reuseObj (s% "file:///a/b.json") reuseApp).1.isOk = true := by decide +kernel
  cases h : upgrade30 reuseOut (application reuseOut 0) reuseObj (s% "file:///a/b.json") reuseApp with
  | mk r a' =>
    rw [h] at hok
    cases r with
    | error e => simp [Except.isOk, Except.toBool] at hok
    | ok r =>
      obtain ⟨o3, rl⟩ := r
      refine ⟨o3, rl, a', rfl, ?_⟩
      have hj : Conv.toOpenapi (convEnv reuseOut reuseApp.world) reuseObj = .ok reuseJ := by
        have : (Conv.toOpenapi (convEnv reuseOut reuseApp.world) reuseObj).isOk = true := by decide +kernel
        unfold reuseJ
        cases hh : Conv.toOpenapi (convEnv reuseOut reuseApp.world) reuseObj with
        | ok j => rfl
        | error e => rw [hh] at this; simp [Except.isOk, Except.toBool] at this
      have hb : build pkg (.cls (s% "v3_0_0.OpenApi")) (.obj reuseJ.1) (some ['#']) [] = .ok reuse0 := by
        have : (build pkg (.cls (s% "v3_0_0.OpenApi")) (.obj reuseJ.1) (some ['#']) []).isOk = true := by decide +kernel
        unfold reuse0
        cases hh : build pkg (.cls (s% "v3_0_0.OpenApi")) (.obj reuseJ.1) (some ['#']) [] with
        | ok j => rfl
        | error e => rw [hh] at this; simp [Except.isOk, Except.toBool] at this
      exact (C95_reuse (hist := reuseHist) rfl docUrl_example (by decide +kernel) reuse_only (by decide) (by decide) (by decide)
        (fun u hu => by cases hu) hj (by decide +kernel) hb
        (.child (cd := ⟨.cls (s% "v3_0_0.Info"), false⟩) (v := .obj infoJ) (by decide +kernel) (by decide +kernel) (by simp) .here) h).2.2

/-! an instance of `C95_part`: the contact was migrated before the information -/

def partDoc : Dict Json := [
  (s% "title", .str (s% "t")), (s% "version", .str (s% "1")), (s% "contact", .obj [(s% "name", .str (s% "me"))])]

def partObj : Obj := match build pkg (.cls (s% "v2_0.Info")) (.obj partDoc) (some (s% "file:///a/b.json#/info")) [] with
  | .ok o => o
  | .error _ => .prim .null

def partX : Obj := .base (s% "v3_0_0.Contact") none (.obj [(s% "name", .str (s% "you"))]) []

def partHist : List (StoreOp Obj) :=
  [.set partX (s% "file:///a/b.json") (s% "#/info/contact") (s% "3.0.0")]

def partApp : App Obj (World Unit) :=
  { store := Store.run [s% "1.2", s% "2.0", s% "3.0.0"] partHist, original := s% "2.0", current := none, world := { attrs := [], finals := [], cached := [], rest := () } }

def partJ : Dict Json := match Conv.toInfo partObj with
  | .ok j => j
  | .error _ => []

def part0 : Obj := match build pkg (.cls (s% "v3_0_0.Info")) (.obj partJ) (some (s% "#/info")) [] with
  | .ok o => o
  | .error _ => .prim .null

theorem part_only : OnlyMigrated partHist (s% "file:///a/b.json") ([s% "info"] ++ [s% "contact"]) partX := by
  intro p y
  have : Spec.Cache.run partHist (s% "file:///a/b.json") p (s% "3.0.0") =
      if s% "#/info/contact" = p then some partX else none := by
    show (if s% "file:///a/b.json" = s% "file:///a/b.json" ∧ s% "#/info/contact" = p ∧ s% "3.0.0" = s% "3.0.0"
      then some partX else none) = _
    by_cases h : s% "#/info/contact" = p
    · rw [if_pos ⟨rfl, h, rfl⟩, if_pos h]
    · rw [if_neg (fun e => h e.2.1), if_neg h]
  rw [this, show pointer ([s% "info"] ++ [s% "contact"]) = s% "#/info/contact" by decide]
  by_cases h : s% "#/info/contact" = p
  · rw [if_pos h]
    exact ⟨fun e => ⟨h.symm, (Option.some.inj e).symm⟩, fun e => by rw [e.2]⟩
  · rw [if_neg h]
    exact ⟨(fun e => by cases e), fun e => absurd e.1.symm h⟩

example : ∃ o3 rl a', upgrade30 reuseOut (application reuseOut 0) partObj (s% "file:///a/b.json#/info") partApp = (.ok (o3, rl), a') ∧
    Obj.resolve pkg [s% "contact"] o3 = .ok partX := by
  have hok : (upgrade30 reuseOut (application reuseOut 0) partObj (s% "file:///a/b.json#/info") partApp).1.isOk = true := by decide +kernel
  cases h : upgrade30 reuseOut (application reuseOut 0) partObj (s% "file:///a/b.json#/info") partApp with
  | mk r a' =>
    rw [h] at hok
    cases r with
    | error e => simp [Except.isOk, Except.toBool] at hok
    | ok r =>
      obtain ⟨o3, rl⟩ := r
      refine ⟨o3, rl, a', rfl, ?_⟩
      have hj : Conv.toInfo partObj = .ok partJ := by
        have : (Conv.toInfo partObj).isOk = true := by decide +kernel
        unfold partJ
        cases hh : Conv.toInfo partObj with
        | ok j => rfl
        | error e => rw [hh] at this; simp [Except.isOk, Except.toBool] at this
      have hb : build pkg (.cls (s% "v3_0_0.Info")) (.obj partJ) (some (s% "#/info")) [] = .ok part0 := by
        have : (build pkg (.cls (s% "v3_0_0.Info")) (.obj partJ) (some (s% "#/info")) []).isOk = true := by decide +kernel
        unfold part0
        cases hh : build pkg (.cls (s% "v3_0_0.Info")) (.obj partJ) (some (s% "#/info")) [] with
        | ok j => rfl
        | error e => rw [hh] at this; simp [Except.isOk, Except.toBool] at this
      exact (C95_part (hist := partHist) (us := [s% "info"]) (ts := []) rfl docUrl_example (by unfold Safe; decide +kernel)
        (.inr ⟨by decide +kernel, rfl, _, hj, rfl⟩) part_only (by decide) (by decide) (by decide)
        (fun u hu => by cases hu) (by decide +kernel) hb
        (.child (cd := ⟨.cls (s% "v3_0_0.Contact"), false⟩) (v := .obj [(s% "name", .str (s% "me"))]) (by decide +kernel) (by decide +kernel)
          (by simp) .here) h).2

end Pyopenapi.Main
