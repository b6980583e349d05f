import Verif.Props.Reuse
import Verif.Props.OverrideMany
import Verif.Lemmas.MainDoc

/-!
# C95 for several objects that were migrated before
-/

namespace Pyopenapi.Main
open _root_.Pyopenapi.Spec _root_.Pyopenapi.Refs.Spec
variable {W : Type}

/-- After these calls on the store, the objects of 3.0.0 held for `url` are those of `fam`, at their places below `us`. -/
def OnlyThese (hist : List (StoreOp Obj)) (url : Str) (us : List Str) (fam : List (List Str × Obj)) : Prop :=
  ∀ p y, Spec.Cache.run hist url p (s% "3.0.0") = some y ↔ ∃ q ∈ fam, p = pointer (us ++ q.1) ∧ y = q.2

theorem drop_key {us ts : List Str} (h : ts ≠ []) : (pointer (us ++ ts)).drop ((pointer us).length + 1) = jpCompose ts none := by
  rw [pointer_append, drop_more, ← pointer_drop h]
  rfl

theorem pointer_front {ts : List Str} (h : ts ≠ []) : pointer ts = '#' :: '/' :: (pointer ts).drop 2 := by
  cases ts with
  | nil => exact absurd rfl h
  | cons t ts => simp [pointer]

theorem compose_inj {ts us : List Str} (h1 : ts ≠ []) (h2 : us ≠ []) (h : jpCompose ts none = jpCompose us none) : ts = us := by
  refine pointer_inj ?_
  rw [pointer_front h1, pointer_front h2, pointer_drop h1, pointer_drop h2, h]

/-- The objects `get_under` finds. -/
theorem underOf_many {us : List Str} {ver : Str} {fam : List (List Str × Obj)} (hne : ∀ q ∈ fam, q.1 ≠ []) :
    ∀ (uc : Dict (Dict Obj)) (ret : List (List Str × Obj)), Dict.NodupKeys uc →
    (∀ p c y, (p, c) ∈ uc → Dict.get? c ver = some y → ∃ q ∈ fam, p = pointer (us ++ q.1) ∧ y = q.2) →
    (∀ r ∈ ret, r ∈ fam ∧ pointer (us ++ r.1) ∉ Dict.keys uc) → (ret.map (fun p => p.1)).Nodup →
    ∃ fam', Store.underOf (pointer us) ver uc (enc ret) = enc (ret ++ fam') ∧ ((ret ++ fam').map (fun p => p.1)).Nodup ∧
      (∀ q ∈ fam', q ∈ fam) ∧ ∀ p c y, (p, c) ∈ uc → Dict.get? c ver = some y → ∃ q ∈ fam', p = pointer (us ++ q.1) ∧ y = q.2
  | [], ret, _, _, _, hnd => ⟨[], by rw [List.append_nil]; rfl, by rw [List.append_nil]; exact hnd, (by simp), (by simp)⟩
  | (p, c) :: uc, ret, hn, hall, hret, hnd => by
    have hn2 : p ∉ Dict.keys uc ∧ Dict.NodupKeys uc := List.nodup_cons.1 (show (p :: Dict.keys uc).Nodup from hn)
    have hall' : ∀ p c y, (p, c) ∈ uc → Dict.get? c ver = some y → ∃ q ∈ fam, p = pointer (us ++ q.1) ∧ y = q.2 :=
      fun p c y hm => hall p c y (List.mem_cons_of_mem _ hm)
    unfold Store.underOf
    cases hg : Dict.get? c ver with
    | none =>
      obtain ⟨fam', h1, h2, h3, h4⟩ := underOf_many hne uc ret hn2.2 hall'
        (fun r hr => ⟨(hret r hr).1, fun hm => (hret r hr).2 (List.mem_cons_of_mem _ hm)⟩) hnd
      refine ⟨fam', ?_, h2, h3, ?_⟩
      · cases Str.startsWith p (pointer us) <;> exact h1
      · intro p' c' y hm hy
        rcases List.mem_cons.1 hm with e | hm
        · cases e; rw [hg] at hy; cases hy
        · exact h4 p' c' y hm hy
    | some y =>
      obtain ⟨q, hq, rfl, rfl⟩ := hall p c y List.mem_cons_self hg
      have hs : Str.startsWith (pointer (us ++ q.1)) (pointer us) = true := by
        rw [pointer_append]; simp [Str.startsWith]
      rw [hs]
      dsimp only
      rw [drop_key (hne q hq)]
      have hfresh : ∀ r ∈ ret, r.1 ≠ q.1 := by
        intro r hr e
        exact (hret r hr).2 (by rw [e]; exact List.mem_cons_self)
      have hset : Dict.set (enc ret) (jpCompose q.1 none) q.2 = enc (ret ++ [q]) := by
        rw [Dict.set_of_not_mem]
        · simp [enc]
        · intro hm
          obtain ⟨kv, hkv, hk2⟩ := List.mem_map.1 hm
          obtain ⟨r, hr, rfl⟩ := List.mem_map.1 hkv
          exact hfresh r hr (compose_inj (hne r (hret r hr).1) (hne q hq) hk2)
      rw [hset]
      obtain ⟨fam', h1, h2, h3, h4⟩ := underOf_many hne uc (ret ++ [q]) hn2.2 hall' (by
          intro r hr
          rcases List.mem_append.1 hr with hr | hr
          · exact ⟨(hret r hr).1, fun hm => (hret r hr).2 (List.mem_cons_of_mem _ hm)⟩
          · obtain rfl := List.mem_singleton.1 hr
            exact ⟨hq, hn2.1⟩) (by
          rw [List.map_append, List.nodup_append]
          refine ⟨hnd, by simp, ?_⟩
          rintro a ha b hb rfl
          obtain ⟨r, hr, e⟩ := List.mem_map.1 ha
          exact hfresh r hr (e.trans (List.mem_singleton.1 hb)))
      refine ⟨q :: fam', ?_, ?_, ?_, ?_⟩
      · rw [h1, List.append_assoc]; rfl
      · rw [List.append_assoc] at h2; exact h2
      · intro r hr
        rcases List.mem_cons.1 hr with rfl | hr
        · exact hq
        · exact h3 r hr
      · intro p' c' y hm hy
        rcases List.mem_cons.1 hm with e | hm
        · cases e
          rw [hg] at hy
          exact ⟨q, by simp, rfl, (Option.some.inj hy).symm⟩
        · obtain ⟨r, hr, h⟩ := h4 p' c' y hm hy
          exact ⟨r, List.mem_cons_of_mem _ hr, h⟩

theorem override_many {vs : List Str} {hist : List (StoreOp Obj)} {a : App Obj (World W)} (hst : a.store = Store.run vs hist)
    {url c : Str} {us : List Str} {fam : List (List Str × Obj)} {o : Obj} (hx : OnlyThese hist url us fam) (hne : ∀ q ∈ fam, q.1 ≠ [])
    (ho : o.className? = some c) (hin : c ∈ [s% "v2_0.Swagger", s% "v2_0.License", s% "v2_0.Info", s% "v2_0.Schema"]) :
    ∃ fam', overrideFor o url (pointer us) a = .ok (enc fam') ∧ (fam'.map (fun p => p.1)).Nodup ∧ ∀ q, q ∈ fam' ↔ q ∈ fam := by
  obtain ⟨hw, href⟩ := run_refines vs hist
  rw [← hst] at hw href
  unfold overrideFor
  rw [ho]
  dsimp only
  rw [if_pos hin]
  unfold Store.getUnder
  simp only [Bool.false_and, Bool.false_eq_true, if_false]
  have hent : ∀ p y, a.store.entry url p (s% "3.0.0") = some y ↔ ∃ q ∈ fam, p = pointer (us ++ q.1) ∧ y = q.2 := by
    intro p y
    rw [href]
    exact hx p y
  have hnone : (∀ p, a.store.entry url p (s% "3.0.0") = none) → fam = [] := by
    intro h
    cases fam with
    | nil => rfl
    | cons q l =>
      have := (hent _ _).2 ⟨q, by simp, rfl, rfl⟩
      rw [h] at this
      cases this
  cases huc : Dict.get? a.store.objs url with
  | none =>
    have : fam = [] := hnone (fun p => by unfold Store.entry; rw [huc])
    subst this
    exact ⟨[], rfl, List.nodup_nil, fun q => Iff.rfl⟩
  | some uc =>
    have hentry : ∀ p, a.store.entry url p (s% "3.0.0") = (match Dict.get? uc p with
      | some c => Dict.get? c (s% "3.0.0")
      | none => none) := by
      intro p
      unfold Store.entry
      rw [huc]
      dsimp only
      cases Dict.get? uc p <;> rfl
    cases huc0 : uc with
    | nil =>
      subst huc0
      have : fam = [] := hnone (fun p => hentry p)
      subst this
      exact ⟨[], rfl, List.nodup_nil, fun q => Iff.rfl⟩
    | cons kv uc0 =>
      have hnd := (hw.2 url uc huc).1
      obtain ⟨fam', h1, h2, h3, h4⟩ := underOf_many (us := us) (ver := s% "3.0.0") hne uc [] hnd (by
        intro p c y hm hy
        refine (hent p y).1 ?_
        rw [hentry, Dict.get?_of_mem hnd hm]
        exact hy) (by simp) List.nodup_nil
      rw [← huc0]
      have hemp : uc.isEmpty = false := by rw [huc0]; rfl
      rw [List.nil_append] at h1 h2
      refine ⟨fam', ?_, h2, fun q => ⟨h3 q, fun hq => ?_⟩⟩
      · dsimp only
        rw [if_neg (by rw [hemp]; decide)]
        dsimp only
        rw [show ([] : Dict Obj) = enc [] from rfl, h1]
        rfl
      · have := (hent _ _).2 ⟨q, hq, rfl, rfl⟩
        rw [hentry] at this
        cases hc : Dict.get? uc (pointer (us ++ q.1)) with
        | none => rw [hc] at this; cases this
        | some c =>
          rw [hc] at this
          obtain ⟨r, hr, e1, e2⟩ := h4 _ c _ (Dict.mem_of_get? hc) this
          have e := List.append_cancel_left (pointer_inj e1)
          have : q = r := Prod.ext e e2
          rw [this]
          exact hr

/-- **C95** for any number of objects: when a document of 2.0 is migrated to 3.0.0 and the objects of `fam`, none inside another
one, have been migrated before (they are what the store holds in 3.0.0 for the url), the document that results is the converted
document with those very objects at their places, and is otherwise as without them (`PutAll`).  (`C95_reuse` is the case of one.) -/
theorem C95_all {out : Outer W} {app : AppEnv Obj (World W)} {vs : List Str} {hist : List (StoreOp Obj)} {a a' : App Obj (World W)}
    (hst : a.store = Store.run vs hist) {url : Str} {fam : List (List Str × Obj)} {o o3 o0 : Obj} {rl rl' : Routes} {j : Dict Json}
    (hu : DocUrl out.ok url) (ho : o.className? = some (s% "v2_0.Swagger")) (hx : OnlyThese hist url [] fam)
    (hfam : ∀ q ∈ fam, q.2.truthy = true ∧ q.2.isPrim = false ∧
      (∃ t ts, q.1 = t :: ts ∧ t ≠ [] ∧ ∀ u ∈ ts, u ≠ [] ∧ '/' ∉ u ∧ '~' ∉ u) ∧
      ∃ b' w, Reach pkg (.cls (s% "v3_0_0.OpenApi")) (.obj j) q.1 b' w)
    (hbes : ∀ q ∈ fam, ∀ r ∈ fam, q.1 ≠ r.1 → Beside q.1 r.1)
    (hj : Conv.toOpenapi (convEnv out a.world) o = .ok (j, rl')) (hwf : (Json.obj j).wf = true)
    (hb : build pkg (.cls (s% "v3_0_0.OpenApi")) (.obj j) (some ['#']) [] = .ok o0)
    (h : upgrade30 out app o url a = (.ok (o3, rl), a')) :
    PutAll pkg (.obj j) fam o0 o3 ∧ rl = rl' ∧ ∀ q ∈ fam, Obj.resolve pkg q.1 o3 = .ok q.2 := by
  obtain ⟨fam', hov, hnd, hmem⟩ := override_many hst hx (fun q hq => by
    obtain ⟨_, _, ⟨t, ts, e, _⟩, _⟩ := hfam q hq
    rw [e]; simp) ho (by decide)
  obtain ⟨o1, h1, h2⟩ := C27_many_partial okTable_pkg rfl hwf hb (fam := fam') (fun q hq => hfam q ((hmem q).1 hq)) (by
    have hnd' := List.pairwise_map.1 hnd
    exact hnd'.imp_of_mem (fun {q r} hq hr hne => hbes q ((hmem q).1 hq) r ((hmem r).1 hr) hne))
  have hv : versionOf o = .ok (s% "2.0") := by
    unfold versionOf
    cases o with
    | base c p s k =>
      simp only [Obj.className?, Option.some.injEq] at ho
      subst ho; rfl
    | _ => simp [Obj.className?] at ho
  unfold upgrade30 at h
  rw [split_url hu] at h
  dsimp only at h
  rw [hv] at h
  dsimp only at h
  rw [if_pos (by decide), (show overrideFor o url ['#'] a = _ from hov)] at h
  dsimp only at h
  have hc : convert (convEnv out a.world) o url ['#'] (enc fam') = .ok (o1, rl') := by
    unfold convert
    rw [ho]
    dsimp only
    rw [if_pos rfl, hj]
    simp only [bind, Except.bind]
    rw [show build pkg (.cls (s% "v3_0_0.OpenApi")) (.obj j) (some ['#']) (enc fam') = _ from h1]
  rw [hc] at h
  obtain ⟨rfl, rfl⟩ := finish30_same h
  have h3 : PutAll pkg (.obj j) fam o0 o3 := ⟨fun q hq => h2.inside q ((hmem q).2 hq),
    fun us w hw hb => h2.beside us w hw (fun q hq => hb q ((hmem q).1 hq)), fun q hq => h2.above q ((hmem q).2 hq)⟩
  refine ⟨h3, rfl, fun q hq => ?_⟩
  have := h3.inside q hq []
  rw [List.append_nil, resolve_nil] at this
  exact this

/-! ### an instance: the information and the external documentation were migrated before -/

def allDoc : Dict Json := reuseDoc ++ [(s% "externalDocs", .obj [(s% "url", .str (s% "http://a/old"))])]

def allD : Obj := .base (s% "v3_0_0.ExternalDocumentation") none (.obj [(s% "url", .str (s% "http://a/new"))]) []

def allObj : Obj := match build pkg (.cls (s% "v2_0.Swagger")) (.obj allDoc) (some (s% "file:///a/b.json")) [] with
  | .ok o => o
  | .error _ => .prim .null

def allOut : Outer Unit := serving (.obj allDoc)

def allHist : List (StoreOp Obj) :=
  [.set allObj (s% "file:///a/b.json") (s% "#") (s% "2.0"), .set allD (s% "file:///a/b.json") (s% "#/externalDocs") (s% "3.0.0"),
    .set reuseX (s% "file:///a/b.json") (s% "#/info") (s% "3.0.0")]

def allApp : App Obj (World Unit) :=
  { store := Store.run [s% "1.2", s% "2.0", s% "3.0.0"] allHist, original := s% "2.0", current := none, world := { attrs := [], finals := [], cached := [], rest := () } }

def allJ : Dict Json × Routes := match Conv.toOpenapi (convEnv allOut allApp.world) allObj with
  | .ok j => j
  | .error _ => ([], [])

def all0 : Obj := match build pkg (.cls (s% "v3_0_0.OpenApi")) (.obj allJ.1) (some ['#']) [] with
  | .ok o => o
  | .error _ => .prim .null

def allFam : List (List Str × Obj) := [([s% "info"], reuseX), ([s% "externalDocs"], allD)]

theorem all_only : OnlyThese allHist (s% "file:///a/b.json") [] allFam := by
  intro p y
  have : Spec.Cache.run allHist (s% "file:///a/b.json") p (s% "3.0.0") = if s% "#/info" = p then some reuseX else
      if s% "#/externalDocs" = p then some allD else none := by
    show (if s% "file:///a/b.json" = s% "file:///a/b.json" ∧ s% "#/info" = p ∧ s% "3.0.0" = s% "3.0.0" then some reuseX else
      if s% "file:///a/b.json" = s% "file:///a/b.json" ∧ s% "#/externalDocs" = p ∧ s% "3.0.0" = s% "3.0.0" then some allD else
      if s% "file:///a/b.json" = s% "file:///a/b.json" ∧ s% "#" = p ∧ s% "2.0" = s% "3.0.0" then some allObj else none) = _
    by_cases h : s% "#/info" = p
    · rw [if_pos ⟨rfl, h, rfl⟩, if_pos h]
    · rw [if_neg (fun e => h e.2.1), if_neg h]
      by_cases h2 : s% "#/externalDocs" = p
      · rw [if_pos ⟨rfl, h2, rfl⟩, if_pos h2]
      · rw [if_neg (fun e => h2 e.2.1), if_neg h2, if_neg (fun e => absurd e.2.2 (by decide))]
  rw [this]
  simp only [allFam, List.mem_cons, List.not_mem_nil, or_false, exists_eq_or_imp, exists_eq_left, List.nil_append]
  rw [show pointer [s% "info"] = s% "#/info" by decide, show pointer [s% "externalDocs"] = s% "#/externalDocs" by decide]
  by_cases h : s% "#/info" = p
  · subst h
    rw [if_pos rfl]
    exact ⟨fun e => Or.inl ⟨rfl, (Option.some.inj e).symm⟩, fun e => by
      rcases e with e | e
      · rw [e.2]
      · exact absurd e.1 (by decide)⟩
  · rw [if_neg h]
    by_cases h2 : s% "#/externalDocs" = p
    · subst h2
      rw [if_pos rfl]
      exact ⟨fun e => Or.inr ⟨rfl, (Option.some.inj e).symm⟩, fun e => by
        rcases e with e | e
        · exact absurd e.1 (by decide)
        · rw [e.2]⟩
    · rw [if_neg h2]
      exact ⟨(fun e => by cases e), fun e => by
        rcases e with e | e
        · exact absurd e.1.symm h
        · exact absurd e.1.symm h2⟩

/-- `C95_all` for these two objects. -/
theorem C95_all_example : ∃ o3 rl a', upgrade30 allOut (application allOut 0) allObj (s% "file:///a/b.json") allApp = (.ok (o3, rl), a') ∧
    PutAll pkg (.obj allJ.1) allFam all0 o3 ∧ Obj.resolve pkg [s% "info"] o3 = .ok reuseX ∧
    Obj.resolve pkg [s% "externalDocs"] o3 = .ok allD := by
  have hok : (upgrade30 allOut (application allOut 0) allObj (s% "file:///a/b.json") allApp).1.isOk = true := by decide +kernel
  cases h : upgrade30 allOut (application allOut 0) allObj (s% "file:///a/b.json") allApp with
  | mk r a' =>
    rw [h] at hok
    cases r with
    | error e => simp [Except.isOk, Except.toBool] at hok
    | ok r =>
      obtain ⟨o3, rl⟩ := r
      refine ⟨o3, rl, a', rfl, ?_⟩
      have hj : Conv.toOpenapi (convEnv allOut allApp.world) allObj = .ok allJ := by
        have : (Conv.toOpenapi (convEnv allOut allApp.world) allObj).isOk = true := by decide +kernel
        unfold allJ
        cases hh : Conv.toOpenapi (convEnv allOut allApp.world) allObj with
        | ok j => rfl
        | error e => rw [hh] at this; simp [Except.isOk, Except.toBool] at this
      have hb : build pkg (.cls (s% "v3_0_0.OpenApi")) (.obj allJ.1) (some ['#']) [] = .ok all0 := by
        have : (build pkg (.cls (s% "v3_0_0.OpenApi")) (.obj allJ.1) (some ['#']) []).isOk = true := by decide +kernel
        unfold all0
        cases hh : build pkg (.cls (s% "v3_0_0.OpenApi")) (.obj allJ.1) (some ['#']) [] with
        | ok j => rfl
        | error e => rw [hh] at this; simp [Except.isOk, Except.toBool] at this
      have hr1 : Reach pkg (.cls (s% "v3_0_0.OpenApi")) (.obj allJ.1) [s% "info"] (.cls (s% "v3_0_0.Info")) (.obj infoJ) :=
        .child (cd := ⟨.cls (s% "v3_0_0.Info"), false⟩) (v := .obj infoJ) (by decide +kernel) (by decide +kernel) (by simp) .here
      have hr2 : Reach pkg (.cls (s% "v3_0_0.OpenApi")) (.obj allJ.1) [s% "externalDocs"] (.cls (s% "v3_0_0.ExternalDocumentation"))
          (.obj [(s% "url", .str (s% "http://a/old"))]) :=
        .child (cd := ⟨.cls (s% "v3_0_0.ExternalDocumentation"), false⟩) (by decide +kernel) (by decide +kernel) (by simp) .here
      have := C95_all (hist := allHist) rfl docUrl_example (by decide +kernel) all_only (by
          intro q hq
          simp only [allFam, List.mem_cons, List.not_mem_nil, or_false] at hq
          rcases hq with rfl | rfl
          · exact ⟨by decide, by decide, ⟨_, _, rfl, by decide, fun u hu => by cases hu⟩, _, _, hr1⟩
          · exact ⟨by decide, by decide, ⟨_, _, rfl, by decide, fun u hu => by cases hu⟩, _, _, hr2⟩) (by
          intro q hq r hr hne
          simp only [allFam, List.mem_cons, List.not_mem_nil, or_false] at hq hr
          rcases hq with rfl | rfl <;> rcases hr with rfl | rfl <;> first | exact absurd rfl hne | (unfold Beside; decide)) hj
        (by decide +kernel) hb h
      exact ⟨this.1, this.2.2 _ List.mem_cons_self, this.2.2 _ (List.mem_cons_of_mem _ List.mem_cons_self)⟩

end Pyopenapi.Main
