import Verif.Lemmas.MainDoc

/-!
# What the converters are told of a conventional document
-/

namespace Pyopenapi.Main
open _root_.Pyopenapi.Spec _root_.Pyopenapi.Refs.Spec Obj Conv

variable {W : Type}

/-- Everything by the text. -/
def docEnv (out : Outer W) (root : Obj) (url : Str) (K : Nat) : Conv.Env where
  deref o := .ok (follow root K o)
  setOrder := out.setOrder
  normRef o := match o with
    | .base _ _ (.obj e) _ => match Dict.get? e (s% "$ref") with
      | some (.str r) => .str (url ++ r)
      | _ => .null
    | _ => .null
  ok := out.ok

/-- The references of the document. -/
def Refd (d : Dict Json) (b : Bool) (v : Json) : Prop := b = false ∧ ∃ c, Entry d c v

theorem closed_v2 : Closed pkg (fun b => within (ofVersion (s% "v2_0.")) (fun _ => true) b = true) := by
  refine closed_within ?_
  intro c hc
  have h := pkg_children (p := fun c kc => !ofVersion (s% "v2_0.") c || within (ofVersion (s% "v2_0.")) (fun _ => true) kc.2.builder)
    (by decide +kernel) c
  simpa [hc] using h

theorem inside_v2 {d : Dict Json} {root : Obj} (h : Built (.cls (s% "v2_0.Swagger")) (.obj d) root) {c : Str} {q : Option Str}
    {s : Json} {kids : Dict Obj} (hv : Inside root (.base c q s kids)) :
    ofVersion (s% "v2_0.") c = true ∧ build pkg (.cls c) s q [] = .ok (.base c q s kids) ∧ s.wf = true := by
  obtain ⟨p, hp⟩ := h.path
  obtain ⟨b, j, p', hb, hw, hbuild⟩ := loaded_inside closed_v2 (T := pkg) (o := root) ⟨_, _, p, by decide, h.wf, hp⟩ hv
  obtain ⟨h1, h2, h3, h4⟩ := build_inv closed_v2 hb hbuild
  subst h1 h2
  exact ⟨by simpa [within] using h3, h4, hw⟩

theorem visited_v2 {d : Dict Json} {root : Obj} (h : Built (.cls (s% "v2_0.Swagger")) (.obj d) root) {ts : List Str} {c : Str} {q : Option Str}
    {s : Json} {kids : Dict Obj} (hv : Visited [] root ts (.base c q s kids)) : ofVersion (s% "v2_0.") c = true :=
  (inside_v2 h (visited_inside hv _ (.here _))).1

/-- The classes of 2.0 with a field `$ref`. -/
theorem ref_classes {c : Str} (h : ofVersion (s% "v2_0.") c = true) {fd : FieldDef} (hf : Dict.get? (pkg c).fields (s% "$ref") = some fd) :
    c ∈ Refs.normClasses2 := by
  have key : ∀ x ∈ classes, ofVersion (s% "v2_0.") x.1 = true → (Dict.get? x.2.fields (s% "$ref")).isSome = true → x.1 ∈ Refs.normClasses2 := by
    decide +kernel
  unfold pkg at hf
  cases hg : Dict.get? classes c with
  | none => rw [hg] at hf; cases hf
  | some cd =>
    rw [hg] at hf
    exact key (c, cd) (Dict.mem_of_get? hg) h (by rw [show Dict.get? (c, cd).2.fields (s% "$ref") = some fd from hf]; rfl)

/-- What is at an entry of a section, is of that entry. -/
theorem at_entry {d : Dict Json} {root : Obj} (h : Built (.cls (s% "v2_0.Swagger")) (.obj d) root) {sec C n : Str} {y : Obj}
    (hc : (Dict.get? (pkg (s% "v2_0.Swagger")).children sec).map (fun cd => cd.builder) = some (.mapOf (.cls C)))
    (ha : At root [sec, n] y) : ∃ w, Dict.get? (objAt d sec) n = some w := by
  obtain ⟨h1, _⟩ := kid_objAt h hc
  obtain ⟨d', p, kids, hd, rfl, hk⟩ := built_cls h
  cases hd
  obtain ⟨ha1, ha2⟩ := ha
  obtain ⟨cd, hcd, hb⟩ := Option.map_eq_some_iff.1 hc
  have hh : Dict.has (pkg (s% "v2_0.Swagger")).children sec = true := by simp [Dict.has, hcd]
  simp only [Obj.resolve, Obj.getattr, hh, if_true, bind, Except.bind] at ha1
  cases hx : Dict.get? kids sec with
  | none =>
    rw [hx] at ha1
    cases ha1
    cases ha2
  | some x =>
    have hx' := (base_kids (c := s% "v2_0.Swagger") (T := pkg) (j := .obj d) (p := p) (s := .obj d) (ks := kids) (p' := p) (by rw [build_cls, hk])).2 sec x
      (Dict.mem_of_get? hx)
    obtain ⟨cd', d'', v, hm, he, hv, hbx⟩ := hx'
    cases he
    have hcd' := Dict.get?_of_mem (okTable_pkg.cls (s% "v2_0.Swagger")).children hm
    rw [hcd] at hcd'
    cases hcd'
    rw [hb] at hbx
    cases v with
    | obj l =>
      rw [build_map] at hbx
      split at hbx
      · cases hbx
      · rename_i es _
        simp only [Except.ok.injEq] at hbx
        subst hbx
        rw [hx] at ha1
        simp only [Option.getD_some, Obj.resolve, bind, Except.bind] at ha1
        cases hn : Dict.get? es n with
        | none => simp [Dict.get!, hn] at ha1
        | some x =>
          have hm2 : (n, x) ∈ entries (kid (.base (s% "v2_0.Swagger") p (.obj d) kids) sec) := by
            rw [show kid (.base (s% "v2_0.Swagger") p (.obj d) kids) sec = _ from hx]
            exact Dict.mem_of_get? hn
          obtain ⟨⟨n', v⟩, h3, h4, _⟩ := forall₂_mem_right h1 hm2
          dsimp only at h4
          subst h4
          cases hg : Dict.get? (objAt d sec) n' with
          | some w => exact ⟨w, rfl⟩
          | none => exact absurd (List.mem_map_of_mem (f := Prod.fst) h3) (Dict.get?_eq_none_iff.1 hg)
    | _ => rw [build_map_other _ _ _ (by simp)] at hbx; cases hbx

/-- Where `next` leads. -/
theorem next_some {d : Dict Json} {root : Obj} (h : Built (.cls (s% "v2_0.Swagger")) (.obj d) root) {x y : Obj} (hn : next root x = some y) :
    ∃ c q e kids sec n w C, x = .base c q (.obj e) kids ∧ Fits c sec ∧ Dict.get? (objAt d sec) n = some w ∧ Built (.cls C) w y ∧
      ((c = s% "v2_0.Schema" ∧ C = s% "v2_0.Schema") ∨
      (sec = s% "parameters" ∧ C = s% "v2_0.Parameter") ∨ (sec = s% "responses" ∧ C = s% "v2_0.Response")) := by
  unfold next at hn
  split at hn
  · rename_i c q e kids
    split at hn
    · rename_i r hr
      split at hn
      · rename_i sec n ht
        split at hn
        · rename_i hf
          split at hn
          · rename_i y' hy
            split at hn
            · rename_i hb
              cases hn
              have hf := fits_iff.1 hf
              obtain ⟨C, hC, hC'⟩ := sec_class hf
              obtain ⟨w, hw⟩ := at_entry h hC ⟨hy, hb⟩
              obtain ⟨y', _, h2, h3⟩ := target h hC hw
              cases at_inj h2 ⟨hy, hb⟩
              exact ⟨c, q, e, kids, sec, n, w, C, rfl, hf, hw, h3, hC'⟩
            · cases hn
          · cases hn
        · cases hn
      · cases hn
    · cases hn
  · cases hn

theorem next_cls {root : Obj} {c : Str} {q : Option Str} {s : Json} {kids : Dict Obj} (h : ∀ sec, ¬ Fits c sec) :
    next root (.base c q s kids) = none := by
  unfold next
  split
  · rename_i heq
    cases heq
    split
    · split
      · rw [if_neg (by rw [fits_iff]; exact h _)]
      · rfl
    · rfl
  · rfl

theorem follow_none {root x : Obj} (h : next root x = none) (K : Nat) : follow root K x = x := by
  cases K with
  | zero => rfl
  | succ K => rw [follow, h]

theorem follow_cls {root : Obj} {c : Str} {j : Json} {o : Obj} (h : Built (.cls c) j o) (hc : ∀ sec, ¬ Fits c sec) (K : Nat) :
    follow root K o = o := by
  obtain ⟨d, p, kids, _, rfl, _⟩ := built_cls h
  exact follow_none (next_cls hc) K

theorem fits_param (sec : Str) : ¬ Fits (s% "v2_0.Parameter") sec := by simp [Fits]
theorem fits_resp (sec : Str) : ¬ Fits (s% "v2_0.Response") sec := by simp [Fits]

theorem entryAt_some {d : Dict Json} {sec : Str} (hw : (Json.obj (objAt d sec)).wf = true) {v : Json} {e : Dict Json}
    (h : entryAt d sec v = some e) : ∃ n, v = .str (pointer [sec, n]) ∧ Dict.get? (objAt d sec) n = some (.obj e) := by
  unfold entryAt at h
  obtain ⟨⟨n, w⟩, hm, hp⟩ := List.exists_of_findSome?_eq_some h
  dsimp only at hp
  split at hp
  · rename_i hv
    cases w with
    | obj e' => cases hp; exact ⟨n, hv, Dict.get?_of_mem (wf_nodup hw) hm⟩
    | _ => cases hp
  · cases hp

theorem deref_entry {d : Dict Json} {root : Obj} {K : Nat} (h : Std d root K) {sec C : Str} {r e : Dict Json} {v : Json} {o : Obj}
    (hc : (Dict.get? (pkg (s% "v2_0.Swagger")).children sec).map (fun cd => cd.builder) = some (.mapOf (.cls C)))
    (hf : Fits (s% "v2_0.Reference") sec) (hC : ∀ sec, ¬ Fits C sec) (ho : Built (.cls (s% "v2_0.Reference")) (.obj r) o)
    (hv : Dict.get? r (s% "$ref") = some v) (he : entryAt d sec v = some e) :
    ∃ p, follow root (K + 1) o = p ∧ Built (.cls C) (.obj e) p := by
  obtain ⟨n, rfl, hn⟩ := entryAt_some (kid_objAt h.built hc).2.2.2 he
  obtain ⟨y, _, h2, h3⟩ := target h.built hc hn
  obtain ⟨d', p, kids, hd, rfl, _⟩ := built_cls ho
  cases hd
  refine ⟨y, ?_, h3⟩
  rw [follow, next_of hv hf h2]
  exact follow_cls h3 hC K

theorem follow_schema {d : Dict Json} {root : Obj} {K : Nat} (h : Std d root K) (m : Nat) : ∀ j o, Built (.cls (s% "v2_0.Schema")) j o → ¬ IsFile j →
    ∃ j', Built (.cls (s% "v2_0.Schema")) j' (follow root m o) ∧ ¬ IsFile j' := by
  induction m with
  | zero => exact fun j o ho hj => ⟨j, ho, hj⟩
  | succ m ih =>
    intro j o ho hj
    rw [follow]
    cases hn : next root o with
    | none => exact ⟨j, ho, hj⟩
    | some y =>
      obtain ⟨c, q, e, kids, sec, n, w, C, rfl, hf, hw, hy, hC⟩ := next_some h.built hn
      obtain ⟨_, _, _, _, he, _⟩ := built_cls ho
      cases he
      rcases hf with ⟨_, rfl⟩ | ⟨hc, _⟩
      · rcases hC with ⟨_, rfl⟩ | ⟨hc, _⟩ | ⟨hc, _⟩
        · exact ih w y hy (h.noFiles n w hw)
        · exact absurd hc (by decide)
        · exact absurd hc (by decide)
      · exact absurd hc (by decide)

theorem docEnv_ok {out : Outer W} {d : Dict Json} {root : Obj} {K : Nat} (h : Std d root K) (hs : SetOrdered out) (url : Str) :
    EnvOk (docRefs d) (docEnv out root url (K + 1)) where
  set := hs
  param := fun _ _ ho => by show Except.ok _ = _; rw [follow_cls ho fits_param]
  resp := fun _ _ ho => by show Except.ok _ = _; rw [follow_cls ho fits_resp]
  paramRef := fun r v e o ho hv he => by
    obtain ⟨p, h1, h2⟩ := deref_entry h (sec := s% "parameters") (C := s% "v2_0.Parameter") (by decide +kernel)
      (.inr ⟨rfl, .inl rfl⟩) fits_param ho hv he
    exact ⟨p, by show Except.ok _ = _; rw [h1], h2⟩
  respRef := fun r v e o ho hv he => by
    obtain ⟨p, h1, h2⟩ := deref_entry h (sec := s% "responses") (C := s% "v2_0.Response") (by decide +kernel)
      (.inr ⟨rfl, .inr rfl⟩) fits_resp ho hv he
    exact ⟨p, by show Except.ok _ = _; rw [h1], h2⟩
  schema := fun j o ho hj => by
    obtain ⟨j', h1, h2⟩ := follow_schema h (K + 1) j o ho hj
    have hk : plainFields (s% "v2_0.Schema") [s% "type"] = true := by decide +kernel
    obtain ⟨e, p, kids, rfl, _⟩ := built_cls h1
    refine ⟨follow root (K + 1) o, _, rfl, built_fld h1 (plainFields_cls hk) _, ?_⟩
    rw [plainFields_val hk (by simp)]
    exact fun ht => h2 ⟨e, rfl, ht⟩

/-- An object of the document with a `$ref`. -/
theorem conv_ref {d : Dict Json} {root : Obj} {K : Nat} (h : Std d root K) {x : Obj} {v : Json} (hx : Inside root x)
    (hf : fld x (s% "$ref") = .ok v) (ht : v.truthy = true) :
    ∃ c q e kids ts, x = .base c q (.obj e) kids ∧ Visited [] root ts x ∧ c ∈ Refs.normClasses2 ∧ Dict.get? e (s% "$ref") = some v ∧
      Entry d c v := by
  cases x with
  | base c q s kids =>
    simp only [fld] at hf
    cases hg : Dict.get? (pkg c).fields (s% "$ref") with
    | none => rw [hg] at hf; cases hf; cases ht
    | some fd =>
      rw [hg] at hf
      dsimp only at hf
      have hc := ref_classes (inside_v2 h.built hx).1 hg
      obtain ⟨ts, hv⟩ := inside_visited (root_base h.built) hx rfl
      obtain ⟨e, rfl, he⟩ := h.conv ts c q s kids hv hc
      have h2 := Refs.refField2 hc
      unfold Refs.refField at h2
      rw [hg] at h2
      simp only [Bool.and_eq_true, decide_eq_true_eq, Bool.not_eq_true'] at h2
      simp only [readField, specGet] at hf
      rcases he with he | ⟨v', he, hE⟩
      · rw [he] at hf
        dsimp only at hf
        split at hf
        · cases hf
        · rw [h2.2.2] at hf; cases hf; cases ht
      · rw [he] at hf
        dsimp only at hf
        rw [h2.2.1, if_neg (by decide)] at hf
        cases hf
        exact ⟨c, q, e, kids, ts, rfl, hv, hc, he, hE⟩
  | _ => cases hf; cases ht

theorem refers_of {c : Str} {q : Option Str} {e : Dict Json} {kids : Dict Obj} {us : List Str} (hc : c ∈ Refs.normClasses2)
    (h : Dict.get? e (s% "$ref") = some (.str (pointer us))) : Refers Refs.normClasses2 (.base c q (.obj e) kids) (pointer us) :=
  ⟨c, q, e, kids, rfl, hc, h, by simp [pointer]⟩

theorem inside_trans {o x m : Obj} (h : Inside o x) (hm : Inside x m) : Inside o m := by
  induction h with
  | here => exact hm
  | child h _ ih => exact .child h (ih hm)
  | elem h _ ih => exact .elem h (ih hm)
  | item h _ ih => exact .item h (ih hm)

theorem docSource {d : Dict Json} {root : Obj} {K : Nat} (h : Std d root K) : Source (Inside root) (Refd d) where
  loaded hx := by
    obtain ⟨p, hp⟩ := h.built.path
    exact loaded_inside closed_all ⟨_, _, p, trivial, h.built.wf, hp⟩ hx
  slot hx hs := inside_trans hx (inside_slot hs (.here _))
  ref hx hf ht := by
    obtain ⟨c, _, _, _, _, _, _, _, _, hE⟩ := conv_ref h hx hf ht
    exact ⟨rfl, c, hE⟩

theorem docAgree {out : Outer W} {d : Dict Json} {root : Obj} {K : Nat} (h : Std d root K) {w : World W} {url : Str}
    (hk : Knows w root Refs.normClasses2 url) : Agree (Inside root) (convEnv out w) (docEnv out root url K) where
  setOrder := rfl
  ok := rfl
  deref o ho := deref_follow h hk ho
  closed o p ho hp := by
    cases hp
    by_cases hb : o.isBase = true
    · obtain ⟨ts, hv⟩ := follow_visited h K o (inside_visited (root_base h.built) ho hb)
      exact visited_inside hv _ (.here _)
    · have : next root o = none := by
        cases o with
        | base => exact absurd rfl hb
        | _ => rfl
      rw [follow_none this]
      exact ho
  normRef o v ho hf ht := by
    obtain ⟨c, q, e, kids, ts, rfl, hv, hc, hg, sec, n, _, rfl, _⟩ := conv_ref h ho hf ht
    obtain ⟨us, y, _, _, hat⟩ := (hk ts _ hv).1 _ (refers_of hc hg)
    simp only [convEnv, docEnv, hat, hg]

theorem docLoads {out : Outer W} {d : Dict Json} {root : Obj} {K : Nat} (h : Std d root K) (url : Str) :
    EnvLoads (Inside root) (Refd d) (docEnv out root url K) where
  deref o p ho _ hp := by
    cases hp
    by_cases hb : o.isBase = true
    · obtain ⟨ts, hv⟩ := follow_visited h K o (inside_visited (root_base h.built) ho hb)
      exact visited_inside hv _ (.here _)
    · have : next root o = none := by
        cases o with
        | base => exact absurd rfl hb
        | _ => rfl
      rw [follow_none this]
      exact ho
  normRef o v ho hf ht := by
    obtain ⟨hi, j, p, hw, hb⟩ := ho
    obtain ⟨c, q, e, kids, ts, rfl, hv, hc, hg, sec, n, _, rfl, _, _, hfit⟩ := conv_ref h hi hf ht
    have := (version_of hb).1
    simp only [Obj.className?, Option.some.injEq] at this
    subst this
    rcases hfit with ⟨hc, _⟩ | ⟨hc, _⟩ <;> exact absurd hc (by decide)

theorem grounded_mono {root : Obj} {K K' : Nat} (h : Grounded root K) (hle : K ≤ K') : Grounded root K' := by
  intro ts x hv
  obtain ⟨k, z, hk, hc⟩ := h ts x hv
  exact ⟨k, z, Nat.le_trans hk hle, hc⟩

theorem Std.mono {d : Dict Json} {root : Obj} {K K' : Nat} (h : Std d root K) (hle : K ≤ K') : Std d root K' :=
  ⟨h.built, h.conv, grounded_mono h.grounded hle, h.noFiles⟩

end Pyopenapi.Main
