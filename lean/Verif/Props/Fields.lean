import Verif.Spec.Fields
import Verif.Props.Dump

/-!
# C89, C90: the fields of the specifications, and the attributes with other names
-/

namespace Pyopenapi
open Spec

/-- The fields of the specification that no class declares. -/
def undeclared : List (Str × Str) :=
  [(s% "v3_0_0.Schema", s% "deprecated"), (s% "v3_0_0.Encoding", s% "style"), (s% "v3_0_0.Header", s% "content")]

/-- A field or a child that is declared, and not a field that must not be there. -/
def declared (c f : Str) : Bool :=
  match Dict.get? (pkg c).children f with
  | some _ => !Dict.has (pkg c).fields f
  | none => match Dict.get? (pkg c).fields f with
    | some fd => !fd.restricted
    | none => false

theorem fields_declared : fixedFields.all (fun p => p.2.all (fun f => declared p.1 f != undeclared.contains (p.1, f))) = true := by
  decide +kernel

theorem attribute_base {c f : Str} {p : Option Str} {spec : Json} {kids : Dict Obj} (h : declared c f = true) :
    (Obj.base c p spec kids).attribute f = Obj.getattr pkg c spec kids f := by
  unfold declared at h
  simp only [Obj.attribute]
  rw [if_pos]
  cases hc : Dict.get? (pkg c).children f with
  | some cd => left; simp [Dict.has, hc]
  | none =>
    rw [hc] at h
    cases hf : Dict.get? (pkg c).fields f with
    | some fd => right; simp [Dict.has, hf]
    | none => rw [hf] at h; cases h

/-- A declared field is kept. -/
theorem declared_kept {c f : Str} (h : declared c f = true) {d : Dict Json} {p : Option Str} {o : Obj}
    (hb : build pkg (.cls c) (.obj d) p [] = .ok o) {v : Json} (hv : Dict.get? d f = some v) (hn : v ≠ .null) : Kept o f v := by
  have hb0 := hb
  rw [build_cls] at hb
  split at hb
  · cases hb
  rename_i kids hk
  cases hb
  rw [Kept, attribute_base h]
  unfold declared at h
  cases hc : Dict.get? (pkg c).children f with
  | some cd =>
    right
    obtain ⟨oc, hoc⟩ := (Dict.collect_iff.1 hk).1 _ (Dict.mem_of_get? hc)
    have hoc0 : buildKid pkg f cd (.obj d) p [] = .ok oc := hoc
    rw [buildKid_eq] at hoc
    simp only [specGet, hv, if_neg hn] at hoc
    cases hbx : build pkg cd.builder v (some (jpCompose [f] p)) [] with
    | error e => rw [hbx] at hoc; cases hoc
    | ok x =>
      rw [hbx] at hoc
      cases hoc
      have hkid : Dict.get? kids f = some x := by
        rw [Dict.get?_collect (okTable_pkg.cls c).children hk, hc]
        exact kept_some (f := fun k cd => buildKid pkg k cd (.obj d) p []) |>.2 hoc0
      have hh : Dict.has (pkg c).children f = true := by simp [Dict.has, hc]
      refine ⟨cd.builder, _, x, hbx, by simp [Obj.getattr, hh, hkid], fun d' hd ht => ?_⟩
      obtain ⟨cs, fs, kids', e1, e2, _, hcs, _⟩ := dump_cls_get (okTable_pkg.cls c) hb0 hd
      cases e1
      obtain ⟨ox, hox⟩ := (Dict.collect_iff.1 hcs).1 _ (Dict.mem_of_get? hkid)
      have hdx : ∃ v', Obj.dump pkg x = .ok v' := by
        unfold dk at hox
        rw [if_pos ht] at hox
        cases hx : Obj.dump pkg x with
        | error e => rw [hx] at hox; cases hox
        | ok v' => exact ⟨v', rfl⟩
      obtain ⟨v', hv'⟩ := hdx
      exact ⟨v', hv', (C22_dump_child okTable_pkg hb0 hd hc v').2 ⟨v, x, hv, hn, hbx, ht, hv'⟩⟩
  | none =>
    rw [hc] at h
    cases hf : Dict.get? (pkg c).fields f with
    | none => rw [hf] at h; cases h
    | some fd =>
      rw [hf] at h
      left
      refine ⟨?_, fun d' hd => (C22_dump_field okTable_pkg hb0 hd hf v).2 ⟨hv, hn⟩⟩
      have hh : Dict.has (pkg c).children f = false := by simp [Dict.has, hc]
      have hr : fd.restricted = false := by simpa using h
      simp [Obj.getattr, hh, hf, Obj.readField, specGet, hv, hr, bind, Except.bind]

/-- C89: every fixed field of the specifications (but three) of every object that is loaded is read as it was given, and
dumped again. -/
theorem C89_fields_partial {c f : Str} {fs : List Str} (hc : (c, fs) ∈ fixedFields) (hf : f ∈ fs)
    (hne : (c, f) ∉ [(s% "v3_0_0.Schema", s% "deprecated"), (s% "v3_0_0.Encoding", s% "style"), (s% "v3_0_0.Header", s% "content")])
    {d : Dict Json} {p : Option Str} {o : Obj} (hb : build pkg (.cls c) (.obj d) p [] = .ok o) {v : Json}
    (hv : Dict.get? d f = some v) (hn : v ≠ .null) : Kept o f v := by
  have h := List.all_eq_true.1 (List.all_eq_true.1 fields_declared _ hc) _ hf
  refine declared_kept ?_ hb hv hn
  have hu : undeclared.contains (c, f) = false := by
    rw [Bool.eq_false_iff]
    exact fun hx => hne (List.contains_iff_mem.1 hx)
  rw [hu] at h
  simpa using h

/-- C89 fails for these three: whatever is given, `dump` leaves it out; the first two cannot be read either. -/
theorem C89_fields_violation {c f : Str}
    (h : (c, f) ∈ [(s% "v3_0_0.Schema", s% "deprecated"), (s% "v3_0_0.Encoding", s% "style"), (s% "v3_0_0.Header", s% "content")])
    {d : Dict Json} {p : Option Str} {o : Obj} (hb : build pkg (.cls c) (.obj d) p [] = .ok o) :
    (∀ d', Obj.dump pkg o = .ok (.obj d') → Dict.get? d' f = none) ∧
      (c ≠ s% "v3_0_0.Header" → o.attribute f = .error .attributeError) := by
  have hno : f ∉ Dict.keys (pkg c).children ∧ f ∉ Dict.keys (pkg c).fields ∧
      Dict.get? ((Dict.get? renames c).getD []) f = none := by
    have : [(s% "v3_0_0.Schema", s% "deprecated"), (s% "v3_0_0.Encoding", s% "style"), (s% "v3_0_0.Header", s% "content")].all
      (fun q => decide (q.2 ∉ Dict.keys (pkg q.1).children) && decide (q.2 ∉ Dict.keys (pkg q.1).fields) &&
        decide (Dict.get? ((Dict.get? renames q.1).getD []) q.2 = none)) = true := by decide +kernel
    have := List.all_eq_true.1 this _ h
    simp only [Bool.and_eq_true, decide_eq_true_eq] at this
    exact ⟨this.1.1, this.1.2, this.2⟩
  obtain ⟨h1, h2, h3⟩ := hno
  refine ⟨fun d' hd => ?_, fun _ => ?_⟩
  · cases hg : Dict.get? d' f with
    | none => rfl
    | some v => exact absurd (C22_dump_declared okTable_pkg hb hd hg) (fun hx => hx.elim h1 h2)
  · rw [build_cls] at hb
    split at hb
    · cases hb
    cases hb
    have g1 : Dict.has (pkg c).children f = false := by simp [Dict.has, Dict.get?_eq_none_iff.2 h1]
    have g2 : Dict.has (pkg c).fields f = false := by simp [Dict.has, Dict.get?_eq_none_iff.2 h2]
    simp [Obj.attribute, g1, g2, h3]

/-- Of these three, every object that has them is accepted all the same. -/
example : (build pkg (.cls (s% "v3_0_0.Encoding")) (.obj [(s% "style", .str (s% "form")), (s% "explode", .bool true)]) none []).bind
    (Obj.dump pkg) = .ok (.obj [(s% "explode", .bool true)]) := by decide +kernel

/-- A server whose url is read and dumped. -/
example {o : Obj} (hb : build pkg (.cls (s% "v3_0_0.Server")) (.obj [(s% "url", .str (s% "/v1"))]) none [] = .ok o) :
    Kept o (s% "url") (.str (s% "/v1")) :=
  C89_fields_partial (c := s% "v3_0_0.Server") (f := s% "url") (fs := [s% "url", s% "description", s% "variables"]) (by decide +kernel)
    (by decide) (by decide) hb rfl (by decide)

theorem renames_fields : renames.all (fun r => decide (Dict.get? renames r.1 = some r.2) && r.2.all (fun k =>
    decide ((r.1, k.1) = (s% "v3_0_0.OAuthFlows", s% "client_credentials")) ||
      (decide (Dict.get? r.2 k.1 = some k.2) && fixedFields.all (fun q => decide (q.1 ≠ r.1) || q.2.all (fun f => decide (plain k.1 ≠ plain f) ||
        (decide (k.2 = f) && !Dict.has (pkg r.1).children k.1 && !Dict.has (pkg r.1).fields k.1 &&
          (Dict.has (pkg r.1).children f || Dict.has (pkg r.1).fields f))))))) = true := by decide +kernel

/-- C90: an attribute whose name is, but for `_`, `-`, `$` and capital letters, that of a fixed field of its object, gives
that field, for every object that is loaded. -/
theorem C90_renamed_partial {c f name key : Str} {fs : List Str} {rs : Dict Str} (hc : (c, fs) ∈ fixedFields) (hf : f ∈ fs)
    (hr : (c, rs) ∈ renames) (hk : (name, key) ∈ rs) (hp : plain name = plain f)
    (hne : (c, name) ≠ (s% "v3_0_0.OAuthFlows", s% "client_credentials"))
    {d : Dict Json} {p : Option Str} {o : Obj} (hb : build pkg (.cls c) (.obj d) p [] = .ok o) :
    o.attribute name = o.attribute f := by
  have h := List.all_eq_true.1 renames_fields _ hr
  rw [Bool.and_eq_true, decide_eq_true_eq] at h
  obtain ⟨h1, h⟩ := h
  have h := List.all_eq_true.1 h _ hk
  rw [Bool.or_eq_true, decide_eq_true_eq, Bool.and_eq_true, decide_eq_true_eq] at h
  obtain ⟨h2, h⟩ := h.resolve_left hne
  have h := List.all_eq_true.1 h _ hc
  rw [Bool.or_eq_true, decide_eq_true_eq] at h
  have h := List.all_eq_true.1 (h.resolve_left (fun g => g rfl)) _ hf
  rw [Bool.or_eq_true, decide_eq_true_eq] at h
  have h := h.resolve_left (fun g => g hp)
  simp only [Bool.and_eq_true, Bool.not_eq_true', Bool.or_eq_true, decide_eq_true_eq] at h
  obtain ⟨⟨⟨rfl, g1⟩, g2⟩, g3⟩ := h
  rw [build_cls] at hb
  split at hb
  · cases hb
  cases hb
  dsimp only at h1 h2 g1 g2 g3 ⊢
  simp only [Obj.attribute, g1, g2, if_pos g3, h1, Option.getD_some, h2, Bool.false_eq_true, or_self, if_false]

/-- `operation_id` of an operation is its `operationId`. -/
example {d : Dict Json} {p : Option Str} {o : Obj} (hb : build pkg (.cls (s% "v3_0_0.Operation")) (.obj d) p [] = .ok o) :
    o.attribute (s% "operation_id") = o.attribute (s% "operationId") :=
  C90_renamed_partial (c := s% "v3_0_0.Operation") (f := s% "operationId") (name := s% "operation_id") (key := s% "operationId")
    (fs := (Dict.get? fixedFields (s% "v3_0_0.Operation")).getD []) (rs := (Dict.get? renames (s% "v3_0_0.Operation")).getD [])
    (by decide +kernel) (by decide +kernel) (by decide +kernel) (by decide +kernel) (by decide) (by decide) hb

/-- C90 fails for this one: it can never be read. -/
theorem C90_client_credentials_violation {d : Dict Json} {p : Option Str} {o : Obj}
    (hb : build pkg (.cls (s% "v3_0_0.OAuthFlows")) (.obj d) p [] = .ok o) :
    o.attribute (s% "client_credentials") = .error .attributeError ∧
      (∀ v, Dict.get? d (s% "clientCredentials") = some v → v ≠ .null → Kept o (s% "clientCredentials") v) := by
  refine ⟨?_, fun v hv hn => declared_kept (by decide +kernel) hb hv hn⟩
  rw [build_cls] at hb
  split at hb
  · cases hb
  cases hb
  have g1 : Dict.has (pkg (s% "v3_0_0.OAuthFlows")).children (s% "client_credentials") = false := by decide +kernel
  have g2 : Dict.has (pkg (s% "v3_0_0.OAuthFlows")).fields (s% "client_credentials") = false := by decide +kernel
  have g3 : Dict.get? ((Dict.get? renames (s% "v3_0_0.OAuthFlows")).getD []) (s% "client_credentials") = some (s% "clientCredential") := by
    decide +kernel
  have g4 : Dict.has (pkg (s% "v3_0_0.OAuthFlows")).children (s% "clientCredential") = false := by decide +kernel
  have g5 : Dict.get? (pkg (s% "v3_0_0.OAuthFlows")).fields (s% "clientCredential") = none := by decide +kernel
  simp [Obj.attribute, g1, g2, g3, Obj.getattr, g4, g5]

end Pyopenapi
