import Verif.Props.Resolve

/-!
# C27: building with `override`
-/

namespace Pyopenapi
open Spec
variable {T : Table}

/-- A token that is not changed by encoding, and not empty. -/
def Plain (t : Str) : Prop := t ≠ [] ∧ '/' ∉ t ∧ '~' ∉ t

/-- Same kind, class, path, document and names of children. -/
def SameHead : Obj → Obj → Prop
  | .base c p s kids, .base c' p' s' kids' => c = c' ∧ p = p' ∧ s = s' ∧
      ∀ k, Dict.get? kids k = none ↔ Dict.get? kids' k = none
  | .list b p s es, .list b' p' s' es' => b = b' ∧ p = p' ∧ s = s' ∧ es.length = es'.length
  | .map b p s es, .map b' p' s' es' => b = b' ∧ p = p' ∧ s = s' ∧ Dict.keys es = Dict.keys es'
  | _, _ => False

/-- `o1` is `o0` with `x` put at `ts`, seen through `resolve`: below `ts` one is inside `x`; any other
place of the document `j` gives what it gave before; and the objects on the way to `ts` are as before
except for that child. -/
structure PutAt (T : Table) (j : Json) (ts : List Str) (x o0 o1 : Obj) : Prop where
  below : ∀ us, Obj.resolve T (ts ++ us) o1 = Obj.resolve T us x
  beside : ∀ us w, RawAt j us w → ¬ ts <+: us → ¬ us <+: ts →
    Obj.resolve T us o1 = Obj.resolve T us o0
  above : ∀ us vs, ts = us ++ vs → vs ≠ [] → ∃ a0 a1, Obj.resolve T us o0 = .ok a0 ∧
    Obj.resolve T us o1 = .ok a1 ∧ SameHead a0 a1

/-! ### the override argument -/

theorem unescape_no_tilde {s : Str} (h : '~' ∉ s) : Spec.unescape s = s := by
  induction s with
  | nil => rfl
  | cons c s ih =>
    simp only [List.mem_cons, not_or] at h
    rw [Spec.unescape]
    · rw [ih h.2]
    · rintro r rfl; exact absurd rfl h.1
    · rintro r rfl; exact absurd rfl h.1

theorem escape_plain {s : Str} (h1 : '/' ∉ s) (h2 : '~' ∉ s) : Spec.escape s = s := by
  induction s with
  | nil => rfl
  | cons c s ih =>
    simp only [List.mem_cons, not_or] at h1 h2
    rw [Spec.escape]
    · rw [ih h1.2 h2.2]
    · rintro rfl; exact absurd rfl h2.1
    · rintro rfl; exact absurd rfl h1.1

theorem plain_encode {t : Str} (h : Plain t) : jpEncode t = t := by
  rw [jpEncode_eq_escape, escape_plain h.2.1 h.2.2]

theorem plain_map {ts : List Str} (h : ∀ t ∈ ts, Plain t) : ts.map jpEncode = ts := by
  induction ts with
  | nil => rfl
  | cons t ts ih =>
    rw [List.map_cons, plain_encode (h t (by simp)), ih (fun u hu => h u (by simp [hu]))]

theorem tilde_joinC {ts : List Str} (h : ∀ t ∈ ts, '~' ∉ t) : '~' ∉ Str.joinC '/' ts := by
  induction ts with
  | nil => simp [Str.joinC]
  | cons t ts ih =>
    by_cases hts : ts = []
    · subst hts; simpa [Str.joinC] using h t (by simp)
    · rw [Str.joinC_cons hts]
      simp only [List.mem_append, List.mem_cons, not_or]
      exact ⟨h t (by simp), by decide, ih (fun u hu => h u (by simp [hu]))⟩

theorem splitC1_of_not_mem {c : Char} {s : Str} (h : c ∉ s) : Str.splitC1 c s = [s] := by
  induction s with
  | nil => rfl
  | cons a s ih =>
    simp only [List.mem_cons, not_or] at h
    rw [Str.splitC1]
    simp [Ne.symm h.1, ih h.2]

theorem splitC1_append {c : Char} {a : Str} (b : Str) (h : c ∉ a) :
    Str.splitC1 c (a ++ c :: b) = [a, b] := by
  induction a with
  | nil => simp [Str.splitC1]
  | cons x a ih =>
    simp only [List.mem_cons, not_or] at h
    rw [List.cons_append, Str.splitC1]
    simp [Ne.symm h.1, ih h.2]

/-- One level of the regrouping, for a pointer whose later tokens are plain. -/
theorem splitOverride_one {t : Str} {ts : List Str} (x : Obj) (h : ∀ u ∈ ts, Plain u)
    (hne : jpCompose (t :: ts) none ≠ []) :
    splitOverride [(jpCompose (t :: ts) none, x)] = .ok [(t, [(jpCompose ts none, x)])] := by
  have hsplit : jpSplit1 (jpCompose (t :: ts) none) = t :: (if ts = [] then [] else [jpCompose ts none]) := by
    unfold jpSplit1
    rw [if_neg hne]
    by_cases hts : ts = []
    · subst hts
      simp only [jpCompose, List.map_cons, List.map_nil, Str.joinC, if_true]
      rw [splitC1_of_not_mem (slash_not_mem_jpEncode t)]
      simp [jpDecode_jpEncode]
    · simp only [jpCompose, List.map_cons, hts, if_false]
      rw [Str.joinC_cons (by simpa using hts), splitC1_append _ (slash_not_mem_jpEncode t)]
      simp only [List.map_cons, List.map_nil, jpDecode_jpEncode]
      rw [plain_map h, jpDecode_eq_unescape, unescape_no_tilde (tilde_joinC (fun u hu => (h u hu).2.2))]
  simp only [splitOverride, List.foldlM, hsplit, bind, Except.bind, pure, Except.pure, Dict.get?_nil,
    Option.getD_none, Dict.set]
  by_cases hts : ts = []
  · subst hts; rfl
  · simp [hts]

theorem compose_nil_iff {ts : List Str} (h : ∀ u ∈ ts, Plain u) : jpCompose ts none = [] ↔ ts = [] := by
  constructor
  · intro hc
    simp only [jpCompose, plain_map h] at hc
    rcases Str.joinC_eq_nil hc with h1 | h1
    · exact h1
    · subst h1; exact absurd rfl (h [] (by simp)).1
  · rintro rfl; rfl

/-! ### one child, with an override -/

theorem buildKid_ov (k : Str) (cd : ChildDef) (j : Json) (path : Option Str) (ovs : Dict (Dict Obj)) :
    buildKid T k cd j path ovs = match ovHere (ovFor ovs k) with
      | some o => .ok (some o)
      | none => match specGet j k with
        | .error e => .error e
        | .ok none => if cd.required then .error .fieldNotExist else .ok none
        | .ok (some v) => if v = .null then .ok none
          else match build T cd.builder v (some (jpCompose [k] path)) (ovFor ovs k) with
            | .error e => .error e
            | .ok o => .ok (some o) := by
  rw [buildKid]
  cases ovHere (ovFor ovs k) with
  | some o => rfl
  | none =>
    simp only
    split
    · rename_i e h; rw [h]
    · rename_i h; rw [h]
    · rename_i v h; rw [h]; rfl

theorem buildAt_ov (b : Builder) (k : Str) (v : Json) (path : Option Str) (ovs : Dict (Dict Obj)) :
    buildAt T b k v path ovs = match ovHere (ovFor ovs k) with
      | some o => .ok o
      | none => build T b v (some (jpCompose [k] path)) (ovFor ovs k) := by
  rw [buildAt]
  cases ovHere (ovFor ovs k) <;> rfl

theorem ovFor_single_self (t : Str) (m : Dict Obj) : ovFor [(t, m)] t = m := by
  simp [ovFor, Dict.get?_cons]

theorem ovFor_single_ne {t k : Str} (h : t ≠ k) (m : Dict Obj) : ovFor [(t, m)] k = [] := by
  simp [ovFor, Dict.get?_cons, h]

theorem ovHere_self {x : Obj} (hx : x.truthy = true) : ovHere [([], x)] = some x := by
  simp [ovHere, Dict.get?_cons, hx]

theorem ovHere_other {r : Str} (hr : r ≠ []) (x : Obj) : ovHere [(r, x)] = none := by
  simp [ovHere, Dict.get?_cons, hr]

/-! ### putting `x` below one child, element, entry -/

theorem resolve_nil (o : Obj) : Obj.resolve T [] o = .ok o := by cases o <;> rfl

theorem resolve_base {c : Str} {p : Option Str} {s : Json} {kids : Dict Obj} {k : Str} {ts : List Str}
    {o : Obj} (hk : Dict.has (T c).children k = true) (ho : Dict.get? kids k = some o) (hn : o.isPrim = false) :
    Obj.resolve T (k :: ts) (.base c p s kids) = Obj.resolve T ts o := by
  have hget : Obj.getattr T c s kids k = .ok o := by simp [Obj.getattr, hk, ho]
  simp only [Obj.resolve, hget, bind, Except.bind]
  cases o with
  | prim j => simp [Obj.isPrim] at hn
  | _ => rfl

theorem resolve_list {b : Builder} {p : Option Str} {s : Json} {es : List Obj} {n : Nat} {ts : List Str}
    {o : Obj} (ho : es[n]? = some o) (hn : o.isPrim = false) :
    Obj.resolve T (Str.ofNat n :: ts) (.list b p s es) = Obj.resolve T ts o := by
  simp only [Obj.resolve, pyInt_ofNat, bind, Except.bind, pyIndex_nat es n _ ho]
  cases o with
  | prim j => simp [Obj.isPrim] at hn
  | _ => rfl

theorem resolve_map {b : Builder} {p : Option Str} {s : Json} {es : Dict Obj} {k : Str} {ts : List Str}
    {o : Obj} (ho : Dict.get? es k = some o) (hn : o.isPrim = false) :
    Obj.resolve T (k :: ts) (.map b p s es) = Obj.resolve T ts o := by
  simp only [Obj.resolve, bind, Except.bind, Dict.get!_ok.2 ho]
  cases o with
  | prim j => simp [Obj.isPrim] at hn
  | _ => rfl

theorem sameHead_isPrim {a b : Obj} (h : SameHead a b) : a.isPrim = false ∧ b.isPrim = false := by
  cases a <;> cases b <;> simp_all [SameHead, Obj.isPrim]

theorem PutAt.heads {j : Json} {ts : List Str} {x o0 o1 : Obj} (h : PutAt T j ts x o0 o1) (hts : ts ≠ []) :
    SameHead o0 o1 := by
  obtain ⟨a0, a1, h0, h1, hh⟩ := h.above [] ts rfl hts
  rw [resolve_nil] at h0 h1
  cases h0; cases h1; exact hh

/-- What the override does with the child (element, entry) the pointer goes through. -/
def PutBelow (T : Table) (v : Json) (ts : List Str) (x o0 o1 : Obj) : Prop :=
  if ts = [] then o1 = x else PutAt T v ts x o0 o1

theorem PutBelow.isPrim {v : Json} {ts : List Str} {x o0 o1 : Obj} (hx : x.isPrim = false)
    (h : PutBelow T v ts x o0 o1) : o1.isPrim = false := by
  unfold PutBelow at h
  split at h
  · rw [h]; exact hx
  · rename_i hts; exact (sameHead_isPrim (h.heads hts)).2

theorem PutBelow.below {v : Json} {ts : List Str} {x o0 o1 : Obj}
    (h : PutBelow T v ts x o0 o1) (us : List Str) : Obj.resolve T (ts ++ us) o1 = Obj.resolve T us x := by
  unfold PutBelow at h
  split at h
  · rename_i hts; subst hts; rw [h]; rfl
  · exact PutAt.below h us

/-- C27, one level: `f0`/`f1` resolve one token from the old/new object. -/
theorem putAt_step {j v : Json} {t : Str} {ts : List Str} {x o0 o1 c0 c1 : Obj}
    (hput : PutBelow T v ts x c0 c1)
    (hhead : SameHead o0 o1)
    (h1 : ∀ us, Obj.resolve T (t :: us) o1 = Obj.resolve T us c1)
    (h0 : ts ≠ [] → ∀ us, Obj.resolve T (t :: us) o0 = Obj.resolve T us c0)
    (hraw : ∀ us w, RawAt j (t :: us) w → RawAt v us w)
    (hother : ∀ t' us w, t' ≠ t → RawAt j (t' :: us) w →
      Obj.resolve T (t' :: us) o1 = Obj.resolve T (t' :: us) o0) :
    PutAt T j (t :: ts) x o0 o1 := by
  refine ⟨?_, ?_, ?_⟩
  · intro us
    rw [List.cons_append, h1]; exact hput.below us
  · intro us w hw hp1 hp2
    cases us with
    | nil => exact absurd (List.nil_prefix) hp2
    | cons t' us =>
      by_cases ht : t' = t
      · subst ht
        have hts : ts ≠ [] := by
          rintro rfl
          exact hp1 ⟨us, rfl⟩
        rw [h1, h0 hts]
        unfold PutBelow at hput
        rw [if_neg hts] at hput
        refine hput.beside us w (hraw us w hw) ?_ ?_
        · intro h; apply hp1; exact List.cons_prefix_cons.2 ⟨rfl, h⟩
        · intro h; apply hp2; exact List.cons_prefix_cons.2 ⟨rfl, h⟩
      · exact hother t' us w ht hw
  · intro us vs huv hvs
    cases us with
    | nil => exact ⟨o0, o1, resolve_nil _, resolve_nil _, hhead⟩
    | cons t' us =>
      rw [List.cons_append, List.cons.injEq] at huv
      obtain ⟨rfl, huv⟩ := huv
      have hts : ts ≠ [] := by
        rintro rfl
        simp at huv
        exact hvs huv.2
      unfold PutBelow at hput
      rw [if_neg hts] at hput
      obtain ⟨a0, a1, ha0, ha1, hh⟩ := hput.above us vs huv hvs
      exact ⟨a0, a1, by rw [h0 hts]; exact ha0, by rw [h1]; exact ha1, hh⟩

theorem rawAt_key {d : Dict Json} {t : Str} {us : List Str} {v w : Json} (hv : Dict.get? d t = some v)
    (h : RawAt (.obj d) (t :: us) w) : RawAt v us w := by
  cases h with
  | key h1 h2 => rw [hv] at h1; cases h1; exact h2

theorem ofNat_inj {a b : Nat} (h : Str.ofNat a = Str.ofNat b) : a = b := by
  have := digits?_ofNat a
  rw [h, digits?_ofNat] at this
  exact (Option.some.inj this).symm

theorem rawAt_idx {l : List Json} {n : Nat} {us : List Str} {v w : Json} (hv : l[n]? = some v)
    (h : RawAt (.arr l) (Str.ofNat n :: us) w) : RawAt v us w := by
  generalize ht : Str.ofNat n :: us = ts at h
  generalize hj : Json.arr l = j at h
  cases h with
  | here => simp at ht
  | key => simp at hj
  | @idx l' m v' _ us' h1 h2 =>
    cases hj
    rw [List.cons.injEq] at ht
    have := ofNat_inj ht.1
    subst this
    rw [hv] at h1
    cases h1
    rw [ht.2]; exact h2

theorem wf_of_memD {d : List (Str × Json)} (h : Json.wfD d = true) {k : Str} {v : Json} (hm : (k, v) ∈ d) :
    v.wf = true := by
  induction d with
  | nil => simp at hm
  | cons p d ih =>
    obtain ⟨a, b⟩ := p
    simp only [Json.wfD, Bool.and_eq_true] at h
    rcases List.mem_cons.1 hm with h1 | h1
    · cases h1; exact h.1
    · exact ih h.2 h1

theorem wf_of_memL {l : List Json} (h : Json.wfL l = true) {v : Json} (hm : v ∈ l) : v.wf = true := by
  induction l with
  | nil => simp at hm
  | cons p d ih =>
    simp only [Json.wfL, Bool.and_eq_true] at h
    rcases List.mem_cons.1 hm with h1 | h1
    · cases h1; exact h.1
    · exact ih h.2 h1

theorem wf_get {d : Dict Json} {k : Str} {v : Json} (h : (Json.obj d).wf = true)
    (hv : Dict.get? d k = some v) : v.wf = true := by
  simp only [Json.wf, Bool.and_eq_true] at h
  exact wf_of_memD h.2 (Dict.mem_of_get? hv)

theorem wf_elem {l : List Json} {n : Nat} {v : Json} (h : (Json.arr l).wf = true)
    (hv : l[n]? = some v) : v.wf = true := by
  simp only [Json.wf] at h
  exact wf_of_memL h (List.mem_of_getElem? hv)

/-- Changing the body at one key changes that entry. -/
theorem mapM_set {α β : Type} {f g : Str → α → R β} {d : Dict α} {r : Dict β} {k : Str} {v : α} {y : β}
    (h : Dict.mapM f d = .ok r) (hn : Dict.NodupKeys d) (hv : Dict.get? d k = some v) (hy : g k v = .ok y)
    (hfg : ∀ k' v', k' ≠ k → g k' v' = f k' v') : Dict.mapM g d = .ok (Dict.set r k y) := by
  induction d generalizing r with
  | nil => simp at hv
  | cons p d ih =>
    obtain ⟨a, b⟩ := p
    obtain ⟨hna, hnd⟩ := Dict.nodupKeys_cons.1 hn
    simp only [Dict.mapM, bind, Except.bind, pure, Except.pure] at h
    split at h
    · simp at h
    · rename_i z hz
      split at h
      · simp at h
      · rename_i r' hr'
        simp only [Except.ok.injEq] at h
        subst h
        rw [Dict.get?_cons] at hv
        by_cases hak : a = k
        · subst hak
          simp only [if_true, Option.some.injEq] at hv
          subst hv
          have hrest : Dict.mapM g d = .ok r' := by
            refine Dict.mapM_of_forall₂ ?_
            have := Dict.mapM_ok hr'
            clear ih hn hz hr' hnd
            induction this with
            | nil => exact .nil
            | @cons p q d r hpq _ ih =>
              simp only [Dict.keys, List.map_cons, List.mem_cons, not_or] at hna
              refine .cons ⟨hpq.1, ?_⟩ (ih hna.2)
              rw [hfg _ _ (Ne.symm hna.1)]; exact hpq.2
          simp [Dict.mapM, bind, Except.bind, pure, Except.pure, hy, hrest, Dict.set]
        · rw [if_neg hak] at hv
          simp [Dict.mapM, bind, Except.bind, pure, Except.pure, hfg a b hak, hz, ih hr' hnd hv, Dict.set, hak]

/-- C27: building with the override `{pointer: x}`, where the pointer leads somewhere in the document:
the result is the object built without it, with `x` at the pointer.  The tokens after the first must
be free of `/` and `~` (see `C27_escaped_token_lost`), and `x` must not be an empty list or map (see
`C27_empty_override_raises`). -/
theorem C27_override_aux (hT : OkTable T) {b b' : Builder} {j w : Json} {ts : List Str} {x : Obj}
    (hxt : x.truthy = true) (hxp : x.isPrim = false) (h : Reach T b j ts b' w) :
    okBuilder T b = true → j.wf = true → ts ≠ [] → (∀ t ∈ ts.tail, Plain t) → jpCompose ts none ≠ [] →
    ∀ p o0, build T b j p [] = .ok o0 →
      ∃ o1, build T b j p [(jpCompose ts none, x)] = .ok o1 ∧ PutAt T j ts x o0 o1 := by
  induction h with
  | here => intro _ _ h; exact absurd rfl h
  | @child c d k cd v w ts b' hk hv hn hreach ih =>
    intro _ hwf _ hplain hne p o0 hb
    simp only [List.tail_cons] at hplain
    have hc := hT.cls c
    have hm := Dict.mem_of_get? hk
    have hcb := hc.child k cd hm
    obtain ⟨kids, oc, rfl, hkid, hbc⟩ := kid_of_cls hT hb hk hv hn
    -- the new child
    have hnew : ∃ oc', buildKid T k cd (.obj d) p [(k, [(jpCompose ts none, x)])] = .ok (some oc') ∧
        PutBelow T v ts x oc oc' := by
      rw [buildKid_ov, ovFor_single_self]
      by_cases hts : ts = []
      · subst hts
        have : jpCompose [] none = [] := rfl
        rw [this, ovHere_self hxt]
        exact ⟨x, rfl, by simp [PutBelow]⟩
      · have hr : jpCompose ts none ≠ [] := fun h => hts ((compose_nil_iff hplain).1 h)
        rw [ovHere_other hr]
        obtain ⟨o1, ho1, hput⟩ := ih (childBuilder_ok hcb) (wf_get hwf hv) hts
          (fun t ht => hplain t (List.mem_of_mem_tail ht)) hr _ _ hbc
        refine ⟨o1, ?_, by rw [PutBelow, if_neg hts]; exact hput⟩
        simp only [specGet_obj, hv, hn, if_false, ho1]
    obtain ⟨oc', hoc', hput⟩ := hnew
    have hb0 := hb
    rw [build_cls] at hb
    split at hb
    · simp at hb
    · rename_i kids0 hk0
      simp only [Except.ok.injEq, Obj.base.injEq, true_and] at hb
      subst hb
      have hf1 : ∀ k' cd', k' ≠ k → buildKid T k' cd' (.obj d) p [(k, [(jpCompose ts none, x)])] =
          buildKid T k' cd' (.obj d) p [] := by
        intro k' cd' hne'
        rw [buildKid_ov, buildKid_ov, ovFor_single_ne (Ne.symm hne'), ovFor_nil]
      have hcol : ∃ kids1, Dict.collect (fun k' cd' => buildKid T k' cd' (.obj d) p
          [(k, [(jpCompose ts none, x)])]) (T c).children = .ok kids1 := by
        refine ⟨_, Dict.collect_iff.2 ⟨?_, rfl⟩⟩
        rintro ⟨k', cd'⟩ hm'
        by_cases hkk : k' = k
        · subst hkk
          have : cd' = cd := by
            have := Dict.get?_of_mem hc.children hm'
            rw [hk] at this; exact (Option.some.inj this).symm
          subst this
          exact ⟨_, hoc'⟩
        · rw [hf1 k' cd' hkk]
          exact (Dict.collect_iff.1 hk0).1 (k', cd') hm'
      obtain ⟨kids1, hk1⟩ := hcol
      have hg1 : Dict.get? kids1 k = some oc' := by
        rw [Dict.get?_collect hc.children hk1, hk, Option.bind_some, kept_some]
        exact hoc'
      have hgo : ∀ k', k' ≠ k → Dict.get? kids1 k' = Dict.get? kids0 k' := by
        intro k' hkk
        rw [Dict.get?_collect hc.children hk1, Dict.get?_collect hc.children hk0]
        cases Dict.get? (T c).children k' with
        | none => rfl
        | some cd' => simp only [Option.bind_some, Dict.kept, hf1 k' cd' hkk]
      refine ⟨.base c p (.obj d) kids1, ?_, ?_⟩
      · rw [build_cls_ov, splitOverride_one x hplain hne]
        simp only [hk1]
      · have hhas : Dict.has (T c).children k = true := by simp [Dict.has, hk]
        refine putAt_step hput ?_ ?_ ?_ (fun us w hw => rawAt_key hv hw) ?_
        · refine ⟨rfl, rfl, rfl, fun k' => ?_⟩
          by_cases hkk : k' = k
          · subst hkk; rw [hkid, hg1]; simp
          · rw [hgo k' hkk]
        · intro us; exact resolve_base hhas hg1 (hput.isPrim hxp)
        · intro hts us
          refine resolve_base hhas hkid ?_
          unfold PutBelow at hput
          rw [if_neg hts] at hput
          exact (sameHead_isPrim (hput.heads hts)).1
        · intro t' us w hne' _
          simp only [Obj.resolve, Obj.getattr, hgo t' hne']
  | @elem b l n v w ts b' hl hreach ih =>
    intro hok hwf _ hplain hne p o0 hb
    simp only [List.tail_cons] at hplain
    obtain ⟨hokb, hkind⟩ := elem_kind hok
    rw [build_list] at hb
    split at hb
    · simp at hb
    · rename_i es hes
      simp only [Except.ok.injEq] at hb
      subst hb
      obtain ⟨hlen, hel⟩ := buildElems_iff.1 hes
      have hlt : n < l.length := (List.getElem?_eq_some_iff.1 hl).1
      have hes' : es[n]? = some es[n] := List.getElem?_eq_getElem (by omega)
      have hbe := hel n v _ hl hes'
      rw [buildAt_nil, Nat.zero_add] at hbe
      have hnew : ∃ oc', buildAt T b (Str.ofNat n) v p [(Str.ofNat n, [(jpCompose ts none, x)])] = .ok oc' ∧
          PutBelow T v ts x es[n] oc' := by
        rw [buildAt_ov, ovFor_single_self]
        by_cases hts : ts = []
        · subst hts
          have : jpCompose [] none = [] := rfl
          rw [this, ovHere_self hxt]
          exact ⟨x, rfl, by simp [PutBelow]⟩
        · have hr : jpCompose ts none ≠ [] := fun h => hts ((compose_nil_iff hplain).1 h)
          rw [ovHere_other hr]
          obtain ⟨o1, ho1, hput⟩ := ih hokb (wf_elem hwf hl) hts
            (fun t ht => hplain t (List.mem_of_mem_tail ht)) hr _ _ hbe
          exact ⟨o1, ho1, by rw [PutBelow, if_neg hts]; exact hput⟩
      obtain ⟨oc', hoc', hput⟩ := hnew
      have hes1 : buildElems T b l 0 p [(Str.ofNat n, [(jpCompose ts none, x)])] = .ok (es.set n oc') := by
        rw [buildElems_iff]
        refine ⟨by simp [hlen], ?_⟩
        intro m y o hy ho
        by_cases hmn : m = n
        · subst hmn
          rw [hl] at hy
          cases hy
          rw [List.getElem?_set_self (by omega)] at ho
          cases ho
          rw [Nat.zero_add]; exact hoc'
        · rw [List.getElem?_set_ne (Ne.symm hmn)] at ho
          have := hel m y o hy ho
          rw [Nat.zero_add] at this ⊢
          rw [buildAt_ov, ovFor_single_ne (fun h => hmn (ofNat_inj h).symm)]
          rw [buildAt_nil] at this
          exact this
      refine ⟨.list b p (.arr l) (es.set n oc'), ?_, ?_⟩
      · rw [build_list_ov, splitOverride_one x hplain hne]
        simp only [hes1]
      · refine putAt_step hput ?_ ?_ ?_ (fun us w hw => rawAt_idx hl hw) ?_
        · exact ⟨rfl, rfl, rfl, by simp⟩
        · intro us
          exact resolve_list (List.getElem?_set_self (by omega)) (hput.isPrim hxp)
        · intro hts us
          refine resolve_list hes' ?_
          unfold PutBelow at hput
          rw [if_neg hts] at hput
          exact (sameHead_isPrim (hput.heads hts)).1
        · intro t' us w hne' hw
          cases hw with
          | @idx _ m v' _ us' h1 h2 =>
            have hmn : m ≠ n := by rintro rfl; exact hne' rfl
            have hml : m < l.length := (List.getElem?_eq_some_iff.1 h1).1
            have e0 : es[m]? = some es[m] := List.getElem?_eq_getElem (by omega)
            have e1 : (es.set n oc')[m]? = some es[m] := by
              rw [List.getElem?_set_ne (Ne.symm hmn)]; exact e0
            simp only [Obj.resolve, pyInt_ofNat, bind, Except.bind, pyIndex_nat _ m _ e1, pyIndex_nat _ m _ e0]
  | @item b d k v w ts b' hd hreach ih =>
    intro hok hwf _ hplain hne p o0 hb
    simp only [List.tail_cons] at hplain
    obtain ⟨hokb, hkind⟩ := item_kind hok
    rw [build_map] at hb
    split at hb
    · simp at hb
    · rename_i es hes
      simp only [Except.ok.injEq] at hb
      subst hb
      rw [buildItems_eq] at hes
      rcases Dict.get?_mapM hes k with ⟨h1, _⟩ | ⟨v', oe, h1, hoe, hbe⟩
      · rw [hd] at h1; simp at h1
      · rw [hd] at h1
        cases h1
        rw [buildAt_nil] at hbe
        have hnew : ∃ oc', buildAt T b k v p [(k, [(jpCompose ts none, x)])] = .ok oc' ∧
            PutBelow T v ts x oe oc' := by
          rw [buildAt_ov, ovFor_single_self]
          by_cases hts : ts = []
          · subst hts
            have : jpCompose [] none = [] := rfl
            rw [this, ovHere_self hxt]
            exact ⟨x, rfl, by simp [PutBelow]⟩
          · have hr : jpCompose ts none ≠ [] := fun h => hts ((compose_nil_iff hplain).1 h)
            rw [ovHere_other hr]
            obtain ⟨o1, ho1, hput⟩ := ih hokb (wf_get hwf hd) hts
              (fun t ht => hplain t (List.mem_of_mem_tail ht)) hr _ _ hbe
            exact ⟨o1, ho1, by rw [PutBelow, if_neg hts]; exact hput⟩
        obtain ⟨oc', hoc', hput⟩ := hnew
        have hset : buildItems T b d p [(k, [(jpCompose ts none, x)])] = .ok (Dict.set es k oc') := by
          rw [buildItems_eq]
          refine mapM_set hes (by simp only [Json.wf, Bool.and_eq_true, decide_eq_true_eq] at hwf; exact hwf.1)
            hd hoc' ?_
          intro k' v' hkk
          rw [buildAt_ov, buildAt_ov, ovFor_single_ne (Ne.symm hkk), ovFor_nil]
        have hkeys : Dict.keys (Dict.set es k oc') = Dict.keys es := by
          rw [Dict.keys_set]
          have : k ∈ Dict.keys es := by
            rw [← Dict.get?_isSome_iff, hoe]; rfl
          simp [this]
        refine ⟨.map b p (.obj d) (Dict.set es k oc'), ?_, ?_⟩
        · rw [build_map_ov, splitOverride_one x hplain hne]
          simp only [hset]
        · refine putAt_step hput ?_ ?_ ?_ (fun us w hw => rawAt_key hd hw) ?_
          · exact ⟨rfl, rfl, rfl, hkeys.symm⟩
          · intro us
            exact resolve_map (Dict.get?_set_self _ _ _) (hput.isPrim hxp)
          · intro hts us
            refine resolve_map hoe ?_
            unfold PutBelow at hput
            rw [if_neg hts] at hput
            exact (sameHead_isPrim (hput.heads hts)).1
          · intro t' us w hne' hw
            simp only [Obj.resolve, Dict.get!, Dict.get?_set_ne _ _ (Ne.symm hne')]
  | @ref r b d t ts b' w v hv hreach ih =>
    intro hok hwf hne hplain hne2 p o hb
    have hw : specHas (.obj d) (s% "$ref") = .ok true := by simp [specHas, Dict.has, hv]
    rw [build_ifNotRef, hw] at hb ⊢
    exact ih rfl hwf hne hplain hne2 p o hb
  | @notRef r b d t ts b' w hv hreach ih =>
    intro hok hwf hne hplain hne2 p o hb
    simp only [okBuilder, Bool.and_eq_true] at hok
    have hw : specHas (.obj d) (s% "$ref") = .ok false := by simp [specHas, Dict.has, hv]
    rw [build_ifNotRef, hw] at hb ⊢
    exact ih hok.1.2 hwf hne hplain hne2 p o hb
  | @notBool b j t ts b' w hv hreach ih =>
    intro hok hwf hne hplain hne2 p o hb
    simp only [okBuilder, Bool.and_eq_true] at hok
    rw [build_ifNotBool, isBool_false.2 hv] at hb ⊢
    exact ih hok.1 hwf hne hplain hne2 p o hb

/-- C27: building with the override `{pointer: x}`, where the pointer leads somewhere in the
document: the result is the object built without it, with `x` itself at the pointer (`PutAt`).

Missing from the full claim: tokens after the first must be free of `/` and `~`, and not empty
(`C27_escaped_token_lost` shows that the claim is false otherwise); `x` must be an object that is not
an empty list or map (`C27_empty_override_raises`).  `j.wf`: no duplicate keys, as in any parsed
document. -/
theorem C27_override_partial (hT : OkTable T) {b b' : Builder} {j w : Json} {t : Str} {ts : List Str} {x : Obj}
    (hxt : x.truthy = true) (hxp : x.isPrim = false) (h : Reach T b j (t :: ts) b' w)
    (hok : okBuilder T b = true) (hwf : j.wf = true) (ht : t ≠ []) (hplain : ∀ u ∈ ts, Plain u)
    {p : Option Str} {o0 : Obj} (hb : build T b j p [] = .ok o0) :
    ∃ o1, build T b j p [(jpCompose (t :: ts) none, x)] = .ok o1 ∧ PutAt T j (t :: ts) x o0 o1 := by
  refine C27_override_aux hT hxt hxp h hok hwf (by simp) hplain ?_ p o0 hb
  intro hc
  simp only [jpCompose, List.map_cons] at hc
  rcases Str.joinC_eq_nil hc with h1 | h1
  · simp at h1
  · simp only [List.cons.injEq] at h1
    have := congrArg jpDecode h1.1
    rw [jpDecode_jpEncode] at this
    exact ht this

/-- An object to inject. -/
def opX : Obj := .base (s% "v2_0.Operation") none (.obj [(s% "summary", .str (s% "new"))]) []

/-- Instance of `C27_override_partial` (its hypotheses hold of a document and a pointer of depth 2). -/
example : ∃ o0 o1, build pkg (.mapOf (.cls (s% "v2_0.PathItem")))
      (.obj [(s% "/pet", .obj [(s% "get", .obj [])])]) none [] = .ok o0 ∧
    build pkg (.mapOf (.cls (s% "v2_0.PathItem"))) (.obj [(s% "/pet", .obj [(s% "get", .obj [])])]) none
      [(s% "~1pet/get", opX)] = .ok o1 ∧
    PutAt pkg (.obj [(s% "/pet", .obj [(s% "get", .obj [])])]) [s% "/pet", s% "get"] opX o0 o1 := by
  have hr : Reach pkg (.mapOf (.cls (s% "v2_0.PathItem"))) (.obj [(s% "/pet", .obj [(s% "get", .obj [])])])
      [s% "/pet", s% "get"] (.cls (s% "v2_0.Operation")) (.obj []) :=
    .item rfl (.child (cd := ⟨.cls (s% "v2_0.Operation"), false⟩) (by decide +kernel) rfl (by simp) .here)
  have hb : ∃ o0, build pkg (.mapOf (.cls (s% "v2_0.PathItem")))
      (.obj [(s% "/pet", .obj [(s% "get", .obj [])])]) none [] = .ok o0 := by
    have h : (build pkg (.mapOf (.cls (s% "v2_0.PathItem")))
      (.obj [(s% "/pet", .obj [(s% "get", .obj [])])]) none []).isOk = true := by decide +kernel
    cases hh : build pkg (.mapOf (.cls (s% "v2_0.PathItem")))
      (.obj [(s% "/pet", .obj [(s% "get", .obj [])])]) none [] with
    | ok o => exact ⟨o, rfl⟩
    | error e => rw [hh] at h; simp [Except.isOk, Except.toBool] at h
  obtain ⟨o0, hb⟩ := hb
  obtain ⟨o1, h1, h2⟩ := C27_override_partial okTable_pkg (x := opX) rfl rfl hr rfl (by decide) (by decide)
    (by intro u hu; simp only [List.mem_singleton] at hu; subst hu; exact ⟨by decide, by decide, by decide⟩) hb
  exact ⟨o0, o1, hb, h1, h2⟩

/-- What is at the tokens, as the summary of an operation. -/
def summaryAt (ts : List Str) (o : Obj) : R Json :=
  (Obj.resolve pkg (ts ++ [s% "summary"]) o).bind (fun
    | .prim j => .ok j
    | _ => .error .generic)

/-- C27 (violation): the remainder of an override pointer is stored decoded, so `paths/~1pet/get` is
split again as `/`, `pet`, `get`; the object is not injected, the document's own operation stays. -/
theorem C27_escaped_token_lost :
    let doc : Json := .obj [(s% "paths", .obj [(s% "/pet", .obj [(s% "get", .obj [(s% "summary", .str (s% "old"))])])])]
    let ts := [s% "paths", s% "/pet", s% "get"]
    ((build pkg (.cls (s% "v2_0.Swagger")) doc none [(jpCompose ts none, opX)]).bind (summaryAt ts) =
      .ok (.str (s% "old"))) ∧
    -- while a plain key is replaced
    (let doc : Json := .obj [(s% "definitions", .obj [(s% "Pet", .obj [(s% "properties", .obj [])])])]
     ((build pkg (.cls (s% "v2_0.Swagger")) doc none [(s% "definitions/Pet", opX)]).bind
      (summaryAt [s% "definitions", s% "Pet"]) = .ok (.str (s% "new")))) := by decide +kernel

/-- C27 (violation): an overriding object that is an empty list or map is falsy, so it is not taken,
and the leftover `''` override makes the constructor of the child raise. -/
theorem C27_empty_override_raises :
    (build pkg (.cls (s% "v2_0.Operation"))
      (.obj [(s% "parameters", .arr [.obj [(s% "name", .str (s% "q"))]])]) none
      [(s% "parameters", .list (.cls (s% "v2_0.Parameter")) none (.arr []) [])]).map Obj.path? =
      .error .generic := by decide +kernel

/-- C27 (boundary): a pointer to a child the document does not have still injects the object for a
declared child of a class, and is ignored for a key of a map. -/
theorem C27_missing_place :
    ((build pkg (.cls (s% "v2_0.PathItem")) (.obj []) none [(s% "get", opX)]).bind (summaryAt [s% "get"]) =
      .ok (.str (s% "new"))) ∧
    ((build pkg (.mapOf (.cls (s% "v2_0.PathItem"))) (.obj []) none [(s% "~1pet/get", opX)]).bind
      (Obj.dump pkg) = .ok (.obj [])) := by decide +kernel

/-- C27: without `override` argument nothing changes, and a pointer `''` is refused. -/
theorem C27_empty_pointer_raises (c : Str) (j : Json) (p : Option Str) (x : Obj) :
    build T (.cls c) j p [([], x)] = .error .generic := by
  rw [build_cls_ov]
  rfl

end Pyopenapi
