import Verif.Spec.Store
import Verif.Lemmas.Store
import Verif.Lemmas.Pointer

/-!
# C35-C38: the object store behaves like a map of (url, pointer, version)
-/

namespace Pyopenapi
variable {O : Type}

theorem wf_step {st : Store O} (h : st.Wf) (op : StoreOp O) : (st.step op).Wf := by
  cases op with
  | set o url jp ver => exact wf_set h o url jp ver
  | updateRoutes url toSpec rs =>
    simp only [Store.step, Store.updateRoutes]
    split <;> exact h
  | getUnder url jp ver remove =>
    simp only [Store.step, Store.getUnder]
    split
    · rename_i x st' hx
      split at hx
      · simp at hx
      · split at hx
        · simp only [Except.ok.injEq, Prod.mk.injEq] at hx; rw [← hx.2]; exact h
        · rename_i uc huc
          split at hx
          · simp only [Except.ok.injEq, Prod.mk.injEq] at hx; rw [← hx.2]; exact h
          · simp only [Except.ok.injEq, Prod.mk.injEq] at hx
            rw [← hx.2]
            split
            · refine ⟨Dict.nodupKeys_set h.1 _ _, ?_⟩
              intro url' uc' h'
              simp only [Dict.get?_set] at h'
              split at h'
              · simp only [Option.some.injEq] at h'
                subst h'
                refine ⟨?_, ?_⟩
                · unfold Dict.NodupKeys; rw [keys_withoutUnder]; exact (h.2 url uc huc).1
                · intro jp' c hc
                  rw [get?_withoutUnder] at hc
                  simp only [Option.map_eq_some_iff] at hc
                  obtain ⟨c0, hc0, rfl⟩ := hc
                  have := (h.2 url uc huc).2 jp' c0 hc0
                  split
                  · exact Dict.nodupKeys_erase this _
                  · exact this
              · exact h.2 url' uc' h'
            · exact h
    · exact h

theorem entry_step {st : Store O} (hw : st.Wf) (op : StoreOp O) (url jp ver : Str) :
    (st.step op).entry url jp ver = Spec.Cache.step st.entry op url jp ver := by
  cases op with
  | set o u p v => simp only [Store.step, entry_set, Spec.Cache.step]
  | updateRoutes u t rs =>
    simp only [Store.step, Store.updateRoutes, Spec.Cache.step]
    split <;> rfl
  | getUnder u p v remove =>
    simp only [Store.step, Store.getUnder, Spec.Cache.step]
    by_cases hr : (remove && p.isEmpty) = true
    · simp only [hr, if_true]
      simp only [Bool.and_eq_true, List.isEmpty_iff] at hr
      rw [if_neg]; rintro ⟨_, h, _⟩; exact h hr.2
    · simp only [hr]
      cases hu : Dict.get? st.objs u with
      | none =>
        simp only [Bool.false_eq_true, if_false]
        split
        · rename_i hc; rw [Store.entry, hc.2.2.1, hu]
        · rfl
      | some uc =>
        simp only [Bool.false_eq_true, if_false]
        by_cases he : uc.isEmpty = true
        · simp only [he, if_true]
          split
          · rename_i hc
            rw [List.isEmpty_iff] at he
            rw [Store.entry, hc.2.2.1, hu]; simp [he]
          · rfl
        · simp only [he]
          by_cases hrm : remove = true
          · subst hrm
            simp only [Bool.true_and, List.isEmpty_iff] at hr
            simp only [Bool.false_eq_true, if_false, if_true, true_and]
            simp only [Store.entry, Dict.get?_set]
            by_cases h1 : u = url
            · subst h1
              simp only [if_true, hu, get?_withoutUnder, ne_eq, hr, not_false_eq_true, true_and]
              cases hg : Dict.get? uc jp with
              | none => simp
              | some c =>
                simp only [Option.map_some]
                have hcn := (hw.2 u uc hu).2 jp c hg
                by_cases h2 : Str.startsWith jp p = true
                · by_cases h3 : Dict.has c v = true
                  · simp only [h2, h3, Bool.and_self, if_true, Dict.get?_erase hcn]
                    by_cases h4 : v = ver
                    · simp [h4]
                    · have : ¬ ver = v := fun e => h4 e.symm
                      simp [h4, this]
                  · simp only [h2, h3, Bool.and_false, Bool.false_eq_true, if_false, and_true]
                    by_cases h4 : ver = v
                    · subst h4
                      simp only [if_true]
                      unfold Dict.has at h3
                      cases hx : Dict.get? c ver with
                      | none => rfl
                      | some _ => rw [hx] at h3; simp at h3
                    · simp [h4]
                · simp [h2]
            · have h1' : ¬ url = u := fun e => h1 e.symm
              simp [h1, h1']
          · simp [hrm]

/-- The state after a history, as an abstract map: the refinement theorem behind C35-C38. -/
theorem run_refines (versions : List Str) (ops : List (StoreOp O)) :
    (Store.run versions ops).Wf ∧
    ∀ url jp ver, (Store.run versions ops).entry url jp ver = Spec.Cache.run ops url jp ver := by
  have key : ∀ (ops : List (StoreOp O)) (st : Store O) (m : Spec.Cache O), st.Wf →
      st.entry = m →
      (ops.foldl Store.step st).Wf ∧ (ops.foldl Store.step st).entry = ops.foldl Spec.Cache.step m := by
    intro ops
    induction ops with
    | nil => intro st m h1 h2; exact ⟨h1, h2⟩
    | cons op ops ih =>
      intro st m h1 h2
      apply ih
      · exact wf_step h1 op
      · funext a b c
        rw [entry_step h1, h2]
  have := key ops (Store.init versions) (fun _ _ _ => none) (wf_init versions)
    (by funext a b c; simp [Store.entry, Store.init])
  exact ⟨this.1, fun a b c => by rw [Store.run, this.2]; rfl⟩

theorem tokens_of_compose (ts : List Str) (jp : Str) (hjp : jp ≠ []) :
    (jpSplit ((jpCompose ts (some jp)).drop jp.length)).drop 1 = ts := by
  rw [jpCompose_base hjp]
  cases ts with
  | nil => simp [Str.joinC, jpSplit]
  | cons t ts =>
    rw [List.map_cons, Str.joinC, List.drop_left, jpSplit, if_neg (by simp)]
    have : Str.splitC '/' ('/' :: Str.joinC '/' (jpEncode t :: ts.map jpEncode)) =
        [] :: (t :: ts).map jpEncode := by
      rw [Str.splitC, if_pos rfl, ← List.map_cons, splitC_join_encoded (by simp)]
    rw [this, List.map_cons, List.drop_succ_cons, List.drop_zero, map_decode_encode]

theorem startsWith_compose (ts : List Str) (jp : Str) (hjp : jp ≠ []) :
    Str.startsWith (jpCompose ts (some jp)) jp = true := by
  rw [jpCompose_base hjp, Str.startsWith_iff]
  cases ts with
  | nil => exact ⟨[], by simp [Str.joinC]⟩
  | cons t ts => exact ⟨_, rfl⟩

/-! ## C35 -/

/-- C35: in every history, if `o` is what the abstract map holds at (url, jp, ver) and nothing else
is held (for that url and version) at a string prefix of the requested pointer, then asking for any
pointer below `jp` resolves exactly its tokens inside `o`. -/
theorem C35_read_your_writes (ops : ObjOps O) (versions : List Str) (hist : List (StoreOp O))
    (url jp ver : Str) (hjp : jp ≠ []) (o : O) (ts : List Str)
    (ho : Spec.Cache.run hist url jp ver = some o)
    (huniq : ∀ p, p ≠ jp → Str.startsWith (jpCompose ts (some jp)) p = true →
      Spec.Cache.run hist url p ver = none) :
    (Store.run versions hist).get ops url (jpCompose ts (some jp)) ver = ops.resolve o ts := by
  obtain ⟨hw, href⟩ := run_refines versions hist
  rcases get_cases ops _ hw url (jpCompose ts (some jp)) ver with ⟨_, h2⟩ | ⟨p, o', h1, h2, h3⟩
  · have := h2 jp (startsWith_compose ts jp hjp)
    rw [href, ho] at this; simp at this
  · by_cases hp : p = jp
    · subst hp
      rw [href, ho] at h2
      simp only [Option.some.injEq] at h2
      subst h2
      rw [h3, tokens_of_compose ts p hjp]
    · have := huniq p hp h1
      rw [href, this] at h2; simp at h2

/-- C35: right after a `set`, the abstract map holds the object. -/
theorem C35_set_is_last_write (hist : List (StoreOp O)) (o : O) (url jp ver : Str) :
    Spec.Cache.run (hist ++ [.set o url jp ver]) url jp ver = some o := by
  simp [Spec.Cache.run, Spec.Cache.step]

/-! ## C36 -/

theorem getLoop_set_other (ops : ObjOps O) (jp ver ver' p : Str) (o : O) (h : ver ≠ ver')
    (uc : Dict (Dict O)) :
    Store.getLoop ops jp ver' (Dict.set uc p (Dict.set ((Dict.get? uc p).getD []) ver o)) =
      Store.getLoop ops jp ver' uc := by
  induction uc with
  | nil =>
    simp only [Dict.set, Dict.get?_nil, Option.getD_none, Store.getLoop, Dict.get?, h, if_false]
    split <;> simp_all
  | cons x rest ih =>
    obtain ⟨q, c⟩ := x
    simp only [Dict.set, Dict.get?]
    split
    · simp only [Option.getD_some, Store.getLoop, Dict.get?_set_ne _ _ h]
    · simp only [Store.getLoop, ih]

/-- C36: caching an object never changes what `get` answers for another url or version. -/
theorem C36_isolation (ops : ObjOps O) (st : Store O) (o : O) (url jp ver url' jp' ver' : Str)
    (h : url ≠ url' ∨ ver ≠ ver') :
    (st.set o url jp ver).get ops url' jp' ver' = st.get ops url' jp' ver' := by
  simp only [Store.get, Store.set, Dict.get?_set]
  by_cases hu : url = url'
  · subst hu
    have hv : ver ≠ ver' := by rcases h with h | h; exact absurd rfl h; exact h
    simp only [if_true, getLoop_set_other ops jp' ver ver' jp o hv]
    cases Dict.get? st.objs url <;> simp [Store.getLoop]
  · simp [hu]

theorem getLoop_withoutUnder_other (ops : ObjOps O) (jp ver ver' p : Str) (h : ver ≠ ver')
    (uc : Dict (Dict O)) (hn : ∀ q c, (q, c) ∈ uc → Dict.NodupKeys c) :
    Store.getLoop ops jp ver' (Store.withoutUnder p ver uc) = Store.getLoop ops jp ver' uc := by
  induction uc with
  | nil => rfl
  | cons x rest ih =>
    obtain ⟨q, c⟩ := x
    have hc := hn q c (by simp)
    simp only [Store.withoutUnder, Store.getLoop, ih (fun a b hab => hn a b (by simp [hab]))]
    have : Dict.get? (if (Str.startsWith q p && Dict.has c ver) = true then Dict.erase c ver else c) ver' =
        Dict.get? c ver' := by
      split
      · rw [Dict.get?_erase hc, if_neg h]
      · rfl
    rw [this]

/-- The (url, version) a call is about. -/
def StoreOp.touches : StoreOp O → Str → Str → Prop
  | .set _ u _ v, url, ver => u = url ∧ v = ver
  | .getUnder u _ v _, url, ver => u = url ∧ v = ver
  | .updateRoutes _ _ _, _, _ => False

/-- C36 for histories: appending any calls about other (url, version) pairs changes no answer. -/
theorem C36_isolation_history (ops : ObjOps O) (versions : List Str) (hist more : List (StoreOp O))
    (url jp ver : Str) (h : ∀ op ∈ more, ¬ op.touches url ver) :
    (Store.run versions (hist ++ more)).get ops url jp ver =
      (Store.run versions hist).get ops url jp ver := by
  have key : ∀ (more : List (StoreOp O)) (st : Store O), st.Wf →
      (∀ op ∈ more, ¬ op.touches url ver) →
      (more.foldl Store.step st).get ops url jp ver = st.get ops url jp ver := by
    intro more
    induction more with
    | nil => intro st _ _; rfl
    | cons op more ih =>
      intro st hw hm
      rw [List.foldl_cons, ih _ (wf_step hw op) (fun o ho => hm o (by simp [ho]))]
      have hop := hm op (by simp)
      cases op with
      | set o u p v =>
        refine C36_isolation ops st o u p v url jp ver ?_
        simp only [StoreOp.touches, not_and] at hop
        by_cases hu : u = url
        · exact Or.inr (hop hu)
        · exact Or.inl hu
      | updateRoutes u t rs =>
        simp only [Store.step, Store.updateRoutes]
        split <;> rfl
      | getUnder u p v remove =>
        simp only [StoreOp.touches, not_and] at hop
        simp only [Store.step, Store.getUnder]
        split
        · rename_i x st' hx
          split at hx
          · simp at hx
          · split at hx
            · simp only [Except.ok.injEq, Prod.mk.injEq] at hx; rw [← hx.2]
            · rename_i uc huc
              split at hx
              · simp only [Except.ok.injEq, Prod.mk.injEq] at hx; rw [← hx.2]
              · simp only [Except.ok.injEq, Prod.mk.injEq] at hx
                rw [← hx.2]
                split
                · simp only [Store.get, Dict.get?_set]
                  by_cases hu : u = url
                  · subst hu
                    simp only [if_true, huc]
                    exact getLoop_withoutUnder_other ops jp v ver p (hop rfl) uc
                      (fun q c hqc => (hw.2 u uc huc).2 q c
                        (Dict.get?_of_mem (hw.2 u uc huc).1 hqc))
                  · simp [hu]
                · rfl
        · rfl
  rw [Store.run, List.foldl_append]
  exact key more _ (run_refines versions hist).1 h

/-! ## C37 -/

/-- A store of strings: `resolve` of an object with no token left is the object itself. -/
def demoOps : ObjOps Str :=
  ⟨fun o ts => .ok (if ts = [] then some o else none), fun o => !o.isEmpty⟩

/-- C37 is false of the code: with only `#/definitions/User` cached, asking for
`#/definitions/UserList` answers the User object. -/
theorem C37_segment_violation :
    ¬ ∀ (O : Type) (ops : ObjOps O) (hist : List (StoreOp O)) (url jp ver : Str) (o : O),
      (Store.run [ver] hist).get ops url jp ver = .ok (some o) →
      ∃ p o', Spec.ancestor p jp ∧ Spec.Cache.run hist url p ver = some o' := by
  intro h
  obtain ⟨p, o', hp, ho⟩ := h Str demoOps
    [.set (s% "User") (s% "u") (s% "#/definitions/User") (s% "2.0")]
    (s% "u") (s% "#/definitions/UserList") (s% "2.0") (s% "User") (by decide +kernel)
  have hpe : p = s% "#/definitions/User" := by
    simp only [Spec.Cache.run, List.foldl_cons, List.foldl_nil, Spec.Cache.step] at ho
    split at ho
    · rename_i hc; exact hc.2.1.symm
    · simp at ho
  subst hpe
  rcases hp with h | ⟨r, h⟩
  · simp at h
  · simp at h

/-- C37, what does hold: when the pointers cached for (url, version) that are string prefixes of the
requested one are all segment-wise ancestors, `get` answers from an ancestor, by resolving the
(decoded) remaining segments. -/
theorem C37_segment_partial (ops : ObjOps O) (versions : List Str) (hist : List (StoreOp O))
    (url jp ver : Str)
    (hseg : ∀ p o, Spec.Cache.run hist url p ver = some o → Str.startsWith jp p = true →
      Spec.ancestor p jp) :
    ((Store.run versions hist).get ops url jp ver = .ok none ∧
      ∀ p, Spec.ancestor p jp → Spec.Cache.run hist url p ver = none) ∨
    ∃ p o, Spec.ancestor p jp ∧ Spec.Cache.run hist url p ver = some o ∧
      ((jp = p ∧ (Store.run versions hist).get ops url jp ver = ops.resolve o []) ∨
       ∃ r, jp = p ++ '/' :: r ∧ (Store.run versions hist).get ops url jp ver =
        ops.resolve o ((Str.splitC '/' r).map Spec.unescape)) := by
  obtain ⟨hw, href⟩ := run_refines versions hist
  rcases get_cases ops _ hw url jp ver with ⟨h1, h2⟩ | ⟨p, o, h1, h2, h3⟩
  · left
    refine ⟨h1, ?_⟩
    intro p hp
    rw [← href]
    apply h2
    rw [Str.startsWith_iff]
    rcases hp with rfl | ⟨r, rfl⟩
    · exact ⟨[], by simp⟩
    · exact ⟨_, rfl⟩
  · right
    rw [href] at h2
    have ha := hseg p o h2 h1
    refine ⟨p, o, ha, h2, ?_⟩
    rw [h3]
    rcases ha with rfl | ⟨r, rfl⟩
    · left; simp [jpSplit]
    · right
      refine ⟨r, rfl, ?_⟩
      rw [List.drop_left, jpSplit, if_neg (by simp), Str.splitC, if_pos rfl]
      simp only [List.map_cons, List.drop_succ_cons, List.drop_zero]
      congr 1
      apply List.map_congr_left
      intro a _; exact jpDecode_eq_unescape a

/-- C37 witness that the partial theorem's case is reached: `#/definitions` answers `User/name`. -/
example : (Store.run [s% "2.0"]
    [.set (s% "defs") (s% "u") (s% "#/definitions") (s% "2.0")]).get
      (⟨fun o ts => .ok (some (o ++ Str.joinC '.' ts)), fun _ => true⟩ : ObjOps Str)
      (s% "u") (s% "#/definitions/a~1b") (s% "2.0") = .ok (some (s% "defsa/b")) := by
  decide +kernel

/-- The insertion order decides between two cached ancestors: an object cached later at a longer
pointer is hidden by an earlier one at a shorter pointer. -/
theorem C37_older_shorter_pointer_shadows :
    (Store.run [s% "2.0"]
      [.set (s% "root") (s% "u") (s% "#") (s% "2.0"),
       .set (s% "info") (s% "u") (s% "#/info") (s% "2.0")]).get
      (⟨fun o ts => .ok (some (o ++ Str.joinC '.' ts)), fun _ => true⟩ : ObjOps Str)
      (s% "u") (s% "#/info") (s% "2.0") = .ok (some (s% "rootinfo")) := by
  decide +kernel

/-! ## C38 -/

/-- C38: `get_under` returns exactly the objects held below (string-prefix wise), keyed by
the rest of their pointer. -/
theorem C38_get_under_result (versions : List Str) (hist : List (StoreOp O)) (url jp ver : Str)
    (remove : Bool) (ret : Dict O) (st' : Store O)
    (h : (Store.run versions hist).getUnder url jp ver remove = .ok (some ret, st')) :
    (∀ k o, Dict.get? ret k = some o → ∃ p, Str.startsWith p jp = true ∧
      Spec.Cache.run hist url p ver = some o ∧ k = p.drop (jp.length + 1)) ∧
    (∀ p o, Str.startsWith p jp = true → Spec.Cache.run hist url p ver = some o →
      ∃ o', Dict.get? ret (p.drop (jp.length + 1)) = some o' ∧
        ((∀ q, Str.startsWith q jp = true → Spec.Cache.run hist url q ver ≠ none →
          q.drop (jp.length + 1) = p.drop (jp.length + 1) → q = p) → o' = o)) := by
  obtain ⟨hw, href⟩ := run_refines versions hist
  simp only [Store.getUnder] at h
  split at h
  · simp at h
  · split at h
    · simp at h
    · rename_i uc huc
      split at h
      · simp at h
      · simp only [Except.ok.injEq, Prod.mk.injEq, Option.some.injEq] at h
        obtain ⟨hret, _⟩ := h
        have hent : ∀ p o, Spec.Cache.run hist url p ver = some o ↔
            ∃ c, (p, c) ∈ uc ∧ Dict.get? c ver = some o := by
          intro p o
          rw [← href, Store.entry, huc]
          simp only
          constructor
          · intro hx
            split at hx
            · simp at hx
            · rename_i c hc; exact ⟨c, Dict.mem_of_get? hc, hx⟩
          · rintro ⟨c, hc, hx⟩
            rw [Dict.get?_of_mem (hw.2 url uc huc).1 hc]; exact hx
        have hfirst : ∀ k o, Dict.get? ret k = some o → ∃ p, Str.startsWith p jp = true ∧
            Spec.Cache.run hist url p ver = some o ∧ k = p.drop (jp.length + 1) := by
          intro k o hk
          rw [← hret] at hk
          rcases (underOf_spec jp ver uc [] k).1 o hk with ⟨p, c, h1, h2, h3, h4⟩ | h
          · exact ⟨p, h2, (hent p o).2 ⟨c, h1, h3⟩, h4⟩
          · simp at h
        refine ⟨hfirst, ?_⟩
        intro p o hp ho
        cases hr : Dict.get? ret (p.drop (jp.length + 1)) with
        | none =>
          rw [← hret] at hr
          obtain ⟨c, hc, hco⟩ := (hent p o).1 ho
          have := ((underOf_spec jp ver uc [] _).2 hr).2 p c hc hp rfl
          rw [this] at hco; simp at hco
        | some o' =>
          refine ⟨o', rfl, ?_⟩
          intro hu
          obtain ⟨q, hq, hqo, hqk⟩ := hfirst _ _ hr
          have := hu q hq (by rw [hqo]; simp) hqk.symm
          subst this
          rw [hqo] at ho
          simpa using ho

/-- C38: with `remove`, exactly those entries are gone afterwards; without it nothing changes. -/
theorem C38_get_under_removes (versions : List Str) (hist : List (StoreOp O)) (url jp ver : Str)
    (remove : Bool) (u p v : Str) (hjp : jp ≠ []) :
    (Store.run versions (hist ++ [.getUnder url jp ver remove])).entry u p v =
      if remove = true ∧ u = url ∧ v = ver ∧ Str.startsWith p jp = true then none
      else Spec.Cache.run hist u p v := by
  rw [(run_refines versions _).2, Spec.Cache.run, List.foldl_append]
  simp only [List.foldl_cons, List.foldl_nil, Spec.Cache.step, hjp, ne_eq, not_false_eq_true,
    true_and]
  rfl

/-- C38: removing everything is refused. -/
theorem C38_refuses_remove_all (st : Store O) (url ver : Str) :
    st.getUnder url [] ver true = .error .generic := rfl

/-- C38: for a url that was never cached nothing is returned and nothing changes. -/
theorem C38_unknown_url (st : Store O) (url jp ver : Str) (hjp : jp ≠ []) (remove : Bool)
    (h : url ∉ Dict.keys st.objs) : st.getUnder url jp ver remove = .ok (none, st) := by
  have : jp.isEmpty = false := by cases jp; exact absurd rfl hjp; rfl
  simp [Store.getUnder, this, Dict.get?_eq_none_iff.2 h]

/-- C38: for a url with something cached there is an answer (perhaps an empty one). -/
theorem C38_known_url (versions : List Str) (hist : List (StoreOp O)) (url jp ver p v : Str) (o : O) (remove : Bool)
    (hjp : jp ≠ []) (h : Spec.Cache.run hist url p v = some o) :
    ∃ ret st', (Store.run versions hist).getUnder url jp ver remove = .ok (some ret, st') := by
  rw [← (run_refines versions hist).2] at h
  have hj : jp.isEmpty = false := by cases jp; exact absurd rfl hjp; rfl
  unfold Store.entry at h
  unfold Store.getUnder
  rw [hj, Bool.and_false]
  cases hu : Dict.get? (Store.run versions hist).objs url with
  | none => rw [hu] at h; simp at h
  | some c =>
    cases c with
    | nil => rw [hu] at h; simp at h
    | cons x xs => exact ⟨_, _, rfl⟩

example : (match (Store.run [s% "2.0"]
      [.set 1 (s% "u") (s% "#/definitions/A") (s% "2.0"), .set 2 (s% "u") (s% "#/info") (s% "2.0"),
       .set 3 (s% "u") (s% "#/definitions/B") (s% "3.0.0")]).getUnder
      (s% "u") (s% "#/definitions") (s% "2.0") true with
    | .ok (r, st) => (r, st.entry (s% "u") (s% "#/definitions/A") (s% "2.0"),
        st.entry (s% "u") (s% "#/info") (s% "2.0"))
    | .error _ => (none, none, none)) = (some [(s% "A", 1)], none, some 2) := by decide +kernel

/-- The prefix test of `get_under` is not segment-wise either: `#/definitions` also takes
`#/definitionsX`, under a key with its first character missing. -/
theorem C38_prefix_confusion :
    ((Store.run [s% "2.0"] [.set 1 (s% "u") (s% "#/definitionsXY") (s% "2.0")]).getUnder
      (s% "u") (s% "#/definitions") (s% "2.0") false).map Prod.fst = .ok (some [(s% "Y", 1)]) := by
  decide +kernel

end Pyopenapi
