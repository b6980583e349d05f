import Verif.Props.ConvReloc
import Verif.Props.ConvPath
import Verif.Props.ConvTotal
import Verif.Lemmas.Up12

/-!
# C93: references to the parameters of a path item
-/

namespace Pyopenapi
open Spec Obj Conv

/-! ### which parameters go into the body -/

theorem ctx_flag {env : Env} {o : Obj} {f : Part} (h : ParamIn env o f.ref f.doc) {ctx : Ctx}
    (hc : paramCtx env o = .ok ctx) : (ctx.isFile || ctx.isBody) = !f.isPlain := by
  obtain ⟨p, hp', hbp, _⟩ := param_resolved h
  unfold paramCtx at hc
  simp only [hp', param_fld hbp (k := s% "in") (by decide), param_fld hbp (k := s% "type") (by decide), bind, Except.bind] at hc
  unfold Part.isPlain placeOf
  by_cases h1 : look f.doc (s% "type") = .str (s% "file")
  · rw [if_pos h1] at hc ⊢
    cases hc; rfl
  · rw [if_neg h1] at hc ⊢
    by_cases h2 : look f.doc (s% "in") = .str (s% "formData")
    · rw [if_pos h2] at hc ⊢
      cases hc; rfl
    · rw [if_neg h2] at hc ⊢
      by_cases h3 : look f.doc (s% "in") = .str (s% "body")
      · rw [if_pos h3] at hc ⊢
        have : ctx.isBody = true := by
          split at hc
          · split at hc
            · cases hc
            · split at hc
              · cases hc
              · cases hc; rfl
          · cases hc; rfl
        rw [this]
        simp
      · rw [if_neg h3] at hc ⊢
        cases hc; rfl

theorem bodyIndexes_mem {env : Env} {os : List Obj} {fs : List Part} (h : ParamsIn env os fs) :
    ∀ (n : Nat) (idx : List Nat), bodyIndexes env os n = .ok idx →
      ∀ i, i ∈ idx ↔ ∃ j f, i = n + j ∧ fs[j]? = some f ∧ f.isPlain = false := by
  induction h with
  | nil =>
    intro n idx hb i
    cases hb
    simp
  | @cons o f os fs hof _ ih =>
    intro n idx hb i
    rw [bodyIndexes] at hb
    obtain ⟨ctx, h1, hb⟩ := bindOk hb
    obtain ⟨r, h2, hb⟩ := bindOk hb
    have hfl := ctx_flag hof h1
    have hr := ih (n + 1) r h2 i
    have hcons : (∃ j g, i = n + j ∧ (f :: fs)[j]? = some g ∧ g.isPlain = false) ↔
        (i = n ∧ f.isPlain = false) ∨ i ∈ r := by
      rw [hr]
      constructor
      · rintro ⟨j, g, e, hj, hg⟩
        cases j with
        | zero =>
          simp only [List.getElem?_cons_zero, Option.some.injEq] at hj
          exact Or.inl ⟨by omega, hj ▸ hg⟩
        | succ j => exact Or.inr ⟨j, g, by omega, by simpa using hj, hg⟩
      · rintro (⟨rfl, hg⟩ | ⟨j, g, e, hj, hg⟩)
        · exact ⟨0, f, rfl, rfl, hg⟩
        · exact ⟨j + 1, g, by omega, by simpa using hj, hg⟩
    rw [hcons]
    rw [hfl] at hb
    cases hp : f.isPlain with
    | true =>
      rw [hp] at hb
      cases hb
      simp
    | false =>
      rw [hp] at hb
      cases hb
      simp

/-! ### the relocations of a path item and of the paths -/

/-- The relocations of the parameters at these places. -/
def itemRoutes (idx : List Nat) : Routes :=
  idx.map (fun i => (s% "parameters/" ++ Str.ofNat i, .to (s% "x-pyopenapi_internal_request_body")))

theorem toPathItem_body {env : Env} {o : Obj} {root : Str} {consumes produces : List Str} {r : Dict Json} {rl : Routes}
    (h : toPathItem env o root consumes produces = .ok (r, rl)) :
    ∃ ps body ops body' idx,
      parameters env consumes (elems (kid o (s% "parameters"))) [] none = .ok (ps, body) ∧
      bodyIndexes env (elems (kid o (s% "parameters"))) 0 = .ok idx ∧ rl = itemRoutes idx ∧
      pathOps env o root produces consumes methods body [] = .ok (ops, body') ∧
      (∀ b, body' = some b → Dict.get? r (s% "x-pyopenapi_internal_request_body") = some (.obj b)) := by
  unfold toPathItem at h
  obtain ⟨ref, _, h⟩ := bindOk h
  obtain ⟨⟨ps, body⟩, h1, h⟩ := bindOk h
  obtain ⟨idx, h2, h⟩ := bindOk h
  obtain ⟨⟨ops, body'⟩, h3, h⟩ := bindOk h
  cases h
  refine ⟨ps, body, ops, body', idx, h1, h2, rfl, h3, ?_⟩
  rintro b rfl
  exact Dict.get?_set_self _ _ _

theorem escapeKey_eq (k : Str) : escapeKey k = escape k := jpEncode_eq_escape k

theorem escape_inj {a b : Str} (h : escape a = escape b) : a = b := by
  rw [← unescape_escape a, h, unescape_escape]

/-- What the loop over the paths makes of each path. -/
theorem toPaths_each {env : Env} {root : Str} {consumes produces : List Str} {os : List (Str × Obj)} :
    ∀ {ret ret' : Dict Json} {rl rl' : Routes}, (Dict.keys os).Nodup → Dict.NodupKeys rl →
      (∀ k ∈ Dict.keys os, escape k ∉ Dict.keys rl) →
      toPaths env root consumes produces os ret rl = .ok (ret', rl') →
      Dict.NodupKeys rl' ∧
      (∀ k, k ∉ Dict.keys os → Dict.get? ret' k = Dict.get? ret k ∧ Dict.get? rl' (escape k) = Dict.get? rl (escape k)) ∧
      (∀ f t, Dict.get? rl' f = some t → Dict.get? rl f = some t ∨ ∃ k p j r, (k, p) ∈ os ∧ f = escape k ∧ t = .nested r ∧
        toPathItem env p root consumes produces = .ok (j, r)) ∧
      ∀ k p, (k, p) ∈ os → ∃ j r, toPathItem env p root consumes produces = .ok (j, r) ∧
        Dict.get? ret' k = some (.obj j) ∧ Dict.get? rl' (escape k) = if r = [] then none else some (.nested r) := by
  induction os with
  | nil =>
    intro ret ret' rl rl' _ hn _ h
    cases h
    exact ⟨hn, fun k _ => ⟨rfl, rfl⟩, fun f t h => .inl h, fun k p hp => by cases hp⟩
  | cons x os ih =>
    obtain ⟨k, p⟩ := x
    intro ret ret' rl rl' hos hn hfresh h
    rw [toPaths] at h
    split at h
    · cases h
    · obtain ⟨⟨j, r⟩, h1, h⟩ := bindOk h
      have hos' : k ∉ Dict.keys os ∧ (Dict.keys os).Nodup := List.nodup_cons.1 hos
      have hkfresh : escape k ∉ Dict.keys rl := hfresh k (by simp [Dict.keys])
      have hn2 : Dict.NodupKeys (if r = [] then rl else Dict.set rl (escapeKey k) (.nested r)) := by
        split
        · exact hn
        · exact Dict.nodupKeys_set hn _ _
      have hf2 : ∀ k' ∈ Dict.keys os, escape k' ∉ Dict.keys (if r = [] then rl else Dict.set rl (escapeKey k) (.nested r)) := by
        intro k' hk' hm
        have hk2 : escape k' ∉ Dict.keys rl := hfresh k' (by simp only [Dict.keys, List.map_cons, List.mem_cons]; exact Or.inr hk')
        split at hm
        · exact hk2 hm
        · rcases Dict.mem_keys_set.1 hm with e | hm
          · rw [escapeKey_eq] at e
            exact hos'.1 (escape_inj e ▸ hk')
          · exact hk2 hm
      obtain ⟨i1, i2, i3, i4⟩ := ih hos'.2 hn2 hf2 h
      have hget2 : ∀ f, f ≠ escape k → Dict.get? (if r = [] then rl else Dict.set rl (escapeKey k) (.nested r)) f = Dict.get? rl f := by
        intro f hf
        split
        · rfl
        · rw [escapeKey_eq]; exact Dict.get?_set_ne _ _ (Ne.symm hf)
      have hself : Dict.get? (if r = [] then rl else Dict.set rl (escapeKey k) (.nested r)) (escape k) =
          if r = [] then none else some (.nested r) := by
        split
        · exact Dict.get?_eq_none_iff.2 hkfresh
        · rw [escapeKey_eq]; exact Dict.get?_set_self _ _ _
      refine ⟨i1, ?_, ?_, ?_⟩
      · intro k' hk'
        have hne : k' ≠ k ∧ k' ∉ Dict.keys os := by
          constructor
          · intro e; exact hk' (by rw [e]; simp [Dict.keys])
          · intro hm; exact hk' (by simp only [Dict.keys, List.map_cons, List.mem_cons]; exact Or.inr hm)
        obtain ⟨g1, g2⟩ := i2 k' hne.2
        rw [g1, g2, hget2 _ (fun e => hne.1 (escape_inj e)), Dict.get?_set_ne _ _ (Ne.symm hne.1)]
        exact ⟨rfl, rfl⟩
      · intro f t hft
        rcases i3 f t hft with h2 | ⟨k', p', j', r', hm, e1, e2, e3⟩
        · by_cases hfe : f = escape k
          · rw [hfe, hself] at h2
            split at h2
            · cases h2
            · cases h2
              exact Or.inr ⟨k, p, j, r, List.mem_cons_self, hfe, rfl, h1⟩
          · rw [hget2 f hfe] at h2
            exact Or.inl h2
        · exact Or.inr ⟨k', p', j', r', List.mem_cons_of_mem _ hm, e1, e2, e3⟩
      · intro k' p' hm
        rcases List.mem_cons.1 hm with e | hm
        · cases e
          obtain ⟨g1, g2⟩ := i2 k hos'.1
          exact ⟨j, r, h1, by rw [g1]; exact Dict.get?_set_self _ _ _, by rw [g2, hself]⟩
        · exact i4 k' p' hm

/-- The paths of the converted document are those of the loop. -/
theorem toOpenapi_paths {env : Env} {o : Obj} {r : Dict Json} {rl : Routes} (hr : toOpenapi env o = .ok (r, rl)) {y : Obj}
    (hk : kidT o (s% "paths") = some y) :
    ∃ url P pr, serverUrl o = .ok url ∧ toPaths env url (strs (kid o (s% "consumes"))) (strs (kid o (s% "produces")))
      (entries (some y)) [] [] = .ok (P, pr) ∧ Dict.get? r (s% "paths") = some (.obj P) := by
  unfold toOpenapi at hr
  obtain ⟨ret, _, hr⟩ := bindOk hr
  obtain ⟨url, hu, hr⟩ := bindOk hr
  obtain ⟨⟨r1, rl1⟩, hp, hr⟩ := bindOk hr
  dsimp only at hr
  split at hr
  · cases hr
  obtain ⟨r2, h2, hr⟩ := bindOk hr
  obtain ⟨r3, h3, hr⟩ := bindOk hr
  obtain ⟨⟨c1, _⟩, _, hr⟩ := bindOk hr
  obtain ⟨⟨c2, _⟩, _, hr⟩ := bindOk hr
  obtain ⟨⟨c3, _⟩, _, hr⟩ := bindOk hr
  obtain ⟨⟨c4, _⟩, _, hr⟩ := bindOk hr
  cases hr
  unfold putPaths at hp
  rw [hk] at hp
  obtain ⟨⟨P, pr⟩, h4, hp⟩ := bindOk hp
  cases hp
  refine ⟨url, P, pr, hu, h4, ?_⟩
  have e2 : Dict.get? r2 (s% "paths") = some (.obj P) := by
    unfold putTags at h2
    split at h2
    · obtain ⟨l, _, h2⟩ := bindOk h2
      cases h2
      rw [Dict.get?_set_ne _ _ (by decide), Dict.get?_set_self]
    · cases h2
      exact Dict.get?_set_self _ _ _
  have e3 : Dict.get? r3 (s% "paths") = some (.obj P) := by
    unfold putExternalDocs at h3
    split at h3
    · obtain ⟨l, _, h3⟩ := bindOk h3
      cases h3
      rw [Dict.get?_set_ne _ _ (by decide), e2]
    · cases h3
      exact e2
  unfold putSome
  split
  · exact e3
  · rw [Dict.get?_set_ne _ _ (by decide), e3]

/-! ### pointers into the paths -/

theorem slash_escape (n : Str) : '/' ∉ escape n := by
  rw [← jpEncode_eq_escape]; exact slash_not_mem_jpEncode n

/-- Two texts without a slash before the first slash of the same text are the same. -/
theorem before_slash {a b r s : Str} (ha : '/' ∉ a) (hb : '/' ∉ b) (h : a ++ '/' :: r = b ++ '/' :: s) : a = b ∧ r = s := by
  induction a generalizing b with
  | nil =>
    cases b with
    | nil => simp at h; exact ⟨rfl, h⟩
    | cons c b =>
      simp at h
      exact absurd (by rw [h.1]; simp) hb
  | cons c a ih =>
    cases b with
    | nil =>
      simp at h
      exact absurd (by rw [h.1]; simp) ha
    | cons d b =>
      simp only [List.cons_append, List.cons.injEq] at h
      obtain ⟨e1, e2⟩ := ih (fun hm => ha (List.mem_cons_of_mem _ hm)) (fun hm => hb (List.mem_cons_of_mem _ hm)) h.2
      exact ⟨by rw [h.1, e1], e2⟩

/-- A prefix without a slash ends before the first slash. -/
theorem prefix_before {f a r s : Str} (hf : '/' ∉ f) (h : a ++ '/' :: r = f ++ s) : ∃ x, a = f ++ x ∧ s = x ++ '/' :: r := by
  induction f generalizing a with
  | nil => exact ⟨a, rfl, h.symm⟩
  | cons c f ih =>
    cases a with
    | nil =>
      simp at h
      exact absurd (by rw [h.1]; simp) hf
    | cons d a =>
      simp only [List.cons_append, List.cons.injEq] at h
      obtain ⟨x, e1, e2⟩ := ih (fun hm => hf (List.mem_cons_of_mem _ hm)) h.2
      exact ⟨x, by rw [h.1, e1]; rfl, e2⟩

theorem ofNat_no_slash (i : Nat) : '/' ∉ Str.ofNat i := not_mem_ofNat (by decide)

theorem escape_ofNat (i : Nat) : escape (Str.ofNat i) = Str.ofNat i :=
  escape_plain (ofNat_no_slash i) (not_mem_ofNat (by decide))

theorem pointer_param (k : Str) (i : Nat) : pointer [s% "paths", k, s% "parameters", Str.ofNat i] =
    '#' :: '/' :: (s% "paths" ++ '/' :: (escape k ++ '/' :: (s% "parameters/" ++ Str.ofNat i))) := by
  rw [pointer_cons, tail'_cons, tail'_cons, tail'_cons, escape_ofNat]
  have h1 : escape (s% "paths") = s% "paths" := by decide
  have h2 : escape (s% "parameters") = s% "parameters" := by decide
  rw [h1, h2]
  simp [tail']

theorem pointer_body (k : Str) : pointer [s% "paths", k, s% "x-pyopenapi_internal_request_body"] =
    '#' :: '/' :: (s% "paths" ++ '/' :: (escape k ++ '/' :: s% "x-pyopenapi_internal_request_body")) := by
  rw [pointer_cons, tail'_cons, tail'_cons]
  have h1 : escape (s% "paths") = s% "paths" := by decide
  have h2 : escape (s% "x-pyopenapi_internal_request_body") = s% "x-pyopenapi_internal_request_body" := by decide
  rw [h1, h2]
  simp [tail']

/-- The loop below `paths`. -/
theorem patchLoop_paths {rl pr : Routes} (hn : Dict.NodupKeys rl) (hk : ∀ f ∈ Dict.keys rl, f ∈ sections) (hpr : pr ≠ [])
    (hm : (s% "paths", Route.nested pr) ∈ rl) (s : Str) :
    patchLoop [(s% "#", .nested rl)] [] ('#' :: '/' :: (s% "paths" ++ '/' :: s)) = patchLoop pr (s% "#/paths") s := by
  have hrl : rl ≠ [] := by intro h; rw [h] at hm; cases hm
  rw [patchLoop_hash hrl, patchLoop_unfold, pickRoute_of_longest hn (section_longest hk (by decide) hm)]
  simp [hpr, Str.startsWith]

theorem patchLoop_nopaths {rl : Routes} (hk : ∀ f ∈ Dict.keys rl, f ∈ sections) (hno : Dict.get? rl (s% "paths") = none) (s : Str) :
    patchLoop [(s% "#", .nested rl)] [] ('#' :: '/' :: (s% "paths" ++ '/' :: s)) = none := by
  by_cases hrl : rl = []
  · rw [patchLoop_unfold, hrl, pickRoute_of_longest (by simp [Dict.NodupKeys, Dict.keys]) (hash_longest [] _)]
    rfl
  · rw [patchLoop_hash hrl, patchLoop_unfold, pickRoute_of_none]
    rintro f t hm ⟨r, hr⟩
    have hf := hk f (List.mem_map.2 ⟨_, hm, rfl⟩)
    have key : ∀ a ∈ sections, ∀ b ∈ sections, a.isPrefixOf b = false ∨ a = b := by decide
    have := prefix_eq (a := s% "paths") (b := f) (r := '/' :: s) (s := r) hr (key _ (by decide) _ hf) ((key _ hf _ (by decide)).imp id Eq.symm)
    rw [← this] at hm
    exact absurd (List.mem_map.2 ⟨_, hm, rfl⟩) (Dict.get?_eq_none_iff.1 hno)

theorem paths_longest {pr : Routes} {k rest : Str} {t : Route} (hkeys : ∀ f ∈ Dict.keys pr, ∃ k', f = escape k')
    (hm : (escape k, t) ∈ pr) : Longest pr (escape k ++ '/' :: rest) (escape k) t := by
  refine ⟨hm, ⟨_, rfl⟩, ?_⟩
  rintro f' t' hf ⟨r, hr⟩
  obtain ⟨k', rfl⟩ := hkeys f' (List.mem_map.2 ⟨_, hf, rfl⟩)
  obtain ⟨x, e1, _⟩ := prefix_before (slash_escape k') hr
  rw [e1]
  simp

theorem itemRoutes_nodup {idx : List Nat} (h : idx.Nodup) : Dict.NodupKeys (itemRoutes idx) := by
  unfold Dict.NodupKeys Dict.keys itemRoutes
  rw [List.map_map]
  refine List.Pairwise.map _ ?_ h
  intro a b hab e
  exact hab (ofNat_inj (List.append_cancel_left e))

theorem bodyIndexes_sorted {env : Env} {os : List Obj} : ∀ {n : Nat} {idx : List Nat}, bodyIndexes env os n = .ok idx →
    (∀ i ∈ idx, n ≤ i) ∧ idx.Nodup := by
  induction os with
  | nil => intro n idx h; cases h; exact ⟨by simp, List.nodup_nil⟩
  | cons o os ih =>
    intro n idx h
    rw [bodyIndexes] at h
    obtain ⟨ctx, _, h⟩ := bindOk h
    obtain ⟨r, h2, h⟩ := bindOk h
    obtain ⟨i1, i2⟩ := ih h2
    cases h
    split
    · refine ⟨?_, List.nodup_cons.2 ⟨fun hm => absurd (i1 n hm) (by omega), i2⟩⟩
      intro i hi
      rcases List.mem_cons.1 hi with rfl | hi
      · exact Nat.le_refl _
      · have := i1 i hi; omega
    · exact ⟨fun i hi => by have := i1 i hi; omega, i2⟩

theorem ofDigitChars_append (a b : Str) (n : Nat) : Nat.ofDigitChars 10 (a ++ b) n = Nat.ofDigitChars 10 b (Nat.ofDigitChars 10 a n) := by
  simp [Nat.ofDigitChars, List.foldl_append]

theorem ofDigitChars_le (b : Str) (n : Nat) : n ≤ Nat.ofDigitChars 10 b n := by
  induction b generalizing n with
  | nil => exact Nat.le_refl _
  | cons c b ih =>
    have := ih (10 * n + (c.toNat - 48))
    have e : Nat.ofDigitChars 10 (c :: b) n = Nat.ofDigitChars 10 b (10 * n + (c.toNat - 48)) := rfl
    rw [e]
    omega

/-- A number whose digits begin another is not greater. -/
theorem ofNat_prefix {i j : Nat} {s : Str} (h : Str.ofNat i = Str.ofNat j ++ s) : j ≤ i := by
  have e1 : Nat.ofDigitChars 10 (Str.ofNat i) 0 = i := by simp [Str.ofNat, Nat.ofDigitChars_ten_toDigits]
  have e2 : Nat.ofDigitChars 10 (Str.ofNat j) 0 = j := by simp [Str.ofNat, Nat.ofDigitChars_ten_toDigits]
  rw [h, ofDigitChars_append, e2] at e1
  rw [← e1]
  exact ofDigitChars_le _ _

/-- The tables of the paths of a converted document. -/
theorem doc_paths_at {refs : Refs} {env : Env} (he : EnvOk refs env) {d : Dict Json} {o : Obj}
    (h : Built (.cls (s% "v2_0.Swagger")) (.obj d) o) (hres : DocResolves refs d) (hv : NamedValid d)
    {r : Dict Json} {rl : Routes} (hr : toOpenapi env o = .ok (r, rl)) {k : Str} {e : Dict Json}
    (hk : Dict.get? (objAt d (s% "paths")) k = some (.obj e)) :
    ∃ P pr root p j r1, Dict.get? r (s% "paths") = some (.obj P) ∧ Dict.NodupKeys rl ∧ (∀ f ∈ Dict.keys rl, f ∈ sections) ∧
      Dict.get? rl (s% "paths") = (if pr = [] then none else some (.nested pr)) ∧ Dict.NodupKeys pr ∧
      Built (.cls (s% "v2_0.PathItem")) (.obj e) p ∧ PathResolves refs e ∧
      toPathItem env p root (strsAt d (s% "consumes")) (strsAt d (s% "produces")) = .ok (j, r1) ∧
      Dict.get? P k = some (.obj j) ∧ Dict.get? pr (escape k) = (if r1 = [] then none else some (.nested r1)) ∧ (k, p) ∈ entries (kid o (s% "paths")) ∧
      ∀ f t, (f, t) ∈ pr → ∃ k' idx, f = escape k' ∧ t = .nested (itemRoutes idx) := by
  have hne := objAt_ne hk
  obtain ⟨h1, _, h3, hw⟩ := kid_objAt h (k := s% "paths") (b := .cls (s% "v2_0.PathItem")) (by decide +kernel)
  obtain ⟨y, hy1, hy2, _⟩ := h3 hne
  obtain ⟨s1, _⟩ := strs_strsAt h (k := s% "produces") (by decide +kernel)
  obtain ⟨s2, _⟩ := strs_strsAt h (k := s% "consumes") (by decide +kernel)
  obtain ⟨root, P, pr, hu, hp, hP⟩ := toOpenapi_paths hr hy1
  obtain ⟨_, _, url', B, pr', hu', _, _, hrl, _, hpr'⟩ := toOpenapi_built he h hres hv hr
  obtain ⟨P', hp'⟩ := hpr' hne
  rw [hu] at hu'
  cases hu'
  rw [s1, s2, ← hy2] at hp
  rw [hp] at hp'
  cases hp'
  have hnd : (Dict.keys (entries (kid o (s% "paths")))).Nodup := by
    have hk2 : Dict.keys (entries (kid o (s% "paths"))) = Dict.keys (objAt d (s% "paths")) := by
      generalize objAt d (s% "paths") = m at h1
      generalize entries (kid o (s% "paths")) = es at h1
      induction h1 with
      | nil => rfl
      | cons hx _ ih => simp only [Dict.keys, List.map_cons] at ih ⊢; rw [ih, hx.1]
    rw [hk2]
    exact wf_nodup hw
  obtain ⟨n1, _, n3, n4⟩ := toPaths_each hnd (by simp [Dict.NodupKeys, Dict.keys]) (by simp [Dict.keys]) hp
  have hmem := Dict.mem_of_get? hk
  obtain ⟨p, hpm, hpb⟩ : ∃ p, (k, p) ∈ entries (kid o (s% "paths")) ∧ Built (.cls (s% "v2_0.PathItem")) (.obj e) p := by
    generalize objAt d (s% "paths") = m at h1 hmem
    generalize entries (kid o (s% "paths")) = es at h1
    induction h1 with
    | nil => cases hmem
    | @cons a b _ _ hx _ ih =>
      rcases List.mem_cons.1 hmem with rfl | hm
      · exact ⟨b.2, by rw [show (k, b.2) = b from by rw [show k = b.1 from hx.1]]; exact List.mem_cons_self, hx.2⟩
      · obtain ⟨p, q1, q2⟩ := ih hm
        exact ⟨p, List.mem_cons_of_mem _ q1, q2⟩
  obtain ⟨j, r1, g1, g2, g3⟩ := n4 k p hpm
  refine ⟨P, pr, root, p, j, r1, hP, ?_, ?_, ?_, n1, hpb, ?_, g1, g2, g3, hpm, ?_⟩
  · rw [hrl]; exact docRoutes_nodup d B pr
  · rw [hrl]; exact docRoutes_keys d B pr
  · rw [hrl]
    unfold docRoutes
    rw [routeIf_other (by decide), routeIf_other (by decide), routeIf_other (by decide), routeIf_other (by decide)]
    unfold pathsRoute
    split
    · rfl
    · exact Dict.get?_set_self _ _ _
  · exact hres k e hmem
  · intro f t hft
    rcases n3 f t (Dict.get?_of_mem n1 hft) with h0 | ⟨k', p', j', r', _, e1, e2, e3⟩
    · cases h0
    · obtain ⟨_, _, _, _, idx, _, _, e4, _⟩ := toPathItem_body e3
      exact ⟨k', idx, e1, by rw [e2, e4]⟩

theorem doc_paths {refs : Refs} {env : Env} (he : EnvOk refs env) {d : Dict Json} {o : Obj}
    (h : Built (.cls (s% "v2_0.Swagger")) (.obj d) o) (hres : DocResolves refs d) (hv : NamedValid d)
    {r : Dict Json} {rl : Routes} (hr : toOpenapi env o = .ok (r, rl)) {k : Str} {e : Dict Json}
    (hk : Dict.get? (objAt d (s% "paths")) k = some (.obj e)) :
    ∃ P pr root p j r1, Dict.get? r (s% "paths") = some (.obj P) ∧ Dict.NodupKeys rl ∧ (∀ f ∈ Dict.keys rl, f ∈ sections) ∧
      Dict.get? rl (s% "paths") = (if pr = [] then none else some (.nested pr)) ∧ Dict.NodupKeys pr ∧
      Built (.cls (s% "v2_0.PathItem")) (.obj e) p ∧ PathResolves refs e ∧
      toPathItem env p root (strsAt d (s% "consumes")) (strsAt d (s% "produces")) = .ok (j, r1) ∧
      Dict.get? P k = some (.obj j) ∧ Dict.get? pr (escape k) = (if r1 = [] then none else some (.nested r1)) ∧
      ∀ f t, (f, t) ∈ pr → ∃ k' idx, f = escape k' ∧ t = .nested (itemRoutes idx) := by
  obtain ⟨P, pr, root, p, j, r1, h1, h2, h3, h4, h5, h6, h7, h8, h9, h10, _, h11⟩ := doc_paths_at he h hres hv hr hk
  exact ⟨P, pr, root, p, j, r1, h1, h2, h3, h4, h5, h6, h7, h8, h9, h10, h11⟩

/-- **C93**: a reference to a parameter of a path item that goes into a body is relocated to the request body kept with the
path item, whatever the name of the path; that is the request body of every operation of the path, and of the parameters
of the path if there is no operation. -/
theorem C93_body {refs : Refs} {env : Env} (he : EnvOk refs env) (d : Dict Json) (o : Obj)
    (h : Built (.cls (s% "v2_0.Swagger")) (.obj d) o) (hres : DocResolves refs d) (hv : NamedValid d)
    (r : Dict Json) (rl : Routes) (hr : toOpenapi env o = .ok (r, rl)) (url k : Str) (e : Dict Json)
    (hk : Dict.get? (objAt d (s% "paths")) k = some (.obj e)) (i : Nat) (f : Part)
    (hi : (paramsOf refs e)[i]? = some f) (hf : f.isPlain = false) :
    Relocated url rl (pointer [s% "paths", k, s% "parameters", Str.ofNat i])
      (pointer [s% "paths", k, s% "x-pyopenapi_internal_request_body"]) ∧
    ∃ b, RawAt (.obj r) [s% "paths", k, s% "x-pyopenapi_internal_request_body"] (.obj b) ∧
      (∀ p ∈ opsOf e, RawAt (.obj r) [s% "paths", k, p.1, s% "requestBody"] (.obj b)) ∧
      (opsOf e = [] → (∀ g ∈ paramsOf refs e, ValidParam g) →
        RequestOf (strsAt d (s% "consumes")) (paramsOf refs e) (some (.obj b))) := by
  obtain ⟨P, pr, root, p, j, r1, hP, hnd, hks, hpath, hprn, hpb, hpres, hitem, hPk, hprk, hall⟩ := doc_paths he h hres hv hr hk
  obtain ⟨ps, body, ops, body', idx, q1, q2, q3, q4, q5⟩ := toPathItem_body hitem
  have hin := paramsIn_of he hpb (by decide +kernel) hpres.1
  have hidx : i ∈ idx := (bodyIndexes_mem hin 0 idx q2 i).2 ⟨i, f, by omega, hi, hf⟩
  have hmemr : (s% "parameters/" ++ Str.ofNat i, Route.to (s% "x-pyopenapi_internal_request_body")) ∈ r1 := by
    rw [q3]; exact List.mem_map.2 ⟨i, hidx, rfl⟩
  have hr1 : r1 ≠ [] := by intro h0; rw [h0] at hmemr; cases hmemr
  rw [if_neg hr1] at hprk
  have hprm := Dict.mem_of_get? hprk
  have hpr : pr ≠ [] := by intro h0; rw [h0] at hprm; cases hprm
  rw [if_neg hpr] at hpath
  have hpkeys : ∀ f ∈ Dict.keys pr, ∃ k', f = escape k' := by
    intro f hf
    obtain ⟨⟨f', t⟩, hm, rfl⟩ := List.mem_map.1 hf
    obtain ⟨k', _, e1, _⟩ := hall f' t hm
    exact ⟨k', e1⟩
  constructor
  · rw [relocated_iff, pointer_param, pointer_body]
    have hl : Longest r1 (s% "parameters/" ++ Str.ofNat i) (s% "parameters/" ++ Str.ofNat i)
        (.to (s% "x-pyopenapi_internal_request_body")) := by
      refine ⟨hmemr, ⟨[], by simp⟩, ?_⟩
      rintro f' t' _ ⟨s, hs⟩
      have := congrArg List.length hs
      simp at this ⊢
      omega
    have hloop : patchLoop [(s% "#", .nested rl)] []
        ('#' :: '/' :: (s% "paths" ++ '/' :: (escape k ++ '/' :: (s% "parameters/" ++ Str.ofNat i)))) =
        some (s% "#/paths/" ++ escape k, s% "parameters/" ++ Str.ofNat i, s% "x-pyopenapi_internal_request_body") := by
      rw [patchLoop_paths hnd hks hpr (Dict.mem_of_get? hpath), patchLoop_unfold,
        pickRoute_of_longest hprn (paths_longest hpkeys hprm)]
      dsimp only
      rw [if_neg hr1, List.drop_left]
      have : Str.startsWith ('/' :: (s% "parameters/" ++ Str.ofNat i)) ['/'] = true := rfl
      rw [if_pos this, List.drop_one, List.tail_cons]
      rw [patchLoop_unfold, pickRoute_of_longest (by rw [q3]; exact itemRoutes_nodup (bodyIndexes_sorted q2).2) hl]
      rfl
    unfold patchJp
    rw [hloop]
    dsimp only
    have hd : ('#' :: '/' :: (s% "paths" ++ '/' :: (escape k ++ '/' :: (s% "parameters/" ++ Str.ofNat i)))).drop
        ((s% "#/paths/" ++ escape k ++ (s% "parameters/" ++ Str.ofNat i)).length + 1) = [] := by
      apply List.drop_eq_nil_of_le
      simp
      omega
    rw [hd, if_pos rfl]
    rfl
  · have hplain := parameters_plain hin [] none ps body q1
    obtain ⟨_, _, _, hsome, _⟩ := hplain
    have hb0 : body.isSome = true := by
      rw [hsome]
      simp only [Option.isSome_none, Bool.false_or, List.any_eq_true]
      exact ⟨f, List.mem_of_getElem? hi, by rw [hf]; rfl⟩
    obtain ⟨b0, rfl⟩ := Option.isSome_iff_exists.1 hb0
    obtain ⟨hb', qs, h5, h6⟩ := pathOps_some _ _ _ _ _ (fun _ _ _ _ _ _ ht => toOperation_some ht) q4
    obtain ⟨b, rfl⟩ := Option.ne_none_iff_exists'.1 hb'
    rw [List.nil_append] at h5
    subst h5
    obtain ⟨hops, _, hyes⟩ := ops_lookup (P := fun m q => ∃ op b b', kidT p m = some op ∧
      toOperation env op (some b) root (strsAt d (s% "produces")) (strsAt d (s% "consumes")) = .ok (q, b')) h6
    refine ⟨b, .key hP (.key hPk (.key (q5 b rfl) (.here _))), ?_, ?_⟩
    · rintro ⟨m, op⟩ hm
      obtain ⟨ref, ps2, body2, ops2, body2', _, t1, t2, hget⟩ := toPathItem_parts hitem
      rw [q1] at t1
      cases t1
      rw [q4] at t2
      cases t2
      obtain ⟨m', hm1, hm2⟩ := List.mem_filterMap.1 hm
      have hmm : m' = m ∧ given e m = some (.obj op) := by
        cases hg : Dict.get? e m' with
        | none => rw [hg] at hm2; cases hm2
        | some v => cases v <;> rw [hg] at hm2 <;> cases hm2; exact ⟨rfl, given_some.2 ⟨hg, by simp⟩⟩
      obtain ⟨rfl, hgm⟩ := hmm
      rcases kid_method hpb hm1 with ⟨h1, _⟩ | ⟨e', opo, h1, h2', _, _, hbo⟩
      · rw [hgm] at h1; cases h1
      · obtain ⟨q, hq1, op', b1, b1', hk', ht⟩ := hyes m' hm1 opo h2'
        rw [h2'] at hk'
        cases hk'
        rw [hgm] at h1
        cases h1
        have hno := (toOperation_built he hbo (hpres.2 _ hm) ht).2.1
        refine .key hP (.key hPk (.key (v := .obj (putBody (some b) q)) ?_ (.key ?_ (.here _))))
        · rw [hget hops m' (method_ne hm1).1, get?_map_val (fun q => Json.obj (putBody (some b) q)) ops m', hq1]; rfl
        · rw [(putBody_get (some b) q).2 hno]; rfl
    · intro hnone hvp
      have hk0 : methods.filter (fun m => (kidT p m).isSome) = [] := by
        rw [List.filter_eq_nil_iff]
        intro m hm
        rcases kid_method hpb hm with ⟨_, h2, _⟩ | ⟨e', opo, h1, h2', _, _, _⟩
        · rw [h2]; simp
        · exfalso
          have : (m, e') ∈ opsOf e := List.mem_filterMap.2 ⟨m, hm, by rw [(given_some.1 h1).1]⟩
          rw [hnone] at this
          cases this
      have hbb : b = b0 := by
        have : ∀ ms, (∀ m ∈ ms, kidT p m = none) → ∀ (acc : List (Str × Dict Json)) {ops b'},
            pathOps env p root (strsAt d (s% "produces")) (strsAt d (s% "consumes")) ms (some b0) acc = .ok (ops, b') → b' = some b0 := by
          intro ms
          induction ms with
          | nil => intro _ acc ops b' hp; cases hp; rfl
          | cons m ms ih =>
            intro hm acc ops b' hp
            rw [pathOps, hm m List.mem_cons_self] at hp
            exact ih (fun x hx => hm x (List.mem_cons_of_mem _ hx)) acc hp
        have := this methods (fun m hm => by
          have := List.filter_eq_nil_iff.1 hk0 m hm
          simpa using this) _ q4
        cases this; rfl
      rw [hbb]
      exact requestOf_parameters he hin hvp q1

/-- What the loop over the routes makes of a pointer to a parameter of a path item. -/
theorem loop_param {rl pr r1 : Routes} {k : Str} {idx : List Nat} (hnd : Dict.NodupKeys rl)
    (hks : ∀ f ∈ Dict.keys rl, f ∈ sections)
    (hpath : Dict.get? rl (s% "paths") = (if pr = [] then none else some (.nested pr))) (hprn : Dict.NodupKeys pr)
    (hprk : Dict.get? pr (escape k) = (if r1 = [] then none else some (.nested r1)))
    (hall : ∀ f t, (f, t) ∈ pr → ∃ k' idx, f = escape k' ∧ t = .nested (itemRoutes idx))
    (q3 : r1 = itemRoutes idx) (i : Nat) :
    patchLoop [(s% "#", .nested rl)] [] (pointer [s% "paths", k, s% "parameters", Str.ofNat i]) = none ∨
    ∃ j s, j ∈ idx ∧ Str.ofNat i = Str.ofNat j ++ s ∧
      patchLoop [(s% "#", .nested rl)] [] (pointer [s% "paths", k, s% "parameters", Str.ofNat i]) =
        some (s% "#/paths/" ++ escape k, s% "parameters/" ++ Str.ofNat j, s% "x-pyopenapi_internal_request_body") := by
  rw [pointer_param]
  by_cases hpr : pr = []
  · rw [if_pos hpr] at hpath
    exact .inl (patchLoop_nopaths hks hpath _)
  · rw [if_neg hpr] at hpath
    rw [patchLoop_paths hnd hks hpr (Dict.mem_of_get? hpath), patchLoop_unfold]
    cases hp : pickRoute (escape k ++ '/' :: (s% "parameters/" ++ Str.ofNat i)) pr none with
    | none => exact .inl rfl
    | some x =>
      obtain ⟨g, t⟩ := x
      obtain ⟨hm, ⟨s, hs⟩, _⟩ := pickRoute_some hp
      obtain ⟨k', idx', rfl, rfl⟩ := hall g t hm
      obtain ⟨x, e1, e2⟩ := prefix_before (slash_escape k') hs
      dsimp only
      split
      · exact .inl rfl
      · rename_i hne
        rw [hs, List.drop_left, e2]
        cases x with
        | nil =>
          rw [List.append_nil] at e1
          have hkk := escape_inj e1
          subst hkk
          have hget := Dict.get?_of_mem hprn hm
          rw [hprk] at hget
          split at hget
          · cases hget
          · cases hget
            have : Str.startsWith ([] ++ '/' :: (s% "parameters/" ++ Str.ofNat i)) ['/'] = true := rfl
            rw [if_pos this]
            have hinj : idx' = idx := by
              have hmap : ∀ {a b : List Nat}, itemRoutes a = itemRoutes b → a = b := by
                intro a
                induction a with
                | nil => intro b hb; cases b with
                  | nil => rfl
                  | cons x y => cases hb
                | cons x a ih =>
                  intro b hb
                  cases b with
                  | nil => cases hb
                  | cons y b =>
                    unfold itemRoutes at hb
                    rw [List.map_cons, List.map_cons] at hb
                    have hb := List.cons.inj hb
                    have h1 := ofNat_inj (List.append_cancel_left (Prod.mk.inj hb.1).1)
                    rw [h1, ih hb.2]
              exact hmap q3
            subst hinj
            show patchLoop (itemRoutes idx') (s% "#/paths/" ++ escape k) (s% "parameters/" ++ Str.ofNat i) = none ∨ ∃ j s, j ∈ idx' ∧ _ ∧
              patchLoop (itemRoutes idx') (s% "#/paths/" ++ escape k) (s% "parameters/" ++ Str.ofNat i) = _
            rw [patchLoop_unfold]
            cases hp2 : pickRoute (s% "parameters/" ++ Str.ofNat i) (itemRoutes idx') none with
            | none => exact .inl rfl
            | some y =>
              obtain ⟨f', t'⟩ := y
              obtain ⟨hf', ⟨s', hs'⟩, _⟩ := pickRoute_some hp2
              obtain ⟨j, hj, e3⟩ := List.mem_map.1 hf'
              cases e3
              rw [List.append_assoc] at hs'
              exact .inr ⟨j, s', hj, List.append_cancel_left hs', rfl⟩
        | cons c x =>
          left
          have hcs : '/' ∉ c :: x := fun hm' => slash_escape k (by rw [e1]; exact List.mem_append_right _ hm')
          have : Str.startsWith ((c :: x) ++ '/' :: (s% "parameters/" ++ Str.ofNat i)) ['/'] = false := by
            have : c ≠ '/' := fun ec => hcs (by rw [ec]; simp)
            simp [Str.startsWith, List.isPrefixOf, Ne.symm this]
          rw [this]
          show patchLoop (itemRoutes idx') _ ((c :: x) ++ '/' :: (s% "parameters/" ++ Str.ofNat i)) = none
          rw [patchLoop_unfold, pickRoute_of_none]
          rintro f' t' hf' ⟨s', hs'⟩
          obtain ⟨j, hj, e3⟩ := List.mem_map.1 hf'
          cases e3
          have hs2 : (c :: x) ++ '/' :: (s% "parameters/" ++ Str.ofNat i) = s% "parameters" ++ '/' :: (Str.ofNat j ++ s') := by
            rw [hs']; simp
          obtain ⟨_, e5⟩ := before_slash hcs (by decide) hs2
          cases hd : Str.ofNat j with
          | nil => exact ofNat_ne_nil j hd
          | cons z w =>
            rw [hd] at e5
            have hz : z = 'p' := by
              have := congrArg List.head? e5
              simpa using this.symm
            have : z.isDigit = true := mem_ofNat_digit (n := j) (by rw [hd]; exact List.mem_cons_self)
            rw [hz] at this
            exact absurd this (by decide)

/-- The converted parameter of a path item is as far as there are parameters outside of the body before it. -/
theorem plain_place {refs : Refs} {e j : Dict Json} (hpt : ParamsTo refs e j) {i : Nat} {f : Part}
    (hi : (paramsOf refs e)[i]? = some f) (hf : f.isPlain = true) :
    ∃ qs w, Dict.get? j (s% "parameters") = some (.arr qs) ∧
      qs[(((paramsOf refs e).take i).filter Part.isPlain).length]? = some w ∧ PlainTo f w := by
  have hfil : ((paramsOf refs e).filter Part.isPlain)[(((paramsOf refs e).take i).filter Part.isPlain).length]? = some f := by
    have hlt := (List.getElem?_eq_some_iff.1 hi).1
    have hdrop : (paramsOf refs e).drop i = f :: (paramsOf refs e).drop (i + 1) := by
      rw [List.drop_eq_getElem_cons hlt, (List.getElem?_eq_some_iff.1 hi).2]
    have hsplit := List.take_append_drop i (paramsOf refs e)
    have key : (paramsOf refs e).filter Part.isPlain =
        ((paramsOf refs e).take i).filter Part.isPlain ++ f :: ((paramsOf refs e).drop (i + 1)).filter Part.isPlain := by
      have h1 : (f :: (paramsOf refs e).drop (i + 1)).filter Part.isPlain =
          f :: ((paramsOf refs e).drop (i + 1)).filter Part.isPlain := List.filter_cons_of_pos hf
      rw [← h1, ← hdrop, ← List.filter_append, hsplit]
    rw [key, List.getElem?_append_right (Nat.le_refl _)]
    simp
  have hne : (paramsOf refs e).filter Part.isPlain ≠ [] := by
    intro h0; rw [h0] at hfil; cases hfil
  obtain ⟨qs, g1, g2⟩ := hpt.2 hne
  have hat : ∀ {l : List Part} {qs : List Json}, List.Forall₂ PlainTo l qs → ∀ {i : Nat} {f : Part}, l[i]? = some f →
      ∃ w, qs[i]? = some w ∧ PlainTo f w := by
    intro l qs hf
    induction hf with
    | nil => intro i f hi; cases hi
    | cons hx _ ih =>
      intro i f hi
      cases i with
      | zero => cases hi; exact ⟨_, rfl, hx⟩
      | succ i => exact ih (by simpa using hi)
  obtain ⟨w, w1, w2⟩ := hat g2 hfil
  exact ⟨qs, w, g1, w1, w2⟩

/-- **C93**: a reference to a parameter of a path item outside of the body, all parameters before it being outside of the
body as well, is kept, and leads to the conversion of that parameter. -/
theorem C93_plain_partial {refs : Refs} {env : Env} (he : EnvOk refs env) (d : Dict Json) (o : Obj)
    (h : Built (.cls (s% "v2_0.Swagger")) (.obj d) o) (hres : DocResolves refs d) (hv : NamedValid d)
    (r : Dict Json) (rl : Routes) (hr : toOpenapi env o = .ok (r, rl)) (url k : Str) (e : Dict Json)
    (hk : Dict.get? (objAt d (s% "paths")) k = some (.obj e)) (i : Nat) (f : Part)
    (hi : (paramsOf refs e)[i]? = some f) (hpre : ∀ g ∈ (paramsOf refs e).take (i + 1), g.isPlain = true) :
    Relocated url rl (pointer [s% "paths", k, s% "parameters", Str.ofNat i])
      (pointer [s% "paths", k, s% "parameters", Str.ofNat i]) ∧
    ∃ w, RawAt (.obj r) [s% "paths", k, s% "parameters", Str.ofNat i] w ∧ PlainTo f w := by
  obtain ⟨P, pr, root, p, j, r1, hP, hnd, hks, hpath, hprn, hpb, hpres, hitem, hPk, hprk, hall⟩ := doc_paths he h hres hv hr hk
  obtain ⟨ps, body, ops, body', idx, q1, q2, q3, q4, q5⟩ := toPathItem_body hitem
  have hin := paramsIn_of he hpb (by decide +kernel) hpres.1
  have hidx : ∀ j ∈ idx, i < j := by
    intro j hj
    obtain ⟨j', g, e1, hg1, hg2⟩ := (bodyIndexes_mem hin 0 idx q2 j).1 hj
    rw [Nat.zero_add] at e1
    subst e1
    refine Nat.lt_of_not_le (fun hle => ?_)
    have : g ∈ (paramsOf refs e).take (i + 1) := by
      refine List.mem_of_getElem? (i := j) ?_
      rw [List.getElem?_take, if_pos (by omega)]
      exact hg1
    rw [hpre g this] at hg2
    cases hg2
  constructor
  · rw [relocated_iff]
    unfold patchJp
    rcases loop_param hnd hks hpath hprn hprk hall q3 i with hl | ⟨j', s, hj, hs, _⟩
    · rw [hl]
    · have := ofNat_prefix hs
      have := hidx j' hj
      omega
  · have hf : f.isPlain = true := by
      refine hpre f (List.mem_of_getElem? (i := i) ?_)
      rw [List.getElem?_take, if_pos (by omega)]
      exact hi
    obtain ⟨qs, w, g1, w1, w2⟩ := plain_place (C53_path_item he e p hpb hpres _ _ _ j r1 hitem).2.1 hi hf
    have hlen : (((paramsOf refs e).take i).filter Part.isPlain).length = i := by
      rw [List.filter_eq_self.2, List.length_take]
      · have := (List.getElem?_eq_some_iff.1 hi).1
        omega
      · intro g hg
        refine hpre g ?_
        rw [show (paramsOf refs e).take i = ((paramsOf refs e).take (i + 1)).take i by rw [List.take_take, Nat.min_eq_left (by omega)]] at hg
        exact List.mem_of_mem_take hg
    rw [hlen] at w1
    exact ⟨w, .key hP (.key hPk (.key g1 (.idx w1 (.here _)))), w2⟩

/-- C93 is false of all other parameters outside of the body: with one that goes into the body before it, the parameter
moves forward, and a reference to it does not follow. -/
theorem C93_shift_violation {refs : Refs} {env : Env} (he : EnvOk refs env) (d : Dict Json) (o : Obj)
    (h : Built (.cls (s% "v2_0.Swagger")) (.obj d) o) (hres : DocResolves refs d) (hv : NamedValid d)
    (r : Dict Json) (rl : Routes) (hr : toOpenapi env o = .ok (r, rl)) (url k : Str) (e : Dict Json)
    (hk : Dict.get? (objAt d (s% "paths")) k = some (.obj e)) (i : Nat) (f : Part)
    (hi : (paramsOf refs e)[i]? = some f) (hf : f.isPlain = true) (hpre : ∃ g ∈ (paramsOf refs e).take i, g.isPlain = false) :
    ∃ i', i' < i ∧ (∃ w, RawAt (.obj r) [s% "paths", k, s% "parameters", Str.ofNat i'] w ∧ PlainTo f w) ∧
      ¬ Relocated url rl (pointer [s% "paths", k, s% "parameters", Str.ofNat i])
        (pointer [s% "paths", k, s% "parameters", Str.ofNat i']) := by
  obtain ⟨P, pr, root, p, j, r1, hP, hnd, hks, hpath, hprn, hpb, hpres, hitem, hPk, hprk, hall⟩ := doc_paths he h hres hv hr hk
  obtain ⟨ps, body, ops, body', idx, q1, q2, q3, q4, q5⟩ := toPathItem_body hitem
  obtain ⟨qs, w, g1, w1, w2⟩ := plain_place (C53_path_item he e p hpb hpres _ _ _ j r1 hitem).2.1 hi hf
  have hlt : (((paramsOf refs e).take i).filter Part.isPlain).length < i := by
    obtain ⟨g, hg1, hg2⟩ := hpre
    refine Nat.lt_of_lt_of_le (List.length_filter_lt_length_iff_exists.2 ⟨g, hg1, by simp [hg2]⟩) ?_
    rw [List.length_take]
    omega
  refine ⟨_, hlt, ⟨w, .key hP (.key hPk (.key g1 (.idx w1 (.here _)))), w2⟩, ?_⟩
  generalize (((paramsOf refs e).take i).filter Part.isPlain).length = i' at hlt
  rw [relocated_iff]
  unfold patchJp
  rcases loop_param hnd hks hpath hprn hprk hall q3 i with hl | ⟨j', s, hj, hs, hl⟩
  · rw [hl]
    dsimp only
    rw [pointer_param, pointer_param]
    intro heq
    have : Str.ofNat i = Str.ofNat i' := by
      simpa using heq
    have := ofNat_inj this
    omega
  · rw [hl]
    dsimp only
    have hst : Str.startsWith (s% "x-pyopenapi_internal_request_body") ['#'] = false := by decide
    rw [hst]
    intro heq
    have hx : ∃ t, s% "#/paths/" ++ escape k ++ '/' :: (s% "x-pyopenapi_internal_request_body") ++ t =
        pointer [s% "paths", k, s% "parameters", Str.ofNat i'] := by
      split at heq
      · exact ⟨[], by rw [List.append_nil]; exact heq⟩
      · rw [List.append_assoc] at heq
        exact ⟨_, heq⟩
    obtain ⟨t, ht⟩ := hx
    rw [pointer_param] at ht
    simp at ht

/-! ### instances -/

/-- A path item with a parameter of the query, a body and another one of the query. -/
def shiftItem : Dict Json := [(s% "parameters", .arr [
  .obj [(s% "name", .str (s% "p")), (s% "in", .str (s% "query")), (s% "type", .str (s% "string"))],
  .obj [(s% "name", .str (s% "b")), (s% "in", .str (s% "body")), (s% "schema", .obj [(s% "type", .str (s% "object"))])],
  .obj [(s% "name", .str (s% "q")), (s% "in", .str (s% "query")), (s% "type", .str (s% "string"))]])]

/-- Its document. -/
def shiftDoc : Dict Json := [(s% "swagger", .str (s% "2.0")),
  (s% "info", .obj [(s% "title", .str (s% "t")), (s% "version", .str (s% "1"))]),
  (s% "paths", .obj [(s% "/a/b", .obj shiftItem)])]

/-- Its parameters. -/
def shiftP : Dict Json := [(s% "name", .str (s% "p")), (s% "in", .str (s% "query")), (s% "type", .str (s% "string"))]

/-- The body. -/
def shiftB : Dict Json :=
  [(s% "name", .str (s% "b")), (s% "in", .str (s% "body")), (s% "schema", .obj [(s% "type", .str (s% "object"))])]

/-- The parameter behind it. -/
def shiftQ : Dict Json := [(s% "name", .str (s% "q")), (s% "in", .str (s% "query")), (s% "type", .str (s% "string"))]

theorem shift_params : paramsOf noRefs shiftItem = [⟨shiftP, none⟩, ⟨shiftB, none⟩, ⟨shiftQ, none⟩] := by rfl

theorem shift_path {k : Str} {e : Dict Json} (h : (k, Json.obj e) ∈ objAt shiftDoc (s% "paths")) : k = s% "/a/b" ∧ e = shiftItem := by
  have : (k, Json.obj e) ∈ [(s% "/a/b", Json.obj shiftItem)] := h
  simpa only [List.mem_singleton, Prod.mk.injEq, Json.obj.injEq] using this

theorem shift_resolves : DocResolves noRefs shiftDoc := by
  intro k e h
  obtain ⟨rfl, rfl⟩ := shift_path h
  refine ⟨fun j hj => ?_, (fun p hp => by cases hp)⟩
  have hj : j ∈ [Json.obj shiftP, Json.obj shiftB, Json.obj shiftQ] := hj
  simp only [List.mem_cons, List.not_mem_nil, or_false] at hj
  rcases hj with rfl | rfl | rfl <;> exact resolves_plain (by decide)

theorem shift_convertible : Convertible noRefs (fun _ => true) shiftDoc where
  host := ⟨[], .inr ⟨rfl, rfl⟩⟩
  basePath := ⟨[], .inr ⟨rfl, rfl⟩⟩
  security := rfl
  paths := fun k e h => by
    obtain ⟨rfl, rfl⟩ := shift_path h
    refine ⟨by decide, (fun p hp => by cases hp), .inr (.inr ⟨⟨?_, .inr ⟨[⟨shiftP, none⟩], ⟨shiftB, none⟩, [⟨shiftQ, none⟩],
      shift_params, by decide, ?_, ?_⟩⟩, ⟨⟨shiftB, none⟩, ?_, by decide⟩, (fun p hp => by cases hp)⟩)⟩
    · rintro ⟨f, hf, ⟨h1, _⟩, _⟩
      rw [shift_params] at hf
      simp only [List.mem_cons, List.not_mem_nil, or_false] at hf
      rcases hf with rfl | rfl | rfl <;> rcases h1 with h1 | h1 <;> revert h1 <;> decide
    · refine ⟨fun h => absurd h (by decide), fun _ s hs hf => ?_⟩
      have : given shiftB (s% "schema") = some (.obj [(s% "type", .str (s% "object"))]) := by rfl
      rw [this] at hs
      cases hs
      obtain ⟨e, he, ht⟩ := hf
      cases he
      exact absurd ht (by decide)
    · intro g hg
      have hg : g ∈ [(⟨shiftP, none⟩ : Part), ⟨shiftQ, none⟩] := hg
      simp only [List.mem_cons, List.not_mem_nil, or_false] at hg
      rcases hg with rfl | rfl <;> decide
    · rw [shift_params]
      exact List.mem_cons_of_mem _ List.mem_cons_self
  parameters := fun k e h => by cases h
  responses := fun k e h => by cases h
  schemes := fun k e h => by cases h

theorem shift_valid : NamedValid shiftDoc := fun k e h => by cases h

theorem shift_converted : ∃ o r rl, Built (.cls (s% "v2_0.Swagger")) (.obj shiftDoc) o ∧ toOpenapi plainEnv o = .ok (r, rl) := by
  obtain ⟨o, _, h⟩ := built_exists (regularB_sound 12 (.cls (s% "v2_0.Swagger")) (.obj shiftDoc) (by decide +kernel))
    (by decide +kernel) none
  obtain ⟨r, rl, hr⟩ := C53_total plainEnv_ok shiftDoc o h shift_resolves shift_convertible
  exact ⟨o, r, rl, h, hr⟩

/-- C93 of `shiftDoc`: the body, the parameter before it, and the one behind it, to which references are lost. -/
example : ∃ r rl,
    Relocated (s% "u") rl (s% "#/paths/~1a~1b/parameters/1") (s% "#/paths/~1a~1b/x-pyopenapi_internal_request_body") ∧
    (∃ b, RawAt (.obj r) [s% "paths", s% "/a/b", s% "x-pyopenapi_internal_request_body"] (.obj b)) ∧
    Relocated (s% "u") rl (s% "#/paths/~1a~1b/parameters/0") (s% "#/paths/~1a~1b/parameters/0") ∧
    (∃ w, RawAt (.obj r) [s% "paths", s% "/a/b", s% "parameters", s% "0"] w ∧ PlainTo ⟨shiftP, none⟩ w) ∧
    ∃ i', i' < 2 ∧ (∃ w, RawAt (.obj r) [s% "paths", s% "/a/b", s% "parameters", Str.ofNat i'] w ∧ PlainTo ⟨shiftQ, none⟩ w) ∧
      ¬ Relocated (s% "u") rl (s% "#/paths/~1a~1b/parameters/2") (pointer [s% "paths", s% "/a/b", s% "parameters", Str.ofNat i']) := by
  obtain ⟨o, r, rl, ho, hr⟩ := shift_converted
  have h1 := C93_body plainEnv_ok shiftDoc o ho shift_resolves shift_valid r rl hr (s% "u") (s% "/a/b") shiftItem rfl 1
    ⟨shiftB, none⟩ (by rw [shift_params]; rfl) (by decide)
  have h2 := C93_plain_partial plainEnv_ok shiftDoc o ho shift_resolves shift_valid r rl hr (s% "u") (s% "/a/b") shiftItem rfl 0
    ⟨shiftP, none⟩ (by rw [shift_params]; rfl) (by
      rw [shift_params]
      intro g hg
      have hg : g ∈ [(⟨shiftP, none⟩ : Part)] := hg
      rw [List.mem_singleton] at hg
      subst hg
      decide)
  have h3 := C93_shift_violation plainEnv_ok shiftDoc o ho shift_resolves shift_valid r rl hr (s% "u") (s% "/a/b") shiftItem rfl 2
    ⟨shiftQ, none⟩ (by rw [shift_params]; rfl) (by decide) ⟨⟨shiftB, none⟩, by
      rw [shift_params]; exact List.mem_cons_of_mem _ List.mem_cons_self, by decide⟩
  obtain ⟨b, hb, _⟩ := h1.2
  exact ⟨r, rl, h1.1, ⟨b, hb⟩, h2.1, h2.2, h3⟩

end Pyopenapi
