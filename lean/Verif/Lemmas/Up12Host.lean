import Verif.Lemmas.Up12Listing
import Verif.Lemmas.Url

/-! The host of the upgraded document. -/

namespace Pyopenapi
open Spec Obj Conv
namespace Up12

/-! ### `os.path.commonprefix` -/

theorem agree_left : ∀ a b : Str, agree a b <+: a
  | [], b => by cases b <;> exact ⟨[], by simp [agree]⟩
  | a :: as, [] => ⟨a :: as, by simp [agree]⟩
  | a :: as, b :: bs => by
    rw [agree]
    split
    · obtain ⟨t, ht⟩ := agree_left as bs
      exact ⟨t, by rw [List.cons_append, ht]⟩
    · exact ⟨a :: as, rfl⟩

theorem prefix_agree : ∀ (p a b : Str), p <+: a → p <+: b → p <+: agree a b
  | [], _, _, _, _ => List.nil_prefix
  | x :: p, a, b, ha, hb => by
    obtain ⟨t, rfl⟩ := ha
    obtain ⟨u, rfl⟩ := hb
    rw [List.cons_append, List.cons_append, agree, if_pos rfl]
    obtain ⟨v, hv⟩ := prefix_agree p (p ++ t) (p ++ u) ⟨t, rfl⟩ ⟨u, rfl⟩
    exact ⟨v, by rw [List.cons_append, hv]⟩

theorem fold_smaller_mem (xs : List Str) : ∀ x, xs.foldl smaller x ∈ x :: xs := by
  induction xs with
  | nil => intro x; simp
  | cons y xs ih =>
    intro x
    rw [List.foldl_cons]
    have := ih (smaller x y)
    rcases List.mem_cons.1 this with h | h
    · rw [h]
      unfold smaller
      split <;> simp
    · exact List.mem_cons_of_mem _ (List.mem_cons_of_mem _ h)

theorem fold_larger_mem (xs : List Str) : ∀ x, xs.foldl larger x ∈ x :: xs := by
  induction xs with
  | nil => intro x; simp
  | cons y xs ih =>
    intro x
    rw [List.foldl_cons]
    have := ih (larger x y)
    rcases List.mem_cons.1 this with h | h
    · rw [h]
      unfold larger
      split <;> simp
    · exact List.mem_cons_of_mem _ (List.mem_cons_of_mem _ h)

/-- What all strings begin with, the common prefix begins with. -/
theorem commonPrefix_greatest {l : List Str} (hl : l ≠ []) {p : Str} (h : ∀ x ∈ l, p <+: x) : p <+: commonPrefix l := by
  cases l with
  | nil => exact absurd rfl hl
  | cons x xs => exact prefix_agree _ _ _ (h _ (fold_smaller_mem xs x)) (h _ (fold_larger_mem xs x))

/-- The common prefix begins one of the strings. -/
theorem commonPrefix_some {l : List Str} (hl : l ≠ []) : ∃ x ∈ l, commonPrefix l <+: x := by
  cases l with
  | nil => exact absurd rfl hl
  | cons x xs => exact ⟨_, fold_smaller_mem xs x, agree_left _ _⟩

/-! ### scheme and host of a url -/

theorem schemeChar_of {s : Str} (h : IsScheme s) : ∀ c ∈ s, Url.schemeChar c = true := by
  intro c hc
  unfold Url.schemeChar
  rcases h.2 c hc with h | h | h
  · simp [h]
  · simp [h]
  · simp only [List.mem_cons, List.not_mem_nil, or_false] at h
    rcases h with rfl | rfl | rfl <;> decide

theorem clean_site {scheme host : Str} (hs : IsScheme scheme) (hh : IsHost host) (t : Str) :
    Url.clean (siteOf scheme host ++ t) = siteOf scheme host ++ t.filter (fun c => !Url.unsafeChar c) := by
  obtain ⟨⟨c, a, rfl, hc⟩, _⟩ := id hs
  have hlow : ¬ c.toNat ≤ 32 := (Url.alpha_facts hc).2
  unfold Url.clean
  have hd : ∀ r : Str, (c :: r).dropWhile (fun c => decide (c.toNat ≤ 32)) = c :: r := by
    intro r
    rw [List.dropWhile_cons, if_neg (by simpa using hlow)]
  have e : siteOf (c :: a) host ++ t = c :: (a ++ s% "://" ++ host ++ t) := by simp [siteOf]
  rw [e, hd, ← e, List.filter_append]
  congr 1
  rw [List.filter_eq_self]
  intro x hx
  simp only [siteOf, List.mem_append] at hx
  rcases hx with (hx | hx) | hx
  · simpa using (Url.schemeChar_facts (schemeChar_of hs x hx)).2.2.2
  · revert hx; revert x; decide
  · have := (hh x hx).1
    simp only [Url.unsafeChar, Bool.not_eq_true', Bool.or_eq_false_iff, beq_eq_false_iff_ne]
    refine ⟨⟨?_, ?_⟩, ?_⟩ <;> (rintro rfl; revert this; decide)

/-- The url of something on a site: scheme and host are those of the site. -/
theorem parse_site {ok : Str → Bool} {scheme host : Str} (hs : IsScheme scheme) (hh : IsHost host) (hok : ok host = true) {t : Str}
    (ht : t = [] ∨ ∃ r, t = '/' :: r) :
    ∃ u, Url.parse ok (siteOf scheme host ++ t) = .ok u ∧ u.scheme = scheme.map Char.toLower ∧ u.netloc = host := by
  unfold Url.parse
  rw [clean_site hs hh]
  obtain ⟨t', e', ht'⟩ : ∃ t', t.filter (fun c => !Url.unsafeChar c) = t' ∧ (∀ c r, t' = c :: r → (!Url.endsNetloc c) = false) := by
    refine ⟨_, rfl, ?_⟩
    rcases ht with rfl | ⟨r, rfl⟩
    · intro c r h; cases h
    · intro c r' h
      rw [List.filter_cons_of_pos (by decide)] at h
      cases h
      decide
  rw [e']
  obtain ⟨⟨c, a, rfl, hc⟩, _⟩ := id hs
  have hn : ':' ∉ c :: a := by
    intro hm
    exact (Url.schemeChar_facts (schemeChar_of hs _ hm)).2.2.1 rfl
  have e : siteOf (c :: a) host ++ t' = (c :: a) ++ ':' :: '/' :: '/' :: (host ++ t') := by simp [siteOf]
  have hall : (c :: a).all Url.schemeChar = true := List.all_eq_true.2 (schemeChar_of hs)
  have h1 : Url.schemeSplit (siteOf (c :: a) host ++ t') = ((c :: a).map Char.toLower, '/' :: '/' :: (host ++ t')) := by
    unfold Url.schemeSplit
    rw [e, Str.cut_append _ hn]
    simp only [hc, hall, Bool.and_self, if_true]
  have h2 : Url.netlocSplit ('/' :: '/' :: (host ++ t')) = (host, t') := by
    have := Url.takeWhile_append_stop (p := fun c => !Url.endsNetloc c) (a := host) (b := t') (fun x hx => by
      have := (hh x hx).2
      simp only [List.mem_cons, List.not_mem_nil, or_false, not_or] at this
      simp [Url.endsNetloc, this]) ht'
    rw [Url.netlocSplit, this.1, this.2]
  simp only [h1, h2, hok, Bool.not_true, Bool.false_eq_true, if_false]
  exact ⟨_, rfl, rfl, rfl⟩

theorem unparse_site (scheme host : Str) (hs : scheme ≠ []) (hn : host ≠ [] ∨ Url.usesNetloc.contains (scheme.map Char.toLower) = true) :
    (Url.unparse ⟨scheme.map Char.toLower, host, [], [], [], []⟩).length = (siteOf scheme host).length := by
  have h1 : scheme.map Char.toLower ≠ [] := by simpa using hs
  unfold Url.unparse
  have : host ≠ [] ∨ (scheme.map Char.toLower ≠ [] ∧ Url.usesNetloc.contains (scheme.map Char.toLower) = true) ∨
      (s% "//").isPrefixOf (([] : Str) ++ Url.withMark ';' []) = true := by
    rcases hn with h | h
    · exact .inl h
    · exact .inr (.inl ⟨h1, h⟩)
  dsimp only
  rw [if_pos this, if_pos h1]
  simp [siteOf, Url.withMark]

/-! ### host and paths -/

theorem trim_site {site r : Str} : ∃ t, trimSlash (site ++ '/' :: r) = .ok (site ++ t) ∧ (t = [] ∨ ∃ r', t = '/' :: r') := by
  unfold trimSlash
  cases hg : (site ++ '/' :: r).getLast? with
  | none => simp at hg
  | some c =>
    dsimp only
    by_cases hc : c = '/'
    · rw [if_pos hc]
      have : (site ++ '/' :: r).dropLast = site ++ ('/' :: r).dropLast := List.dropLast_append_of_ne_nil (by simp)
      refine ⟨('/' :: r).dropLast, by rw [this], ?_⟩
      cases r with
      | nil => exact .inl rfl
      | cons x r => exact .inr ⟨(x :: r).dropLast, by rw [List.dropLast_cons_of_ne_nil (by simp)]⟩
    · rw [if_neg hc]
      exact ⟨_, rfl, .inr ⟨r, rfl⟩⟩

/-- Cutting off what all keys begin with. -/
theorem get?_cut {α : Type} (pre : Str) : ∀ (paths acc : Dict α), Dict.NodupKeys paths → (∀ k ∈ Dict.keys paths, pre <+: k) →
    (∀ k, Dict.get? acc k ≠ none → Dict.get? paths (pre ++ k) = none) → ∀ k,
    Dict.get? (paths.foldl (fun d kv => Dict.set d (kv.1.drop pre.length) kv.2) acc) k =
      (Dict.get? paths (pre ++ k)).or (Dict.get? acc k) := by
  intro paths
  induction paths with
  | nil => intro acc _ _ _ k; rfl
  | cons kv paths ih =>
    intro acc hn hp ha k
    obtain ⟨key, v⟩ := kv
    obtain ⟨r, rfl⟩ := hp key (by simp [Dict.keys])
    rw [List.foldl_cons]
    dsimp only
    rw [List.drop_left]
    have hn' : Dict.NodupKeys paths := (List.nodup_cons.1 hn).2
    have hkey : Dict.get? paths (pre ++ r) = none := by
      cases hg : Dict.get? paths (pre ++ r) with
      | none => rfl
      | some w => exact absurd (List.mem_map_of_mem (f := Prod.fst) (Dict.mem_of_get? hg)) (List.nodup_cons.1 hn).1
    rw [ih _ hn' (fun k hk => hp k (List.mem_cons_of_mem _ hk)), Dict.get?_cons, Dict.get?_set]
    · by_cases hk : r = k
      · subst hk
        rw [hkey]
        simp
      · have : pre ++ r ≠ pre ++ k := fun h => hk (List.append_cancel_left h)
        rw [if_neg this, if_neg hk]
    · intro k' hk'
      rw [Dict.get?_set] at hk'
      split at hk'
      next h => rw [← h]; exact hkey
      next h =>
        have := ha k' hk'
        rw [Dict.get?_cons, if_neg (fun h' => h (List.append_cancel_left h'))] at this
        exact this

/-- All paths are of one site: it is the host, and the paths are what follows it. -/
theorem hostAndPaths_site {env : Env} {scheme host : Str} (hs : IsScheme scheme) (hh : IsHost host) (hne : host ≠ [])
    (hok : env.urlOk host = true) {paths : Dict (Dict Json)} (hp : paths ≠ []) (hn : Dict.NodupKeys paths)
    (h : ∀ p ∈ Dict.keys paths, OfSite scheme host p) :
    ∃ paths', hostAndPaths env paths = .ok (host, paths') ∧ ∀ k, Dict.get? paths' k = Dict.get? paths (siteOf scheme host ++ k) := by
  have hks : Dict.keys paths ≠ [] := by unfold Dict.keys; simpa using hp
  have h1 : siteOf scheme host ++ ['/'] <+: commonPrefix (Dict.keys paths) := by
    refine commonPrefix_greatest hks (fun x hx => ?_)
    obtain ⟨r, rfl⟩ := h x hx
    exact ⟨r, by simp⟩
  obtain ⟨r, hr⟩ := h1
  obtain ⟨t, ht, ht2⟩ := trim_site (site := siteOf scheme host) (r := r)
  obtain ⟨u, hu, u1, u2⟩ := parse_site (ok := env.urlOk) hs hh hok ht2
  have hsne : scheme ≠ [] := by obtain ⟨⟨c, a, rfl, _⟩, _⟩ := hs; simp
  have hc : siteOf scheme host ++ t ≠ [] := by simp [siteOf]
  unfold hostAndPaths
  have e : commonPrefix (Dict.keys paths) = siteOf scheme host ++ '/' :: r := by rw [← hr]; simp
  rw [e, ht]
  simp only [bind, Except.bind, if_neg hc, hu, u1, u2]
  refine ⟨_, rfl, fun k => ?_⟩
  rw [unparse_site scheme host hsne (.inl hne)]
  rw [get?_cut _ _ _ hn (fun k hk => by obtain ⟨r, rfl⟩ := h k hk; exact ⟨'/' :: r, rfl⟩) (fun k hk => absurd rfl hk)]
  simp [Dict.get?]

/-- No path has a site: there is no host, and the paths stay. -/
theorem hostAndPaths_noSite {env : Env} (hok : env.urlOk [] = true) {paths : Dict (Dict Json)} (hp : paths ≠ [])
    (hn : Dict.NodupKeys paths) (h : ∀ p ∈ Dict.keys paths, NoSite p) :
    ∃ paths', hostAndPaths env paths = .ok ([], paths') ∧ ∀ k, Dict.get? paths' k = Dict.get? paths k := by
  have hks : Dict.keys paths ≠ [] := by unfold Dict.keys; simpa using hp
  have h1 : ['/'] <+: commonPrefix (Dict.keys paths) := by
    refine commonPrefix_greatest hks (fun x hx => ?_)
    obtain ⟨r, rfl, _⟩ := h x hx
    exact ⟨r, by simp⟩
  obtain ⟨r, hr⟩ := h1
  obtain ⟨x, hx, hxp⟩ := commonPrefix_some hks
  have e : commonPrefix (Dict.keys paths) = [] ++ '/' :: r := by rw [← hr]; rfl
  obtain ⟨t, ht, ht2⟩ := trim_site (site := []) (r := r)
  unfold hostAndPaths
  rw [e, ht]
  simp only [bind, Except.bind, List.nil_append]
  rcases ht2 with rfl | ⟨r', rfl⟩
  · rw [if_pos rfl]
    exact ⟨paths, rfl, fun _ => rfl⟩
  · rw [if_neg (by simp)]
    -- the second character
    have hsec : ∀ c r'', r' = c :: r'' → c ≠ '/' ∧ 32 < c.toNat := by
      rintro c r'' rfl
      obtain ⟨y, hy, hy2⟩ := h x hx
      have hpre : '/' :: c :: r'' <+: x := by
        refine List.IsPrefix.trans ?_ hxp
        rw [e]
        unfold trimSlash at ht
        split at ht
        · cases ht
        · simp only [Except.ok.injEq, List.nil_append] at ht
          split at ht
          · rw [← ht]; exact List.dropLast_prefix _
          · rw [← ht]; exact List.prefix_refl _
      obtain ⟨z, hz⟩ := hpre
      rw [hy] at hz
      simp only [List.cons_append, List.cons.injEq, true_and] at hz
      exact hy2 c _ hz.symm
    obtain ⟨u, hu, u1, u2⟩ : ∃ u, Url.parse env.urlOk ('/' :: r') = .ok u ∧ u.scheme = [] ∧ u.netloc = [] := by
      unfold Url.parse
      obtain ⟨s, hs, hs2⟩ : ∃ s, Url.clean ('/' :: r') = '/' :: s ∧ ∀ c s', s = c :: s' → c ≠ '/' := by
        unfold Url.clean
        rw [List.dropWhile_cons, if_neg (by decide), List.filter_cons_of_pos (by decide)]
        refine ⟨_, rfl, ?_⟩
        cases r' with
        | nil => intro c s' h; cases h
        | cons c r'' =>
          obtain ⟨h1, h2⟩ := hsec c r'' rfl
          have : (!Url.unsafeChar c) = true := by
            simp only [Url.unsafeChar, Bool.not_eq_true', Bool.or_eq_false_iff, beq_eq_false_iff_ne]
            refine ⟨⟨?_, ?_⟩, ?_⟩ <;> (rintro rfl; revert h2; decide)
          rw [List.filter_cons_of_pos (p := fun c => !Url.unsafeChar c) this]
          intro c' s' h
          cases h
          exact h1
      rw [hs]
      have h1 : Url.schemeSplit ('/' :: s) = ([], '/' :: s) := Url.schemeSplit_other (by
        intro c r h; cases h; decide)
      have h2 : Url.netlocSplit ('/' :: s) = ([], '/' :: s) := by
        cases s with
        | nil => rfl
        | cons c s' =>
          have := hs2 c s' rfl
          unfold Url.netlocSplit
          split
          next h => cases h; exact absurd rfl this
          · rfl
      simp only [h1, h2, hok, Bool.not_true, Bool.false_eq_true, if_false]
      exact ⟨_, rfl, rfl, rfl⟩
    simp only [hu, u1, u2]
    refine ⟨_, rfl, fun k => ?_⟩
    have := get?_cut (α := Dict Json) [] paths [] hn (fun k _ => List.nil_prefix) (fun k hk => absurd rfl hk) k
    have e0 : (Url.unparse ⟨[], [], [], [], [], []⟩).length = ([] : Str).length := by decide
    rw [e0]
    simpa [Dict.get?] using this

/-! ### the names of the paths are unique -/

theorem foldlM_inv {σ α : Type} {P : σ → Prop} {f : σ → α → R σ} (hf : ∀ s a s', P s → f s a = .ok s' → P s') :
    ∀ (l : List α) (s s' : σ), P s → l.foldlM f s = .ok s' → P s'
  | [], s, s', h, hr => by cases hr; exact h
  | a :: l, s, s', h, hr => by
    rw [List.foldlM_cons] at hr
    obtain ⟨s1, g1, hr⟩ := bindOk hr
    exact foldlM_inv hf l s1 s' (hf s a s1 h g1) hr

theorem convertOperation_nodup {env : Env} {op api decl : Obj} {st st' : State} (h : Dict.NodupKeys st.paths)
    (hr : convertOperation env op api decl st = .ok st') : Dict.NodupKeys st'.paths := by
  unfold convertOperation at hr
  obtain ⟨_, _, hr⟩ := bindOk hr
  obtain ⟨_, _, hr⟩ := bindOk hr
  obtain ⟨_, _, hr⟩ := bindOk hr
  obtain ⟨_, _, hr⟩ := bindOk hr
  obtain ⟨_, _, hr⟩ := bindOk hr
  obtain ⟨_, _, hr⟩ := bindOk hr
  obtain ⟨_, _, hr⟩ := bindOk hr
  cases hr
  exact Dict.nodupKeys_set h _ _

theorem convertModel_paths {env : Env} {decl m : Obj} {st st' : State} (hr : convertModel env decl m st = .ok st') :
    st'.paths = st.paths := by
  unfold convertModel at hr
  obtain ⟨_, _, hr⟩ := bindOk hr
  obtain ⟨_, _, hr⟩ := bindOk hr
  obtain ⟨_, _, hr⟩ := bindOk hr
  split at hr
  · cases hr
  obtain ⟨_, _, hr⟩ := bindOk hr
  obtain ⟨_, _, hr⟩ := bindOk hr
  obtain ⟨_, _, hr⟩ := bindOk hr
  obtain ⟨_, _, hr⟩ := bindOk hr
  obtain ⟨_, _, hr⟩ := bindOk hr
  cases hr
  rfl

theorem apiDeclaration_nodup {env : Env} {decl : Obj} {st st' : State} (h : Dict.NodupKeys st.paths)
    (hr : apiDeclaration env (some st) decl = .ok (some st')) : Dict.NodupKeys st'.paths := by
  unfold apiDeclaration at hr
  obtain ⟨_, _, hr⟩ := bindOk hr
  dsimp only at hr
  obtain ⟨st1, g1, hr⟩ := bindOk hr
  split at hr
  · cases hr
  obtain ⟨st2, g2, hr⟩ := bindOk hr
  cases hr
  refine foldlM_inv (P := fun s => Dict.NodupKeys s.paths) ?_ _ _ _ ?_ g2
  · intro s km s' hs hr
    rw [convertModel_paths hr]
    exact hs
  · refine foldlM_inv (P := fun s => Dict.NodupKeys s.paths) ?_ _ _ _ ?_ g1
    · intro s api s' hs hr
      unfold convertApi at hr
      split at hr
      · cases hr
      refine foldlM_inv (P := fun s => Dict.NodupKeys s.paths) ?_ _ _ _ hs hr
      intro s op s' hs hr
      exact convertOperation_nodup hs hr
    · exact h

/-! ### the whole upgrade -/

/-- The resources, one after the other. -/
theorem resources_ok {env : Env} (hl : LowerOk env) (hn : NumbersOk env) {ds : List (Dict Json)} {rs : List (Str × Obj)}
    (h : List.Forall₂ (fun e r => Built (.cls (s% "v1_2.ApiDeclaration")) (.obj e) r.2) ds rs) :
    ∀ {decls : List (Dict Json)} {st : State} {st' : Option State}, (∀ e ∈ ds, DeclOk e) → StateTo env decls st → Dict.NodupKeys st.paths →
    rs.foldlM (fun st r => scan [[some (dispatcher env)]] (some r.2) [] st) (some st) = .ok st' →
    ∃ s, st' = some s ∧ StateTo env (decls ++ ds) s ∧ Dict.NodupKeys s.paths ∧ s.info = st.info ∧
      s.securityDefinitions = st.securityDefinitions := by
  induction h with
  | nil => intro decls st st' _ hs hk hr; cases hr; exact ⟨st, rfl, by simpa using hs, hk, rfl, rfl⟩
  | @cons e r ds rs hb _ ih =>
    intro decls st st' hok hs hk hr
    rw [List.foldlM_cons, scan_resource hb] at hr
    obtain ⟨st1, g1, hr⟩ := bindOk hr
    obtain ⟨s1, rfl⟩ : ∃ s1, st1 = some s1 := by
      unfold apiDeclaration at g1
      obtain ⟨_, _, g1⟩ := bindOk g1
      dsimp only at g1
      obtain ⟨_, _, g1⟩ := bindOk g1
      split at g1
      · cases g1
      obtain ⟨_, _, g1⟩ := bindOk g1
      cases g1
      exact ⟨_, rfl⟩
    obtain ⟨a1, a2, a3⟩ := apiDeclaration_ok hl hn hb (hok e (by simp)) hs g1
    obtain ⟨s, b1, b2, b3, b4, b5⟩ := ih (fun e he => hok e (List.mem_cons_of_mem _ he)) a1 (apiDeclaration_nodup hk g1) hr
    refine ⟨s, b1, ?_, b3, b4.trans a2, b5.trans a3⟩
    rw [List.append_assoc] at b2
    exact b2

/-- The upgrade of documents of regular shape: the state before the host is cut off. -/
theorem upgrade12_state {env : Env} (hl : LowerOk env) (hn : NumbersOk env) {l : Dict Json} {listing : Obj}
    (h : Built (.cls (s% "v1_2.ResourceListing")) (.obj l) listing) {ds : List (Dict Json)} {rs : List (Str × Obj)}
    (hrs : List.Forall₂ (fun e r => Built (.cls (s% "v1_2.ApiDeclaration")) (.obj e) r.2) ds rs) (hok : ∀ e ∈ ds, DeclOk e)
    {doc : Dict Json} {o : Obj} (hr : upgrade12 env listing rs = .ok (doc, o)) :
    ∃ st host paths, doc = document st host paths ∧ hostAndPaths env st.paths = .ok (host, paths) ∧ StateTo env ds st ∧
      Dict.NodupKeys st.paths ∧ InfoTo12 l st.info ∧ SecurityTo12 l st.securityDefinitions ∧
      build pkg (.cls (s% "v2_0.Swagger")) (.obj doc) (some (s% "#")) [] = .ok o := by
  unfold upgrade12 at hr
  obtain ⟨st0, g0, hr⟩ := bindOk hr
  obtain ⟨s0, rfl, b1, b2, b3⟩ := scan_listing h g0
  obtain ⟨st1, g1, hr⟩ := bindOk hr
  have hp0 : s0.paths = [] := by
    cases hq : s0.paths with
    | nil => rfl
    | cons kv r =>
      exfalso
      have := (b1.paths.1 kv.1).1 (by rw [hq, Dict.get?_cons, if_pos rfl]; simp)
      simp at this
  obtain ⟨s1, rfl, c1, c2, c3, c4⟩ := resources_ok hl hn hrs hok b1 (by rw [hp0]; exact List.nodup_nil) g1
  obtain ⟨d, g2, hr⟩ := bindOk hr
  unfold getSwagger at g2
  dsimp only at g2
  obtain ⟨hp, g3, g2⟩ := bindOk g2
  cases g2
  dsimp only at hr
  obtain ⟨o', g4, hr⟩ := bindOk hr
  cases hr
  exact ⟨s1, hp.1, hp.2, rfl, g3, by simpa using c1, c2, by rw [c3]; exact b2, by rw [c4]; exact b3, g4⟩

end Up12
end Pyopenapi
