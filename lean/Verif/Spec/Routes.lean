import Verif.Spec.Store

/-! # Specification of pointer relocation -/

namespace Pyopenapi.Spec

/-- `(f, t)` is the longest entry of `rs` whose key is a prefix of `s`. -/
def Longest (rs : Routes) (s f : Str) (t : Route) : Prop :=
  (f, t) ∈ rs ∧ (∃ r, s = f ++ r) ∧ ∀ f' t', (f', t') ∈ rs → (∃ r, s = f' ++ r) → f'.length ≤ f.length

mutual
/-- Two routes with the same content, tables possibly stored in another order. -/
inductive SameRoute : Route → Route → Prop
  | to (s : Str) : SameRoute (.to s) (.to s)
  | nested {d e : Routes} : SameRoutes d e → SameRoute (.nested d) (.nested e)
/-- The same keys, with the same routes behind them, in any order. -/
inductive SameRoutes : Routes → Routes → Prop
  | nil : SameRoutes [] []
  | cons {f : Str} {t t' : Route} {d e1 e2 : Routes} : SameRoute t t' → SameRoutes d (e1 ++ e2) →
      SameRoutes ((f, t) :: d) (e1 ++ (f, t') :: e2)
end

mutual
/-- Keys are unique at every level (true of every Python dict). -/
inductive UniqueRoute : Route → Prop
  | to (s : Str) : UniqueRoute (.to s)
  | nested {d : Routes} : UniqueRoutes d → UniqueRoute (.nested d)
inductive UniqueRoutes : Routes → Prop
  | mk {d : Routes} : Dict.NodupKeys d → (∀ f t, (f, t) ∈ d → UniqueRoute t) → UniqueRoutes d
end

/-- The versions a store supports, in increasing order; `pv` reads a version string. -/
structure VersionOrder (versions : List Str) (pv : Str → StrictVersion) : Prop where
  parse : ∀ v ∈ versions, parseVersion v = .ok (pv v)
  sorted : versions.Pairwise (fun a b => StrictVersion.lt (pv a) (pv b) = true)

/-- The last route registered for `k` by the `update_routes` calls of a history (for one url and
target version), as an abstract map. -/
def lastRoute {O : Type} (versions : List Str) (hist : List (StoreOp O)) (url ver k : Str) : Option Route :=
  hist.foldl (fun cur op => match op with
    | .updateRoutes u v rs =>
      if u = url ∧ v = ver ∧ v ∈ versions then (Dict.get? rs k).or cur else cur
    | _ => cur) none

end Pyopenapi.Spec

namespace Pyopenapi.Spec

/-- Following nested tables from pointer text `s`: the keys taken (at each level the longest
matching one), the target reached, and the text left over.  Between two levels the pointer has
one `/`, unless it ends there (then the key `''` of the inner table applies). -/
inductive Follow : Routes → Str → List Str → Str → Str → Prop
  | last {rs : Routes} {k t rest : Str} : t ≠ [] → Longest rs (k ++ rest) k (.to t) →
      Follow rs (k ++ rest) [k] t rest
  | down {rs d : Routes} {k s t rest : Str} {ks : List Str} : k ≠ [] → d ≠ [] →
      Longest rs (k ++ '/' :: s) k (.nested d) → Follow d s ks t rest →
      Follow rs (k ++ '/' :: s) (k :: ks) t rest
  | downEnd {rs d : Routes} {k t : Str} : k ≠ [] → d ≠ [] →
      Longest rs k k (.nested d) → Follow d [] [[]] t [] → Follow rs k [k, []] t []

/-- Appending left-over text to a new pointer with exactly one `/` in between. -/
def glue (new rest : Str) : Str :=
  match rest with
  | [] => new
  | '/' :: _ => new ++ rest
  | _ => new ++ '/' :: rest

/-- The relocated pointer: an absolute target replaces the whole matched prefix, a relative one
replaces the last key taken. -/
def target (ks : List Str) (t : Str) : Str :=
  if Str.startsWith t ['#'] then t else Str.joinC '/' ks.dropLast ++ '/' :: t

end Pyopenapi.Spec

namespace Pyopenapi.Spec
variable {O : Type}

/-- The versions `get_until` may answer with: the version asked for, and every newer supported one
up to `until` (all of them when there is no `until`). -/
def Candidate (versions : List Str) (pv : Str → StrictVersion) (spec : Str) (until_ : Option Str)
    (v : Str) : Prop :=
  v = spec ∨ (v ∈ versions ∧ StrictVersion.lt (pv spec) (pv v) = true ∧
    ∀ u, until_ = some u → StrictVersion.lt (pv u) (pv v) = false)

/-- Nothing usable is cached for version `v` at the place pointer `jp` of version `spec` has there. -/
def Miss (ops : ObjOps O) (st : Store O) (url jp spec v : Str) : Prop :=
  ∃ p, st.relocate url jp spec v = .ok p ∧
    (st.get ops url p v = .ok none ∨ ∃ o, st.get ops url p v = .ok (some o) ∧ ops.truthy o = false)

end Pyopenapi.Spec

namespace Pyopenapi
/-- The routes registered for a url and target version, as seen through `store.routes`
(`store.routes.get(url, {}).get(version, {})`). -/
def Store.routesAt {O : Type} (st : Store O) (url ver : Str) : Routes :=
  ((Dict.get? st.routes url).bind (fun t => Dict.get? t ver)).getD []
end Pyopenapi
