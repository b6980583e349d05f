import Verif.Model.Utils
import Verif.Lemmas.Dict

/-!
# pyopenapi/migration/store.py: SpecObjStore

The store is parametric in the objects it keeps (`O`) and in what it uses of them.
-/

namespace Pyopenapi

/-- What `SpecObjStore` uses of an object: `resolve(tokens)` (which may raise or give `None`)
and truthiness (`if obj:`, store.py:100). -/
structure ObjOps (O : Type) where
  resolve : O → List Str → R (Option O)
  truthy : O → Bool

/-- A route: a pointer string, or a nested table (store.py:145-154). -/
inductive Route where
  | to (s : Str)
  | nested (d : List (Str × Route))
  deriving Repr

/-- A table of routes, `from -> to`. -/
abbrev Routes := List (Str × Route)

/-- store.py:21-26: the state. `versions` is `__migratable_spec_versions`. -/
structure Store (O : Type) where
  objs : Dict (Dict (Dict O))        -- url -> pointer -> version -> object
  routes : Dict (Dict Routes)        -- url -> version -> routes
  versions : List Str

namespace Store
variable {O : Type}

/-- store.py:21-26 `__init__`. -/
def init (versions : List Str) : Store O := ⟨[], [], versions⟩

/-- store.py:32-43 `set` (objects of `O` are `_Base` instances, so the type check passes). -/
def set (st : Store O) (obj : O) (url jp ver : Str) : Store O :=
  let urlCache := (Dict.get? st.objs url).getD []
  let cache := (Dict.get? urlCache jp).getD []
  { st with objs := Dict.set st.objs url (Dict.set urlCache jp (Dict.set cache ver obj)) }

/-- store.py:53-58, the loop of `get` over the pointers cached for one url, in insertion order. -/
def getLoop (ops : ObjOps O) (jp ver : Str) : Dict (Dict O) → R (Option O)
  | [] => .ok none
  | (path, cache) :: rest =>
    match Str.startsWith jp path, Dict.get? cache ver with
    | true, some o => ops.resolve o ((jpSplit (jp.drop path.length)).drop 1)
    | _, _ => getLoop ops jp ver rest

/-- store.py:45-58 `get`. -/
def get (ops : ObjOps O) (st : Store O) (url jp ver : Str) : R (Option O) :=
  match Dict.get? st.objs url with
  | none => .ok none
  | some urlCache => getLoop ops jp ver urlCache

/-- store.py:73-76, the dictionary `get_under` returns. -/
def underOf (jp ver : Str) : Dict (Dict O) → Dict O → Dict O
  | [], ret => ret
  | (path, cache) :: rest, ret =>
    match Str.startsWith path jp, Dict.get? cache ver with
    | true, some o => underOf jp ver rest (Dict.set ret (path.drop (jp.length + 1)) o)
    | _, _ => underOf jp ver rest ret

/-- store.py:77-78, what removal leaves in the url's cache. -/
def withoutUnder (jp ver : Str) : Dict (Dict O) → Dict (Dict O)
  | [] => []
  | (path, cache) :: rest =>
    (path, if Str.startsWith path jp && Dict.has cache ver then Dict.erase cache ver else cache)
      :: withoutUnder jp ver rest

/-- store.py:60-80 `get_under`: the returned dictionary (or `None`) and the new state. -/
def getUnder (st : Store O) (url jp ver : Str) (remove : Bool) : R (Option (Dict O) × Store O) :=
  if remove && jp.isEmpty then .error .generic
  else match Dict.get? st.objs url with
    | none => .ok (none, st)
    | some urlCache =>
      if urlCache.isEmpty then .ok (none, st)
      else .ok (some (underOf jp ver urlCache []),
        if remove then { st with objs := Dict.set st.objs url (withoutUnder jp ver urlCache) } else st)

/-! ### routes -/

/-- store.py:110-118: the table of a url, created with an empty entry per version. -/
def tableFor (st : Store O) (url : Str) : Dict Routes :=
  match Dict.get? st.routes url with
  | some r => r
  | none => st.versions.foldl (fun d v => Dict.set d v []) []

/-- store.py:109-125 `update_routes`: a new url gets an empty table per version, even when
the call then raises because of an unsupported version. -/
def updateRoutes (st : Store O) (url toSpec : Str) (routes : Routes) : Store O × R Unit :=
  let urlRoutes := st.tableFor url
  let st1 := { st with routes := Dict.set st.routes url urlRoutes }
  match Dict.get? urlRoutes toSpec with
  | none => (st1, .error .generic)
  | some r => ({ st with routes := Dict.set st.routes url (Dict.set urlRoutes toSpec (Dict.update r routes)) },
      .ok ())

end Store

/-- store.py:134-140: the longest route that is a prefix of what remains; the first one
registered wins among equals (`not patch_from` also holds for the empty prefix). -/
def pickRoute (remain : Str) : Routes → Option (Str × Route) → Option (Str × Route)
  | [], best => best
  | (f, t) :: rs, best =>
    if Str.startsWith remain f then
      match best with
      | none => pickRoute remain rs (some (f, t))
      | some (pf, pt) =>
        if pf = [] ∨ f.length > pf.length then pickRoute remain rs (some (f, t))
        else pickRoute remain rs (some (pf, pt))
    else pickRoute remain rs best

theorem pickRoute_mem {remain : Str} {rs : Routes} {best : Option (Str × Route)} {x : Str × Route}
    (h : pickRoute remain rs best = some x) : x ∈ rs ∨ best = some x := by
  induction rs generalizing best with
  | nil => exact Or.inr h
  | cons p rs ih =>
    obtain ⟨f, t⟩ := p
    simp only [pickRoute] at h
    split at h
    · split at h
      · rcases ih h with h | h
        · exact Or.inl (List.mem_cons_of_mem _ h)
        · left; simp at h; simp [h]
      · split at h
        · rcases ih h with h | h
          · exact Or.inl (List.mem_cons_of_mem _ h)
          · left; simp at h; simp [h]
        · rcases ih h with h | h
          · exact Or.inl (List.mem_cons_of_mem _ h)
          · right; exact h
    · rcases ih h with h | h
      · exact Or.inl (List.mem_cons_of_mem _ h)
      · exact Or.inr h

theorem sizeOf_routes_of_mem {f : Str} {d rs : Routes} (h : (f, Route.nested d) ∈ rs) :
    sizeOf d < sizeOf rs := by
  have := List.sizeOf_lt_of_mem h
  simp at this
  omega

/-- store.py:129-161, the loop of `_patch_jp`: the fixed prefix, the matched route and its
(non-empty string) target; `none` when there is no relocation.  The loop ends because nested
tables are finite.  (A target that is neither a string nor a dict, store.py:156, cannot be
represented.) -/
def patchLoop (routes : Routes) (fixed remain : Str) : Option (Str × Str × Str) :=
  match _h : pickRoute remain routes none with
  | none => none
  | some (pf, .to s) => if s = [] then none else some (fixed, pf, s)
  | some (pf, .nested d) =>
    if d = [] then none
    else
      let remain' := remain.drop pf.length
      patchLoop d (fixed ++ (if fixed = [] then [] else ['/']) ++ pf)
        (if Str.startsWith remain' ['/'] then remain'.drop 1 else remain')
termination_by sizeOf routes
decreasing_by
  rcases pickRoute_mem _h with h | h
  · exact sizeOf_routes_of_mem h
  · simp at h

/-- store.py:128-177 `_patch_jp`. -/
def patchJp (jp : Str) (routes : Routes) : Str :=
  match patchLoop routes [] jp with
  | none => jp
  | some (fixed, pf, to) =>
    let newJp := if Str.startsWith to ['#'] then to else fixed ++ '/' :: to
    let remain := jp.drop ((fixed ++ pf).length + 1)
    if remain = [] then newJp
    else newJp ++ (if Str.endsWith newJp ['/'] || Str.startsWith remain ['/'] then [] else ['/']) ++ remain

/-- store.py:203-210, the loop of `relocate` over the versions in table order. -/
def relocateLoop (fromV toV : StrictVersion) : Dict Routes → Str → R Str
  | [], cur => .ok cur
  | (v, rs) :: rest, cur => do
    let ver ← parseVersion v
    if StrictVersion.lt fromV ver = false then relocateLoop fromV toV rest cur
    else if StrictVersion.lt toV ver then .ok cur
    else relocateLoop fromV toV rest (patchJp cur rs)

namespace Store
variable {O : Type}

/-- store.py:179-212 `relocate` (the default of `to_spec`, consts.py:24, is left to the caller). -/
def relocate (st : Store O) (url jp fromSpec toSpec : Str) : R Str :=
  match Dict.get? st.routes url with
  | none => .ok jp
  | some urlRoutes =>
    if Dict.has urlRoutes toSpec then do
      let f ← parseVersion fromSpec
      let t ← parseVersion toSpec
      relocateLoop f t urlRoutes jp
    else .error .generic

/-- `list.index` (ValueError when absent). -/
def indexOf (l : List Str) (x : Str) : R Nat :=
  match l.findIdx? (· = x) with
  | some i => .ok i
  | none => .error .valueError

/-- store.py:86-95: the pointer in every version, from older to newer. -/
def untilChain (st : Store O) (url : Str) : List Str → Str → Str → List (Str × Str) → R (List (Str × Str))
  | [], _, _, jps => .ok jps
  | v :: vs, from_, src, jps => do
    let src' ← st.relocate url src from_ v
    untilChain st url vs v src' (jps ++ [(v, src')])

/-- store.py:98-103: from newer to older, the first pointer at which something is cached. -/
def untilSeek (ops : ObjOps O) (st : Store O) (url : Str) : List (Str × Str) → R (Option (O × Str × Str))
  | [] => .ok none
  | (v, jp) :: rest => do
    match ← st.get ops url jp v with
    | some o => if ops.truthy o then pure (some (o, jp, v)) else untilSeek ops st url rest
    | none => untilSeek ops st url rest

/-- store.py:91-92: the end of the slice of versions. -/
def untilEnd (versions : List Str) : Option Str → R Nat
  | some u => if u = [] then .ok versions.length else do let k ← indexOf versions u; pure (k + 1)
  | none => .ok versions.length

/-- store.py:82-103 `get_until`. -/
def getUntil (ops : ObjOps O) (st : Store O) (url jp specVersion : Str) (until_ : Option Str) :
    R (Option (O × Str × Str)) := do
  let i ← indexOf st.versions specVersion
  let j ← untilEnd st.versions until_
  let chain ← untilChain st url ((st.versions.take j).drop (i + 1)) specVersion jp [(specVersion, jp)]
  untilSeek ops st url chain.reverse

end Store
end Pyopenapi
