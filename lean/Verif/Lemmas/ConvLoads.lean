import Verif.Lemmas.ConvSwagger
import Verif.Lemmas.Inside
import Verif.Lemmas.Up12
import Verif.Props.ConvSchema

/-!
# What the converters produce can be loaded: schemas, headers, parameters
-/

namespace Pyopenapi
open Spec Obj Conv

/-- Members any converter may write, apart from `$ref`. -/
def keyOk (k : Str) : Bool := !([s% "$ref", s% "callbacks", s% "examples"].contains k)

def isPath (c : Str) : Bool := decide (c = s% "v3_0_0.PathItem")

/-- The members of an object a converter makes; what stands under `$ref` is one of `S` (of `S true` in path items).  (The names of OAuth flows are copied.) -/
def Keys (S : Bool → Json → Prop) (c : Str) (d : Dict Json) : Prop :=
  ∀ k v, Dict.get? d k = some v → keyOk k = true ∨ (k = s% "$ref" ∧ S (isPath c) v) ∨ c = s% "v3_0_0.OAuthFlows"

/-- A document of regular shape, all of whose objects have such members. -/
inductive Fine (S : Bool → Json → Prop) : Builder → Json → Prop
  | cls {c : Str} {d : Dict Json} : Keys S c d →
      (∀ k cd, (k, cd) ∈ (pkg c).children → cd.required = true → Dict.get? d k ≠ none) →
      (∀ k cd v, (k, cd) ∈ (pkg c).children → Dict.get? d k = some v → v ≠ .null → Fine S cd.builder v) →
      Fine S (.cls c) (.obj d)
  | isStr {s : Str} : Fine S .isStr (.str s)
  | str {s : Str} : Fine S .isStrOrInt (.str s)
  | int {n : Int} : Fine S .isStrOrInt (.int n)
  | list {b : Builder} {l : List Json} : (∀ x ∈ l, Fine S b x) → Fine S (.listOf b) (.arr l)
  | map {b : Builder} {d : Dict Json} : (∀ k x, (k, x) ∈ d → Fine S b x) → Fine S (.mapOf b) (.obj d)
  | ref {r : Str} {b : Builder} {d : Dict Json} {v : Json} : Dict.get? d (s% "$ref") = some v →
      Fine S (.cls r) (.obj d) → Fine S (.ifNotRef r b) (.obj d)
  | notRef {r : Str} {b : Builder} {d : Dict Json} : Dict.get? d (s% "$ref") = none → Fine S b (.obj d) →
      Fine S (.ifNotRef r b) (.obj d)
  | bool {b : Builder} {v : Bool} : Fine S (.ifNotBool b) (.bool v)
  | notBool {b : Builder} {j : Json} : (∀ v, j ≠ .bool v) → Fine S b j → Fine S (.ifNotBool b) j

theorem Fine.regular {S : Bool → Json → Prop} {b : Builder} {j : Json} (h : Fine S b j) : Regular pkg b j := by
  induction h with
  | cls _ h1 _ ih => exact .cls h1 ih
  | isStr => exact .isStr
  | str => exact .str
  | int => exact .int
  | list _ ih => exact .list ih
  | map _ ih => exact .map ih
  | ref h _ ih => exact .ref h ih
  | notRef h _ ih => exact .notRef h ih
  | bool => exact .bool
  | notBool h _ ih => exact .notBool h ih

/-- A document like that, without repeated keys. -/
def Loads (S : Bool → Json → Prop) (b : Builder) (j : Json) : Prop := Fine S b j ∧ j.wf = true

theorem keys_empty {S : Bool → Json → Prop} {c : Str} : Keys S c [] := fun _ _ h => by cases h

theorem keys_set {S : Bool → Json → Prop} {c : Str} {d : Dict Json} {k : Str} {v : Json} (h : Keys S c d)
    (hk : keyOk k = true ∨ (k = s% "$ref" ∧ S (isPath c) v) ∨ c = s% "v3_0_0.OAuthFlows") : Keys S c (Dict.set d k v) := by
  intro k' v' hg
  by_cases he : k' = k
  · subst he; rw [Dict.get?_set_self] at hg; cases hg; exact hk
  · rw [Dict.get?_set_ne _ _ (Ne.symm he)] at hg; exact h k' v' hg

theorem keys_ref {S : Bool → Json → Prop} {c c' : Str} {d : Dict Json} (h : Keys S c d) (hc : c ≠ s% "v3_0_0.OAuthFlows") (hp : isPath c = isPath c') :
    Keys S c' d :=
  fun k v hg => (h k v hg).imp id (fun h => .inl (hp ▸ h.resolve_right hc))

theorem fine_leaf {S : Bool → Json → Prop} {c : Str} (hc : (pkg c).children = []) {d : Dict Json} (h : Keys S c d) : Fine S (.cls c) (.obj d) :=
  .cls h (fun k cd hm => by rw [hc] at hm; cases hm) (fun k cd v hm => by rw [hc] at hm; cases hm)

/-- A loaded object, whatever it is. -/
abbrev AnyLoaded (o : Obj) : Prop := Loaded pkg (fun _ => True) o

theorem loaded_kid {o x : Obj} {k : Str} (h : AnyLoaded o) (hk : kid o k = some x) : AnyLoaded x := by
  cases o with
  | base c p s ks => exact loaded_slot closed_all h (.child (Dict.mem_of_get? (hk : Dict.get? ks k = some x)))
  | _ => simp [kid] at hk

theorem loaded_kidT {o x : Obj} {k : Str} (h : AnyLoaded o) (hk : kidT o k = some x) : AnyLoaded x :=
  loaded_kid h (kidT_kid hk).1

theorem loaded_elem {o x : Obj} (h : AnyLoaded o) (hx : x ∈ elems (some o)) : AnyLoaded x := by
  cases o with
  | list b p s l =>
    obtain ⟨i, hi, he⟩ := List.getElem_of_mem (l := l) hx
    exact loaded_slot closed_all h (.elem (i := i) (by rw [List.getElem?_eq_getElem hi, he]))
  | _ => simp [elems] at hx

theorem loaded_entry {o x : Obj} {k : Str} (h : AnyLoaded o) (hx : (k, x) ∈ entries (some o)) : AnyLoaded x := by
  cases o with
  | map b p s l => exact loaded_slot closed_all h (.item (es := l) hx)
  | _ => simp [entries] at hx

/-- The objects a conversion starts from: loaded, with all that is inside, and what they refer to is in `S`. -/
class Source (P : Obj → Prop) (S : outParam (Bool → Json → Prop)) : Prop where
  loaded : ∀ {x}, P x → AnyLoaded x
  slot : ∀ {x k y}, P x → Slot x k y → P y
  ref : ∀ {x v}, P x → fld x (s% "$ref") = .ok v → v.truthy = true → S false v

instance anySource : Source AnyLoaded (fun _ _ => True) where
  loaded h := h
  slot h hs := loaded_slot closed_all h hs
  ref _ _ _ := trivial

section
variable {P : Obj → Prop} {S : Bool → Json → Prop} [hP : Source P S]

include hP in
theorem source_kid {o x : Obj} {k : Str} (h : P o) (hk : kid o k = some x) : P x := by
  cases o with
  | base c p s ks => exact hP.slot h (.child (Dict.mem_of_get? (hk : Dict.get? ks k = some x)))
  | _ => simp [kid] at hk

include hP in
theorem source_kidT {o x : Obj} {k : Str} (h : P o) (hk : kidT o k = some x) : P x :=
  source_kid h (kidT_kid hk).1

include hP in
theorem source_elem {o x : Obj} (h : P o) (hx : x ∈ elems (some o)) : P x := by
  cases o with
  | list b p s l =>
    obtain ⟨i, hi, he⟩ := List.getElem_of_mem (l := l) hx
    exact hP.slot h (.elem (i := i) (by rw [List.getElem?_eq_getElem hi, he]))
  | _ => simp [elems] at hx

include hP in
theorem source_entry {o x : Obj} {k : Str} (h : P o) (hx : (k, x) ∈ entries (some o)) : P x := by
  cases o with
  | map b p s l => exact hP.slot h (.item (es := l) hx)
  | _ => simp [entries] at hx

end

/-- The values of the fields of a loaded object. -/
theorem fld_loaded {o : Obj} {k : Str} {v : Json} (h : AnyLoaded o) (hv : fld o k = .ok v) : v.wf = true := by
  cases o with
  | base c p s ks =>
    obtain ⟨b, j, p', _, hwf, hb⟩ := h
    have hi := build_inv closed_all (B := fun _ => True) trivial hb
    obtain ⟨_, hs, _⟩ := hi
    subst hs
    unfold fld at hv
    cases hf : Dict.get? (pkg c).fields k with
    | none => simp only [hf] at hv; cases hv; rfl
    | some fd =>
      simp only [hf] at hv
      unfold readField at hv
      cases hg : specGet s k with
      | error e => rw [hg] at hv; cases hv
      | ok x =>
        rw [hg] at hv
        cases x with
        | none =>
          dsimp only at hv
          split at hv
          · cases hv
          · cases hv; exact defaults_wf hf
        | some v' =>
          dsimp only at hv
          split at hv
          · cases hv
          · cases hv
            cases s with
            | obj d =>
              simp only [specGet, Except.ok.injEq] at hg
              exact wf_at hwf hg
            | arr l => simp only [specGet] at hg; split at hg <;> cases hg
            | str l => simp only [specGet] at hg; split at hg <;> cases hg
            | _ => cases hg
  | _ => cases hv; rfl

variable {P : Obj → Prop} {S : Bool → Json → Prop} [hP : Source P S]

include hP in
theorem fld_wf {o : Obj} {k : Str} {v : Json} (h : P o) (hv : fld o k = .ok v) : v.wf = true := fld_loaded (hP.loaded h) hv

/-! ### putting members -/

theorem loads_put {c : Str} {r : Dict Json} {k : Str} {v : Json} (h : Loads S (.cls c) (.obj r)) (hw : v.wf = true)
    (hk : ∀ cd, Dict.get? (pkg c).children k = some cd → Fine S cd.builder v)
    (hkk : keyOk k = true ∨ (k = s% "$ref" ∧ S (isPath c) v) ∨ c = s% "v3_0_0.OAuthFlows") :
    Loads S (.cls c) (.obj (Dict.set r k v)) := by
  obtain ⟨hr, hwf⟩ := h
  refine ⟨?_, wf_set_obj hwf hw⟩
  cases hr with
  | cls h0 h1 h2 =>
    refine .cls (keys_set h0 hkk) (fun k' cd hm hreq => ?_) (fun k' cd v' hm hv hn => ?_)
    · by_cases he : k' = k
      · subst he; rw [Dict.get?_set_self]; simp
      · rw [Dict.get?_set_ne _ _ (Ne.symm he)]; exact h1 k' cd hm hreq
    · by_cases he : k' = k
      · subst he
        rw [Dict.get?_set_self] at hv
        cases hv
        exact hk cd (Dict.get?_of_mem (okTable_pkg.cls _).children hm)
      · rw [Dict.get?_set_ne _ _ (Ne.symm he)] at hv
        exact h2 k' cd v' hm hv hn

/-- A member that holds no object. -/
theorem loads_field {c : Str} {r : Dict Json} {k : Str} {v : Json} (h : Loads S (.cls c) (.obj r)) (hw : v.wf = true)
    (hk : Dict.get? (pkg c).children k = none) (hkk : keyOk k = true := by decide) : Loads S (.cls c) (.obj (Dict.set r k v)) :=
  loads_put h hw (fun cd hc => by rw [hk] at hc; cases hc) (.inl hkk)

/-- A member that holds one. -/
theorem loads_child {c : Str} {r : Dict Json} {k : Str} {v : Json} {b : Builder} (h : Loads S (.cls c) (.obj r))
    (hv : Loads S b v) (hk : (Dict.get? (pkg c).children k).map (fun cd => cd.builder) = some b) (hkk : keyOk k = true := by decide) :
    Loads S (.cls c) (.obj (Dict.set r k v)) :=
  loads_put h hv.2 (fun cd hc => by rw [hc] at hk; cases hk; exact hv.1) (.inl hkk)

/-- No member of the class is needed. -/
def freeClass (c : Str) : Bool := (pkg c).children.all (fun kc => !kc.2.required)

theorem loads_empty {c : Str} (hc : freeClass c = true) : Loads S (.cls c) (.obj []) := by
  refine ⟨.cls keys_empty (fun k cd hm hreq => ?_) (fun k cd v _ hv => by cases hv), rfl⟩
  have := List.all_eq_true.1 hc _ hm
  simp [hreq] at this

theorem loads_leaf {c : Str} (hc : (pkg c).children = []) {r : Dict Json} (hw : (Json.obj r).wf = true) (hk : Keys S c r) :
    Loads S (.cls c) (.obj r) := ⟨fine_leaf hc hk, hw⟩

theorem fine_keys {c : Str} {r : Dict Json} (h : Fine S (.cls c) (.obj r)) : Keys S c r := by
  cases h with
  | cls h _ _ => exact h

/-- A place for an object or a reference. -/
theorem loads_orRef {c : Str} {r : Dict Json} (h : Loads S (.cls c) (.obj r)) (hc : c ≠ s% "v3_0_0.OAuthFlows" := by decide)
    (hp : isPath c = false := by decide) :
    Loads S (.ifNotRef (s% "v3_0_0.Reference") (.cls c)) (.obj r) := by
  refine ⟨?_, h.2⟩
  cases hg : Dict.get? r (s% "$ref") with
  | none => exact .notRef hg h.1
  | some v => exact .ref hg (fine_leaf (by decide +kernel) (keys_ref (fine_keys h.1) hc hp))

/-- Adding a member to the object or reference. -/
theorem loads_orRef_set {c : Str} {r : Dict Json} {k : Str} {v : Json}
    (h : Loads S (.ifNotRef (s% "v3_0_0.Reference") (.cls c)) (.obj r)) (hw : v.wf = true)
    (hk : Loads S (.cls c) (.obj r) → ∀ cd, Dict.get? (pkg c).children k = some cd → Fine S cd.builder v)
    (hc : c ≠ s% "v3_0_0.OAuthFlows" := by decide) (hkk : keyOk k = true := by decide) (hp : isPath c = false := by decide) :
    Loads S (.ifNotRef (s% "v3_0_0.Reference") (.cls c)) (.obj (Dict.set r k v)) := by
  have hkr : k ≠ s% "$ref" := by rintro rfl; exact absurd hkk (by decide)
  obtain ⟨hr, hwf⟩ := h
  cases hr with
  | ref hv hf =>
    exact ⟨.ref (by rw [Dict.get?_set_ne _ _ hkr]; exact hv) (fine_leaf (by decide +kernel) (keys_set (fine_keys hf) (.inl hkk))),
      wf_set_obj hwf hw⟩
  | notRef hv hreg => exact loads_orRef (loads_put ⟨hreg, hwf⟩ hw (hk ⟨hreg, hwf⟩) (.inl hkk)) hc hp

theorem loads_ref {c : Str} {v : Json} (hw : v.wf = true) (hS : S false v) :
    Loads S (.ifNotRef (s% "v3_0_0.Reference") (.cls c)) (.obj [(s% "$ref", v)]) :=
  ⟨.ref (by rfl) (fine_leaf (by decide +kernel) (keys_set (d := []) (k := s% "$ref") keys_empty (.inr (.inl ⟨rfl, hS⟩)))),
    wf_set_obj (d := []) (k := s% "$ref") rfl hw⟩

/-- A map of documents. -/
theorem loads_map_set {b : Builder} {d : Dict Json} {k : Str} {v : Json} (h : Loads S (.mapOf b) (.obj d)) (hv : Loads S b v) :
    Loads S (.mapOf b) (.obj (Dict.set d k v)) := by
  obtain ⟨hr, hw⟩ := h
  refine ⟨?_, wf_set_obj hw hv.2⟩
  cases hr with
  | map hd =>
    refine .map (fun k' x hx => ?_)
    have hn : Dict.NodupKeys (Dict.set d k v) := Dict.nodupKeys_set (wf_nodup hw) k v
    have hg := Dict.get?_of_mem hn hx
    by_cases he : k' = k
    · subst he; rw [Dict.get?_set_self] at hg; cases hg; exact hv.1
    · rw [Dict.get?_set_ne _ _ (Ne.symm he)] at hg
      exact hd k' x (Dict.mem_of_get? hg)

theorem loads_map_empty {b : Builder} : Loads S (.mapOf b) (.obj []) := ⟨.map (fun _ _ h => by cases h), rfl⟩

theorem loads_list {b : Builder} {l : List Json} (h : ∀ x ∈ l, Loads S b x) : Loads S (.listOf b) (.arr l) := by
  refine ⟨.list (fun x hx => (h x hx).1), ?_⟩
  induction l with
  | nil => rfl
  | cons x l ih =>
    simp only [Json.wf, Json.wfL, Bool.and_eq_true] at ih ⊢
    exact ⟨(h x (by simp)).2, ih (fun y hy => h y (by simp [hy]))⟩

/-- The loop over a map. -/
theorem setAll_loads {b : Builder} {f : Obj → R Json} {es : List (Str × Obj)} {ret r : Dict Json}
    (h : setAll f es ret = .ok r) (hr : Loads S (.mapOf b) (.obj ret))
    (hf : ∀ k o j, (k, o) ∈ es → f o = .ok j → Loads S b j) : Loads S (.mapOf b) (.obj r) := by
  induction es generalizing ret with
  | nil => cases h; exact hr
  | cons p es ih =>
    obtain ⟨k, o⟩ := p
    rw [setAll] at h
    cases hj : f o with
    | error e => rw [hj] at h; cases h
    | ok j =>
      rw [hj] at h
      exact ih h (loads_map_set hr (hf k o j (by simp) hj)) (fun k o j hm => hf k o j (by simp [hm]))

/-- Fields of the source under names that are no children of the target. -/
theorem genFields_loads {c : Str} {o : Obj} {ns : List Str} {ret r : Dict Json} (ho : P o)
    (h : Loads S (.cls c) (.obj ret)) (hn : ns.all (fun k => keyOk k && (Dict.get? (pkg c).children k).isNone) = true)
    (hr : genFields o ns ret = .ok r) : Loads S (.cls c) (.obj r) := by
  induction ns generalizing ret with
  | nil => cases hr; exact h
  | cons k ns ih =>
    simp only [List.all_cons, Bool.and_eq_true, Option.isNone_iff_eq_none] at hn
    rw [genFields] at hr
    obtain ⟨v, h1, h2⟩ := bindOk hr
    refine ih ?_ hn.2 h2
    split
    · exact h
    · exact loads_field h (fld_wf ho h1) hn.1.2 hn.1.1

/-! ### schemas -/

theorem fromItems_loads : ∀ (n : Nat) (o : Obj) (r : Json), sizeOf o ≤ n → P o → fromItems o = .ok r →
    (∃ d, r = .obj d) ∧ Loads S schema3 r := by
  intro n
  induction n with
  | zero => intro o r hn; cases o <;> simp at hn <;> omega
  | succ n ih =>
    intro o r hn ho h
    rw [fromItems_eq] at h
    obtain ⟨ref, h1, h⟩ := bindOk h
    by_cases ht : ref.truthy = true
    · rw [if_pos ht] at h
      cases h
      exact ⟨⟨_, rfl⟩, loads_ref (fld_wf ho h1) (hP.ref ho h1 ht)⟩
    · rw [if_neg ht] at h
      obtain ⟨ret, h2, h⟩ := bindOk h
      have hl := genFields_loads (c := s% "v3_0_0.Schema") ho (loads_empty (by decide +kernel)) (by decide +kernel) h2
      cases hk : kidT o (s% "items") with
      | none => simp only [hk] at h; cases h; exact ⟨⟨_, rfl⟩, loads_orRef hl⟩
      | some it =>
        simp only [hk] at h
        obtain ⟨x, h3, h⟩ := bindOk h
        cases h
        have hsz := kidT_size hk
        obtain ⟨_, hx⟩ := ih it x (by omega) (source_kidT ho hk) h3
        exact ⟨⟨_, rfl⟩, loads_orRef (loads_child hl hx (by decide +kernel))⟩

theorem toExternalDocs_loads {o : Obj} {r : Dict Json} (ho : P o) (h : toExternalDocs o = .ok r) :
    Loads S (.cls (s% "v3_0_0.ExternalDocumentation")) (.obj r) := by
  unfold toExternalDocs at h
  obtain ⟨u, h1, h⟩ := bindOk h
  obtain ⟨d, h2, h⟩ := bindOk h
  cases h
  have w1 : Loads S (.cls (s% "v3_0_0.ExternalDocumentation")) (.obj [(s% "url", u)]) :=
    loads_field (r := []) (k := s% "url") (loads_empty (by decide +kernel)) (fld_wf ho h1) (by decide +kernel)
  split
  · exact loads_field (r := [(s% "url", u)]) (k := s% "description") w1 (fld_wf ho h2) (by decide +kernel)
  · exact w1

theorem putExternalDocs_loads {c : Str} {o : Obj} {ret r : Dict Json} (ho : P o) (h : Loads S (.cls c) (.obj ret))
    (hc : (Dict.get? (pkg c).children (s% "externalDocs")).map (fun cd => cd.builder) =
      some (.cls (s% "v3_0_0.ExternalDocumentation")))
    (hr : putExternalDocs o ret = .ok r) : Loads S (.cls c) (.obj r) := by
  unfold putExternalDocs at hr
  cases hk : kidT o (s% "externalDocs") with
  | none => simp only [hk] at hr; cases hr; exact h
  | some x =>
    simp only [hk] at hr
    obtain ⟨e, h1, hr⟩ := bindOk hr
    cases hr
    exact loads_child h (toExternalDocs_loads (source_kidT ho hk) h1) hc

theorem putRequired_loads {o : Obj} {ret r : Dict Json} (ho : P o)
    (h : Loads S (.cls (s% "v3_0_0.Schema")) (.obj ret)) (hr : putRequired o ret = .ok r) :
    Loads S (.cls (s% "v3_0_0.Schema")) (.obj r) := by
  unfold putRequired at hr
  obtain ⟨v, h1, hr⟩ := bindOk hr
  have hw := fld_wf ho h1
  split at hr
  · cases hr; exact loads_field h hw (by decide +kernel)
  · cases hr; exact h

theorem putRest_loads {o : Obj} {ret r : Dict Json} (ho : P o)
    (h : Loads S (.cls (s% "v3_0_0.Schema")) (.obj ret)) (hr : putRest o ret = .ok r) :
    Loads S (.cls (s% "v3_0_0.Schema")) (.obj r) := by
  unfold putRest at hr
  obtain ⟨v, h1, hr⟩ := bindOk hr
  obtain ⟨r2, h2, hr⟩ := bindOk hr
  have hl : Loads S (.cls (s% "v3_0_0.Schema")) (.obj (if v.truthy = true then
      Dict.set ret (s% "discriminator") (.obj [(s% "propertyName", v)]) else ret)) := by
    split
    · refine loads_child (b := .cls (s% "v3_0_0.Discriminator")) h ?_ (by decide +kernel)
      exact loads_field (r := []) (k := s% "propertyName") (loads_empty (by decide +kernel)) (fld_wf ho h1) (by decide +kernel)
    · exact h
  refine putExternalDocs_loads ho ?_ (by decide +kernel) hr
  unfold putXml at h2
  cases hk : kidT o (s% "xml") with
  | none => simp only [hk] at h2; cases h2; exact hl
  | some x =>
    simp only [hk] at h2
    obtain ⟨e, h3, h2⟩ := bindOk h2
    cases h2
    refine loads_child hl ?_ (b := .cls (s% "v3_0_0.XML_")) (by decide +kernel)
    exact genFields_loads (source_kidT ho hk) (loads_empty (by decide +kernel)) (by decide +kernel) h3

theorem toSchemaList_loads {es : List Obj} {l : List Json} (h : toSchemaList es = .ok l)
    (hf : ∀ o j, o ∈ es → toSchema false o = .ok j → Loads S schema3 j) : ∀ x ∈ l, Loads S schema3 x := by
  induction es generalizing l with
  | nil => rw [toSchemaList] at h; cases h; intro y hy; cases hy
  | cons y es ih =>
    rw [toSchemaList] at h
    obtain ⟨j, a1, h⟩ := bindOk h
    obtain ⟨l', a2, h⟩ := bindOk h
    cases h
    intro z hz
    rcases List.mem_cons.1 hz with rfl | hz
    · exact hf y _ (by simp) a1
    · exact ih a2 (fun o j ho => hf o j (by simp [ho])) z hz

theorem toSchema_loads : ∀ (n : Nat) (fi : Bool) (o : Obj) (r : Json), sizeOf o ≤ n → P o → toSchema fi o = .ok r →
    (∃ d, r = .obj d) ∧ Loads S schema3 r := by
  intro n
  induction n with
  | zero => intro fi o r hn; cases o <;> simp at hn <;> omega
  | succ n ih =>
    intro fi o r hn ho h
    rw [toSchema] at h
    obtain ⟨ref, h1, h⟩ := bindOk h
    obtain ⟨ty, h2, h⟩ := bindOk h
    by_cases ht : ref.truthy = true
    · rw [if_pos ht] at h
      cases h
      exact ⟨⟨_, rfl⟩, loads_ref (fld_wf ho h1) (hP.ref ho h1 ht)⟩
    rw [if_neg ht] at h
    by_cases hf : ty = .str (s% "file")
    · rw [if_pos hf] at h
      cases h
      refine ⟨⟨_, rfl⟩, loads_orRef ?_⟩
      exact loads_field (r := [(s% "type", .str (s% "string"))]) (k := s% "format")
        (loads_field (r := []) (k := s% "type") (loads_empty (by decide +kernel)) rfl (by decide +kernel)) rfl (by decide +kernel)
    rw [if_neg hf] at h
    obtain ⟨r1, g1, h⟩ := bindOk h
    obtain ⟨r2, g2, h⟩ := bindOk h
    obtain ⟨r3, g3, h⟩ := bindOk h
    obtain ⟨r4, g4, h⟩ := bindOk h
    obtain ⟨r5, g5, h⟩ := bindOk h
    obtain ⟨r6, g6, h⟩ := bindOk h
    obtain ⟨r7, g7, h⟩ := bindOk h
    cases h
    refine ⟨⟨_, rfl⟩, loads_orRef (putRest_loads ho ?_ g7)⟩
    have l2 := putRequired_loads ho (genFields_loads ho (loads_empty (by decide +kernel)) (by decide +kernel) g1) g2
    -- allOf
    have l3 : Loads S (.cls (s% "v3_0_0.Schema")) (.obj r3) := by
      rw [putAllOf_eq] at g3
      cases hk : kidT o (s% "allOf") with
      | none => simp only [hk] at g3; cases g3; exact l2
      | some x =>
        simp only [hk] at g3
        obtain ⟨l, h3, g3⟩ := bindOk g3
        cases g3
        refine loads_child (b := .listOf schema3) l2 (loads_list ?_) (by decide +kernel)
        have hsz := elems_size hk
        have hx := source_kidT ho hk
        exact toSchemaList_loads h3 (fun y j hy hj => by
          have h5 := List.sizeOf_lt_of_mem hy
          exact (ih false y j (by omega) (source_elem hx hy) hj).2)
    -- items
    have l4 : Loads S (.cls (s% "v3_0_0.Schema")) (.obj r4) := by
      rw [putItems_eq] at g4
      cases hk : kidT o (s% "items") with
      | none => simp only [hk] at g4; cases g4; exact l3
      | some x =>
        simp only [hk] at g4
        have hsz := kidT_size hk
        cases fi with
        | true =>
          obtain ⟨j, h3, g4⟩ := bindOk g4
          cases g4
          exact loads_child (b := schema3) l3 (fromItems_loads _ x j (Nat.le_refl _) (source_kidT ho hk) h3).2 (by decide +kernel)
        | false =>
          obtain ⟨j, h3, g4⟩ := bindOk g4
          cases g4
          exact loads_child (b := schema3) l3 (ih false x j (by omega) (source_kidT ho hk) h3).2 (by decide +kernel)
    -- properties
    have l5 : Loads S (.cls (s% "v3_0_0.Schema")) (.obj r5) := by
      rw [putProperties_eq] at g5
      cases hk : kidT o (s% "properties") with
      | none => simp only [hk] at g5; cases g5; exact l4
      | some x =>
        simp only [hk] at g5
        have hsz := entries_size hk
        have hx := source_kidT ho hk
        obtain ⟨m, h3, g5⟩ := bindOk g5
        cases g5
        rw [toSchemaProps_eq] at h3
        refine loads_child (b := .mapOf schema3) l4 (setAll_loads h3 loads_map_empty (fun k y j hy hj => ?_)) (by decide +kernel)
        have h5 := List.sizeOf_lt_of_mem hy
        simp only [Prod.mk.sizeOf_spec] at h5
        exact (ih fi y j (by omega) (source_entry hx hy) hj).2
    -- additionalProperties
    rw [putAdditional_eq] at g6
    cases hk : kid o (s% "additionalProperties") with
    | none => simp only [hk] at g6; cases g6; exact l5
    | some x =>
      simp only [hk] at g6
      split at g6
      · rename_i b _
        cases g6
        cases b with
        | true => exact l5
        | false => exact loads_child (b := .ifNotBool schema3) l5 ⟨.bool, rfl⟩ (by decide +kernel)
      · rename_i ap hne e
        cases e
        have hsz := kid_size hk
        obtain ⟨j, h3, g6⟩ := bindOk g6
        cases g6
        obtain ⟨⟨dj, rfl⟩, hj⟩ := ih false _ j (by omega) (source_kid ho hk) h3
        exact loads_child (b := .ifNotBool schema3) l5 ⟨.notBool (fun _ h => by cases h) hj.1, hj.2⟩ (by decide +kernel)
      · rename_i e; cases e

theorem toSchema?_loads {fi : Bool} {o : Option Obj} {r : Json} (ho : ∀ x, o = some x → P x)
    (h : toSchema? fi o = .ok r) : (∃ d, r = .obj d) ∧ Loads S schema3 r := by
  cases o with
  | none => cases h; exact ⟨⟨_, rfl⟩, loads_orRef (loads_empty (by decide +kernel))⟩
  | some x => exact toSchema_loads _ fi x r (Nat.le_refl _) (ho x rfl) h

/-! ### headers and parameters -/

theorem putStyle_loads {c : Str} {ret : Dict Json} (se : Option Str × Option Bool) (h : Loads S (.cls c) (.obj ret))
    (h1 : Dict.get? (pkg c).children (s% "style") = none) (h2 : Dict.get? (pkg c).children (s% "explode") = none) :
    Loads S (.cls c) (.obj (putStyle se ret)) := by
  obtain ⟨s, e⟩ := se
  unfold putStyle
  cases s <;> cases e
  · exact h
  · exact loads_field h rfl h2
  · exact loads_field h rfl h1
  · exact loads_field (loads_field h rfl h1) rfl h2

theorem putCollection_loads {c : Str} {o : Obj} {in_ : Json} {ret r : Dict Json} (h : Loads S (.cls c) (.obj ret))
    (h1 : Dict.get? (pkg c).children (s% "style") = none) (h2 : Dict.get? (pkg c).children (s% "explode") = none)
    (hr : putCollection o in_ ret = .ok r) : Loads S (.cls c) (.obj r) := by
  unfold putCollection at hr
  obtain ⟨b, _, hr⟩ := bindOk hr
  cases b with
  | false => cases hr; exact h
  | true =>
    rw [if_pos rfl] at hr
    obtain ⟨_, _, hr⟩ := bindOk hr
    obtain ⟨_, _, hr⟩ := bindOk hr
    obtain ⟨_, _, hr⟩ := bindOk hr
    cases hr
    exact putStyle_loads _ h h1 h2

theorem putSimpleItems_loads {o : Obj} {ret r : Dict Json} (ho : P o)
    (h : Loads S (.cls (s% "v3_0_0.Schema")) (.obj ret)) (hr : putSimpleItems o ret = .ok r) :
    Loads S (.cls (s% "v3_0_0.Schema")) (.obj r) := by
  unfold putSimpleItems at hr
  cases hk : kidT o (s% "items") with
  | none => simp only [hk] at hr; cases hr; exact h
  | some x =>
    simp only [hk] at hr
    obtain ⟨j, h1, hr⟩ := bindOk hr
    cases hr
    exact loads_child h (fromItems_loads _ x j (Nat.le_refl _) (source_kidT ho hk) h1).2 (by decide +kernel)

theorem toHeader_loads {o : Obj} {r : Json} (ho : P o) (h : toHeader o = .ok r) :
    Loads S (.ifNotRef (s% "v3_0_0.Reference") (.cls (s% "v3_0_0.Header"))) r := by
  unfold toHeader at h
  obtain ⟨r1, h1, h⟩ := bindOk h
  obtain ⟨s1, h2, h⟩ := bindOk h
  obtain ⟨s2, h3, h⟩ := bindOk h
  obtain ⟨r2, h4, h⟩ := bindOk h
  cases h
  have ls := putSimpleItems_loads ho (genFields_loads ho (loads_empty (by decide +kernel)) (by decide +kernel) h2) h3
  have lr := genFields_loads (c := s% "v3_0_0.Header") ho (loads_empty (by decide +kernel)) (by decide +kernel) h1
  exact loads_orRef (putCollection_loads (loads_child lr (loads_orRef ls) (by decide +kernel)) (by decide +kernel)
    (by decide +kernel) h4)

theorem toParameter_loads {o : Obj} {r : Json} (ho : P o) (h : toParameter o = .ok r) :
    Loads S (.ifNotRef (s% "v3_0_0.Reference") (.cls (s% "v3_0_0.Parameter"))) r := by
  unfold toParameter at h
  obtain ⟨r1, h1, h⟩ := bindOk h
  obtain ⟨i, h2, h⟩ := bindOk h
  obtain ⟨s1, h3, h⟩ := bindOk h
  obtain ⟨nm, h4, h⟩ := bindOk h
  obtain ⟨s2, h5, h⟩ := bindOk h
  obtain ⟨r2, h6, h⟩ := bindOk h
  cases h
  have ls := putSimpleItems_loads ho (genFields_loads ho (loads_empty (by decide +kernel)) (by decide +kernel) h3) h5
  have lr := genFields_loads (c := s% "v3_0_0.Parameter") ho (loads_empty (by decide +kernel)) (by decide +kernel) h1
  refine loads_orRef (putCollection_loads ?_ (by decide +kernel) (by decide +kernel) h6)
  refine loads_field (loads_field ?_ (fld_wf ho h4) (by decide +kernel)) (fld_wf ho h2) (by decide +kernel)
  split
  · exact lr
  · exact loads_child lr (loads_orRef ls) (by decide +kernel)

theorem plainParameter_loads {o : Obj} {r : Json} (ho : P o) (h : plainParameter o = .ok r) :
    Loads S (.ifNotRef (s% "v3_0_0.Reference") (.cls (s% "v3_0_0.Parameter"))) r := by
  unfold plainParameter at h
  obtain ⟨ref, h1, h⟩ := bindOk h
  by_cases ht : ref.truthy = true
  · rw [if_pos ht] at h; cases h; exact loads_ref (fld_wf ho h1) (hP.ref ho h1 ht)
  · rw [if_neg ht] at h; exact toParameter_loads ho h

end Pyopenapi
