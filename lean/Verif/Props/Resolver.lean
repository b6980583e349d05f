import Verif.Spec.Resolver
import Verif.Props.Resolve
import Verif.Props.Url2

/-!
# C43, C44: the resolver of raw documents
-/

namespace Pyopenapi
open Spec Resolver

variable {W : Type}

/-! ### C43 -/

/-- What holds of cache and log at any time. -/
structure LogInv (s : State (W × List (Str × R Json))) : Prop where
  fetched : ∀ u d, d.truthy = true → ((u, .ok d) ∈ s.world.2 ↔ Dict.get? s.cache u = some (some d))
  once : ∀ (i j : Nat) u d r, i < j → s.world.2[i]? = some (u, .ok d) → d.truthy = true → s.world.2[j]? ≠ some (u, r)
  truthy : ∀ u d, Dict.get? s.cache u = some (some d) → d.truthy = true

theorem logInv_step {split : Str → R (Str × Str)} {load : W → Str → R Json × W} {s : State (W × List (Str × R Json))}
    (h : LogInv s) (jref : Str) : LogInv (resolve split (recording load) s jref).2 := by
  unfold resolve
  split
  · exact h
  · rename_i url jp hs
    split
    · exact h
    · rename_i hc
      have hnot : ∀ d, (url, (.ok d : R Json)) ∈ s.world.2 → d.truthy = false := by
        intro d hd
        cases ht : d.truthy with
        | false => rfl
        | true =>
          have := (h.fetched url d ht).1 hd
          unfold cached at hc
          rw [this] at hc
          simp [ht] at hc
      have honce : ∀ (r' : R Json) (i j : Nat) u d r, i < j → (s.world.2 ++ [(url, r')])[i]? = some (u, .ok d) →
          d.truthy = true → (s.world.2 ++ [(url, r')])[j]? ≠ some (u, r) := by
        intro r' i j u d r hij hi ht hj
        have hjl : j < s.world.2.length + 1 := by
          have := (List.getElem?_eq_some_iff.1 hj).1
          simpa using this
        rw [List.getElem?_append_left (by omega)] at hi
        by_cases hjl' : j < s.world.2.length
        · rw [List.getElem?_append_left hjl'] at hj
          exact h.once i j u d r hij hi ht hj
        · have : j = s.world.2.length := by omega
          subst this
          simp at hj
          have := hnot d (by rw [hj.1]; exact List.mem_of_getElem? hi)
          rw [ht] at this; cases this
      cases hl : load s.world.1 url with
      | mk r w =>
      simp only [recording, hl]
      cases r with
      | error e =>
        refine ⟨fun u d ht => ?_, honce _, h.truthy⟩
        simp only [List.mem_append, List.mem_singleton, Prod.mk.injEq, reduceCtorEq, and_false, or_false]
        exact h.fetched u d ht
      | ok obj =>
        dsimp only
        have key : LogInv (⟨Dict.set s.cache url (if obj.truthy then some obj else none),
            (w, s.world.2 ++ [(url, .ok obj)])⟩ : State (W × List (Str × R Json))) := by
          refine ⟨fun u d ht => ?_, honce _, fun u d hg => ?_⟩
          · simp only [List.mem_append, List.mem_singleton, Prod.mk.injEq, Except.ok.injEq]
            by_cases hu : u = url
            · subst hu
              rw [Dict.get?_set_self]
              constructor
              · rintro (hd | ⟨_, rfl⟩)
                · rw [hnot d hd] at ht; cases ht
                · rw [ht]; rfl
              · intro hg
                right
                split at hg
                · simp at hg; exact ⟨rfl, hg.symm⟩
                · simp at hg
            · rw [Dict.get?_set_ne _ _ (Ne.symm hu), ← h.fetched u d ht]
              simp [hu]
          · by_cases hu : u = url
            · subst hu
              rw [Dict.get?_set_self] at hg
              split at hg
              · rename_i hh; simp at hg; rw [← hg]; exact hh
              · simp at hg
            · rw [Dict.get?_set_ne _ _ (Ne.symm hu)] at hg
              exact h.truthy u d hg
        cases ht : obj.truthy <;> simp only [ht] at key ⊢ <;> exact key

theorem logInv_history (split : Str → R (Str × Str)) (h : List (Str × (W → Str → R Json × W))) :
    ∀ s : State (W × List (Str × R Json)), LogInv s → LogInv (history split h s) := by
  induction h with
  | nil => exact fun s hs => hs
  | cons x h ih => exact fun s hs => ih _ (logInv_step hs x.1)

theorem logInv_init (w : W) : LogInv (⟨[], (w, [])⟩ : State (W × List (Str × R Json))) :=
  ⟨fun _ _ _ => by simp, fun _ _ _ _ _ _ h => by simp at h, fun _ _ h => by simp at h⟩

/-- **C43**: over any sequence of resolve calls, with any loaders in any world, no url is asked for again once
it gave a non-empty document. -/
theorem C43_fetched_once (split : Str → R (Str × Str)) (h : List (Str × (W → Str → R Json × W))) (w : W)
    (i j : Nat) (u : Str) (d : Json) (r : R Json) (hij : i < j)
    (hi : (history split h ⟨[], (w, [])⟩).world.2[i]? = some (u, .ok d)) (hd : d.truthy = true) :
    (history split h ⟨[], (w, [])⟩).world.2[j]? ≠ some (u, r) :=
  (logInv_history split h _ (logInv_init w)).once i j u d r hij hi hd

/-- **C43**: and every later reference into that document is answered from it, whatever the loader would now
give; nothing is loaded. -/
theorem C43_answered_from_cache (split : Str → R (Str × Str)) (h : List (Str × (W → Str → R Json × W))) (w : W)
    (u : Str) (d : Json) (hd : d.truthy = true) (hm : (u, .ok d) ∈ (history split h ⟨[], (w, [])⟩).world.2)
    (load : W × List (Str × R Json) → Str → R Json × (W × List (Str × R Json))) (jref jp : Str)
    (hs : split jref = .ok (u, jp)) :
    resolve split load (history split h ⟨[], (w, [])⟩) jref =
      (walk ((jpSplit jp).drop 1) d, history split h ⟨[], (w, [])⟩) := by
  have inv := logInv_history split h _ (logInv_init w)
  have hc : cached (history split h ⟨[], (w, [])⟩) u = some d := by
    unfold cached
    rw [(inv.fetched u d hd).1 hm]
    simp [hd]
  unfold resolve
  rw [hs]
  simp only [hc]

/-- **C43**: a failure is not kept either: when the loader raises, the next call (with any loader) does what it would have done had there
been no such call, in the world as the loader left it. -/
theorem C43_failure_forgotten (split : Str → R (Str × Str)) (load load' : W → Str → R Json × W) (s : State W) (jref jref' u jp : Str) (e : Err)
    (hs : split jref = .ok (u, jp)) (hc : cached s u = none) (hl : (load s.world u).1 = .error e) :
    (resolve split load s jref).1 = .error e ∧
    resolve split load' (resolve split load s jref).2 jref' = resolve split load' { s with world := (load s.world u).2 } jref' := by
  obtain ⟨r, w1, h1⟩ : ∃ r w1, load s.world u = (r, w1) := ⟨_, _, rfl⟩
  rw [h1] at hl ⊢
  cases hl
  have e1 : resolve split load s jref = (.error e, { s with world := w1 }) := by
    unfold resolve
    rw [hs]
    dsimp only
    rw [hc]
    dsimp only
    rw [h1]
  rw [e1]
  exact ⟨rfl, rfl⟩

example : (resolve (fun j => .ok (j, [])) (fun w _ => (.error .generic, w + 1)) (⟨[], 0⟩ : State Nat) (s% "u")).1 = .error .generic :=
  (C43_failure_forgotten (fun j => .ok (j, [])) (fun w _ => (.error .generic, w + 1)) (fun w _ => (.ok (.int 1), w)) ⟨[], 0⟩ (s% "u") (s% "u") (s% "u") []
    .generic rfl rfl rfl).1

/-- **C43**: an empty document is not kept: the next call asks again. -/
theorem C43_empty_asked_again (split : Str → R (Str × Str)) (load load' : W → Str → R Json × W) (w : W) (jref u jp : Str)
    (d : Json) (hs : split jref = .ok (u, jp)) (hl : (load w u).1 = .ok d) (hd : d.truthy = false) :
    let s := (resolve split (recording load) ⟨[], (w, [])⟩ jref).2
    (resolve split (recording load) ⟨[], (w, [])⟩ jref).1 = .error .generic ∧
    (resolve split (recording load') s jref).2.world.2.length = 2 := by
  obtain ⟨r, w1, h1⟩ : ∃ r w1, load w u = (r, w1) := ⟨_, _, rfl⟩
  rw [h1] at hl
  cases hl
  have e1 : resolve split (recording load) ⟨[], (w, [])⟩ jref =
      (.error .generic, ⟨[(u, none)], (w1, [(u, .ok d)])⟩) := by
    unfold resolve
    rw [hs]
    simp [cached, recording, h1, hd, Dict.set]
  rw [e1]
  refine ⟨rfl, ?_⟩
  obtain ⟨r2, w2, h2⟩ : ∃ r w', load' w1 u = (r, w') := ⟨_, _, rfl⟩
  unfold resolve
  rw [hs]
  simp only [cached, recording, h2, Dict.get?_cons, if_true]
  cases r2 with
  | error e => rfl
  | ok d2 => dsimp only; split <;> rfl

example : (history (fun r => .ok (r, s% "#")) [(s% "a", fun (n : Nat) _ => (.ok (.obj []), n)),
    (s% "a", fun n _ => (.ok (.obj [(s% "x", .null)]), n + 1)), (s% "a", fun n _ => (.ok (.obj []), n + 1))]
    ⟨[], (0, [])⟩).world = (1, [(s% "a", .ok (.obj [])), (s% "a", .ok (.obj [(s% "x", .null)]))]) := by decide +kernel

/-! ### C44 -/

theorem pyIndex_ok {α : Type} {l : List α} {i : Int} {x : α} (h : Obj.pyIndex l i = .ok x) :
    (∃ n : Nat, i = n ∧ l[n]? = some x) ∨ (∃ n : Nat, i = -(n : Int) ∧ 0 < n ∧ n ≤ l.length ∧ l[l.length - n]? = some x) := by
  unfold Obj.pyIndex at h
  dsimp only at h
  by_cases hi : i < 0
  · right
    rw [if_pos hi] at h
    split at h
    · cases h
    · rename_i hk
      split at h
      · rename_i y hy
        cases h
        refine ⟨i.natAbs, by omega, by omega, by omega, ?_⟩
        rw [← hy]
        congr 1
        omega
      · cases h
  · left
    rw [if_neg hi] at h
    split at h
    · cases h
    · split at h
      · rename_i y hy
        cases h
        exact ⟨i.toNat, by omega, hy⟩
      · cases h

theorem pyIndex_end {α : Type} {l : List α} {n : Nat} {x : α} (h0 : 0 < n) (hn : n ≤ l.length)
    (h : l[l.length - n]? = some x) : Obj.pyIndex l (-(n : Int)) = .ok x := by
  unfold Obj.pyIndex
  dsimp only
  have hk : (if -(n : Int) < 0 then -(n : Int) + (l.length : Int) else -(n : Int)) = -(n : Int) + (l.length : Int) :=
    if_pos (by omega)
  rw [hk, if_neg (by omega)]
  have : (-(n : Int) + (l.length : Int)).toNat = l.length - n := by omega
  rw [this, h]

/-- **C44**: following the tokens succeeds exactly when every step is possible, with the value they lead to. -/
theorem C44_walk_iff (ts : List Str) : ∀ (d w : Json), walk ts d = .ok w ↔ Walks d ts w := by
  induction ts with
  | nil =>
    intro d w
    constructor
    · intro h; cases h; exact .here _
    · intro h; cases h; rfl
  | cons t ts ih =>
    intro d w
    constructor
    · intro h
      cases d with
      | arr l =>
        simp only [walk, bind, Except.bind] at h
        cases hi : Obj.pyInt t with
        | error e => rw [hi] at h; cases h
        | ok i =>
          rw [hi] at h
          dsimp only at h
          cases hx : Obj.pyIndex l i with
          | error e => rw [hx] at h; cases h
          | ok x =>
            rw [hx] at h
            rcases pyIndex_ok hx with ⟨n, rfl, hn⟩ | ⟨n, rfl, h0, h1, hn⟩
            · exact .idx (pyInt_iff.1 hi) hn ((ih x w).1 h)
            · exact .fromEnd (pyInt_iff.1 hi) h0 h1 hn ((ih x w).1 h)
      | obj d =>
        simp only [walk, bind, Except.bind, Dict.get!] at h
        cases hx : Dict.get? d t with
        | none => rw [hx] at h; cases h
        | some x => rw [hx] at h; exact .key hx ((ih x w).1 h)
      | _ => cases h
    · intro h
      cases h with
      | key hg h => simp only [walk, bind, Except.bind, Dict.get!, hg]; exact (ih _ _).2 h
      | idx hi hn h => simp only [walk, bind, Except.bind, pyInt_iff.2 hi, pyIndex_nat _ _ _ hn]; exact (ih _ _).2 h
      | fromEnd hi h0 h1 hn h => simp only [walk, bind, Except.bind, pyInt_iff.2 hi, pyIndex_end h0 h1 hn]; exact (ih _ _).2 h

/-- **C44**: in particular, the value the JSON pointer (RFC 6901) leads to. -/
theorem C44_pointer (ts : List Str) (d w : Json) (h : RawAt d ts w) : walk ts d = .ok w := by
  rw [C44_walk_iff]
  induction h with
  | here j => exact .here _
  | key hg _ ih => exact .key hg ih
  | idx hn _ ih => exact .idx (pyInt_iff.1 (pyInt_ofNat _)) hn ih

/-- **C44**: when a step is impossible an exception is raised, never a value. -/
theorem C44_impossible (ts : List Str) (d : Json) (h : ¬ ∃ w, Walks d ts w) : ∃ e, walk ts d = .error e := by
  cases hw : walk ts d with
  | error e => exact ⟨e, rfl⟩
  | ok w => exact absurd ⟨w, (C44_walk_iff ts d w).1 hw⟩ h

/-- The tokens of a JSON pointer, as text after the `#`. -/
def pointerText (ts : List Str) : Str := ts.flatMap (fun t => '/' :: Spec.escape t)

theorem escape_safe {t : Str} (h : ∀ c ∈ t, Url.unsafeChar c = false) : ∀ c ∈ Spec.escape t, Url.unsafeChar c = false := by
  induction t with
  | nil => intro c hc; cases hc
  | cons a t ih =>
    have ih := ih (fun c hc => h c (List.mem_cons_of_mem _ hc))
    intro c hc
    unfold Spec.escape at hc
    split at hc
    · cases hc
    · rename_i r e
      cases e
      simp only [List.mem_cons] at hc
      rcases hc with rfl | rfl | hc
      · decide
      · decide
      · exact ih c hc
    · rename_i r e
      cases e
      simp only [List.mem_cons] at hc
      rcases hc with rfl | rfl | hc
      · decide
      · decide
      · exact ih c hc
    · rename_i e
      cases e
      rcases List.mem_cons.1 hc with rfl | hc
      · exact h _ (List.mem_cons_self ..)
      · exact ih c hc

theorem joinC_pointerText (ts : List Str) : ∀ b, Str.joinC '/' (b :: ts.map jpEncode) = b ++ pointerText ts := by
  induction ts with
  | nil => intro b; simp [Str.joinC, pointerText]
  | cons t ts ih =>
    intro b
    have := ih (jpEncode t)
    rw [List.map_cons, Str.joinC, this, jpEncode_eq_escape]
    rfl

theorem jpSplit_pointerText (ts : List Str) : (jpSplit ('#' :: pointerText ts)).drop 1 = ts := by
  have h := C01_jp_roundtrip_base ts ['#'] (by simp)
  rw [jpCompose_base (by simp), joinC_pointerText] at h
  have e : (['#'] : Str) ++ pointerText ts = '#' :: pointerText ts := rfl
  rw [e] at h
  rw [h]
  rfl

/-- **C44**, from reference to value: for a document url (as in C10) and any tokens, resolving
`url#/token/...` (tokens escaped) gives what the tokens lead to in the document of that url, and raises when
they lead nowhere or the document is empty. -/
theorem C44_resolve (ok : Str → Bool) (p2u ab : Str → R Str) (load : W → Str → R Json × W) (s : State W)
    (url : Str) (u : Url) (ts : List Str) (d : Json) (w' : W)
    (hf : '#' ∉ url) (hw : isWindowsPath url = false) (h : Url.parse ok url = .ok u) (hs : u.scheme ≠ [])
    (hcanon : Url.unparse u = url) (hts : ∀ t ∈ ts, ∀ c ∈ t, Url.unsafeChar c = false)
    (hc : cached s url = none) (hl : load s.world url = (.ok d, w')) (hd : d.truthy = true) :
    (resolve (jrSplit ok p2u ab) load s (url ++ '#' :: pointerText ts)).1 = walk ts d ∧
    (resolve (jrSplit ok p2u ab) load s (url ++ '#' :: pointerText ts)).2.world = w' := by
  have hp : ∀ c ∈ pointerText ts, Url.unsafeChar c = false := by
    intro c hc
    obtain ⟨t, ht, hc⟩ := List.mem_flatMap.1 hc
    rcases List.mem_cons.1 hc with rfl | hc
    · decide
    · exact escape_safe (hts t ht) c hc
  unfold resolve
  rw [(C10_split ok p2u ab url (pointerText ts) u hf hw h hs hcanon hp).1]
  simp only [hc, hl, hd, if_true, jpSplit_pointerText, and_self]

/-- **C44**: and the same when the document has been loaded before. -/
theorem C44_resolve_cached (ok : Str → Bool) (p2u ab : Str → R Str) (load : W → Str → R Json × W) (s : State W)
    (url : Str) (u : Url) (ts : List Str) (d : Json)
    (hf : '#' ∉ url) (hw : isWindowsPath url = false) (h : Url.parse ok url = .ok u) (hs : u.scheme ≠ [])
    (hcanon : Url.unparse u = url) (hts : ∀ t ∈ ts, ∀ c ∈ t, Url.unsafeChar c = false)
    (hc : Dict.get? s.cache url = some (some d)) (hd : d.truthy = true) :
    resolve (jrSplit ok p2u ab) load s (url ++ '#' :: pointerText ts) = (walk ts d, s) := by
  have hp : ∀ c ∈ pointerText ts, Url.unsafeChar c = false := by
    intro c hc
    obtain ⟨t, ht, hc⟩ := List.mem_flatMap.1 hc
    rcases List.mem_cons.1 hc with rfl | hc
    · decide
    · exact escape_safe (hts t ht) c hc
  have hc' : cached s url = some d := by rw [cached, hc]; simp [hd]
  unfold resolve
  rw [(C10_split ok p2u ab url (pointerText ts) u hf hw h hs hcanon hp).1]
  simp only [hc', jpSplit_pointerText]

/-- **C44**: an empty document, or one that cannot be loaded, raises whatever the pointer says. -/
theorem C44_empty (ok : Str → Bool) (p2u ab : Str → R Str) (load : W → Str → R Json × W) (s : State W)
    (url : Str) (u : Url) (ts : List Str)
    (hf : '#' ∉ url) (hw : isWindowsPath url = false) (h : Url.parse ok url = .ok u) (hs : u.scheme ≠ [])
    (hcanon : Url.unparse u = url) (hts : ∀ t ∈ ts, ∀ c ∈ t, Url.unsafeChar c = false)
    (hc : ∀ d, Dict.get? s.cache url = some (some d) → d.truthy = false)
    (hl : ∀ d, (load s.world url).1 = .ok d → d.truthy = false) :
    ∃ e, (resolve (jrSplit ok p2u ab) load s (url ++ '#' :: pointerText ts)).1 = .error e := by
  have hp : ∀ c ∈ pointerText ts, Url.unsafeChar c = false := by
    intro c hc
    obtain ⟨t, ht, hc⟩ := List.mem_flatMap.1 hc
    rcases List.mem_cons.1 hc with rfl | hc
    · decide
    · exact escape_safe (hts t ht) c hc
  have hc' : cached s url = none := by
    unfold cached
    split
    · rename_i j hj; simp [hc j hj]
    · rfl
  unfold resolve
  rw [(C10_split ok p2u ab url (pointerText ts) u hf hw h hs hcanon hp).1]
  simp only [hc']
  obtain ⟨r, w1, h1⟩ : ∃ r w1, load s.world url = (r, w1) := ⟨_, _, rfl⟩
  rw [h1] at hl ⊢
  cases r with
  | error e => exact ⟨e, rfl⟩
  | ok d => dsimp only; rw [hl d rfl]; exact ⟨_, rfl⟩

/-- The same reference, resolved again from what has been kept. -/
example : (resolve (jrSplit (fun _ => true) .ok .ok)
    (fun (n : Nat) _ => (.error .generic, n)) ⟨[(s% "file:///d/s.json", some (.obj [(s% "a", .bool true)]))], 0⟩
    (s% "file:///d/s.json" ++ '#' :: pointerText [s% "a"])).1 = .ok (.bool true) := by
  rw [C44_resolve_cached (fun _ => true) .ok .ok _ _ (s% "file:///d/s.json")
    ⟨s% "file", [], s% "/d/s.json", [], [], []⟩ [s% "a"] (.obj [(s% "a", .bool true)]) (by decide) (by decide) (by decide +kernel)
    (by decide) (by decide +kernel) (by decide) rfl rfl]
  rfl

/-- An empty document raises. -/
example : ∃ e, (resolve (jrSplit (fun _ => true) .ok .ok) (fun (n : Nat) _ => (.ok (.obj []), n)) ⟨[], 0⟩
    (s% "file:///d/s.json" ++ '#' :: pointerText [])).1 = .error e :=
  C44_empty (fun _ => true) .ok .ok _ _ (s% "file:///d/s.json")
    ⟨s% "file", [], s% "/d/s.json", [], [], []⟩ [] (by decide) (by decide) (by decide +kernel)
    (by decide) (by decide +kernel) (by simp) (by intro d h; cases h) (by intro d h; cases h; rfl)

/-- The hypotheses of `C44_resolve` are met: `file:///d/s.json#/paths/~1a~0b/1`. -/
example : (resolve (jrSplit (fun _ => true) .ok .ok)
    (fun (n : Nat) _ => (.ok (.obj [(s% "paths", .obj [(s% "/a~b", .arr [.null, .bool true])])]), n + 1)) ⟨[], 0⟩
    (s% "file:///d/s.json" ++ '#' :: pointerText [s% "paths", s% "/a~b", s% "1"])).1 = .ok (.bool true) := by
  rw [(C44_resolve (fun _ => true) .ok .ok _ ⟨[], 0⟩ (s% "file:///d/s.json")
    ⟨s% "file", [], s% "/d/s.json", [], [], []⟩ [s% "paths", s% "/a~b", s% "1"]
    (.obj [(s% "paths", .obj [(s% "/a~b", .arr [.null, .bool true])])]) 1
    (by decide) (by decide +kernel) (by decide +kernel) (by decide) (by decide +kernel) (by decide +kernel) rfl rfl rfl).1]
  decide +kernel

/-- Where the code goes beyond JSON pointers: these tokens are taken as indexes as well. -/
example : [s% "-1", s% "+1", s% "01"].map (fun t => walk [t] (.arr [.null, .bool true])) =
    List.replicate 3 (.ok (.bool true)) := by decide +kernel

end Pyopenapi
