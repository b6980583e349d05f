import Verif.Spec.Getter
import Verif.Props.Url2

/-!
# C83, C84, C85: where documents come from
-/

namespace Pyopenapi.Getter
open _root_.Pyopenapi.Getter.Spec Url

/-! ### C83 -/

/-- The last segment of the path is a name. -/
def Named (p : Str) : Prop := ∃ c ∈ Str.afterLast '/' p, c ≠ '.'

theorem named_ne {p : Str} (h : Named p) : p ≠ [] := by
  rintro rfl
  obtain ⟨c, hc, _⟩ := h
  cases hc

theorem join_name {p n : Str} (hp : p ≠ []) (hn : n ∈ knownNames) : pathJoin p n = inFolder p n := by
  have h1 : Str.startsWith n ['/'] = false := by revert hn; revert n; decide
  unfold pathJoin inFolder
  rw [if_neg (by rw [h1]; simp)]
  simp only [hp, false_or]

theorem after_snoc {t stem : Str} (h : '/' ∉ stem) : Str.afterLast '/' (t ++ stem) = Str.afterLast '/' t ++ stem := by
  obtain ⟨h1, h2, h3⟩ := upto_after '/' t
  have := (after_unique (c := '/') (a := Str.uptoLast '/' t) (b := Str.afterLast '/' t ++ stem)
    (by rw [List.mem_append]; rintro (h' | h'); exact h2 h'; exact h h') h3).2
  rwa [← List.append_assoc, h1] at this

theorem ends_ext {t n : Str} (hn : n ∈ knownNames) : splitextExt (t ++ n) ∈ docExts := by
  have h : ∃ stem ext, n = stem ++ ext ∧ '/' ∉ stem ∧ (∃ c ∈ stem, c ≠ '.') ∧ ext ∈ docExts := by
    simp only [knownNames, List.mem_cons, List.not_mem_nil, or_false] at hn
    rcases hn with rfl | rfl | rfl | rfl
    · exact ⟨s% "resource_list", s% ".json", rfl, by decide, ⟨'r', by decide, by decide⟩, by decide⟩
    · exact ⟨s% "swagger", s% ".json", rfl, by decide, ⟨'s', by decide, by decide⟩, by decide⟩
    · exact ⟨s% "swagger", s% ".yaml", rfl, by decide, ⟨'s', by decide, by decide⟩, by decide⟩
    · exact ⟨s% "swagger", s% ".yml", rfl, by decide, ⟨'s', by decide, by decide⟩, by decide⟩
  obtain ⟨stem, ext, rfl, h1, ⟨c, h2, h3⟩, h4⟩ := h
  rw [← List.append_assoc, splitextExt_long h4]
  · exact h4
  · rw [after_snoc h1]
    refine ⟨fun e => ?_, fun h => h3 (h c (by simp [h2]))⟩
    simp only [List.append_eq_nil_iff] at e
    rw [e.2] at h2; cases h2

theorem folder_ext {p n : Str} (hn : n ∈ knownNames) : splitextExt (inFolder p n) ∈ docExts := by
  unfold inFolder
  split
  · exact ends_ext hn
  · rw [show p ++ '/' :: n = (p ++ ['/']) ++ n by simp]; exact ends_ext hn

theorem added_ext {p e : Str} (hp : Named p) (he : e ∈ docExts) : splitextExt (p ++ e) = e := by
  obtain ⟨c, h1, h2⟩ := hp
  exact splitextExt_long he ⟨(fun h => by rw [h] at h1; cases h1), fun h => h2 (h c h1)⟩

theorem patch_same {b f : Str} (hb : splitextExt b ∉ docExts) (hf : splitextExt f ∈ docExts) : patchPath b f = f :=
  (C13_path_decides b f hb).1 hf

theorem span_loop (p : Char → Bool) : ∀ l m : List Char, List.span.loop p l m = (m.reverse ++ l.takeWhile p, l.dropWhile p)
  | [], m => by simp [List.span.loop]
  | a :: l, m => by cases hp : p a <;> simp [hp, List.span.loop, span_loop p l]

theorem span_eq (p : Char → Bool) (l : List Char) : l.span p = (l.takeWhile p, l.dropWhile p) := by
  rw [List.span, span_loop]; rfl

theorem upper_iff (c : Char) : c.isUpper = true ↔ 'A' ≤ c ∧ c ≤ 'Z' := by
  simp only [Char.isUpper, Char.le_def, ge_iff_le, Bool.and_eq_true, decide_eq_true_eq]

theorem drivePath_iff {p : Str} : drivePath p = true ↔ ∃ q, Drive p q := by
  constructor
  · intro h
    unfold drivePath at h
    split at h
    · rename_i s
      split at h
      · rename_i c l r hs
        refine ⟨s, rfl, c :: l, r, ?_, by simp, fun x hx => ?_⟩
        · have := List.takeWhile_append_dropWhile (p := Char.isUpper) (l := s)
          rw [span_eq, Prod.mk.injEq] at hs
          rw [hs.1, hs.2] at this
          exact this.symm
        · rw [span_eq, Prod.mk.injEq] at hs
          rw [← hs.1] at hx
          exact (upper_iff x).1 (List.all_eq_true.1 List.all_takeWhile x hx)
      · cases h
    · cases h
  · rintro ⟨q, rfl, l, r, rfl, hl, hu⟩
    have h1 : ∀ x ∈ l, Char.isUpper x = true := fun x hx => (upper_iff x).2 (hu x hx)
    show (match List.span Char.isUpper (l ++ ':' :: r) with
      | (_ :: _, ':' :: _) => true
      | _ => false) = true
    rw [span_eq, List.takeWhile_append_of_pos h1, List.dropWhile_append_of_pos h1]
    cases l with
    | nil => exact absurd rfl hl
    | cons c l => simp [show Char.isUpper ':' = false by decide]

theorem noDrive_plain {p : Str} (h : drivePath p = false) : ¬ ∃ q, Drive p q := by
  rw [← drivePath_iff, h]
  simp

theorem plain_path {out : Outside} {p : Str} (h : Plain p) : plainPath out p = .ok p ∧ noDrive out p = .ok p := by
  unfold plainPath noDrive
  rw [h.1, if_neg (fun hd => h.2 (drivePath_iff.1 hd))]
  exact ⟨rfl, rfl⟩

theorem byName_none {isFile : Str → Bool} {p : Str} {ns : List Str} (hp : p ≠ []) (hns : ∀ n ∈ ns, n ∈ knownNames)
    (he : splitextExt p ∉ docExts ∨ ∀ n ∈ ns, Str.endsWith p n = false) (h : ∀ n ∈ ns, isFile (inFolder p n) = false) :
    byName isFile p p ns = none := by
  induction ns with
  | nil => rfl
  | cons n ns ih =>
    have h1 : Str.endsWith p n = false := by
      rcases he with he | he
      · cases h' : Str.endsWith p n with
        | false => rfl
        | true =>
          obtain ⟨t, rfl⟩ := Str.endsWith_iff.1 h'
          exact absurd (ends_ext (hns n (by simp))) he
      · exact he n (by simp)
    rw [byName, h1, join_name hp (hns n (by simp)), h n (by simp)]
    exact ih (fun m hm => hns m (by simp [hm])) (he.imp id (fun he m hm => he m (by simp [hm]))) (fun m hm => h m (by simp [hm]))

theorem byName_ends {isFile : Str → Bool} {p : Str} {ns : List Str} (hp : p ≠ []) (hns : ∀ n ∈ ns, n ∈ knownNames)
    (he : ∃ n ∈ ns, Str.endsWith p n = true) (h : ∀ n ∈ ns, isFile (inFolder p n) = false) :
    byName isFile p p ns = some (dirname p, p) := by
  induction ns with
  | nil => obtain ⟨_, hn, _⟩ := he; cases hn
  | cons n ns ih =>
    cases h1 : Str.endsWith p n with
    | true => rw [byName, h1, if_pos rfl]
    | false =>
      rw [byName, h1, join_name hp (hns n (by simp)), h n (by simp)]
      refine ih (fun m hm => hns m (by simp [hm])) ?_ (fun m hm => h m (by simp [hm]))
      obtain ⟨m, hm, h2⟩ := he
      rcases List.mem_cons.1 hm with rfl | hm
      · rw [h1] at h2; cases h2
      · exact ⟨m, hm, h2⟩

theorem byName_first {isFile : Str → Bool} {p n : Str} {pre post : List Str} (hp : p ≠ [])
    (hns : ∀ m ∈ pre ++ n :: post, m ∈ knownNames) (he : splitextExt p ∉ docExts) (h : ∀ m ∈ pre, isFile (inFolder p m) = false)
    (hn : isFile (inFolder p n) = true) : byName isFile p p (pre ++ n :: post) = some (p, inFolder p n) := by
  have hx : ∀ m ∈ pre ++ n :: post, Str.endsWith p m = false := by
    intro m hm
    cases h' : Str.endsWith p m with
    | false => rfl
    | true =>
      obtain ⟨t, rfl⟩ := Str.endsWith_iff.1 h'
      exact absurd (ends_ext (hns m hm)) he
  induction pre with
  | nil => rw [List.nil_append, byName, hx n (by simp), join_name hp (hns n (by simp)), hn]; rfl
  | cons m pre ih =>
    rw [List.cons_append, byName, hx m (by simp), join_name hp (hns m (by simp)), h m (by simp)]
    exact ih (fun m' hm => hns m' (by simp only [List.cons_append, List.mem_cons]; exact .inr hm)) (fun m' hm => h m' (by simp [hm]))
      (fun m' hm => hx m' (by simp only [List.cons_append, List.mem_cons]; exact .inr hm))

/-- What a path must be like for the rules to hold: a plain path to a named file or folder; its extension is that of a
document or does not look like one; the folder it is in has no such extension; and with such an extension it is not
itself a folder with documents in it. -/
structure Usual (isFile : Str → Bool) (p : Str) : Prop where
  plain : Plain p
  named : Named p
  ext : splitextExt p ∉ docExts → ∀ e ∈ [s% "json", s% "yaml", s% "yml"], Str.endsWith (splitextExt p) e = false
  folder : splitextExt (dirname p) ∉ docExts
  file : splitextExt p ∈ docExts → ∀ n ∈ knownNames, isFile (inFolder p n) = false

theorem byExt_file {p : Str} (h : splitextExt p ∈ docExts) :
    byExt p [s% "json", s% "yaml", s% "yml"] = some (dirname p, p) := by
  simp only [docExts, List.mem_cons, List.not_mem_nil, or_false] at h
  unfold byExt byExt byExt byExt
  rcases h with h | h | h <;> rw [h] <;> rfl

theorem byExt_other {p : Str} (h : ∀ e ∈ [s% "json", s% "yaml", s% "yml"], Str.endsWith (splitextExt p) e = false) :
    byExt p [s% "json", s% "yaml", s% "yml"] = none := by
  unfold byExt byExt byExt byExt
  rw [h _ (by simp), h _ (by simp), h _ (by simp)]
  rfl

/-- C83 (for usual paths, and `.yml` is not tried): the file opened is the one the path means. -/
theorem C83_file_partial (out : Outside) (p f : Str) (hu : Usual out.isFile p)
    (h : Means out.isFile [s% ".json", s% ".yaml"] p f) : localOpens out p = .ok f := by
  have hp := named_ne hu.named
  have hk : ∀ n ∈ fileNames, n ∈ knownNames := fun _ h => h
  unfold localOpens localInit
  simp only [(plain_path hu.plain).1, (plain_path (out := out) hu.plain).2, bind, Except.bind]
  rcases h with ⟨pre, n, post, h1, h2, h3, rfl⟩ | ⟨h1, ⟨h2, hfp⟩ | ⟨h2, pre, e, post, h3, h4, h5, rfl⟩⟩
  · have hn : n ∈ knownNames := by rw [h1]; simp
    have he : splitextExt p ∉ docExts := fun he => by rw [hu.file he n hn] at h2; cases h2
    rw [show fileNames = pre ++ n :: post from h1, byName_first hp (by rw [← h1]; exact fun _ h => h) he h3 h2]
    dsimp only
    rw [patch_same he (folder_ext hn)]
  · rw [hfp]
    by_cases hx : ∃ n ∈ fileNames, Str.endsWith p n = true
    · rw [byName_ends hp hk hx h1]
      dsimp only
      rw [patch_same hu.folder h2]
    · rw [byName_none hp hk (.inr (fun n hn => by
          cases h' : Str.endsWith p n with
          | false => rfl
          | true => exact absurd ⟨n, hn, h'⟩ hx)) h1, byExt_file h2]
      dsimp only
      rw [patch_same hu.folder h2]
  · rw [byName_none hp hk (.inl h2) h1, byExt_other (hu.ext h2)]
    dsimp only
    have hex : e = s% ".json" ∨ (e = s% ".yaml" ∧ out.isFile (p ++ s% ".json") = false) := by
      cases pre with
      | nil => simp only [List.nil_append, List.cons.injEq] at h3; exact .inl h3.1.symm
      | cons a pre =>
        simp only [List.cons_append, List.cons.injEq] at h3
        obtain ⟨rfl, h3⟩ := h3
        cases pre with
        | nil => simp only [List.nil_append, List.cons.injEq] at h3; exact .inr ⟨h3.1.symm, h5 _ (by simp)⟩
        | cons b pre =>
          simp only [List.cons_append, List.cons.injEq] at h3
          have := h3.2
          simp at this
    rcases hex with rfl | ⟨rfl, h6⟩
    · have : byTrial out.isFile p p [s% "json", s% "yaml"] = .ok (p, p ++ s% ".json") := by
        unfold byTrial; rw [if_pos h4]
      rw [this]
      dsimp only
      rw [patch_same h2 (by rw [added_ext hu.named (by decide)]; decide)]
    · have : byTrial out.isFile p p [s% "json", s% "yaml"] = .ok (p, p ++ s% ".yaml") := by
        unfold byTrial byTrial; rw [if_neg (by rw [show p ++ '.' :: s% "json" = p ++ s% ".json" from rfl, h6]; simp), if_pos h4]
      rw [this]
      dsimp only
      rw [patch_same h2 (by rw [added_ext hu.named (by decide)]; decide)]

theorem byName_other {isFile : Str → Bool} {b p : Str} {ns : List Str} (hp : p ≠ []) (hns : ∀ n ∈ ns, n ∈ knownNames)
    (h : ∀ n ∈ ns, isFile (inFolder p n) = false) : byName isFile b p ns = none ∨ byName isFile b p ns = some (dirname b, p) := by
  induction ns with
  | nil => exact .inl rfl
  | cons n ns ih =>
    rw [byName]
    split
    · exact .inr rfl
    · rw [join_name hp (hns n (by simp)), h n (by simp)]
      exact ih (fun m hm => hns m (by simp [hm])) (fun m hm => h m (by simp [hm]))

/-- C83: a path with a drive letter, as a url has it, means the file its part after the slash is the path of. -/
theorem C83_drive_partial (out : Outside) (p q f : Str) (hd : Drive p q) (ha : out.abspath q = .ok f) (hn : f ≠ [])
    (he : splitextExt f ∈ docExts) (hfile : ∀ n ∈ knownNames, out.isFile (inFolder f n) = false)
    (h1 : splitextExt (dirname f) ∉ docExts) (h2 : splitextExt (dirname p) ∉ docExts) : localOpens out p = .ok f := by
  have hp : plainPath out p = .ok p := by
    obtain ⟨rfl, _⟩ := hd
    unfold plainPath
    rw [if_neg (by simp [Str.startsWith])]
  have hq : noDrive out p = .ok f := by
    unfold noDrive
    rw [if_pos (drivePath_iff.2 ⟨q, hd⟩)]
    obtain ⟨rfl, _⟩ := hd
    exact ha
  unfold localOpens localInit
  simp only [hp, hq, bind, Except.bind]
  rcases byName_other (b := p) hn (ns := fileNames) (fun _ h => h) hfile with h | h
  · rw [h, byExt_file he]
    dsimp only
    rw [patch_same h1 he]
  · rw [h]
    dsimp only
    rw [patch_same h2 he]

/-- C83: a path that means no document is refused. -/
theorem C83_nothing_partial (out : Outside) (p : Str) (hu : Usual out.isFile p)
    (h : MeansNothing out.isFile [s% ".json", s% ".yaml"] p) : localOpens out p = .error .valueError := by
  have hp := named_ne hu.named
  have hk : ∀ n ∈ fileNames, n ∈ knownNames := fun _ h => h
  obtain ⟨h1, h2, h3⟩ := h
  unfold localOpens localInit
  simp only [(plain_path hu.plain).1, (plain_path (out := out) hu.plain).2, bind, Except.bind]
  rw [byName_none hp hk (.inl h2) h1, byExt_other (hu.ext h2)]
  dsimp only
  have : byTrial out.isFile p p [s% "json", s% "yaml"] = .error .valueError := by
    unfold byTrial byTrial byTrial
    rw [show p ++ '.' :: s% "json" = p ++ s% ".json" from rfl, show p ++ '.' :: s% "yaml" = p ++ s% ".yaml" from rfl,
      h3 _ (by simp), h3 _ (by simp)]
    rfl
  rw [this]

/-- Every path means a document or none: the two theorems above leave nothing out. -/
theorem means_or_nothing (isFile : Str → Bool) (exts : List Str) (p : Str) :
    (∃ f, Means isFile exts p f) ∨ MeansNothing isFile exts p := by
  have first : ∀ (g : Str → Str) (l : List Str), (∃ pre n post, l = pre ++ n :: post ∧ isFile (g n) = true ∧
      ∀ m ∈ pre, isFile (g m) = false) ∨ ∀ n ∈ l, isFile (g n) = false := by
    intro g l
    induction l with
    | nil => exact .inr (by simp)
    | cons a l ih =>
      cases ha : isFile (g a) with
      | true => exact .inl ⟨[], a, l, rfl, ha, by simp⟩
      | false =>
        rcases ih with ⟨pre, n, post, rfl, h1, h2⟩ | ih
        · refine .inl ⟨a :: pre, n, post, rfl, h1, fun m hm => ?_⟩
          rcases List.mem_cons.1 hm with rfl | hm
          · exact ha
          · exact h2 m hm
        · refine .inr (fun n hn => ?_)
          rcases List.mem_cons.1 hn with rfl | hn
          · exact ha
          · exact ih n hn
  rcases first (inFolder p) knownNames with ⟨pre, n, post, h1, h2, h3⟩ | h1
  · exact .inl ⟨_, .inl ⟨pre, n, post, h1, h2, h3, rfl⟩⟩
  · by_cases h2 : splitextExt p ∈ docExts
    · exact .inl ⟨p, .inr ⟨h1, .inl ⟨h2, rfl⟩⟩⟩
    · rcases first (p ++ ·) exts with ⟨pre, n, post, h3, h4, h5⟩ | h3
      · exact .inl ⟨_, .inr ⟨h1, .inr ⟨h2, pre, n, post, h3, h4, h5, rfl⟩⟩⟩
      · exact .inr ⟨h1, h2, h3⟩

/-- C83 is false for `.yml`: the getter loads `x.yml` when asked for it, but does not look for it when asked for `x`. -/
theorem C83_yml_violation (out : Outside) (p : Str) (hu : Usual out.isFile p) (hx : splitextExt p ∉ docExts)
    (hn : ∀ n ∈ knownNames, out.isFile (inFolder p n) = false) (h1 : out.isFile (p ++ s% ".json") = false)
    (h2 : out.isFile (p ++ s% ".yaml") = false) (h3 : out.isFile (p ++ s% ".yml") = true) :
    Means out.isFile docExts p (p ++ s% ".yml") ∧ localOpens out p = .error .valueError := by
  refine ⟨.inr ⟨hn, .inr ⟨hx, [s% ".json", s% ".yaml"], s% ".yml", [], rfl, h3, fun m hm => ?_, rfl⟩⟩,
    C83_nothing_partial out p hu ⟨hn, hx, fun e he => ?_⟩⟩
  · simp only [List.mem_cons, List.not_mem_nil, or_false] at hm
    rcases hm with rfl | rfl <;> assumption
  · simp only [List.mem_cons, List.not_mem_nil, or_false] at he
    rcases he with rfl | rfl <;> assumption

/-- A file system with these files. -/
def disk (files : List Str) : Outside :=
  ⟨fun _ => true, fun p => decide (p ∈ files), fun p => if p ∈ files then .ok p else .error .generic, .ok,
    fun _ => .ok .null, fun _ => .ok .null⟩

/-- C83 is false for a file in a folder whose name ends like that of a document: another file is opened, which does not
exist. -/
theorem C83_folder_violation : Means (disk [s% "/d/v1.json/api.yaml"]).isFile [s% ".json", s% ".yaml"] (s% "/d/v1.json/api.yaml")
      (s% "/d/v1.json/api.yaml") ∧
    localOpens (disk [s% "/d/v1.json/api.yaml"]) (s% "/d/v1.json/api.yaml") = .ok (s% "/d/v1.json/api.yaml.json") := by
  refine ⟨.inr ⟨by decide +kernel, .inl ⟨by decide +kernel, rfl⟩⟩, by decide +kernel⟩

/-- C83 is false for an extension that merely ends like one of a document. -/
theorem C83_extension_violation : MeansNothing (disk [s% "/d/map.geojson"]).isFile [s% ".json", s% ".yaml"] (s% "/d/map.geojson") ∧
    localOpens (disk [s% "/d/map.geojson"]) (s% "/d/map.geojson") = .ok (s% "/d/map.geojson.json") := by
  refine ⟨⟨by decide +kernel, by decide +kernel, by decide +kernel⟩, by decide +kernel⟩

/-- C83 of a path with a drive letter. -/
example : localOpens (disk [s% "C:/d/a.json"]) (s% "/C:/d/a.json") = .ok (s% "C:/d/a.json") :=
  C83_drive_partial _ _ (s% "C:/d/a.json") _ ⟨rfl, s% "C", s% "/d/a.json", rfl, by decide, by decide⟩ (by decide +kernel) (by decide) (by decide +kernel)
    (by decide +kernel) (by decide +kernel) (by decide +kernel)

/-- C83 of a folder, a file and a stem. -/
example : localOpens (disk [s% "/d/swagger.yaml", s% "/d/swagger.yml"]) (s% "/d") = .ok (s% "/d/swagger.yaml") :=
  C83_file_partial _ _ _ ⟨⟨by decide +kernel, noDrive_plain (by decide +kernel)⟩, ⟨'d', by decide +kernel, by decide⟩, by decide +kernel,
    by decide +kernel, by decide +kernel⟩ (.inl ⟨[s% "resource_list.json", s% "swagger.json"], s% "swagger.yaml", [s% "swagger.yml"], rfl,
      by decide +kernel, by decide +kernel, by decide +kernel⟩)
example : localOpens (disk [s% "/d/pet.yml"]) (s% "/d/pet.yml") = .ok (s% "/d/pet.yml") :=
  C83_file_partial _ _ _ ⟨⟨by decide +kernel, noDrive_plain (by decide +kernel)⟩, ⟨'p', by decide +kernel, by decide⟩, by decide +kernel,
    by decide +kernel, by decide +kernel⟩ (.inr ⟨by decide +kernel, .inl ⟨by decide +kernel, rfl⟩⟩)
example : localOpens (disk [s% "/d/pet.yaml"]) (s% "/d/pet") = .ok (s% "/d/pet.yaml") :=
  C83_file_partial _ _ _ ⟨⟨by decide +kernel, noDrive_plain (by decide +kernel)⟩, ⟨'p', by decide +kernel, by decide⟩, by decide +kernel,
    by decide +kernel, by decide +kernel⟩ (.inr ⟨by decide +kernel, .inr ⟨by decide +kernel, [s% ".json"], s% ".yaml", [], rfl,
      by decide +kernel, by decide +kernel, rfl⟩⟩)
example : localOpens (disk [s% "/d/pet.yml"]) (s% "/d/pet") = .error .valueError :=
  (C83_yml_violation _ _ ⟨⟨by decide +kernel, noDrive_plain (by decide +kernel)⟩, ⟨'p', by decide +kernel, by decide⟩, by decide +kernel,
    by decide +kernel, by decide +kernel⟩ (by decide +kernel) (by decide +kernel) (by decide +kernel) (by decide +kernel)
    (by decide +kernel)).2

/-! ### C84 documents given as dictionaries -/

section DictGetter
open Resolver

variable {out : Outside} {split : Str → R (Str × Str)} {docs : Dict (Dict Json)}

/-- How a resolver whose getter is a `DictGetter` loads. -/
def dictLoad (out : Outside) (docs : Dict (Dict Json)) (us : List Str) (url : Str) : R Json × List Str :=
  (Source.object (dictNext docs)).get out url us

theorem dictLoad_cons (u : Str) (us : List Str) (url : Str) :
    dictLoad out docs (u :: us) url = (.ok (.obj ((Dict.get? docs u).getD [])), us) := rfl

/-- C84: when the urls are listed in the order in which the documents are first asked for, every reference is answered
from the dictionary of its own document, however often and in whatever order they are asked for again. -/
theorem C84_in_order (refs : List (Str × Str × Str)) (urls rest : List Str) (seen : List Str) (cache : Dict (Option Json))
    (hs : ∀ r ∈ refs, split r.1 = .ok (r.2.1, r.2.2))
    (hd : ∀ r ∈ refs, ∃ d, Dict.get? docs r.2.1 = some d ∧ d ≠ [])
    (hseen : ∀ u, u ∈ seen ↔ ∃ d, Dict.get? docs u = some d ∧ d ≠ [] ∧ Dict.get? cache u = some (some (.obj d)))
    (hnew : ∀ u, u ∉ seen → Dict.get? cache u = none)
    (hu : urls = firsts seen (refs.map (fun r => r.2.1)) ++ rest) :
    answers split (dictLoad out docs) (refs.map Prod.fst) ⟨cache, urls⟩ =
      refs.map (fun r => walk ((jpSplit r.2.2).drop 1) (.obj ((Dict.get? docs r.2.1).getD []))) := by
  induction refs generalizing urls seen cache with
  | nil => rfl
  | cons r refs ih =>
    obtain ⟨jref, u, jp⟩ := r
    obtain ⟨d, hd1, hd2⟩ := hd (jref, u, jp) (by simp)
    have hsp := hs (jref, u, jp) (by simp)
    dsimp only at hd1 hsp
    have htr : (Json.obj d).truthy = true := by cases d <;> simp_all [Json.truthy]
    simp only [List.map_cons, answers]
    by_cases hin : u ∈ seen
    · obtain ⟨d', e1, _, hc⟩ := (hseen u).1 hin
      rw [hd1] at e1
      cases e1
      have hres : resolve split (dictLoad out docs) ⟨cache, urls⟩ jref = (walk ((jpSplit jp).drop 1) (.obj d), ⟨cache, urls⟩) := by
        unfold resolve cached
        simp only [hsp, hc, htr, if_true]
      rw [hres, hd1]
      congr 1
      refine ih urls seen cache (fun r hr => hs r (by simp [hr])) (fun r hr => hd r (by simp [hr])) hseen hnew ?_
      rw [hu, List.map_cons, firsts, if_pos hin]
    · rw [List.map_cons, firsts, if_neg hin, List.cons_append] at hu
      subst hu
      have hres : ∀ us, resolve split (dictLoad out docs) ⟨cache, u :: us⟩ jref =
          (walk ((jpSplit jp).drop 1) (.obj d), ⟨Dict.set cache u (some (.obj d)), us⟩) := by
        intro us
        unfold resolve cached
        simp only [hsp, hnew u hin, dictLoad_cons, hd1, Option.getD_some, htr, if_true]
      rw [hres, hd1]
      congr 1
      refine ih _ (u :: seen) _ (fun r hr => hs r (by simp [hr])) (fun r hr => hd r (by simp [hr])) (fun v => ?_) (fun v hv => ?_) rfl
      · by_cases hvu : v = u
        · subst hvu
          simp only [List.mem_cons, true_or, true_iff, Dict.get?_set_self]
          exact ⟨d, hd1, hd2, rfl⟩
        · rw [Dict.get?_set_ne _ _ (Ne.symm hvu), ← hseen v]
          simp [hvu]
      · simp only [List.mem_cons, not_or] at hv
        rw [Dict.get?_set_ne _ _ (Ne.symm hv.1)]
        exact hnew v hv.2

/-- C84, for a new resolver. -/
theorem C84_dict_getter (refs : List (Str × Str × Str)) (rest : List Str)
    (hs : ∀ r ∈ refs, split r.1 = .ok (r.2.1, r.2.2))
    (hd : ∀ r ∈ refs, ∃ d, Dict.get? docs r.2.1 = some d ∧ d ≠ []) :
    answers split (dictLoad out docs) (refs.map Prod.fst) ⟨[], firsts [] (refs.map (fun r => r.2.1)) ++ rest⟩ =
      refs.map (fun r => walk ((jpSplit r.2.2).drop 1) (.obj ((Dict.get? docs r.2.1).getD []))) :=
  C84_in_order refs _ rest [] [] hs hd (fun u => by simp [Dict.get?]) (fun u _ => rfl) rfl

/-- C84 is false for any other order: the getter is not told which document is asked for, and gives the next one of its
list, whatever it is. -/
theorem C84_order_violation (v u jref jp : Str) (us : List Str) (d : Dict Json) (hs : split jref = .ok (u, jp))
    (hd : Dict.get? docs v = some d) (hne : d ≠ []) :
    (resolve split (dictLoad out docs) ⟨[], v :: us⟩ jref).1 = walk ((jpSplit jp).drop 1) (.obj d) := by
  have htr : (Json.obj d).truthy = true := by cases d <;> simp_all [Json.truthy]
  unfold resolve cached
  simp only [hs, Dict.get?, dictLoad_cons, hd, Option.getD_some, htr, if_true]

/-- Two documents, asked for again and again. -/
def twoDocs : Dict (Dict Json) := [(s% "a", [(s% "x", .int 1)]), (s% "b", [(s% "y", .int 2)])]

def splitHash : Str → R (Str × Str) := fun r => .ok ((Str.cut '#' r).1, '#' :: ((Str.cut '#' r).2).getD [])

example : answers splitHash (dictLoad (disk []) twoDocs) [s% "a#/x", s% "b#/y", s% "a#/x"] ⟨[], [s% "a", s% "b"]⟩ =
    [.ok (.int 1), .ok (.int 2), .ok (.int 1)] :=
  (C84_dict_getter (out := disk []) (split := splitHash) (docs := twoDocs)
    [(s% "a#/x", s% "a", s% "#/x"), (s% "b#/y", s% "b", s% "#/y"), (s% "a#/x", s% "a", s% "#/x")] [] (by decide +kernel)
    (fun r hr => by
      simp only [List.mem_cons, List.not_mem_nil, or_false] at hr
      rcases hr with rfl | rfl | rfl
      · exact ⟨_, rfl, by simp⟩
      · exact ⟨_, rfl, by simp⟩
      · exact ⟨_, rfl, by simp⟩)).trans (by decide +kernel)

/-- The second document asked for first: the first one is given, and the reference fails. -/
example : (resolve splitHash (dictLoad (disk []) twoDocs) ⟨[], [s% "a", s% "b"]⟩ (s% "b#/y")).1 = .error .keyError :=
  (C84_order_violation (s% "a") (s% "b") (s% "b#/y") (s% "#/y") [s% "b"] [(s% "x", .int 1)] rfl rfl (by simp)).trans
    (by decide +kernel)

end DictGetter

/-! ### C85 which getter is used -/

section Choice
variable {W : Type}

/-- An absolute path that stands in a url as it is. -/
def UrlPath (p : Str) : Prop := p.head? = some '/' ∧ ∀ c ∈ p, 32 < c.toNat ∧ c ≠ '?' ∧ c ≠ '#'

theorem parse_file {ok : Str → Bool} {p : Str} (hp : UrlPath p) (hok : ok [] = true) :
    Url.parse ok (s% "file://" ++ p) = .ok ⟨s% "file", [], p, [], [], []⟩ := by
  obtain ⟨h1, h2⟩ := hp
  have hc : Url.clean (s% "file://" ++ p) = s% "file://" ++ p := by
    refine Url.clean_id (fun c hc => ?_) (fun c r he => ?_)
    · rcases List.mem_append.1 hc with h | h
      · simp only [List.mem_cons, List.not_mem_nil, or_false] at h
        rcases h with h | h | h | h | h | h | h <;> subst h <;> decide
      · have h3 := (h2 c h).1
        unfold Url.unsafeChar
        have n1 : c ≠ '\t' := fun e => by subst e; exact absurd h3 (by decide)
        have n2 : c ≠ '\r' := fun e => by subst e; exact absurd h3 (by decide)
        have n3 : c ≠ '\n' := fun e => by subst e; exact absurd h3 (by decide)
        simp [n1, n2, n3]
    · have hcf : c = 'f' := (List.cons.inj he).1.symm
      subst hcf
      decide
  have hs : Url.schemeSplit (s% "file://" ++ p) = (s% "file", '/' :: '/' :: p) := rfl
  have hn : Url.netlocSplit ('/' :: '/' :: p) = ([], p) := by
    cases p with
    | nil => cases h1
    | cons c p => cases h1; rfl
  have hh : Str.cut '#' p = (p, none) := Str.cut_of_not_mem (fun h => (h2 _ h).2.2 rfl)
  have hq : Str.cut '?' p = (p, none) := Str.cut_of_not_mem (fun h => (h2 _ h).2.1 rfl)
  unfold Url.parse
  simp only [hc, hs, hn, hok, hh, hq]
  rfl

/-! The file of a `file://` url -/

theorem slash_split {p : Str} (h : p.head? = some '/') : ∃ t b, p = (t ++ ['/']) ++ b ∧ '/' ∉ b := by
  obtain ⟨h1, h2, h3⟩ := upto_after '/' p
  rcases h3 with h3 | ⟨t, h3⟩
  · exfalso
    rw [h3, List.nil_append] at h1
    rw [h1] at h2
    cases p with
    | nil => cases h
    | cons c p => cases h; exact h2 (by simp)
  · exact ⟨t, Str.afterLast '/' p, by rw [← h3, h1], h2⟩

theorem after_prefix {p : Str} (x : Str) (h : p.head? = some '/') : Str.afterLast '/' (x ++ p) = Str.afterLast '/' p ∧
    Str.uptoLast '/' (x ++ p) = x ++ Str.uptoLast '/' p := by
  obtain ⟨t, b, rfl, hb⟩ := slash_split h
  have h1 := after_unique (c := '/') (a := t ++ ['/']) (b := b) hb (.inr ⟨t, rfl⟩)
  have h2 := after_unique (c := '/') (a := x ++ (t ++ ['/'])) (b := b) hb (.inr ⟨x ++ t, by simp⟩)
  rw [h1.1, h1.2, ← List.append_assoc, h2.1, h2.2]
  exact ⟨rfl, rfl⟩

theorem ext_prefix {p : Str} (x : Str) (h : p.head? = some '/') : splitextExt (x ++ p) = splitextExt p := by
  unfold splitextExt
  rw [(after_prefix x h).1]

theorem dropWhile_append_stop {α : Type} {f : α → Bool} : ∀ {a b : List α}, (∃ c ∈ a, f c = false) →
    (a ++ b).dropWhile f = a.dropWhile f ++ b
  | [], _, ⟨_, h, _⟩ => by cases h
  | c :: a, b, h => by
    rw [List.cons_append, List.dropWhile_cons, List.dropWhile_cons]
    cases hc : f c with
    | false => rfl
    | true =>
      simp only [if_true]
      obtain ⟨d, hd, h⟩ := h
      rcases List.mem_cons.1 hd with rfl | hd
      · rw [hc] at h; cases h
      · exact dropWhile_append_stop ⟨d, hd, h⟩

theorem dropWhile_all {α : Type} {f : α → Bool} : ∀ {a b : List α}, (∀ c ∈ a, f c = true) → (a ++ b).dropWhile f = b.dropWhile f
  | [], _, _ => rfl
  | c :: a, b, h => by
    rw [List.cons_append, List.dropWhile_cons, if_pos (h c (by simp))]
    exact dropWhile_all (fun d hd => h d (by simp [hd]))

theorem dirname_url {p : Str} (h : p.head? = some '/') : splitextExt (dirname (s% "file://" ++ p)) = splitextExt (dirname p) := by
  have hall : (s% "file://" ++ Str.uptoLast '/' p).all (· == '/') = false := by
    simp only [List.cons_append, List.all_cons]; rfl
  unfold dirname
  simp only [(after_prefix (s% "file://") h).2, hall, List.reverse_append, Bool.false_eq_true, if_false]
  obtain ⟨t, b, rfl, hb⟩ := slash_split h
  rw [(after_unique (c := '/') (a := t ++ ['/']) (b := b) hb (.inr ⟨t, rfl⟩)).1]
  cases hs : (t ++ ['/']).all (· == '/') with
  | true =>
    rw [if_pos rfl, dropWhile_all (fun c hc => (List.all_eq_true.1 hs) c (List.mem_reverse.1 hc))]
    have : splitextExt (t ++ ['/']) = [] := by
      have := (after_unique (c := '/') (a := t ++ ['/']) (b := []) (by simp) (.inr ⟨t, rfl⟩)).2
      rw [List.append_nil] at this
      unfold splitextExt
      rw [this]
      rfl
    rw [this]
    rfl
  | false =>
    rw [if_neg (by simp)]
    have hx : ∃ c ∈ (t ++ ['/']).reverse, (c == '/') = false := by
      obtain ⟨c, hc, h'⟩ := List.all_eq_false.1 hs
      exact ⟨c, List.mem_reverse.2 hc, by simpa using h'⟩
    rw [dropWhile_append_stop hx, List.reverse_append, List.reverse_reverse]
    apply ext_prefix
    -- the first character stays
    have h2 : (t ++ ['/']).head? = some '/' := by
      cases t with
      | nil => rfl
      | cons c t => simpa using h
    obtain ⟨r, hr⟩ : ∃ r, t ++ ['/'] = '/' :: r := by
      cases hh : t ++ ['/'] with
      | nil => rw [hh] at h2; cases h2
      | cons c r => rw [hh] at h2; cases h2; exact ⟨r, rfl⟩
    rw [hr] at hx ⊢
    rw [List.reverse_cons] at hx ⊢
    rw [dropWhile_append_stop (by
      obtain ⟨c, hc, h'⟩ := hx
      rcases List.mem_append.1 hc with hc | hc
      · exact ⟨c, hc, h'⟩
      · simp only [List.mem_cons, List.not_mem_nil, or_false] at hc
        subst hc; simp at h'), List.reverse_append]
    rfl

theorem ends_url {p n : Str} (h : p.head? = some '/') (hn : '/' ∉ n) (x : Str) : Str.endsWith (x ++ p) n = Str.endsWith p n := by
  cases h1 : Str.endsWith p n with
  | true =>
    obtain ⟨t, rfl⟩ := Str.endsWith_iff.1 h1
    exact Str.endsWith_iff.2 ⟨x ++ t, by simp⟩
  | false =>
    cases h2 : Str.endsWith (x ++ p) n with
    | false => rfl
    | true =>
      obtain ⟨t, ht⟩ := Str.endsWith_iff.1 h2
      rcases List.append_eq_append_iff.1 ht with ⟨a, rfl, h3⟩ | ⟨c, h3, h4⟩
      · rw [h3, Str.endsWith_iff.2 ⟨a, rfl⟩] at h1; cases h1
      · exfalso
        apply hn
        rw [h4]
        cases p with
        | nil => cases h
        | cons c p => cases h; simp

theorem byName_url {isFile : Str → Bool} {base base' path : Str} {ns : List Str}
    (h : ∀ n ∈ ns, Str.endsWith base n = Str.endsWith base' n) :
    (byName isFile base path ns = none ∧ byName isFile base' path ns = none) ∨
    ∃ f, (byName isFile base path ns = some (dirname base, f) ∧ byName isFile base' path ns = some (dirname base', f)) ∨
      (byName isFile base path ns = some (base, f) ∧ byName isFile base' path ns = some (base', f)) := by
  induction ns with
  | nil => exact .inl ⟨rfl, rfl⟩
  | cons n ns ih =>
    unfold byName
    rw [h n (by simp)]
    split
    · exact .inr ⟨_, .inl ⟨rfl, rfl⟩⟩
    · split
      · exact .inr ⟨_, .inr ⟨rfl, rfl⟩⟩
      · exact ih (fun m hm => h m (by simp [hm]))

theorem byTrial_url {isFile : Str → Bool} {base base' path : Str} {es : List Str} :
    (byTrial isFile base path es = .error .valueError ∧ byTrial isFile base' path es = .error .valueError) ∨
    ∃ f, byTrial isFile base path es = .ok (base, f) ∧ byTrial isFile base' path es = .ok (base', f) := by
  induction es with
  | nil => exact .inl ⟨rfl, rfl⟩
  | cons e es ih =>
    unfold byTrial
    split
    · exact .inr ⟨_, rfl, rfl⟩
    · exact ih

theorem patch_ext {b b' f : Str} (h : splitextExt b = splitextExt b') : patchPath b f = patchPath b' f := by
  unfold patchPath
  rw [h]

/-- C83: the url of a local file opens the file its path opens, whatever the path. -/
theorem C83_url (out : Outside) (p : Str) (hp : UrlPath p) (hok : out.ok [] = true) :
    localOpens out (s% "file://" ++ p) = localOpens out p := by
  have h1 : plainPath out (s% "file://" ++ p) = .ok p := by
    unfold plainPath
    rw [if_pos (by rfl), parse_file hp hok]
    rfl
  have h2 : plainPath out p = .ok p := by
    unfold plainPath
    rw [if_neg]
    obtain ⟨h, _⟩ := hp
    cases p with
    | nil => cases h
    | cons c p => cases h; simp [Str.startsWith, List.isPrefixOf]
  unfold localOpens localInit
  simp only [h1, h2, bind, Except.bind]
  cases noDrive out p with
  | error e => rfl
  | ok path =>
    dsimp only
    rcases byName_url (isFile := out.isFile) (path := path) (fun n (hn : n ∈ fileNames) =>
      ends_url (x := s% "file://") hp.1 (show '/' ∉ n by revert hn; revert n; decide)) with ⟨e1, e2⟩ | ⟨f, ⟨e1, e2⟩ | ⟨e1, e2⟩⟩
    · rw [e1, e2]
      dsimp only
      cases byExt path [s% "json", s% "yaml", s% "yml"] with
      | some r => rfl
      | none =>
        rcases byTrial_url (isFile := out.isFile) (base := s% "file://" ++ p) (base' := p) (path := path)
          (es := [s% "json", s% "yaml"]) with ⟨e3, e4⟩ | ⟨f, e3, e4⟩
        · rw [e3, e4]
        · rw [e3, e4]
          dsimp only
          rw [patch_ext (ext_prefix _ hp.1)]
    · rw [e1, e2]
      dsimp only
      rw [patch_ext (dirname_url hp.1)]
    · rw [e1, e2]
      dsimp only
      rw [patch_ext (ext_prefix _ hp.1)]

example : localOpens (disk [s% "/d/pet.yaml"]) (s% "file:///d/pet") = .ok (s% "/d/pet.yaml") :=
  (C83_url _ (s% "/d/pet") ⟨rfl, by decide⟩ rfl).trans (by decide +kernel)

/-! What is made of an answer -/

theorem hooked_of {hook : Option (Str → R Str)} {url l : Str} (h : Hooked hook url l) : hooked hook url = .ok l := by
  rcases h with ⟨f, rfl, h⟩ | ⟨rfl, rfl⟩
  · exact h
  · rfl

theorem parseText_read (out : Outside) (t : Str) : ReadAs out.json out.yaml t (parseText out t) := by
  have hs : Str.startsWith t ['{'] = true ↔ ∃ rest, t = '{' :: rest := by
    cases t with
    | nil => simp [Str.startsWith, List.isPrefixOf]
    | cons c t =>
      simp only [Str.startsWith, List.isPrefixOf, Bool.and_true, beq_iff_eq, List.cons.injEq]
      exact ⟨fun h => ⟨t, h.symm, rfl⟩, fun ⟨_, h, _⟩ => h.symm⟩
  refine ⟨if Str.startsWith t ['{'] then out.json t else out.yaml t, ?_, ?_⟩
  · by_cases h : Str.startsWith t ['{'] = true
    · exact .inl ⟨hs.1 h, by rw [if_pos h]⟩
    · exact .inr ⟨fun h' => h (hs.2 h'), by rw [if_neg h]⟩
  · unfold parseText
    cases (if Str.startsWith t ['{'] then out.json t else out.yaml t) with
    | ok j => exact .inr ⟨by simp, rfl⟩
    | error e => cases e <;> first | exact .inl ⟨rfl, rfl⟩ | exact .inr ⟨by simp, rfl⟩

theorem decode_taken (out : Outside) (r : Raw) : Taken out.json out.yaml r (decode out r) := by
  cases r with
  | dict d => rfl
  | bytes b => cases b with
    | error e => exact .inr ⟨e, rfl, rfl⟩
    | ok t => exact .inl ⟨t, rfl, parseText_read out t⟩
  | text t => exact parseText_read out t
  | other => rfl

/-- A text is read as one thing only. -/
theorem taken_unique {json yaml : Str → R Json} {r : Raw} {x y : R Json} (hx : Taken json yaml r x) (hy : Taken json yaml r y) :
    x = y := by
  have text : ∀ t x y, ReadAs json yaml t x → ReadAs json yaml t y → x = y := by
    rintro t x y ⟨q, h1, h2⟩ ⟨q', h3, h4⟩
    have : q = q' := by
      rcases h1 with ⟨h1, rfl⟩ | ⟨h1, rfl⟩ <;> rcases h3 with ⟨h3, rfl⟩ | ⟨h3, rfl⟩ <;> first | rfl | exact absurd h1 h3 | exact absurd h3 h1
    subst this
    rcases h2 with ⟨h2, rfl⟩ | ⟨h2, rfl⟩ <;> rcases h4 with ⟨h4, h6⟩ | ⟨h4, h6⟩ <;> first | exact absurd h2 h4 | exact absurd h4 h2 | exact h6.symm
  cases r with
  | dict d => exact hx.trans hy.symm
  | bytes b =>
    rcases hx with ⟨t, rfl, h1⟩ | ⟨e, rfl, rfl⟩ <;> rcases hy with ⟨t', h3, h2⟩ | ⟨e', h3, rfl⟩ <;> cases h3
    · exact text _ _ _ h1 h2
    · rfl
  | text t => exact text _ _ _ hx hy
  | other => exact hx.trans hy.symm

/-- C85: a document whose url (after the hook) is that of a local file is read from this file, by the rules of C83,
whatever the default getter; nothing else happens. -/
theorem C85_local (out : Outside) (hook : Option (Str → R Str)) (dflt : Source W) (w : W) (url p : Str)
    (hl : Hooked hook url (s% "file://" ++ p)) (hp : UrlPath p) (hok : out.ok [] = true) :
    fetch out hook dflt none w url = (fetchLocal out p, w) := by
  unfold fetch
  simp only [hooked_of hl, parse_file hp hok]
  obtain ⟨h1, _⟩ := hp
  cases p with
  | nil => cases h1
  | cons c p =>
    cases h1
    rfl

/-- C85 is false for local files: the default getter given to the resolver is not used for them. -/
theorem C85_default_violation (out : Outside) (hook : Option (Str → R Str)) (d1 d2 : Source W) (w : W) (url p : Str)
    (hl : Hooked hook url (s% "file://" ++ p)) (hp : UrlPath p) (hok : out.ok [] = true) :
    fetch out hook d1 none w url = fetch out hook d2 none w url := by
  rw [C85_local out hook d1 w url p hl hp hok, C85_local out hook d2 w url p hl hp hok]

/-- C85: the text of a local file is JSON or YAML by its first character. -/
theorem C85_local_text (out : Outside) (p f t : Str) (hf : localOpens out p = .ok f) (ht : out.read f = .ok t) :
    ReadAs out.json out.yaml t (fetchLocal out p) := by
  unfold fetchLocal
  simp only [hf, ht, bind, Except.bind]
  exact parseText_read out t

/-- C85: any other document comes from the default getter, which is asked for the url the hook gave. -/
theorem C85_default_partial (out : Outside) (hook : Option (Str → R Str)) (cb : Str → W → R Raw × W) (w w' : W) (url l : Str) (u : Url)
    (a : Raw) (hl : Hooked hook url l) (hu : Url.parse out.ok l = .ok u) (hn : u.scheme ≠ s% "file") (ha : cb l w = (.ok a, w')) :
    ∃ r, Taken out.json out.yaml a r ∧ fetch out hook (.simple cb) none w url = (r, w') := by
  unfold fetch
  simp only [hooked_of hl, hu, if_neg (fun h : u.scheme = s% "file" ∧ u.path ≠ [] => hn h.1), Source.get, ha]
  exact ⟨_, decode_taken out a, rfl⟩

/-- C85: a getter given to `resolve` itself is used for every url. -/
theorem C85_given (out : Outside) (hook : Option (Str → R Str)) (dflt : Source W) (cb : Str → W → R Raw × W) (w w' : W) (url l : Str)
    (a : Raw) (hl : Hooked hook url l) (ha : cb l w = (.ok a, w')) :
    ∃ r, Taken out.json out.yaml a r ∧ fetch out hook dflt (some (.simple cb)) w url = (r, w') := by
  unfold fetch
  simp only [hooked_of hl, Source.get, ha]
  exact ⟨_, decode_taken out a, rfl⟩

/-- C85: the error of a getter is the error of the load. -/
theorem C85_error (out : Outside) (hook : Option (Str → R Str)) (dflt : Source W) (cb : Str → W → R Raw × W) (w w' : W) (url l : Str)
    (e : Err) (hl : Hooked hook url l) (ha : cb l w = (.error e, w')) :
    fetch out hook dflt (some (.simple cb)) w url = (.error e, w') := by
  unfold fetch
  simp only [hooked_of hl, Source.get, ha]

/-- A default getter that answers everything with the same text. -/
def sameText (t : Str) : Source Unit := .simple (fun _ w => (.ok (.text t), w))

example : fetch (disk [s% "/d/a.json"]) none (sameText (s% "other")) none () (s% "file:///d/a.json") =
    (fetchLocal (disk [s% "/d/a.json"]) (s% "/d/a.json"), ()) :=
  C85_local _ none _ () _ (s% "/d/a.json") (.inr ⟨rfl, rfl⟩) ⟨rfl, by decide⟩ rfl

/-- With a hook: the url the hook makes is asked for. -/
example : ∃ r, Taken (disk []).json (disk []).yaml (.text (s% "{}")) r ∧
    fetch (disk []) (some (fun _ => .ok (s% "http://h/a.json"))) (sameText (s% "{}")) none () (s% "http://g/a.json") = (r, ()) :=
  C85_default_partial (disk []) _ (fun _ w => (.ok (.text (s% "{}")), w)) () () (s% "http://g/a.json") (s% "http://h/a.json")
    ⟨s% "http", s% "h", s% "/a.json", [], [], []⟩ _ (.inl ⟨_, rfl, rfl⟩) (by decide +kernel) (by decide) rfl

example : ∃ r, Taken (disk []).json (disk []).yaml .other r ∧
    fetch (disk []) none (sameText (s% "{}")) (some (.simple (fun _ w => (.ok .other, w)))) () (s% "http://g/a.json") = (r, ()) :=
  C85_given (disk []) none _ _ () () (s% "http://g/a.json") (s% "http://g/a.json") _ (.inr ⟨rfl, rfl⟩) rfl

example : ReadAs (disk [s% "/d/a.json"]).json (disk [s% "/d/a.json"]).yaml (s% "/d/a.json")
    (fetchLocal (disk [s% "/d/a.json"]) (s% "/d/a.json")) :=
  C85_local_text _ _ (s% "/d/a.json") (s% "/d/a.json") (by decide +kernel) rfl

end Choice

end Pyopenapi.Getter
