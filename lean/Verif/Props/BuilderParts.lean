import Verif.Lemmas.ExpectedParts
import Mathlib.Tactic.FinCases

/-!
# C27, C31, C32, C34: which parts a generated deck consists of
-/

namespace PptRs.Props

open PptRs PptRs.Spec

/-! ## C27 -/

/-- Registers a sequence of images, collecting the returned numbers. -/
def registerAll : MediaRegistry → List (List UInt8 × Str) → MediaRegistry × List Nat
  | r, [] => (r, [])
  | r, e :: l =>
    let x := r.imageNumber e.1 e.2
    let y := registerAll x.1 l
    (y.1, x.2 :: y.2)

theorem registerAll_fst (r : MediaRegistry) (l : List (List UInt8 × Str)) :
    (registerAll r l).1 = l.foldl register r := by
  induction l generalizing r with
  | nil => rfl
  | cons e l ih => simp [registerAll, ih, register]

theorem imageNumber_spec (r : MediaRegistry) (e : List UInt8 × Str) :
    1 ≤ (r.imageNumber e.1 e.2).2 ∧
    (r.imageNumber e.1 e.2).1.entries[(r.imageNumber e.1 e.2).2 - 1]? = some e ∧
    ∃ t, (r.imageNumber e.1 e.2).1.entries = r.entries ++ t := by
  unfold MediaRegistry.imageNumber
  cases h : r.lookupNumber e.1 e.2 with
  | none => simp
  | some n =>
    obtain ⟨h1, h2⟩ := lookupNumber_some h
    exact ⟨h1, h2, [], by simp⟩

theorem registerAll_prefix (r : MediaRegistry) (l : List (List UInt8 × Str)) :
    ∃ t, (registerAll r l).1.entries = r.entries ++ t := by
  induction l generalizing r with
  | nil => exact ⟨[], by simp [registerAll]⟩
  | cons e l ih =>
    obtain ⟨t1, h1⟩ := (imageNumber_spec r e).2.2
    obtain ⟨t2, h2⟩ := ih (r.imageNumber e.1 e.2).1
    exact ⟨t1 ++ t2, by simp [registerAll, h2, h1]⟩

/-- **C27**: after registering any sequence of images the stored files are the distinct images in
order of first appearance. -/
theorem C27_files (images : List (List UInt8 × Str)) :
    (registerAll .empty images).1.files = images.eraseDups ∧
    (registerAll .empty images).1.files.Nodup ∧
    ∀ e, e ∈ (registerAll .empty images).1.files ↔ e ∈ images := by
  have h : (registerAll .empty images).1.files = images.eraseDups := by
    rw [registerAll_fst]; exact register_foldl images [] .empty rfl
  exact ⟨h, h ▸ nodup_eraseDups _, fun e => by rw [h, mem_eraseDups]⟩

/-- **C27**: every returned number denotes the stored image it was returned for, also after
further registrations. -/
theorem C27_number_denotes (images : List (List UInt8 × Str)) (i : Nat) (e : List UInt8 × Str)
    (h : images[i]? = some e) :
    ∃ n, (registerAll .empty images).2[i]? = some n ∧ 1 ≤ n ∧
      (registerAll .empty images).1.files[n - 1]? = some e := by
  generalize MediaRegistry.empty = r
  induction images generalizing r i with
  | nil => simp at h
  | cons x l ih =>
    cases i with
    | zero =>
      simp only [List.getElem?_cons_zero, Option.some.injEq] at h
      subst h
      refine ⟨_, rfl, (imageNumber_spec r x).1, ?_⟩
      obtain ⟨t, ht⟩ := registerAll_prefix (r.imageNumber x.1 x.2).1 l
      have h2 := (imageNumber_spec r x).2.1
      simp only [registerAll, MediaRegistry.files, ht]
      rw [List.getElem?_append_left]
      · exact h2
      · exact (List.getElem?_eq_some_iff.mp h2).1
    | succ i =>
      rw [List.getElem?_cons_succ] at h
      exact ih i h _

theorem registerAll_length (r : MediaRegistry) (l : List (List UInt8 × Str)) :
    (registerAll r l).2.length = l.length := by
  induction l generalizing r with
  | nil => rfl
  | cons e l ih => simp [registerAll, ih]

/-- **C27**: two images get the same number exactly when they are equal in data and extension. -/
theorem C27_same_number_iff (images : List (List UInt8 × Str)) (i j : Nat) (hi : i < images.length)
    (hj : j < images.length) :
    (registerAll .empty images).2[i]? = (registerAll .empty images).2[j]? ↔
      images[i]? = images[j]? := by
  obtain ⟨n, h1, h2, h3⟩ := C27_number_denotes images i _ (List.getElem?_eq_getElem hi)
  obtain ⟨m, h4, h5, h6⟩ := C27_number_denotes images j _ (List.getElem?_eq_getElem hj)
  rw [h1, h4, List.getElem?_eq_getElem hi, List.getElem?_eq_getElem hj, ← h3, ← h6]
  have hnd := (C27_files images).2.1
  obtain ⟨hl1, hg1⟩ := List.getElem?_eq_some_iff.mp h3
  obtain ⟨hl2, hg2⟩ := List.getElem?_eq_some_iff.mp h6
  constructor
  · intro h
    rw [Option.some.injEq] at h
    rw [h]
  · intro h
    rw [List.getElem?_eq_getElem hl1, List.getElem?_eq_getElem hl2, Option.some.injEq] at h
    have := (hnd.getElem_inj_iff).mp h
    have : n = m := by omega
    rw [this]

/-- **C27**: the numbers used are exactly 1..k, k being the number of stored files. -/
theorem C27_no_gaps (images : List (List UInt8 × Str)) (n : Nat) :
    n ∈ (registerAll .empty images).2 ↔ 1 ≤ n ∧ n ≤ (registerAll .empty images).1.files.length := by
  constructor
  · intro h
    obtain ⟨i, hi, hn⟩ := List.getElem_of_mem h
    have hi' : i < images.length := by rwa [registerAll_length] at hi
    obtain ⟨m, h1, h2, h3⟩ := C27_number_denotes images i _ (List.getElem?_eq_getElem hi')
    rw [List.getElem?_eq_getElem hi, hn, Option.some.injEq] at h1
    subst h1
    have := (List.getElem?_eq_some_iff.mp h3).1
    omega
  · rintro ⟨h1, h2⟩
    have hlt : n - 1 < (registerAll .empty images).1.files.length := by omega
    have hm := List.getElem_mem hlt
    rw [(C27_files images).2.2] at hm
    obtain ⟨i, hi, he⟩ := List.getElem_of_mem hm
    obtain ⟨m, h3, h4, h5⟩ := C27_number_denotes images i _ (List.getElem?_eq_getElem hi)
    rw [he] at h5
    obtain ⟨hl, hg⟩ := List.getElem?_eq_some_iff.mp h5
    have := ((C27_files images).2.1.getElem_inj_iff).mp hg
    have : m = n := by omega
    subst this
    exact List.mem_of_getElem? h3

example : (registerAll .empty [([1], c!"png"), ([2], c!"png"), ([1], c!"png"), ([1], c!"jpg")]).2 =
    [1, 2, 1, 3] := by decide

/-! ## C31 -/

/-- **C31**: without a template, the parts written for a deck are exactly the expected ones. -/
theorem C31_exact_parts (d : Deck) (st : BuildSettings) (h : st.template = none) :
    (names (buildPackage d st)).Perm (expectedParts d st) := buildPackage_names d st h

/-- **C31**: without a template, and if no two embedded fonts map to the same file name, the
archive entries have pairwise distinct names. -/
theorem C31_no_duplicates_partial (d : Deck) (st : BuildSettings) (h : st.template = none)
    (hf : ((st.fonts.getD []).map (·.fileName)).Nodup) :
    ((buildPackage d st).map (·.name.path)).Nodup := by
  have hp := buildPackage_names d st h
  have := path_nodup (hp.nodup_iff.mpr (expectedParts_nodup d st hf))
    (fun p hm => expectedParts_own d st p (hp.mem_iff.mp hm))
  simpa [names, Function.comp_def] using this

/-- What is left out of `C31_no_duplicates_partial`: two fonts whose names differ by a space only
are written to the same part. -/
theorem C31_fonts_violated :
    ¬ ((buildPackage (.plain 0) { BuildSettings.none with
      fonts := some [⟨c!"Open Sans", .regular, []⟩, ⟨c!"OpenSans", .regular, []⟩] }).map
        (·.name.path)).Nodup := by decide

/-- What is left out of `C31_no_duplicates_partial`: a template's table styles are written next
to the generated ones. -/
theorem C31_template_violated :
    ¬ ((buildPackage (.plain 0) { BuildSettings.none with
      template := some [c!"ppt/slideMasters/slideMaster1.xml", c!"ppt/tableStyles.xml"] }).map
        (·.name.path)).Nodup := by decide

/-- **C31**: every deck without a template contains the twelve parts required by
`REQUIRED_PACKAGE_PARTS` (src/core/package_validation/rules.rs 17-30). -/
theorem C31_required_parts (d : Deck) (st : BuildSettings) (h : st.template = none) :
    ∀ path ∈ [c!"[Content_Types].xml", c!"_rels/.rels", c!"ppt/presentation.xml",
      c!"ppt/_rels/presentation.xml.rels", c!"ppt/presProps.xml", c!"ppt/viewProps.xml",
      c!"ppt/tableStyles.xml", c!"ppt/theme/theme1.xml", c!"ppt/slideMasters/slideMaster1.xml",
      c!"ppt/slideLayouts/slideLayout1.xml", c!"docProps/core.xml", c!"docProps/app.xml"],
    path ∈ (buildPackage d st).map (·.name.path) := by
  have key : ∀ p ∈ [PartName.contentTypes, .rootRels, .presentation, .presRels, .presProps,
      .viewProps, .tableStyles, .theme 1, .master, .layout 1, .core, .app],
      p.path ∈ (buildPackage d st).map (·.name.path) := by
    intro p hp
    have : p ∈ names (buildPackage d st) := by
      rw [mem_names h]
      fin_cases hp <;> simp [expectedParts]
    obtain ⟨e, he, rfl⟩ := List.mem_map.mp this
    exact List.mem_map.mpr ⟨e, he, rfl⟩
  intro path hp
  fin_cases hp
  · exact key .contentTypes (by simp)
  · exact key .rootRels (by simp)
  · exact key .presentation (by simp)
  · exact key .presRels (by simp)
  · exact key .presProps (by simp)
  · exact key .viewProps (by simp)
  · exact key .tableStyles (by simp)
  · exact key (.theme 1) (by simp)
  · exact key .master (by simp)
  · exact key (.layout 1) (by simp)
  · exact key .core (by simp)
  · exact key .app (by simp)

/-! ## C32 -/

theorem chartStarts_numbers (t : Nat) (slides : List SlideIn) :
    ((chartStarts t slides).zip slides).flatMap (fun x => consecutive x.1 x.2.charts) =
      List.range' (t + 1) (numCharts slides) := by
  induction slides generalizing t with
  | nil => simp [chartStarts]
  | cons s l ih =>
    rw [chartStarts, List.zip_cons_cons, List.flatMap_cons, ih, numCharts_cons, consecutive_eq,
      ← List.range'_append_1]
    congr 2; omega

/-- **C32**: the charts of all slides, in slide order, are numbered 1..k. -/
theorem C32_numbers (slides : List SlideIn) :
    ((chartStarts 0 slides).zip slides).flatMap (fun x => consecutive x.1 x.2.charts) =
      List.range' 1 (numCharts slides) := chartStarts_numbers 0 slides

theorem chartStarts_get (t : Nat) (slides : List SlideIn) (j : Nat) (h : j < slides.length) :
    (chartStarts t slides)[j]? = some (t + numCharts (slides.take j) + 1) := by
  induction slides generalizing t j with
  | nil => simp at h
  | cons s l ih =>
    cases j with
    | zero => simp [chartStarts]
    | succ j =>
      simp only [chartStarts, List.getElem?_cons_succ, List.take_succ_cons, numCharts_cons]
      rw [ih _ _ (by simpa using h)]
      congr 1; omega

/-- **C32**: a slide's charts are numbered on from the charts of the slides before it. -/
theorem C32_start (slides : List SlideIn) (j : Nat) (h : j < slides.length) :
    (chartStarts 0 slides)[j]? = some (numCharts (slides.take j) + 1) := by
  rw [chartStarts_get 0 slides j h]; simp

/-- **C32**: a chart part, its relationships and its workbook are written exactly once for every
chart number, and for no other. -/
theorem C32_parts (d : Deck) (st : BuildSettings) (h : st.template = none) (n : Nat) :
    let k := if 1 ≤ n ∧ n ≤ numCharts d.slides then 1 else 0
    (names (buildPackage d st)).count (.chart n) = k ∧
    (names (buildPackage d st)).count (.chartRels n) = k ∧
    (names (buildPackage d st)).count (.embedding n) = k := by
  have hc : ∀ (f : Nat → PartName) (g : PartName) (a b : Nat), (∀ x, f x ≠ g) →
      ((List.range' a b).map f).count g = 0 := by
    intro f g a b hfg
    rw [List.count_eq_zero]
    simp only [List.mem_map, not_exists, not_and]
    exact fun x _ => hfg x
  have hs : ∀ (f : Nat → PartName) (m b : Nat), (∀ x y, f x = f y → x = y) →
      ((List.range' 1 b).map f).count (f m) = if 1 ≤ m ∧ m ≤ b then 1 else 0 := by
    intro f m b hf
    rw [List.count_map_of_injective _ f (fun x y e => hf x y e)]
    by_cases hm : 1 ≤ m ∧ m ≤ b
    · rw [if_pos hm, List.count_eq_one_of_mem List.nodup_range']
      simp [List.mem_range'_1]; omega
    · rw [if_neg hm, List.count_eq_zero]
      simp [List.mem_range'_1]; omega
  have hmed : ∀ g : PartName, (∀ n x, g ≠ .media n x) →
      (mediaParts (distinctImages d.slides)).count g = 0 := by
    intro g hg
    rw [List.count_eq_zero]
    intro hm
    obtain ⟨n, x, rfl⟩ := mem_mediaParts hm
    exact hg n x rfl
  have hfo : ∀ g : PartName, (∀ x, g ≠ .font x) →
      (((st.fonts.getD []).map fun f => PartName.font f.fileName)).count g = 0 := by
    intro g hg
    rw [List.count_eq_zero]
    simp only [List.mem_map, not_exists, not_and]
    exact fun f _ e => hg _ e.symm
  have hif : ∀ (c : Prop) [Decidable c] (l : List PartName) (g : PartName), g ∉ l →
      (if c then l else []).count g = 0 := by
    intro c _ l g hg; split <;> simp [List.count_eq_zero, hg]
  have hif2 : ∀ (c : Prop) [Decidable c] (l : List PartName) (g : PartName), g ∉ l →
      (if c then [] else l).count g = 0 := by
    intro c _ l g hg; split <;> simp [List.count_eq_zero, hg]
  have hp := fun a => List.perm_iff_count.mp (buildPackage_names d st h) a
  refine ⟨?_, ?_, ?_⟩
  · rw [hp]
    simp only [expectedParts, List.count_append]
    rw [hmed _ (by simp), hfo _ (by simp), hif _ _ _ (by simp), hif _ _ _ (by simp),
      hif2 _ _ _ (by simp), hs .chart n _ (by simp),
      hc .layout _ _ _ (by simp),
      hc .layoutRels _ _ _ (by simp),
      hc .slide _ _ _ (by simp),
      hc .slideRels _ _ _ (by simp),
      hc .notes _ _ _ (by simp),
      hc .notesRels _ _ _ (by simp),
      hc .chartRels _ _ _ (by simp),
      hc .embedding _ _ _ (by simp),
      hc .ink _ _ _ (by simp)]
    simp [List.count_cons]
  · rw [hp]
    simp only [expectedParts, List.count_append]
    rw [hmed _ (by simp), hfo _ (by simp), hif _ _ _ (by simp), hif _ _ _ (by simp),
      hif2 _ _ _ (by simp), hs .chartRels n _ (by simp),
      hc .layout _ _ _ (by simp),
      hc .layoutRels _ _ _ (by simp),
      hc .slide _ _ _ (by simp),
      hc .slideRels _ _ _ (by simp),
      hc .notes _ _ _ (by simp),
      hc .notesRels _ _ _ (by simp),
      hc .chart _ _ _ (by simp),
      hc .embedding _ _ _ (by simp),
      hc .ink _ _ _ (by simp)]
    simp [List.count_cons]
  · rw [hp]
    simp only [expectedParts, List.count_append]
    rw [hmed _ (by simp), hfo _ (by simp), hif _ _ _ (by simp), hif _ _ _ (by simp),
      hif2 _ _ _ (by simp), hs .embedding n _ (by simp),
      hc .layout _ _ _ (by simp),
      hc .layoutRels _ _ _ (by simp),
      hc .slide _ _ _ (by simp),
      hc .slideRels _ _ _ (by simp),
      hc .notes _ _ _ (by simp),
      hc .notesRels _ _ _ (by simp),
      hc .chart _ _ _ (by simp),
      hc .chartRels _ _ _ (by simp),
      hc .ink _ _ _ (by simp)]
    simp [List.count_cons]

/-! ## C34 -/

theorem lazy_names (st : BuildSettings) (r : MediaRegistry) (i n k t : Nat) (l : List SlideIn) :
    (names (writeSlidePackagesLazyFrom st r i n k (chartStarts t l) l)).Perm
      (names (writeSlidesFrom i n k l) ++ names (writeSlideRelsFrom st r i n k (chartStarts t l) l) ++
        names (writeChartsFrom (chartStarts t l) l)) := by
  induction l generalizing i n k t with
  | nil => simp [writeSlidePackagesLazyFrom, writeSlidesFrom, writeSlideRelsFrom, writeChartsFrom]
  | cons s l ih =>
    rw [List.perm_iff_count]
    intro a
    have := fun i n k t => List.perm_iff_count.mp (ih i n k t) a
    simp only [List.count_append] at this
    simp only [writeSlidePackagesLazyFrom, writeSlidesFrom, writeSlideRelsFrom, writeChartsFrom,
      chartStarts, List.tail_cons, List.headD_cons, names_append, names_cons, names_nil,
      List.count_append, this, List.count_cons]
    have he : ∀ a b, names (slideEntries i n k a s) = names (slideEntries i n k b s) := by
      intro a b
      simp only [slideEntries, names_append, names_cons, names_nil]
    rw [he (slideContentRelStart s.notes.isSome (slideImageRelTargets s r).length)
      (slideContentRelStart s.notes.isSome s.images.length)]
    simp only [List.count_nil]
    omega

theorem writeCharts_if (l : List SlideIn) :
    (if totalCharts l > 0 then writeChartsFrom (chartStarts 0 l) l else []) =
      writeChartsFrom (chartStarts 0 l) l := by
  split
  · rfl
  · rename_i h
    rw [totalCharts_eq] at h
    have key : ∀ (l : List SlideIn) t, numCharts l = 0 → writeChartsFrom (chartStarts t l) l = [] := by
      intro l
      induction l with
      | nil => intro t _; rfl
      | cons s l ih =>
        intro t h
        rw [numCharts_cons] at h
        have h0 : s.charts = 0 := by omega
        simp only [writeChartsFrom, chartStarts, h0, List.tail_cons, List.headD_cons]
        rw [ih _ (by omega)]
        rfl
    rw [key l 0 (by omega)]

theorem buildPackage_custom (l : List SlideIn) (st : BuildSettings) :
    buildPackage (.custom l) st =
      [⟨.contentTypes, .contentTypes (contentTypesPart (.custom l) st)⟩,
       ⟨.rootRels, .rels (rootRels st.signature)⟩,
       ⟨.presRels, .rels (presentationRelsWithFonts l.length (hasNotes l) st.handout
         ((prepareFonts st l.length (hasNotes l)).getD []))⟩,
       ⟨.presentation, .presentation (presentationXml l.length (hasNotes l) st.handout
         ((prepareFonts st l.length (hasNotes l)).getD []))⟩] ++
      standardParts ++
      (if st.handout then handoutParts else []) ++
      writeSlidesFrom 0 0 0 l ++
      writeSlideRelsFrom st (buildMediaRegistry l) 0 0 0 (chartStarts 0 l) l ++
      (if hasNotes l then writeNotesRelsFrom 0 0 l ++ notesMasterParts else []) ++
      themeAndLayoutParts st ++
      [⟨.core, .other⟩, ⟨.app, .other⟩] ++
      writeChartsFrom (chartStarts 0 l) l ++
      writeImagesFrom 0 (buildMediaRegistry l).files ++
      fontParts ((prepareFonts st l.length (hasNotes l)).getD []) ++
      (if st.signature then signatureParts else []) := by
  rw [← writeCharts_if]
  rfl

/-- **C34**: writing a deck from a lazy source gives the same parts as writing it from memory. -/
theorem C34_same_parts (l : List SlideIn) (st : BuildSettings) :
    (names (buildPackageLazy l st)).Perm (names (buildPackage (.custom l) st)) := by
  rw [List.perm_iff_count]
  intro a
  have h := List.perm_iff_count.mp (lazy_names st (buildMediaRegistry l) 0 0 0 0 l) a
  simp only [List.count_append] at h
  rw [buildPackage_custom]
  simp only [buildPackageLazy, names_append, names_cons, List.count_append, List.count_cons, h]
  omega

theorem lazy_entries (st : BuildSettings) (r : MediaRegistry) (i n k t : Nat) (l : List SlideIn)
    (hr : ∀ s ∈ l, (slideImageRelTargets s r).length = s.images.length) :
    (writeSlidePackagesLazyFrom st r i n k (chartStarts t l) l).Perm
      (writeSlidesFrom i n k l ++ writeSlideRelsFrom st r i n k (chartStarts t l) l ++
        writeChartsFrom (chartStarts t l) l) := by
  induction l generalizing i n k t with
  | nil => simp [writeSlidePackagesLazyFrom, writeSlidesFrom, writeSlideRelsFrom, writeChartsFrom]
  | cons s l ih =>
    rw [List.perm_iff_count]
    intro a
    have := fun i n k t => List.perm_iff_count.mp
      (ih i n k t (fun s hs => hr s (List.mem_cons_of_mem _ hs))) a
    simp only [List.count_append] at this
    simp only [writeSlidePackagesLazyFrom, writeSlidesFrom, writeSlideRelsFrom, writeChartsFrom,
      chartStarts, List.tail_cons, List.headD_cons, List.count_append, this, List.count_cons,
      hr s (by simp), List.count_nil]
    omega

/-- **C34**: if all images have data, the two ways of writing a deck give the same parts with the
same content, apart from the content type list. -/
theorem C34_same_content_partial (l : List SlideIn) (st : BuildSettings)
    (h : ∀ s ∈ l, ImagesOk s) :
    ((buildPackageLazy l st).filter (fun e => e.name ≠ .contentTypes)).Perm
      ((buildPackage (.custom l) st).filter fun e => e.name ≠ .contentTypes) := by
  have hl := lazy_entries st (buildMediaRegistry l) 0 0 0 0 l
    (fun s hs => slideImageRelTargets_length hs (h s hs))
  have key : ∀ x y : Entry, x.name = .contentTypes → y.name = .contentTypes →
      ∀ a b : List Entry, a.Perm b →
      ((x :: a).filter fun e => e.name ≠ .contentTypes).Perm
        ((y :: b).filter fun e => e.name ≠ .contentTypes) := by
    intro x y hx hy a b hab
    simp only [List.filter_cons, hx, hy]
    simpa using hab.filter _
  rw [buildPackage_custom]
  unfold buildPackageLazy
  simp only [List.cons_append]
  apply key _ _ rfl rfl
  rw [List.perm_iff_count]
  intro a
  have h2 := List.perm_iff_count.mp hl a
  simp only [List.count_append] at h2
  simp only [List.count_append, List.count_cons, List.nil_append, h2]
  omega

/-- **C34**: without signature, fonts and ink the content type lists agree up to order. -/
theorem C34_content_types_partial (l : List SlideIn) (st : BuildSettings)
    (hs : st.signature = false) (hf : st.fonts.getD [] = []) (hi : ∀ s ∈ l, s.ink = false) :
    (contentTypesPartLazy l st).defaults = (contentTypesPart (.custom l) st).defaults ∧
    (contentTypesPartLazy l st).overrides.Perm (contentTypesPart (.custom l) st).overrides := by
  have hink : inkCount l = 0 := by
    rw [inkCount_eq, numInk, List.countP_eq_zero]
    simpa using hi
  constructor
  · simp [contentTypesPartLazy, contentTypesPart, hs, hf, hink, appendInkTypes, createContentTypes,
      contentTypesOpening, Deck.slides]
  · rw [List.perm_iff_count]
    intro a
    simp only [contentTypesPartLazy, contentTypesPart, hs, hf, hink, appendInkTypes,
      createContentTypes, contentTypesOpening, Deck.slides, Deck.count, List.isEmpty_nil, upTo,
      List.range_zero, List.map_nil, List.append_nil]
    simp [List.count_append, List.count_cons]
    omega

/-- A slide with a title only. -/
def titleSlide : SlideIn := ⟨c!"T", .titleOnly, 0, false, [], [], none, 0, 0, 0, false⟩

/-- What is left out of `C34_content_types_partial`: a lazily written deck with a signature,
embedded fonts or ink lacks their content types. -/
theorem C34_content_types_violated :
    (typeOf (contentTypesPart (.custom [{ titleSlide with ink := true }]) .none) c!"ppt/ink/ink1.xml" =
      some .ink ∧
    typeOf (contentTypesPartLazy [{ titleSlide with ink := true }] .none) c!"ppt/ink/ink1.xml" =
      some .xml) ∧
    (typeOf (contentTypesPart (.custom []) { BuildSettings.none with signature := true })
      c!"_xmlsignatures/origin.sigs" = some .sigOrigin ∧
    typeOf (contentTypesPartLazy [] { BuildSettings.none with signature := true })
      c!"_xmlsignatures/origin.sigs" = none) ∧
    (typeOf (contentTypesPart (.custom []) { BuildSettings.none with
      fonts := some [⟨c!"A", .bold, []⟩] }) c!"ppt/fonts/A-bold.fntdata" = some .fontData ∧
    typeOf (contentTypesPartLazy [] { BuildSettings.none with
      fonts := some [⟨c!"A", .bold, []⟩] }) c!"ppt/fonts/A-bold.fntdata" = none) := by
  decide

/-- What is left out of `C34_same_content_partial`: with an image whose data cannot be read, the
two writers number the chart of the slide differently. -/
theorem C34_content_violated :
    let s := { titleSlide with images := [⟨none, c!"png"⟩], charts := 1 }
    ∃ x y, (⟨.slide 1, .slide x⟩ : Entry) ∈ buildPackageLazy [s] .none ∧
      (⟨.slide 1, .slide y⟩ : Entry) ∈ buildPackage (.custom [s]) .none ∧ x.chartRefs = [c!"rId2"] ∧
      y.chartRefs = [c!"rId3"] :=
  ⟨⟨[1, 2, 20, 101], [c!"rId2"], [c!"rId2"], none, []⟩,
    ⟨[1, 2, 20, 101], [c!"rId2"], [c!"rId3"], none, []⟩, by decide, by decide, rfl, rfl⟩

example : (buildPackage (.custom [{ titleSlide with charts := 2, notes := some c!"n" }, titleSlide])
    .none).length = 41 := by decide

end PptRs.Props
