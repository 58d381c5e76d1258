import Verif.Model.LazySource
import Verif.Props.BuilderParts

/-!
# C156: slides that are asked for one by one
-/

namespace PptRs.Spec

open PptRs PptRs.Lazy

/-- The features a source reports are those of the slides it yields. -/
def Honest (s : Source) : Prop :=
  ∀ i, i < s.count → s.features i = (s.generate i).map fun x => (x.notes.isSome, x.charts)

/-- A slide without anything on it. -/
def blankSlide : SlideIn := ⟨[], .blank, 0, false, [], [], none, 0, 0, 0, false⟩

/-- The slides of a source, a slide without anything at every gap. -/
def filledSlides (s : Source) : List SlideIn := (List.range s.count).map fun i => (s.generate i).getD blankSlide

/-- Is the part not one of the two parts of a slide the source does not yield? -/
def yielded (s : Source) : PartName → Bool
  | .slide n => (s.generate (n - 1)).isSome
  | .slideRels n => (s.generate (n - 1)).isSome
  | _ => true

end PptRs.Spec

namespace PptRs.Props

open PptRs PptRs.Lazy PptRs.Spec

/-! ## The parts of an honest source -/

theorem source_notesAt {s : Source} (h : Honest s) {i : Nat} (hi : i < s.count) :
    s.notesAt i = ((s.generate i).getD blankSlide).notes.isSome := by
  unfold Source.notesAt
  rw [h i hi]
  cases s.generate i <;> rfl

theorem source_chartsAt {s : Source} (h : Honest s) {i : Nat} (hi : i < s.count) :
    s.chartsAt i = ((s.generate i).getD blankSlide).charts := by
  unfold Source.chartsAt
  rw [h i hi]
  cases s.generate i <;> rfl

theorem source_hasNotes {s : Source} (h : Honest s) : s.hasNotes = hasNotes (filledSlides s) := by
  unfold Source.hasNotes hasNotes filledSlides Source.indices
  rw [List.any_map, Bool.eq_iff_iff, List.any_eq_true, List.any_eq_true]
  constructor
  · rintro ⟨i, hi, hn⟩
    exact ⟨i, hi, by rw [source_notesAt h (List.mem_range.mp hi)] at hn; exact hn⟩
  · rintro ⟨i, hi, hn⟩
    exact ⟨i, hi, by rw [source_notesAt h (List.mem_range.mp hi)]; exact hn⟩

theorem source_notesCount {s : Source} (h : Honest s) : s.notesCount = notesCount (filledSlides s) := by
  unfold Source.notesCount notesCount filledSlides Source.indices
  rw [List.filter_map, List.length_map]
  congr 1
  apply List.filter_congr
  intro i hi
  exact source_notesAt h (List.mem_range.mp hi)

theorem source_inkCount (s : Source) : s.inkCount = inkCount (filledSlides s) := by
  unfold Source.inkCount inkCount filledSlides Source.indices
  rw [List.filter_map, List.length_map]
  congr 1
  apply List.filter_congr
  intro i _
  show _ = ((s.generate i).getD blankSlide).ink
  cases s.generate i <;> rfl

theorem source_registry (s : Source) : s.registry = buildMediaRegistry (filledSlides s) := by
  unfold Source.registry buildMediaRegistry filledSlides Source.indices
  rw [List.foldl_map]
  congr 1
  funext r i
  cases s.generate i <;> rfl

theorem source_starts {s : Source} (h : Honest s) (t : Nat) (is : List Nat)
    (hi : ∀ i ∈ is, i < s.count) :
    s.startsFrom t is = chartStarts t (is.map fun i => (s.generate i).getD blankSlide) := by
  induction is generalizing t with
  | nil => rfl
  | cons i is ih =>
    show (t + 1) :: _ = (t + 1) :: _
    rw [ih _ fun j hj => hi j (List.mem_cons_of_mem _ hj), source_chartsAt h (hi i (by simp))]

theorem source_total {s : Source} (h : Honest s) : s.totalCharts = totalCharts (filledSlides s) := by
  unfold Source.totalCharts totalCharts filledSlides Source.indices
  rw [List.foldl_map]
  have key : ∀ (is : List Nat) (t : Nat), (∀ i ∈ is, i < s.count) →
      is.foldl (fun t i => t + s.chartsAt i) t =
        is.foldl (fun t i => t + ((s.generate i).getD blankSlide).charts) t := by
    intro is
    induction is with
    | nil => intros; rfl
    | cons i is ih =>
      intro t hi
      simp only [List.foldl_cons]
      rw [source_chartsAt h (hi i (by simp)), ih _ fun j hj => hi j (List.mem_cons_of_mem _ hj)]
  exact key _ 0 fun i hi => List.mem_range.mp hi

theorem source_count (s : Source) : (filledSlides s).length = s.count := by simp [filledSlides]

theorem source_contentTypes {s : Source} (h : Honest s) (st : BuildSettings) :
    s.contentTypes st = contentTypesPartLazy (filledSlides s) st := by
  unfold Source.contentTypes contentTypesPartLazy
  rw [source_registry, source_total h, source_notesCount h, source_inkCount, source_count]

theorem source_notesRels {s : Source} (h : Honest s) (m a n : Nat) (hm : a + m ≤ s.count) :
    s.notesRelsFrom n (List.range' a m) =
      writeNotesRelsFrom a n
        ((List.range' a m).map fun i => (s.generate i).getD blankSlide) := by
  induction m generalizing a n with
  | zero => rfl
  | succ m ih =>
    rw [List.range'_succ, List.map_cons]
    unfold Source.notesRelsFrom writeNotesRelsFrom
    rw [source_notesAt h (by omega), ih _ _ (by omega), ih _ _ (by omega)]
    cases ((s.generate a).getD blankSlide).notes.isSome <;> simp

/-- The entries of the parts of a slide that are not of the slide and its relationships. -/
theorem source_packages (s : Source) (st : BuildSettings) (r : MediaRegistry) (m a n k t : Nat) :
    s.packagesFrom st r a n k
        (chartStarts t ((List.range' a m).map fun i => (s.generate i).getD blankSlide)) =
      (writeSlidePackagesLazyFrom st r a n k
        (chartStarts t ((List.range' a m).map fun i => (s.generate i).getD blankSlide))
        ((List.range' a m).map fun i => (s.generate i).getD blankSlide)).filter
          fun e => yielded s e.name := by
  induction m generalizing a n k t with
  | zero => rfl
  | succ m ih =>
    rw [List.range'_succ, List.map_cons]
    show s.packagesFrom st r a n k ((t + 1) :: chartStarts _ _) = _
    unfold writeSlidePackagesLazyFrom Source.packagesFrom
    rw [List.filter_append, List.filter_append, List.filter_append]
    cases hg : s.generate a with
    | none =>
      have e := ih (a + 1) n k (t + 0)
      show s.packagesFrom st r (a + 1) n k (chartStarts (t + 0) _) = _
      rw [e]
      have h1 : (slideEntries a n k (slideContentRelStart false
          (slideImageRelTargets blankSlide r).length) blankSlide).filter
            (fun e => yielded s e.name) = [] := by
        simp [slideEntries, blankSlide, yielded, hg]
      have h2 : ([slideRelsEntry st r a n k (t + 1) blankSlide]).filter
            (fun e => yielded s e.name) = [] := by
        simp [slideRelsEntry, yielded, hg]
      show _ = List.filter _ (slideEntries a n k (slideContentRelStart false
          (slideImageRelTargets blankSlide r).length) blankSlide) ++
        List.filter _ [slideRelsEntry st r a n k (t + 1) blankSlide] ++ _ ++ _
      rw [h1, h2]
      simp [blankSlide, consecutive, chartStarts]
    | some x =>
      have e := ih (a + 1) (n + x.notes.isSome.toNat) (k + x.ink.toNat) (t + x.charts)
      show _ ++ _ ++ _ ++ s.packagesFrom st r (a + 1) _ _ (chartStarts (t + x.charts) _) = _
      rw [e]
      have h1 : (slideEntries a n k (slideContentRelStart x.notes.isSome
          (slideImageRelTargets x r).length) x).filter (fun e => yielded s e.name) =
          slideEntries a n k (slideContentRelStart x.notes.isSome
          (slideImageRelTargets x r).length) x := by
        rw [List.filter_eq_self]
        intro e he
        simp only [slideEntries, List.mem_append, List.mem_map, List.mem_singleton] at he
        rcases he with (he | he) | ⟨y, -, he⟩
        · cases hx : x.ink with
          | false => rw [hx] at he; exact absurd he (by simp)
          | true =>
            rw [hx] at he
            simp only [if_true, List.mem_singleton] at he
            subst he
            rfl
        · subst he
          simp [yielded, hg]
        · subst he
          rfl
      have h2 : ([slideRelsEntry st r a n k (t + 1) x]).filter
            (fun e => yielded s e.name) = [slideRelsEntry st r a n k (t + 1) x] := by
        simp [slideRelsEntry, yielded, hg]
      have h3 : ((consecutive (t + 1) x.charts).flatMap chartParts).filter
            (fun e => yielded s e.name) = (consecutive (t + 1) x.charts).flatMap chartParts := by
        rw [List.filter_eq_self]
        intro e he
        obtain ⟨c, -, he⟩ := List.mem_flatMap.mp he
        simp only [chartParts, List.mem_cons, List.not_mem_nil, or_false] at he
        rcases he with rfl | rfl | rfl <;> rfl
      show _ = List.filter _ (slideEntries a n k (slideContentRelStart x.notes.isSome
          (slideImageRelTargets x r).length) x) ++
        List.filter _ [slideRelsEntry st r a n k (t + 1) x] ++
        List.filter _ ((consecutive (t + 1) x.charts).flatMap chartParts) ++ _
      rw [h1, h2, h3]
      rfl

theorem yielded_notesRels (s : Source) (i n : Nat) (l : List SlideIn) :
    ∀ e ∈ writeNotesRelsFrom i n l, yielded s e.name = true := by
  induction l generalizing i n with
  | nil => intro e he; exact absurd he (by simp [writeNotesRelsFrom])
  | cons x l ih =>
    intro e he
    unfold writeNotesRelsFrom at he
    rcases List.mem_append.mp he with he | he
    · split at he
      · rw [List.mem_singleton] at he
        subst he
        rfl
      · exact absurd he (by simp)
    · exact ih _ _ e he

theorem yielded_images (s : Source) (i : Nat) (l : List (List UInt8 × Str)) :
    ∀ e ∈ writeImagesFrom i l, yielded s e.name = true := by
  induction l generalizing i with
  | nil => intro e he; exact absurd he (by simp [writeImagesFrom])
  | cons x l ih =>
    intro e he
    unfold writeImagesFrom at he
    rcases List.mem_cons.mp he with rfl | he
    · rfl
    · exact ih _ e he

theorem yielded_themes (s : Source) (st : BuildSettings) :
    ∀ e ∈ themeAndLayoutParts st, yielded s e.name = true := by
  intro e he
  unfold themeAndLayoutParts at he
  split at he
  · rcases List.mem_append.mp he with he | he
    · obtain ⟨p, -, rfl⟩ := List.mem_map.mp he
      rfl
    · split at he
      · rw [List.mem_singleton] at he
        subst he
        rfl
      · exact absurd he (by simp)
  · rcases List.mem_append.mp he with he | he
    · obtain ⟨n, -, he⟩ := List.mem_flatMap.mp he
      simp only [List.mem_cons, List.not_mem_nil, or_false] at he
      rcases he with rfl | rfl <;> rfl
    · simp only [List.mem_cons, List.not_mem_nil, or_false] at he
      rcases he with rfl | rfl | rfl <;> rfl

/-- **C156**: what is written for a source whose features are those of its slides is what is
written for a deck with an empty slide at every gap, less the slide parts and slide relationship
parts of the gaps. -/
theorem C156_gaps (s : Source) (st : BuildSettings) (h : Honest s) :
    s.build st = (buildPackageLazy (filledSlides s) st).filter fun e => yielded s e.name := by
  unfold Source.build buildPackageLazy
  simp only [List.filter_append]
  rw [source_contentTypes h, source_hasNotes h, source_count, source_registry]
  have hs : s.startsFrom 0 s.indices = chartStarts 0 (filledSlides s) :=
    source_starts h 0 s.indices fun i hi => List.mem_range.mp hi
  have hp := source_packages s st (buildMediaRegistry (filledSlides s)) s.count 0 0 0 0
  rw [← List.range_eq_range'] at hp
  have hp' : s.packagesFrom st (buildMediaRegistry (filledSlides s)) 0 0 0 (chartStarts 0 (filledSlides s)) =
      (writeSlidePackagesLazyFrom st (buildMediaRegistry (filledSlides s)) 0 0 0
        (chartStarts 0 (filledSlides s)) (filledSlides s)).filter fun e => yielded s e.name := hp
  have hn := source_notesRels h s.count 0 0 (by omega)
  rw [← List.range_eq_range'] at hn
  have hn' : s.notesRelsFrom 0 s.indices = writeNotesRelsFrom 0 0 (filledSlides s) := hn
  rw [hs, hp', hn']
  have keep : ∀ l : List Entry, (∀ e ∈ l, yielded s e.name = true) →
      l.filter (fun e => yielded s e.name) = l := fun l hl => List.filter_eq_self.mpr hl
  rw [keep [_, _, _, _] (by intro e he; simp only [List.mem_cons, List.not_mem_nil, or_false] at he
                            rcases he with rfl | rfl | rfl | rfl <;> rfl),
    keep standardParts (by intro e he; simp only [standardParts, List.mem_cons, List.not_mem_nil,
                                        or_false] at he
                           rcases he with rfl | rfl | rfl <;> rfl),
    keep (if st.handout = true then handoutParts else []) (by
      intro e he
      split at he
      · simp only [handoutParts, List.mem_cons, List.not_mem_nil, or_false] at he
        rcases he with rfl | rfl | rfl <;> rfl
      · exact absurd he (by simp)),
    keep (themeAndLayoutParts st) (yielded_themes s st),
    keep (writeImagesFrom _ _) (yielded_images s _ _),
    keep (fontParts _) (by
      intro e he
      obtain ⟨f, -, rfl⟩ := List.mem_map.mp he
      rfl),
    keep (if st.signature = true then signatureParts else []) (by
      intro e he
      split at he
      · simp only [signatureParts, List.mem_cons, List.not_mem_nil, or_false] at he
        rcases he with rfl | rfl <;> rfl
      · exact absurd he (by simp)),
    keep (if hasNotes (filledSlides s) = true then _ else []) (by
      intro e he
      split at he
      · rcases List.mem_append.mp he with he | he
        · exact yielded_notesRels s _ _ _ e he
        · simp only [notesMasterParts, List.mem_cons, List.not_mem_nil, or_false] at he
          rcases he with rfl | rfl | rfl <;> rfl
      · exact absurd he (by simp)),
    keep [_, _] (by intro e he; simp only [List.mem_cons, List.not_mem_nil, or_false] at he
                    rcases he with rfl | rfl <;> rfl)]

theorem names_chartParts_slide (a c m : Nat) :
    PartName.slide m ∉ names ((consecutive a c).flatMap chartParts) ∧
    PartName.slideRels m ∉ names ((consecutive a c).flatMap chartParts) := by
  constructor <;>
  · intro h
    obtain ⟨e, he, hn⟩ := List.mem_map.mp h
    obtain ⟨x, -, he⟩ := List.mem_flatMap.mp he
    simp only [chartParts, List.mem_cons, List.not_mem_nil, or_false] at he
    rcases he with rfl | rfl | rfl <;> exact absurd hn (by simp)

theorem names_slideEntries_slide (i n k r m : Nat) (x : SlideIn) :
    (PartName.slide m ∈ names (slideEntries i n k r x) ↔ m = i + 1) ∧
    PartName.slideRels m ∉ names (slideEntries i n k r x) := by
  have hink : ∀ p : PartName, p ∈ names (if x.ink = true then [(⟨.ink (k + 1), .other⟩ : Entry)] else []) →
      p = .ink (k + 1) := by
    intro p hp
    split at hp
    · simpa [names] using hp
    · exact absurd hp (by simp [names])
  have hnot : ∀ p : PartName, p ∈ names (x.notes.toList.map fun text =>
      (⟨.notes (n + 1), .notes (i + 1) text⟩ : Entry)) → p = .notes (n + 1) := by
    intro p hp
    obtain ⟨e, he, rfl⟩ := List.mem_map.mp hp
    obtain ⟨t, -, rfl⟩ := List.mem_map.mp he
    rfl
  unfold slideEntries
  simp only [names_append, List.mem_append]
  constructor
  · constructor
    · rintro ((h | h) | h)
      · exact absurd (hink _ h) (by simp)
      · simpa [names] using h
      · exact absurd (hnot _ h) (by simp)
    · rintro rfl
      exact Or.inl (Or.inr (by simp [names]))
  · rintro ((h | h) | h)
    · exact absurd (hink _ h) (by simp)
    · exact absurd h (by simp [names])
    · exact absurd (hnot _ h) (by simp)

theorem source_packages_slide (s : Source) (st : BuildSettings) (r : MediaRegistry)
    (starts : List Nat) (a n k m : Nat) :
    (PartName.slide m ∈ names (s.packagesFrom st r a n k starts) ↔
      a + 1 ≤ m ∧ m ≤ a + starts.length ∧ (s.generate (m - 1)).isSome = true) ∧
    (PartName.slideRels m ∈ names (s.packagesFrom st r a n k starts) ↔
      a + 1 ≤ m ∧ m ≤ a + starts.length ∧ (s.generate (m - 1)).isSome = true) := by
  induction starts generalizing a n k with
  | nil =>
    constructor <;>
    · constructor
      · intro h; exact absurd h (by simp [Source.packagesFrom, names])
      · rintro ⟨h1, h2, -⟩
        simp at h2
        omega
  | cons t starts ih =>
    have other : ∀ m, m ≠ a + 1 → (a + 1 + 1 ≤ m ∧ m ≤ a + 1 + starts.length ∧
        (s.generate (m - 1)).isSome = true ↔
        a + 1 ≤ m ∧ m ≤ a + (t :: starts).length ∧ (s.generate (m - 1)).isSome = true) := by
      intro m hm
      rw [List.length_cons]
      constructor
      · rintro ⟨h1, h2, h3⟩; exact ⟨by omega, by omega, h3⟩
      · rintro ⟨h1, h2, h3⟩; exact ⟨by omega, by omega, h3⟩
    unfold Source.packagesFrom
    cases hg : s.generate a with
    | none =>
      have here : ∀ m, (a + 1 + 1 ≤ m ∧ m ≤ a + 1 + starts.length ∧
          (s.generate (m - 1)).isSome = true ↔
          a + 1 ≤ m ∧ m ≤ a + (t :: starts).length ∧ (s.generate (m - 1)).isSome = true) := by
        intro m
        by_cases hm : m = a + 1
        · subst hm
          simp [hg]
        · exact other m hm
      obtain ⟨i1, i2⟩ := ih (a + 1) n k
      exact ⟨i1.trans (here m), i2.trans (here m)⟩
    | some x =>
      obtain ⟨i1, i2⟩ := ih (a + 1) (n + x.notes.isSome.toNat) (k + x.ink.toNat)
      have c := names_chartParts_slide t x.charts m
      have e := names_slideEntries_slide a n k
        (slideContentRelStart x.notes.isSome (slideImageRelTargets x r).length) m x
      have rel1 : PartName.slide m ∉ names [slideRelsEntry st r a n k t x] := by
        simp [names, slideRelsEntry]
      have rel2 : PartName.slideRels m ∈ names [slideRelsEntry st r a n k t x] ↔ m = a + 1 := by
        simp [names, slideRelsEntry]
      simp only [names_append, List.mem_append, i1, i2, e.1, e.2, c.1, c.2, rel1, rel2, or_false,
        false_or]
      by_cases hm : m = a + 1
      · subst hm
        simp [hg]
      · simp only [hm, false_or]
        exact ⟨other m hm, other m hm⟩

theorem source_starts_length (s : Source) (t : Nat) (is : List Nat) :
    (s.startsFrom t is).length = is.length := by
  induction is generalizing t with
  | nil => rfl
  | cons i is ih => simp [Source.startsFrom, ih]

theorem yielded_sourceNotes (s s' : Source) (n : Nat) (is : List Nat) :
    ∀ e ∈ s.notesRelsFrom n is, yielded s' e.name = true := by
  induction is generalizing n with
  | nil => intro e he; exact absurd he (by simp [Source.notesRelsFrom])
  | cons x l ih =>
    intro e he
    unfold Source.notesRelsFrom at he
    split at he
    · rcases List.mem_cons.mp he with rfl | he
      · rfl
      · exact ih _ e he
    · exact ih _ e he

/-- What is written before the slides of a source. -/
def sourceHead (s : Source) (st : BuildSettings) : List Entry :=
  [⟨.contentTypes, .contentTypes (s.contentTypes st)⟩,
   ⟨.rootRels, .rels (rootRels st.signature)⟩,
   ⟨.presRels, .rels (presentationRelsWithFonts s.count s.hasNotes st.handout
     ((prepareFonts st s.count s.hasNotes).getD []))⟩,
   ⟨.presentation, .presentation (presentationXml s.count s.hasNotes st.handout
     ((prepareFonts st s.count s.hasNotes).getD []))⟩] ++
  standardParts ++ (if st.handout then handoutParts else [])

/-- What is written after the slides of a source. -/
def sourceTail (s : Source) (st : BuildSettings) : List Entry :=
  (if s.hasNotes then s.notesRelsFrom 0 s.indices ++ notesMasterParts else []) ++
  themeAndLayoutParts st ++
  [⟨.core, .other⟩, ⟨.app, .other⟩] ++
  writeImagesFrom 0 s.registry.files ++
  fontParts ((prepareFonts st s.count s.hasNotes).getD []) ++
  (if st.signature then signatureParts else [])

theorem source_split (s : Source) (st : BuildSettings) :
    s.build st = sourceHead s st ++
      s.packagesFrom st s.registry 0 0 0 (s.startsFrom 0 s.indices) ++ sourceTail s st := by
  unfold Source.build sourceHead sourceTail
  simp only [List.append_assoc]

theorem yielded_head (s s' : Source) (st : BuildSettings) :
    ∀ e ∈ sourceHead s st, yielded s' e.name = true := by
  intro e he
  unfold sourceHead at he
  rcases List.mem_append.mp he with he | he
  · rcases List.mem_append.mp he with he | he
    · simp only [List.mem_cons, List.not_mem_nil, or_false] at he
      rcases he with rfl | rfl | rfl | rfl <;> rfl
    · simp only [standardParts, List.mem_cons, List.not_mem_nil, or_false] at he
      rcases he with rfl | rfl | rfl <;> rfl
  · split at he
    · simp only [handoutParts, List.mem_cons, List.not_mem_nil, or_false] at he
      rcases he with rfl | rfl | rfl <;> rfl
    · exact absurd he (by simp)

theorem yielded_tail (s s' : Source) (st : BuildSettings) :
    ∀ e ∈ sourceTail s st, yielded s' e.name = true := by
  intro e he
  unfold sourceTail at he
  rcases List.mem_append.mp he with he | he
  · rcases List.mem_append.mp he with he | he
    · rcases List.mem_append.mp he with he | he
      · rcases List.mem_append.mp he with he | he
        · rcases List.mem_append.mp he with he | he
          · split at he
            · rcases List.mem_append.mp he with he | he
              · exact yielded_sourceNotes s s' _ _ e he
              · simp only [notesMasterParts, List.mem_cons, List.not_mem_nil, or_false] at he
                rcases he with rfl | rfl | rfl <;> rfl
            · exact absurd he (by simp)
          · exact yielded_themes s' st e he
        · simp only [List.mem_cons, List.not_mem_nil, or_false] at he
          rcases he with rfl | rfl <;> rfl
      · exact yielded_images s' _ _ e he
    · obtain ⟨f, -, rfl⟩ := List.mem_map.mp he
      rfl
  · split at he
    · simp only [signatureParts, List.mem_cons, List.not_mem_nil, or_false] at he
      rcases he with rfl | rfl <;> rfl
    · exact absurd he (by simp)

/-- **C156**: whatever the features say, the slide parts and slide relationship parts written for
a source are those of the indices below its count at which it yields a slide. -/
theorem C156_slides (s : Source) (st : BuildSettings) (m : Nat) :
    (PartName.slide m ∈ (s.build st).map (·.name) ↔
      1 ≤ m ∧ m ≤ s.count ∧ (s.generate (m - 1)).isSome = true) ∧
    (PartName.slideRels m ∈ (s.build st).map (·.name) ↔
      1 ≤ m ∧ m ≤ s.count ∧ (s.generate (m - 1)).isSome = true) := by
  obtain ⟨p1, p2⟩ := source_packages_slide s st s.registry (s.startsFrom 0 s.indices) 0 0 0 m
  have hl : (s.startsFrom 0 s.indices).length = s.count := by
    rw [source_starts_length]; simp [Source.indices]
  rw [hl, Nat.zero_add, Nat.zero_add] at p1 p2
  have away : ∀ p : PartName, yielded ⟨0, fun _ => none, fun _ => none⟩ p = false →
      ∀ l : List Entry, (∀ e ∈ l, yielded ⟨0, fun _ => none, fun _ => none⟩ e.name = true) →
        p ∉ l.map (·.name) := by
    intro p hp l hl hm
    obtain ⟨e, he, rfl⟩ := List.mem_map.mp hm
    rw [hl e he] at hp
    exact absurd hp (by simp)
  have a1 := away (.slide m) rfl _ (yielded_head s _ st)
  have a2 := away (.slideRels m) rfl _ (yielded_head s _ st)
  have b1 := away (.slide m) rfl _ (yielded_tail s _ st)
  have b2 := away (.slideRels m) rfl _ (yielded_tail s _ st)
  rw [source_split]
  simp only [List.map_append, List.mem_append, a1, a2, b1, b2, or_false, false_or]
  exact ⟨p1, p2⟩

/-- **C156**: a source that yields a slide at every index below its count, and reports their
features, is written as the list of its slides is. -/
theorem C156_complete (s : Source) (st : BuildSettings) (h : Honest s)
    (hg : ∀ i, i < s.count → (s.generate i).isSome) : s.build st = buildPackageLazy (filledSlides s) st := by
  let s' : Source := ⟨s.count, fun i => some ((s.generate i).getD blankSlide),
    fun i => some (((s.generate i).getD blankSlide).notes.isSome,
      ((s.generate i).getD blankSlide).charts)⟩
  have hs' : s'.build st = buildPackageLazy (filledSlides s) st := by
    rw [C156_gaps s' st fun i _ => rfl, List.filter_eq_self.mpr]
    · rfl
    · intro e _
      cases e.name <;> rfl
  rw [C156_gaps s st h, List.filter_eq_self]
  intro e he
  rw [← hs'] at he
  cases hn : e.name with
  | slide m =>
    have := (C156_slides s' st m).1.mp (List.mem_map.mpr ⟨e, he, hn⟩)
    exact hg _ (by have h1 := this.1; have h2 : m ≤ s.count := this.2.1; omega)
  | slideRels m =>
    have := (C156_slides s' st m).2.mp (List.mem_map.mpr ⟨e, he, hn⟩)
    exact hg _ (by have h1 := this.1; have h2 : m ≤ s.count := this.2.1; omega)
  | _ => rfl

/-- **C156**: the presentation lists one slide for every index below the count, whether the source
yields it or not: `n` relationships to slides, each to the part its number names. -/
theorem C156_listed (s : Source) (st : BuildSettings) :
    ∃ l, (⟨.presRels, .rels l⟩ : Entry) ∈ s.build st ∧
      ∀ i, i < s.count → ∃ id, (⟨id, relTypeBase ++ c!"slide",
        c!"slides/slide" ++ dec (i + 1) ++ c!".xml", false⟩ : RelEntry) ∈ l := by
  refine ⟨_, by rw [source_split]; exact List.mem_append_left _ (List.mem_append_left _
    (List.mem_append_left _ (List.mem_append_left _ (List.mem_cons_of_mem _ (List.mem_cons_of_mem _
      List.mem_cons_self))))), ?_⟩
  intro i hi
  refine ⟨c!"rId" ++ dec (slideRelId (i + 1)), ?_⟩
  refine List.mem_append_left _ (List.mem_append_left _ (List.mem_append_left _
    (List.mem_append_left _ (List.mem_append_right _ ?_))))
  exact List.mem_map.mpr ⟨i + 1, List.mem_map.mpr ⟨i, List.mem_range.mpr hi, rfl⟩, rfl⟩

/-- **C156**: for a source whose features are those of its slides, written without a template and
with fonts of different file names, the archive entries have pairwise distinct names. -/
theorem C156_distinct_partial (s : Source) (st : BuildSettings) (h : Honest s)
    (ht : st.template = none) (hf : ((st.fonts.getD []).map (·.fileName)).Nodup) :
    ((s.build st).map (·.name.path)).Nodup := by
  rw [C156_gaps s st h]
  have hp := (C34_same_parts (filledSlides s) st).map PartName.path
  have h1 := C31_no_duplicates_partial (.custom (filledSlides s)) st ht hf
  have h2 : ((buildPackageLazy (filledSlides s) st).map (·.name.path)).Nodup := by
    have e : ∀ l : List Entry, l.map (·.name.path) = (names l).map PartName.path := by
      intro l; simp [names, Function.comp_def]
    rw [e] at h1 ⊢
    exact hp.nodup_iff.mpr h1
  exact h2.sublist (List.filter_sublist.map _)

/-- **C156**: with such a source every slide the presentation lists has its part in the archive
exactly when the source yields a slide at every index below its count. -/
theorem C156_resolves (s : Source) (st : BuildSettings) (h : Honest s) (ht : st.template = none) :
    (∀ i, i < s.count → c!"ppt/slides/slide" ++ dec (i + 1) ++ c!".xml" ∈
      (s.build st).map (·.name.path)) ↔ ∀ i, i < s.count → (s.generate i).isSome = true := by
  have own : ∀ e ∈ s.build st, e.name.Own := by
    intro e he
    rw [C156_gaps s st h] at he
    have hm : e.name ∈ names (buildPackage (.custom (filledSlides s)) st) :=
      (C34_same_parts (filledSlides s) st).mem_iff.mp
        (List.mem_map.mpr ⟨e, (List.mem_filter.mp he).1, rfl⟩)
    exact expectedParts_own _ _ _ ((mem_names ht).mp hm)
  constructor
  · intro hall i hi
    obtain ⟨e, he, hp⟩ := List.mem_map.mp (hall i hi)
    have hn : e.name = .slide (i + 1) := PartName.path_inj (own e he) (by simp [PartName.Own]) hp
    exact ((C156_slides s st (i + 1)).1.mp (List.mem_map.mpr ⟨e, he, hn⟩)).2.2
  · intro hall i hi
    obtain ⟨e, he, hn⟩ := List.mem_map.mp ((C156_slides s st (i + 1)).1.mpr
      ⟨by omega, by omega, hall i hi⟩)
    exact List.mem_map.mpr ⟨e, he, by show e.name.path = _; rw [hn]; rfl⟩

/-- **C156**: the titles listed in the properties of the document are those of the list of slides,
a gap being listed by its number. -/
theorem C156_titles (s : Source) :
    s.titles = Quick.listedTitles (some ((filledSlides s).map (·.title))) s.count := by
  unfold Source.titles Quick.listedTitles filledSlides Source.indices
  apply List.ext_getElem
  · simp
  intro i h1 h2
  simp only [List.getElem_map, List.getElem_mapIdx, List.getElem_range]
  cases s.generate i <;> rfl

/-- **C156 does not hold in full.** A source that says it has two slides and yields only the first
is written without complaint: the presentation and the content types list a second slide for which
there is no part (src/generator/builder.rs 1041-1043 passes over it). -/
theorem C156_gap_violated :
    let s : Source := ⟨2, fun i => if i = 0 then some titleSlide else none,
      fun i => if i = 0 then some (false, 0) else none⟩
    Honest s ∧ c!"ppt/slides/slide2.xml" ∉ (s.build .none).map (·.name.path) ∧
    typeOf (s.contentTypes .none) c!"ppt/slides/slide2.xml" = some .slide := by
  refine ⟨?_, by decide +kernel, by decide +kernel⟩
  intro i _
  by_cases hi : i = 0 <;> simp [hi, titleSlide]

/-- **C156 does not hold in full.** A source can override `slide_features`
(src/generator/builder.rs 291-295), and nothing compares its answer with the slides. With features
that do not count charts, two slides with a chart each are both given chart 1, and the archive has
two entries of that name; with features that announce notes, relationships are written for a notes
part that is not there. -/
theorem C156_features_violated :
    (let s : Source := ⟨2, fun _ => some { titleSlide with charts := 1 }, fun _ => some (false, 0)⟩;
      ((s.build .none).map (·.name.path)).count c!"ppt/charts/chart1.xml" = 2) ∧
    (let s : Source := ⟨1, fun _ => some titleSlide, fun _ => some (true, 0)⟩;
      c!"ppt/notesSlides/_rels/notesSlide1.xml.rels" ∈ (s.build .none).map (·.name.path) ∧
      c!"ppt/notesSlides/notesSlide1.xml" ∉ (s.build .none).map (·.name.path)) := by
  decide +kernel

/-- Three indices, the second without a slide. -/
def gappy : Source where
  count := 3
  generate i := if i = 1 then none else some { titleSlide with charts := i + 1, notes := some c!"n" }
  features := defaultFeatures fun i =>
    if i = 1 then none else some { titleSlide with charts := i + 1, notes := some c!"n" }

example : Honest gappy ∧
    gappy.titles = [c!"T", c!"Slide 2", c!"T"] ∧
    ((gappy.build .none).map (·.name.path)).filter (fun p => startsWith c!"ppt/slides/slide" p) =
      [c!"ppt/slides/slide1.xml", c!"ppt/slides/slide3.xml"] :=
  ⟨fun _ _ => rfl, by decide +kernel, by decide +kernel⟩

end PptRs.Props
