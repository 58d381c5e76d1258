import Verif.Props.ValidatePres

/-!
# C64: the validator accepts generated decks

The remaining checks look into the texts of slides, charts, masters and themes. They are assumed to have
the ids and references of the builder's model.
-/

namespace PptRs.Props

open PptRs.Spec PptRs.Validate

/-- The text of a slide has the drawing ids and refers only to the relationships of the model. -/
structure SlideTextOk (x : SlideXml) (t : Str) : Prop where
  refs : ∀ id ∈ extractRelReferenceIds t, id ∈ x.imageRefs ++ x.chartRefs ++ x.inkRef.toList ++ x.linkRefs
  ids : extractAttrValues t c!"p:cNvPr" c!"id" = x.drawingIds.map dec

/-- What the validator looks for in the texts of parts. -/
structure TextsOk (d : Deck) (st : BuildSettings) (texts : PartTexts) : Prop where
  nonblank : ∀ p t, texts p = some t → ∃ c ∈ t, isWs c = false
  slide : ∀ n x t, ⟨.slide n, .slide x⟩ ∈ buildPackage d st → texts (.slide n) = some t → SlideTextOk x t
  chart : ∀ n t, texts (.chart n) = some t → containsStr c!"<c:externalData" t = true
  master : ∀ t, texts .master = some t → containsStr c!"<p:txStyles>" t = true ∧
    ∀ id ∈ extractAttrValues t c!"p:sldLayoutId" c!"r:id", ∃ i, 1 ≤ i ∧ i ≤ 7 ∧ id = c!"rId" ++ dec i
  theme : ∀ t, texts (.theme 1) = some t → 7000 ≤ utf8Len t
  presProps : ∀ t, texts .presProps = some t → containsStr c!"<p:prnPr" t = false
  handout : ∀ t, texts .handoutMaster = some t → containsStr c!"<p:bg>" t = true
  notesMaster : ∀ t, texts .notesMaster = some t → containsStr c!"<p:bg>" t = true

/-- Further conditions on the slides: pictures with bytes, ids of links that are distinct and not used by
the builder, no ids chosen by the caller, and no link that looks like a notes part. -/
structure SlidesOk (d : Deck) : Prop where
  images : ∀ s ∈ d.slides, ImagesOk s
  linkIdsDistinct : ∀ s ∈ d.slides, (linkIds s).Nodup
  linkIdsFree : ∀ s ∈ d.slides, ∀ n ≤ ownRelCount s s.images.length, c!"rId" ++ dec n ∉ linkIds s
  shapeIds : ∀ s ∈ d.slides, ∀ y ∈ s.shapes, y.id = none
  notesLinks : ∀ s ∈ d.slides, ∀ sh ∈ s.shapes, ∀ k, sh.link = some k → k.action.isExternal = true →
    containsStr c!"notesSlides/notesSlide" (resolveRelTarget c!"ppt/slides" (escapeXml k.action.relationshipTarget)) = false

/-! ### Well-formedness -/

theorem dropWhile_nil_iff {s : Str} : s.dropWhile isWs = [] ↔ ∀ c ∈ s, isWs c = true := by
  induction s with
  | nil => simp
  | cons c s ih =>
    rw [List.dropWhile_cons]
    split
    · rename_i h; rw [ih]; simp [h]
    · rename_i h; simp [h]

theorem trim_eq_nil_iff_ws {s : Str} : trim s = [] ↔ ∀ c ∈ s, isWs c = true := by
  unfold trim trimEnd trimStart
  rw [List.reverse_eq_nil_iff, dropWhile_nil_iff]
  constructor
  · intro h
    rw [← dropWhile_nil_iff]
    cases e : s.dropWhile isWs with
    | nil => rfl
    | cons x t =>
      have hx : isWs x = false := by
        have := List.head?_dropWhile_not isWs s
        rw [e] at this
        simpa using this
      rw [e] at h
      have := h x (by simp)
      rw [hx] at this
      exact absurd this (by decide)
  · intro h c hc
    exact h c (List.IsSuffix.subset (List.dropWhile_suffix _) (List.mem_reverse.mp hc))

/-- The check of well-formedness accepts every text that is not blank. -/
theorem wellFormedXml_iff {s : Str} : Repair.validateWellFormedXml s = true ↔ ∃ c ∈ s, isWs c = false := by
  unfold Repair.validateWellFormedXml
  simp only
  split
  · rename_i h
    rw [trim_eq_nil_iff_ws] at h
    constructor
    · intro h'; exact absurd h' (by decide)
    · rintro ⟨c, hc, e⟩; rw [h c hc] at e; exact absurd e (by decide)
  · rename_i h
    rw [trim_eq_nil_iff_ws] at h
    simp only [true_iff]
    by_contra hne
    refine h fun c hc => ?_
    cases e : isWs c with
    | true => rfl
    | false => exact absurd ⟨c, hc, e⟩ hne

theorem wellFormedXml_start {s : Str} (h : '<' ∈ s) : Repair.validateWellFormedXml s = true :=
  wellFormedXml_iff.mpr ⟨'<', h, by decide⟩

/-- **C64**: no part is reported as malformed. -/
theorem C64_xml_partial (d : Deck) (st : BuildSettings) (h : DeckOk d st) (desc : Str → Str) (texts : PartTexts)
    (ht : TextsOk d st texts) : checkXmlParts (packageArchive d st desc texts) = [] := by
  unfold checkXmlParts
  rw [List.flatMap_eq_nil_iff]
  intro x hx
  obtain ⟨y, hy, rfl⟩ := List.mem_map.mp (List.mem_of_mem_filter hx)
  rw [readPart_archive h desc texts hy]
  cases e : entryText d st desc texts y with
  | none => rfl
  | some t =>
    have : Repair.validateWellFormedXml t = true := by
      unfold entryText at e
      split at e
      · simp only [Option.some.injEq] at e; subst e
        exact wellFormedXml_start (by simp [contentTypesText])
      · simp only [Option.some.injEq] at e; subst e
        refine wellFormedXml_start ?_
        unfold relsPartText
        split <;> simp [renderRelsWith, renderRels]
      · simp only [Option.some.injEq] at e; subst e
        exact wellFormedXml_start (by rw [presentation_parts]; simp)
      · exact wellFormedXml_iff.mpr (ht.nonblank _ _ e)
    simp only [this]
    rfl

/-! ### Slides -/

theorem slideRelsPath_eq (n : Nat) : slideRelsPath (PartName.slide n).path = (PartName.slideRels n).path := by
  unfold slideRelsPath
  have h1 : splitOnce? c!"ppt/slides/" (PartName.slide n).path = some ([], c!"slide" ++ dec n ++ c!".xml") := by
    simp [PartName.path, splitOnce?, stripPrefix?]
  have h2 : splitOnce? c!"ppt/slides/" (c!"slide" ++ dec n ++ c!".xml") = none :=
    splitOnce?_none_of_notMem (p := c!"pt/slides/") (by
      simp [not_mem_dec (c := 'p') (n := n) (by decide)])
  rw [replaceStr_of_some (by decide) h1, replaceStr_of_none h2]
  simp [PartName.path]

theorem repeatedIds_nil (path : Str) : ∀ (l seen : List Str), (∀ x ∈ l, x ∉ seen) → l.Nodup →
    repeatedIds path seen l = [] := by
  intro l
  induction l with
  | nil => intro seen _ _; rfl
  | cons a l ih =>
    intro seen h hn
    rw [List.nodup_cons] at hn
    have ha : seen.contains a = false := by simpa using h a (by simp)
    rw [repeatedIds, ha, ih _ _ hn.2]
    · rfl
    · intro x hx hm
      rcases List.mem_cons.mp hm with rfl | hm
      · exact hn.1 hx
      · exact h x (by simp [hx]) hm

theorem relById_mem {l : List RelEntry} {id : Str} {r : RelEntry} (h : relById l id = some r) : r ∈ l ∧ r.id = id :=
  ⟨List.mem_of_find?_eq_some h, by simpa using List.find?_some h⟩

/-- **C64**: no slide refers to a relationship or part that is not there, or has a drawing id twice. -/
theorem C64_slides_partial (d : Deck) (st : BuildSettings) (h : DeckOk d st) (hs : SlidesOk d) (desc : Str → Str)
    (texts : PartTexts) (ht : TextsOk d st texts) :
    checkSlideRelationships (packageArchive d st desc texts) = [] := by
  unfold checkSlideRelationships
  rw [List.flatMap_eq_nil_iff]
  intro x hx
  rw [List.mem_filter] at hx
  obtain ⟨y, hy, rfl⟩ := List.mem_map.mp hx.1
  have hm : y.name ∈ names (buildPackage d st) := List.mem_map.mpr ⟨y, hy, rfl⟩
  have hx2 := hx.2
  rw [isSlidePart_path (fun t e => by
    rw [mem_names h.links.template] at hm
    rw [e] at hm
    exact (expectedParts_own d st _ hm).elim)] at hx2
  obtain ⟨p, b⟩ := y
  cases p <;> simp only [isSlideName, Bool.false_eq_true] at hx2
  rename_i n
  unfold checkSlide
  simp only
  rw [slideRelsPath_eq, readPart_archive h desc texts (e := ⟨.slide n, b⟩) hy]
  have hb := bodyOk d st _ hy
  simp only [BodyOk] at hb
  obtain ⟨sx, rfl⟩ : ∃ sx, b = .slide sx := by
    rcases hb with ⟨j, s, _, _, e⟩ | ⟨k, _, e⟩
    · exact ⟨_, e⟩
    · exact ⟨_, e⟩
  simp only [entryText]
  cases et : texts (.slide n) with
  | none => rfl
  | some t =>
    obtain ⟨hrefs, hids⟩ := ht.slide n sx t hy et
    simp only
    have hdup : repeatedIds (PartName.slide n).path [] (extractAttrValues t c!"p:cNvPr" c!"id") = [] := by
      refine repeatedIds_nil _ _ _ (by simp) ?_
      rw [hids]
      exact (C33_drawing_ids d st n sx hy hs.shapeIds).map fun a b e => dec_inj e
    rw [hdup, List.append_nil, List.flatMap_eq_nil_iff]
    intro id hid
    have hid' := hrefs id hid
    rcases hb with ⟨j, s, hj, rfl, e⟩ | ⟨k, hd, e⟩
    · have hsm : s ∈ d.slides := List.mem_of_getElem? hj
      have hlt : j < d.count := by
        have := (List.getElem?_eq_some_iff.mp hj).1
        cases d with
        | plain k => simp [Deck.slides] at this
        | custom l => exact this
      obtain ⟨bl, hrel⟩ := exists_entry (d := d) (st := st) (p := .slideRels (j + 1)) (by
        rw [mem_names h.links.template]
        have : PartName.slideRels (j + 1) ∈ (List.range' 1 d.count).map PartName.slideRels :=
          List.mem_map.mpr ⟨j + 1, List.mem_range'_1.mpr (by omega), rfl⟩
        simp only [expectedParts, List.mem_append, this, true_or, or_true])
      obtain ⟨l, rfl⟩ : ∃ l, bl = .rels l := rels_body hrel rfl
      have hn := C28_ids_distinct d st j s l hj hrel (hs.linkIdsDistinct s hsm) (hs.linkIdsFree s hsm)
      obtain ⟨r, hr⟩ : ∃ r, relById l id = some r := by
        simp only [List.mem_append] at hid'
        rcases hid' with ((hid' | hid') | hid') | hid'
        · obtain ⟨hlen, hall⟩ := C28_images_partial d st j s l sx hj hrel hy (hs.images s hsm) (h.links.exts s hsm)
          obtain ⟨i, hi, ei⟩ := List.getElem_of_mem hid'
          have hi' : i < s.images.length := hlen ▸ hi
          obtain ⟨bytes, hbytes⟩ := Option.isSome_iff_exists.mp (hs.images s hsm s.images[i] (List.getElem_mem hi'))
          obtain ⟨ref, r, m, e1, e2, _⟩ := hall i s.images[i] bytes (List.getElem?_eq_getElem hi') hbytes
          rw [List.getElem?_eq_getElem hi, ei, Option.some.injEq] at e1
          exact ⟨r, e1 ▸ e2⟩
        · obtain ⟨hlen, hall⟩ := C28_charts_partial d st j s l sx hj hrel hy (hs.images s hsm)
          obtain ⟨i, hi, ei⟩ := List.getElem_of_mem hid'
          obtain ⟨ref, r, e1, e2, _⟩ := hall i (hlen ▸ hi)
          rw [List.getElem?_eq_getElem hi, ei, Option.some.injEq] at e1
          exact ⟨r, e1 ▸ e2⟩
        · obtain ⟨_, hall⟩ := C28_ink_partial d st j s l sx hj hrel hy (hs.images s hsm)
          obtain ⟨r, e1, _⟩ := hall id (by simpa using hid')
          exact ⟨r, e1⟩
        · have hx' : id ∈ linkIds s := by
            simp only [slideBody, Body.slide.injEq] at e
            rw [e] at hid'
            exact hid'
          simp only [linkIds, List.mem_filterMap] at hx'
          obtain ⟨k, ⟨sh, hsh, hk⟩, hkid⟩ := hx'
          obtain ⟨_, r, e1, _⟩ := C28_links_partial d st j s l sx hj hrel hy (hs.linkIdsDistinct s hsm)
            (hs.linkIdsFree s hsm) sh k id hsh hk hkid
          exact ⟨r, e1⟩
      obtain ⟨hrm, rfl⟩ := relById_mem hr
      unfold checkReference
      rw [relationships_archive h desc texts hrel rfl, lastById_of hn hrm]
      simp only
      cases hx : r.external with
      | true => rw [if_pos (by simp [RelEntry.scanned, hx])]
      | false =>
        rw [if_neg (by simp [RelEntry.scanned, hx])]
        obtain ⟨q, hq, e3⟩ := C29_no_dangling_partial d st h.links _ l hrel r hrm hx
        rw [scanned_leads (relOk_of_mem h hrel r hrm) hx e3, hasPart_archive.mpr ⟨q, hq, rfl⟩]
        rfl
    · simp only [Body.slide.injEq] at e
      subst e
      simp at hid'

/-! ### Charts -/

def isChartName : PartName → Bool
  | .chart _ => true
  | _ => false

theorem isChart_path {p : PartName} (h : ∀ t, p ≠ .templatePart t) :
    (startsWith c!"ppt/charts/chart" p.path && endsWith c!".xml" p.path) = isChartName p := by
  cases p
  case templatePart t => exact absurd rfl (h t)
  case chart n =>
    have h1 : endsWith c!".xml" (c!"ppt/charts/chart" ++ dec n ++ c!".xml") = true := by
      rw [endsWith, List.isSuffixOf_iff_suffix]
      exact List.suffix_append _ _
    have h3 : startsWith c!"ppt/charts/chart" (c!"ppt/charts/chart" ++ dec n ++ c!".xml") = true := by
      rw [List.append_assoc]; simp [startsWith]
    simp only [PartName.path, isChartName, h1, h3]
    rfl
  all_goals simp [PartName.path, isChartName, startsWith]

theorem chartRelsPath_eq (n : Nat) : chartRelsPath (PartName.chart n).path = (PartName.chartRels n).path := by
  unfold chartRelsPath
  have h1 : splitOnce? c!"ppt/charts/" (PartName.chart n).path = some ([], c!"chart" ++ dec n ++ c!".xml") := by
    simp [PartName.path, splitOnce?, stripPrefix?]
  have h2 : splitOnce? c!"ppt/charts/" (c!"chart" ++ dec n ++ c!".xml") = none :=
    splitOnce?_none_of_notMem (p := c!"pt/charts/") (by
      simp [not_mem_dec (c := 'p') (n := n) (by decide)])
  rw [replaceStr_of_some (by decide) h1, replaceStr_of_none h2]
  simp [PartName.path]

theorem trimStartMatches_once {c : Char} {p r : Str} (h : c ∉ r.head?) :
    trimStartMatches (c :: p) (c :: p ++ r) = r := by
  have hr : ∀ fuel, trimStartFuel (c :: p) fuel r = r := by
    intro fuel
    cases fuel with
    | zero => rfl
    | succ k =>
      cases r with
      | nil => simp [trimStartFuel, stripPrefix?]
      | cons x r =>
        have : ¬ c = x := by intro e; exact h (by simp [e])
        simp [trimStartFuel, stripPrefix?, this]
  unfold trimStartMatches
  simp only [List.cons_append, List.length_cons]
  rw [trimStartFuel, show c :: (p ++ r) = (c :: p) ++ r from rfl, stripPrefix?_append]
  exact hr _

theorem chart_index (n : Nat) :
    trimEndMatches c!".xml" (trimStartMatches c!"ppt/charts/chart" (PartName.chart n).path) = dec n := by
  have hd : ∀ c ∈ dec n, c.isDigit = true := by
    intro c hc
    by_contra hne
    exact not_mem_dec (c := c) (n := n) (by simpa using hne) hc
  have h1 : trimStartMatches c!"ppt/charts/chart" (PartName.chart n).path = dec n ++ c!".xml" := by
    have := trimStartMatches_once (c := 'p') (p := c!"pt/charts/chart") (r := dec n ++ c!".xml") (by
      cases e : dec n with
      | nil => simp
      | cons x t =>
        have := hd x (by simp [e])
        simp only [List.cons_append, List.head?_cons, Option.mem_def, Option.some.injEq]
        rintro rfl
        exact absurd this (by decide))
    simpa [PartName.path] using this
  rw [h1]
  unfold trimEndMatches
  have h2 : trimStartMatches (c!".xml").reverse ((c!".xml").reverse ++ (dec n).reverse) = (dec n).reverse := by
    refine trimStartMatches_once (c := 'l') (p := c!"mx.") ?_
    cases e : (dec n).reverse with
    | nil => simp
    | cons x t =>
      have := hd x (by rw [← List.mem_reverse, e]; simp)
      simp only [List.head?_cons, Option.mem_def, Option.some.injEq]
      rintro rfl
      exact absurd this (by decide)
  rw [List.reverse_append, h2, List.reverse_reverse]

/-- **C64**: every chart has its relationship part, its workbook and the reference to it. -/
theorem C64_charts_partial (d : Deck) (st : BuildSettings) (h : DeckOk d st) (desc : Str → Str)
    (texts : PartTexts) (ht : TextsOk d st texts) :
    checkChartPackages (packageArchive d st desc texts) = [] := by
  unfold checkChartPackages
  rw [List.flatMap_eq_nil_iff]
  intro x hx
  rw [List.mem_filter] at hx
  obtain ⟨y, hy, rfl⟩ := List.mem_map.mp hx.1
  have hm : y.name ∈ names (buildPackage d st) := List.mem_map.mpr ⟨y, hy, rfl⟩
  have hx2 := hx.2
  rw [isChart_path (fun t e => by
    rw [mem_names h.links.template] at hm
    rw [e] at hm
    exact (expectedParts_own d st _ hm).elim)] at hx2
  obtain ⟨p, b⟩ := y
  cases p <;> simp only [isChartName, Bool.false_eq_true] at hx2
  rename_i n
  simp only at hm
  have hn : n ∈ List.range' 1 (numCharts d.slides) := by
    rw [mem_names h.links.template] at hm
    simp only [expectedParts, List.mem_append, List.mem_map, List.mem_cons, List.not_mem_nil, or_false,
      PartName.chart.injEq, reduceCtorEq, and_false, exists_false, false_or, or_false, exists_eq_right] at hm
    by_cases h0 : numNotes d.slides = 0 <;> cases hh : st.handout <;> cases hsig : st.signature <;>
      simp [h0, hh, hsig, mediaParts] at hm <;> simpa using hm
  have hin : ∀ q, q ∈ [PartName.chartRels n, .embedding n] → q ∈ names (buildPackage d st) := by
    intro q hq
    rw [mem_names h.links.template]
    have h1 : PartName.chartRels n ∈ (List.range' 1 (numCharts d.slides)).map PartName.chartRels :=
      List.mem_map.mpr ⟨n, hn, rfl⟩
    have h2 : PartName.embedding n ∈ (List.range' 1 (numCharts d.slides)).map PartName.embedding :=
      List.mem_map.mpr ⟨n, hn, rfl⟩
    simp only [List.mem_cons, List.not_mem_nil, or_false] at hq
    rcases hq with rfl | rfl
    · simp only [expectedParts, List.mem_append, h1, true_or, or_true]
    · simp only [expectedParts, List.mem_append, h2, true_or, or_true]
  unfold checkChart
  simp only
  rw [chartRelsPath_eq, chart_index, hasPart_archive.mpr ⟨_, hin (.chartRels n) (by simp), rfl⟩,
    hasPart_archive.mpr ⟨_, hin (.embedding n) (by simp), by simp [PartName.path]⟩]
  obtain ⟨br, hrel⟩ := exists_entry (hin (.chartRels n) (by simp))
  have hb := bodyOk d st _ hrel
  simp only [BodyOk] at hb
  subst hb
  rw [relationships_archive h desc texts hrel rfl, readPart_archive h desc texts (e := ⟨.chart n, b⟩) hy]
  have hbc := bodyOk d st _ hy
  simp only [BodyOk] at hbc
  subst hbc
  have hemb : ((chartRels n).map (RelEntry.scanned (relsSourceDir (PartName.chartRels n).path))).any
      (fun r => containsStr c!"embeddings/" r.target) = true := by
    simp only [chartRels, List.map_cons, List.any_cons, RelEntry.scanned, rel, Bool.or_eq_true]
    exact .inl (containsStr_iff.mpr ⟨c!"../", c!"Microsoft_Excel_Sheet" ++ dec n ++ c!".xlsx", by simp⟩)
  rw [hemb]
  simp only [entryText]
  cases et : texts (.chart n) with
  | none => rfl
  | some t => simp only [ht.chart n t et]; rfl

/-! ### Notes slides -/

theorem ownRels_internal {s : SlideIn} {g : MediaRegistry} {a b c e : Nat} {r : RelEntry}
    (h : r ∈ ownRels s g a b c e) : r.external = false := by
  have himg : ∀ (l : List (Nat × Str)) (i : Nat), r ∈ imageRelsFrom (2 + s.notes.isSome.toNat) i l → r.external = false := by
    intro l
    induction l with
    | nil => intro i h; simp [imageRelsFrom] at h
    | cons x l ih =>
      intro i h
      simp only [imageRelsFrom, List.mem_cons] at h
      rcases h with rfl | h
      · rfl
      · exact ih _ h
  simp only [ownRels, slideRelsWithImages, List.mem_append, List.mem_map, List.mem_singleton, List.not_mem_nil,
    or_false] at h
  rcases h with (((rfl | h) | h) | ⟨x, _, rfl⟩) | ⟨x, _, rfl⟩
  · rfl
  · split at h
    · rw [List.mem_singleton] at h; subst h; rfl
    · simp at h
  · exact himg _ _ h
  · rfl
  · rfl

/-- **C64**: no slide is reported for a missing notes slide. -/
theorem C64_notes_partial (d : Deck) (st : BuildSettings) (h : DeckOk d st) (hs : SlidesOk d) (desc : Str → Str)
    (texts : PartTexts) : checkNotesSlides (packageArchive d st desc texts) = [] := by
  unfold checkNotesSlides
  rw [List.flatMap_eq_nil_iff]
  intro x hx
  simp only [relationshipParts, List.mem_map, List.mem_filter, Bool.and_eq_true] at hx
  obtain ⟨y, ⟨hy, hends, _⟩, rfl⟩ := hx
  obtain ⟨⟨p, b⟩, he, rfl⟩ := List.mem_map.mp hy
  simp only at hends ⊢
  split
  · rename_i hst
    have hm : p ∈ names (buildPackage d st) := List.mem_map.mpr ⟨_, he, rfl⟩
    rw [endsWith_rels h hm] at hends
    obtain ⟨l, hl⟩ := rels_body he hends
    simp only at hl
    subst hl
    rw [relationships_archive h desc texts he hends, List.flatMap_eq_nil_iff]
    intro r' hr'
    obtain ⟨r, hr, rfl⟩ := List.mem_map.mp hr'
    cases hx : r.external with
    | false =>
      obtain ⟨q, hq, e3⟩ := C29_no_dangling_partial d st h.links _ l he r hr hx
      rw [scanned_leads (relOk_of_mem h he r hr) hx e3, hasPart_archive.mpr ⟨q, hq, rfl⟩]
      simp [issueIf]
    | true =>
      have : containsStr c!"notesSlides/notesSlide" (r.scanned (relsSourceDir p.path)).resolved = false := by
        cases p <;> simp only [isRelsPart, Bool.false_eq_true] at hends <;>
          (try (simp [PartName.path, startsWith] at hst; done))
        rename_i m
        have hb := bodyOk d st _ he
        simp only [BodyOk] at hb
        rcases hb with ⟨j, s, hj, rfl, e⟩ | ⟨k, _, e⟩
        · rw [slideRels_body hj he, List.mem_append] at hr
          rcases hr with hr | hr
          · rw [ownRels_internal hr] at hx
            exact absurd hx (by decide)
          · simp only [hyperlinkRels, List.mem_filterMap, Option.map_eq_some_iff] at hr
            obtain ⟨k, ⟨sh, hsh, hk⟩, id, _, rfl⟩ := hr
            have := hs.notesLinks s (List.mem_of_getElem? hj) sh hsh k hk hx
            rw [sourceDir_slideRels]
            exact this
        · simp only [Body.rels.injEq] at e
          subst e
          simp only [List.mem_singleton] at hr
          subst hr
          exact absurd hx (by decide)
      rw [this]
      rfl
  · rfl

/-! ### Masters and theme -/

theorem part_in {d : Deck} {st : BuildSettings} (h : st.template = none) {p : PartName} (hp : p ∈ expectedParts d st) :
    ∃ b, (⟨p, b⟩ : Entry) ∈ buildPackage d st := exists_entry (by rwa [mem_names h])

theorem part_of_path {d : Deck} {st : BuildSettings} (h : DeckOk d st) {desc : Str → Str} {texts : PartTexts}
    {p : PartName} (hp : hasPart (packageArchive d st desc texts) p.path = true) (ho : p.Own := by exact trivial) :
    p ∈ expectedParts d st := by
  obtain ⟨q, hq, e⟩ := hasPart_archive.mp hp
  rw [mem_names h.links.template] at hq
  rwa [← PartName.path_inj (expectedParts_own d st _ hq) ho e]

/-- **C64**: the theme is large enough. -/
theorem C64_theme_partial (d : Deck) (st : BuildSettings) (h : DeckOk d st) (desc : Str → Str) (texts : PartTexts)
    (ht : TextsOk d st texts) : checkTheme (packageArchive d st desc texts) = [] := by
  obtain ⟨b, hb⟩ := part_in (d := d) (st := st) (p := .theme 1) h.links.template (by simp [expectedParts])
  have e := bodyOk d st _ hb
  simp only [BodyOk] at e
  subst e
  unfold checkTheme
  rw [show c!"ppt/theme/theme1.xml" = (⟨.theme 1, .other⟩ : Entry).name.path from rfl, readPart_archive h desc texts hb]
  simp only [entryText]
  cases et : texts (.theme 1) with
  | none => rfl
  | some t =>
    have := ht.theme t et
    simp only [issueIf]
    rw [if_neg (by simp; omega)]

/-- **C64**: the notes master leads to its theme and has a background. -/
theorem C64_notes_master_partial (d : Deck) (st : BuildSettings) (h : DeckOk d st) (desc : Str → Str)
    (texts : PartTexts) (ht : TextsOk d st texts) : checkNotesMaster (packageArchive d st desc texts) = [] := by
  unfold checkNotesMaster
  simp only
  split
  · rfl
  rename_i hp
  simp only [Bool.not_eq_true', Bool.not_eq_false] at hp
  have hn : numNotes d.slides ≠ 0 := by
    intro h0
    have := part_of_path (p := .notesMaster) h hp
    simp [expectedParts, h0, mediaParts] at this
  obtain ⟨b, hb⟩ := part_in (d := d) (st := st) (p := .notesMaster) h.links.template (by simp [expectedParts, hn])
  obtain ⟨b2, hb2⟩ := part_in (d := d) (st := st) (p := .notesMasterRels) h.links.template (by simp [expectedParts, hn])
  have e := bodyOk d st _ hb
  have e2 := bodyOk d st _ hb2
  simp only [BodyOk] at e e2
  subst e e2
  rw [show c!"ppt/notesMasters/notesMaster1.xml" = (⟨.notesMaster, .other⟩ : Entry).name.path from rfl,
    show c!"ppt/notesMasters/_rels/notesMaster1.xml.rels" = PartName.notesMasterRels.path from rfl,
    readPart_archive h desc texts hb, relationships_archive h desc texts hb2 rfl,
    show ((notesMasterRels.map (RelEntry.scanned (relsSourceDir PartName.notesMasterRels.path))).any
      fun r => containsStr c!"theme/theme2.xml" r.resolved) = true by decide]
  simp only [entryText]
  cases et : texts .notesMaster with
  | none => rfl
  | some t => simp only [ht.notesMaster t et]; rfl

/-- **C64**: the handout master leads to its theme and has a background; the print settings are not in the
presentation properties. -/
theorem C64_handout_partial (d : Deck) (st : BuildSettings) (h : DeckOk d st) (desc : Str → Str)
    (texts : PartTexts) (ht : TextsOk d st texts) : checkHandoutPackage (packageArchive d st desc texts) = [] := by
  unfold checkHandoutPackage
  simp only
  split
  · rfl
  rename_i hp
  simp only [Bool.not_eq_true', Bool.not_eq_false] at hp
  have hn : st.handout = true := by
    cases h0 : st.handout with
    | true => rfl
    | false =>
      have := part_of_path (p := .handoutMaster) h hp
      simp [expectedParts, h0, mediaParts] at this
  obtain ⟨b, hb⟩ := part_in (d := d) (st := st) (p := .handoutMaster) h.links.template (by simp [expectedParts, hn])
  obtain ⟨b2, hb2⟩ := part_in (d := d) (st := st) (p := .handoutRels) h.links.template (by simp [expectedParts, hn])
  obtain ⟨b3, hb3⟩ := part_in (d := d) (st := st) (p := .presProps) h.links.template (by simp [expectedParts])
  have e := bodyOk d st _ hb
  have e2 := bodyOk d st _ hb2
  have e3 := bodyOk d st _ hb3
  simp only [BodyOk] at e e2 e3
  subst e e2 e3
  rw [show c!"ppt/handoutMasters/handoutMaster1.xml" = (⟨.handoutMaster, .other⟩ : Entry).name.path from rfl,
    show c!"ppt/presProps.xml" = (⟨.presProps, .other⟩ : Entry).name.path from rfl,
    show c!"ppt/handoutMasters/_rels/handoutMaster1.xml.rels" = PartName.handoutRels.path from rfl,
    readPart_archive h desc texts hb, readPart_archive h desc texts hb3, relationships_archive h desc texts hb2 rfl,
    show ((handoutMasterRels.map (RelEntry.scanned (relsSourceDir PartName.handoutRels.path))).any
      fun r => containsStr c!"theme/theme3.xml" r.resolved) = true by decide]
  simp only [entryText]
  cases et : texts .presProps with
  | none =>
    cases et2 : texts .handoutMaster with
    | none => rfl
    | some t => simp only [ht.handout t et2]; rfl
  | some t1 =>
    simp only [ht.presProps t1 et]
    cases et2 : texts .handoutMaster with
    | none => rfl
    | some t => simp only [ht.handout t et2]; rfl

set_option maxRecDepth 8000 in
/-- The elements the validator looks for in the presentation when it compares the ids of masters are never
there: the check finds nothing in any generated presentation. -/
theorem C64_master_ids_dead {desc : Str → Str} {fonts : List EmbeddedFont} (n : Nat) (a b : Bool)
    (hd : ∀ f ∈ fonts, '<' ∉ desc f.typeface) (hid : ∀ f ∈ fonts, ∃ n, f.relationshipId = c!"rId" ++ dec n)
    (master : Str) : checkMasterIds (presentationTextWithFonts desc n a b fonts) master = [] := by
  have key : ∀ m : Str, (∀ x ∈ fontListPieces, noStart ('<' :: m) x = true) →
      noStart ('<' :: m) (fmt presentationRest) = true → noStart ('<' :: m) c!"</p:presentation>" = true →
      noStart ('<' :: m) (presentationBefore n a b) = true →
      noStart ('<' :: m) c!"<p:sldIdLst>" = true → noStart ('<' :: m) (c!"\n" ++ c!"<p:sldId " ++ c!"id=\"") = true →
      noStart ('<' :: m) slideSizeText = true →
      containsStr ('<' :: m) (presentationTextWithFonts desc n a b fonts) = false := by
    intro m h1 h2 h3 h4 h5 h6 h7
    rw [presentation_parts]
    refine containsStr_of_noStart (noStart_append (noStart_append (noStart_append h4 h5) (noStart_flatMap fun i _ => ?_))
      (noStart_append h7 ?_))
    · have e : c!"\n" ++ c!"<p:sldId " ++ slideRefTail i = (c!"\n" ++ c!"<p:sldId " ++ c!"id=\"") ++
          (dec (slideIdValue i) ++ c!"\" r:id=\"" ++ (c!"rId" ++ dec (slideRelId i)) ++ c!"\"/>") := by
        unfold slideRefTail
        generalize dec (slideIdValue i) = x
        generalize dec (slideRelId i) = y
        simp
      rw [e]
      refine noStart_append h6 (noStart_of_notMem ?_)
      simp [not_mem_dec (c := '<') (by decide)]
    · exact noStart_tail h1 h2 h3 hd hid
  unfold checkMasterIds extractAttrValues
  simp only
  rw [extractLoop_none _ (key c!"notesMasterId" (by decide) (by decide +kernel) (by decide)
      (noStart_before n a b (by decide) (by decide) (by decide) (by decide) (by decide) (by decide) (by decide)
      (by decide) (by decide)) (by decide) (by decide) (by decide)),
    extractLoop_none _ (key c!"handoutMasterId" (by decide) (by decide +kernel) (by decide)
      (noStart_before n a b (by decide) (by decide) (by decide) (by decide) (by decide) (by decide) (by decide)
      (by decide) (by decide)) (by decide) (by decide) (by decide))]
  rfl

/-- **C64**: the slide master has text styles and leads to its layouts. -/
theorem C64_master_partial (d : Deck) (st : BuildSettings) (h : DeckOk d st) (desc : Str → Str)
    (hd : ∀ f ∈ st.fonts.getD [], '<' ∉ desc f.typeface) (texts : PartTexts) (ht : TextsOk d st texts) :
    checkSlideMaster (packageArchive d st desc texts) = [] := by
  obtain ⟨b, hb⟩ := part_in (d := d) (st := st) (p := .master) h.links.template (by simp [expectedParts])
  obtain ⟨b2, hb2⟩ := part_in (d := d) (st := st) (p := .masterRels) h.links.template (by simp [expectedParts])
  obtain ⟨b3, hb3⟩ := part_in (d := d) (st := st) (p := .presentation) h.links.template (by simp [expectedParts])
  have e := bodyOk d st _ hb
  have e2 := bodyOk d st _ hb2
  have e3 := bodyOk d st _ hb3
  simp only [BodyOk] at e e2 e3
  subst e e2 e3
  unfold checkSlideMaster
  simp only
  rw [show c!"ppt/slideMasters/slideMaster1.xml" = (⟨.master, .other⟩ : Entry).name.path from rfl,
    readPart_archive h desc texts hb]
  simp only [entryText]
  cases et : texts .master with
  | none => rfl
  | some t =>
    obtain ⟨h1, h2⟩ := ht.master t et
    have hpt : readPart (packageArchive d st desc texts) c!"ppt/presentation.xml" =
        some (presentationTextWithFonts desc d.count (hasNotes d.slides) st.handout (fontsOf d st)) :=
      readPart_archive h desc texts hb3
    have hfont : ∀ f ∈ fontsOf d st, (∃ n, f.relationshipId = c!"rId" ++ dec n) ∧ '<' ∉ desc f.typeface := by
      intro f hf
      rw [fontsOf_eq, assignFontIds] at hf
      obtain ⟨g, hg, e, _⟩ := mem_assign hf
      exact ⟨mem_assign_id h.fontIds hf, e ▸ hd g hg⟩
    simp only [h1, hpt]
    rw [C64_master_ids_dead _ _ _ (fun f hf => (hfont f hf).2) (fun f hf => (hfont f hf).1),
      show c!"ppt/slideMasters/_rels/slideMaster1.xml.rels" = PartName.masterRels.path from rfl,
      relationships_archive h desc texts hb2 rfl]
    have hl : ∀ id ∈ extractAttrValues t c!"p:sldLayoutId" c!"r:id", leadsInto ((masterRels standardLayoutCount).map
        (RelEntry.scanned (relsSourceDir PartName.masterRels.path))) c!"slideLayout" id = true := by
      intro id hid
      obtain ⟨i, hi1, hi2, rfl⟩ := h2 id hid
      have : i = 1 ∨ i = 2 ∨ i = 3 ∨ i = 4 ∨ i = 5 ∨ i = 6 ∨ i = 7 := by omega
      rcases this with rfl | rfl | rfl | rfl | rfl | rfl | rfl <;> decide
    have : ((extractAttrValues t c!"p:sldLayoutId" c!"r:id").flatMap fun id => issueIf (!leadsInto
        ((masterRels standardLayoutCount).map (RelEntry.scanned (relsSourceDir PartName.masterRels.path)))
        c!"slideLayout" id) .slideMaster PartName.master.path) = [] := by
      rw [List.flatMap_eq_nil_iff]
      intro id hid
      rw [hl id hid]
      rfl
    rw [this]
    rfl

/-! ### The whole validator -/

/-- **C64**: the validator finds nothing wrong with a generated deck. -/
theorem C64_accepted_partial (d : Deck) (st : BuildSettings) (h : DeckOk d st) (hs : SlidesOk d) (desc : Str → Str)
    (hd : ∀ f ∈ st.fonts.getD [], '<' ∉ desc f.typeface) (texts : PartTexts) (ht : TextsOk d st texts) :
    validatePackage (packageArchive d st desc texts) = [] := by
  unfold validatePackage
  rw [C64_required d st h.links.template, C64_xml_partial d st h desc texts ht, C64_relationships_partial d st h,
    C64_content_types_partial d st h, C64_presentation_partial d st h desc hd, C64_master_partial d st h desc hd texts ht,
    C64_theme_partial d st h desc texts ht, C64_charts_partial d st h desc texts ht,
    C64_slides_partial d st h hs desc texts ht, C64_notes_partial d st h hs, C64_handout_partial d st h desc texts ht,
    C64_notes_master_partial d st h desc texts ht]
  rfl

/-! ### What the conditions leave out -/

/-- The texts with a slide text. -/
def withSlide (t : Str) : PartTexts
  | .slide _ => some t
  | _ => none

/-- A picture without bytes: the slide refers to a relationship that is not there. -/
theorem C64_missing_bytes_violated :
    let s : SlideIn := ⟨c!"T", .titleOnly, 0, false, [], [⟨none, c!"png"⟩], none, 0, 0, 0, false⟩
    checkSlideRelationships (packageArchive (.custom [s]) .none (fun _ => [])
      (withSlide c!"<p:pic><a:blip r:embed=\"rId2\"/></p:pic>")) = [⟨.slide, c!"ppt/slides/slide1.xml"⟩] := by
  decide +kernel

/-- A web address that looks like the name of a notes part is taken for one. -/
theorem C64_notes_links_violated :
    checkNotesSlides (packageArchive (.custom [linkSlide (.url c!"http://x.org/notesSlides/notesSlide1.xml")]) .none
      (fun _ => []) (fun _ => none)) = [⟨.slide, c!"ppt/slides/_rels/slide1.xml.rels"⟩] := by
  decide +kernel

/-- A text with the ids and references of a slide with a linked shape meets the conditions. -/
theorem withSlide_ok : TextsOk (.custom [linkSlide (.slide 1)]) .none (withSlide
    c!"<p:cNvPr id=\"1\"/><p:cNvPr id=\"2\"/><p:cNvPr id=\"10\"/><a:hlinkClick r:id=\"rId9\"/>") := by
  refine ⟨?_, ?_, ?_, ?_, ?_, ?_, ?_, ?_⟩
  · intro p t h
    cases p <;> simp only [withSlide, reduceCtorEq, Option.some.injEq] at h
    exact ⟨'<', by rw [← h]; decide, by decide⟩
  · intro n x t hx ht
    simp only [withSlide, Option.some.injEq] at ht
    subst ht
    have hb := bodyOk _ _ _ hx
    simp only [BodyOk, reduceCtorEq, false_and, exists_false, or_false] at hb
    obtain ⟨j, s, hj, _, e⟩ := hb
    have : s = linkSlide (.slide 1) := by
      cases j with
      | zero => simpa [Deck.slides] using hj.symm
      | succ j => simp [Deck.slides] at hj
    subst this
    simp only [slideBody, Body.slide.injEq] at e
    subst e
    exact ⟨by decide, by decide⟩
  all_goals (intros; simp [withSlide] at *)

example : SlidesOk (.custom [linkSlide (.slide 1)]) := by
  refine ⟨?_, ?_, ?_, ?_, ?_⟩ <;> simp only [Deck.slides, List.mem_singleton, forall_eq]
  · intro i hi; simp [linkSlide] at hi
  · decide
  · decide
  · decide
  · intro sh hsh k hk he
    simp only [linkSlide, List.mem_singleton] at hsh
    subst hsh
    simp only [Option.some.injEq] at hk
    subst hk
    exact absurd he (by decide)

/-! ## C91: well-formedness -/

/-- **C91** is violated: the check of well-formedness accepts every text that is not blank. -/
theorem C91_accepts_violated (s : Str) : Repair.validateWellFormedXml s = true ↔ ∃ c ∈ s, isWs c = false :=
  wellFormedXml_iff

/-- **C91**: what it does refuse is no XML document. -/
theorem C91_refused_partial (s : Str) (h : Repair.validateWellFormedXml s = false) : document s = none := by
  have hb : ∀ c ∈ s, isWs c = true := by
    intro c hc
    cases e : isWs c with
    | true => rfl
    | false =>
      rw [wellFormedXml_iff.mpr ⟨c, hc, e⟩] at h
      exact absurd h (by decide)
  unfold document
  split
  · rename_i hp
    rw [List.isPrefixOf_iff_prefix] at hp
    have := hb '<' (hp.subset (by decide))
    exact absurd this (by decide)
  · rfl

example : Repair.validateWellFormedXml c!"<a><b></a" = true := by decide

end PptRs.Props
