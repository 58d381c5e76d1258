import Verif.Props.BuilderIds

/-!
# C28: the relationships of generated slides
-/

namespace PptRs.Props

open PptRs.Spec

/-- The relationship ids the caller chose for the hyperlinks of a slide. -/
def linkIds (s : SlideIn) : List Str := (s.shapes.filterMap (·.link)).filterMap (·.rId)

/-- The relationships of a slide without the hyperlinks. -/
def ownRels (s : SlideIn) (r : MediaRegistry) (layoutNumber notesPart inkPart startChart : Nat) :
    List RelEntry :=
  let images := slideImageRelTargets s r
  let startRid := slideContentRelStart s.notes.isSome images.length
  slideRelsWithImages layoutNumber s.notes.isSome notesPart
    ((List.range s.charts).map fun j =>
      (startRid + j, c!"../charts/chart" ++ dec (startChart + j) ++ c!".xml"))
    images [] (if s.ink then some (startRid + s.charts, inkPart) else none)

theorem slideRelsOf_eq (s : SlideIn) (r : MediaRegistry) (a b c e : Nat) :
    slideRelsOf s r a b c e = ownRels s r a b c e ++ hyperlinkRels s := by
  simp [slideRelsOf, ownRels, slideRelsWithImages]

theorem imageRelsFrom_ids (first i : Nat) (l : List (Nat × Str)) :
    (imageRelsFrom first i l).map (·.id) = (List.range' (first + i) l.length).map rid := by
  induction l generalizing i with
  | nil => rfl
  | cons x l ih =>
    obtain ⟨n, e⟩ := x
    simp only [imageRelsFrom, List.map_cons, ih, List.length_cons, List.range'_succ]
    rfl

theorem imageRelsFrom_get (first i : Nat) (l : List (Nat × Str)) (j : Nat) :
    (imageRelsFrom first i l)[j]? = l[j]?.map fun x =>
      rel (first + i + j) c!"image" (c!"../media/image" ++ dec x.1 ++ c!"." ++ x.2) := by
  induction l generalizing i j with
  | nil => simp [imageRelsFrom]
  | cons x l ih =>
    obtain ⟨n, e⟩ := x
    cases j with
    | zero => simp [imageRelsFrom]
    | succ j =>
      simp only [imageRelsFrom, List.getElem?_cons_succ, ih]
      rw [show first + (i + 1) + j = first + i + (j + 1) by omega]

/-- The number of relationships of a slide other than hyperlinks. -/
def ownRelCount (s : SlideIn) (images : Nat) : Nat :=
  1 + s.notes.isSome.toNat + images + s.charts + s.ink.toNat

theorem ownRels_ids (s : SlideIn) (r : MediaRegistry) (a b c e : Nat) :
    (ownRels s r a b c e).map (·.id) =
      (List.range' 1 (ownRelCount s (slideImageRelTargets s r).length)).map rid := by
  generalize hk : (slideImageRelTargets s r).length = k
  have h1 : ∀ n : Nat, ((List.range s.charts).map fun j => c!"rId" ++ dec (n + j)) =
      (List.range' n s.charts).map rid := by
    intro n
    rw [List.range'_eq_map_range, List.map_map]
    rfl
  simp only [ownRels, slideRelsWithImages, List.map_append, List.map_map, List.map_cons,
    List.map_nil, imageRelsFrom_ids, Function.comp_def, rel, h1, hk, Nat.add_zero]
  rw [ownRelCount, show 1 + s.notes.isSome.toNat + k + s.charts + s.ink.toNat =
    1 + (s.notes.isSome.toNat + (k + (s.charts + s.ink.toNat))) by omega]
  simp only [← List.range'_append_1, List.map_append, slideContentRelStart]
  cases s.notes.isSome <;> cases s.ink <;>
    simp [rid, List.range'_succ, Nat.add_comm, Nat.add_left_comm]

theorem hyperlinkRels_ids (s : SlideIn) : (hyperlinkRels s).map (·.id) = linkIds s := by
  simp only [hyperlinkRels, linkIds, List.map_filterMap]
  congr 1
  funext h
  cases h.rId <;> rfl

theorem slideRels_body {d : Deck} {st : BuildSettings} {j : Nat} {s : SlideIn} {l : List RelEntry}
    (hs : d.slides[j]? = some s) (h : ⟨.slideRels (j + 1), .rels l⟩ ∈ buildPackage d st) :
    l = ownRels s (buildMediaRegistry d.slides) (resolveLayout st s.layout.layoutNumber)
      (if s.notes.isSome then numNotes (d.slides.take j) + 1 else 1)
      (numInk (d.slides.take j) + 1) (numCharts (d.slides.take j) + 1) ++ hyperlinkRels s := by
  have hb := bodyOk d st _ h
  simp only [BodyOk] at hb
  rcases hb with ⟨j', s', hj, hm, e⟩ | ⟨n, hd, e⟩
  · have : j' = j := by omega
    subst this
    rw [hs, Option.some.injEq] at hj
    subst hj
    simp only [slideRelsEntry, Entry.mk.injEq, Body.rels.injEq, true_and] at e
    rw [e, slideRelsOf_eq]
  · subst hd
    simp [Deck.slides] at hs

theorem slide_body {d : Deck} {st : BuildSettings} {j : Nat} {s : SlideIn} {x : SlideXml}
    (hs : d.slides[j]? = some s) (h : ⟨.slide (j + 1), .slide x⟩ ∈ buildPackage d st) :
    Body.slide x = slideBody s := by
  have hb := bodyOk d st _ h
  simp only [BodyOk] at hb
  rcases hb with ⟨j', s', hj, hm, e⟩ | ⟨n, hd, e⟩
  · have : j' = j := by omega
    subst this
    rw [hs, Option.some.injEq] at hj
    subst hj
    exact e
  · subst hd
    simp [Deck.slides] at hs

/-- **C28**: the relationship ids of every slide are distinct, if the ids the caller chose for
hyperlinks are distinct and are not among the first `1 + notes + images + charts + ink`. -/
theorem C28_ids_distinct (d : Deck) (st : BuildSettings) (j : Nat) (s : SlideIn)
    (l : List RelEntry) (hs : d.slides[j]? = some s)
    (h : ⟨.slideRels (j + 1), .rels l⟩ ∈ buildPackage d st) (h1 : (linkIds s).Nodup)
    (h2 : ∀ n ≤ ownRelCount s s.images.length, c!"rId" ++ dec n ∉ linkIds s) :
    (l.map (·.id)).Nodup := by
  rw [slideRels_body hs h, List.map_append, ownRels_ids, hyperlinkRels_ids, List.nodup_append]
  refine ⟨List.Nodup.map (fun a b h => rid_inj h) List.nodup_range', h1, ?_⟩
  intro x hx y hy e
  subst e
  simp only [List.mem_map, List.mem_range'_1] at hx
  obtain ⟨n, hn, rfl⟩ := hx
  have hle : (slideImageRelTargets s (buildMediaRegistry d.slides)).length ≤ s.images.length :=
    List.length_filterMap_le _ _
  exact h2 n (by simp only [ownRelCount] at hn ⊢; omega) hy

theorem ownRel_resolves {s : SlideIn} {g : MediaRegistry} {a b c e : Nat} {r : RelEntry}
    {tail : List RelEntry} (hr : r ∈ ownRels s g a b c e) :
    relById (ownRels s g a b c e ++ tail) r.id = some r := by
  apply relById_append_left
  apply relById_of_mem _ hr
  rw [ownRels_ids]
  exact List.Nodup.map (fun a b h => rid_inj h) List.nodup_range'

theorem sourceDir_slideRels (n : Nat) :
    relsSourceDir (PartName.slideRels n).path = joinStr c!"/" [c!"ppt", c!"slides"] := by
  have := C06_source_dir c!"ppt/slides" (c!"slide" ++ dec n ++ c!".xml")
    (by simp [slash_notMem_dec]) (by decide) (by decide)
  simpa [PartName.path, joinStr] using this

/-- Following `../dir/file` from a slide. -/
theorem leadsTo_fromSlide {n : Nat} {id ty t dir file : Str} {x : Bool}
    (e : t = c!"../" ++ dir ++ c!"/" ++ file) (h1 : '&' ∉ t) (h2 : '<' ∉ t)
    (hd : CleanSeg dir) (hf : CleanSeg file) :
    leadsTo (.slideRels n) ⟨id, ty, t, x⟩ = some (c!"ppt/" ++ dir ++ c!"/" ++ file) := by
  have := leadsTo_of (p := .slideRels n) (r := ⟨id, ty, t, x⟩) (t := t)
    (base := [c!"ppt", c!"slides"]) (dest := [dir, file]) (readText_of_plain h1 h2)
    (sourceDir_slideRels n)
    (by
      intro s hs
      simp only [List.mem_cons, List.not_mem_nil, or_false] at hs
      rcases hs with rfl | rfl <;> exact cleanSeg_of (by decide) (by decide))
    (by
      intro s hs
      simp only [List.mem_cons, List.not_mem_nil, or_false] at hs
      rcases hs with rfl | rfl <;> assumption) (by simp) 1 (by simp) (by simp [e, joinStr])
  rw [this]
  simp [joinStr]

/-- Image extensions that are written as they are: no `/`, `&` or `<`. -/
def ExtOk (x : Str) : Prop := '/' ∉ x ∧ '&' ∉ x ∧ '<' ∉ x

theorem leadsTo_image (n id m : Nat) (x : Str) (hx : ExtOk x) :
    leadsTo (.slideRels n) (rel id c!"image" (c!"../media/image" ++ dec m ++ c!"." ++ x)) =
      some (PartName.media m x).path := by
  obtain ⟨h1, h2, h3⟩ := hx
  rw [rel, leadsTo_fromSlide (dir := c!"media") (file := c!"image" ++ dec m ++ c!"." ++ x)]
  · simp [PartName.path]
  · simp
  · simp [not_mem_dec (c := '&') (n := m) (by decide), h2]
  · simp [not_mem_dec (c := '<') (n := m) (by decide), h3]
  · exact cleanSeg_of (by decide) (by decide)
  · exact cleanSeg_of (by decide) (by simp [slash_notMem_dec, h1])

theorem leadsTo_numbered (n id m : Nat) (ty dir pre suf : Str) (c : Char)
    (hd : CleanSeg dir) (hdx : '&' ∉ dir ∧ '<' ∉ dir) (hc : c ≠ '.')
    (hp : '/' ∉ c :: pre ∧ '&' ∉ c :: pre ∧ '<' ∉ c :: pre) (hs : '/' ∉ suf ∧ '&' ∉ suf ∧ '<' ∉ suf) :
    leadsTo (.slideRels n) (rel id ty (c!"../" ++ dir ++ c!"/" ++ (c :: pre) ++ dec m ++ suf)) =
      some (c!"ppt/" ++ dir ++ c!"/" ++ (c :: pre) ++ dec m ++ suf) := by
  obtain ⟨h1, h2, h3⟩ := hp
  obtain ⟨h4, h5, h6⟩ := hs
  have d1 := not_mem_dec (c := '&') (n := m) (by decide)
  have d2 := not_mem_dec (c := '<') (n := m) (by decide)
  rw [rel, leadsTo_fromSlide (dir := dir) (file := (c :: pre) ++ dec m ++ suf)]
  · simp
  · simp
  · simp only [List.mem_append, not_or]
    exact ⟨⟨⟨⟨⟨by decide, hdx.1⟩, by decide⟩, h2⟩, d1⟩, h5⟩
  · simp only [List.mem_append, not_or]
    exact ⟨⟨⟨⟨⟨by decide, hdx.2⟩, by decide⟩, h3⟩, d2⟩, h6⟩
  · exact hd
  · refine cleanSeg_of hc ?_
    change '/' ∉ (c :: pre) ++ dec m ++ suf
    simp only [List.mem_append, not_or]
    exact ⟨⟨h1, slash_notMem_dec m⟩, h4⟩

theorem leadsTo_chart (n id m : Nat) :
    leadsTo (.slideRels n) (rel id c!"chart" (c!"../charts/chart" ++ dec m ++ c!".xml")) =
      some (PartName.chart m).path :=
  leadsTo_numbered n id m _ c!"charts" c!"hart" c!".xml" 'c' (cleanSeg_of (by decide) (by decide))
    (by decide) (by decide) (by decide) (by decide)

theorem leadsTo_ink (n id m : Nat) :
    leadsTo (.slideRels n) (rel id c!"ink" (c!"../ink/ink" ++ dec m ++ c!".xml")) =
      some (PartName.ink m).path :=
  leadsTo_numbered n id m _ c!"ink" c!"nk" c!".xml" 'i' (cleanSeg_of (by decide) (by decide))
    (by decide) (by decide) (by decide) (by decide)

theorem leadsTo_notes (n id m : Nat) :
    leadsTo (.slideRels n)
        (rel id c!"notesSlide" (c!"../notesSlides/notesSlide" ++ dec m ++ c!".xml")) =
      some (PartName.notes m).path :=
  leadsTo_numbered n id m _ c!"notesSlides" c!"otesSlide" c!".xml" 'n'
    (cleanSeg_of (by decide) (by decide)) (by decide) (by decide) (by decide) (by decide)

theorem leadsTo_layout (n id m : Nat) :
    leadsTo (.slideRels n) (rel id c!"slideLayout" (layoutRelTarget m)) =
      some (PartName.layout m).path :=
  leadsTo_numbered n id m _ c!"slideLayouts" c!"lideLayout" c!".xml" 's'
    (cleanSeg_of (by decide) (by decide)) (by decide) (by decide) (by decide) (by decide)

/-- **C28**: if every image of the slide has data, the `i`-th picture refers to an image
relationship that leads to a part with exactly this image's bytes. -/
theorem C28_images_partial (d : Deck) (st : BuildSettings) (j : Nat) (s : SlideIn)
    (l : List RelEntry) (x : SlideXml) (hs : d.slides[j]? = some s)
    (h : ⟨.slideRels (j + 1), .rels l⟩ ∈ buildPackage d st)
    (hx : ⟨.slide (j + 1), .slide x⟩ ∈ buildPackage d st) (hok : ImagesOk s)
    (hext : ∀ i ∈ s.images, ExtOk i.ext) :
    x.imageRefs.length = s.images.length ∧
    ∀ (i : Nat) img b, s.images[i]? = some img → img.bytes = some b → ∃ ref r m,
      x.imageRefs[i]? = some ref ∧ relById l ref = some r ∧ r.type = relTypeBase ++ c!"image" ∧
      leadsTo (.slideRels (j + 1)) r = some (PartName.media m img.ext).path ∧
      ⟨.media m img.ext, .media b⟩ ∈ buildPackage d st := by
  have hm : s ∈ d.slides := List.mem_of_getElem? hs
  have e := slideRels_body hs h
  have ex := slide_body hs hx
  simp only [slideBody, Body.slide.injEq] at ex
  subst e ex
  refine ⟨by simp [slideXml, consecutive], ?_⟩
  intro i img b hi hb
  have himg := List.mem_of_getElem? hi
  obtain ⟨m, hm'⟩ := lookup_of_mem hm himg hb
  have hget := slideImageRelTargets_get hm hok i
  rw [hi, Option.bind_some, hb, Option.bind_some, hm', Option.map_some] at hget
  have hlt : i < s.images.length := (List.getElem?_eq_some_iff.mp hi).1
  refine ⟨rid (2 + s.notes.isSome.toNat + i), rel (2 + s.notes.isSome.toNat + i) c!"image"
    (c!"../media/image" ++ dec m ++ c!"." ++ img.ext), m, ?_, ?_, rfl,
    leadsTo_image _ _ _ _ (hext img himg), ?_⟩
  · simp [slideXml, consecutive, hlt, rid]
  · apply ownRel_resolves (r := rel (2 + s.notes.isSome.toNat + i) c!"image"
      (c!"../media/image" ++ dec m ++ c!"." ++ img.ext))
    have := imageRelsFrom_get (2 + s.notes.isSome.toNat) 0
      (slideImageRelTargets s (buildMediaRegistry d.slides)) i
    rw [hget] at this
    have := List.mem_of_getElem? this
    simp only [ownRels, slideRelsWithImages, List.mem_append]
    exact .inl (.inl (.inl (.inr this)))
  · obtain ⟨k, hk, rfl⟩ : ∃ k, (buildMediaRegistry d.slides).entries[k]? = some (b, img.ext) ∧
        m = k + 1 := by
      obtain ⟨hge, hm1⟩ := lookupNumber_some hm'
      exact ⟨m - 1, hm1, by omega⟩
    simp only [buildPackage, List.mem_append]
    refine .inl (.inl (.inr ?_))
    rw [mem_writeImagesFrom]
    exact ⟨k, b, img.ext, hk, by simp⟩

/-- **C28**: if every image of the slide has data, the `i`-th chart of the slide refers to a chart
relationship that leads to this chart's part, numbering the charts of the deck from 1. -/
theorem C28_charts_partial (d : Deck) (st : BuildSettings) (j : Nat) (s : SlideIn)
    (l : List RelEntry) (x : SlideXml) (hs : d.slides[j]? = some s)
    (h : ⟨.slideRels (j + 1), .rels l⟩ ∈ buildPackage d st)
    (hx : ⟨.slide (j + 1), .slide x⟩ ∈ buildPackage d st) (hok : ImagesOk s) :
    x.chartRefs.length = s.charts ∧
    ∀ i < s.charts, ∃ ref r, x.chartRefs[i]? = some ref ∧ relById l ref = some r ∧
      r.type = relTypeBase ++ c!"chart" ∧
      leadsTo (.slideRels (j + 1)) r =
        some (PartName.chart (numCharts (d.slides.take j) + i + 1)).path := by
  have hm : s ∈ d.slides := List.mem_of_getElem? hs
  have hlen := slideImageRelTargets_length hm hok
  have e := slideRels_body hs h
  have ex := slide_body hs hx
  simp only [slideBody, Body.slide.injEq] at ex
  subst e ex
  refine ⟨by simp [slideXml, chartRids, consecutive], ?_⟩
  intro i hi
  refine ⟨rid (slideContentRelStart s.notes.isSome s.images.length + i),
    rel (slideContentRelStart s.notes.isSome s.images.length + i) c!"chart"
      (c!"../charts/chart" ++ dec (numCharts (d.slides.take j) + 1 + i) ++ c!".xml"), ?_, ?_, rfl, ?_⟩
  · simp [slideXml, chartRids, consecutive, hi, rid]
  · apply ownRel_resolves (r := rel (slideContentRelStart s.notes.isSome s.images.length + i)
      c!"chart" (c!"../charts/chart" ++ dec (numCharts (d.slides.take j) + 1 + i) ++ c!".xml"))
    simp only [ownRels, slideRelsWithImages, List.mem_append, List.mem_map, hlen]
    exact .inl (.inl (.inr ⟨_, ⟨i, by simpa using hi, rfl⟩, rfl⟩))
  · rw [leadsTo_chart, show numCharts (d.slides.take j) + 1 + i =
      numCharts (d.slides.take j) + i + 1 by omega]

/-- **C28**: if every image of the slide has data, the ink reference is there exactly for slides
with ink and leads to the slide's ink part. -/
theorem C28_ink_partial (d : Deck) (st : BuildSettings) (j : Nat) (s : SlideIn)
    (l : List RelEntry) (x : SlideXml) (hs : d.slides[j]? = some s)
    (h : ⟨.slideRels (j + 1), .rels l⟩ ∈ buildPackage d st)
    (hx : ⟨.slide (j + 1), .slide x⟩ ∈ buildPackage d st) (hok : ImagesOk s) :
    x.inkRef.isSome = s.ink ∧
    ∀ ref, x.inkRef = some ref → ∃ r, relById l ref = some r ∧
      r.type = relTypeBase ++ c!"ink" ∧ leadsTo (.slideRels (j + 1)) r =
        some (PartName.ink (numInk (d.slides.take j) + 1)).path := by
  have hm : s ∈ d.slides := List.mem_of_getElem? hs
  have hlen := slideImageRelTargets_length hm hok
  have e := slideRels_body hs h
  have ex := slide_body hs hx
  simp only [slideBody, Body.slide.injEq] at ex
  subst e ex
  cases hi : s.ink with
  | false => simp [slideXml, hi]
  | true =>
    refine ⟨by simp [slideXml, hi], ?_⟩
    intro ref hr
    simp only [slideXml, hi, if_true, Option.some.injEq] at hr
    subst hr
    refine ⟨rel (slideContentRelStart s.notes.isSome s.images.length + s.charts) c!"ink"
      (c!"../ink/ink" ++ dec (numInk (d.slides.take j) + 1) ++ c!".xml"), ?_, rfl,
      leadsTo_ink _ _ _⟩
    apply ownRel_resolves (r := rel (slideContentRelStart s.notes.isSome s.images.length +
      s.charts) c!"ink" (c!"../ink/ink" ++ dec (numInk (d.slides.take j) + 1) ++ c!".xml"))
    simp only [ownRels, slideRelsWithImages, List.mem_append, List.mem_map, hlen, hi, if_true]
    exact .inl (.inr ⟨(_, _), by simp only [Option.toList_some, List.mem_singleton], rfl⟩)

/-- **C28**: every slide has a layout relationship, and slides with notes have one that leads to
the part with the notes of this slide. -/
theorem C28_layout_and_notes (d : Deck) (st : BuildSettings) (j : Nat) (s : SlideIn)
    (l : List RelEntry) (hs : d.slides[j]? = some s)
    (h : ⟨.slideRels (j + 1), .rels l⟩ ∈ buildPackage d st) :
    (∃ r, relById l c!"rId1" = some r ∧ r.type = relTypeBase ++ c!"slideLayout" ∧
      leadsTo (.slideRels (j + 1)) r =
        some (PartName.layout (resolveLayout st s.layout.layoutNumber)).path) ∧
    ∀ text, s.notes = some text → ∃ r m, relById l c!"rId2" = some r ∧
      r.type = relTypeBase ++ c!"notesSlide" ∧
      leadsTo (.slideRels (j + 1)) r = some (PartName.notes m).path ∧
      ⟨.notes m, .notes (j + 1) text⟩ ∈ buildPackage d st := by
  have e := slideRels_body hs h
  subst e
  refine ⟨⟨_, ownRel_resolves (r := rel 1 c!"slideLayout"
    (layoutRelTarget (resolveLayout st s.layout.layoutNumber))) ?_, rfl, leadsTo_layout _ _ _⟩, ?_⟩
  · simp [ownRels, slideRelsWithImages]
  · intro text ht
    have hsome : s.notes.isSome = true := by simp [ht]
    refine ⟨_, numNotes (d.slides.take j) + 1, ownRel_resolves (r := rel 2 c!"notesSlide"
      (c!"../notesSlides/notesSlide" ++ dec (numNotes (d.slides.take j) + 1) ++ c!".xml")) ?_, rfl,
      leadsTo_notes _ _ _, ?_⟩
    · simp [ownRels, slideRelsWithImages, hsome]
    · cases d with
      | plain n => simp [Deck.slides] at hs
      | custom slides =>
        simp only [buildPackage, List.mem_append, writeSlides]
        refine .inl (.inl (.inl (.inl (.inl (.inl (.inl (.inl (.inr ?_))))))))
        rw [mem_writeSlidesFrom]
        refine ⟨j, s, hs, ?_⟩
        simp [slideEntries, ht, Deck.slides]

theorem mem_hyperlinkRels {s : SlideIn} {sh : ShapeIn} {k : LinkIn} {id : Str} (h1 : sh ∈ s.shapes)
    (h2 : sh.link = some k) (h3 : k.rId = some id) :
    ⟨id, relTypeBase ++ c!"hyperlink", escapeXml k.action.relationshipTarget, k.action.isExternal⟩ ∈
      hyperlinkRels s := by
  simp only [hyperlinkRels, List.mem_filterMap]
  exact ⟨k, ⟨sh, h1, h2⟩, by simp [h3]⟩

/-- **C29**: in a deck built on a template that has a first layout, the layout relationship of each slide
leads to a part of the template, and to the layout asked for if the template has one with this number. -/
theorem C29_template_layout (d : Deck) (st : BuildSettings) (j : Nat) (s : SlideIn) (l : List RelEntry)
    (paths : List Str) (ht : st.template = some paths) (h1 : c!"ppt/slideLayouts/slideLayout1.xml" ∈ paths)
    (hs : d.slides[j]? = some s) (h : ⟨.slideRels (j + 1), .rels l⟩ ∈ buildPackage d st) :
    ∃ r q, relById l c!"rId1" = some r ∧ r.type = relTypeBase ++ c!"slideLayout" ∧
      leadsTo (.slideRels (j + 1)) r = some q ∧ .templatePart q ∈ names (buildPackage d st) ∧
      ∀ p ∈ paths, p = c!"ppt/slideLayouts/slideLayout" ++ dec s.layout.layoutNumber ++ c!".xml" → q = p := by
  obtain ⟨⟨r, e1, e2, e3⟩, -⟩ := C28_layout_and_notes d st j s l hs h
  refine ⟨r, _, e1, e2, e3, ?_, ?_⟩
  · have hm : (PartName.layout (resolveLayout st s.layout.layoutNumber)).path ∈ paths := by
      simp only [resolveLayout, ht]
      split
      · rename_i hc; exact List.contains_iff_mem.mp hc
      · exact h1
    simp only [names, List.mem_map]
    refine ⟨⟨.templatePart _, .other⟩, ?_, rfl⟩
    simp only [buildPackage, themeAndLayoutParts, ht, List.mem_append, List.mem_map]
    exact .inl (.inl (.inl (.inl (.inl (.inr (.inl ⟨_, hm, rfl⟩))))))
  · rintro p hp rfl
    have : paths.contains (PartName.layout s.layout.layoutNumber).path = true :=
      List.contains_iff_mem.mpr hp
    simp only [resolveLayout, ht, this, if_true]
    rfl

/-- A template with two layouts, of which the deck asks for another one. -/
example :
    let st : BuildSettings := { BuildSettings.none with
      template := some [c!"ppt/slideLayouts/slideLayout1.xml", c!"ppt/slideLayouts/slideLayout2.xml"] }
    let s : SlideIn := ⟨c!"T", .titleOnly, 0, false, [], [], none, 0, 0, 0, false⟩
    (⟨.slideRels 1, .rels [rel 1 c!"slideLayout" c!"../slideLayouts/slideLayout1.xml"]⟩ : Entry) ∈
      buildPackage (.custom [s]) st := by decide +kernel

/-- **C28**: under the condition of `C28_ids_distinct`, every shape hyperlink with an id is
referred to by the slide and resolves to a hyperlink relationship with the target of its action. -/
theorem C28_links_partial (d : Deck) (st : BuildSettings) (j : Nat) (s : SlideIn)
    (l : List RelEntry) (x : SlideXml) (hs : d.slides[j]? = some s)
    (h : ⟨.slideRels (j + 1), .rels l⟩ ∈ buildPackage d st)
    (hx : ⟨.slide (j + 1), .slide x⟩ ∈ buildPackage d st) (h1 : (linkIds s).Nodup)
    (h2 : ∀ n ≤ ownRelCount s s.images.length, c!"rId" ++ dec n ∉ linkIds s)
    (sh : ShapeIn) (k : LinkIn) (id : Str) (hsh : sh ∈ s.shapes) (hk : sh.link = some k)
    (hid : k.rId = some id) :
    id ∈ x.linkRefs ∧ ∃ r, relById l id = some r ∧ r.type = relTypeBase ++ c!"hyperlink" ∧
      readText r.target = some k.action.relationshipTarget ∧ r.external = k.action.isExternal := by
  have hd := C28_ids_distinct d st j s l hs h h1 h2
  have e := slideRels_body hs h
  have ex := slide_body hs hx
  simp only [slideBody, Body.slide.injEq] at ex
  subst ex
  refine ⟨?_, ?_⟩
  · simp only [slideXml, List.mem_filterMap]
    exact ⟨k, ⟨sh, hsh, hk⟩, hid⟩
  · refine ⟨_, relById_of_mem hd (r := ⟨id, relTypeBase ++ c!"hyperlink",
      escapeXml k.action.relationshipTarget, k.action.isExternal⟩) ?_, rfl, readText_escapeXml _, rfl⟩
    rw [e, List.mem_append]
    exact .inr (mem_hyperlinkRels hsh hk hid)

/-- What is left out of `C28_charts_partial`: an image without data takes a relationship id in the
slide part but not in its relationship part, so the chart reference does not resolve. -/
theorem C28_images_violated :
    let s : SlideIn := ⟨c!"T", .titleOnly, 0, false, [], [⟨none, c!"png"⟩], none, 0, 0, 1, false⟩
    ∃ l x, (⟨.slideRels 1, .rels l⟩ : Entry) ∈ buildPackage (.custom [s]) .none ∧
      (⟨.slide 1, .slide x⟩ : Entry) ∈ buildPackage (.custom [s]) .none ∧
      x.chartRefs = [c!"rId3"] ∧ relById l c!"rId3" = none ∧ x.imageRefs = [c!"rId2"] ∧
      (relById l c!"rId2").map (·.type) = some (relTypeBase ++ c!"chart") :=
  ⟨[rel 1 c!"slideLayout" c!"../slideLayouts/slideLayout6.xml", rel 2 c!"chart" c!"../charts/chart1.xml"],
    ⟨[1, 2, 20, 101], [c!"rId2"], [c!"rId3"], none, []⟩, by decide, by decide, rfl, by decide, rfl,
    by decide⟩

/-- What is left out of `C28_ids_distinct`: an id chosen by the caller is not checked. -/
theorem C28_link_ids_violated :
    let s : SlideIn := ⟨c!"T", .titleOnly, 0, false, [⟨none, some ⟨.url c!"u", some c!"rId1"⟩⟩], [],
      none, 0, 0, 0, false⟩
    ∃ l, (⟨.slideRels 1, .rels l⟩ : Entry) ∈ buildPackage (.custom [s]) .none ∧
      ¬ (l.map (·.id)).Nodup :=
  ⟨[rel 1 c!"slideLayout" c!"../slideLayouts/slideLayout6.xml",
    ⟨c!"rId1", relTypeBase ++ c!"hyperlink", c!"u", true⟩], by decide, by decide⟩

/-- A hyperlink without an id is dropped: the slide neither refers to it nor has a relationship
for it. -/
theorem C63_link_without_id_violated :
    let s : SlideIn := ⟨c!"T", .titleOnly, 0, false, [⟨none, some ⟨.url c!"u", none⟩⟩], [],
      none, 0, 0, 0, false⟩
    ∃ l x, (⟨.slideRels 1, .rels l⟩ : Entry) ∈ buildPackage (.custom [s]) .none ∧
      (⟨.slide 1, .slide x⟩ : Entry) ∈ buildPackage (.custom [s]) .none ∧
      l = [rel 1 c!"slideLayout" c!"../slideLayouts/slideLayout6.xml"] ∧ x.linkRefs = [] :=
  ⟨_, ⟨[1, 2, 10], [], [], none, []⟩, by decide, by decide, rfl, rfl⟩

/-- **C63**: the hyperlinks a generated slide refers to are exactly those of its shapes that carry
an id, in order, and each of them has a relationship. -/
theorem C63_links_written_partial (d : Deck) (st : BuildSettings) (j : Nat) (s : SlideIn)
    (l : List RelEntry) (x : SlideXml) (hs : d.slides[j]? = some s)
    (h : ⟨.slideRels (j + 1), .rels l⟩ ∈ buildPackage d st)
    (hx : ⟨.slide (j + 1), .slide x⟩ ∈ buildPackage d st) :
    x.linkRefs = linkIds s ∧
      (l.filter fun r => r.type = relTypeBase ++ c!"hyperlink").map (·.id) = linkIds s := by
  have e := slideRels_body hs h
  have ex := slide_body hs hx
  simp only [slideBody, Body.slide.injEq] at ex
  subst ex
  refine ⟨rfl, ?_⟩
  have h0 : (ownRels s (buildMediaRegistry d.slides) (resolveLayout st s.layout.layoutNumber)
      (if s.notes.isSome then numNotes (d.slides.take j) + 1 else 1)
      (numInk (d.slides.take j) + 1) (numCharts (d.slides.take j) + 1)).filter
        (fun r => r.type = relTypeBase ++ c!"hyperlink") = [] := by
    rw [List.filter_eq_nil_iff]
    intro r hr
    simp only [ownRels, slideRelsWithImages, List.mem_append, List.mem_map, List.mem_singleton,
      List.append_nil] at hr
    have hne : ∀ (n : Nat) (ty t : Str), ty ≠ c!"hyperlink" →
        ¬ (decide ((rel n ty t).type = relTypeBase ++ c!"hyperlink") = true) := by
      intro n ty t ht
      intro e
      exact ht (List.append_cancel_left (of_decide_eq_true e))
    rcases hr with (((rfl | hr) | hr) | ⟨_, _, rfl⟩) | ⟨_, _, rfl⟩
    · exact hne _ _ _ (by decide)
    · split at hr
      · simp only [List.mem_singleton] at hr; subst hr; exact hne _ _ _ (by decide)
      · simp at hr
    · obtain ⟨i, hi⟩ := List.mem_iff_getElem?.mp hr
      rw [imageRelsFrom_get, Option.map_eq_some_iff] at hi
      obtain ⟨_, _, rfl⟩ := hi
      exact hne _ _ _ (by decide)
    · exact hne _ _ _ (by decide)
    · exact hne _ _ _ (by decide)
  have h1 : (hyperlinkRels s).filter (fun r => r.type = relTypeBase ++ c!"hyperlink") =
      hyperlinkRels s := by
    rw [List.filter_eq_self]
    intro r hr
    simp only [hyperlinkRels, List.mem_filterMap, Option.map_eq_some_iff] at hr
    obtain ⟨_, _, _, _, rfl⟩ := hr
    simp
  rw [e, List.filter_append, h0, h1, List.nil_append, hyperlinkRels_ids]

/-- Where a link leads: web pages, mail and files are outside the package, slides inside. -/
def linkGoes : HyperlinkAction → Option (Str × Bool)
  | .url u => some (u, true)
  | .email a none => some (c!"mailto:" ++ a, true)
  | .email a (some s) => some (c!"mailto:" ++ a ++ c!"?subject=" ++ s, true)
  | .file p => some (c!"file:///" ++ p.map (fun c => if c = '\\' then '/' else c), true)
  | .slide n => some (c!"slide" ++ dec n ++ c!".xml", false)
  | _ => none

theorem replaceChar_one (c d : Char) (s : Str) : replaceChar c [d] s = s.map fun x => if x = c then d else x := by
  unfold replaceChar
  induction s with
  | nil => rfl
  | cons x s ih => by_cases h : x = c <;> simp [h, ih]

/-- **C63** (partial: links that carry an id of their own, and not the jumps to the first, last, next or previous slide): the
relationship leads where the action says, and is external exactly for web pages, mail and files. -/
theorem C63_targets_partial (d : Deck) (st : BuildSettings) (j : Nat) (s : SlideIn)
    (l : List RelEntry) (x : SlideXml) (hs : d.slides[j]? = some s)
    (h : ⟨.slideRels (j + 1), .rels l⟩ ∈ buildPackage d st)
    (hx : ⟨.slide (j + 1), .slide x⟩ ∈ buildPackage d st) (h1 : (linkIds s).Nodup)
    (h2 : ∀ n ≤ ownRelCount s s.images.length, c!"rId" ++ dec n ∉ linkIds s)
    (sh : ShapeIn) (k : LinkIn) (id : Str) (hsh : sh ∈ s.shapes) (hk : sh.link = some k) (hid : k.rId = some id)
    (dest : Str) (ext : Bool) (hg : linkGoes k.action = some (dest, ext)) :
    ∃ r, relById l id = some r ∧ readText r.target = some dest ∧ r.external = ext := by
  obtain ⟨_, r, hr, _, ht, he⟩ := C28_links_partial d st j s l x hs h hx h1 h2 sh k id hsh hk hid
  refine ⟨r, hr, ?_⟩
  rw [ht, he]
  have key : ∀ a : HyperlinkAction, linkGoes a = some (dest, ext) → a.relationshipTarget = dest ∧ a.isExternal = ext := by
    intro a ha
    cases a with
    | email a sub => cases sub <;> simp_all [linkGoes, HyperlinkAction.relationshipTarget, HyperlinkAction.isExternal]
    | file p =>
      simp only [linkGoes, Option.some.injEq, Prod.mk.injEq] at ha
      simp only [HyperlinkAction.relationshipTarget, HyperlinkAction.isExternal, replaceChar_one]
      exact ha
    | _ => simp_all [linkGoes, HyperlinkAction.relationshipTarget, HyperlinkAction.isExternal]
  obtain ⟨k1, k2⟩ := key _ hg
  exact ⟨by rw [k1], k2⟩

/-- A jump to the first slide is written as an internal relationship to a part that does not exist. -/
theorem C63_jump_violated :
    let s : SlideIn := ⟨c!"T", .titleOnly, 0, false, [⟨none, some ⟨.firstSlide, some c!"rId9"⟩⟩], [],
      none, 0, 0, 0, false⟩
    ∃ l r, (⟨.slideRels 1, .rels l⟩ : Entry) ∈ buildPackage (.custom [s]) .none ∧ relById l c!"rId9" = some r ∧
      r.target = c!"ppaction://hlinkshowjump?jump=firstslide" ∧ r.external = false :=
  ⟨[rel 1 c!"slideLayout" c!"../slideLayouts/slideLayout6.xml",
    ⟨c!"rId9", relTypeBase ++ c!"hyperlink", c!"ppaction://hlinkshowjump?jump=firstslide", false⟩], _, by decide, rfl, rfl, rfl⟩

example : linkGoes (.email c!"a@b" (some c!"s")) = some (c!"mailto:a@b?subject=s", true) := rfl

end PptRs.Props
