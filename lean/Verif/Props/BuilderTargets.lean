import Verif.Props.BuilderSlideRels
import Mathlib.Data.List.Count

/-!
# C29, C30: relationship targets and content types of generated decks
-/

namespace PptRs.Props

open PptRs.Spec

/-! ## C29 -/

/-- Following `../dir/file` from `ppt/sub`. -/
theorem leadsTo_fromFolder {p : PartName} {id ty t sub dir file : Str} {x : Bool}
    (hp : relsSourceDir p.path = joinStr c!"/" [c!"ppt", sub]) (hsub : CleanSeg sub)
    (e : t = c!"../" ++ dir ++ c!"/" ++ file) (h1 : '&' ∉ t) (h2 : '<' ∉ t)
    (hd : CleanSeg dir) (hf : CleanSeg file) :
    leadsTo p ⟨id, ty, t, x⟩ = some (c!"ppt/" ++ dir ++ c!"/" ++ file) := by
  have := leadsTo_of (p := p) (r := ⟨id, ty, t, x⟩) (t := t)
    (base := [c!"ppt", sub]) (dest := [dir, file]) (readText_of_plain h1 h2) hp
    (by
      intro s hs
      simp only [List.mem_cons, List.not_mem_nil, or_false] at hs
      rcases hs with rfl | rfl
      · exact cleanSeg_of (by decide) (by decide)
      · exact hsub)
    (by
      intro s hs
      simp only [List.mem_cons, List.not_mem_nil, or_false] at hs
      rcases hs with rfl | rfl <;> assumption) (by simp) 1 (by simp) (by simp [e, joinStr])
  rw [this]
  simp [joinStr]

theorem sourceDir_numbered (sub pre : Str) (n : Nat) (h1 : '_' ∉ sub) (h2 : '/' ∉ pre) :
    relsSourceDir (c!"ppt/" ++ sub ++ c!"/_rels/" ++ pre ++ dec n ++ c!".xml.rels") =
      joinStr c!"/" [c!"ppt", sub] := by
  have := C06_source_dir (c!"ppt/" ++ sub) (pre ++ dec n ++ c!".xml")
    (by simp [slash_notMem_dec, h2]) (by simp [h1]) (by simp)
  simpa [joinStr] using this

theorem leadsTo_layoutRels (n : Nat) (r : RelEntry) (h : r ∈ layoutRels) :
    leadsTo (.layoutRels n) r = some PartName.master.path := by
  simp only [layoutRels, List.mem_singleton] at h
  subst h
  have hp : relsSourceDir (PartName.layoutRels n).path = joinStr c!"/" [c!"ppt", c!"slideLayouts"] :=
    sourceDir_numbered c!"slideLayouts" c!"slideLayout" n (by decide) (by decide)
  exact leadsTo_fromFolder hp (cleanSeg_of (by decide) (by decide)) (dir := c!"slideMasters")
    (file := c!"slideMaster1.xml") (by decide) (by decide) (by decide)
    (cleanSeg_of (by decide) (by decide)) (cleanSeg_of (by decide) (by decide))

theorem leadsTo_notesRels (n m : Nat) (r : RelEntry) (h : r ∈ notesRels m) :
    leadsTo (.notesRels n) r = some (PartName.slide m).path ∨
    leadsTo (.notesRels n) r = some PartName.notesMaster.path := by
  have hp : relsSourceDir (PartName.notesRels n).path = joinStr c!"/" [c!"ppt", c!"notesSlides"] :=
    sourceDir_numbered c!"notesSlides" c!"notesSlide" n (by decide) (by decide)
  simp only [notesRels, List.mem_cons, List.not_mem_nil, or_false] at h
  rcases h with rfl | rfl
  · left
    rw [rel, leadsTo_fromFolder hp (cleanSeg_of (by decide) (by decide)) (dir := c!"slides")
      (file := c!"slide" ++ dec m ++ c!".xml")]
    · simp [PartName.path]
    · simp
    · simp [not_mem_dec (c := '&') (n := m) (by decide)]
    · simp [not_mem_dec (c := '<') (n := m) (by decide)]
    · exact cleanSeg_of (by decide) (by decide)
    · exact cleanSeg_of (by decide) (by simp [slash_notMem_dec])
  · right
    exact leadsTo_fromFolder hp (cleanSeg_of (by decide) (by decide)) (dir := c!"notesMasters")
      (file := c!"notesMaster1.xml") (by decide) (by decide) (by decide)
      (cleanSeg_of (by decide) (by decide)) (cleanSeg_of (by decide) (by decide))

theorem leadsTo_chartRels (n m : Nat) (r : RelEntry) (h : r ∈ chartRels m) :
    leadsTo (.chartRels n) r = some (PartName.embedding m).path := by
  have hp : relsSourceDir (PartName.chartRels n).path = joinStr c!"/" [c!"ppt", c!"charts"] :=
    sourceDir_numbered c!"charts" c!"chart" n (by decide) (by decide)
  simp only [chartRels, List.mem_singleton] at h
  subst h
  rw [rel, leadsTo_fromFolder hp (cleanSeg_of (by decide) (by decide)) (dir := c!"embeddings")
      (file := c!"Microsoft_Excel_Sheet" ++ dec m ++ c!".xlsx")]
  · simp [PartName.path]
  · simp
  · simp [not_mem_dec (c := '&') (n := m) (by decide)]
  · simp [not_mem_dec (c := '<') (n := m) (by decide)]
  · exact cleanSeg_of (by decide) (by decide)
  · exact cleanSeg_of (by decide) (by simp [slash_notMem_dec])

theorem leadsTo_slideLink (n m : Nat) (r : RelEntry)
    (h : r.target = escapeXml (c!"slide" ++ dec m ++ c!".xml")) :
    leadsTo (.slideRels n) r = some (PartName.slide m).path := by
  have := leadsTo_of (p := .slideRels n) (r := r) (t := c!"slide" ++ dec m ++ c!".xml")
    (base := [c!"ppt", c!"slides"]) (dest := [c!"slide" ++ dec m ++ c!".xml"])
    (by rw [h, readText_escapeXml]) (sourceDir_slideRels n)
    (by
      intro s hs
      simp only [List.mem_cons, List.not_mem_nil, or_false] at hs
      rcases hs with rfl | rfl <;> exact cleanSeg_of (by decide) (by decide))
    (by
      intro s hs
      simp only [List.mem_singleton] at hs
      subst hs
      exact cleanSeg_of (by decide) (by simp [slash_notMem_dec])) (by simp) 0 (by simp)
      (by simp [joinStr])
  rw [this]
  simp [joinStr, PartName.path]

/-- Conditions on the input under which every internal relationship leads to a part: no template,
typefaces and image extensions that can be part of a file name, and internal hyperlinks only to
slides of the deck. -/
structure LinksOk (d : Deck) (st : BuildSettings) : Prop where
  template : st.template = none
  fonts : ∀ f ∈ st.fonts.getD [], '/' ∉ f.typeface
  exts : ∀ s ∈ d.slides, ∀ i ∈ s.images, ExtOk i.ext
  links : ∀ s ∈ d.slides, ∀ sh ∈ s.shapes, ∀ k, sh.link = some k → k.rId ≠ none →
    k.action.isExternal = true ∨ ∃ n, k.action = .slide n ∧ 1 ≤ n ∧ n ≤ d.count

theorem mem_assign {start i : Nat} {fonts : List EmbeddedFont} {g : EmbeddedFont}
    (h : g ∈ assignFontIdsFrom start i fonts) :
    ∃ f ∈ fonts, g.typeface = f.typeface ∧ g.fileName = f.fileName := by
  induction fonts generalizing i with
  | nil => simp [assignFontIdsFrom] at h
  | cons f fs ih =>
    simp only [assignFontIdsFrom, List.mem_cons] at h
    rcases h with rfl | h
    · refine ⟨f, by simp, ?_⟩
      split <;> exact ⟨rfl, rfl⟩
    · obtain ⟨f', hf, e⟩ := ih h
      exact ⟨f', by simp [hf], e⟩

theorem layoutNumber_le (l : SlideLayout) : 1 ≤ l.layoutNumber ∧ l.layoutNumber ≤ 7 := by
  cases l <;> simp [SlideLayout.layoutNumber]

theorem num_take_lt {j : Nat} {slides : List SlideIn} {s : SlideIn} (hj : slides[j]? = some s) :
    numNotes (slides.take j) + s.notes.isSome.toNat ≤ numNotes slides ∧
    numInk (slides.take j) + s.ink.toNat ≤ numInk slides ∧
    numCharts (slides.take j) + s.charts ≤ numCharts slides := by
  have e : slides = slides.take j ++ s :: slides.drop (j + 1) := by
    obtain ⟨h, rfl⟩ := List.getElem?_eq_some_iff.mp hj
    simp
  have e1 : ∀ a b : List SlideIn, numNotes (a ++ b) = numNotes a + numNotes b := by
    intro a b; simp [numNotes]
  have e2 : ∀ a b : List SlideIn, numInk (a ++ b) = numInk a + numInk b := by
    intro a b; simp [numInk]
  have e3 : ∀ a b : List SlideIn, numCharts (a ++ b) = numCharts a + numCharts b := by
    intro a b; simp [numCharts]
  refine ⟨?_, ?_, ?_⟩
  · conv_rhs => rw [e, e1, numNotes_cons]
    omega
  · conv_rhs => rw [e, e2, numInk_cons]
    omega
  · conv_rhs => rw [e, e3, numCharts_cons]
    omega

theorem media_mem {slides : List SlideIn} {b : List UInt8} {x : Str} {n : Nat}
    (h : (buildMediaRegistry slides).lookupNumber b x = some n) :
    .media n x ∈ mediaParts (distinctImages slides) := by
  obtain ⟨h1, h2⟩ := lookupNumber_some h
  rw [buildMediaRegistry_entries] at h2
  simp only [mediaParts, List.mem_map]
  refine ⟨((b, x), n), ?_, rfl⟩
  rw [List.mem_zipIdx_iff_le_and_getElem?_sub]
  exact ⟨h1, h2⟩

/-- **C29**: in a generated deck every internal relationship leads to a part of the package. -/
theorem C29_no_dangling_partial (d : Deck) (st : BuildSettings) (hok : LinksOk d st)
    (p : PartName) (l : List RelEntry) (h : ⟨p, .rels l⟩ ∈ buildPackage d st)
    (r : RelEntry) (hr : r ∈ l) (hint : r.external = false) :
    ∃ q ∈ names (buildPackage d st), leadsTo p r = some q.path := by
  simp only [mem_names hok.template]
  have hb := bodyOk d st _ h
  cases p <;> simp only [BodyOk, Body.rels.injEq, reduceCtorEq, and_false, exists_false,
    or_false] at hb
  case slide m =>
    obtain ⟨_, s, _, _, e⟩ := hb
    simp [slideBody] at e
  case rootRels =>
    subst hb
    simp only [rootRels, List.mem_append, List.mem_cons, List.not_mem_nil, or_false] at hr
    rcases hr with (rfl | rfl | rfl) | hr
    · exact ⟨.presentation, by simp [expectedParts], by decide⟩
    · exact ⟨.core, by simp [expectedParts], by decide⟩
    · exact ⟨.app, by simp [expectedParts], by decide⟩
    · split at hr
      · simp only [List.mem_singleton] at hr
        subst hr
        exact ⟨.sigOrigin, by simp [expectedParts, *], by decide⟩
      · simp at hr
  case presRels =>
    subst hb
    simp only [presentationRelsWithFonts, presentationRels, List.mem_append, List.mem_map,
      List.mem_cons, List.not_mem_nil, or_false] at hr
    have fixed : ∀ (n : Nat) (ty : Str) (t : Str) (q : PartName) (dest : List Str),
        t = joinStr c!"/" dest → '&' ∉ t → '<' ∉ t → (∀ s ∈ dest, CleanSeg s) → dest ≠ [] →
        q.path = c!"ppt/" ++ t → leadsTo .presRels (rel n ty t) = some q.path := by
      intro n ty t q dest h1 h2 h3 h4 h5 h6
      rw [h6]
      exact leadsTo_ppt h1 h2 h3 h4 h5
    have clean : ∀ dest : List Str, (∀ s ∈ dest, ∃ c t, s = c :: t ∧ c ≠ '.' ∧ '/' ∉ s) →
        ∀ s ∈ dest, CleanSeg s := by
      intro dest hd s hs
      obtain ⟨c, t, rfl, h1, h2⟩ := hd s hs
      exact cleanSeg_of h1 h2
    rcases hr with ((((rfl | ⟨i, hi, rfl⟩) | hr) | hr) | hr) | ⟨f, hf, rfl⟩
    · exact ⟨.master, by simp [expectedParts], by decide⟩
    · refine ⟨.slide i, ?_, leadsTo_slide _ _⟩
      rw [upTo_eq] at hi
      simp [expectedParts, List.mem_range'_1] at hi ⊢
      omega
    · split at hr
      · rename_i hn
        simp only [List.mem_singleton] at hr
        subst hr
        refine ⟨.notesMaster, ?_, fixed _ _ _ _ [c!"notesMasters", c!"notesMaster1.xml"] (by decide)
          (by decide) (by decide) (clean _ ?_) (by simp) (by decide)⟩
        · rw [hasNotes_iff] at hn
          simp [expectedParts, hn]
        · intro s hs
          simp only [List.mem_cons, List.not_mem_nil, or_false] at hs
          rcases hs with rfl | rfl <;> exact ⟨_, _, rfl, by decide, by decide⟩
      · simp at hr
    · split at hr
      · rename_i hn
        simp only [List.mem_singleton] at hr
        subst hr
        refine ⟨.handoutMaster, ?_, fixed _ _ _ _ [c!"handoutMasters", c!"handoutMaster1.xml"]
          (by decide) (by decide) (by decide) (clean _ ?_) (by simp) (by decide)⟩
        · simp [expectedParts, hn]
        · intro s hs
          simp only [List.mem_cons, List.not_mem_nil, or_false] at hs
          rcases hs with rfl | rfl <;> exact ⟨_, _, rfl, by decide, by decide⟩
      · simp at hr
    · rcases hr with rfl | rfl | rfl | rfl
      · refine ⟨.presProps, by simp [expectedParts], fixed _ _ _ _ [c!"presProps.xml"] (by decide)
          (by decide) (by decide) (clean _ ?_) (by simp) (by decide)⟩
        intro s hs
        simp only [List.mem_singleton] at hs
        subst hs; exact ⟨_, _, rfl, by decide, by decide⟩
      · refine ⟨.viewProps, by simp [expectedParts], fixed _ _ _ _ [c!"viewProps.xml"] (by decide)
          (by decide) (by decide) (clean _ ?_) (by simp) (by decide)⟩
        intro s hs
        simp only [List.mem_singleton] at hs
        subst hs; exact ⟨_, _, rfl, by decide, by decide⟩
      · refine ⟨.theme 1, by simp [expectedParts], fixed _ _ _ _ [c!"theme", c!"theme1.xml"]
          (by decide) (by decide) (by decide) (clean _ ?_) (by simp) (by decide)⟩
        intro s hs
        simp only [List.mem_cons, List.not_mem_nil, or_false] at hs
        rcases hs with rfl | rfl <;> exact ⟨_, _, rfl, by decide, by decide⟩
      · refine ⟨.tableStyles, by simp [expectedParts], fixed _ _ _ _ [c!"tableStyles.xml"]
          (by decide) (by decide) (by decide) (clean _ ?_) (by simp) (by decide)⟩
        intro s hs
        simp only [List.mem_singleton] at hs
        subst hs; exact ⟨_, _, rfl, by decide, by decide⟩
    · change f ∈ fontsOf d st at hf
      rw [fontsOf_eq, assignFontIds] at hf
      obtain ⟨g, hg, e1, e2⟩ := mem_assign hf
      refine ⟨.font f.fileName, ?_, leadsTo_font (e1 ▸ hok.fonts g hg)⟩
      rw [e2]
      simp only [expectedParts, List.mem_append, List.mem_map]
      exact .inl (.inr ⟨g, hg, rfl⟩)
  case handoutRels =>
    subst hb
    simp only [handoutMasterRels, List.mem_singleton] at hr
    subst hr
    have hm : PartName.handoutRels ∈ expectedParts d st :=
      (mem_names hok.template).mp (List.mem_map.mpr ⟨_, h, rfl⟩)
    refine ⟨.theme 3, ?_, by decide⟩
    cases hh : st.handout
    · simp [expectedParts, hh, mediaParts] at hm
    · simp [expectedParts, hh]
  case notesMasterRels =>
    subst hb
    simp only [notesMasterRels, List.mem_singleton] at hr
    subst hr
    have hm : PartName.notesMasterRels ∈ expectedParts d st :=
      (mem_names hok.template).mp (List.mem_map.mpr ⟨_, h, rfl⟩)
    refine ⟨.theme 2, ?_, by decide⟩
    by_cases hh : numNotes d.slides = 0
    · simp [expectedParts, hh, mediaParts] at hm
    · simp [expectedParts, hh]
  case masterRels =>
    subst hb
    have : ∀ r ∈ masterRels standardLayoutCount, ∃ q ∈ [PartName.theme 1, .layout 1, .layout 2,
        .layout 3, .layout 4, .layout 5, .layout 6, .layout 7],
        leadsTo .masterRels r = some q.path := by decide
    obtain ⟨q, hq, e⟩ := this r hr
    refine ⟨q, ?_, e⟩
    simp only [List.mem_cons, List.not_mem_nil, or_false] at hq
    rcases hq with rfl | rfl | rfl | rfl | rfl | rfl | rfl | rfl <;> simp [expectedParts]
  case layoutRels n =>
    subst hb
    exact ⟨.master, by simp [expectedParts], leadsTo_layoutRels n r hr⟩
  case notesRels m =>
    obtain ⟨j, s, hj, hs, rfl, rfl⟩ := hb
    have hlt := (List.getElem?_eq_some_iff.mp hj).1
    rcases leadsTo_notesRels (numNotes (d.slides.take j) + 1) (j + 1) r hr with e | e
    · refine ⟨.slide (j + 1), ?_, e⟩
      have : d.slides.length ≤ d.count := by cases d <;> simp [Deck.slides, Deck.count]
      simp [expectedParts, List.mem_range'_1]
      omega
    · refine ⟨.notesMaster, ?_, e⟩
      have := (num_take_lt hj).1
      rw [hs] at this
      have hne : numNotes d.slides ≠ 0 := by simp at this; omega
      simp [expectedParts, hne]
  case chartRels m =>
    subst hb
    have hm : PartName.chartRels m ∈ expectedParts d st :=
      (mem_names hok.template).mp (List.mem_map.mpr ⟨_, h, rfl⟩)
    refine ⟨.embedding m, ?_, leadsTo_chartRels m m r hr⟩
    have : m ∈ List.range' 1 (numCharts d.slides) := by
      simp only [expectedParts, mediaParts] at hm
      split at hm <;> split at hm <;> split at hm <;> simpa using hm
    simp only [expectedParts, List.mem_append, List.mem_map]
    exact .inl (.inl (.inl (.inl (.inr ⟨m, this, rfl⟩))))
  case slideRels m =>
    rcases hb with ⟨j, s, hj, rfl, e⟩ | ⟨n, rfl, rfl⟩
    · have hs := List.mem_of_getElem? hj
      have e := slideRels_body hj h
      subst e
      obtain ⟨hn1, hn2, hn3⟩ := num_take_lt hj
      simp only [ownRels, slideRelsWithImages, List.mem_append, List.mem_map, List.mem_singleton,
        List.append_nil] at hr
      rcases hr with ((((rfl | hr) | hr) | ⟨c, ⟨i, hi, rfl⟩, rfl⟩) | ⟨c, hc, rfl⟩) | hr
      · refine ⟨.layout s.layout.layoutNumber, ?_, ?_⟩
        · have := layoutNumber_le s.layout
          simp [expectedParts, List.mem_range'_1]
          omega
        · rw [leadsTo_layout]
          simp [resolveLayout, hok.template]
      · split at hr
        · rename_i hsome
          simp only [List.mem_singleton] at hr
          subst hr
          refine ⟨.notes (numNotes (d.slides.take j) + 1), ?_, leadsTo_notes _ _ _⟩
          rw [hsome] at hn1
          simp only [Bool.toNat_true] at hn1
          simp [expectedParts, List.mem_range'_1]
          omega
        · simp at hr
      · obtain ⟨i, hi⟩ := List.mem_iff_getElem?.mp hr
        rw [imageRelsFrom_get, Option.map_eq_some_iff] at hi
        obtain ⟨x, hx, rfl⟩ := hi
        have hx := List.mem_of_getElem? hx
        simp only [slideImageRelTargets, List.mem_filterMap, Option.bind_eq_some_iff,
          Option.map_eq_some_iff] at hx
        obtain ⟨img, himg, b, hb, n, hn, rfl⟩ := hx
        refine ⟨.media n img.ext, ?_, leadsTo_image _ _ _ _ (hok.exts s hs img himg)⟩
        simp only [expectedParts, List.mem_append]
        exact .inl (.inl (.inr (media_mem hn)))
      · refine ⟨.chart (numCharts (d.slides.take j) + 1 + i), ?_, leadsTo_chart _ _ _⟩
        rw [List.mem_range] at hi
        simp [expectedParts, List.mem_range'_1]
        omega
      · cases hink : s.ink
        · simp [hink] at hc
        · simp only [hink, if_true, Option.toList_some, List.mem_singleton] at hc
          subst hc
          refine ⟨.ink (numInk (d.slides.take j) + 1), ?_, leadsTo_ink _ _ _⟩
          rw [hink] at hn2
          simp only [Bool.toNat_true] at hn2
          simp [expectedParts, List.mem_range'_1]
          omega
      · simp only [hyperlinkRels, List.mem_filterMap, Option.map_eq_some_iff] at hr
        obtain ⟨k, ⟨sh, hsh, hk⟩, id, hid, rfl⟩ := hr
        rcases hok.links s hs sh hsh k hk (by simp [hid]) with hx | ⟨n, hn, h1, h2⟩
        · simp only at hint
          rw [hx] at hint
          exact absurd hint (by simp)
        · refine ⟨.slide n, ?_, leadsTo_slideLink _ n _ (by rw [hn]; rfl)⟩
          simp [expectedParts, List.mem_range'_1]
          omega
    · simp only [List.mem_singleton] at hr
      subst hr
      exact ⟨.layout 2, by simp [expectedParts, List.mem_range'_1], leadsTo_layout _ _ _⟩

/-- What is left out of `C29_no_dangling_partial`: links such as "first slide" are written as
internal relationships to a part that does not exist, and so are links to slides beyond the end. -/
theorem C29_links_violated :
    let s (a : HyperlinkAction) : SlideIn := ⟨c!"T", .titleOnly, 0, false,
      [⟨none, some ⟨a, some c!"rId9"⟩⟩], [], none, 0, 0, 0, false⟩
    (∃ l r, (⟨.slideRels 1, .rels l⟩ : Entry) ∈ buildPackage (.custom [s .firstSlide]) .none ∧
      r ∈ l ∧ r.external = false ∧ leadsTo (.slideRels 1) r =
        some c!"ppt/slides/ppaction:/hlinkshowjump?jump=firstslide") ∧
    (∃ l r, (⟨.slideRels 1, .rels l⟩ : Entry) ∈ buildPackage (.custom [s (.slide 5)]) .none ∧
      r ∈ l ∧ r.external = false ∧ leadsTo (.slideRels 1) r = some (PartName.slide 5).path ∧
      .slide 5 ∉ names (buildPackage (.custom [s (.slide 5)]) .none)) :=
  ⟨⟨[rel 1 c!"slideLayout" c!"../slideLayouts/slideLayout6.xml",
      ⟨c!"rId9", relTypeBase ++ c!"hyperlink", c!"ppaction://hlinkshowjump?jump=firstslide", false⟩],
    _, by decide, List.mem_cons_of_mem _ (List.mem_singleton.mpr rfl), rfl, by decide⟩,
   ⟨[rel 1 c!"slideLayout" c!"../slideLayouts/slideLayout6.xml",
      ⟨c!"rId9", relTypeBase ++ c!"hyperlink", c!"slide5.xml", false⟩],
    _, by decide, List.mem_cons_of_mem _ (List.mem_singleton.mpr rfl), rfl, by decide, by decide⟩⟩

example : LinksOk (.custom [⟨c!"T", .titleOnly, 0, false,
    [⟨none, some ⟨.slide 1, some c!"rId9"⟩⟩, ⟨none, some ⟨.url c!"u", some c!"rId10"⟩⟩],
    [⟨some [1], c!"png"⟩], some c!"n", 0, 0, 2, true⟩]) .none := by
  refine ⟨rfl, by decide, ?_, ?_⟩
  · simp only [ExtOk]; decide
  · intro s hs sh hsh k hk _
    simp only [Deck.slides, List.mem_singleton] at hs
    subst hs
    simp only [List.mem_cons, List.not_mem_nil, or_false] at hsh
    rcases hsh with rfl | rfl <;> (simp only [Option.some.injEq] at hk; subst hk)
    · exact .inr ⟨1, rfl, by decide, by decide⟩
    · exact .inl rfl

/-! ## C30 -/

/-- The content type of every part of a deck with PNG, JPEG and GIF images; `[Content_Types].xml`
itself is not a part with a type. -/
def expectedType : PartName → Option ContentType
  | .contentTypes => none
  | .rootRels | .presRels | .handoutRels | .notesMasterRels | .masterRels => some .rels
  | .layoutRels _ | .slideRels _ | .notesRels _ | .chartRels _ => some .rels
  | .presentation => some .presentation
  | .presProps => some .presProps
  | .viewProps => some .viewProps
  | .tableStyles => some .tableStyles
  | .handoutMaster => some .handoutMaster
  | .notesMaster => some .notesMaster
  | .master => some .slideMaster
  | .core => some .coreProps
  | .app => some .appProps
  | .sigOrigin => some .sigOrigin
  | .sig => some .sigXml
  | .theme _ => some .theme
  | .layout _ => some .slideLayout
  | .slide _ => some .slide
  | .notes _ => some .notesSlide
  | .chart _ => some .chart
  | .embedding _ => some .xlsx
  | .ink _ => some .ink
  | .media _ ext => if ext = c!"png" then some .png else if ext = c!"gif" then some .gif
      else if ext = c!"jpg" then some .jpeg else none
  | .font _ => some .fontData
  | .templatePart _ => none

/-- The parts that are listed by name. -/
def overrideParts (d : Deck) (st : BuildSettings) : List PartName :=
  [.presentation] ++ (List.range' 1 d.count).map .slide ++
  (List.range' 1 (numNotes d.slides)).map .notes ++
  (if numNotes d.slides > 0 then [.notesMaster, .theme 2] else []) ++
  (if st.handout then [.handoutMaster, .theme 3] else []) ++
  (List.range' 1 (numCharts d.slides)).flatMap (fun i => [.chart i, .embedding i]) ++
  (List.range' 1 7).map .layout ++
  [.master, .theme 1, .tableStyles, .viewProps, .presProps, .core, .app] ++
  (if st.signature then [.sig] else []) ++
  (List.range' 1 (numInk d.slides)).map .ink

/-- The entry for a part. -/
def overrideEntry (p : PartName) : Str × ContentType := ('/' :: p.path, (expectedType p).getD .xml)

theorem contentTypes_overrides (d : Deck) (st : BuildSettings) :
    (contentTypesPart d st).overrides = (overrideParts d st).map overrideEntry := by
  simp only [contentTypesPart, appendInkTypes, appendFontTypes, appendSignatureTypes,
    createContentTypes, contentTypesOpening, contentTypesFooter, layoutOverrides, chartOverrides,
    notesOverrides, handoutOverrides, notesCount_eq, totalCharts_eq, inkCount_eq, upTo_eq,
    overrideParts, standardLayoutCount]
  cases st.signature <;> cases (st.fonts.getD []).isEmpty <;> cases st.handout <;>
    by_cases hn : numNotes d.slides > 0 <;>
    simp [hn, overrideOf, overrideEntry, expectedType, List.map_flatMap, List.flatMap_congr,
      Function.comp_def]

/-- The default types by extension. -/
theorem contentTypes_defaults (d : Deck) (st : BuildSettings) :
    (contentTypesPart d st).defaults =
      imageDefaults (buildMediaRegistry d.slides).extensions ++ [(c!"rels", .rels), (c!"xml", .xml)] ++
      (if numCharts d.slides > 0 then [(c!"xlsx", .xlsx)] else []) ++
      (if st.signature then [(c!"sigs", .sigOrigin)] else []) ++
      (if (st.fonts.getD []).isEmpty then [] else [(c!"fntdata", .fontData)]) := by
  simp only [contentTypesPart, appendInkTypes, appendFontTypes, appendSignatureTypes,
    createContentTypes, contentTypesOpening, totalCharts_eq]
  cases st.signature <;> cases (st.fonts.getD []).isEmpty <;> simp

theorem find_overrideEntry_mem {l : List PartName} {p : PartName} (ho : ∀ q ∈ l, q.Own)
    (hp : p.Own) (hm : p ∈ l) :
    (l.map overrideEntry).find? (fun e => e.1 = '/' :: p.path) = some (overrideEntry p) := by
  induction l with
  | nil => simp at hm
  | cons q l ih =>
    rw [List.map_cons]
    by_cases e : q = p
    · subst e; simp [overrideEntry]
    · have : ¬ q.path = p.path := fun h => e (PartName.path_inj (ho q (by simp)) hp h)
      rw [List.find?_cons_of_neg (by simpa [overrideEntry] using this)]
      exact ih (fun q hq => ho q (by simp [hq])) ((List.mem_cons.mp hm).resolve_left fun h => e h.symm)

theorem find_overrideEntry_notMem {l : List PartName} {p : PartName} (ho : ∀ q ∈ l, q.Own)
    (hp : p.Own) (hm : p ∉ l) :
    (l.map overrideEntry).find? (fun e => e.1 = '/' :: p.path) = none := by
  rw [List.find?_eq_none]
  intro e he
  obtain ⟨q, hq, rfl⟩ := List.mem_map.mp he
  simp only [overrideEntry, decide_eq_true_eq, List.cons.injEq, true_and]
  intro h
  exact hm (PartName.path_inj (ho q hq) hp h ▸ hq)

theorem splitChar_append (sep : Char) (a b : Str) :
    splitChar sep (a ++ sep :: b) = splitChar sep a ++ splitChar sep b := by
  induction a with
  | nil => simp [splitChar]
  | cons c a ih =>
    rw [List.cons_append, splitChar, splitChar, ih]
    split
    · simp
    · cases h : splitChar sep a with
      | nil => exact absurd h (splitChar_ne_nil _ _)
      | cons x xs => simp

theorem extensionOf_dot (a x : Str) (hx : '.' ∉ x) : extensionOf (a ++ '.' :: x) = x := by
  rw [extensionOf, splitChar_append, splitChar_of_notMem hx, List.reverse_append]
  cases h : (splitChar '.' a).reverse with
  | nil => exact absurd (List.reverse_eq_nil_iff.mp h) (splitChar_ne_nil _ _)
  | cons y ys => rfl

theorem typeOf_of_override {d : Deck} {st : BuildSettings} {p : PartName} (hp : p.Own)
    (h : p ∈ overrideParts d st) :
    typeOf (contentTypesPart d st) p.path = some ((expectedType p).getD .xml) := by
  have ho : ∀ q ∈ overrideParts d st, q.Own := by
    intro q hq
    cases q <;> simp only [PartName.Own]
    simp only [overrideParts] at hq
    split at hq <;> split at hq <;> split at hq <;> simp at hq
  rw [typeOf, contentTypes_overrides, find_overrideEntry_mem ho hp h]
  rfl

theorem typeOf_of_default {d : Deck} {st : BuildSettings} {p : PartName} (hp : p.Own)
    (h : p ∉ overrideParts d st) :
    typeOf (contentTypesPart d st) p.path =
      ((contentTypesPart d st).defaults.find? fun e => e.1 = extensionOf p.path).map (·.2) := by
  have ho : ∀ q ∈ overrideParts d st, q.Own := by
    intro q hq
    cases q <;> simp only [PartName.Own]
    simp only [overrideParts] at hq
    split at hq <;> split at hq <;> split at hq <;> simp at hq
  rw [typeOf, contentTypes_overrides, find_overrideEntry_notMem ho hp h]

theorem imageDefaults_find (exts : List Str) (x : Str) (hx : x ≠ c!"jpg" ∧ x ≠ c!"png" ∧ x ≠ c!"gif") :
    (imageDefaults exts).find? (fun e => e.1 = x) = none := by
  rw [List.find?_eq_none]
  intro e he
  simp only [imageDefaults, List.mem_append] at he
  rcases he with (he | he) | he <;> split at he <;> simp at he <;> subst he <;>
    simp only [decide_eq_true_eq] <;> intro h <;> simp [← h] at hx

theorem relsDefault (d : Deck) (st : BuildSettings) :
    ((contentTypesPart d st).defaults.find? fun e => e.1 = c!"rels").map (·.2) = some .rels := by
  rw [contentTypes_defaults]
  simp only [List.find?_append, imageDefaults_find _ c!"rels" (by decide)]
  rfl

theorem mem_media_ext {slides : List SlideIn} {n : Nat} {x : Str}
    (h : .media n x ∈ mediaParts (distinctImages slides)) :
    x ∈ (buildMediaRegistry slides).extensions ∧ ∃ s ∈ slides, ∃ i ∈ s.images, i.ext = x := by
  simp only [mediaParts, List.mem_map] at h
  obtain ⟨e, he, e2⟩ := h
  simp only [PartName.media.injEq] at e2
  obtain ⟨_, rfl⟩ := e2
  have hm : e.1 ∈ distinctImages slides := by
    obtain ⟨x, m⟩ := e
    rw [List.mem_zipIdx_iff_le_and_getElem?_sub] at he
    exact List.mem_of_getElem? he.2
  refine ⟨?_, ?_⟩
  · rw [MediaRegistry.extensions, buildMediaRegistry_entries]
    exact List.mem_map_of_mem hm
  · rw [distinctImages, mem_eraseDups, allImages] at hm
    simp only [List.mem_flatMap, List.mem_filterMap, Option.map_eq_some_iff] at hm
    obtain ⟨s, hs, i, hi, b, _, e⟩ := hm
    exact ⟨s, hs, i, hi, by rw [← e]⟩

/-- Whether a part is listed by name. -/
def PartName.byName : PartName → Bool
  | .contentTypes | .rootRels | .presRels | .handoutRels | .notesMasterRels | .masterRels
  | .layoutRels _ | .slideRels _ | .notesRels _ | .chartRels _ | .sigOrigin | .media _ _
  | .font _ | .templatePart _ => false
  | _ => true

set_option maxHeartbeats 4000000 in
theorem mem_overrideParts {d : Deck} {st : BuildSettings} {q : PartName} :
    q ∈ overrideParts d st ↔ q ∈ expectedParts d st ∧ PartName.byName q = true := by
  simp only [expectedParts, overrideParts, mediaParts]
  cases st.handout <;> cases st.signature <;> by_cases hn : numNotes d.slides = 0 <;>
    simp only [hn, Nat.pos_iff_ne_zero, gt_iff_lt, ne_eq, not_true_eq_false, not_false_eq_true,
      if_true, if_false, Bool.false_eq_true] <;>
    cases q <;> simp [PartName.byName] <;> omega

/-- **C30**: in a generated deck without a template whose images are PNG, GIF or JPEG with
extension `jpg`, a reader finds the right content type for every part. -/
theorem C30_types_partial (d : Deck) (st : BuildSettings) (ht : st.template = none)
    (hext : ∀ s ∈ d.slides, ∀ i ∈ s.images, i.ext = c!"png" ∨ i.ext = c!"jpg" ∨ i.ext = c!"gif")
    (ct : ContentTypes) (hct : ⟨.contentTypes, .contentTypes ct⟩ ∈ buildPackage d st)
    (p : PartName) (hp : p ∈ names (buildPackage d st)) (hne : p ≠ .contentTypes) :
    (expectedType p).isSome = true ∧ typeOf ct p.path = expectedType p := by
  have hb := bodyOk d st _ hct
  simp only [BodyOk, Body.contentTypes.injEq] at hb
  subst hb
  rw [mem_names ht] at hp
  have hown := expectedParts_own d st p hp
  by_cases hn : PartName.byName p = true
  · have h1 := typeOf_of_override hown (mem_overrideParts.mpr ⟨hp, hn⟩)
    rw [h1]
    cases p <;> simp [PartName.byName] at hn <;> exact ⟨rfl, rfl⟩
  · have hno : p ∉ overrideParts d st := fun h => hn (mem_overrideParts.mp h).2
    have byRels : ∀ a : Str, p.path = a ++ c!".rels" →
        typeOf (contentTypesPart d st) p.path = some .rels := by
      intro a ha
      rw [typeOf_of_default hown hno, ha, extensionOf_dot _ _ (by decide), relsDefault]
    cases p <;> simp only [PartName.byName, not_true_eq_false] at hn
    case contentTypes => exact absurd rfl hne
    case rootRels => exact ⟨rfl, byRels c!"_rels/" rfl⟩
    case presRels => exact ⟨rfl, byRels c!"ppt/_rels/presentation.xml" rfl⟩
    case handoutRels => exact ⟨rfl, byRels c!"ppt/handoutMasters/_rels/handoutMaster1.xml" rfl⟩
    case notesMasterRels => exact ⟨rfl, byRels c!"ppt/notesMasters/_rels/notesMaster1.xml" rfl⟩
    case masterRels => exact ⟨rfl, byRels c!"ppt/slideMasters/_rels/slideMaster1.xml" rfl⟩
    case layoutRels n => exact ⟨rfl, byRels
      (c!"ppt/slideLayouts/_rels/slideLayout" ++ dec n ++ c!".xml") (by simp [PartName.path])⟩
    case slideRels n => exact ⟨rfl, byRels
      (c!"ppt/slides/_rels/slide" ++ dec n ++ c!".xml") (by simp [PartName.path])⟩
    case notesRels n => exact ⟨rfl, byRels
      (c!"ppt/notesSlides/_rels/notesSlide" ++ dec n ++ c!".xml") (by simp [PartName.path])⟩
    case chartRels n => exact ⟨rfl, byRels
      (c!"ppt/charts/_rels/chart" ++ dec n ++ c!".xml") (by simp [PartName.path])⟩
    case templatePart => exact absurd hown (by simp [PartName.Own])
    case sigOrigin =>
      refine ⟨rfl, ?_⟩
      have hs : st.signature = true := by
        cases hs : st.signature with
        | true => rfl
        | false =>
          simp only [expectedParts, mediaParts, hs] at hp
          split at hp <;> split at hp <;> simp at hp
      rw [typeOf_of_default hown hno, contentTypes_defaults, hs,
        show extensionOf PartName.sigOrigin.path = c!"sigs" by decide]
      simp only [List.find?_append, imageDefaults_find _ c!"sigs" (by decide)]
      split <;> rfl
    case media n x =>
      have hm : .media n x ∈ mediaParts (distinctImages d.slides) := by
        cases hh : st.handout <;> cases hs : st.signature <;>
          by_cases h0 : numNotes d.slides = 0 <;>
          simpa [expectedParts, hh, hs, h0] using hp
      obtain ⟨h1, s, hs, i, hi, rfl⟩ := mem_media_ext hm
      have hx := hext s hs i hi
      have hd : '.' ∉ i.ext := by rcases hx with e | e | e <;> rw [e] <;> decide
      rw [typeOf_of_default hown hno, contentTypes_defaults,
        show (PartName.media n i.ext).path = (c!"ppt/media/image" ++ dec n) ++ '.' :: i.ext by
          simp [PartName.path], extensionOf_dot _ _ hd]
      rcases hx with e | e | e
      · have hp : ((buildMediaRegistry d.slides).extensions.any fun x => decide (x = c!"png")) = true :=
          List.any_eq_true.mpr ⟨i.ext, h1, by simp [e]⟩
        rw [e]
        simp only [imageDefaults, hp, if_true, List.find?_append]
        split <;> exact ⟨rfl, rfl⟩
      · have hp : ((buildMediaRegistry d.slides).extensions.any
            fun x => decide (x = c!"jpg" ∨ x = c!"jpeg")) = true :=
          List.any_eq_true.mpr ⟨i.ext, h1, by simp [e]⟩
        rw [e]
        simp only [imageDefaults, hp, if_true, List.find?_append]
        exact ⟨rfl, rfl⟩
      · have hp : ((buildMediaRegistry d.slides).extensions.any fun x => decide (x = c!"gif")) = true :=
          List.any_eq_true.mpr ⟨i.ext, h1, by simp [e]⟩
        rw [e]
        simp only [imageDefaults, hp, if_true, List.find?_append]
        split <;> split <;> exact ⟨rfl, rfl⟩
    case font file =>
      refine ⟨rfl, ?_⟩
      have hf : ∃ f ∈ st.fonts.getD [], f.fileName = file := by
        cases hh : st.handout <;> cases hs : st.signature <;>
          by_cases h0 : numNotes d.slides = 0 <;>
          simpa [expectedParts, hh, hs, h0, mediaParts] using hp
      obtain ⟨f, hf, rfl⟩ := hf
      have hne : (st.fonts.getD []).isEmpty = false := by
        cases h : st.fonts.getD [] with
        | nil => rw [h] at hf; simp at hf
        | cons _ _ => rfl
      rw [typeOf_of_default hown hno, contentTypes_defaults, hne,
        show (PartName.font f.fileName).path = (c!"ppt/fonts/" ++ replaceChar ' ' [] f.typeface ++
          c!"-" ++ f.style.xmlElement) ++ '.' :: c!"fntdata" by
          simp [PartName.path, EmbeddedFont.fileName], extensionOf_dot _ _ (by decide)]
      simp only [List.find?_append, imageDefaults_find _ c!"fntdata" (by decide)]
      split <;> split <;> rfl

/-- **C30**: every part listed by name in `[Content_Types].xml` is there. -/
theorem C30_overrides_exist (d : Deck) (st : BuildSettings) (ht : st.template = none)
    (ct : ContentTypes) (hct : ⟨.contentTypes, .contentTypes ct⟩ ∈ buildPackage d st) :
    (∀ e ∈ ct.overrides, ∃ p ∈ names (buildPackage d st), e.1 = '/' :: p.path) := by
  have hb := bodyOk d st _ hct
  simp only [BodyOk, Body.contentTypes.injEq] at hb
  subst hb
  intro e he
  rw [contentTypes_overrides, List.mem_map] at he
  obtain ⟨p, hp, rfl⟩ := he
  exact ⟨p, (mem_names ht).mpr (mem_overrideParts.mp hp).1, rfl⟩

/-- A slide with one image. -/
def imageSlide (ext : Str) : SlideIn :=
  ⟨c!"T", .titleOnly, 0, false, [], [⟨some [1], ext⟩], none, 0, 0, 0, false⟩

/-- What is left out of `C30_types_partial`: images with extension `jpeg`, `bmp`, `svg` and so on
have no content type. -/
theorem C30_images_violated :
    (.media 1 c!"jpeg" ∈ names (buildPackage (.custom [imageSlide c!"jpeg"]) .none) ∧
      typeOf (contentTypesPart (.custom [imageSlide c!"jpeg"]) .none) c!"ppt/media/image1.jpeg" = none) ∧
    (.media 1 c!"bmp" ∈ names (buildPackage (.custom [imageSlide c!"bmp"]) .none) ∧
      typeOf (contentTypesPart (.custom [imageSlide c!"bmp"]) .none) c!"ppt/media/image1.bmp" = none) := by
  decide

/-- What is left out with a template: only layouts 1 to 7 are listed, whatever the template has,
and a listed layout need not be there. -/
theorem C30_template_violated :
    let st := { BuildSettings.none with template := some [c!"ppt/slideLayouts/slideLayout1.xml",
      c!"ppt/slideLayouts/slideLayout8.xml"] }
    typeOf (contentTypesPart (.plain 1) st) c!"ppt/slideLayouts/slideLayout8.xml" = some .xml ∧
    typeOf (contentTypesPart (.plain 1) st) c!"ppt/slideLayouts/slideLayout7.xml" = some .slideLayout ∧
    c!"ppt/slideLayouts/slideLayout7.xml" ∉ (names (buildPackage (.plain 1) st)).map PartName.path := by
  decide

example : typeOf (contentTypesPart (.custom [imageSlide c!"png", imageSlide c!"jpg"]) .none)
    c!"ppt/media/image2.jpg" = some .jpeg := by decide

end PptRs.Props
