import Verif.Spec.Reachable
import Verif.Props.BuilderTargets

/-!
# C105: every part of a generated deck is reached from the package
-/

namespace PptRs.Props

open PptRs PptRs.Spec

/-! ### Which slide a numbered part comes from -/

theorem exists_chart {l : List SlideIn} {m : Nat} (h1 : 1 ≤ m) (h2 : m ≤ numCharts l) :
    ∃ (j : Nat) (s : SlideIn) (i : Nat), l[j]? = some s ∧ i < s.charts ∧ m = numCharts (l.take j) + 1 + i := by
  induction l generalizing m with
  | nil => simp at h2; omega
  | cons s l ih =>
    rw [numCharts_cons] at h2
    by_cases h : m ≤ s.charts
    · exact ⟨0, s, m - 1, rfl, by omega, by simp; omega⟩
    · obtain ⟨j, s', i, e1, e2, e3⟩ := ih (m := m - s.charts) (by omega) (by omega)
      exact ⟨j + 1, s', i, e1, e2, by rw [List.take_succ_cons, numCharts_cons]; omega⟩

theorem exists_ink {l : List SlideIn} {m : Nat} (h1 : 1 ≤ m) (h2 : m ≤ numInk l) :
    ∃ (j : Nat) (s : SlideIn), l[j]? = some s ∧ s.ink = true ∧ m = numInk (l.take j) + 1 := by
  induction l generalizing m with
  | nil => simp at h2; omega
  | cons s l ih =>
    rw [numInk_cons] at h2
    by_cases h : m ≤ s.ink.toNat
    · refine ⟨0, s, rfl, ?_, ?_⟩
      · cases hs : s.ink
        · rw [hs] at h; simp at h; omega
        · rfl
      · have : s.ink.toNat ≤ 1 := by cases s.ink <;> simp
        simp; omega
    · obtain ⟨j, s', e1, e2, e3⟩ := ih (m := m - s.ink.toNat) (by omega) (by omega)
      exact ⟨j + 1, s', e1, e2, by rw [List.take_succ_cons, numInk_cons]; omega⟩

theorem exists_image {l : List SlideIn} {j : Nat} {b : List UInt8} {x : Str} (h : (distinctImages l)[j]? = some (b, x)) :
    ∃ (k : Nat) (s : SlideIn) (img : ImageIn), l[k]? = some s ∧ img ∈ s.images ∧ img.bytes = some b ∧ img.ext = x ∧
      (buildMediaRegistry l).lookupNumber b x = some (j + 1) := by
  have hm : (b, x) ∈ distinctImages l := List.mem_of_getElem? h
  have hm' : (b, x) ∈ allImages l := by
    rw [distinctImages, mem_eraseDups] at hm
    exact hm
  simp only [allImages, List.mem_flatMap, List.mem_filterMap, Option.map_eq_some_iff] at hm'
  obtain ⟨s, hs, img, hi, b', hb, e⟩ := hm'
  cases e
  obtain ⟨k, hk⟩ := List.mem_iff_getElem?.mp hs
  refine ⟨k, s, img, hk, hi, hb, rfl, ?_⟩
  cases hl : (buildMediaRegistry l).lookupNumber b img.ext with
  | none =>
    rw [lookupNumber_none, buildMediaRegistry_entries] at hl
    exact absurd hm hl
  | some n =>
    obtain ⟨h1, h2⟩ := lookupNumber_some hl
    rw [buildMediaRegistry_entries] at h2
    have hd : (distinctImages l).Nodup := nodup_eraseDups _
    have hlt := (List.getElem?_eq_some_iff.mp h).1
    have := (List.getElem?_inj hlt hd).mp (h.trans h2.symm)
    rw [this]
    congr 1
    omega

/-! ### Relationships of parts -/

theorem relsOf_numbered {dir file : Str} {n : Nat} (h : '/' ∉ file) :
    relsOf (dir ++ c!"/_rels/" ++ file ++ dec n ++ c!".xml.rels") (dir ++ c!"/" ++ file ++ dec n ++ c!".xml") :=
  ⟨dir, file ++ dec n ++ c!".xml", by simp, by simp [h, slash_notMem_dec], by simp⟩

theorem relsOf_slide (n : Nat) : relsOf (PartName.slideRels n).path (PartName.slide n).path :=
  relsOf_numbered (dir := c!"ppt/slides") (file := c!"slide") (by decide)

theorem relsOf_chart (n : Nat) : relsOf (PartName.chartRels n).path (PartName.chart n).path :=
  relsOf_numbered (dir := c!"ppt/charts") (file := c!"chart") (by decide)

theorem relsOf_layout (n : Nat) : relsOf (PartName.layoutRels n).path (PartName.layout n).path :=
  relsOf_numbered (dir := c!"ppt/slideLayouts") (file := c!"slideLayout") (by decide)

theorem relsOf_notes (n : Nat) : relsOf (PartName.notesRels n).path (PartName.notes n).path :=
  relsOf_numbered (dir := c!"ppt/notesSlides") (file := c!"notesSlide") (by decide)

theorem relsOf_presentation : relsOf PartName.presRels.path PartName.presentation.path :=
  ⟨c!"ppt", c!"presentation.xml", rfl, by decide, rfl⟩

theorem relsOf_master : relsOf PartName.masterRels.path PartName.master.path :=
  ⟨c!"ppt/slideMasters", c!"slideMaster1.xml", rfl, by decide, rfl⟩

theorem relsOf_notesMaster : relsOf PartName.notesMasterRels.path PartName.notesMaster.path :=
  ⟨c!"ppt/notesMasters", c!"notesMaster1.xml", rfl, by decide, rfl⟩

theorem relsOf_handout : relsOf PartName.handoutRels.path PartName.handoutMaster.path :=
  ⟨c!"ppt/handoutMasters", c!"handoutMaster1.xml", rfl, by decide, rfl⟩

/-! ### Following them -/

/-- The relationships of a part that has them. -/
theorem rels_entry {d : Deck} {st : BuildSettings} (ht : st.template = none) {p : PartName}
    (hp : p ∈ expectedParts d st) : ∃ b, (⟨p, b⟩ : Entry) ∈ buildPackage d st ∧ BodyOk d st p b := by
  obtain ⟨b, hb⟩ := exists_entry ((mem_names ht).mpr hp)
  exact ⟨b, hb, bodyOk d st _ hb⟩

variable {d : Deck} {st : BuildSettings}

theorem reached_root (ht : st.template = none) {r : RelEntry} {t : Str} (hr : r ∈ rootRels st.signature)
    (hi : r.external = false) (hl : leadsTo .rootRels r = some t) : Reached (buildPackage d st) t := by
  obtain ⟨b, hb, e⟩ := rels_entry (d := d) ht (p := .rootRels) (by simp [expectedParts])
  simp only [BodyOk] at e
  subst e
  exact .root hb rfl hr hi hl

theorem reached_presentation (ht : st.template = none) : Reached (buildPackage d st) PartName.presentation.path :=
  reached_root ht (r := rel 1 c!"officeDocument" c!"ppt/presentation.xml") (by simp [rootRels]) rfl (by decide)

theorem reached_pres (ht : st.template = none) {r : RelEntry} {t : Str}
    (hr : r ∈ presentationRelsWithFonts d.count (hasNotes d.slides) st.handout (fontsOf d st))
    (hi : r.external = false) (hl : leadsTo .presRels r = some t) : Reached (buildPackage d st) t := by
  obtain ⟨b, hb, e⟩ := rels_entry (d := d) ht (p := .presRels) (by simp [expectedParts])
  simp only [BodyOk] at e
  subst e
  exact .step (reached_presentation ht) hb relsOf_presentation hr hi hl

theorem reached_master (ht : st.template = none) : Reached (buildPackage d st) PartName.master.path :=
  reached_pres ht (r := rel 1 c!"slideMaster" c!"slideMasters/slideMaster1.xml")
    (by simp [presentationRelsWithFonts, presentationRels]) rfl (by decide)

theorem reached_slide (ht : st.template = none) {n : Nat} (h1 : 1 ≤ n) (h2 : n ≤ d.count) :
    Reached (buildPackage d st) (PartName.slide n).path := by
  refine reached_pres ht (r := rel (slideRelId n) c!"slide" (c!"slides/slide" ++ dec n ++ c!".xml")) ?_ rfl
    (leadsTo_slide _ _)
  simp only [presentationRelsWithFonts, presentationRels, List.mem_append, List.mem_map]
  refine .inl (.inl (.inl (.inl (.inr ⟨n, ?_, rfl⟩))))
  rw [upTo_eq, List.mem_range'_1]
  omega

/-- What a slide's own relationships lead to is reached. -/
theorem reached_ofSlide (ht : st.template = none) {j : Nat} {s : SlideIn} (hj : d.slides[j]? = some s) {r : RelEntry}
    {t : Str}
    (hr : r ∈ ownRels s (buildMediaRegistry d.slides) (resolveLayout st s.layout.layoutNumber)
      (if s.notes.isSome then numNotes (d.slides.take j) + 1 else 1) (numInk (d.slides.take j) + 1)
      (numCharts (d.slides.take j) + 1)) (hi : r.external = false) (hl : leadsTo (.slideRels (j + 1)) r = some t) :
    Reached (buildPackage d st) t := by
  have hlt := (List.getElem?_eq_some_iff.mp hj).1
  have hc : d.slides.length ≤ d.count := by cases d <;> simp [Deck.slides, Deck.count]
  obtain ⟨b, hb⟩ := exists_entry (d := d) ((mem_names ht (p := .slideRels (j + 1))).mpr
    (by simp [expectedParts, List.mem_range'_1]; omega))
  have e := bodyOk d st _ hb
  have : ∃ l, b = .rels l := by
    simp only [BodyOk] at e
    rcases e with ⟨_, _, _, _, e⟩ | ⟨_, _, e⟩
    · exact ⟨_, congrArg Entry.body e⟩
    · exact ⟨_, e⟩
  obtain ⟨l, rfl⟩ := this
  rw [slideRels_body hj hb] at hb
  exact .step (reached_slide ht (by omega) (by omega)) hb (relsOf_slide _) (List.mem_append_left _ hr) hi hl

theorem reached_chart (ht : st.template = none) {m : Nat} (h1 : 1 ≤ m) (h2 : m ≤ numCharts d.slides) :
    Reached (buildPackage d st) (PartName.chart m).path := by
  obtain ⟨j, s, i, hj, hi, rfl⟩ := exists_chart h1 h2
  refine reached_ofSlide ht hj (r := rel (slideContentRelStart s.notes.isSome
    (slideImageRelTargets s (buildMediaRegistry d.slides)).length + i) c!"chart"
    (c!"../charts/chart" ++ dec (numCharts (d.slides.take j) + 1 + i) ++ c!".xml")) ?_ rfl (leadsTo_chart _ _ _)
  simp only [ownRels, slideRelsWithImages, List.mem_append, List.mem_map]
  exact .inl (.inl (.inr ⟨_, ⟨i, List.mem_range.mpr hi, rfl⟩, rfl⟩))

theorem reached_ink (ht : st.template = none) {m : Nat} (h1 : 1 ≤ m) (h2 : m ≤ numInk d.slides) :
    Reached (buildPackage d st) (PartName.ink m).path := by
  obtain ⟨j, s, hj, hi, rfl⟩ := exists_ink h1 h2
  refine reached_ofSlide ht hj (r := rel (slideContentRelStart s.notes.isSome
    (slideImageRelTargets s (buildMediaRegistry d.slides)).length + s.charts) c!"ink"
    (c!"../ink/ink" ++ dec (numInk (d.slides.take j) + 1) ++ c!".xml")) ?_ rfl (leadsTo_ink _ _ _)
  simp [ownRels, slideRelsWithImages, hi]

theorem reached_notes (ht : st.template = none) {j : Nat} {s : SlideIn} (hj : d.slides[j]? = some s)
    (hn : s.notes.isSome = true) : Reached (buildPackage d st) (PartName.notes (numNotes (d.slides.take j) + 1)).path := by
  refine reached_ofSlide ht hj (r := rel 2 c!"notesSlide"
    (c!"../notesSlides/notesSlide" ++ dec (numNotes (d.slides.take j) + 1) ++ c!".xml")) ?_ rfl (leadsTo_notes _ _ _)
  simp [ownRels, slideRelsWithImages, hn]

theorem reached_media (ht : st.template = none) (hx : ∀ s ∈ d.slides, ∀ i ∈ s.images, ExtOk i.ext) {j : Nat}
    {b : List UInt8} {x : Str} (h : (distinctImages d.slides)[j]? = some (b, x)) :
    Reached (buildPackage d st) (PartName.media (j + 1) x).path := by
  obtain ⟨k, s, img, hk, hi, hb, rfl, hl⟩ := exists_image h
  have hm : (j + 1, img.ext) ∈ slideImageRelTargets s (buildMediaRegistry d.slides) := by
    simp only [slideImageRelTargets, List.mem_filterMap, Option.bind_eq_some_iff, Option.map_eq_some_iff]
    exact ⟨img, hi, b, hb, j + 1, hl, rfl⟩
  obtain ⟨i, hi'⟩ := List.mem_iff_getElem?.mp hm
  have hr := imageRelsFrom_get (2 + s.notes.isSome.toNat) 0 (slideImageRelTargets s (buildMediaRegistry d.slides)) i
  rw [hi'] at hr
  refine reached_ofSlide ht hk (List.mem_append_left _ (List.mem_append_left _ (List.mem_append_left _
    (List.mem_append_right _ (List.mem_of_getElem? hr))))) rfl
    (leadsTo_image _ _ _ _ (hx s (List.mem_of_getElem? hk) img hi))

theorem reached_presFile (ht : st.template = none) {n : Nat} {ty : Str} {dest : List Str} {q : PartName}
    (hr : rel n ty (joinStr c!"/" dest) ∈ presentationRels d.count (hasNotes d.slides) st.handout)
    (hd : dest ≠ [] ∧ '&' ∉ joinStr c!"/" dest ∧ '<' ∉ joinStr c!"/" dest ∧
      ∀ s ∈ dest, s ≠ [] ∧ s ≠ c!"." ∧ s ≠ c!".." ∧ '/' ∉ s)
    (hq : q.path = c!"ppt/" ++ joinStr c!"/" dest) : Reached (buildPackage d st) q.path := by
  refine reached_pres ht (List.mem_append_left _ hr) rfl ?_
  rw [hq]
  exact leadsTo_ppt rfl hd.2.1 hd.2.2.1 hd.2.2.2 hd.1

theorem reached_notesMaster (ht : st.template = none) (h : numNotes d.slides ≠ 0) :
    Reached (buildPackage d st) PartName.notesMaster.path :=
  reached_presFile ht (n := notesMasterRelId d.count) (ty := c!"notesMaster") (dest := [c!"notesMasters", c!"notesMaster1.xml"])
    (by simp [presentationRels, joinStr, (hasNotes_iff _).mpr h]) (by decide) rfl

theorem reached_handout (ht : st.template = none) (h : st.handout = true) :
    Reached (buildPackage d st) PartName.handoutMaster.path :=
  reached_presFile ht (n := handoutMasterRelId d.count (hasNotes d.slides)) (ty := c!"handoutMaster")
    (dest := [c!"handoutMasters", c!"handoutMaster1.xml"]) (by simp [presentationRels, joinStr, h]) (by decide) rfl

/-- The numbers of the parts that are numbered. -/
def partBound (d : Deck) : PartName → Option (Nat × Nat)
  | .layout n => some (n, 7)
  | .slide n => some (n, d.count)
  | .chart n => some (n, numCharts d.slides)
  | .embedding n => some (n, numCharts d.slides)
  | .ink n => some (n, numInk d.slides)
  | _ => none

theorem partBound_spec {q : PartName} (hm : q ∈ expectedParts d st) {n k : Nat} (h : partBound d q = some (n, k)) :
    1 ≤ n ∧ n ≤ k := by
  simp only [expectedParts, mediaParts] at hm
  cases q <;> simp only [partBound, reduceCtorEq, Option.some.injEq, Prod.mk.injEq] at h <;> obtain ⟨rfl, rfl⟩ := h <;>
    split at hm <;> split at hm <;> split at hm <;> simp [List.mem_range'_1] at hm <;> omega

/-- The part a numbered relationship part belongs to. -/
def ownerOf : PartName → Option PartName
  | .layoutRels n => some (.layout n)
  | .slideRels n => some (.slide n)
  | .notesRels n => some (.notes n)
  | .chartRels n => some (.chart n)
  | _ => none

theorem numbered_of_rels {p q : PartName} (hm : p ∈ expectedParts d st) (h : ownerOf p = some q) : q ∈ expectedParts d st := by
  simp only [expectedParts, mediaParts] at hm ⊢
  cases p <;> simp only [ownerOf, reduceCtorEq, Option.some.injEq] at h <;> subst h <;>
    split at hm <;> split at hm <;> split at hm <;> simp [List.mem_range'_1] at hm ⊢ <;> omega

/-- **C105**: every part of a deck except the content types, the relationships themselves and the signature is
reached from the package. Needed: no template, images and fonts with names that can be written. What is missing is the
signature, see `C105_signature_violated`. -/
theorem C105_partial (hok : LinksOk d st) {q : PartName} (hq : q ∈ names (buildPackage d st)) (hc : q ≠ .contentTypes)
    (hr : ∀ l, (⟨q, .rels l⟩ : Entry) ∉ buildPackage d st) (hs : q ≠ .sig) :
    Reached (buildPackage d st) q.path := by
  have ht := hok.template
  have hm := (mem_names ht).mp hq
  obtain ⟨b, hb, e⟩ := rels_entry ht hm
  have isRels : ∀ l, b = .rels l → False := fun l h => hr l (h ▸ hb)
  cases q with
  | contentTypes => exact absurd rfl hc
  | sig => exact absurd rfl hs
  | rootRels | presRels | handoutRels | notesMasterRels | masterRels => exact (isRels _ e).elim
  | layoutRels n => exact (isRels _ e).elim
  | chartRels n => exact (isRels _ e).elim
  | slideRels n =>
    simp only [BodyOk] at e
    rcases e with ⟨_, _, _, _, e⟩ | ⟨_, _, e⟩
    · exact (isRels _ (congrArg Entry.body e)).elim
    · exact (isRels _ e).elim
  | notesRels n =>
    simp only [BodyOk] at e
    obtain ⟨_, _, _, _, _, e⟩ := e
    exact (isRels _ e).elim
  | presentation => exact reached_presentation ht
  | master => exact reached_master ht
  | core =>
    exact reached_root ht (r := ⟨c!"rId2", c!"http://schemas.openxmlformats.org/package/2006/relationships/metadata/core-properties",
      c!"docProps/core.xml", false⟩) (by simp [rootRels]) rfl (by decide)
  | app => exact reached_root ht (r := rel 3 c!"extended-properties" c!"docProps/app.xml") (by simp [rootRels]) rfl (by decide)
  | sigOrigin =>
    cases hh : st.signature with
    | false => simp [expectedParts, hh, mediaParts] at hm
    | true =>
      exact reached_root ht (r := ⟨c!"rId4",
        c!"http://schemas.openxmlformats.org/package/2006/relationships/digital-signature/origin",
        c!"_xmlsignatures/origin.sigs", false⟩) (by simp [rootRels, hh]) rfl (by decide)
  | presProps =>
    exact reached_presFile ht (n := presPropsRelId d.count (hasNotes d.slides) st.handout) (ty := c!"presProps")
      (dest := [c!"presProps.xml"]) (by simp [presentationRels, joinStr]) (by decide) rfl
  | viewProps =>
    exact reached_presFile ht (n := viewPropsRelId d.count (hasNotes d.slides) st.handout) (ty := c!"viewProps")
      (dest := [c!"viewProps.xml"]) (by simp [presentationRels, joinStr]) (by decide) rfl
  | tableStyles =>
    exact reached_presFile ht (n := tableStylesRelId d.count (hasNotes d.slides) st.handout) (ty := c!"tableStyles")
      (dest := [c!"tableStyles.xml"]) (by simp [presentationRels, joinStr]) (by decide) rfl
  | notesMaster =>
    refine reached_notesMaster ht fun h => ?_
    simp [expectedParts, h, mediaParts] at hm
  | handoutMaster =>
    refine reached_handout ht ?_
    cases h : st.handout
    · simp [expectedParts, h, mediaParts] at hm
    · rfl
  | theme n =>
    have hn : n = 1 ∨ (n = 2 ∧ numNotes d.slides ≠ 0) ∨ (n = 3 ∧ st.handout = true) := by
      cases hh : st.handout <;> by_cases hn : numNotes d.slides = 0 <;> simp [expectedParts, hh, hn, mediaParts] at hm <;>
        simp [hn] <;> omega
    rcases hn with rfl | ⟨rfl, h⟩ | ⟨rfl, h⟩
    · exact reached_presFile ht (n := themeRelId d.count (hasNotes d.slides) st.handout) (ty := c!"theme")
        (dest := [c!"theme", c!"theme1.xml"]) (by simp [presentationRels, joinStr]) (by decide) rfl
    · obtain ⟨b, hb, e⟩ := rels_entry (d := d) ht (p := .notesMasterRels) (by simp [expectedParts, h])
      simp only [BodyOk] at e
      subst e
      exact .step (reached_notesMaster ht h) hb relsOf_notesMaster (r := rel 1 c!"theme" c!"../theme/theme2.xml")
        (by simp [notesMasterRels]) rfl (by decide)
    · obtain ⟨b, hb, e⟩ := rels_entry (d := d) ht (p := .handoutRels) (by simp [expectedParts, h])
      simp only [BodyOk] at e
      subst e
      exact .step (reached_handout ht h) hb relsOf_handout (r := rel 1 c!"theme" c!"../theme/theme3.xml")
        (by simp [handoutMasterRels]) rfl (by decide)
  | layout n =>
    have hn := partBound_spec hm rfl
    obtain ⟨b, hb, e⟩ := rels_entry (d := d) ht (p := .masterRels) (by simp [expectedParts])
    simp only [BodyOk] at e
    subst e
    have : ∀ n ∈ List.range' 1 7, leadsTo .masterRels (rel n c!"slideLayout" (layoutRelTarget n)) =
        some (PartName.layout n).path := by decide
    refine .step (reached_master ht) hb relsOf_master (r := rel n c!"slideLayout" (layoutRelTarget n)) ?_ rfl
      (this n (by rw [List.mem_range'_1]; omega))
    simp only [masterRels, List.mem_append, List.mem_map]
    refine .inl ⟨n, ?_, rfl⟩
    rw [upTo_eq, List.mem_range'_1, standardLayoutCount]
    omega
  | slide n =>
    have hn := partBound_spec hm rfl
    exact reached_slide ht hn.1 hn.2
  | notes n =>
    simp only [BodyOk] at e
    obtain ⟨j, s, text, hj, hn, rfl, -⟩ := e
    exact reached_notes ht hj (by simp [hn])
  | chart n =>
    have hn := partBound_spec hm rfl
    exact reached_chart ht hn.1 hn.2
  | embedding n =>
    have hn := partBound_spec hm rfl
    obtain ⟨b, hb, e⟩ := rels_entry (d := d) ht (p := .chartRels n)
      (by simp [expectedParts, List.mem_range'_1]; omega)
    simp only [BodyOk] at e
    subst e
    exact .step (reached_chart ht hn.1 hn.2) hb (relsOf_chart n) (List.mem_singleton.mpr rfl) rfl
      (leadsTo_chartRels n n _ (List.mem_singleton.mpr rfl))
  | ink n =>
    have hn := partBound_spec hm rfl
    exact reached_ink ht hn.1 hn.2
  | media n x =>
    simp only [BodyOk] at e
    obtain ⟨j, bytes, hj, rfl, -⟩ := e
    exact reached_media ht hok.exts hj
  | font f =>
    have hf : ∃ g ∈ st.fonts.getD [], g.fileName = f := by
      simp only [expectedParts, mediaParts] at hm
      split at hm <;> split at hm <;> split at hm <;> simpa using hm
    obtain ⟨g, hg, rfl⟩ := hf
    have : g.fileName ∈ (fontsOf d st).map (·.fileName) := by
      rw [fontsOf_eq, assignFontIds, assignFontIds_fileNames]
      exact List.mem_map_of_mem hg
    obtain ⟨f, hf, hfg⟩ := List.mem_map.mp this
    have hf' := hf
    rw [fontsOf_eq, assignFontIds] at hf'
    obtain ⟨g', hg', e1, e2⟩ := mem_assign hf'
    rw [← hfg]
    exact reached_pres ht (List.mem_append_right _ (List.mem_map_of_mem hf)) rfl
      (leadsTo_font (e1 ▸ hok.fonts g' hg'))
  | templatePart f => simp [expectedParts, mediaParts] at hm

/-- Every relationship part is that of the package or belongs to a part of the deck. -/
theorem C105_relationships (ht : st.template = none) {p : PartName} {l : List RelEntry}
    (h : ⟨p, .rels l⟩ ∈ buildPackage d st) :
    p.path = c!"_rels/.rels" ∨ ∃ q ∈ names (buildPackage d st), relsOf p.path q.path := by
  have hm : p ∈ expectedParts d st := (mem_names ht).mp (List.mem_map.mpr ⟨_, h, rfl⟩)
  have e := bodyOk d st _ h
  simp only [mem_names ht]
  cases p with
  | rootRels => exact .inl rfl
  | presRels => exact .inr ⟨.presentation, by simp [expectedParts], relsOf_presentation⟩
  | masterRels => exact .inr ⟨.master, by simp [expectedParts], relsOf_master⟩
  | notesMasterRels =>
    refine .inr ⟨.notesMaster, ?_, relsOf_notesMaster⟩
    by_cases hn : numNotes d.slides = 0 <;> simp [expectedParts, hn, mediaParts] at hm ⊢
  | handoutRels =>
    refine .inr ⟨.handoutMaster, ?_, relsOf_handout⟩
    cases hn : st.handout <;> simp [expectedParts, hn, mediaParts] at hm ⊢
  | layoutRels n => exact .inr ⟨.layout n, numbered_of_rels hm rfl, relsOf_layout n⟩
  | slideRels n => exact .inr ⟨.slide n, numbered_of_rels hm rfl, relsOf_slide n⟩
  | notesRels n => exact .inr ⟨.notes n, numbered_of_rels hm rfl, relsOf_notes n⟩
  | chartRels n => exact .inr ⟨.chart n, numbered_of_rels hm rfl, relsOf_chart n⟩
  | slide n =>
    simp only [BodyOk] at e
    rcases e with ⟨_, _, _, _, e⟩ | ⟨_, _, e⟩ <;> cases e
  | notes n =>
    simp only [BodyOk] at e
    obtain ⟨_, _, _, _, _, _, e⟩ := e
    cases e
  | media n x =>
    simp only [BodyOk] at e
    obtain ⟨_, _, _, _, e⟩ := e
    cases e
  | _ => cases e

/-- **C105 does not hold for signatures**: a signed deck has the part `_xmlsignatures/sig1.xml`, but nothing leads to
it: the origin of the signatures has no relationships. A reader finds no signature. -/
theorem C105_signature_violated :
    let st := { BuildSettings.none with signature := true }
    .sig ∈ names (buildPackage (.plain 1) st) ∧ ¬ Reached (buildPackage (.plain 1) st) PartName.sig.path := by
  intro st
  refine ⟨by decide, fun h => ?_⟩
  have key : ∀ e ∈ buildPackage (.plain 1) st, ∀ rs, e.body = .rels rs → ∀ r ∈ rs, leadsTo e.name r ≠ some PartName.sig.path := by
    intro e he rs hrs
    have : ∀ e ∈ buildPackage (.plain 1) st, (match e.body with
      | .rels rs => rs.all fun r => leadsTo e.name r ≠ some PartName.sig.path
      | _ => true) = true := by decide +kernel
    have := this e he
    rw [hrs] at this
    simpa using this
  generalize hp : PartName.sig.path = p at h key
  cases h with
  | root h _ hr _ ht => exact key _ h _ rfl _ hr ht
  | step _ h _ hr _ ht => exact key _ h _ rfl _ hr ht

/-- Not vacuous: the chart and the notes of the second slide of a deck. -/
example :
    let s : SlideIn := ⟨c!"T", .titleOnly, 0, false, [], [⟨some [1], c!"png"⟩], none, 0, 0, 1, false⟩
    let t : SlideIn := ⟨c!"T", .titleOnly, 0, false, [], [], some c!"n", 0, 0, 1, true⟩
    LinksOk (.custom [s, t]) .none ∧ .chart 2 ∈ names (buildPackage (.custom [s, t]) .none) ∧
      .media 1 c!"png" ∈ names (buildPackage (.custom [s, t]) .none) := by
  intro s t
  refine ⟨⟨rfl, by simp [BuildSettings.none], ?_, ?_⟩, by decide, by decide⟩
  · intro x hx i hi
    simp only [Deck.slides, List.mem_cons, List.not_mem_nil, or_false] at hx
    rcases hx with rfl | rfl
    · simp only [s, List.mem_singleton] at hi
      subst hi
      exact ⟨by decide, by decide, by decide⟩
    · simp [t] at hi
  · intro x hx
    simp only [Deck.slides, List.mem_cons, List.not_mem_nil, or_false] at hx
    rcases hx with rfl | rfl <;> simp [s, t]

end PptRs.Props
