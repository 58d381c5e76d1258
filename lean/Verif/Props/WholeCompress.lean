import Verif.Model.WholeCompress
import Verif.Lemmas.TidyParts
import Verif.Props.WholeEdit
import Verif.Props.Compress

/-!
# C147: compressing a written presentation
-/

namespace PptRs.Spec

open PptRs

/-- A text after compression. -/
def keptText (o : CompressionOptions) (t : Str) : Str := if o.optimizeXml then tidy t else t

/-- A loaded slide with changed texts. -/
def mapLoaded (f : Str → Str) (s : Import.LoadedSlide) : Import.LoadedSlide := { s with text := mapSlide f s.text }

/-- A text that compression leaves as it is. -/
def Steady (t : Str) : Prop := BlankText t ∨ Tidied t

/-- A slide with such texts only. -/
structure SteadySlide (s : SlideText) : Prop where
  title : Steady s.title
  content : ∀ t ∈ s.content, Steady t
  bullets : ∀ b ∈ s.bullets, Steady b.text
  cells : ∀ t ∈ s.table, ∀ r ∈ t.rows, ∀ c ∈ r.cells, Steady c.text

/-- The texts of the table of a slide. -/
def cellTexts (s : SlideText) : List (List (List Str)) :=
  s.table.toList.map fun t => t.rows.map fun r => r.cells.map (·.text)

end PptRs.Spec

namespace PptRs.Props

open PptRs PptRs.Spec PptRs.Reader PptRs.Import PptRs.Whole

/-! ### Texts -/

theorem steady_keptText {o : CompressionOptions} {t : Str} (h : Steady t) : keptText o t = t := by
  unfold keptText
  split
  · rcases h with h | h
    · exact tidy_of_blank h
    · exact tidied_tidy h
  · rfl

theorem keptText_blank {o : CompressionOptions} {t : Str} : BlankText (keptText o t) ↔ BlankText t := by
  unfold keptText
  split
  · exact tidy_blank
  · rfl

theorem keptText_nil (o : CompressionOptions) : keptText o [] = [] := by
  unfold keptText
  split
  · rfl
  · rfl

theorem words_keptText (o : CompressionOptions) (t : Str) : wordsOf (keptText o t) = wordsOf t := by
  unfold keptText
  split
  · exact words_tidy t
  · rfl

theorem mapTable_eq {f : Str → Str} {t : TableIn} (h : ∀ r ∈ t.rows, ∀ c ∈ r.cells, f c.text = c.text) : mapTable f t = t := by
  unfold mapTable
  have : (t.rows.map fun r => { r with cells := r.cells.map (mapCell f) }) = t.rows := by
    refine (List.map_congr_left fun r hr => ?_).trans (List.map_id _)
    have : r.cells.map (mapCell f) = r.cells := by
      refine (List.map_congr_left fun c hc => ?_).trans (List.map_id _)
      simp only [mapCell, h r hr c hc, id]
    simp only [this, id]
  rw [this]

theorem mapSlide_eq {f : Str → Str} {s : SlideText} (h1 : f s.title = s.title) (h2 : ∀ t ∈ s.content, f t = t)
    (h3 : ∀ b ∈ s.bullets, f b.text = b.text) (h4 : ∀ t ∈ s.table, ∀ r ∈ t.rows, ∀ c ∈ r.cells, f c.text = c.text) :
    mapSlide f s = s := by
  unfold mapSlide
  have e1 : s.content.map f = s.content := (List.map_congr_left h2).trans (List.map_id _)
  have e2 : (s.bullets.map fun b => { b with text := f b.text }) = s.bullets := by
    refine (List.map_congr_left fun b hb => ?_).trans (List.map_id _)
    simp only [h3 b hb, id]
  have e3 : s.table.map (mapTable f) = s.table := by
    cases hs : s.table with
    | none => rfl
    | some t => rw [Option.map_some, mapTable_eq (h4 t hs)]
  rw [h1, e1, e2, e3]

theorem steady_slide {o : CompressionOptions} {s : SlideText} (h : SteadySlide s) : mapSlide (keptText o) s = s :=
  mapSlide_eq (steady_keptText h.title) (fun t ht => steady_keptText (h.content t ht)) (fun b hb => steady_keptText (h.bullets b hb))
    (fun t ht r hr c hc => steady_keptText (h.cells t ht r hr c hc))

/-! ### What is expected of a slide with changed texts -/

section
variable {f : Str → Str} (h0 : f [] = []) (hb : ∀ t, BlankText (f t) ↔ BlankText t)
include h0 hb

theorem visible_map (t : Str) : visible (f t) = f (visible t) := by
  unfold visible
  by_cases h : BlankText t
  · rw [if_pos h, if_pos ((hb t).mpr h), h0]
  · rw [if_neg h, if_neg fun e => h ((hb t).mp e)]

omit h0 in
theorem filter_map (l : List Str) :
    (l.map f).filter (fun t => ¬ BlankText t) = (l.filter fun t => ¬ BlankText t).map f := by
  rw [List.filter_map]
  congr 1
  refine List.filter_congr fun t _ => ?_
  simp only [Function.comp_apply, hb]

theorem seenTexts_map (t : TableIn) : seenTexts (mapTable f t) = (seenTexts t).map (List.map f) := by
  unfold seenTexts mapTable
  simp only [List.map_map]
  rw [List.filter_map, List.filter_map, List.map_map]
  have e : ∀ r : RowIn, (r.cells.map (mapCell f)).map (fun c => if c.hMerge || c.vMerge then [] else visible c.text) =
      (r.cells.map fun c => if c.hMerge || c.vMerge then [] else visible c.text).map f := by
    intro r
    rw [List.map_map, List.map_map]
    refine List.map_congr_left fun c _ => ?_
    show (if (c.hMerge || c.vMerge) = true then [] else visible (f c.text)) =
      f (if (c.hMerge || c.vMerge) = true then [] else visible c.text)
    by_cases hm : (c.hMerge || c.vMerge) = true
    · rw [if_pos hm, if_pos hm, h0]
    · rw [if_neg hm, if_neg hm]
      exact visible_map h0 hb c.text
  have e1 : ∀ l : List RowIn, (l.filter fun r => (r.cells.map (mapCell f)).map
      (fun c => if c.hMerge || c.vMerge then [] else visible c.text) ≠ []) =
      l.filter fun r => (r.cells.map fun c => if c.hMerge || c.vMerge then ([] : Str) else visible c.text) ≠ [] := by
    intro l
    refine List.filter_congr fun r _ => ?_
    simp
  have e2 := e1 t.rows
  simp only [Function.comp_def] at e2 ⊢
  rw [e2]
  refine List.map_congr_left fun r _ => ?_
  exact e r

omit h0 hb in
theorem mapTable_tableOfTexts (rows : List (List Str)) :
    mapTable f (tableOfTexts rows) = tableOfTexts (rows.map (List.map f)) := by
  unfold mapTable tableOfTexts
  have e1 : ((rows.map (List.map f)).headD []).length = (rows.headD []).length := by
    cases rows <;> simp
  rw [e1]
  simp only [List.map_map]
  congr 1
  refine List.map_congr_left fun r _ => ?_
  simp only [Function.comp_apply, List.map_map]
  congr 1

omit h0 hb in
theorem mapSlide_plain (title : Str) (bullets : List Str) (table : Option TableIn) :
    mapSlide f (plainSlide title bullets table) = plainSlide (f title) (bullets.map f) (table.map (mapTable f)) := by
  unfold mapSlide plainSlide
  simp only [List.map_map]
  congr 1

theorem expected_map (s : SlideText) : expectedSlide (mapSlide f s) = mapLoaded f (expectedSlide s) := by
  unfold expectedSlide mapLoaded
  simp only
  rw [mapSlide_plain]
  congr 1
  have e1 : (mapSlide f s).layout = s.layout := rfl
  have e2 : (mapSlide f s).title = f s.title := rfl
  have e3 : showsBullets (mapSlide f s) = showsBullets s := by
    unfold showsBullets
    rw [e1]
    have : (mapSlide f s).table.isNone = s.table.isNone := by
      show (s.table.map (mapTable f)).isNone = _
      cases s.table <;> rfl
    rw [this]
  have e4 : (mapSlide f s).texts = s.texts.map f := by
    unfold SlideText.texts
    by_cases h : s.bullets = []
    · simp [mapSlide, h]
    · simp [mapSlide, h, Function.comp_def]
  have e5 : (mapSlide f s).table = s.table.map (mapTable f) := rfl
  rw [e1, e2, e3, e4, e5]
  congr 1
  · split
    · exact h0.symm
    · exact visible_map h0 hb _
  · split
    · exact filter_map hb _
    · rfl
  · split
    · cases s.table with
      | none => rfl
      | some t =>
        have e6 := seenTexts_map h0 hb t
        rw [Option.map_some]
        by_cases hs : seenTexts t = []
        · have : seenTexts (mapTable f t) = [] := by rw [e6, hs]; rfl
          simp [Option.filter, hs, this]
        · have : seenTexts (mapTable f t) ≠ [] := by rw [e6]; simpa using hs
          simp only [Option.filter, ne_eq, hs, this, not_false_iff, decide_true, if_true, Option.map_some]
          rw [e6, mapTable_tableOfTexts]
    · rfl

end

/-! ### Parts -/

theorem import_alike (p : Package) (l : List SlideText) (notes handout : Bool) (h0 : l ≠ []) (hn : l.length + 1 < 4294967296)
    (hr : (p.getPartString c!"ppt/_rels/presentation.xml.rels").bind XmlElement.parse =
      XmlElement.parse (renderRels (presentationRels l.length notes handout)))
    (hp : ∀ i (hi : i < l.length), (p.getPartString (c!"ppt/slides/slide" ++ dec (i + 1) ++ c!".xml")).bind XmlElement.parse =
      XmlElement.parse l[i].xml)
    (hs : ∀ s ∈ l, s.Safe ∧ SmallNumbers s ∧ s.extra = []) :
    importPptx p = some { title := (coreInfo p).title.getD [], slides := l.map expectedSlide } := by
  have hpaths : slidePaths p = (List.range l.length).map fun i => c!"ppt/slides/slide" ++ dec (i + 1) ++ c!".xml" := by
    have h2 := relSlides_text (relsText_renderRels (plain_presentationRels l.length notes handout))
      (entries_presentationRels l.length notes handout) hn
    have h3 : listedSlides p = (upTo l.length).map Editor.slidePath := by
      unfold listedSlides
      rw [hr, h2]
      rfl
    unfold slidePaths
    rw [h3, if_neg]
    · simp [upTo, Editor.slidePath]
    · have : upTo l.length ≠ [] := by
        have := List.length_pos_iff.mpr h0
        unfold upTo
        simp; omega
      simpa using this
  have hlen : (slidePaths p).length = (l.map seenSlide).length := by rw [hpaths]; simp
  have hget : ∀ i (hi : i < (l.map seenSlide).length), getSlide p i = some (l.map seenSlide)[i] := by
    intro i hi
    have hi' : i < l.length := by simpa using hi
    unfold getSlide
    have e : (slidePaths p)[i]? = some (c!"ppt/slides/slide" ++ dec (i + 1) ++ c!".xml") := by
      rw [hpaths]
      simp [hi']
    obtain ⟨h1, h2, h3⟩ := hs l[i] (List.getElem_mem hi')
    have hx' : ReadsAs (fmt l[i].extra) [] := by
      rw [h3]
      intro top st
      simp [fmt, steps]
    have h4 := C86_slide_reads_back_partial h1 h2 hx' (by intro n as ks hm; simp at hm)
    rw [e, Option.bind_some]
    have h5 : (p.getPartString (c!"ppt/slides/slide" ++ dec (i + 1) ++ c!".xml")).bind parseSlide = parseSlide l[i].xml := by
      unfold parseSlide
      rw [← hp i hi']
      cases p.getPartString (c!"ppt/slides/slide" ++ dec (i + 1) ++ c!".xml") <;> rfl
    rw [h5, h4]
    simp
  unfold importPptx
  rw [hlen, mapM_range_some hget, Option.map_some, List.map_map]
  congr 2
  exact List.map_congr_left fun s _ => import_seen s

theorem coreInfo_alike {p q : Package} (h : (p.getPartString c!"docProps/core.xml").bind XmlElement.parse =
    (q.getPartString c!"docProps/core.xml").bind XmlElement.parse) : coreInfo p = coreInfo q := by
  unfold coreInfo
  rw [h]

theorem ok_compress {o : CompressionOptions} {p : Package} (h : AMap.Ok p) : AMap.Ok (compressPackage o p).1 := by
  have o4 : AMap.Ok (if o.removeUnusedMedia = true then removeUnusedMedia p else (p, 0)).1 := by
    split
    · exact ok_removeMedia h
    · exact h
  have o3 : ∀ q : Package, q.Ok → (if o.removeProperties = true then removeDocumentProperties q else q).Ok := by
    intro q hq
    split
    · exact ok_remove (ok_remove (ok_remove (ok_remove hq _) _) _) _
    · exact hq
  have o2 : ∀ q : Package, q.Ok → (if o.removeNotes = true then removeNotesSlides q else q).Ok := by
    intro q hq
    split
    · exact ok_removeNotes hq
    · exact hq
  have o1 : ∀ q : Package, q.Ok → (if o.optimizeXml = true then optimizeXmlContent q else q).Ok := by
    intro q hq
    split
    · unfold optimizeXmlContent
      generalize q.partPaths.filter _ = l
      induction l generalizing q with
      | nil => exact hq
      | cons x l ih =>
        rw [List.foldl_cons]
        refine ih _ ?_
        unfold optimizeStep
        split
        · exact AMap.Ok.insert hq _ _
        · exact hq
    · exact hq
  exact o1 _ (o2 _ (o3 _ o4))

theorem compressed_part {o : CompressionOptions} {a b : List (Str × Bytes)} (hc : Compressed o a b) {path t : Str}
    (hp : (Package.openReader a).getPart path = some (encode t)) (hd : Package.isDirName path = false)
    (hx : IsXml path) (hk : ¬ Dropped o (Package.openReader a) path) :
    (Package.openReader b).getPartString path = some (if o.optimizeXml then minimizeXml t else t) := by
  classical
  obtain ⟨entries, ho, rfl⟩ := hc
  have hok : AMap.Ok (compressPackage o (Package.openReader a)).1 := ok_compress (ok_openReader a)
  unfold Package.getPartString
  rw [saved_part hok ho hd, C72_exact_partial o _ (ok_openReader a), if_neg hk, hp]
  by_cases h : o.optimizeXml = true
  · rw [if_pos ⟨h, hx⟩, if_pos h, Option.map_some, Option.map_some, decodeLossy_encode, decodeLossy_encode]
  · rw [if_neg fun e => h e.1, if_neg h, Option.map_some, decodeLossy_encode]

theorem not_dropped {o : CompressionOptions} {p : Package} {path : Str} (h1 : startsWith c!"ppt/media/" path = false)
    (h2 : o.removeProperties = true → path ∉ docPropParts) (h3 : startsWith c!"ppt/notesSlides/" path = false) :
    ¬ Dropped o p path := by
  rintro (h | h | h)
  · have := startsWith_prefix.mpr h.2.1
    rw [h1] at this
    cases this
  · exact h2 h.1 h.2
  · have := startsWith_prefix.mpr h.2
    rw [h3] at this
    cases this

theorem minimized_rels (o : CompressionOptions) {l : List RelEntry} (h : ∀ r ∈ l, r.Plain) :
    XmlElement.parse (if o.optimizeXml then minimizeXml (renderRels l) else renderRels l) = XmlElement.parse (renderRels l) := by
  split
  · have e : renderRels l = relsText (l.map fun r => ([], r)) true := by
      unfold renderRels relsText
      rw [fmt_append, fmt_append, fmt_flatMap, List.flatMap_map]
      simp only [fmt_gapRel, List.nil_append]
      simp [relsHeader, xmlDecl, fmt, whenSet, Part.render]
    rw [e]
    refine parse_minimize_relsText ?_ ?_
    · intro g hg
      obtain ⟨r, hr, rfl⟩ := List.mem_map.mp hg
      exact ⟨by simp [Plain], h r hr⟩
    · intro g hg
      obtain ⟨r, _, rfl⟩ := List.mem_map.mp hg
      exact blankText_nil
  · rfl

theorem minimized_slide (o : CompressionOptions) {s : SlideText} (h : s.Safe) (hx : s.extra = []) :
    XmlElement.parse (if o.optimizeXml then minimizeXml s.xml else s.xml) = XmlElement.parse (mapSlide (keptText o) s).xml := by
  by_cases ho : o.optimizeXml = true
  · rw [if_pos ho, parse_minimize_slide h hx]
    have : keptText o = tidy := by funext t; simp [keptText, ho]
    rw [this]
  · rw [if_neg ho, mapSlide_eq] <;> simp [keptText, ho]

theorem minimized_core (o : CompressionOptions) (secs : Nat) {title : Str} (h : Plain title) :
    XmlElement.parse (if o.optimizeXml then minimizeXml (createCorePropsXml secs title) else createCorePropsXml secs title) =
      XmlElement.parse (createCorePropsXml secs (keptText o title)) := by
  unfold keptText
  split
  · unfold createCorePropsXml
    have e := tidied_tidy (tidied_stamp (stampOf secs))
    have hp := plain_stamp (stampOf secs)
    generalize (stampOf secs).text = now at e hp
    exact parse_minimize_core h hp e
  · rfl

/-! ### Compressed files -/

theorem opened_compressed (secs : Nat) {title : Str} {l : List PageIn} {st : BuildSettings} (desc : Str → Str)
    (other : PartName → Bytes) (ht : st.template = none) (hf : st.fonts = none) (h0 : l ≠ []) (hn : l.length + 1 < 4294967296)
    (hs : Readable l) (hm : Plain title) {o : CompressionOptions} {b : List (Str × Bytes)}
    (hc : Compressed o (written secs title l st desc other) b) :
    opened b = some { title := if o.removeProperties then [] else visible (keptText o title)
                      slides := l.map fun s => expectedSlide (mapSlide (keptText o) s.text) } := by
  have hfn : ((st.fonts.getD []).map (·.fileName)).Nodup := by rw [hf]; simp
  have hcount : (deckOf l).count = l.length := by simp [deckOf, Deck.count]
  have part : ∀ e ∈ buildPackage (deckOf l) st, Package.isDirName e.name.path = false → ∀ t,
      entryText (deckOf l) st desc (pageTexts secs title l) e = some t →
      (Package.openReader (written secs title l st desc other)).getPart e.name.path = some (encode t) := by
    intro e he hd t hx
    have := written_entry ht hfn (entryBytes (deckOf l) st desc (pageTexts secs title l) other) he hd
    unfold written
    rw [this, entryBytes, hx]
  have hrel : (Package.openReader (written secs title l st desc other)).getPart PartName.presRels.path = some (encode _) :=
    part _ (mem_buildPackage_presRels (deckOf l) st hf) (show Package.isDirName PartName.presRels.path = false by decide) _ rfl
  have hr : relsPartText (deckOf l) st (presentationRels (deckOf l).count (hasNotes (deckOf l).slides) st.handout) .presRels =
      renderRels (presentationRels (l.map fun s => mapSlide (keptText o) s.text).length (hasNotes (deckOf l).slides) st.handout) := by
    simp only [relsPartText, renderRelsWith, renderRels, hcount, List.length_map, List.take_length, List.drop_length, List.flatMap_nil,
      List.append_nil]
    simp
  have hcore : (Package.openReader (written secs title l st desc other)).getPart PartName.core.path =
    some (encode (createCorePropsXml secs title)) := part _ (mem_buildPackage_core (deckOf l) st) (by decide) _ rfl
  have c1 := compressed_part hc hrel (by decide) (by decide) (not_dropped (by decide) (by intro _; decide) (by decide))
  have := import_alike (Package.openReader b) (l.map fun s => mapSlide (keptText o) s.text) (hasNotes (deckOf l).slides) st.handout
    (by simpa using h0) (by simpa using hn) (by
      rw [show c!"ppt/_rels/presentation.xml.rels" = PartName.presRels.path from rfl, c1, Option.bind_some, hr]
      exact minimized_rels o (plain_presentationRels _ _ _)) (by
      intro i hi
      have hi' : i < l.length := by simpa using hi
      obtain ⟨x, hx⟩ := mem_buildPackage_slide st hi'
      have hsl := part _ hx (slide_notDir _) l[i].text.xml (by simp [entryText, pageTexts, hi'])
      have c2 := compressed_part hc hsl (slide_notDir _) (.inl ⟨c!"ppt/slides/slide" ++ dec (i + 1), rfl⟩)
        (not_dropped (by rfl) (by
          intro _ hmem
          simp only [docPropParts, List.mem_cons, List.not_mem_nil, or_false] at hmem
          rcases hmem with h | h | h | h <;> cases h) (by rfl))
      rw [show c!"ppt/slides/slide" ++ dec (i + 1) ++ c!".xml" = (PartName.slide (i + 1)).path from rfl, c2, Option.bind_some]
      obtain ⟨h1, _, h3⟩ := hs l[i] (List.getElem_mem hi')
      rw [minimized_slide o h1 h3]
      simp) (by
      intro s hs'
      obtain ⟨x, hx, rfl⟩ := List.mem_map.mp hs'
      obtain ⟨h1, h2, h3⟩ := hs x hx
      exact ⟨mapSlide_safe h1, mapSlide_small h2, h3⟩)
  unfold opened
  rw [this, List.map_map]
  congr 2
  by_cases hp : o.removeProperties = true
  · rw [if_pos hp]
    obtain ⟨entries, ho, rfl⟩ := hc
    classical
    have : (Package.openReader (Package.saveWriter entries)).getPartString c!"docProps/core.xml" = none := by
      unfold Package.getPartString
      rw [saved_part (ok_compress (ok_openReader _)) ho (by decide), C72_exact_partial o _ (ok_openReader _),
        if_pos (.inr (.inl ⟨hp, by decide⟩))]
      rfl
    unfold coreInfo
    rw [this]
    rfl
  · rw [if_neg hp]
    have c3 := compressed_part hc hcore (by decide) (by decide) (not_dropped (by decide) (fun e => absurd e hp) (by decide))
    have hk : Plain (keptText o title) := by
      unfold keptText
      split
      · exact plain_tidy hm
      · exact hm
    have h := coreInfo_written (p := Package.addPart [] c!"docProps/core.xml" (encode (createCorePropsXml secs (keptText o title))))
      (secs := secs) hk.2.1 rfl
    rw [openedTitle_plain hk.1 hk.2.1] at h
    rw [← h]
    refine congrArg (fun i : Reader.Info => i.title.getD []) (coreInfo_alike ?_)
    rw [show c!"docProps/core.xml" = PartName.core.path from rfl, c3, Option.bind_some]
    have e : (Package.addPart [] PartName.core.path (encode (createCorePropsXml secs (keptText o title)))).getPartString PartName.core.path =
        some (createCorePropsXml secs (keptText o title)) := by
      show ((some (encode (createCorePropsXml secs (keptText o title)))).map decodeLossy) = _
      rw [Option.map_some, decodeLossy_encode]
    rw [e, Option.bind_some]
    exact minimized_core o secs hm

theorem keptText_visible (o : CompressionOptions) (t : Str) : visible (keptText o t) = keptText o (visible t) :=
  visible_map (keptText_nil o) (fun _ => keptText_blank) t

theorem keptText_expected (o : CompressionOptions) (s : SlideText) :
    expectedSlide (mapSlide (keptText o) s) = mapLoaded (keptText o) (expectedSlide s) :=
  expected_map (keptText_nil o) (fun _ => keptText_blank) s

/-- **C147.** Compressing a written file and opening it gives the presentation that the file itself gives, with the same slides in
the same order and the same bullets and tables; the texts are squeezed if XML is optimized, and the title of the document is gone
if the properties are removed. (Missing: texts are not always the same, see the violations; slides with drawings; titles with
quotes or markup.) -/
theorem C147_open_partial (secs : Nat) {title : Str} {l : List PageIn} {st : BuildSettings} (desc : Str → Str)
    (other : PartName → Bytes) (ht : st.template = none) (hf : st.fonts = none) (h0 : l ≠ []) (hn : l.length + 1 < 4294967296)
    (hs : Readable l) (hm : Plain title) {o : CompressionOptions} {b : List (Str × Bytes)}
    (hc : Compressed o (written secs title l st desc other) b) :
    ∃ p, opened (written secs title l st desc other) = some p ∧
      opened b = some { title := if o.removeProperties then [] else keptText o p.title
                        slides := p.slides.map (mapLoaded (keptText o)) } := by
  refine ⟨_, C144_open_partial secs desc other ht hf h0 hn hs hm.1 hm.2.1, ?_⟩
  rw [opened_compressed secs desc other ht hf h0 hn hs hm hc, keptText_visible]
  simp only [keptText_expected, List.map_map]
  rfl

/-- **C147.** If the properties are kept and every text is blank or has only single spaces between its words, the compressed file is
opened as the same presentation. -/
theorem C147_same_partial (secs : Nat) {title : Str} {l : List PageIn} {st : BuildSettings} (desc : Str → Str)
    (other : PartName → Bytes) (ht : st.template = none) (hf : st.fonts = none) (h0 : l ≠ []) (hn : l.length + 1 < 4294967296)
    (hs : Readable l) (hm : Plain title) {o : CompressionOptions} (hp : o.removeProperties = false)
    (hx : o.optimizeXml = true → Steady title ∧ ∀ s ∈ l, SteadySlide s.text) {b : List (Str × Bytes)}
    (hc : Compressed o (written secs title l st desc other) b) :
    opened b = opened (written secs title l st desc other) := by
  rw [opened_compressed secs desc other ht hf h0 hn hs hm hc, C144_open_partial secs desc other ht hf h0 hn hs hm.1 hm.2.1, hp]
  have e1 : keptText o title = title := by
    by_cases ho : o.optimizeXml = true
    · exact steady_keptText (hx ho).1
    · simp [keptText, ho]
  have e2 : ∀ s ∈ l, mapSlide (keptText o) s.text = s.text := by
    intro s hm
    by_cases ho : o.optimizeXml = true
    · exact steady_slide ((hx ho).2 s hm)
    · rw [mapSlide_eq] <;> simp [keptText, ho]
  rw [e1, if_neg (by simp)]
  congr 2
  exact List.map_congr_left fun s hm => by rw [e2 s hm]

/-- **C147.** Whatever the options, every title, every bullet and every cell has the same words after compression. -/
theorem C147_words_partial (secs : Nat) {title : Str} {l : List PageIn} {st : BuildSettings} (desc : Str → Str)
    (other : PartName → Bytes) (ht : st.template = none) (hf : st.fonts = none) (h0 : l ≠ []) (hn : l.length + 1 < 4294967296)
    (hs : Readable l) (hm : Plain title) {o : CompressionOptions} {b : List (Str × Bytes)}
    (hc : Compressed o (written secs title l st desc other) b) :
    ∃ p q, opened (written secs title l st desc other) = some p ∧ opened b = some q ∧
      (o.removeProperties = false → wordsOf q.title = wordsOf p.title) ∧
      (q.slides.map fun s => wordsOf s.text.title) = (p.slides.map fun s => wordsOf s.text.title) ∧
      (q.slides.map fun s => s.text.texts.map wordsOf) = (p.slides.map fun s => s.text.texts.map wordsOf) ∧
      (q.slides.map fun s => (cellTexts s.text).map (·.map (·.map wordsOf))) =
        (p.slides.map fun s => (cellTexts s.text).map (·.map (·.map wordsOf))) := by
  obtain ⟨p, h1, h2⟩ := C147_open_partial secs desc other ht hf h0 hn hs hm hc
  refine ⟨p, _, h1, h2, ?_, ?_, ?_, ?_⟩
  · intro h
    rw [h]
    exact words_keptText o p.title
  · rw [List.map_map]
    exact List.map_congr_left fun s _ => words_keptText o _
  · rw [List.map_map]
    refine List.map_congr_left fun s _ => ?_
    have e4 : (mapSlide (keptText o) s.text).texts = s.text.texts.map (keptText o) := by
      unfold SlideText.texts
      by_cases h : s.text.bullets = []
      · simp [mapSlide, h]
      · simp [mapSlide, h, Function.comp_def]
    show (mapSlide (keptText o) s.text).texts.map wordsOf = _
    rw [e4, List.map_map]
    exact List.map_congr_left fun t _ => words_keptText o t
  · rw [List.map_map]
    refine List.map_congr_left fun s _ => ?_
    show (cellTexts (mapSlide (keptText o) s.text)).map _ = _
    have e : (mapSlide (keptText o) s.text).table = s.text.table.map (mapTable (keptText o)) := rfl
    unfold cellTexts
    rw [e]
    cases s.text.table with
    | none => rfl
    | some t =>
      simp only [Option.map_some, Option.toList_some, List.map_cons, List.map_nil, mapTable, List.map_map, List.cons.injEq, and_true]
      refine List.map_congr_left fun r _ => ?_
      simp only [Function.comp_apply, List.map_map]
      exact List.map_congr_left fun c _ => words_keptText o c.text

/-- **C147 does not hold in full.** Every compression that removes the document properties loses the title of the document. -/
theorem C147_title_violated (secs : Nat) {title : Str} {l : List PageIn} {st : BuildSettings} (desc : Str → Str)
    (other : PartName → Bytes) (ht : st.template = none) (hf : st.fonts = none) (h0 : l ≠ []) (hn : l.length + 1 < 4294967296)
    (hs : Readable l) (hm : Plain title) (hb : ¬ BlankText title) {o : CompressionOptions} (hp : o.removeProperties = true)
    {b : List (Str × Bytes)} (hc : Compressed o (written secs title l st desc other) b) :
    (opened (written secs title l st desc other)).map (·.title) = some title ∧ (opened b).map (·.title) = some [] := by
  rw [opened_compressed secs desc other ht hf h0 hn hs hm hc, C144_open_partial secs desc other ht hf h0 hn hs hm.1 hm.2.1]
  simp [hp, visible, hb]

/-- **C147 does not hold in full.** Compression with optimized XML changes every slide title that has a line break, two blanks in a
row or a blank at the end, unless it is blank: optimizing takes the blanks in texts for indentation. -/
theorem C147_spaces_violated (secs : Nat) {title : Str} {l : List PageIn} {st : BuildSettings} (desc : Str → Str)
    (other : PartName → Bytes) (ht : st.template = none) (hf : st.fonts = none) (h0 : l ≠ []) (hn : l.length + 1 < 4294967296)
    (hs : Readable l) (hm : Plain title) {o : CompressionOptions} (ho : o.optimizeXml = true) {s : PageIn} (hl : s ∈ l)
    (hy : s.text.layout ≠ .blank) (hb : ¬ Steady s.text.title) {b : List (Str × Bytes)}
    (hc : Compressed o (written secs title l st desc other) b) :
    opened b ≠ opened (written secs title l st desc other) := by
  rw [opened_compressed secs desc other ht hf h0 hn hs hm hc, C144_open_partial secs desc other ht hf h0 hn hs hm.1 hm.2.1]
  intro h
  have h1 : (l.map fun s => expectedSlide (mapSlide (keptText o) s.text)) = l.map fun s => expectedSlide s.text :=
    congrArg Loaded.slides (Option.some.inj h)
  have h2 := congrArg (fun x : LoadedSlide => x.text.title) (List.map_inj_left.mp h1 s hl)
  rw [keptText_expected] at h2
  have hbl : ¬ BlankText s.text.title := fun e => hb (.inl e)
  have h3 : keptText o (visible s.text.title) = visible s.text.title := by
    simpa [mapLoaded, mapSlide, expectedSlide, plainSlide, hy] using h2
  simp only [visible, hbl, if_false, keptText, ho, if_true, tidy] at h3
  exact hb (.inr (squeeze_fixed.mp h3))

/-! ### Examples -/

theorem compressed_exists (o : CompressionOptions) (a : List (Str × Bytes)) : ∃ b, Compressed o a b := ⟨_, _, .refl _, rfl⟩

example : ∃ b, Compressed .maximum (written 0 c!"Talk" talkPages .none id fun _ => []) b ∧
    (opened b).map (fun p => (p.title, p.slides.map fun s => (s.text.title, s.text.texts))) =
      some ([], [(c!"A < B & C", [c!"one", c!"\"two\""]), (c!"Prices", [])]) := by
  obtain ⟨b, hb⟩ := compressed_exists .maximum (written 0 c!"Talk" talkPages .none id fun _ => [])
  refine ⟨b, hb, ?_⟩
  rw [opened_compressed 0 id _ rfl rfl (by simp [talkPages]) (by simp [talkPages]) talk_readable (by unfold Plain; decide) hb]
  decide +kernel

/-- A slide whose title has two spaces in a row and a line break. -/
def gappyPages : List PageIn := [{ text := SlideText.new c!"one  two\nthree " }]

theorem gappy_readable : Readable gappyPages := by
  intro s hs
  simp only [gappyPages, List.mem_cons, List.not_mem_nil, or_false] at hs
  subst hs
  exact addBullets_readable c!"one  two\nthree " [] none .titleAndContent (by simp)

example : ∃ b, Compressed ⟨false, false, false, false, true⟩ (written 0 c!"Talk" gappyPages .none id fun _ => []) b ∧
    (opened b).map (fun p => p.slides.map fun s => s.text.title) = some [c!"one two three"] := by
  obtain ⟨b, hb⟩ := compressed_exists ⟨false, false, false, false, true⟩ (written 0 c!"Talk" gappyPages .none id fun _ => [])
  refine ⟨b, hb, ?_⟩
  rw [opened_compressed 0 id _ rfl rfl (by simp [gappyPages]) (by simp [gappyPages]) gappy_readable (by unfold Plain; decide) hb]
  decide +kernel

example : ¬ Steady c!"one  two\nthree " ∧ Steady c!"A < B & C" ∧ Steady c!" " ∧ wordsOf c!"one  two\nthree " = [c!"one", c!"two", c!"three"] := by
  unfold Steady
  decide

end PptRs.Props
