import Verif.Props.WholeEditAny
import Verif.Props.AnyFile
import Verif.Props.ImportShapes

/-!
# Opening files with embedded fonts (C144)

The relationships of fonts follow the others in `ppt/_rels/presentation.xml.rels`, without line breaks. The reader takes the slides
from this part, and finds the same ones in the same order.
-/

namespace PptRs.Props

open PptRs PptRs.Spec PptRs.Reader PptRs.Import PptRs.Editor PptRs.Draw PptRs.Whole

/-- The parts of the relationship of a font. -/
def fontRelParts (f : EmbeddedFont) : List Part :=
  t!"<Relationship Id=\"{.raw f.relationshipId}\" Type=\"http://schemas.openxmlformats.org/officeDocument/2006/relationships/font\" Target=\"{.esc (c!"fonts/" ++ f.fileName)}\"/>"

/-- The relationship of a font as it is read. -/
def fontRelRead (f : EmbeddedFont) : RelEntry := ⟨f.relationshipId, relTypeBase ++ c!"font", c!"fonts/" ++ f.fileName, false⟩

theorem fmt_fontRelParts (f : EmbeddedFont) : fmt (fontRelParts f) = renderRel (fontRel f) := by
  simp [fontRelParts, renderRel, fontRel, fmt, Part.render, relTypeBase]

theorem readsNodes_fontRel {f : EmbeddedFont} (h : Plain f.relationshipId) : ReadsNodes (fontRelParts f) [relNode (fontRelRead f)] :=
  (Splits.lit (by unfold fontRelParts; parts_ok)).readsNodes (by krfl)

theorem entry_fontRelRead (f : EmbeddedFont) : slideEntry (fontRelRead f) = none := by
  have : isSlideType (relTypeBase ++ c!"font") = false := by decide +kernel
  simp [slideEntry, fontRelRead, this]

theorem document_relsWithFonts {l : List RelEntry} {fonts : List EmbeddedFont} (hl : ∀ r ∈ l, r.Plain)
    (hf : ∀ f ∈ fonts, Plain f.relationshipId) (h0 : fonts ≠ []) :
    document (renderRelsWith l (fonts.map fontRel)) =
      some (relsDoc ((l.map fun r => (([] : Str), r)).flatMap gapNodes ++ [nl] ++ fonts.flatMap fun f => [relNode (fontRelRead f)])) := by
  have hn : ReadsNodes ((l.map fun r => (([] : Str), r)).flatMap gapRel) ((l.map fun r => (([] : Str), r)).flatMap gapNodes) :=
    readsNodes_flatMap fun g h => by
      obtain ⟨r, hr, rfl⟩ := List.mem_map.mp h
      exact readsNodes_gapRel (by simp [Plain]) (hl r hr)
  have hx : ReadsNodes (fonts.flatMap fontRelParts) (fonts.flatMap fun f => [relNode (fontRelRead f)]) :=
    readsNodes_flatMap fun f h => readsNodes_fontRel (hf f h)
  have hy : ReadsTagged (fonts.flatMap fontRelParts) (fonts.flatMap fun f => [relNode (fontRelRead f)]) := by
    refine hx.tagged ?_
    cases fonts with
    | nil => exact absurd rfl h0
    | cons f fs => exact ⟨_, rfl⟩
  have et : renderRelsWith l (fonts.map fontRel) =
      xmlDecl ++ fmt (t!"<Relationships xmlns=\"http://schemas.openxmlformats.org/package/2006/relationships\">"
        ++ (l.map fun r => (([] : Str), r)).flatMap gapRel ++ (t!"\n" ++ fonts.flatMap fontRelParts ++ t!"</Relationships>")) := by
    simp only [fmt_append, fmt_flatMap, fmt_gapRel, fmt_fontRelParts, List.flatMap_map, List.nil_append, renderRelsWith]
    simp [relsHeader, xmlDecl, fmt, Part.render]
  rw [et]
  generalize hb : (t!"<Relationships xmlns=\"http://schemas.openxmlformats.org/package/2006/relationships\">"
    ++ (l.map fun r => (([] : Str), r)).flatMap gapRel ++ (t!"\n" ++ fonts.flatMap fontRelParts ++ t!"</Relationships>")) = body
  have e : document (xmlDecl ++ fmt body) = parse (fmt body) := by rw [← hb]; krfl
  rw [e, ← hb]
  exact parse_of_nodes (((Splits.lit (by parts_ok)).append (.nodes hn) |>.append
    (((Splits.lit (by parts_ok)).append (.tagged hy)).append (.lit (by parts_ok)))).readsNodes (by krfl))

theorem parse_relsWithFonts {l : List RelEntry} {fonts : List EmbeddedFont} (hl : ∀ r ∈ l, r.Plain)
    (hf : ∀ f ∈ fonts, Plain f.relationshipId) : ∃ root, XmlElement.parse (renderRelsWith l (fonts.map fontRel)) = some root ∧
    (root.findAll c!"Relationship").filterMap slideRelOf = l.filterMap slideEntry := by
  cases hfs : fonts with
  | nil =>
    obtain ⟨root, h1, h2⟩ := parse_relsText (relsText_renderRels hl)
    exact ⟨root, by rw [← h1]; simp [renderRelsWith, renderRels], h2⟩
  | cons f0 fs0 =>
  rw [← hfs]
  refine ⟨_, parse_elem (document_relsWithFonts hl hf (by rw [hfs]; simp)), ?_⟩
  show (namedIn c!"Relationship" _).filterMap slideRelOf = _
  rw [namedIn_append, namedIn_append, List.filterMap_append, List.filterMap_append]
  have e1 : namedIn c!"Relationship" [nl] = [] := rfl
  have e2 : ∀ fs : List EmbeddedFont,
      (namedIn c!"Relationship" (fs.flatMap fun f => [relNode (fontRelRead f)])).filterMap slideRelOf = [] := by
    intro fs
    induction fs with
    | nil => rfl
    | cons f fs ih =>
      have e3 : namedIn c!"Relationship" [relNode (fontRelRead f)] = built (relNode (fontRelRead f)) := by krfl
      rw [List.flatMap_cons, namedIn_append, List.filterMap_append, ih, e3, slideRelOf_node, entry_fontRelRead]
      rfl
  rw [e1, e2, List.filterMap_nil, List.append_nil, List.append_nil]
  clear hl hf e1 e2 hfs
  induction l with
  | nil => rfl
  | cons r l ih =>
    have e2 : namedIn c!"Relationship" (gapNodes (([] : Str), r)) = built (relNode r) := by krfl
    rw [List.map_cons, List.flatMap_cons, namedIn_append, List.filterMap_append, ih, e2, slideRelOf_node, List.filterMap_cons]
    cases slideEntry r <;> rfl

/-- **C52.** The slides of a file with fonts are read in the order they were written, whatever the fonts. -/
theorem C52_fonts_order (p : Package) (n : Nat) (notes handout : Bool) {fonts : List EmbeddedFont} (h0 : 0 < n)
    (hn : n + 1 < 4294967296) (hf : ∀ f ∈ fonts, Plain f.relationshipId)
    (h : p.getPart c!"ppt/_rels/presentation.xml.rels" =
      some (encode (renderRelsWith (presentationRels n notes handout) (fonts.map fontRel)))) :
    slidePaths p = (List.range n).map fun i => c!"ppt/slides/slide" ++ dec (i + 1) ++ c!".xml" := by
  have h1 : Package.getPartString p c!"ppt/_rels/presentation.xml.rels" =
      some (renderRelsWith (presentationRels n notes handout) (fonts.map fontRel)) := by
    unfold Package.getPartString
    rw [h, Option.map_some, decodeLossy_encode]
  obtain ⟨root, h2, h3⟩ := parse_relsWithFonts (plain_presentationRels n notes handout) hf
  have h4 : listedSlides p = (upTo n).map Editor.slidePath := by
    unfold listedSlides
    rw [h1, Option.bind_some, h2, Option.map_some, Option.getD_some, relSlides, h3, entries_presentationRels, sorted_entries hn]
    simp [slideRefs]
  unfold slidePaths
  rw [h4, if_neg]
  · simp [upTo, Editor.slidePath]
  · have : upTo n ≠ [] := by
      unfold upTo
      simp; omega
    simpa using this

theorem plain_assignFontIds {fonts : List EmbeddedFont} (h : ∀ f ∈ fonts, Plain f.relationshipId) (start : Nat) :
    ∀ f ∈ assignFontIds fonts start, Plain f.relationshipId := by
  have go : ∀ (fonts : List EmbeddedFont) (i : Nat), (∀ f ∈ fonts, Plain f.relationshipId) →
      ∀ f ∈ assignFontIdsFrom start i fonts, Plain f.relationshipId := by
    intro fonts
    induction fonts with
    | nil => intro i _ f hf; cases hf
    | cons a fs ih =>
      intro i h f hf
      rw [assignFontIdsFrom, List.mem_cons] at hf
      rcases hf with rfl | hf
      · split
        · exact plain_append (by simp [Plain]) (plain_dec _)
        · exact h a (by simp)
      · exact ih _ (fun f hf => h f (by simp [hf])) f hf
  exact go fonts 0 h

/-- What is written for a presentation with fonts, as far as the reader looks at it. -/
theorem read_archiveOf {d : Deck} {st : BuildSettings} (desc : Str → Str) (texts : PartTexts) (other : PartName → Bytes)
    (ht : st.template = none) (hn : ((st.fonts.getD []).map (·.fileName)).Nodup)
    (hf : ∀ f ∈ st.fonts.getD [], Plain f.relationshipId) (h0 : 0 < d.count) (h1 : d.count + 1 < 4294967296) :
    (slidePaths (Package.openReader (archiveOf d st desc texts other)) =
      (List.range d.count).map fun i => c!"ppt/slides/slide" ++ dec (i + 1) ++ c!".xml") ∧
    (∀ i, i < d.count → (Package.openReader (archiveOf d st desc texts other)).getPart (c!"ppt/slides/slide" ++ dec (i + 1) ++ c!".xml") =
      some ((texts (.slide (i + 1))).elim (other (.slide (i + 1))) encode)) ∧
    (Package.openReader (archiveOf d st desc texts other)).getPart c!"docProps/core.xml" =
      some ((texts .core).elim (other .core) encode) := by
  generalize hp : Package.openReader (archiveOf d st desc texts other) = p
  have part : ∀ e ∈ buildPackage d st, Package.isDirName e.name.path = false →
      p.getPart e.name.path = some (entryBytes d st desc texts other e) := by
    intro e he hd
    have := written_entry ht hn (entryBytes d st desc texts other) he hd
    rw [← hp]
    exact this
  have bytes : ∀ e : Entry, entryText d st desc texts e = texts e.name →
      entryBytes d st desc texts other e = (texts e.name).elim (other e.name) encode := by
    intro e h
    unfold entryBytes
    rw [h]
    cases texts e.name <;> rfl
  refine ⟨?_, ?_, ?_⟩
  · have hm : (⟨.presRels, .rels (presentationRelsWithFonts d.count (hasNotes d.slides) st.handout
        ((prepareFonts st d.count (hasNotes d.slides)).getD []))⟩ : Entry) ∈ buildPackage d st := by
      unfold buildPackage
      simp only [List.mem_append]
      simp
    have := part _ hm (show Package.isDirName PartName.presRels.path = false by decide)
    have e : entryBytes d st desc texts other ⟨.presRels, .rels (presentationRelsWithFonts d.count (hasNotes d.slides) st.handout
        ((prepareFonts st d.count (hasNotes d.slides)).getD []))⟩ =
        encode (renderRelsWith (presentationRels d.count (hasNotes d.slides) st.handout)
          (((prepareFonts st d.count (hasNotes d.slides)).getD []).map fontRel)) := by
      show encode (relsPartText d st _ .presRels) = _
      simp only [relsPartText, presentationRelsWithFonts, List.take_left', List.drop_left']
    rw [e] at this
    refine C52_fonts_order p d.count _ _ h0 h1 ?_ this
    unfold prepareFonts
    cases hs : st.fonts with
    | none => intro f h; simp at h
    | some fs =>
      rw [hs] at hf
      exact plain_assignFontIds hf _
  · intro i hi
    obtain ⟨x, hx⟩ := mem_buildPackage_anySlide d st hi
    exact (part _ hx (slide_notDir _)).trans (congrArg some (bytes _ rfl))
  · exact (part _ (mem_buildPackage_core d st) (by decide)).trans (congrArg some (bytes _ rfl))

/-- **C144** (of fonts). Fonts embedded in a presentation, however many and whatever their names, change nothing in what is opened:
the file is opened as the file without them is, with anything on its slides. -/
theorem C144_fonts {d : Deck} {st : BuildSettings} (desc : Str → Str) (texts : PartTexts) (other : PartName → Bytes)
    (ht : st.template = none) (hn : ((st.fonts.getD []).map (·.fileName)).Nodup)
    (hf : ∀ f ∈ st.fonts.getD [], Plain f.relationshipId) (h0 : 0 < d.count) (h1 : d.count + 1 < 4294967296) :
    opened (archiveOf d st desc texts other) = opened (archiveOf d { st with fonts := none } desc texts other) := by
  obtain ⟨a1, a2, a3⟩ := read_archiveOf desc texts other ht hn hf h0 h1
  obtain ⟨b1, b2, b3⟩ := read_archiveOf (d := d) (st := { st with fonts := none }) desc texts other ht (by simp) (by simp) h0 h1
  unfold opened
  generalize Package.openReader (archiveOf d st desc texts other) = p at *
  generalize Package.openReader (archiveOf d { st with fonts := none } desc texts other) = q at *
  have g : ∀ i, Reader.getSlide p i = Reader.getSlide q i := by
    intro i
    unfold Reader.getSlide
    rw [a1, b1]
    by_cases hi : i < d.count
    · have e : ((List.range d.count).map fun i => c!"ppt/slides/slide" ++ dec (i + 1) ++ c!".xml")[i]? =
          some (c!"ppt/slides/slide" ++ dec (i + 1) ++ c!".xml") := by simp [hi]
      simp only [e, Option.bind_some, Package.getPartString]
      rw [a2 i hi, b2 i hi]
    · rw [List.getElem?_eq_none (by simpa using hi)]
      rfl
  unfold importPptx
  rw [a1, b1, funext g, coreInfo_same (a3.trans b3.symm)]

theorem fonts_written (secs : Nat) {title : Str} {l : List PageIn} {st : BuildSettings} (desc : Str → Str)
    (other : PartName → Bytes) (ht : st.template = none) (hn : ((st.fonts.getD []).map (·.fileName)).Nodup)
    (hf : ∀ f ∈ st.fonts.getD [], Plain f.relationshipId) (h0 : l ≠ []) (h1 : l.length + 1 < 4294967296) :
    opened (written secs title l st desc other) = opened (written secs title l { st with fonts := none } desc other) :=
  C144_fonts desc (pageTexts secs title l) other ht hn hf
    (by simpa [deckOf, Deck.count] using List.length_pos_iff.mpr h0) (by simpa [deckOf, Deck.count] using h1)

/-- **C144** (partial as for files without fonts). A file with embedded fonts is opened as the presentation it was written from. -/
theorem C144_fonts_open_partial (secs : Nat) {title : Str} {l : List PageIn} {st : BuildSettings} (desc : Str → Str)
    (other : PartName → Bytes) (ht : st.template = none) (hn : ((st.fonts.getD []).map (·.fileName)).Nodup)
    (hf : ∀ f ∈ st.fonts.getD [], Plain f.relationshipId) (h0 : l ≠ []) (h1 : l.length + 1 < 4294967296) (hs : Readable l)
    (h2 : '&' ∉ title) (h3 : '<' ∉ title) :
    opened (written secs title l st desc other) = some { title := visible title, slides := l.map fun s => expectedSlide s.text } := by
  rw [fonts_written secs desc other ht hn hf h0 h1]
  exact C144_open_partial secs desc other ht rfl h0 h1 hs h2 h3

/-- **C146** (partial as for files without fonts). A file with drawings and with embedded fonts is opened as the presentation it was
written from. -/
theorem C146_fonts_partial {fontSize : Str → Nat → Nat → Nat} {highlight : Option (Str → Str → List (List Segment))} (secs : Nat)
    {title : Str} {l : List (PageIn × Drawing)} {st : BuildSettings} (desc : Str → Str) (other : PartName → Bytes)
    (ht : st.template = none) (hn : ((st.fonts.getD []).map (·.fileName)).Nodup)
    (hf : ∀ f ∈ st.fonts.getD [], Plain f.relationshipId) (h0 : l ≠ []) (h1 : l.length + 1 < 4294967296)
    (hs : ∀ x ∈ l, DrawnPage fontSize highlight x.1 x.2) (h2 : '&' ∉ title) (h3 : '<' ∉ title) :
    opened (written secs title (l.map (·.1)) st desc other) = some { title := visible title, slides := l.map fun x =>
      { expectedSlide x.1.text with shapes := x.2.loaded highlight } } := by
  rw [fonts_written secs desc other ht hn hf (by simpa using h0) (by simpa using h1)]
  exact C146_file_partial secs desc other ht rfl h0 h1 hs h2 h3

/-- Two fonts, one of them with a name to be escaped. -/
def someFonts : List EmbeddedFont := [⟨c!"A & B", .bold, []⟩, ⟨c!"Open Sans", .regular, []⟩]

example : someFonts.map (·.fileName) = [c!"A&B-bold.fntdata", c!"OpenSans-regular.fntdata"] := by decide

example : opened (written 0 c!"Talk" talkPages { BuildSettings.none with fonts := some someFonts } id fun _ => []) =
    some { title := c!"Talk", slides := talkPages.map fun s => expectedSlide s.text } := by
  have := C144_fonts_open_partial 0 (title := c!"Talk") (l := talkPages) (st := { BuildSettings.none with fonts := some someFonts })
    id (fun _ => []) rfl (by decide) (by simp [someFonts, Plain]) (by decide) (by decide) talk_readable (by decide) (by decide)
  rw [this]
  rfl

end PptRs.Props
