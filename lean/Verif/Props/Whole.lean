import Verif.Model.Whole
import Verif.Props.Import
import Verif.Props.Package
import Verif.Props.BuilderParts
import Verif.Props.Parts
import Verif.Props.CoreProps

/-!
# C144: what is written is what is opened
-/

namespace PptRs.Props

open PptRs PptRs.Spec PptRs.Reader PptRs.Import PptRs.Draw PptRs.Whole

/-! ### Parts of the archive -/

theorem opened_part {archive : List (Str × Bytes)} (hn : (archive.map (·.1)).Nodup) {path : Str} {b : Bytes}
    (hm : (path, b) ∈ archive) (hd : Package.isDirName path = false) :
    (Package.openReader archive).getPart path = some b := by
  rw [C05_open_last_entry archive path hd]
  unfold lastEntry
  have : archive.filter (fun e => e.1 = path) = [(path, b)] := by
    clear hd
    induction archive with
    | nil => simp at hm
    | cons e l ih =>
      rw [List.map_cons, List.nodup_cons] at hn
      rcases List.mem_cons.mp hm with rfl | hm'
      · rw [List.filter_cons_of_pos (by simp)]
        congr 1
        rw [List.filter_eq_nil_iff]
        intro x hx
        have : x.1 ≠ path := fun h => hn.1 (h ▸ List.mem_map.mpr ⟨x, hx, rfl⟩)
        simpa using this
      · have : e.1 ≠ path := fun h => hn.1 (h ▸ List.mem_map.mpr ⟨_, hm', rfl⟩)
        rw [List.filter_cons_of_neg (by simpa using this), ih hn.2 hm']
  rw [this]
  rfl

theorem written_entry {d : Deck} {st : BuildSettings} (ht : st.template = none)
    (hf : ((st.fonts.getD []).map (·.fileName)).Nodup) (f : Entry → Bytes) {e : Entry} (he : e ∈ buildPackage d st)
    (hd : Package.isDirName e.name.path = false) :
    (Package.openReader ((buildPackage d st).map fun e => (e.name.path, f e))).getPart e.name.path = some (f e) := by
  refine opened_part ?_ (List.mem_map.mpr ⟨e, he, rfl⟩) hd
  have := C31_no_duplicates_partial d st ht hf
  simpa [List.map_map, Function.comp_def] using this

theorem mem_buildPackage_slide {l : List PageIn} (st : BuildSettings) {i : Nat} (hi : i < l.length) :
    ∃ x, (⟨.slide (i + 1), .slide x⟩ : Entry) ∈ buildPackage (deckOf l) st := by
  have h : ∃ x, (⟨.slide (i + 1), .slide x⟩ : Entry) ∈ writeSlides (deckOf l) := by
    unfold writeSlides deckOf
    simp only [mem_writeSlidesFrom]
    refine ⟨slideXml l[i].slideIn (chartRids (slideContentRelStart l[i].slideIn.notes.isSome l[i].slideIn.images.length) 0) none,
      i, l[i].slideIn, by simp [hi], ?_⟩
    simp [slideEntries, PageIn.slideIn]
  obtain ⟨x, hx⟩ := h
  refine ⟨x, ?_⟩
  unfold buildPackage
  simp only [List.mem_append]
  simp [hx]

theorem mem_buildPackage_core (d : Deck) (st : BuildSettings) : (⟨.core, .other⟩ : Entry) ∈ buildPackage d st := by
  unfold buildPackage
  simp only [List.mem_append]
  simp

theorem mem_buildPackage_presRels (d : Deck) (st : BuildSettings) (hf : st.fonts = none) :
    (⟨.presRels, .rels (presentationRels d.count (hasNotes d.slides) st.handout)⟩ : Entry) ∈ buildPackage d st := by
  unfold buildPackage
  simp only [List.mem_append]
  simp [prepareFonts, hf, presentationRelsWithFonts]

theorem slide_notDir (i : Nat) : Package.isDirName (PartName.slide i).path = false := by
  have : (PartName.slide i).path.getLast? = some 'l' := by
    simp only [PartName.path]
    rw [List.getLast?_append]
    rfl
  rw [Package.isDirName, this]
  rfl

/-! ### The title -/

/-- The title that is read from the core properties of a new file. -/
def openedTitle (title : Str) : Str := visible ((readText title).getD [])

theorem coreInfo_written {p : Package} {secs : Nat} {title : Str} (h : '<' ∉ title)
    (hp : p.getPart c!"docProps/core.xml" = some (encode (createCorePropsXml secs title))) :
    (coreInfo p).title.getD [] = openedTitle title := by
  unfold coreInfo openedTitle
  rw [Package.getPartString, hp, Option.map_some, decodeLossy_encode, Option.bind_some]
  have hd := core_read (stampOf secs).text title (plain_stamp _) h
  cases ht : readText title with
  | none =>
    rw [ht, Option.map_none] at hd
    have : XmlElement.parse (createCorePropsXml secs title) = none := by
      unfold XmlElement.parse
      rw [createCorePropsXml, hd]
      rfl
    rw [this]
    simp [visible]
  | some t =>
    rw [ht, Option.map_some] at hd
    have := parse_elem (x := createCorePropsXml secs title) hd
    rw [this]
    have hb : ∀ rest : List Node, builtIn (nl :: E c!"dc:title" [] (addText [] t) :: rest) =
        propElem c!"dc:title" [] t :: builtIn rest := by
      intro rest
      have := built_propNode c!"dc:title" [] t rfl (by simp)
      rw [show nl :: E c!"dc:title" [] (addText [] t) :: rest = propNode c!"dc:title" [] t ++ rest from rfl, builtIn_append, this]
      rfl
    simp only [hb]
    have hf : ∀ l : List XmlElement, XmlElement.findIn c!"title" (propElem c!"dc:title" [] t :: l) = some (propElem c!"dc:title" [] t) := by
      intro l
      rw [XmlElement.findIn]
      simp only [propElem, localName_eq, XmlElement.tag]
      rw [if_pos (by decide)]
    simp only [textField, XmlElement.findDescendant, hf, Option.map_some, Option.getD_some]
    have hx : (propElem c!"dc:title" [] t).textContent = visible t := by
      simp [propElem, XmlElement.textContent, XmlElement.textIn]
    rw [hx]
    by_cases hv : visible t = []
    · simp [hv, Option.filter]
    · simp [hv, Option.filter]

theorem openedTitle_plain {title : Str} (h1 : '&' ∉ title) (h2 : '<' ∉ title) : openedTitle title = visible title := by
  rw [openedTitle, readText_of_plain h1 h2]
  rfl

/-! ### Writing and opening -/

/-- Slides that are read back: no markup in colours, fonts and bullet characters, numbers that fit into 32 bits, and nothing
besides text and a table. -/
def Readable (l : List PageIn) : Prop := ∀ s ∈ l, s.text.Safe ∧ SmallNumbers s.text ∧ s.text.extra = []

theorem opened_written (secs : Nat) {title : Str} {l : List PageIn} {st : BuildSettings} (desc : Str → Str)
    (other : PartName → Bytes) (ht : st.template = none) (hf : st.fonts = none) (h0 : l ≠ []) (hn : l.length + 1 < 4294967296)
    (hs : Readable l) (hm : '<' ∉ title) :
    opened (written secs title l st desc other) = some { title := openedTitle title, slides := l.map fun s => expectedSlide s.text } := by
  have hfn : ((st.fonts.getD []).map (·.fileName)).Nodup := by rw [hf]; simp
  have hc : (deckOf l).count = l.length := by simp [deckOf, Deck.count]
  unfold opened written
  generalize hp : Package.openReader _ = p
  have part : ∀ e ∈ buildPackage (deckOf l) st, Package.isDirName e.name.path = false → ∀ t,
      entryText (deckOf l) st desc (pageTexts secs title l) e = some t → p.getPart e.name.path = some (encode t) := by
    intro e he hd t hx
    have := written_entry ht hfn (entryBytes (deckOf l) st desc (pageTexts secs title l) other) he hd
    rw [hp] at this
    rw [this, entryBytes, hx]
  have hcore := part _ (mem_buildPackage_core (deckOf l) st) (by decide) _ rfl
  have hrel := part _ (mem_buildPackage_presRels (deckOf l) st hf) (show Package.isDirName PartName.presRels.path = false by decide) _ rfl
  have hslide : ∀ i (hi : i < (l.map PageIn.text).length),
      p.getPart (c!"ppt/slides/slide" ++ dec (i + 1) ++ c!".xml") = some (encode (l.map PageIn.text)[i].xml) := by
    intro i hi
    have hi' : i < l.length := by simpa using hi
    obtain ⟨x, hx⟩ := mem_buildPackage_slide st hi'
    exact part _ hx (slide_notDir _) _ (by simp [entryText, pageTexts, hi'])
  have hr : relsPartText (deckOf l) st (presentationRels (deckOf l).count (hasNotes (deckOf l).slides) st.handout) .presRels =
      renderRels (presentationRels (l.map PageIn.text).length (hasNotes (deckOf l).slides) st.handout) := by
    simp only [relsPartText, renderRelsWith, renderRels, hc, List.length_map, List.take_length, List.drop_length, List.flatMap_nil,
      List.append_nil]
    simp
  have := C111_deck_partial p (l.map PageIn.text) (hasNotes (deckOf l).slides) st.handout (by simpa using h0) (by simpa using hn)
    (by rw [← hr]; exact hrel) hslide (by
      intro s hs'
      obtain ⟨x, hx, rfl⟩ := List.mem_map.mp hs'
      exact hs x hx)
  rw [this, coreInfo_written hm hcore, List.map_map]
  rfl

/-- **C144.** A file that was written is opened as the presentation it was written from: the title, and of each slide, in
order, the title, the bullets that its layout shows and the texts of its table. Only texts of white space are lost. -/
theorem C144_open_partial (secs : Nat) {title : Str} {l : List PageIn} {st : BuildSettings} (desc : Str → Str)
    (other : PartName → Bytes) (ht : st.template = none) (hf : st.fonts = none) (h0 : l ≠ []) (hn : l.length + 1 < 4294967296)
    (hs : Readable l) (h1 : '&' ∉ title) (h2 : '<' ∉ title) :
    opened (written secs title l st desc other) = some { title := visible title, slides := l.map fun s => expectedSlide s.text } := by
  rw [opened_written secs desc other ht hf h0 hn hs h2, openedTitle_plain h1 h2]

/-- **C144.** Slides in the usual layout, without white space only texts: every title and every bullet is there again. -/
theorem C144_texts_partial (secs : Nat) {title : Str} {l : List PageIn} {st : BuildSettings} (desc : Str → Str)
    (other : PartName → Bytes) (ht : st.template = none) (hf : st.fonts = none) (h0 : l ≠ []) (hn : l.length + 1 < 4294967296)
    (hs : Readable l) (h1 : '&' ∉ title) (h2 : '<' ∉ title) (hl : ∀ s ∈ l, s.text.layout = .titleAndContent ∧ s.text.table = none)
    (hb : ¬ BlankText title ∧ ∀ s ∈ l, ¬ BlankText s.text.title ∧ ∀ t ∈ s.text.texts, ¬ BlankText t) :
    ∃ p, opened (written secs title l st desc other) = some p ∧ p.title = title ∧
      p.slides.map (·.text.title) = l.map (·.text.title) ∧ p.slides.map (·.text.texts) = l.map (·.text.texts) := by
  refine ⟨_, C144_open_partial secs desc other ht hf h0 hn hs h1 h2, ?_, ?_, ?_⟩
  · simp [visible, hb.1]
  · rw [List.map_map]
    refine List.map_congr_left fun s h => ?_
    simp [expectedSlide, plainSlide, (hl s h).1, visible, (hb.2 s h).1]
  · rw [List.map_map]
    refine List.map_congr_left fun s h => ?_
    have e : s.text.texts.filter (fun t => ¬ BlankText t) = s.text.texts :=
      List.filter_eq_self.mpr fun t ht => by simpa using (hb.2 s h).2 t ht
    have e1 : ∀ title bullets table, (plainSlide title bullets table).texts = bullets := by
      intro title bullets table
      cases bullets with
      | nil => rfl
      | cons b l => simp [SlideText.texts, plainSlide, List.map_map, Function.comp_def]
    have hsb : showsBullets s.text = true := by simp [showsBullets, (hl s h).1, (hl s h).2]
    simp only [Function.comp_apply, expectedSlide, e1, hsb, if_true, e]

theorem expectedSlide_readable (s : SlideText) : (expectedSlide s).text.Safe ∧ SmallNumbers (expectedSlide s).text ∧
    (expectedSlide s).text.extra = [] := by
  have hp : ∀ (title : Str) (bullets : List Str) (table : Option TableIn), (∀ t ∈ table, ∃ rows, t = tableOfTexts rows) →
      (plainSlide title bullets table).Safe ∧ SmallNumbers (plainSlide title bullets table) ∧
        (plainSlide title bullets table).extra = [] := by
    intro title bullets table htab
    have hb : ∀ b ∈ (plainSlide title bullets table).bullets, b.style = .bullet ∧ b.format = none ∧ b.level = 0 := by
      intro b hb
      obtain ⟨t, _, rfl⟩ := List.mem_map.mp hb
      exact ⟨rfl, rfl, rfl⟩
    have hc : ∀ t ∈ (plainSlide title bullets table).table, ∀ r ∈ t.rows, ∀ c ∈ r.cells, ∃ x : Str, c = { text := x } := by
      intro t ht r hr c hc
      obtain ⟨rows, rfl⟩ := htab t ht
      obtain ⟨r0, _, rfl⟩ := List.mem_map.mp hr
      obtain ⟨x, _, rfl⟩ := List.mem_map.mp hc
      exact ⟨x, rfl⟩
    refine ⟨⟨?_, ?_, ?_, ?_, ?_⟩, ⟨?_, ?_, ?_, ?_, ?_⟩, rfl⟩
    · intro c hc; cases hc
    · intro c hc; cases hc
    · intro c hc; cases hc
    · intro b hm
      obtain ⟨h1, h2, _⟩ := hb b hm
      exact ⟨(by rw [h1]; intro c hc; cases hc), (by rw [h2]; intro f hf; cases hf)⟩
    · intro t ht r hr c hm
      obtain ⟨x, rfl⟩ := hc t ht r hr c hm
      exact ⟨(by intro y hy; cases hy), (by intro y hy; cases hy)⟩
    · intro n hn; cases hn; decide
    · intro n hn; cases hn; decide
    · intro b hm; rw [(hb b hm).2.2]; decide
    · intro b hm f hf; rw [(hb b hm).2.1] at hf; cases hf
    · intro t ht r hr c hm
      obtain ⟨x, rfl⟩ := hc t ht r hr c hm
      exact ⟨by simp, by simp⟩
  refine hp _ _ _ ?_
  intro t ht
  split at ht
  · obtain ⟨t0, _, rfl⟩ := Option.map_eq_some_iff.mp ht
    exact ⟨_, rfl⟩
  · cases ht

/-- A loaded presentation as slides to write. -/
def pagesOf (p : Loaded) : List PageIn := p.slides.map fun s => { text := s.text }

/-- **C144.** Opening a file, saving it and opening it again gives the presentation that was opened first, at whatever time
and with whatever settings it is saved. -/
theorem C144_again_partial (secs secs' : Nat) {title : Str} {l : List PageIn} {st st' : BuildSettings} (desc desc' : Str → Str)
    (other other' : PartName → Bytes) (ht : st.template = none) (hf : st.fonts = none) (ht' : st'.template = none)
    (hf' : st'.fonts = none) (h0 : l ≠ []) (hn : l.length + 1 < 4294967296) (hs : Readable l) (h1 : '&' ∉ title) (h2 : '<' ∉ title)
    {p : Loaded} (hp : opened (written secs title l st desc other) = some p) :
    opened (written secs' p.title (pagesOf p) st' desc' other') = some p := by
  rw [C144_open_partial secs desc other ht hf h0 hn hs h1 h2, Option.some.injEq] at hp
  subst hp
  have hv : ∀ c, c ∉ title → c ∉ visible title := by
    intro c hc
    unfold visible
    split
    · simp
    · exact hc
  rw [C144_open_partial secs' desc' other' ht' hf' (by simpa [pagesOf] using h0) (by simpa [pagesOf] using hn) ?_ (hv _ h1) (hv _ h2),
    visible_visible]
  · simp only [pagesOf, List.map_map, Option.some.injEq, Loaded.mk.injEq, true_and]
    exact List.map_congr_left fun s _ => C111_stable_partial s.text
  · intro s hm
    simp only [pagesOf, List.map_map] at hm
    obtain ⟨x, _, rfl⟩ := List.mem_map.mp hm
    exact expectedSlide_readable x.text

/-! ### The title of the document -/

/-- **C144 does not hold in full.** The title of the document is written without escaping: if it has an ampersand that
does not begin an entity, it is lost for whoever opens the file. -/
theorem C144_title_violated (secs : Nat) {title : Str} {l : List PageIn} {st : BuildSettings} (desc : Str → Str)
    (other : PartName → Bytes) (ht : st.template = none) (hf : st.fonts = none) (h0 : l ≠ []) (hn : l.length + 1 < 4294967296)
    (hs : Readable l) (h1 : readText title = none) (h2 : '<' ∉ title) :
    (opened (written secs title l st desc other)).map (·.title) = some [] := by
  rw [opened_written secs desc other ht hf h0 hn hs h2, openedTitle, h1]
  simp [visible]

/-! ### Examples -/

theorem addBullets_readable (title : Str) (l : List Str) (table : Option TableIn) (layout : SlideLayout)
    (ht : ∀ t ∈ table, ∀ r ∈ t.rows, ∀ c ∈ r.cells, ∃ x : Str, c = { text := x }) :
    let s : SlideText := { (l.foldl SlideText.addBullet (SlideText.new title)) with table := table, layout := layout }
    s.Safe ∧ SmallNumbers s ∧ s.extra = [] := by
  rw [addBullets_eq]
  intro s
  have hb : ∀ b ∈ s.bullets, b.style = .bullet ∧ b.format = none ∧ b.level = 0 := by
    intro b hb
    have : b ∈ l.map fun t => ({ text := t } : BulletPoint) := by simpa [s, SlideText.new] using hb
    obtain ⟨t, _, rfl⟩ := List.mem_map.mp this
    exact ⟨rfl, rfl, rfl⟩
  refine ⟨⟨?_, ?_, ?_, ?_, ?_⟩, ⟨?_, ?_, ?_, ?_, ?_⟩, rfl⟩
  · intro c hc; cases hc
  · intro c hc; cases hc
  · intro c hc; cases hc
  · intro b hm
    obtain ⟨h1, h2, _⟩ := hb b hm
    exact ⟨(by rw [h1]; intro c hc; cases hc), (by rw [h2]; intro f hf; cases hf)⟩
  · intro t hm r hr c hc
    obtain ⟨x, rfl⟩ := ht t hm r hr c hc
    exact ⟨(by intro y hy; cases hy), (by intro y hy; cases hy)⟩
  · intro n hn; cases hn; decide
  · intro n hn; cases hn; decide
  · intro b hm; rw [(hb b hm).2.2]; decide
  · intro b hm f hf; rw [(hb b hm).2.1] at hf; cases hf
  · intro t hm r hr c hc
    obtain ⟨x, rfl⟩ := ht t hm r hr c hc
    exact ⟨by simp, by simp⟩

/-- Two slides, one of them with a table, markup and a text of white space. -/
def talkPages : List PageIn :=
  [{ text := [c!"one", c!" ", c!"\"two\""].foldl SlideText.addBullet (SlideText.new c!"A < B & C"), notes := some c!"say" },
   { text := { SlideText.new c!"Prices" with
       table := some { rows := [{ height := none, cells := [{ text := c!"Apple" }, { text := c!"5" }] }], columnWidths := [100, 100],
                       x := 0, y := 0 } } }]

theorem talk_readable : Readable talkPages := by
  intro s hs
  simp only [talkPages, List.mem_cons, List.not_mem_nil, or_false] at hs
  rcases hs with rfl | rfl
  · have := addBullets_readable c!"A < B & C" [c!"one", c!" ", c!"\"two\""] none .titleAndContent (by simp)
    exact this
  · have := addBullets_readable c!"Prices" [] (some { rows := [{ height := none, cells := [{ text := c!"Apple" }, { text := c!"5" }] }], columnWidths := [100, 100], x := 0, y := 0 })
      .titleAndContent (by simp)
    exact this

example : (opened (written 0 c!"Talk" talkPages .none id fun _ => [])).map
      (fun p => (p.title, p.slides.map fun s => (s.text.title, s.text.texts))) =
    some (c!"Talk", [(c!"A < B & C", [c!"one", c!"\"two\""]), (c!"Prices", [])]) := by
  rw [C144_open_partial 0 id (fun _ => []) rfl rfl (by decide) (by decide) talk_readable (by decide) (by decide)]
  decide +kernel

/-- The premises of `C144_again_partial` can be met. -/
example : ∃ p, opened (written 0 c!"Talk" talkPages .none id fun _ => []) = some p ∧
    opened (written 5 p.title (pagesOf p) .none id fun _ => []) = some p := by
  have h := C144_open_partial 0 id (fun _ => []) (st := .none) rfl rfl (by decide) (by decide) talk_readable (title := c!"Talk") (by decide) (by decide)
  exact ⟨_, h, C144_again_partial 0 5 id id (fun _ => []) (fun _ => []) rfl rfl rfl rfl (by decide) (by decide) talk_readable (by decide) (by decide) h⟩

/-- The premises of `C144_texts_partial` can be met. -/
example : ∃ p, opened (written 0 c!"Talk" [{ text := [c!"one"].foldl SlideText.addBullet (SlideText.new c!"A & B") }] .none id fun _ => []) = some p ∧
    p.slides.map (·.text.title) = [c!"A & B"] ∧ p.slides.map (·.text.texts) = [[c!"one"]] := by
  obtain ⟨p, h1, -, h2, h3⟩ := C144_texts_partial 0 id (fun _ => []) (st := .none) (title := c!"Talk")
    (l := [{ text := [c!"one"].foldl SlideText.addBullet (SlideText.new c!"A & B") }]) rfl rfl (by simp) (by decide)
    (by
      intro s hs
      rw [List.mem_singleton] at hs
      subst hs
      exact addBullets_readable c!"A & B" [c!"one"] none .titleAndContent (by simp))
    (by decide) (by decide)
    (by intro s hs; rw [List.mem_singleton] at hs; subst hs; exact ⟨rfl, rfl⟩)
    ⟨by decide, by intro s hs; rw [List.mem_singleton] at hs; subst hs; decide⟩
  exact ⟨p, h1, h2, h3⟩

example : (opened (written 0 c!"Q & A" talkPages .none id fun _ => [])).map (·.title) = some [] :=
  C144_title_violated 0 id (fun _ => []) rfl rfl (by decide) (by decide) talk_readable (by decide) (by decide)

end PptRs.Props
