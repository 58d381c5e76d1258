import Verif.Model.Import
import Verif.Props.Reader

/-!
# Loading presentations: C111
-/

namespace PptRs.Props

open PptRs PptRs.Spec PptRs.Reader PptRs.Import PptRs.Draw

theorem addBullets_eq (l : List Str) (s : SlideText) :
    l.foldl SlideText.addBullet s = { s with
      content := s.content ++ l
      bullets := s.bullets ++ l.map fun t => { text := t, style := s.bulletStyle } } := by
  induction l generalizing s with
  | nil => simp
  | cons t l ih =>
    rw [List.foldl_cons, ih]
    simp [SlideText.addBullet]

/-- What a user expects of a loaded slide: a title and bullets. -/
def plainSlide (title : Str) (bullets : List Str) (table : Option TableIn) : SlideText :=
  { title, content := bullets, bullets := bullets.map fun t => { text := t }, table }

theorem importSlide_text (s : ParsedSlide) :
    (importSlide s).text = plainSlide (s.title.getD []) s.bodyText (s.tables.foldl addTable none) := by
  simp only [importSlide]
  rw [addBullets_eq]
  rfl

/-- The table of texts, with columns of 2 inches. -/
def tableOfTexts (rows : List (List Str)) : TableIn :=
  { rows := rows.map fun r => { height := none, cells := r.map fun t => { text := t } }
    columnWidths := List.replicate (rows.headD []).length 1828800
    x := 0
    y := 0 }

/-- The texts that can be seen in the rows of a table that have cells. -/
def seenTexts (t : TableIn) : List (List Str) :=
  (t.rows.map fun r => r.cells.map fun c => if c.hMerge || c.vMerge then [] else visible c.text).filter (· ≠ [])

theorem seenTable_texts (t : TableIn) : (seenTable t).map (fun r => r.map (·.text)) = seenTexts t := by
  unfold seenTable seenTexts
  induction t.rows with
  | nil => rfl
  | cons r rows ih =>
    simp only [List.map_cons]
    by_cases h : r.cells = []
    · simpa [h] using ih
    · rw [List.filter_cons_of_pos (by simpa using h), List.filter_cons_of_pos (by simpa using h), List.map_cons, ih]
      congr 1
      rw [List.map_map]
      refine List.map_congr_left fun c _ => ?_
      simp only [Function.comp_apply, seenCell]
      split <;> rfl

theorem importTable_seen (t : TableIn) (h : seenTable t ≠ []) : importTable (seenTable t) = some (tableOfTexts (seenTexts t)) := by
  rw [← seenTable_texts]
  have hne : ∀ r ∈ seenTable t, r ≠ [] := by
    intro r hr
    simpa using (List.mem_filter.mp hr).2
  cases e : seenTable t with
  | nil => exact absurd e h
  | cons r rows =>
    have hr : r ≠ [] := hne r (by rw [e]; simp)
    have hl : r.length ≠ 0 := by simpa using hr
    simp [importTable, tableOfTexts, hl]

/-- What loading should make of a written slide: the title, the bullets that are shown and the texts of the table. -/
def expectedSlide (s : SlideText) : LoadedSlide where
  text := plainSlide (if s.layout = .blank then [] else visible s.title)
    (if showsBullets s then s.texts.filter fun t => ¬ BlankText t else [])
    (if s.layout = .titleAndContent then (s.table.filter fun t => seenTexts t ≠ []).map fun t => tableOfTexts (seenTexts t) else none)

theorem boxes_only (s : SlideText) : (seenShapes s).filter (fun x => !x.isTitle && !x.isBody) = [] := by
  rw [List.filter_eq_nil_iff]
  intro x hx
  unfold seenShapes at hx
  simp only at hx
  have tb : ∀ size bold a b c d, (seenTitleBox s size bold a b c d).isTitle = true := fun _ _ _ _ _ _ => rfl
  have bb : ∀ name size a b c d l, (seenBox s name size a b c d l).isBody = true := fun _ _ _ _ _ _ _ => rfl
  split at hx <;> simp only [List.mem_append, List.mem_cons, List.not_mem_nil, or_false] at hx
  · subst hx; simp [tb]
  · subst hx; simp [tb]
  · subst hx; simp [tb]
  · rcases hx with rfl | hx
    · simp [tb]
    · split at hx
      · cases hx
      · simp only [List.mem_cons, List.not_mem_nil, or_false] at hx; subst hx; simp [bb]
  · rcases hx with (rfl | hx) | hx
    · simp [tb]
    · split at hx
      · simp only [List.mem_cons, List.not_mem_nil, or_false] at hx; subst hx; simp [bb]
      · cases hx
    · split at hx
      · simp only [List.mem_cons, List.not_mem_nil, or_false] at hx; subst hx; simp [bb]
      · cases hx
  · rcases hx with rfl | hx
    · simp [tb]
    · split at hx
      · cases hx
      · simp only [List.mem_cons, List.not_mem_nil, or_false] at hx; subst hx; simp [bb]

theorem seenTable_nil (t : TableIn) : seenTable t = [] ↔ seenTexts t = [] := by
  rw [← seenTable_texts]; simp

theorem import_seen (s : SlideText) : importSlide (seenSlide s) = expectedSlide s := by
  have h1 := importSlide_text (seenSlide s)
  have h2 : (importSlide (seenSlide s)).shapes = [] := by
    simp only [importSlide]
    rw [show (seenSlide s).shapes = seenShapes s from rfl, boxes_only]
    rfl
  have ht : (seenSlide s).tables.foldl addTable none
      = if s.layout = .titleAndContent then (s.table.filter fun t => seenTexts t ≠ []).map fun t => tableOfTexts (seenTexts t) else none := by
    show (seenTables s).foldl addTable none = _
    unfold seenTables
    split
    · cases s.table with
      | none => rfl
      | some t =>
        by_cases h : seenTable t = []
        · have h' := (seenTable_nil t).mp h
          simp [h, h', Option.filter]
        · have h' : seenTexts t ≠ [] := fun e => h ((seenTable_nil t).mpr e)
          simp [h, h', Option.filter, addTable, importTable_seen t h]
    · rfl
  cases e : importSlide (seenSlide s) with
  | mk text shapes =>
    rw [e] at h1 h2
    simp only at h1 h2
    subst h1; subst h2
    unfold expectedSlide
    congr 1
    rw [ht]
    congr 1
    simp only [seenSlide]
    split <;> rfl

/-- **C111** (partial: no markup in colours, fonts and bullet characters; numbers that fit into 32 bits; texts, not their
format; no shapes and pictures). Loading a written slide gives the title, the bullets in their order and the texts of the
table; only texts that are white space are lost. -/
theorem C111_slide_partial {s : SlideText} (h : s.Safe) (hn : SmallNumbers s) (hx : s.extra = []) :
    (parseSlide s.xml).map importSlide = some (expectedSlide s) := by
  have hx' : ReadsAs (fmt s.extra) [] := by
    rw [hx]
    intro top st
    simp [fmt, steps]
  rw [C86_slide_reads_back_partial h hn hx' (by intro n as ks hm; simp at hm), Option.map_some, import_seen]

theorem mapM_range_some {α : Type} {f : Nat → Option α} {l : List α} (h : ∀ i (hi : i < l.length), f i = some l[i]) :
    (List.range l.length).mapM f = some l := by
  have key : ∀ (l : List α) (k : Nat), (∀ i (hi : i < l.length), f (k + i) = some l[i]) →
      (List.range' k l.length).mapM f = some l := by
    intro l
    induction l with
    | nil => intro _ _; rfl
    | cons a l ih =>
      intro k hk
      have h0 : f k = some a := hk 0 (by simp)
      rw [List.length_cons, List.range'_succ, List.mapM_cons, h0,
        ih (k + 1) (fun i hi => by have := hk (i + 1) (by simpa using hi); rw [Nat.add_right_comm, Nat.add_assoc]; simpa [Nat.add_assoc] using this)]
      rfl
  rw [List.range_eq_range']
  exact key l 0 (fun i hi => by simpa using h i hi)

/-- **C111** (partial as for one slide). Loading a written presentation gives all its slides in their order. -/
theorem C111_deck_partial (p : Package) (l : List SlideText) (notes handout : Bool) (h0 : l ≠ []) (hn : l.length + 1 < 4294967296)
    (hr : p.getPart c!"ppt/_rels/presentation.xml.rels" = some (encode (renderRels (presentationRels l.length notes handout))))
    (hp : ∀ i (hi : i < l.length), p.getPart (c!"ppt/slides/slide" ++ dec (i + 1) ++ c!".xml") = some (encode l[i].xml))
    (hs : ∀ s ∈ l, s.Safe ∧ SmallNumbers s ∧ s.extra = []) :
    importPptx p = some { title := (coreInfo p).title.getD [], slides := l.map expectedSlide } := by
  have hpaths := C52_generated_order p l.length notes handout (List.length_pos_iff.mpr h0) hn hr
  have hlen : (slidePaths p).length = (l.map seenSlide).length := by rw [hpaths]; simp
  have hget : ∀ i (hi : i < (l.map seenSlide).length), getSlide p i = some (l.map seenSlide)[i] := by
    intro i hi
    have hi' : i < l.length := by simpa using hi
    unfold getSlide
    have e : (slidePaths p)[i]? = some (c!"ppt/slides/slide" ++ dec (i + 1) ++ c!".xml") := by
      rw [hpaths]
      simp [hi']
    rw [e, Option.bind_some, Package.getPartString, hp i hi', Option.map_some, decodeLossy_encode, Option.bind_some]
    obtain ⟨h1, h2, h3⟩ := hs l[i] (List.getElem_mem hi')
    have hx' : ReadsAs (fmt l[i].extra) [] := by
      rw [h3]
      intro top st
      simp [fmt, steps]
    rw [C86_slide_reads_back_partial h1 h2 hx' (by intro n as ks hm; simp at hm)]
    simp
  unfold importPptx
  rw [hlen, mapM_range_some hget, Option.map_some, List.map_map]
  congr 2
  exact List.map_congr_left fun s _ => import_seen s

theorem visible_visible (t : Str) : visible (visible t) = visible t := by
  unfold visible
  by_cases h : BlankText t
  · rw [if_pos h]; split <;> rfl
  · rw [if_neg h, if_neg h]

theorem seenTexts_tableOfTexts {rows : List (List Str)} (h : ∀ r ∈ rows, r ≠ [] ∧ ∀ t ∈ r, visible t = t) :
    seenTexts (tableOfTexts rows) = rows := by
  unfold seenTexts tableOfTexts
  rw [List.map_map]
  have e : rows.map ((fun r : RowIn => r.cells.map fun c => if c.hMerge || c.vMerge then [] else visible c.text) ∘
      fun r : List Str => ({ height := none, cells := r.map fun t => { text := t } } : RowIn)) = rows := by
    refine (List.map_congr_left fun r hr => ?_).trans (List.map_id _)
    simp only [Function.comp_apply, List.map_map]
    refine (List.map_congr_left fun t ht => ?_).trans (List.map_id _)
    simpa using (h r hr).2 t ht
  rw [e, List.filter_eq_self]
  intro r hr
  simpa using (h r hr).1

theorem mem_seenTexts {t : TableIn} {r : List Str} (h : r ∈ seenTexts t) : r ≠ [] ∧ ∀ x ∈ r, visible x = x := by
  obtain ⟨h1, h2⟩ := List.mem_filter.mp h
  refine ⟨by simpa using h2, ?_⟩
  obtain ⟨row, _, rfl⟩ := List.mem_map.mp h1
  intro x hx
  obtain ⟨c, _, rfl⟩ := List.mem_map.mp hx
  split
  · unfold visible; split <;> rfl
  · exact visible_visible _

/-- **C111.** Saving a loaded presentation and loading it again, any number of times, changes nothing: what loading
makes of a loaded slide is the slide itself. -/
theorem C111_stable_partial (s : SlideText) : expectedSlide (expectedSlide s).text = expectedSlide s := by
  have e1 : ∀ title bullets table, (plainSlide title bullets table).texts = bullets := by
    intro title bullets table
    cases bullets with
    | nil => rfl
    | cons b l => simp [SlideText.texts, plainSlide, List.map_map, Function.comp_def]
  show ({ text := _ } : LoadedSlide) = { text := _ }
  congr 1
  have hb : ∀ (title : Str) (bullets : List Str) (table : Option TableIn), (∀ t ∈ bullets, ¬ BlankText t) → visible title = title →
      (bullets ≠ [] → table = none) → (∀ t ∈ table, ∃ rows, rows ≠ [] ∧ (∀ r ∈ rows, r ≠ [] ∧ ∀ x ∈ r, visible x = x) ∧ t = tableOfTexts rows) →
      (expectedSlide (plainSlide title bullets table)).text = plainSlide title bullets table := by
    intro title bullets table h1 h2 h3 h4
    have hl : (plainSlide title bullets table).layout = .titleAndContent := rfl
    have g1 : (if (plainSlide title bullets table).layout = .blank then [] else visible (plainSlide title bullets table).title) = title := by
      rw [hl]
      exact h2
    have g2 : (if showsBullets (plainSlide title bullets table) then
        (plainSlide title bullets table).texts.filter (fun t => ¬ BlankText t) else []) = bullets := by
      rw [e1]
      by_cases hn : bullets = []
      · rw [hn]; split <;> rfl
      · have : showsBullets (plainSlide title bullets table) = true := by
          rw [h3 hn]; rfl
        rw [if_pos this, List.filter_eq_self]
        intro t ht
        simpa using h1 t ht
    have g3 : (if (plainSlide title bullets table).layout = .titleAndContent then
        ((plainSlide title bullets table).table.filter fun t => seenTexts t ≠ []).map fun t => tableOfTexts (seenTexts t) else none) = table := by
      rw [hl, if_pos rfl]
      show (table.filter _).map _ = table
      cases table with
      | none => rfl
      | some t =>
        obtain ⟨rows, hne, hr, rfl⟩ := h4 t rfl
        have := seenTexts_tableOfTexts hr
        simp [Option.filter, this, hne]
    simp only [expectedSlide]
    rw [g1, g2, g3]
  refine hb _ _ _ ?_ ?_ ?_ ?_
  · intro t ht
    split at ht
    · simpa using (List.mem_filter.mp ht).2
    · cases ht
  · split
    · rfl
    · exact visible_visible _
  · intro hne
    split
    · rename_i hl
      have hs : showsBullets s = true := by
        by_contra hc
        rw [if_neg hc] at hne
        exact hne rfl
      simp only [showsBullets, hl, Option.isNone_iff_eq_none] at hs
      rw [hs]; rfl
    · rfl
  · intro t ht
    split at ht
    · cases e : s.table with
      | none => rw [e] at ht; cases ht
      | some t0 =>
        rw [e] at ht
        by_cases h : seenTexts t0 = []
        · simp [Option.filter, h] at ht
        · simp only [Option.filter, h, ne_eq, not_false_eq_true, decide_true, if_true, Option.map_some, Option.mem_some_iff] at ht
          exact ⟨seenTexts t0, h, fun r hr => mem_seenTexts hr, ht.symm⟩
    · cases ht

example : expectedSlide (((SlideText.new c!"Plan").addBullet c!"a").addBullet c!" ") = { text := (SlideText.new c!"Plan").addBullet c!"a" } := by
  krfl

/-! ### Shapes -/

/-- **C111.** The shapes other than the boxes for title and text are loaded in their order, each with its text and, if it
is not above or left of the slide and not more than 4294967295 EMU away, at its place. -/
theorem C111_shapes (s : ParsedSlide) :
    (importSlide s).shapes.length = (s.shapes.filter fun x => !x.isTitle && !x.isBody).length ∧
    ∀ (i : Nat) (x : ParsedShape), (s.shapes.filter fun x => !x.isTitle && !x.isBody)[i]? = some x →
      ∃ y : Shape, (importSlide s).shapes[i]? = some y ∧ y.text.getD [] = x.text ∧
        (∀ n : Nat, n < 4294967296 → x.x = n → y.x = n) ∧ (∀ n : Nat, n < 4294967296 → x.y = n → y.y = n) ∧
        (∀ n : Nat, n < 4294967296 → x.width = n → y.width = n) ∧ (∀ n : Nat, n < 4294967296 → x.height = n → y.height = n) := by
  refine ⟨by simp [importSlide], fun i x hx => ⟨importShape x, ?_, ?_, ?_⟩⟩
  · simp [importSlide, hx]
  · unfold importShape
    by_cases h : x.text = [] <;> simp [h]
  · have hu : ∀ n : Nat, n < 4294967296 → toU32 (n : Int) = n := fun n hn => by simp [toU32, Nat.mod_eq_of_lt hn]
    have : (importShape x).x = toU32 x.x ∧ (importShape x).y = toU32 x.y ∧ (importShape x).width = toU32 x.width ∧
        (importShape x).height = toU32 x.height := by
      unfold importShape
      split <;> exact ⟨rfl, rfl, rfl, rfl⟩
    obtain ⟨h1, h2, h3, h4⟩ := this
    exact ⟨fun n hn e => by rw [h1, e, hu n hn], fun n hn e => by rw [h2, e, hu n hn], fun n hn e => by rw [h3, e, hu n hn],
      fun n hn e => by rw [h4, e, hu n hn]⟩

/-- **C111.** Eleven geometries are loaded as what they are. -/
theorem C111_kinds : ∀ k ∈ [ShapeType.rectangle, .roundedRectangle, .ellipse, .triangle, .rightTriangle, .diamond, .pentagon,
    .hexagon, .octagon, .star5, .rightArrow], mapShapeType (some k.presetName) = k := by decide +kernel

/-- **C111 does not hold in full.** No other geometry the library can write is loaded as what it is: arrows, stars, callouts
and flow chart symbols become rectangles. -/
theorem C111_kinds_violated : ∀ k ∈ ShapeType.all, k ∉ [ShapeType.rectangle, .roundedRectangle, .ellipse, .triangle, .rightTriangle,
    .diamond, .pentagon, .hexagon, .octagon, .star5, .rightArrow] → mapShapeType (some k.presetName) ≠ k := by
  decide +kernel

/-- **C111 does not hold in full.** Of several tables on a slide only the first one is kept. -/
theorem C111_tables_violated {a b : List (List ParsedCell)} {t : TableIn} (ha : importTable a = some t) (s : ParsedSlide)
    (hs : s.tables = [a, b]) : (importSlide s).text.table = some t := by
  rw [importSlide_text, hs]
  simp only [plainSlide, List.foldl_cons, List.foldl_nil, addTable, ha, Option.isNone_none, if_true, Option.isNone_some,
    Bool.false_eq_true, if_false]
  cases importTable b <;> rfl

/-- **C111 does not hold in full.** A loaded table is always in the upper left corner of the slide, over the title, and all
its columns have the same width, wherever it was and whatever its widths were. -/
theorem C111_table_place_violated {rows : List (List ParsedCell)} {t : TableIn} (h : importTable rows = some t) :
    t.x = 0 ∧ t.y = 0 ∧ ∀ w ∈ t.columnWidths, w = 1828800 := by
  simp only [importTable] at h
  split at h
  · cases h
  · cases h
    exact ⟨rfl, rfl, fun w hw => (List.mem_replicate.mp hw).2⟩

/-- **C111 does not hold in full.** A shape that begins above or left of the slide is moved to its edge, and one whose
position is 4294967296 is moved to 0. -/
theorem C111_position_violated : (∀ n : Nat, toU32 (-n) = 0) ∧ toU32 4294967296 = 0 := by
  refine ⟨fun n => ?_, by decide⟩
  have : (-(n : Int)).toNat = 0 := by omega
  simp [toU32, this]

/-- **C111 does not hold in full.** Levels, numbering and formats of bullets are lost: all loaded bullets are plain bullets
of the first level, and all slides have the layout with title and content. -/
theorem C111_format_violated (s : ParsedSlide) :
    (importSlide s).text.layout = .titleAndContent ∧
    ∀ b ∈ (importSlide s).text.bullets, b.level = 0 ∧ b.style = .bullet ∧ b.format.isNone = true := by
  rw [importSlide_text]
  refine ⟨rfl, ?_⟩
  intro b hb
  simp only [plainSlide, List.mem_map] at hb
  obtain ⟨t, _, rfl⟩ := hb
  exact ⟨rfl, rfl, rfl⟩

/-- **C111 does not hold in full.** Pictures, connectors, groups of shapes with all their texts and everything else that is
not directly a shape or a table is left out of the loaded slide. -/
theorem C111_other_content_violated (tag : Str) (as : AMap Str Str) (a b : List XmlElement) (x : XmlElement) (text : Str)
    (h1 : x.localName ≠ c!"sp") (h2 : x.localName ≠ c!"graphicFrame") :
    parseTree (.mk tag as (a ++ x :: b) text) = parseTree (.mk tag as (a ++ b) text) := by
  have e : ∀ n, x.localName ≠ n → (XmlElement.mk tag as (a ++ x :: b) text).findAll n = (XmlElement.mk tag as (a ++ b) text).findAll n := by
    intro n hn
    simp [XmlElement.findAll, XmlElement.children, List.filter_append, hn]
  unfold parseTree
  rw [e _ h1, e _ h2]

/-- A slide as PowerPoint writes it: a title and a subtitle. -/
def titleSlideXml : Str :=
  c!"<?xml version=\"1.0\"?><p:sld xmlns:a=\"a\" xmlns:p=\"p\"><p:cSld><p:spTree><p:sp><p:nvSpPr><p:cNvPr id=\"2\" name=\"Title 1\"/><p:nvPr><p:ph type=\"ctrTitle\"/></p:nvPr></p:nvSpPr><p:txBody><a:p><a:r><a:t>Results</a:t></a:r></a:p></p:txBody></p:sp><p:sp><p:nvSpPr><p:cNvPr id=\"3\" name=\"Subtitle 2\"/><p:nvPr><p:ph type=\"subTitle\" idx=\"1\"/></p:nvPr></p:nvSpPr><p:txBody><a:p><a:r><a:t>Draft</a:t></a:r></a:p></p:txBody></p:sp></p:spTree></p:cSld></p:sld>"

/-- **C111 does not hold in full.** On a title slide as PowerPoint writes it, the subtitle is taken for the title, because its
name contains the word, and the title itself is lost. -/
theorem C111_subtitle_violated :
    ((parseSlide titleSlideXml).map importSlide).map (fun s => (s.text.title, s.text.texts, s.shapes.length)) = some (c!"Draft", [], 0) := by
  krfl

end PptRs.Props
