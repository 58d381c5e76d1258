import Verif.Lemmas.Layouts
import Verif.Props.Drawing

/-!
# C135: the second writer of slides
-/

namespace PptRs.Props
open PptRs.Spec PptRs.Draw PptRs.Layouts

/-- **C135** (partial: no markup in colours, bullet characters, numbers of links and tooltips; pictures are
written as placeholders, and shapes, pictures and tables only in the layout with title and content). Every
slide is read back: first the title and the content, the columns or the table, with all their text; then the
shapes and placeholders, each with its own number, in the order in which they were added. -/
theorem C135_read_back_partial {fontSize : Str → Nat → Nat → Nat} {p : Page} {x : Str} (h : p.Safe)
    (e : p.xml fontSize = some x) :
    ∃ doc ks, document x = some doc ∧ boxes doc = p.text.expected ++ boxes ks
      ∧ ks <:+ drawn c!"p:sp" doc ∧ ks.map readShape = p.drawnExpected := by
  simp only [Page.xml, Option.map_eq_some_iff] at e
  obtain ⟨d, hd, rfl⟩ := e
  obtain ⟨l, r, b, h1, h2, h3, h4, h5, -⟩ := (page_blocks h hd).out
  refine ⟨_, r.map (·.node), document_page h1 h2, ?_, ?_, ?_⟩
  · rw [boxes_items, List.map_append, boxes_append, h3]
  · rw [drawn_items _ _ (by decide) (by decide), List.map_append, named_append, named_map h4]
    exact List.suffix_append _ _
  · rw [List.map_map]
    exact h5

/-- The look of a run. -/
structure RunSeen where
  size : Option Str
  bold : Option Str
  italic : Option Str
  underline : Option Str
  color : Option Str
deriving DecidableEq

/-- Reading the properties of a run. -/
def readRun (k : Node) : RunSeen where
  size := attrOf c!"sz" k
  bold := attrOf c!"b" k
  italic := attrOf c!"i" k
  underline := attrOf c!"u" k
  color := (elemsL c!"a:srgbClr" (elems c!"a:solidFill" k)).head?.bind (attrOf c!"val")

/-- The look that was asked for. -/
def runLook (size : Nat) (bold italic underline : Bool) (color : Option Str) : RunSeen where
  size := some (dec size)
  bold := some (if bold then c!"1" else c!"0")
  italic := some (if italic then c!"1" else c!"0")
  underline := if underline then some c!"sng" else none
  color := color.map plainColor

/-- What should be seen of the runs of title and bullets: the look of the title, and for every bullet that is shown the look
of the content. Sizes are in hundredths of a point, as given except on two columns, see `C135_size_violated`. -/
def looksExpected (p : Page) : List RunSeen :=
  let s := p.text
  let two := s.layout = .twoColumn
  let title := runLook (if two then s.titleSize.getD 44 * 100 else s.titleSize.getD 4400) s.titleBold s.titleItalic s.titleUnderline s.titleColor
  let content := runLook (if two then s.contentSize.getD 24 * 100 else s.contentSize.getD 2800) s.contentBold s.contentItalic
    s.contentUnderline s.contentColor
  if s.layout = .blank then []
  else title :: if s.layout = .titleAndBigContent ∨ two ∨ (s.layout = .titleAndContent ∧ s.table = none) then s.texts.map fun _ => content
    else []

theorem readRun_node (size : Nat) (b i u : Bool) (c : Option Str) :
    readRun (TextProps.withBasic size b i u c).node = runLook size b i u c := by
  have h : readRun (TextProps.withBasic size b i u c).node =
      { size := some (dec size), bold := some (flag b), italic := some (flag i)
        underline := if u then some c!"sng" else none, color := (c.map cleanColor).map cleanColor } := by
    cases u <;> cases c <;> krfl
  rw [h]
  cases c <;> simp [cleanColor_eq, plainColor_twice, runLook, flag]

theorem looks_page (l : List Item) (e : Bool) :
    elemsL c!"a:rPr" [pageNode (itemNodes l ++ if e then [nl] else [])] = elemsL c!"a:rPr" (l.map (·.node)) := by
  have h1 : ∀ ks, elemsL c!"a:rPr" [pageNode ks] = ((elemsL c!"a:rPr" ks ++ []) ++ []) ++ [] := by intro ks; krfl
  have h2 : elemsL c!"a:rPr" (if e then [nl] else []) = [] := by cases e <;> rfl
  rw [h1, elemsL_append, h2]
  simp only [List.append_nil]
  induction l with
  | nil => rfl
  | cons i l ih =>
    have : itemNodes (i :: l) = .text (if i.wide then c!"\n\n" else c!"\n") :: i.node :: itemNodes l := rfl
    rw [this, List.map_cons]
    simp only [elemsL, elems, List.nil_append, ih]

theorem runNodes_looks (p : Page) : p.runNodes.map readRun = looksExpected p := by
  unfold Page.runNodes looksExpected
  cases hl : p.text.layout <;> cases ht : p.text.table <;>
    simp [hl, ht, Page.titleProps, Page.contentProps, Page.columnTitleProps, Page.columnProps, readRun_node]

/-- **C135.** The title comes first, in the weight, slant, underline and colour that were asked for, then every bullet that the
layout shows, in those of the content. -/
theorem C135_looks_partial {fontSize : Str → Nat → Nat → Nat} {p : Page} {x : Str} (h : p.Safe) (e : p.xml fontSize = some x) :
    ∃ doc, document x = some doc ∧ looksExpected p <+: (elemsL c!"a:rPr" doc).map readRun := by
  simp only [Page.xml, Option.map_eq_some_iff] at e
  obtain ⟨d, hd, rfl⟩ := e
  obtain ⟨l, r, b, h1, h2, -, -, -, h6⟩ := (page_blocks h hd).out
  refine ⟨_, document_page h1 h2, ?_⟩
  rw [looks_page, List.map_append, elemsL_append, List.map_append, ← runNodes_looks]
  exact (h6.map readRun).trans (List.prefix_append _ _)

example : looksExpected { text := { (SlideText.new c!"T").addBullet c!"a" with titleItalic := true, titleColor := some c!"#ff0000" } } =
    [⟨some c!"44", some c!"1", some c!"1", none, some c!"FF0000"⟩, ⟨some c!"28", some c!"0", some c!"0", none, none⟩] := by
  decide +kernel

/-- Nothing stops a slide from being written if its shapes can be written. -/
theorem C135_written (fontSize : Str → Nat → Nat → Nat) (p : Page)
    (h1 : ∀ s ∈ p.shapes, ∀ f ∈ s.fill, AllAscii f.color)
    (h2 : ∀ s ∈ p.shapes, ∀ r ∈ s.rotation, -35791 ≤ r ∧ r ≤ 35791)
    (h3 : ∀ s ∈ p.shapes, ∀ g ∈ s.gradient, g.direction.degrees ≤ 71582) : (p.xml fontSize).isSome = true := by
  have hs : ∀ (l : List Shape) (k : Nat), (∀ s ∈ l, s ∈ p.shapes) → (Layouts.shapesXml fontSize k l).isSome = true := by
    intro l
    induction l with
    | nil => intros; rfl
    | cons s l ih =>
      intro k hl
      have hm := hl s (List.mem_cons_self ..)
      obtain ⟨a, ha⟩ := Option.isSome_iff_exists.mp (shape_written fontSize (k + 10) (h1 s hm) (h2 s hm) (h3 s hm))
      obtain ⟨b, hb⟩ := Option.isSome_iff_exists.mp (ih (k + 1) fun s hs => hl s (List.mem_cons_of_mem _ hs))
      simp [Layouts.shapesXml, ha, hb]
  unfold Page.xml Page.drawing
  cases p.text.layout <;> simp [hs p.shapes 0 fun _ h => h]

/-- A slide with two bullets, a shape and a picture. -/
def somePage : Page where
  text := (SlideText.new c!"A & B").addBullet c!"one" |>.addBullet c!"two"
  shapes := [{ kind := .rectangle, x := 1, y := 2, width := 3, height := 4 }]
  images := [{ filename := c!"a.png", x := 5, y := 6, width := 7, height := 8 }]

example : (somePage.xml fun _ _ _ => 1800).isSome = true ∧ somePage.drawnExpected.map (·.id) = [some c!"10", some c!"21"]
    ∧ somePage.text.expected = [(some c!"Title", [c!"A & B"]), (some c!"Content", [c!"one", c!"two"])] := by
  refine ⟨C135_written _ _ (by simp [somePage]) (by simp [somePage]) (by simp [somePage]), by decide +kernel, by decide⟩

/-- The objects that are drawn after the text have numbers of their own: all different, and different from
those of the title (2), the content (3) and the right column (4). -/
theorem C135_numbers (p : Page) : ∃ ns : List Nat, p.drawnExpected.map (·.id) = ns.map (fun n => some (dec n))
    ∧ ns.Nodup ∧ ∀ n ∈ ns, 5 ≤ n := by
  unfold Page.drawnExpected
  split
  · refine ⟨List.range' 10 p.shapes.length ++ List.range' (20 + p.shapes.length) p.images.length, ?_, ?_, ?_⟩
    · rw [List.map_append, List.map_append, List.map_map, List.map_map]
      congr 1
      · refine List.ext_getElem? fun i => ?_
        simp only [List.getElem?_map, List.getElem?_zipIdx, Option.map_map]
        by_cases hi : i < p.shapes.length <;> simp [hi, Shape.expected, Nat.add_comm]
      · refine List.ext_getElem? fun i => ?_
        simp only [List.getElem?_map, List.getElem?_zipIdx, Option.map_map]
        by_cases hi : i < p.images.length <;> simp [hi, placeholderRead, Nat.add_comm]
    · rw [List.nodup_append]
      refine ⟨List.nodup_range', List.nodup_range', ?_⟩
      intro a ha b hb
      simp only [List.mem_range', Nat.one_mul] at ha hb
      omega
    · intro n hn
      simp only [List.mem_append, List.mem_range', Nat.one_mul] at hn
      omega
  · exact ⟨[], rfl, List.nodup_nil, by simp⟩

/-- **C135 does not hold in full.** `create_slide_xml_for_layout` writes font sizes as they are given, in
points, where the file format has hundredths of a point: except in two columns, a title of 44 points becomes
one of 0.44 points. -/
theorem C135_size_violated (fontSize : Str → Nat → Nat → Nat) (t : Str) (n : Nat) :
    ∃ x doc, Page.xml fontSize { text := { SlideText.new t with layout := .titleOnly, titleSize := some n } } = some x
      ∧ document x = some doc ∧ (elemsL c!"a:rPr" doc).map (attrOf c!"sz") = [some (dec n)] := by
  have hq : (Page.titleProps { text := { SlideText.new t with layout := .titleOnly, titleSize := some n } }).Safe :=
    withBasic_safe (by simp [SlideText.new])
  have hd := document_page (d := addTitle 2 ⟨457200, 274638, 8230200, 1143000⟩ t
      (Page.titleProps { text := { SlideText.new t with layout := .titleOnly, titleSize := some n } }) c!"title")
    (l := [titleItem ⟨457200, 274638, 8230200, 1143000⟩ t
      (Page.titleProps { text := { SlideText.new t with layout := .titleOnly, titleSize := some n } })]) (e := true)
    (by
      simp only [addTitle, itemsXml, titleItem, Item.gap]
      simp) (by simpa using titleItem_ok _ _ hq)
  exact ⟨_, _, rfl, hd, by cases t <;> krfl⟩

/-- Two columns are the exception: there `create_slide_xml_for_layout` writes the sizes in hundredths of a point, as `create_slide_xml_with_content` always does. -/
theorem C135_size_columns (p : Page) : p.columnTitleProps = p.text.titleProps 44 p.text.titleBold
    ∧ (p.text.contentUnderline = false → p.columnProps = p.text.contentProps 24) := by
  refine ⟨rfl, fun h => ?_⟩
  unfold Page.columnProps SlideText.contentProps
  rw [h]

/-- **C135 does not hold in full.** `create_slide_xml_for_layout` writes shapes, pictures and tables only in
the layout with title and content: in every other layout they are lost without an error. -/
theorem C135_lost_violated (fontSize : Str → Nat → Nat → Nat) (p : Page) (h : p.text.layout ≠ .titleAndContent)
    (shapes : List Shape) (images : List Picture) (table : Option TableIn) :
    Page.xml fontSize { text := { p.text with table }, shapes, images } = p.xml fontSize := by
  unfold Page.xml Page.drawing
  cases hl : p.text.layout
  case titleAndContent => exact absurd hl h
  all_goals simp only [hl] <;> rfl

/-- **C135 does not hold in full.** `create_slide_xml_for_layout` ignores the format of single bullets (bold,
colour, size and so on) and the transition of the slide. -/
theorem C135_format_violated (fontSize : Str → Nat → Nat → Nat) (p : Page) (f : BulletPoint → Option BulletTextFormat)
    (tr : Transition) :
    Page.xml fontSize { p with text := { p.text with
      bullets := p.text.bullets.map fun b => { b with format := f b }
      transition := tr } } = p.xml fontSize := by
  have hm : ∀ (d : TextProps) (l : List BulletPoint),
      (l.map fun b => { b with format := f b }).flatMap (addBullet d) = l.flatMap (addBullet d) := by
    intro d l
    rw [List.flatMap_map]
    rfl
  by_cases hb : p.text.bullets = []
  · obtain ⟨s, sh, im⟩ := p
    obtain ⟨⟩ := s
    simp only at hb
    subst hb
    rfl
  · have he : SlideText.effective { p.text with
        bullets := p.text.bullets.map fun b => { b with format := f b }
        transition := tr } = p.text.effective.map fun b => { b with format := f b } := by
      simp [SlideText.effective, hb]
    have h1 : ∀ place d, bodyXml place d (p.text.effective.map fun b => { b with format := f b })
        = bodyXml place d p.text.effective := by
      intro place d
      simp [bodyXml, hm]
    have h2 : ∀ d, columnsXml d (p.text.effective.map fun b => { b with format := f b })
        = columnsXml d p.text.effective := by
      intro d
      unfold columnsXml
      simp only [List.length_map, ← List.map_take, ← List.map_drop, hm]
    unfold Page.xml Page.drawing
    simp only [he, h1, h2]
    rfl

/-- **C135 does not hold in full.** `create_slide_xml_for_layout` draws a grey box with the name of the file
where a picture should be: its bytes, alternative text, crop and effects play no part. -/
theorem C135_pictures_violated (fontSize : Str → Nat → Nat → Nat) (p : Page)
    (crop : Picture → Option Crop) (effects : Picture → List ImageEffect) (alt : Picture → Option Str) :
    Page.xml fontSize { p with images := p.images.map fun i =>
        { i with crop := crop i, effects := effects i, altText := alt i } } = p.xml fontSize := by
  have h : ∀ (l : List Picture) (k : Nat), placeholders k (l.map fun i =>
      { i with crop := crop i, effects := effects i, altText := alt i }) = placeholders k l := by
    intro l
    induction l with
    | nil => intro k; rfl
    | cons i l ih =>
      intro k
      simp only [List.map_cons, placeholders, ih]
      rfl
  unfold Page.xml Page.drawing
  simp only [h]
  rfl

end PptRs.Props
