import Verif.Lemmas.DrawingRead
import Verif.Props.BulletFormat

/-!
# C136: titles and text areas look as asked for
-/

namespace PptRs.Props
open PptRs.Spec PptRs.Draw

/-- A title as it is read. -/
structure TitleRead where
  name : Option Str
  place : PlaceRead
  align : Option Str
  size : Option Str
  bold : Option Str
  italic : Option Str
  underline : Option Str
  color : Option Str
  text : List Str
deriving DecidableEq

/-- Reading a title: the look of its first run. -/
def readTitle (k : Node) : TitleRead where
  name := pathAttr [c!"p:nvSpPr", c!"p:cNvPr"] c!"name" k
  place := readPlace [c!"p:spPr", c!"a:xfrm"] k
  align := pathAttr [c!"p:txBody", c!"a:p", c!"a:pPr"] c!"algn" k
  size := pathAttr [c!"p:txBody", c!"a:p", c!"a:r", c!"a:rPr"] c!"sz" k
  bold := pathAttr [c!"p:txBody", c!"a:p", c!"a:r", c!"a:rPr"] c!"b" k
  italic := pathAttr [c!"p:txBody", c!"a:p", c!"a:r", c!"a:rPr"] c!"i" k
  underline := pathAttr [c!"p:txBody", c!"a:p", c!"a:r", c!"a:rPr"] c!"u" k
  color := pathAttr [c!"p:txBody", c!"a:p", c!"a:r", c!"a:rPr", c!"a:solidFill", c!"a:srgbClr"] c!"val" k
  text := runs k

/-- A rectangle on a slide. -/
structure Area where
  x : Nat
  y : Nat
  cx : Nat
  cy : Nat
deriving DecidableEq

/-- Where the title of a layout is. -/
def titleArea : SlideLayout → Area
  | .sectionHeader => ⟨457200, 1600200, 8229600, 1828800⟩
  | .centeredTitle => ⟨457200, 2743200, 8230200, 1371600⟩
  | .titleAndBigContent | .twoColumn => ⟨457200, 274638, 8230200, 914400⟩
  | _ => ⟨457200, 274638, 8230200, 1143000⟩

/-- Where the text of a layout is. -/
def textAreas : SlideLayout → List Area
  | .titleAndContent => [⟨457200, 1600200, 8230200, 4572000⟩]
  | .titleAndBigContent => [⟨457200, 1189200, 8230200, 5668800⟩]
  | .twoColumn => [⟨457200, 1189200, 4115100, 5668800⟩, ⟨4572300, 1189200, 4115100, 5668800⟩]
  | _ => []

/-- The size of a title in points if none was asked for. -/
def usualSize : SlideLayout → Nat
  | .sectionHeader => 48
  | .centeredTitle => 54
  | _ => 44

/-- A place as it is read. -/
def Area.read (a : Area) : PlaceRead := ⟨some (dec a.x), some (dec a.y), some (dec a.cx), some (dec a.cy)⟩

/-- What should be read for the title of a slide, whose bold face is given. -/
def titleExpected (s : SlideText) (bold : Bool) : TitleRead where
  name := some c!"Title"
  place := (titleArea s.layout).read
  align := some (match s.layout with
    | .sectionHeader | .centeredTitle => c!"ctr"
    | _ => c!"l")
  size := some (dec (100 * s.titleSize.getD (usualSize s.layout)))
  bold := some (if bold then c!"1" else c!"0")
  italic := some (if s.titleItalic then c!"1" else c!"0")
  underline := if s.titleUnderline then some c!"sng" else none
  color := s.titleColor.map plainColor
  text := [s.title]

theorem readTitle_node (t : Str) (size : Nat) (b i u : Bool) (c : Option Str) (x y cx cy : Nat) (al : Str) :
    readTitle (titleNode t (.withBasic size b i u c) x y cx cy al) =
      { name := some c!"Title", place := ⟨some (dec x), some (dec y), some (dec cx), some (dec cy)⟩, align := some al
        size := some (dec size), bold := some (flag b), italic := some (flag i)
        underline := if u then some c!"sng" else none, color := c.map plainColor, text := [t] } := by
  have hr : runs (titleNode t (.withBasic size b i u c) x y cx cy al) = [t] := by
    have h : runs (titleNode t (.withBasic size b i u c) x y cx cy al)
        = (((runs (TextProps.withBasic size b i u c).node ++ [textOf (addText [] t)]) ++ []) ++ []) ++ [] := by krfl
    rw [h, runs_props, textOf_addText]
    rfl
  have h : readTitle (titleNode t (.withBasic size b i u c) x y cx cy al) =
      { name := some c!"Title", place := ⟨some (dec x), some (dec y), some (dec cx), some (dec cy)⟩, align := some al
        size := some (dec size), bold := some (flag b), italic := some (flag i)
        underline := if u then some c!"sng" else none, color := (c.map cleanColor).map cleanColor
        text := runs (titleNode t (.withBasic size b i u c) x y cx cy al) } := by
    cases u <;> cases c <;> krfl
  rw [h, hr]
  cases c <;> simp [cleanColor_eq, plainColor_twice]

theorem drawn_first {s : SlideText} {X : List Node} {t : Node} {r : List Node} {as : List (Str × Str)} {ks : List Node}
    (ht : t = .elem c!"p:sp" as ks) (e : s.shapeNodes = nl :: t :: r) :
    (drawn c!"p:sp" [slideNode s.shapeNodes X s.transition.nodes]).head? = some t := by
  rw [drawn_slide _ _ _ (by decide) (by decide), e]
  subst ht
  simp [named, nl]

/-- **C136** (partial: no markup in colours; a section header is always bold, see
`C136_section_bold_violated`). In every layout with a title the first object on the slide is the title, in its
place, with the text, size, bold and italic face, underlining and colour that were asked for. -/
theorem C136_title_partial {s : SlideText} {X : List Node} (h : s.Safe) (hx : ReadsAs (fmt s.extra) X)
    (hl : s.layout ≠ .blank) :
    ∃ doc k, document s.xml = some doc ∧ (drawn c!"p:sp" doc).head? = some k
      ∧ readTitle k = titleExpected s (if s.layout = .sectionHeader then true else s.titleBold) := by
  have ha : ∀ (l : SlideLayout) (n : Nat) (b : Bool), usualSize l = n → s.layout = l → ∀ (x y cx cy : Nat) (al : Str) r,
      s.shapeNodes = nl :: titleNode s.title (s.titleProps n b) x y cx cy al :: r →
      titleArea l = ⟨x, y, cx, cy⟩ → (match l with
        | .sectionHeader | .centeredTitle => c!"ctr"
        | _ => c!"l") = al →
      ∃ doc k, document s.xml = some doc ∧ (drawn c!"p:sp" doc).head? = some k ∧ readTitle k = titleExpected s b := by
    intro l n b hn hl x y cx cy al r e1 e2 e3
    refine ⟨_, titleNode s.title (s.titleProps n b) x y cx cy al, document_slide h hx, drawn_first rfl e1, ?_⟩
    unfold SlideText.titleProps titleExpected
    rw [readTitle_node, hl, e2, e3, hn, Nat.mul_comm]
    rfl
  cases hlay : s.layout
  case blank => exact absurd hlay hl
  case sectionHeader =>
    exact ha _ 48 true rfl hlay _ _ _ _ _ [] (by simp only [SlideText.shapeNodes, hlay]) rfl rfl
  case titleOnly =>
    exact ha _ 44 s.titleBold rfl hlay _ _ _ _ _ [] (by simp only [SlideText.shapeNodes, hlay]) rfl rfl
  case centeredTitle =>
    exact ha _ 54 s.titleBold rfl hlay _ _ _ _ _ [] (by simp only [SlideText.shapeNodes, hlay]) rfl rfl
  all_goals
    refine ha _ 44 s.titleBold rfl hlay _ _ _ _ _ _ (by simp only [SlideText.shapeNodes, hlay]; rfl) rfl rfl

/-- What the user asks for: 30 points, italic, not bold, red. -/
example : ∃ doc k, document ({ SlideText.new c!"T" with titleSize := some 30, titleBold := false, titleItalic := true, titleColor := some c!"#ff0000" } : SlideText).xml = some doc
    ∧ (drawn c!"p:sp" doc).head? = some k ∧ readTitle k = {
      name := some c!"Title", place := ⟨some c!"457200", some c!"274638", some c!"8230200", some c!"1143000"⟩
      align := some c!"l", size := some c!"3000", bold := some c!"0", italic := some c!"1", underline := none
      color := some c!"FF0000", text := [c!"T"] } := by
  obtain ⟨doc, k, h1, h2, h3⟩ := C136_title_partial (X := [])
    (s := { SlideText.new c!"T" with titleSize := some 30, titleBold := false, titleItalic := true, titleColor := some c!"#ff0000" })
    ⟨by
      simp only [Option.mem_def]
      rintro _ ⟨⟩
      exact plain_of (by decide), by simp [SlideText.new], by simp [SlideText.new, BulletStyle.Safe], by simp [SlideText.new], by simp [SlideText.new]⟩
    (by
      intro top st
      simp [SlideText.new, fmt, steps]) (by decide)
  exact ⟨doc, k, h1, h2, h3.trans (by decide +kernel)⟩

/-- **C136 does not hold in full.** The title of a section header is bold even after `title_bold(false)`: the
writer passes `true` for this layout. -/
theorem C136_section_bold_violated (s : SlideText) (b : Bool) (h : s.layout = .sectionHeader) :
    ({ s with titleBold := b } : SlideText).xml = s.xml := by
  obtain ⟨⟩ := s
  simp only at h
  subst h
  rfl

/-- **C136 does not hold in full.** `content_underline(true)` has no effect on the slides of a presentation:
the setting is stored and never read by the writer of slides, which passes `false`. -/
theorem C136_content_underline_violated (s : SlideText) (b : Bool) :
    ({ s with contentUnderline := b } : SlideText).xml = s.xml := rfl

/-- The place of a box is read back. -/
theorem place_box (id name : Str) (x y cx cy : Nat) (as : List (Str × Str)) (ks : List Node) :
    readPlace [c!"p:spPr", c!"a:xfrm"] (boxNode id name x y cx cy as ks)
      = ⟨some (dec x), some (dec y), some (dec cx), some (dec cy)⟩ := by krfl

/-- **C136** (partial: as before; without a table). The text is in the areas of the layout, the left column
before the right one, and nothing else is drawn there: the objects of a slide with enough bullets are the
title, the areas of text and what is drawn besides text. -/
theorem C136_areas_partial {s : SlideText} {X : List Node} (h : s.Safe) (hx : ReadsAs (fmt s.extra) X)
    (ht : s.table = none) (hn : 2 ≤ s.texts.length) :
    ∃ doc, document s.xml = some doc ∧
      (drawn c!"p:sp" doc).map (readPlace [c!"p:spPr", c!"a:xfrm"])
        = ((if s.layout = .blank then [] else [titleArea s.layout]) ++ textAreas s.layout).map Area.read
          ++ (named c!"p:sp" X).map (readPlace [c!"p:spPr", c!"a:xfrm"]) := by
  refine ⟨_, document_slide h hx, ?_⟩
  rw [drawn_slide _ _ _ (by decide) (by decide), List.map_append]
  congr 1
  have e1 : s.effective ≠ [] := by
    intro e
    have := effective_length s
    rw [e] at this
    simp at this
    omega
  have e2 : 0 < s.effective.length ∧ (s.effective.length + 1) / 2 < s.effective.length := by
    rw [effective_length]
    omega
  unfold SlideText.shapeNodes
  cases hlay : s.layout <;>
    simp only [ht, oneColumnNodes, twoColumnNodes, if_pos e1, if_pos e2.1, if_pos e2.2, Option.isSome_none,
      Bool.false_eq_true, if_false, reduceCtorEq]
  all_goals krfl

/-- The areas of a layout are on a slide of 9144000 by 6858000, the size of the slides that the writer of
presentations makes, and do not overlap. -/
theorem C136_areas_fit (l : SlideLayout) :
    (∀ a ∈ titleArea l :: textAreas l, a.x + a.cx ≤ 9144000 ∧ a.y + a.cy ≤ 6858000 ∧ 0 < a.cx ∧ 0 < a.cy)
    ∧ (titleArea l :: textAreas l).Pairwise fun a b =>
        a.x + a.cx ≤ b.x ∨ b.x + b.cx ≤ a.x ∨ a.y + a.cy ≤ b.y ∨ b.y + b.cy ≤ a.y := by
  cases l <;> decide +kernel

end PptRs.Props
