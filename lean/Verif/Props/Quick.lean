import Verif.Model.Quick
import Verif.Props.Drawing
import Verif.Props.Units
import Verif.Props.Templates
import Verif.Props.Color
import Verif.Props.BulletFormat
import Verif.Lemmas.Parts

/-!
# C134: the quick functions make what their names say
-/

namespace PptRs.Props

open PptRs PptRs.Spec PptRs.Draw PptRs.Fl PptRs.Units PptRs.Quick PptRs.Templates

/-! ### Shapes -/

/-- The preset geometry that a function should draw. -/
def figureGeometry : Figure → Str
  | .hRect .. | .mRect .. | .rect .. | .textBox .. => c!"rect"
  | .hCircle .. | .hEllipse .. | .mCircle .. | .circle .. => c!"ellipse"
  | .hRounded .. | .rounded .. | .badge .. => c!"roundRect"
  | .hTriangle .. | .triangle .. => c!"triangle"
  | .hDiamond .. | .diamond .. => c!"diamond"
  | .arrowRight .. => c!"rightArrow"
  | .arrowLeft .. => c!"leftArrow"
  | .arrowUp .. => c!"upArrow"
  | .arrowDown .. => c!"downArrow"
  | .star .. => c!"star5"
  | .heart .. => c!"heart"
  | .cloud .. => c!"cloud"
  | .callout .. => c!"wedgeRectCallout"
  | .process .. => c!"flowChartProcess"
  | .decision .. => c!"flowChartDecision"
  | .document .. => c!"flowChartDocument"
  | .data .. => c!"flowChartInputOutput"
  | .terminator .. => c!"flowChartTerminator"

/-- Where a function should draw, in inches: left, top, width and height. -/
def figureBox : Figure → List Val
  | .hRect x y w h | .hEllipse x y w h | .hRounded x y w h | .hTriangle x y w h | .hDiamond x y w h | .mRect x y w h
  | .rect x y w h | .rounded x y w h | .textBox x y w h _ | .arrowRight x y w h | .arrowLeft x y w h
  | .arrowUp x y w h | .arrowDown x y w h | .triangle x y w h | .cloud x y w h | .callout x y w h _
  | .process x y w h _ | .document x y w h _ | .data x y w h _ | .terminator x y w h _ => [x, y, w, h]
  | .hCircle x y d | .mCircle x y d | .circle x y d | .diamond x y d | .star x y d | .heart x y d
  | .decision x y d _ => [x, y, d, d]
  | .badge x y _ _ => [x, y, .fin (3 / 2), .fin (4 / 10)]

/-- The text that a function should show. -/
def figureText : Figure → Option Str
  | .textBox _ _ _ _ t | .callout _ _ _ _ t | .process _ _ _ _ t | .document _ _ _ _ t | .data _ _ _ _ t
  | .terminator _ _ _ _ t | .decision _ _ _ t | .badge _ _ t _ => some t
  | _ => none

/-- The colour that a function should fill with. -/
def figureColor : Figure → Option Str
  | .badge _ _ _ c => some c
  | _ => none

/-- A number of EMU is less than one away from a length in inches, if this is in range. -/
def NearInches : Val → Nat → Prop
  | .fin q, n => 0 ≤ q → q * 914400 ≤ 4294967295 → |(n : Rat) - q * 914400| < 1
  | _, _ => True

theorem near_inches (v : Val) : NearInches v (scaled perInch v) := by
  cases v with
  | fin q =>
    intro h0 h
    exact_mod_cast C131_close perInch q h0 (by exact_mod_cast h)
  | _ => trivial

/-- Every quick function that makes a shape makes one with the right geometry (partial: except for the
data symbol of flowcharts), at the place that was given in inches, up to one EMU, with the given text and
colour and nothing else. -/
theorem C134_figures_partial (f : Figure) (hd : ∀ x y w h t, f ≠ .data x y w h t) :
    f.shape.kind.presetName = figureGeometry f ∧ figureGeometry f ∈ presets ∧
    (∀ p ∈ (figureBox f).zip [f.shape.x, f.shape.y, f.shape.width, f.shape.height], NearInches p.1 p.2) ∧
    f.shape.text = figureText f ∧ f.shape.fill = (figureColor f).map ShapeFill.new ∧
    f.shape.gradient = none ∧ f.shape.line = none ∧ f.shape.rotation = none ∧ f.shape.link = none ∧ f.shape.id = none := by
  have key : ∀ v : Val, NearInches v (inches v) := near_inches
  have kx : ∀ v : Val, NearInches v (Dimension.inches v).toEmuX := near_inches
  have ky : ∀ v : Val, NearInches v (Dimension.inches v).toEmuY := near_inches
  have k1 : NearInches (.fin (4 / 10)) (inches (mk b64 (4 / 10))) := by
    have : inches (mk b64 (4 / 10)) = 365760 := by decide +kernel
    rw [this]
    intro _ _
    norm_num
  cases f with
  | data x y w h t => exact absurd rfl (hd x y w h t)
  | badge x y t c =>
    refine ⟨rfl, by simp only [figureGeometry]; decide +kernel, ?_, rfl, rfl, rfl, rfl, rfl, rfl, rfl⟩
    intro p hp
    simp only [figureBox, Figure.shape, text, boxShape, Shape.withFill, List.zip_cons_cons, List.zip_nil_right,
      List.mem_cons, List.not_mem_nil, or_false] at hp
    rcases hp with rfl | rfl | rfl | rfl
    · exact key _
    · exact key _
    · exact key _
    · exact k1
  | _ =>
    refine ⟨rfl, by simp only [figureGeometry]; decide +kernel, ?_, rfl, rfl, rfl, rfl, rfl, rfl, rfl⟩
    intro p hp
    simp only [figureBox, Figure.shape, text, boxShape, dimShape, fromDimensions, List.zip_cons_cons, List.zip_nil_right,
      List.mem_cons, List.not_mem_nil, or_false] at hp
    rcases hp with rfl | rfl | rfl | rfl
    · first | exact key _ | exact kx _
    · first | exact key _ | exact ky _
    · first | exact key _ | exact kx _
    · first | exact key _ | exact ky _

/-- The shape is written, and read back with its geometry and place. -/
theorem C134_drawn_partial (fontSize : Str → Nat → Nat → Nat) (f : Figure) (id : Nat)
    (hc : ∀ c ∈ figureColor f, AllAscii (cleanColor c) ∧ Plain c) :
    ∃ ps k, shapeXml fontSize f.shape id = some ps ∧ ReadsNodes ps [k] ∧
      (readShape k).geometry = some f.shape.kind.presetName ∧
      (readShape k).place = ⟨some (dec f.shape.x), some (dec f.shape.y), some (dec f.shape.width), some (dec f.shape.height)⟩ ∧
      (readShape k).fill = (match figureColor f with | none => .none | some c => .solid (some (cleanColor c)) none) ∧
      (∀ t ∈ figureText f, isCode t = false → (readShape k).paragraphs = [t]) := by
  have ht : f.shape.text = figureText f := by cases f <;> rfl
  have hf : f.shape.fill = (figureColor f).map ShapeFill.new := by cases f <;> rfl
  have hg : f.shape.gradient = none := by cases f <;> rfl
  have hl : f.shape.line = none := by cases f <;> rfl
  have hr : f.shape.rotation = none := by cases f <;> rfl
  have hk : f.shape.link = none := by cases f <;> rfl
  have hsafe : f.shape.Safe := by
    refine ⟨?_, ?_, ?_, ?_⟩
    · intro x hx
      rw [hf] at hx
      obtain ⟨c, h1, rfl⟩ := Option.map_eq_some_iff.mp hx
      exact plain_cleanColor (hc c h1).2
    · rw [hg]; intro _ h; cases h
    · rw [hl]; intro _ h; cases h
    · rw [hk]; intro _ h; cases h
  have hw := shape_written fontSize (s := f.shape) id
    (by
      intro x hx
      rw [hf] at hx
      obtain ⟨c, h1, rfl⟩ := Option.map_eq_some_iff.mp hx
      exact (hc c h1).1)
    (by rw [hr]; intro _ h; cases h) (by rw [hg]; intro _ h; cases h)
  obtain ⟨ps, hps⟩ := Option.isSome_iff_exists.mp hw
  obtain ⟨as, ks, h1, h2⟩ := shape_reads hsafe hps
  refine ⟨ps, _, hps, h1.nodes, ?_⟩
  rw [h2]
  refine ⟨rfl, rfl, ?_, ?_⟩
  · simp only [Shape.expected, Shape.expectedFill, hg, hf]
    cases figureColor f <;> rfl
  · intro t h3 h4
    simp only [Shape.expected, ht]
    rw [Option.mem_def.mp h3]
    simp [h4]

example : (Figure.star (.fin 1) (.fin 2) (.fin (1 / 2))).shape.width = 457200 := by decide +kernel

/-- **C134 does not hold in full.** The data symbol of flowcharts (`shapes::data`) is drawn with the geometry
`flowChartData`, which does not exist; the right one is `flowChartInputOutput`. -/
theorem C134_data_violated (x y w h : Val) (t : Str) :
    (Figure.data x y w h t).shape.kind.presetName = c!"flowChartData" ∧ c!"flowChartData" ∉ presets ∧
    c!"flowChartInputOutput" ∈ presets := by
  refine ⟨rfl, ?_⟩
  decide +kernel

/-- Shapes in parts of the slide never leave it, and `colored`, `gradient` and the functions for EMU set what
they are given. -/
theorem C134_other (x y w h : Val) (t : Option Str) (k : ShapeType) (a b c d : Nat) (s : Shape) (color l : Str)
    (e : GradientDirection) :
    (ratioShape x y w h t).x ≤ slideWidth ∧ (ratioShape x y w h t).y ≤ slideHeight ∧
    (ratioShape x y w h t).width ≤ slideWidth ∧ (ratioShape x y w h t).height ≤ slideHeight ∧
    (ratioShape x y w h t).text = t ∧ (ratioShape x y w h t).kind = .rectangle ∧
    (emuShape k a b c d).kind = k ∧
    [(emuShape k a b c d).x, (emuShape k a b c d).y, (emuShape k a b c d).width, (emuShape k a b c d).height] = [a, b, c, d] ∧
    colored s color none = s.withFill (.new color) ∧
    colored s color (some l) = { s with fill := some (.new color), gradient := none, line := some ⟨cleanColor l, 12700⟩ } ∧
    (Quick.gradient s color l e).expectedFill = .gradient [(some (dec 0), some (cleanColor color), none),
      (some (dec 100000), some (cleanColor l), none)] (some (dec (e.degrees * 60000))) := by
  have r := fun n hn v => (C131_ratio n hn).1 v
  refine ⟨r _ (by decide) _, r _ (by decide) _, r _ (by decide) _, r _ (by decide) _, rfl, rfl, rfl, rfl, rfl, rfl, ?_⟩
  krfl

/-! ### Colours -/

theorem cleanColor_hex2 (r g b : UInt8) : cleanColor (hex2 r ++ hex2 g ++ hex2 b) = hex2 r ++ hex2 g ++ hex2 b := by
  have hn : ∀ n : Fin 256, '#' ∉ hex2 n.val.toUInt8 ∧ (hex2 n.val.toUInt8).map Char.toUpper = hex2 n.val.toUInt8 := by
    decide +kernel
  have h : ∀ x : UInt8, '#' ∉ hex2 x ∧ (hex2 x).map Char.toUpper = hex2 x := by
    intro x
    have := hn ⟨x.toNat, x.toNat_lt⟩
    simpa using this
  unfold cleanColor
  have e : trimStartChar '#' (hex2 r ++ hex2 g ++ hex2 b) = hex2 r ++ hex2 g ++ hex2 b :=
    trimStart_hashes 0 (s := hex2 r ++ hex2 g ++ hex2 b) (by
      intro hm
      rcases List.mem_append.mp hm with hm | hm
      · rcases List.mem_append.mp hm with hm | hm
        · exact (h r).1 hm
        · exact (h g).1 hm
      · exact (h b).1 hm)
  rw [e, List.map_append, List.map_append, (h r).2, (h g).2, (h b).2]

/-- Six hexadecimal digits behind any number of `#` are the colour they denote, and a shape that is filled
or outlined with it is written with these digits; the width of the outline is less than one EMU away from
the points. (Partial: colours by number.) -/
theorem C134_color_partial (k : Nat) {x y z : Str} {r g b : UInt8} (hx : HexByte x r) (hy : HexByte y g)
    (hz : HexByte z b) (s : Shape) (q : Rat) (h0 : 0 ≤ q) (h1 : q * 12700 ≤ 4294967295) :
    ∃ c, hex (List.replicate k '#' ++ (x ++ y ++ z)) = some c ∧ c = .rgb ⟨r, g, b⟩ ∧
      (fill s c).expectedFill = .solid (some (hex2 r ++ hex2 g ++ hex2 b)) none ∧
      (∃ w : Nat, (stroke s c (.fin q)).line = some ⟨hex2 r ++ hex2 g ++ hex2 b, w⟩ ∧ |(w : Rat) - q * 12700| < 1) ∧
      (∃ e, ReadsNodes c.toXml [e] ∧ attrOf c!"val" e = some (hex2 r ++ hex2 g ++ hex2 b)) := by
  have hf := (fromHex_bytes hx hy hz k).2
  have hlen : utf8Len (trimStartChar '#' (List.replicate k '#' ++ (x ++ y ++ z))) = 6 := by
    obtain ⟨ax, lx, nx⟩ := ascii_byte hx
    obtain ⟨ay, ly, ny⟩ := ascii_byte hy
    obtain ⟨az, lz, nz⟩ := ascii_byte hz
    rw [trimStart_hashes k (s := x ++ y ++ z) (by simp [nx, ny, nz]), utf8Len_ascii]
    · simp [lx, ly, lz]
    · intro c hc
      simp only [List.mem_append] at hc
      rcases hc with (hc | hc) | hc
      · exact ax c hc
      · exact ay c hc
      · exact az c hc
  have hh : hex (List.replicate k '#' ++ (x ++ y ++ z)) = some (.rgb ⟨r, g, b⟩) := by
    unfold ColorValue.fromHex at hf
    simp only [hlen, if_true, Option.bind_eq_some_iff] at hf
    obtain ⟨u, e1, v, e2, w, e3, e4⟩ := hf
    injection e4 with e4
    injection e4 with e5 e6 e7 _
    unfold hex
    simp only [hlen, if_true]
    rw [e1, Option.bind_some, e2, Option.bind_some, e3, Option.map_some, e5, e6, e7]
  refine ⟨_, hh, rfl, ?_, ⟨scaled perPt (.fin q), ?_, ?_⟩, ?_⟩
  · simp only [fill, Shape.withFill, Shape.expectedFill, ShapeFill.new, colorText, RgbColor.toHex, cleanColor_hex2]
    rfl
  · simp only [stroke, ShapeLine.new, colorText, RgbColor.toHex, cleanColor_hex2]
  · exact_mod_cast C131_close perPt q h0 (by exact_mod_cast h1)
  · have hp : Plain (RgbColor.toHex ⟨r, g, b⟩) := by
      have hn : ∀ n : Fin 256, '&' ∉ hex2 n.val.toUInt8 ∧ '<' ∉ hex2 n.val.toUInt8 ∧ '"' ∉ hex2 n.val.toUInt8 := by
        decide +kernel
      have h : ∀ x : UInt8, Plain (hex2 x) := by
        intro x
        have := hn ⟨x.toNat, x.toNat_lt⟩
        simpa [Plain] using this
      unfold RgbColor.toHex
      have a := h r
      have b' := h g
      have c' := h b
      simp only [Plain] at a b' c' ⊢
      simp [a, b', c']
    refine ⟨E c!"a:srgbClr" [(c!"val", RgbColor.toHex ⟨r, g, b⟩)] [], ?_, rfl⟩
    exact (Splits.lit (by unfold Color.toXml; parts_ok)).readsNodes (by krfl)

example : hex c!"#4f81BD" = some (.rgb ⟨79, 129, 189⟩) := by decide +kernel

/-- The colours of a theme by the names of the file format (`ST_SchemeColorVal`). -/
def schemeNames : List Str :=
  [c!"bg1", c!"tx1", c!"bg2", c!"tx2", c!"accent1", c!"accent2", c!"accent3", c!"accent4", c!"accent5", c!"accent6",
   c!"hlink", c!"folHlink", c!"phClr", c!"dk1", c!"lt1", c!"dk2", c!"lt2"]

/-- The colours of a theme are written with names that exist, each with its own. -/
theorem C134_scheme (c : SchemeColor) :
    c.asStr ∈ schemeNames ∧ (∀ d : SchemeColor, d.asStr = c.asStr → d = c) ∧
    ∃ e, ReadsNodes (Color.scheme c).toXml [e] ∧ attrOf c!"val" e = some c.asStr := by
  refine ⟨by cases c <;> decide +kernel, ?_, ⟨E c!"a:schemeClr" [(c!"val", c.asStr)] [], ?_, rfl⟩⟩
  · intro d
    cases c <;> cases d <;> decide +kernel
  · have hp : Plain c.asStr := by cases c <;> (unfold Plain; decide +kernel)
    exact (Splits.lit (by unfold Color.toXml; parts_ok)).readsNodes (by krfl)

/-- **C134 does not hold in full.** A shape that is filled or outlined with a colour of the theme becomes
black: `fill` and `stroke` know colours by number only. -/
theorem C134_theme_color_violated (s : Shape) (c : SchemeColor) (w : Val) :
    (fill s (.scheme c)).expectedFill = .solid (some c!"000000") none ∧
    (stroke s (.scheme c) w).line = some ⟨c!"000000", scaled perPt w⟩ := by
  constructor
  · rfl
  · simp only [stroke, ShapeLine.new, colorText]
    rfl

/-- **C134 does not hold in full.** What is not a colour is silently black: three digits, eight digits, and
letters that are not digits. Signs pass as digits, and a text of six bytes whose characters do not begin at
even bytes makes `hex` panic. -/
theorem C134_hex_violated :
    hex c!"F00" = some (.rgb ⟨0, 0, 0⟩) ∧ hex c!"FF0000FF" = some (.rgb ⟨0, 0, 0⟩) ∧
    hex c!"FFXXFF" = some (.rgb ⟨255, 0, 255⟩) ∧ hex c!"+F+F+F" = some (.rgb ⟨15, 15, 15⟩) ∧
    hex c!"aééa" = none := by
  decide +kernel

/-! ### Presentations -/

/-- The elements of a slide without content. -/
def plainSlideTree (slideTitle : Str) : Node :=
  E c!"p:sld" [(c!"xmlns:a", c!"http://schemas.openxmlformats.org/drawingml/2006/main"), (c!"xmlns:r",
  c!"http://schemas.openxmlformats.org/officeDocument/2006/relationships"), (c!"xmlns:p",
  c!"http://schemas.openxmlformats.org/presentationml/2006/main")] [nl, E c!"p:cSld" [] [nl, E c!"p:spTree" []
  [nl, E c!"p:nvGrpSpPr" [] [nl, E c!"p:cNvPr" [(c!"id", c!"1"), (c!"name", c!"")] [], nl, E c!"p:cNvGrpSpPr" []
  [], nl, E c!"p:nvPr" [] [], nl], nl, E c!"p:grpSpPr" [] [nl, E c!"a:xfrm" [] [nl, E c!"a:off" [(c!"x", c!"0"),
  (c!"y", c!"0")] [], nl, E c!"a:ext" [(c!"cx", c!"0"), (c!"cy", c!"0")] [], nl, E c!"a:chOff" [(c!"x", c!"0"),
  (c!"y", c!"0")] [], nl, E c!"a:chExt" [(c!"cx", c!"0"), (c!"cy", c!"0")] [], nl], nl], nl, E c!"p:sp" [] [nl,
  E c!"p:nvSpPr" [] [nl, E c!"p:cNvPr" [(c!"id", c!"2"), (c!"name", c!"Title 1")] [], nl, E c!"p:cNvSpPr" []
  [nl, E c!"a:spLocks" [(c!"noGrp", c!"1")] [], nl], nl, E c!"p:nvPr" [] [nl, E c!"p:ph" [(c!"type",
  c!"ctrTitle")] [], nl], nl], nl, E c!"p:spPr" [] [], nl, E c!"p:txBody" [] [nl, E c!"a:bodyPr" [] [], nl, E
  c!"a:lstStyle" [] [], nl, E c!"a:p" [] [nl, E c!"a:r" [] [nl, E c!"a:rPr" [(c!"lang", c!"en-US")] [], nl, E
  c!"a:t" [] (addText [] slideTitle), nl], nl, E c!"a:endParaRPr" [(c!"lang", c!"en-US")] [], nl], nl], nl],
  nl], nl], nl, E c!"p:clrMapOvr" [] [nl, E c!"a:masterClrMapping" [] [], nl], nl]

set_option maxRecDepth 8000 in
/-- A slide without content is a document with one box that holds the title. (Partial: the title is not
escaped and has no markup.) -/
theorem C134_plain_slide_partial (n : Nat) {title : Str} (h : Plain title) :
    ∃ doc, document (plainSlideXml n title) = some doc ∧
      boxes doc = [(some c!"Title 1", [if n = 1 then title else c!"Slide " ++ dec n])] := by
  have hp : Plain (plainTitle n title) := by
    unfold plainTitle
    split
    · exact h
    · obtain ⟨a, b, c⟩ := plain_dec n
      refine ⟨?_, ?_, ?_⟩ <;> simp [*]
  have key : ∀ t : Str, Plain t → ∃ doc, document (xmlDecl ++ fmt (plainSlideBody t)) = some doc ∧
      boxes doc = [(some c!"Title 1", [t])] := by
    intro t ht
    refine ⟨[plainSlideTree t], document_decl ((Splits.lit (by unfold plainSlideBody; parts_ok)).readsNodes (by krfl)) ⟨_, rfl⟩, ?_⟩
    cases t with
    | nil => krfl
    | cons a l => exact Eq.trans (b := [(some c!"Title 1", [(a :: l) ++ []])]) (by krfl) (by simp)
  exact key _ hp

/-- **C134 does not hold in full.** `create_pptx` does not use the title on the slides: the first one always
says "Presentation", and the others their number; the properties of the document list the first one as
"Slide 1". -/
theorem C134_title_violated :
    (∀ a b n, createPptx a n = createPptx b n) ∧
    (∃ doc, (createPptx c!"Annual report" 1)[0]?.bind document = some doc ∧
      boxes doc = [(some c!"Title 1", [c!"Presentation"])]) ∧
    listedTitles none 1 = [c!"Slide 1"] := by
  refine ⟨fun _ _ _ => rfl, ?_, by decide +kernel⟩
  obtain ⟨doc, h1, h2⟩ := C134_plain_slide_partial 1 (title := c!"Presentation") (by unfold Plain; decide +kernel)
  refine ⟨doc, ?_, by rw [h2, if_pos rfl]⟩
  have e : (createPptx c!"Annual report" 1)[0]? = some (plainSlideXml 1 c!"Presentation") := by
    unfold createPptx
    rw [List.getElem?_map, List.getElem?_range (by decide)]
    rfl
  rw [e, Option.bind_some, h1]

/-- **C134 does not hold in full.** The title of a slide without content is written as it is, so that a title
with markup makes the slide unreadable. -/
theorem C134_plain_escape_violated : document (plainSlideXml 1 c!"R&D < 5") = none := by
  decide +kernel

/-- Every slide of `create_pptx` but the first shows its number. -/
theorem C134_numbered (title : Str) (count i : Nat) (h : i + 1 < count) :
    ∃ doc, ((createPptx title count)[i + 1]?).bind document = some doc ∧
      boxes doc = [(some c!"Title 1", [c!"Slide " ++ dec (i + 2)])] := by
  have e : (createPptx title count)[i + 1]? = some (plainSlideXml (i + 1 + 1) c!"Presentation") := by
    unfold createPptx
    rw [List.getElem?_map, List.getElem?_range h]
    rfl
  rw [e]
  obtain ⟨doc, h1, h2⟩ := C134_plain_slide_partial (i + 2) (title := c!"Presentation") (by unfold Plain; decide +kernel)
  refine ⟨doc, by rw [Option.bind_some, h1], ?_⟩
  rw [h2, if_neg (by omega)]

/-- What a call adds: a slide with the given title and lines and no shapes, the given slide, or a slide with
the given title and shapes. -/
def AddsSlide : QuickCall → QuickSlide → Prop
  | .slide t l, s => ShowsLines s.text (t, l) ∧ s.shapes = []
  | .titleSlide t, s => ShowsLines s.text (t, []) ∧ s.shapes = []
  | .content c, s => s = c
  | .shapes t l, s => ShowsLines s.text (t, []) ∧ s.shapes = l

theorem adds_slides (calls : List QuickCall) : ∀ acc : List QuickSlide, ∃ l,
    calls.foldl QuickCall.run acc = acc ++ l ∧ l.length = calls.length ∧
    ∀ (i : Nat) c, calls[i]? = some c → ∃ s, l[i]? = some s ∧ AddsSlide c s := by
  have hnew : ∀ t, ShowsLines (SlideText.new t) (t, []) := fun t => shows_bullets t []
  induction calls with
  | nil => exact fun acc => ⟨[], by simp, rfl, by simp⟩
  | cons c r ih =>
    intro acc
    obtain ⟨s, h1, h2⟩ : ∃ s, QuickCall.run acc c = acc ++ [s] ∧ AddsSlide c s := by
      cases c with
      | slide t l => exact ⟨_, rfl, shows_bullets t l, rfl⟩
      | titleSlide t => exact ⟨_, rfl, hnew t, rfl⟩
      | content s => exact ⟨_, rfl, rfl⟩
      | shapes t l => exact ⟨_, rfl, hnew t, rfl⟩
    obtain ⟨l, h3, h4, h5⟩ := ih (acc ++ [s])
    refine ⟨s :: l, by simp [List.foldl_cons, h1, h3], by simp [h4], ?_⟩
    intro i d hd
    cases i with
    | zero =>
      simp only [List.getElem?_cons_zero, Option.some.injEq] at hd
      subst hd
      exact ⟨s, rfl, h2⟩
    | succ i => exact h5 i d (by simpa using hd)

/-- The quick builder adds one slide for every call, in order, with what the call says; without calls nothing
is given to the generator of slides. -/
theorem C134_builder (calls : List QuickCall) :
    (quickBuild calls = none ↔ calls = []) ∧
    ∀ l, quickBuild calls = some l → l.length = calls.length ∧
      ∀ (i : Nat) c, calls[i]? = some c → ∃ s, l[i]? = some s ∧ AddsSlide c s := by
  obtain ⟨l, h1, h2, h3⟩ := adds_slides calls []
  have e : quickBuild calls = if l = [] then none else some l := by
    unfold quickBuild
    rw [h1]
    rfl
  have hl : l = [] ↔ calls = [] := by rw [← List.length_eq_zero_iff, h2, List.length_eq_zero_iff]
  constructor
  · rw [e, ← hl]
    by_cases h : l = [] <;> simp [h]
  · intro m hm
    rw [e] at hm
    split at hm
    · cases hm
    · injection hm with hm
      subst hm
      exact ⟨h2, h3⟩

example : (quickBuild [.titleSlide c!"Hi", .slide c!"A" [c!"b"], .shapes c!"S" [(Figure.mRect (.fin 1) (.fin 1) (.fin 1) (.fin 1)).shape]]).isSome = true := by
  decide +kernel

end PptRs.Props
