import Verif.Lemmas.Bright
import Verif.Lemmas.DrawingOrder
import Verif.Props.Color
import Verif.Props.RepairLines
import Verif.Props.HtmlSafe

/-!
# Drawings on slides: C92–C97
-/

namespace PptRs.Spec

open PptRs

/-- The colour of the text of a shape: that of its first run. -/
def readTextColor (k : Node) : Option Str :=
  pathAttr [c!"p:txBody", c!"a:p", c!"a:r", c!"a:rPr", c!"a:solidFill", c!"a:srgbClr"] c!"val" k

/-- The brightness of a colour in thousandths, from 0 for black to 255000 for white (ITU-R BT.601). -/
def brightness (r g b : UInt8) : Nat := 299 * r.toNat + 587 * g.toNat + 114 * b.toNat

end PptRs.Spec

namespace PptRs.Props

open PptRs PptRs.Spec PptRs.Draw

/-! ### C92: drawings read back -/

/-- **C92** (partial: the colours, the relationship ids and the colours of the highlighter contain no
`&`, `<` or `"`, and writing does not stop with a panic; see the theorems below). The document of a
slide has, after the shapes that it has without the drawing, the shapes and then the code blocks,
and likewise the pictures, the connectors and the charts, in order and with the values that were
set. -/
theorem C92_drawing_reads_back_partial {fontSize : Str → Nat → Nat → Nat}
    {highlight : Option (Str → Str → List (List Segment))} {s : SlideText} {d : Drawing} {rids : List Str}
    (hs : s.Safe) (hd : d.Safe highlight rids) (e : d.xml fontSize highlight rids = some s.extra) :
    ∃ doc doc0, document s.xml = some doc ∧ document { s with extra := [] }.xml = some doc0 ∧
      (drawn c!"p:sp" doc).map readShape
        = (drawn c!"p:sp" doc0).map readShape ++ d.expectedShapes ++ d.expectedCode highlight ∧
      (drawn c!"p:pic" doc).map readPicture = (drawn c!"p:pic" doc0).map readPicture ++ d.expectedPictures ∧
      (drawn c!"p:cxnSp" doc).map readConnector
        = (drawn c!"p:cxnSp" doc0).map readConnector ++ d.expectedConnectors ∧
      (drawn c!"p:graphicFrame" doc).map readChart
        = (drawn c!"p:graphicFrame" doc0).map readChart ++ d.expectedCharts rids := by
  obtain ⟨X, h1, h2⟩ := drawing_reads hd e
  have hs0 : SlideText.Safe { s with extra := [] } := ⟨hs.1, hs.2, hs.3, hs.4, hs.5⟩
  refine ⟨_, _, document_slide hs h1.readsAs, document_slide hs0 (ReadsNodes.readsAs readsNodes_nil), ?_⟩
  have e0 : ∀ n, n ≠ c!"p:nvGrpSpPr" → n ≠ c!"p:grpSpPr" →
      drawn n [slideNode s.shapeNodes X s.transition.nodes]
        = drawn n [slideNode s.shapeNodes [] s.transition.nodes] ++ named n X := by
    intro n n1 n2
    rw [drawn_slide _ _ _ n1 n2, drawn_slide _ _ _ n1 n2]
    simp [named]
  refine ⟨?_, ?_, ?_, ?_⟩
  · rw [e0 _ (by decide) (by decide), List.map_append, h2.shapes, List.append_assoc]
    rfl
  · rw [e0 _ (by decide) (by decide), List.map_append, h2.pictures]
    rfl
  · rw [e0 _ (by decide) (by decide), List.map_append, h2.connectors]
    rfl
  · rw [e0 _ (by decide) (by decide), List.map_append, h2.charts]
    rfl

/-- A shape. -/
def someShape : Shape where
  kind := .ellipse
  x := 1
  y := 2
  width := 3
  height := 4
  fill := some (.new c!"#ff0000")
  text := some c!"a < b"
  rotation := some (-45)

/-- A drawing with an object of every sort. -/
def someDrawing : Drawing where
  shapes := [someShape]
  pictures := [{ filename := c!"a&b.png", x := 5, y := 6, width := 7, height := 8 }]
  connectors := [{ kind := .elbow, startX := 100, startY := 20, endX := 30, endY := 40 }]
  charts := [⟨9, 10, 11, 12⟩]

/-- Not vacuous. -/
example : someDrawing.Safe none [c!"rId3"] ∧
    (someDrawing.xml (fun _ _ _ => 1800) none [c!"rId3"]).isSome = true := by
  refine ⟨⟨?_, ?_, ?_, ?_⟩, by decide +kernel⟩
  · intro s hs
    simp only [someDrawing, List.mem_cons, List.not_mem_nil, or_false] at hs
    subst hs
    refine ⟨?_, by simp [someShape], by simp [someShape], by simp [someShape]⟩
    intro f hf
    cases hf
    exact plain_cleanColor (plain_of (by decide))
  · intro c hc
    simp only [someDrawing, List.mem_cons, List.not_mem_nil, or_false] at hc
    subst hc
    exact ⟨by decide, by decide, by decide, by decide, plain_of (by decide)⟩
  · intro r hr
    simp only [List.mem_cons, List.not_mem_nil, or_false] at hr
    subst hr
    exact plain_of (by decide)
  · simp

theorem isDark_some {c : Str} (h : AllAscii c) : (isDark c).isSome = true := by
  unfold isDark
  have ha : AllAscii (trimStartChar '#' c) := fun x hx => h x (mem_trimStartChar hx)
  generalize trimStartChar '#' c = s at ha
  simp only
  split
  · rfl
  · rename_i hl
    rw [utf8Len_ascii ha] at hl
    obtain ⟨x, hx⟩ := Option.isSome_iff_exists.mp (byteSlice_some ha (a := 0) (b := 2) (by omega) (by omega))
    obtain ⟨y, hy⟩ := Option.isSome_iff_exists.mp (byteSlice_some ha (a := 2) (b := 4) (by omega) (by omega))
    obtain ⟨z, hz⟩ := Option.isSome_iff_exists.mp (byteSlice_some ha (a := 4) (b := 6) (by omega) (by omega))
    rw [hx, hy, hz]
    rfl

/-- A drawing that is written without a panic: the fill colours of shapes are ASCII, the rotations and
the angles of gradients fit. -/
structure Writable (d : Drawing) : Prop where
  color : ∀ s ∈ d.shapes, ∀ f ∈ s.fill, AllAscii f.color
  rotation : ∀ s ∈ d.shapes, ∀ r ∈ s.rotation, -35791 ≤ r ∧ r ≤ 35791
  angle : ∀ s ∈ d.shapes, ∀ g ∈ s.gradient, g.direction.degrees ≤ 71582

theorem shape_written (fontSize : Str → Nat → Nat → Nat) {s : Shape} (id : Nat)
    (h1 : ∀ f ∈ s.fill, AllAscii f.color) (h2 : ∀ r ∈ s.rotation, -35791 ≤ r ∧ r ≤ 35791)
    (h3 : ∀ g ∈ s.gradient, g.direction.degrees ≤ 71582) : (shapeXml fontSize s id).isSome = true := by
  have e1 : ∃ x, shapeFillXml s = some x := by
    unfold shapeFillXml
    cases hg : s.gradient with
    | none => exact ⟨_, rfl⟩
    | some g =>
      have := h3 g hg
      simp only [gradientXml]
      cases hd : g.direction with
      | angle n =>
        rw [hd] at this
        simp only [GradientDirection.degrees] at this
        have hn : n * 60000 < 4294967296 := by omega
        refine ⟨gradientText g.stops (n * 60000), ?_⟩
        rw [show GradientDirection.toAngle (.angle n) = some (n * 60000) from if_pos hn]
        rfl
      | _ => exact ⟨_, rfl⟩
  have e2 : ∃ x, textXml fontSize s.text s.width s.height (s.fill.map (·.color)) = some x := by
    unfold textXml
    cases s.text with
    | none => exact ⟨_, rfl⟩
    | some t =>
      simp only
      split
      · exact ⟨_, rfl⟩
      · cases hf : s.fill with
        | none => exact ⟨_, rfl⟩
        | some f =>
          obtain ⟨b, hb⟩ := Option.isSome_iff_exists.mp (isDark_some (h1 f hf))
          rw [show textColor (Option.map (·.color) (some f)) = (isDark f.color).map
              (fun d => if d then c!"FFFFFF" else c!"000000") from rfl, hb]
          exact ⟨_, rfl⟩
  have e3 : ∃ x, rotAttr s.rotation = some x := by
    cases hr : s.rotation with
    | none => exact ⟨_, rfl⟩
    | some r =>
      obtain ⟨a, b⟩ := h2 r hr
      exact ⟨_, if_pos ⟨by omega, by omega⟩⟩
  obtain ⟨x, hx⟩ := e1
  obtain ⟨y, hy⟩ := e2
  obtain ⟨z, hz⟩ := e3
  rw [shapeXml, hx, Option.bind_some, hy, Option.bind_some, hz]
  rfl

/-- **C92** (partial: ASCII colours, and rotations and angles whose value in 60000ths of a degree fits
into 32 bits). Writing a drawing does not panic. -/
theorem C92_written_partial (fontSize : Str → Nat → Nat → Nat)
    (highlight : Option (Str → Str → List (List Segment))) {d : Drawing} (h : Writable d) (rids : List Str) :
    (d.xml fontSize highlight rids).isSome = true := by
  unfold Drawing.xml
  rw [Option.isSome_map]
  have : ∀ l : List Shape, (∀ s ∈ l, s ∈ d.shapes) → ∀ i, (shapesXml fontSize i l).isSome = true := by
    intro l
    induction l with
    | nil => intro _ _; rfl
    | cons s l ih =>
      intro hl i
      have hs := hl s (by simp)
      obtain ⟨x, hx⟩ := Option.isSome_iff_exists.mp (shape_written fontSize (s.id.getD (i + 10)) (h.color s hs)
        (h.rotation s hs) (h.angle s hs))
      obtain ⟨y, hy⟩ := Option.isSome_iff_exists.mp (ih (fun a ha => hl a (by simp [ha])) (i + 1))
      rw [shapesXml, hx, Option.bind_some, hy]
      rfl
  exact this d.shapes (fun _ hs => hs) 0

/-- Not vacuous. -/
example : Writable someDrawing := by
  refine ⟨?_, ?_, ?_⟩
  · intro s hs f hf
    simp only [someDrawing, List.mem_cons, List.not_mem_nil, or_false] at hs
    subst hs
    cases hf
    show ∀ c ∈ (ShapeFill.new c!"#ff0000").color, c.toNat < 128
    decide
  · intro s hs r hr
    simp only [someDrawing, List.mem_cons, List.not_mem_nil, or_false] at hs
    subst hs
    cases hr
    decide
  · intro s hs g hg
    simp only [someDrawing, List.mem_cons, List.not_mem_nil, or_false] at hs
    subst hs
    cases hg

/-- A fill colour whose first character is longer than two bytes makes writing a shape with text panic
(`is_dark_color` slices the text at bytes 2 and 4). -/
theorem C92_color_crash_violated (fontSize : Str → Nat → Nat → Nat) (s : Shape) (id : Nat) (t : Str)
    (h1 : s.text = some t) (h2 : isCode t = false) (h3 : s.fill = some (.new c!"€€")) :
    shapeXml fontSize s id = none := by
  have e : textXml fontSize s.text s.width s.height (s.fill.map (·.color)) = none := by
    unfold textXml
    rw [h1, h3]
    simp only [h2, Bool.false_eq_true, if_false]
    rw [show textColor (Option.map (fun x => x.color) (some (ShapeFill.new c!"€€"))) = none from by decide +kernel]
    rfl
  rw [shapeXml, e]
  cases shapeFillXml s <;> rfl

/-- A rotation above 35791 degrees overflows. -/
theorem C92_rotation_overflow_violated (fontSize : Str → Nat → Nat → Nat) (s : Shape) (id : Nat) (r : Int)
    (h : s.rotation = some r) (hr : 35792 ≤ r) : shapeXml fontSize s id = none := by
  have e : rotAttr s.rotation = none := by
    rw [h]
    exact if_neg (by omega)
  rw [shapeXml, e]
  cases shapeFillXml s <;> cases textXml fontSize s.text s.width s.height (s.fill.map (·.color)) <;> rfl

/-- The angle of a gradient above 71582 degrees overflows. -/
theorem C92_angle_overflow_violated (fontSize : Str → Nat → Nat → Nat) (s : Shape) (id : Nat) (g : GradientFill) (n : Nat)
    (h : s.gradient = some g) (hd : g.direction = .angle n) (hn : 71583 ≤ n) : shapeXml fontSize s id = none := by
  have e : shapeFillXml s = none := by
    unfold shapeFillXml gradientXml
    rw [h]
    simp only
    rw [hd, show GradientDirection.toAngle (.angle n) = none from if_neg (by omega)]
    rfl
  rw [shapeXml, e]
  rfl

/-- A shape with a colour that contains markup. -/
def markupShape : Shape where
  kind := .rectangle
  x := 0
  y := 0
  width := 1
  height := 1
  fill := some (.new c!"<")

/-- Colours are written without escaping: the slide cannot be read. -/
theorem C92_color_violated : ∃ s : SlideText, s.title = c!"T" ∧
    Drawing.xml (fun _ _ _ => 1800) none { shapes := [markupShape] } [] = some s.extra ∧ document s.xml = none :=
  ⟨{ title := c!"T"
     extra := (Drawing.xml (fun _ _ _ => 1800) none { shapes := [markupShape] } []).getD [] }, rfl, by krfl, by krfl⟩

/-- **C92**, the text of shapes. The paragraphs of a shape, joined by line feeds, are its text, unless
the text looks like code and has a carriage return or ends with a line feed. -/
theorem C92_shape_text {s : Shape} {t : Str} (h : s.text = some t) (id : Nat)
    (ht : isCode t = true → '\r' ∉ t ∧ t.getLast? ≠ some '\n') :
    joinStr c!"\n" (s.expected id).paragraphs = t := by
  have e : (s.expected id).paragraphs = if isCode t then strLines t else [t] := by
    unfold Shape.expected
    rw [h]
  rw [e]
  split
  · rename_i hc
    obtain ⟨h1, h2⟩ := ht hc
    have hne := splitChar_ne_nil '\n' t
    have hl : (splitChar '\n' t).getLast hne ≠ [] := by
      intro hl
      have hj := joinStr_splitChar '\n' t
      have hd := List.dropLast_concat_getLast hne
      rw [hl] at hd
      cases hi : (splitChar '\n' t).dropLast with
      | nil =>
        rw [hi] at hd
        rw [← hd] at hj
        subst hj
        cases hc
      | cons x xs =>
        rw [hi] at hd
        rw [← hd, List.cons_append, joinStr_flatMap, List.flatMap_append] at hj
        apply h2
        rw [← hj]
        simp
    rw [← joinStr_splitChar '\n' t, strLines_joinStr hne (fun x hx => notMem_of_mem_splitChar hx) ?_ hl,
      joinStr_splitChar]
    intro x hx hr
    exact h1 (mem_of_mem_pieces hx (List.mem_of_getLast? hr))
  · rfl

/-- Not vacuous. -/
example : isCode c!"[rust]\nfn main() {}" = true ∧ '\r' ∉ c!"[rust]\nfn main() {}" ∧
    (c!"[rust]\nfn main() {}").getLast? ≠ some '\n' := by decide

/-- **C92**, fills: the fill or gradient that was set last is the one read. -/
theorem C92_fill (s : Shape) (f : ShapeFill) (g : GradientFill) (id : Nat) :
    ((s.withFill f).expected id).fill = .solid (some f.color) (f.alpha.map dec) ∧
    ((s.withGradient g).expected id).fill = .gradient
      (g.stops.map fun x => (some (dec x.position), some x.color, x.alpha.map dec)) (some (dec (g.direction.degrees * 60000))) :=
  ⟨rfl, rfl⟩

/-- **C92**, links: the actions are those of the file format for jumps in a show (ECMA-376 21.1.2.3.5); other links
have none. -/
theorem C92_actions : [HyperlinkAction.firstSlide, .lastSlide, .nextSlide, .previousSlide, .endShow].map actionType
      = [c!"firstslide", c!"lastslide", c!"nextslide", c!"previousslide", c!"endshow"].map
          (fun j => some (c!"ppaction://hlinkshowjump?jump=" ++ j)) ∧
    ∀ u, actionType (.url u) = none := ⟨rfl, fun _ => rfl⟩

/-- **C92**, the place of text: text of one line is centred in both directions, other text starts at the top
left. -/
theorem C92_text_place {fontSize : Str → Nat → Nat → Nat} {t : Str} {w h : Nat} {fill : Option Str} {ps : List Part}
    (hc : isCode t = false) (hp : textXml fontSize (some t) w h fill = some ps) :
    ∃ k, ReadsNodes ps [k] ∧
      pathAttr [c!"a:bodyPr"] c!"anchor" k = some (if '\n' ∈ t then c!"t" else c!"ctr") ∧
      pathAttr [c!"a:p", c!"a:pPr"] c!"algn" k = some (if '\n' ∈ t then c!"l" else c!"ctr") := by
  simp only [textXml, hc, Bool.false_eq_true, if_false, Option.map_eq_some_iff] at hp
  obtain ⟨c, hcol, rfl⟩ := hp
  by_cases hn : '\n' ∈ t
  · simp only [List.contains_iff_mem, hn, if_true]
    exact ⟨_, (readsTagged_plainText (plain_textColor hcol) (plain_of (by decide)) (plain_of (by decide))).nodes, by krfl, by krfl⟩
  · simp only [List.contains_iff_mem, hn, if_false]
    exact ⟨_, (readsTagged_plainText (plain_textColor hcol) (plain_of (by decide)) (plain_of (by decide))).nodes, by krfl, by krfl⟩

/-- Not vacuous. -/
example : isCode c!"a\nb" = false ∧ (textXml (fun _ _ _ => 18) (some c!"a\nb") 1 1 none).isSome := by decide +kernel

/-- A text that looks like code loses its last line feed. -/
theorem C92_code_text_violated : ∃ s : Shape, s.text = some c!"[rust]\nx\n" ∧
    ∀ id, joinStr c!"\n" (s.expected id).paragraphs = c!"[rust]\nx" :=
  ⟨{ kind := .rectangle, x := 0, y := 0, width := 1, height := 1, text := some c!"[rust]\nx\n" }, rfl, fun _ => rfl⟩

/-- Other text is written as a single paragraph, whatever lines it has. -/
theorem C92_lines_violated {s : Shape} {t : Str} (h : s.text = some t) (hc : isCode t = false) (id : Nat) :
    (s.expected id).paragraphs = [t] := by
  unfold Shape.expected
  rw [h]
  simp [hc]

/-- Without the optional highlighter the code of a code block is not in a paragraph: a reader that
follows the file format finds no text in it. -/
theorem C92_code_block_violated (b : CodeBlock) (id : Nat) : (b.expected none id).paragraphs = [] := rfl

/-- With a highlighter the paragraphs are its lines; a line without segments is shown as a space. -/
theorem C92_code_block (b : CodeBlock) (id : Nat) (f : Str → Str → List (List Segment)) :
    (b.expected (some f) id).paragraphs
      = (f b.code b.language).map fun l => if l = [] then c!" " else l.flatMap (·.text) := rfl

/-! ### C93: connectors -/

/-- **C93** (partial: the colour contains no markup; coordinates are 32-bit values). A connector of a
slide is read with the end points that were set, whichever way it runs. -/
theorem C93_connector_ends_partial {c : Connector} (h : c.Safe) (id : Nat) :
    ∃ k, ReadsNodes (connectorXml c id) [k] ∧ connectorEnds k = some ((c.startX, c.startY), (c.endX, c.endY)) ∧
      readConnector k = c.expected id :=
  ⟨_, (readsTagged_connector h.color id).nodes, connectorEnds_node id h, readConnector_node h id⟩

/-- **C93.** The kinds of connectors, arrows, sizes and dashes are written under their names in the file
format. -/
theorem C93_names :
    (∀ k n, (k, n) ∈ connectorNames → k.presetName = n) ∧ (∀ k, ∃ n ∈ presets, (k, n) ∈ connectorNames) ∧
    (∀ a n, (a, n) ∈ arrowNames → a.xml = n) ∧ (∀ a, ∃ n ∈ lineEnds, (a, n) ∈ arrowNames) ∧
    (∀ a n, (a, n) ∈ sizeNames → a.xml = n) ∧ (∀ a, ∃ n ∈ lineEndSizes, (a, n) ∈ sizeNames) ∧
    (∀ a n, (a, n) ∈ dashNames → a.xml = n) ∧ (∀ a, ∃ n ∈ presetDashes, (a, n) ∈ dashNames) := by
  refine ⟨?_, ?_, ?_, ?_, ?_, ?_, ?_, ?_⟩
  · intro k n h; revert h; cases k <;> simp [connectorNames, ConnectorType.presetName] <;> (intro h; exact h.symm)
  · intro k; cases k <;> decide +kernel
  · intro k n h; revert h; cases k <;> simp [arrowNames, ArrowType.xml] <;> (intro h; exact h.symm)
  · intro k; cases k <;> decide +kernel
  · intro k n h; revert h; cases k <;> simp [sizeNames, ArrowSize.xml] <;> (intro h; exact h.symm)
  · intro k; cases k <;> decide +kernel
  · intro k n h; revert h; cases k <;> simp [dashNames, LineDash.xml] <;> (intro h; exact h.symm)
  · intro k; cases k <;> decide +kernel

/-- The other public writer of connectors (`shapes_xml::generate_connector_xml`) writes no flips: its
connectors always run from the upper left to the lower right, so one that should run the other way
ends in the wrong corners. -/
theorem C93_plain_connector_violated {color : Str} (h : Plain (cleanColor color)) {sx sy ex ey : Nat}
    (h1 : sx < 4294967296) (h2 : sy < 4294967296) (h3 : ex < 4294967296) (h4 : ey < 4294967296) (id width : Nat) :
    ∃ k, ReadsNodes (plainConnectorXml sx sy ex ey id color width) [k] ∧
      connectorEnds k = some ((min sx ex, min sy ey), (max sx ex, max sy ey)) := by
  refine ⟨_, (readsTagged_plainConnector sx sy ex ey id h width).nodes, ?_⟩
  have hx : min sx ex < 4294967296 := by omega
  have hy : min sy ey < 4294967296 := by omega
  have hw : absDiff ex sx < 4294967296 := by unfold absDiff; split <;> omega
  have hh : absDiff ey sy < 4294967296 := by unfold absDiff; split <;> omega
  have e : connectorEnds (plainConnectorNode sx sy ex ey id color width)
      = (parseU32? (dec (min sx ex))).bind fun x => (parseU32? (dec (min sy ey))).bind fun y =>
        (parseU32? (dec (absDiff ex sx))).bind fun cx => (parseU32? (dec (absDiff ey sy))).map fun cy =>
          ((x, y), (x + cx, y + cy)) := by krfl
  rw [e, parseU32_dec hx, parseU32_dec hy, parseU32_dec hw, parseU32_dec hh]
  simp only [Option.bind_some, Option.map_some, min_add_absDiff]

/-- Not vacuous: a connector from the lower left to the upper right is read as one from the upper left to
the lower right. -/
example : min 10 30 = 10 ∧ min 40 20 = 20 ∧ ((10, 40), (30, 20)) ≠ ((10, 20), (30, 40)) := by decide

/-- The connection sites of rectangles and most other shapes are numbered top, left, bottom, right;
the library numbers left and right the other way round. -/
theorem C93_left_right_violated :
    rectSites[ConnectionSite.left.index]? = some .right ∧ rectSites[ConnectionSite.right.index]? = some .left := by
  decide

/-- The corner and centre sites do not exist. -/
theorem C93_corners_violated (s : ConnectionSite)
    (h : s ∈ [ConnectionSite.topLeft, .topRight, .bottomLeft, .bottomRight, .center]) : rectSites[s.index]? = none := by
  revert s
  decide

/-- **C93** (partial: only top and bottom). -/
theorem C93_sites_partial : rectSites[ConnectionSite.top.index]? = some .top ∧
    rectSites[ConnectionSite.bottom.index]? = some .bottom := by decide

/-! ### C94: preset geometries -/

/-- **C94** (partial: for the kinds of shapes that are listed). A kind of shape is written as the preset
geometry of the file format that it stands for. -/
theorem C94_presets_partial : ∀ p ∈ presetOf, p.1.presetName = p.2 ∧ p.2 ∈ presets := by
  decide +kernel

/-- **C94** (partial: all kinds but 14 are listed). -/
theorem C94_kinds_partial : ∀ k : ShapeType, k ∈ presetOf.map (·.1) ∨
    k ∈ [ShapeType.flowChartData, .flowChartOffPageConnector, .curvedLeftRightArrow, .curvedUpDownArrow, .pentagonArrow,
      .isoscelesTrapezoid, .cone, .cylinder, .musicNote, .seal, .seal4, .seal8, .seal16, .seal32] := by
  intro k
  cases k <;> decide +kernel

/-- Fourteen kinds of shapes are written with geometries that the file format does not have. -/
theorem C94_presets_violated : ∀ k ∈ [ShapeType.flowChartData, .flowChartOffPageConnector, .curvedLeftRightArrow,
      .curvedUpDownArrow, .pentagonArrow, .isoscelesTrapezoid, .cone, .cylinder, .musicNote, .seal, .seal4, .seal8,
      .seal16, .seal32], k.presetName ∉ presets := by
  decide +kernel

/-- **C94.** Different kinds of shapes have different geometries, except that a circle is an ellipse. -/
theorem C94_distinct (a b : ShapeType) (h : a.presetName = b.presetName) :
    a = b ∨ (a ∈ [ShapeType.ellipse, .circle] ∧ b ∈ [ShapeType.ellipse, .circle]) := by
  have key : ∀ a ∈ ShapeType.all, ∀ b ∈ ShapeType.all, a.presetName = b.presetName →
      a = b ∨ (a ∈ [ShapeType.ellipse, .circle] ∧ b ∈ [ShapeType.ellipse, .circle]) := by
    decide +kernel
  have all : ∀ a : ShapeType, a ∈ ShapeType.all := by
    intro a
    cases a <;> decide +kernel
  exact key a (all a) b (all b) h

/-! ### C95: the order of elements -/

/-- **C95** (partial: without the transition `reveal`, and for drawings without text that looks like
code, gradients with less than two stops, effects out of order, labels on connectors and code blocks
without a highlighter). Every element of a slide has its child elements as the schemas of the file
format require: in the right order, none missing, none too often. -/
theorem C95_schema_order_partial {fontSize : Str → Nat → Nat → Nat}
    {highlight : Option (Str → Str → List (List Segment))} {s : SlideText} {d : Drawing} {rids : List Str}
    (hs : s.Safe) (ht : s.transition ≠ .reveal) (hd : d.Safe highlight rids) (hw : d.Tidy highlight)
    (e : d.xml fontSize highlight rids = some s.extra) :
    ∃ k, document s.xml = some [k] ∧ ordered k = true := by
  obtain ⟨X, h1, h2⟩ := objects_drawing hd hw e
  exact ⟨_, document_slide hs h1.readsAs, ordered_slide (objects_slideText s) h2 ht⟩

/-- Not vacuous: the drawing of the example above satisfies the conditions. -/
example : someDrawing.Tidy none := by
  refine ⟨?_, ?_, ?_, ?_, ?_⟩
  · intro s hs t ht
    simp only [someDrawing, List.mem_cons, List.not_mem_nil, or_false] at hs
    subst hs
    cases ht
    decide
  · intro s hs g hg
    simp only [someDrawing, List.mem_cons, List.not_mem_nil, or_false] at hs
    subst hs
    cases hg
  · intro p hp
    simp only [someDrawing, List.mem_cons, List.not_mem_nil, or_false] at hp
    subst hp
    exact List.nil_sublist _
  · intro c hc
    simp only [someDrawing, List.mem_cons, List.not_mem_nil, or_false] at hc
    subst hc
    rfl
  · intro b hb
    cases hb

/-- The specification tells orders apart: run properties with the font before the fill are out of
order. -/
example : ordered (E c!"a:rPr" [] [E c!"a:solidFill" [] [], E c!"a:latin" [] []]) = true ∧
    ordered (E c!"a:rPr" [] [E c!"a:latin" [] [], E c!"a:solidFill" [] []]) = false ∧
    ordered (E c!"a:r" [] [E c!"a:rPr" [] []]) = false := by decide +kernel

theorem not_ordered_of_kid {n : Str} {as : List (Str × Str)} {ks : List Node} {k : Node} (hk : k ∈ ks)
    (h : ordered k = false) : ordered (.elem n as ks) = false := by
  have : orderedL ks = false := by
    induction ks with
    | nil => cases hk
    | cons a ks ih =>
      rw [orderedL]
      rcases List.mem_cons.mp hk with rfl | hk
      · rw [h]; rfl
      · rw [ih hk]; exact Bool.and_false _
  rw [ordered, this]
  exact Bool.and_false _

/-- The label of a connector is written as a text body, which connectors cannot have. -/
theorem C95_label_violated {c : Connector} {l : Str} (h : Plain c.line.color) (hl : c.label = some l) (id : Nat) :
    ∃ k, ReadsNodes (connectorXml c id) [k] ∧ ordered k = false := by
  refine ⟨_, (readsTagged_connector h id).nodes, ?_⟩
  unfold connectorNode
  rw [hl]
  krfl

/-- The picture effects are written in the order in which they were added; the schema prescribes one. -/
theorem C95_effects_violated {p : Picture} (h : p.effects = [.shadow, .glow]) (id rel : Nat) :
    ∃ k, ReadsNodes (pictureXml p id rel) [k] ∧ ordered k = false := by
  refine ⟨_, (readsTagged_picture p id rel).nodes, ?_⟩
  unfold pictureNode
  rw [h]
  cases p.crop <;> krfl

/-- Without the highlighter the text of a code block is written directly into the text body. -/
theorem C95_code_block_violated (b : CodeBlock) (id : Nat) :
    ∃ k, ReadsNodes (codeBlockXml none id b) [k] ∧ ordered k = false := by
  refine ⟨_, (readsTagged_codeBlock (highlight := none) (fun f hf => by cases hf) b id).nodes, ?_⟩
  krfl

/-- Text that looks like code is written with the font before the fill. -/
theorem C95_code_text_violated {fontSize : Str → Nat → Nat → Nat} {s : Shape} {t : Str} (hs : s.Safe)
    (ht : s.text = some t) (hc : isCode t = true) {id : Nat} {ps : List Part} (e : shapeXml fontSize s id = some ps) :
    ∃ k, ReadsNodes ps [k] ∧ ordered k = false := by
  simp only [shapeXml, Option.bind_eq_some_iff, Option.map_eq_some_iff] at e
  obtain ⟨fill, hf, text, htx, rot, hr, rfl⟩ := e
  obtain ⟨b, hb1, hb2⟩ := readsTagged_text htx
  refine ⟨_, (readsTagged_shapeText s (readsTagged_cnvpr hs.link) (readsAttrs_rot hr) (soft_shapeFill hs hf)
    (soft_line hs.line) hb1).nodes, ?_⟩
  have hb : ordered b = false := by
    cases hb2 with
    | none h => rw [h] at ht; cases ht
    | plain h h2 => rw [h] at ht; cases ht; rw [hc] at h2; cases h2
    | code h _ =>
      rw [h] at ht
      cases ht
      have hl : strLines t ≠ [] := by
        intro hl
        have hn : '\n' ∈ t := by
          unfold isCode at hc
          rw [Bool.and_eq_true] at hc
          obtain ⟨a, b, rfl⟩ := containsStr_iff.mp hc.2
          simp
        have h0 : (splitChar '\n' t).dropLast = [] := by
          unfold strLines at hl
          exact List.map_eq_nil_iff.mp (List.append_eq_nil_iff.mp hl).1
        have hne := splitChar_ne_nil '\n' t
        have hd := List.dropLast_concat_getLast hne
        rw [h0, List.nil_append] at hd
        have hj := joinStr_splitChar '\n' t
        have hm := notMem_of_mem_splitChar (List.getLast_mem hne)
        rw [← hd] at hj
        exact hm (by rw [show (splitChar '\n' t).getLast hne = t from hj]; exact hn)
      obtain ⟨x, xs, hx⟩ := List.exists_cons_of_ne_nil hl
      rw [hx]
      refine not_ordered_of_kid (k := codeLineNode x) (by simp) ?_
      krfl
  exact not_ordered_of_kid (k := b) (by simp [lines]) hb

/-- The transition `reveal` is written as an element that the file format does not have. -/
theorem C95_reveal_violated {s : SlideText} {X : List Node} (hs : s.Safe) (hx : ReadsAs (fmt s.extra) X)
    (ht : s.transition = .reveal) : ∃ k, document s.xml = some [k] ∧ ordered k = false := by
  refine ⟨_, document_slide hs hx, ?_⟩
  rw [ht]
  refine not_ordered_of_kid (k := E c!"p:transition" [] [E c!"p:reveal" [(c!"dir", c!"r")] []]) ?_ (by krfl)
  simp [Transition.nodes]

/-- A gradient with less than two stops is written as it is; the file format needs two. -/
theorem C95_stops_violated (l : List GradientStop) (ang : Nat) (h : l.length < 2) :
    ordered (gradientNode l ang) = false := by
  refine not_ordered_of_kid (k := stopsNode l) (by simp [lines]) ?_
  match l, h with
  | [], _ => krfl
  | [x], _ => krfl

/-! ### C96: text is readable on its fill -/

/-- The two text colours. -/
theorem textColor_cases {c col : Str} (h : textColor (some c) = some col) :
    (isDark c = some true ∧ col = c!"FFFFFF") ∨ (isDark c = some false ∧ col = c!"000000") := by
  simp only [textColor, Option.map_eq_some_iff] at h
  obtain ⟨d, h1, rfl⟩ := h
  cases d
  · exact .inr ⟨h1, rfl⟩
  · exact .inl ⟨h1, rfl⟩

theorem isDark_bytes {x y z : Str} {r g b : UInt8} (hx : HexByte x r) (hy : HexByte y g) (hz : HexByte z b) :
    isDark (x ++ y ++ z) = some (darkFloat r g b) := by
  obtain ⟨ax, lx, nx⟩ := ascii_byte hx
  obtain ⟨ay, ly, ny⟩ := ascii_byte hy
  obtain ⟨az, lz, nz⟩ := ascii_byte hz
  have hn : '#' ∉ x ++ y ++ z := by simp [nx, ny, nz]
  have ha : ∀ c ∈ x ++ y ++ z, c.toNat < 128 := by
    intro c hc
    simp only [List.mem_append] at hc
    rcases hc with (hc | hc) | hc
    · exact ax c hc
    · exact ay c hc
    · exact az c hc
  have ht : trimStartChar '#' (x ++ y ++ z) = x ++ y ++ z := trimStart_hashes 0 hn
  have hl : utf8Len (x ++ y ++ z) = 6 := by
    rw [utf8Len_ascii ha]
    simp [lx, ly, lz]
  have s1 : byteSlice (x ++ y ++ z) 0 2 = some x := by
    have := byteSlice_ascii (s := []) (t := x) (u := y ++ z) (a := 0) (b := 2) (by simp) ax rfl lx
    rwa [List.nil_append, ← List.append_assoc] at this
  have s2 : byteSlice (x ++ y ++ z) 2 4 = some y := byteSlice_ascii ax ay lx ly
  have s3 : byteSlice (x ++ y ++ z) 4 6 = some z := by
    have := byteSlice_ascii (s := x ++ y) (t := z) (u := []) (a := 4) (b := 6)
      (fun c hc => ha c (by simp only [List.mem_append] at hc ⊢; exact .inl hc)) az (by simp [lx, ly]) lz
    rwa [List.append_nil] at this
  unfold isDark
  simp only [ht]
  rw [if_neg (by omega), s1, Option.bind_some, s2, Option.bind_some, s3, Option.map_some, parseHex_byte hx,
    parseHex_byte hy, parseHex_byte hz]
  rfl

/-- **C96** (partial: solid fills given by six hexadecimal digits, and text that does not look like
code). The text of a shape is black or white, and differs from its fill in brightness by at least
half of the range. -/
theorem C96_contrast_partial {fontSize : Str → Nat → Nat → Nat} {s : Shape} {t x y z : Str} {r g b : UInt8} {a : Option Nat}
    (hs : s.Safe) (ht : s.text = some t) (hc : isCode t = false) (hf : s.fill = some ⟨x ++ y ++ z, a⟩)
    (hx : HexByte x r) (hy : HexByte y g) (hz : HexByte z b) {id : Nat} {ps : List Part}
    (e : shapeXml fontSize s id = some ps) :
    ∃ k, ReadsNodes ps [k] ∧
      ((readTextColor k = some c!"FFFFFF" ∧ brightness r g b + 127000 ≤ brightness 255 255 255) ∨
       (readTextColor k = some c!"000000" ∧ brightness 0 0 0 + 127000 ≤ brightness r g b)) := by
  simp only [shapeXml, Option.bind_eq_some_iff, Option.map_eq_some_iff] at e
  obtain ⟨fill, hfl, text, htx, rot, hr, rfl⟩ := e
  obtain ⟨bd, hb1, hb2⟩ := readsTagged_text htx
  refine ⟨_, (readsTagged_shapeText s (readsTagged_cnvpr hs.link) (readsAttrs_rot hr) (soft_shapeFill hs hfl)
    (soft_line hs.line) hb1).nodes, ?_⟩
  cases hb2 with
  | none h => rw [h] at ht; cases ht
  | code h h2 => rw [h] at ht; cases ht; rw [hc] at h2; cases h2
  | @plain t' size color anchor align h h2 h3 h4 =>
    rw [hf] at h4
    have hcol : readTextColor (shapeNode (cnvprNode s.link id) (rotAttrs s.rotation) s
        (s.fillNodes ++ s.line.toList.map lineNode) (plainBodyNode t' size color anchor align)) = some color := by
      unfold readTextColor pathAttr
      rw [show shapeNode (cnvprNode s.link id) (rotAttrs s.rotation) s
        (s.fillNodes ++ s.line.toList.map lineNode) (plainBodyNode t' size color anchor align)
        = shapeOf [(c!"id", dec id), (c!"name", c!"Shape " ++ dec id)] (linkKids s.link) _
          (rotAttrs s.rotation) s (s.fillNodes ++ s.line.toList.map lineNode) from rfl, path_text]
      krfl
    rw [hcol]
    have hd := isDark_bytes hx hy hz
    have w : brightness 255 255 255 = 255000 := by decide
    have k0 : brightness 0 0 0 = 0 := by decide
    rw [w, k0]
    rcases textColor_cases h4 with ⟨h5, rfl⟩ | ⟨h5, rfl⟩
    · rw [hd] at h5
      have := (darkFloat_spec r g b).2.1 (Option.some.inj h5)
      exact .inl ⟨rfl, by unfold brightness; omega⟩
    · rw [hd] at h5
      have := (darkFloat_spec r g b).2.2 (Option.some.inj h5)
      exact .inr ⟨rfl, by unfold brightness; omega⟩

/-- Not vacuous. -/
example : HexByte c!"1F" 31 ∧ HexByte c!"4e" 78 ∧ HexByte c!"79" 121 :=
  ⟨⟨'1', 'F', 1, 15, rfl, .inl (by decide), .inr (by decide), by decide⟩,
   ⟨'4', 'e', 4, 14, rfl, .inl (by decide), .inl (by decide), by decide⟩,
   ⟨'7', '9', 7, 9, rfl, .inl (by decide), .inl (by decide), by decide⟩⟩

/-- On a gradient the text is black, however dark the gradient is: the colour is chosen from the solid
fill only, which setting a gradient removes. -/
theorem C96_gradient_violated (s : Shape) (g : GradientFill) :
    textColor ((s.withGradient g).fill.map (·.color)) = some c!"000000" := rfl

/-- Text that looks like code is white, also on a shape without a fill, that is on the white
background of the slide. -/
theorem C96_code_violated (l : Str) :
    pathAttr [c!"a:r", c!"a:rPr", c!"a:solidFill", c!"a:srgbClr"] c!"val" (codeLineNode l) = some c!"FFFFFF" := by
  krfl

/-! ### C97: gradient stops -/

theorem insertStop_perm (s : GradientStop) (l : List GradientStop) : (insertStop s l).Perm (s :: l) := by
  induction l with
  | nil => exact .refl _
  | cons x xs ih =>
    unfold insertStop
    split
    · exact .refl _
    · exact (ih.cons x).trans (.swap s x xs)

theorem insertStop_sorted {s : GradientStop} {l : List GradientStop} (h : l.Pairwise fun a b => a.position ≤ b.position) :
    (insertStop s l).Pairwise fun a b => a.position ≤ b.position := by
  induction l with
  | nil => simp [insertStop]
  | cons x xs ih =>
    obtain ⟨h1, h2⟩ := List.pairwise_cons.mp h
    unfold insertStop
    split
    · rename_i hlt
      refine List.pairwise_cons.mpr ⟨?_, h⟩
      intro y hy
      rcases List.mem_cons.mp hy with rfl | hy
      · omega
      · have := h1 y hy; omega
    · rename_i hge
      refine List.pairwise_cons.mpr ⟨?_, ih h2⟩
      intro y hy
      rcases List.mem_cons.mp ((insertStop_perm s xs).mem_iff.mp hy) with rfl | hy
      · omega
      · exact h1 y hy

theorem sortStops_spec (l : List GradientStop) :
    (sortStops l).Perm l ∧ (sortStops l).Pairwise fun a b => a.position ≤ b.position := by
  have : ∀ (l acc : List GradientStop), acc.Pairwise (fun a b => a.position ≤ b.position) →
      (l.foldl (fun acc s => insertStop s acc) acc).Perm (acc ++ l) ∧
      (l.foldl (fun acc s => insertStop s acc) acc).Pairwise fun a b => a.position ≤ b.position := by
    intro l
    induction l with
    | nil => intro acc h; exact ⟨by simp, h⟩
    | cons s l ih =>
      intro acc h
      obtain ⟨h1, h2⟩ := ih (insertStop s acc) (insertStop_sorted h)
      refine ⟨h1.trans ?_, h2⟩
      refine ((insertStop_perm s acc).append_right l).trans ?_
      exact (List.perm_middle (l₁ := acc)).symm
  have := this l [] List.Pairwise.nil
  rwa [List.nil_append] at this

/-- **C97.** After any sequence of additions of stops the stops are those of the gradient and those that
were added, each as often as it was given, sorted by position; the direction stays. -/
theorem C97_stops (g : GradientFill) (l : List GradientStop) (hl : l ≠ []) :
    (l.foldl GradientFill.withStop g).stops.Perm (g.stops ++ l) ∧
    (l.foldl GradientFill.withStop g).stops.Pairwise (fun a b => a.position ≤ b.position) ∧
    (l.foldl GradientFill.withStop g).direction = g.direction := by
  induction l generalizing g with
  | nil => exact absurd rfl hl
  | cons s l ih =>
    obtain ⟨h1, h2⟩ := sortStops_spec (g.stops ++ [s])
    rw [List.foldl_cons]
    by_cases he : l = []
    · subst he
      exact ⟨h1, h2, rfl⟩
    · obtain ⟨h3, h4, h5⟩ := ih (g.withStop s) he
      refine ⟨h3.trans ?_, h4, h5⟩
      refine (h1.append_right l).trans ?_
      simp

theorem insertStop_filter (s : GradientStop) (l : List GradientStop) (p : Nat) (hs : l.Pairwise fun a b => a.position ≤ b.position) :
    (insertStop s l).filter (fun x => x.position == p) = (l ++ [s]).filter (fun x => x.position == p) := by
  induction l with
  | nil => rfl
  | cons x xs ih =>
    obtain ⟨h1, h2⟩ := List.pairwise_cons.mp hs
    unfold insertStop
    split
    · rename_i hlt
      by_cases hp : s.position = p
      · have : (x :: xs).filter (fun x => x.position == p) = [] := by
          rw [List.filter_eq_nil_iff]
          intro y hy
          rcases List.mem_cons.mp hy with rfl | hy
          · simp only [beq_iff_eq]; omega
          · have := h1 y hy
            simp only [beq_iff_eq]; omega
        rw [List.filter_append, this, List.filter_cons, if_pos (by simpa using hp), this]
        simp [hp]
      · rw [List.filter_append, List.filter_cons, if_neg (by simpa using hp)]
        simp [hp]
    · rw [List.cons_append, List.filter_cons, List.filter_cons, ih h2]

/-- Sorting keeps the order of stops at one position. -/
theorem sortStops_stable (l : List GradientStop) (p : Nat) :
    (sortStops l).filter (fun x => x.position == p) = l.filter (fun x => x.position == p) := by
  have : ∀ (l acc : List GradientStop), acc.Pairwise (fun a b => a.position ≤ b.position) →
      (l.foldl (fun acc s => insertStop s acc) acc).filter (fun x => x.position == p)
        = (acc ++ l).filter (fun x => x.position == p) := by
    intro l
    induction l with
    | nil => intro acc _; simp
    | cons s l ih =>
      intro acc h
      rw [List.foldl_cons, ih _ (insertStop_sorted h), List.filter_append, insertStop_filter s acc p h]
      rw [← List.filter_append, List.append_assoc, List.singleton_append]
  exact this l [] List.Pairwise.nil

/-- **C97.** Stops at one position stay in the order in which they were added: together with `C97_stops` this
determines the stops. -/
theorem C97_stable (g : GradientFill) (l : List GradientStop) (p : Nat) :
    (l.foldl GradientFill.withStop g).stops.filter (fun x => x.position == p)
      = (g.stops ++ l).filter (fun x => x.position == p) := by
  induction l generalizing g with
  | nil => simp
  | cons s l ih =>
    rw [List.foldl_cons, ih, List.filter_append]
    have : (g.withStop s).stops.filter (fun x => x.position == p) = (g.stops ++ [s]).filter (fun x => x.position == p) :=
      sortStops_stable _ p
    rw [this, ← List.filter_append]
    simp

/-- **C97.** The positions and opacities that the constructors store are percentages between 0 and 100, in
thousandths of a percent; the opacity is what the transparency leaves. -/
theorem C97_percentages (color : Str) (p : Nat) (t : Nat) (ht : t ≤ 100) :
    (GradientStop.new color p).position = 1000 * min p 100 ∧
    ((GradientStop.new color p).withTransparency t).alpha = some (100000 - 1000 * t) ∧
    ((ShapeFill.new color).withTransparency t).alpha = some (100000 - 1000 * t) := by
  refine ⟨?_, ?_, ?_⟩
  · unfold GradientStop.new; simp only; omega
  · simp only [GradientStop.withTransparency, alphaOf]; congr 1; omega
  · simp only [ShapeFill.withTransparency, alphaOf]; congr 1; omega

/-- **C97.** The gradients of two and three colours run from 0 to 100 percent. -/
theorem C97_gradients (a b c : Str) (d : GradientDirection) :
    ((GradientFill.linear a b d).stops.map fun s => (s.color, s.position)) = [(cleanColor a, 0), (cleanColor b, 100000)] ∧
    ((GradientFill.threeColor a b c d).stops.map fun s => (s.color, s.position))
      = [(cleanColor a, 0), (cleanColor b, 50000), (cleanColor c, 100000)] ∧
    (GradientFill.linear a b d).direction = d ∧ (GradientFill.threeColor a b c d).direction = d := ⟨rfl, rfl, rfl, rfl⟩

/-- Not vacuous. -/
example : (((GradientFill.linear c!"000000" c!"FFFFFF" .vertical).withStop (.new c!"FF0000" 30)).stops.map (·.position))
    = [0, 30000, 100000] := by decide +kernel

end PptRs.Props
