import Verif.Lemmas.SlideText

/-!
# Text of generated slides: C35, C65, C66, C67, C68
-/

namespace PptRs.Props

open PptRs PptRs.Spec

/-! ### C66: the text of a slide reads back -/

/-- **C66** (partial: the colours, the fonts and the custom bullet characters contain no `&`, `<` or
`"`; nothing is assumed about the title, the bullets and the cells). A slide is a well-formed
document, and its boxes and their texts are those of the slide, followed by those of the additional
content. -/
theorem C66_slide_text_reads_back_partial {s : SlideText} {X : List Node} (h : s.Safe)
    (hx : ReadsAs (fmt s.extra) X) :
    ∃ doc, document s.xml = some doc ∧ boxes doc = s.expected ++ boxes X :=
  ⟨_, document_slide h hx, by rw [boxes_slide, boxes_shapes]⟩

/-- Without the condition a slide can be unreadable: the character of a custom bullet is written
without escaping. -/
theorem C66_custom_bullet_violated :
    ∃ s : SlideText, s = (SlideText.new c!"T").addStyledBullet c!"x" (.custom '<') ∧
      document s.xml = none :=
  ⟨_, rfl, by krfl⟩

/-- A colour is written without escaping. -/
theorem C66_color_violated :
    ∃ s : SlideText, s = { SlideText.new c!"T" with titleColor := some c!"<" } ∧
      document s.xml = none :=
  ⟨_, rfl, by krfl⟩

/-- A font name is written without escaping. -/
theorem C66_font_violated :
    ∃ s : SlideText, s = { SlideText.new c!"T" with
        bullets := [{ text := c!"x", style := .bullet, format := some { fontFamily := some c!"A & B" } }] } ∧
      document s.xml = none :=
  ⟨_, rfl, by krfl⟩

/-- Not vacuous. -/
example : (document ((SlideText.new c!"a < b & \"c\"").addBullet c!"x").xml).map boxes
    = some [(some c!"Title", [c!"a < b & \"c\""]), (some c!"Content", [c!"x"])] := by krfl

/-! ### C35: two columns -/

/-- **C35.** On a slide with the two-column layout the left box has the first half of the bullets,
rounded up, and the right box has the rest, in order. -/
theorem C35_two_columns {s : SlideText} {X : List Node} (h : s.Safe) (hx : ReadsAs (fmt s.extra) X)
    (hl : s.layout = .twoColumn) (hn : 2 ≤ s.texts.length) :
    ∃ doc left right, document s.xml = some doc ∧
      boxes doc = [(some c!"Title", [s.title]), (some c!"Left Content", left),
        (some c!"Right Content", right)] ++ boxes X ∧
      left ++ right = s.texts ∧
      (left.length = right.length ∨ left.length = right.length + 1) := by
  obtain ⟨doc, h1, h2⟩ := C66_slide_text_reads_back_partial h hx
  refine ⟨doc, s.texts.take ((s.texts.length + 1) / 2), s.texts.drop ((s.texts.length + 1) / 2),
    h1, ?_, List.take_append_drop _ _, ?_⟩
  · rw [h2]
    have : 1 ≤ s.texts.length := by omega
    simp [SlideText.expected, hl, hn, this]
  · simp only [List.length_take, List.length_drop]
    omega

/-- With one bullet there is only a left box, and with none there is neither. -/
theorem C35_two_columns_few {s : SlideText} {X : List Node} (h : s.Safe)
    (hx : ReadsAs (fmt s.extra) X) (hl : s.layout = .twoColumn) (hn : s.texts.length ≤ 1) :
    ∃ doc, document s.xml = some doc ∧
      boxes doc = [(some c!"Title", [s.title])]
        ++ s.texts.map (fun t => (some c!"Left Content", [t])) ++ boxes X := by
  obtain ⟨doc, h1, h2⟩ := C66_slide_text_reads_back_partial h hx
  refine ⟨doc, h1, ?_⟩
  rw [h2]
  rcases ht : s.texts with _ | ⟨t, _ | ⟨u, r⟩⟩
  · simp [SlideText.expected, hl, ht]
  · simp [SlideText.expected, hl, ht]
  · rw [ht] at hn; simp at hn

example : (document ({ SlideText.new c!"T" with
      layout := .twoColumn, content := [c!"1", c!"2", c!"3"] }).xml).map boxes
    = some [(some c!"Title", [c!"T"]), (some c!"Left Content", [c!"1", c!"2"]),
      (some c!"Right Content", [c!"3"])] := by krfl

/-! ### C65: every bullet is written once -/

/-- **C65** (partial: the layout is one with a content area, and there is no table). After any
sequence of additions of bullets to an empty slide, the texts in the boxes of the slide after the
title are exactly the added ones, each once, in order. -/
theorem C65_bullets_written_once_partial {s : SlideText} {ops : List BulletOp} {X : List Node}
    (h : s.Safe) (ho : ∀ op ∈ ops, op.Safe) (hc : s.content = []) (hb : s.bullets = [])
    (hx : ReadsAs (fmt s.extra) X)
    (hl : (s.layout = .titleAndContent ∧ s.table = none) ∨ s.layout = .titleAndBigContent ∨
      s.layout = .twoColumn) :
    ∃ doc body, document (ops.foldl BulletOp.run s).xml = some doc ∧
      boxes doc = [(some c!"Title", [s.title])] ++ body ++ boxes X ∧
      body.flatMap (·.2) = ops.map BulletOp.text := by
  obtain ⟨e1, e2, e3, e4⟩ := layout_ops ops s
  obtain ⟨doc, h1, h2⟩ := C66_slide_text_reads_back_partial (safe_ops ops h ho) (e3 ▸ hx)
  have ht : (ops.foldl BulletOp.run s).texts = ops.map BulletOp.text := by
    rw [texts_ops ops s (.inl hc)]
    simp [SlideText.texts, hb, hc]
  have key : ∀ body, (ops.foldl BulletOp.run s).expected = [(some c!"Title", [s.title])] ++ body →
      body.flatMap (·.2) = ops.map BulletOp.text →
      ∃ doc body, document (ops.foldl BulletOp.run s).xml = some doc ∧
        boxes doc = [(some c!"Title", [s.title])] ++ body ++ boxes X ∧
        body.flatMap (·.2) = ops.map BulletOp.text :=
    fun body k1 k2 => ⟨doc, body, h1, by rw [h2, k1], k2⟩
  generalize ops.foldl BulletOp.run s = r at *
  rcases hl with ⟨hl, htb⟩ | hl | hl
  · refine key (if r.texts = [] then [] else [(some c!"Content", r.texts)]) ?_ ?_
    · simp [SlideText.expected, e1, hl, e2, htb, e4]
    · rw [ht]
      split
      · simp_all
      · simp
  · refine key (if r.texts = [] then [] else [(some c!"Content", r.texts)]) ?_ ?_
    · simp [SlideText.expected, e1, hl, e4]
    · rw [ht]
      split
      · simp_all
      · simp
  · refine key ((if 1 ≤ r.texts.length then
          [(some c!"Left Content", r.texts.take ((r.texts.length + 1) / 2))] else [])
        ++ (if 2 ≤ r.texts.length then
          [(some c!"Right Content", r.texts.drop ((r.texts.length + 1) / 2))] else [])) ?_ ?_
    · simp [SlideText.expected, e1, hl, e4]
    · rw [ht]
      rcases ops.map BulletOp.text with _ | ⟨a, _ | ⟨b, l⟩⟩
      · simp
      · simp
      · simp

/-- Not vacuous. -/
example : (document ([BulletOp.plain c!"a", .sub c!"b", .styled c!"c" .number].foldl BulletOp.run
      (SlideText.new c!"T")).xml).map boxes
    = some [(some c!"Title", [c!"T"]), (some c!"Content", [c!"a", c!"b", c!"c"])] := by krfl

/-- In the other layouts the bullets are lost. -/
theorem C65_bullets_lost_violated (l : SlideLayout)
    (hl : l = .blank ∨ l = .titleOnly ∨ l = .sectionHeader ∨ l = .centeredTitle) :
    (document ({ (SlideText.new c!"T").addBullet c!"lost" with layout := l }).xml).map
      (fun doc => decide (c!"lost" ∈ runsL doc)) = some false := by
  rcases hl with rfl | rfl | rfl | rfl <;> krfl

/-- A table hides the bullets. -/
theorem C65_bullets_hidden_by_table_violated :
    (document ({ (SlideText.new c!"T").addBullet c!"lost" with
      table := some ⟨[⟨none, [{ text := c!"cell" }]⟩], [100], 0, 0⟩ }).xml).map
      (fun doc => decide (c!"lost" ∈ runsL doc)) = some false := by
  krfl

/-! ### C67: tables -/

/-- **C67** (partial: the colours contain no `&`, `<` or `"`). The table of a slide is read back row
by row: each cell has its text, unless it is covered by another cell, and its spans. -/
theorem C67_table_reads_back_partial {s : SlideText} {t : TableIn} {X : List Node} (h : s.Safe)
    (hx : ReadsAs (fmt s.extra) X) (hl : s.layout = .titleAndContent) (ht : s.table = some t) :
    ∃ doc, document s.xml = some doc ∧
      tableCells doc = (t.rows.map fun r => r.cells.map CellIn.expected)
        ++ tableCells X := by
  refine ⟨_, document_slide h hx, ?_⟩
  rw [tableCells_slide]
  congr 1
  unfold SlideText.shapeNodes
  rw [hl, ht]
  simp only [Option.isSome_some, if_true, Option.toList_some, List.flatMap_cons, List.flatMap_nil,
    List.append_nil]
  rw [tableCells_append, tableCells_title]
  have : tableCells [nl, tableNode t] = tableCells [tableNode t] := by krfl
  rw [this, tableCells_table]
  rfl

/-- Not vacuous. -/
example : (document ({ SlideText.new c!"T" with
      table := some ⟨[⟨none, [{ text := c!"a & b", gridSpan := some 2 }, { text := c!"x", hMerge := true }]⟩,
        ⟨some 5, [{ text := c!"" }, { text := c!"<" }]⟩], [100, 200], 0, 0⟩ }).xml).map tableCells
    = some [[⟨[c!"a & b"], some c!"2", none, none, none⟩, ⟨[], none, none, some c!"1", none⟩],
        [⟨[], none, none, none, none⟩, ⟨[c!"<"], none, none, none, none⟩]] := by krfl

/-- In the other layouts the table is lost. -/
theorem C67_table_lost_violated (l : SlideLayout) (hl : l ≠ .titleAndContent) :
    (document ({ SlideText.new c!"T" with
      layout := l, table := some ⟨[⟨none, [{ text := c!"cell" }]⟩], [100], 0, 0⟩ }).xml).map tableCells
      = some [] := by
  cases l <;> first | exact absurd rfl hl | krfl

/-! ### C68: the alignment of cells -/

/-- **C68** (partial: the cell is not centred, it has a text, and it is not covered). The alignment of
a cell is the one that was set. -/
theorem C68_cell_align_partial {c : CellIn} (h : c.Safe) (hm : c.hMerge = false)
    (hv : c.vMerge = false) (ht : c.text ≠ []) :
    ∃ k, parse (fmt (cellXml c)) = some [k] ∧
      (c.align ≠ .center → cellAlign k = alignCode c.align) ∧
      (c.valign ≠ .middle → Spec.cellAnchor k = anchorCode c.valign) := by
  refine ⟨c.node, parse_of_nodes (readsNodes_cell h), fun ha => ?_, fun hva => ?_⟩
  · have e : c.align.asStr = alignCode c.align := by cases c.align <;> rfl
    unfold cellAlign
    rw [(elems_cell hm hv).1, ← e]
    simp [ht, CellIn.paraProps, ha, attrOf]
  · have e : c.valign.asStr = anchorCode c.valign := by cases c.valign <;> rfl
    unfold Spec.cellAnchor
    rw [(elems_cell hm hv).2, ← e]
    simp [CellIn.propsNode, CellIn.anchorAttrs, hva, attrOf]

example : ∃ c : CellIn, c.Safe ∧ c.hMerge = false ∧ c.vMerge = false ∧ c.text ≠ [] ∧
    c.align ≠ .center ∧ c.valign ≠ .middle :=
  ⟨{ text := c!"x", align := .right, valign := .bottom }, ⟨by simp, by simp⟩, rfl, rfl, by decide,
    by decide, by decide⟩

/-- A centred cell, which is the default, is read as left-aligned, and a cell in the middle, which is
the default, as a cell at the top. -/
theorem C68_center_violated {c : CellIn} (h : c.Safe) (hm : c.hMerge = false) (hv : c.vMerge = false)
    (ha : c.align = .center) (hva : c.valign = .middle) :
    ∃ k, parse (fmt (cellXml c)) = some [k] ∧ cellAlign k = c!"l" ∧
      Spec.cellAnchor k = c!"t" := by
  refine ⟨c.node, parse_of_nodes (readsNodes_cell h), ?_, ?_⟩
  · unfold cellAlign
    rw [(elems_cell hm hv).1]
    simp [CellIn.paraProps, ha]
  · unfold Spec.cellAnchor
    rw [(elems_cell hm hv).2]
    simp [CellIn.propsNode, CellIn.anchorAttrs, hva, attrOf]

example : ({ text := c!"x" } : CellIn).align = .center ∧ ({ text := c!"x" } : CellIn).valign = .middle :=
  ⟨rfl, rfl⟩

end PptRs.Props
