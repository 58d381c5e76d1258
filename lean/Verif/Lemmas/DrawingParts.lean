import Verif.Lemmas.Drawing

/-!
# Pictures, connectors, code blocks and charts as XML
-/

namespace PptRs.Draw

open PptRs PptRs.Spec

/-! ### Pictures -/

/-- The black of a shadow or the colour of a glow. -/
def shade (c a : Str) : List Node :=
  [E c!"a:srgbClr" [(c!"val", c)] [E c!"a:alpha" [(c!"val", a)] []]]

/-- An effect. -/
def ImageEffect.node : ImageEffect → Node
  | .shadow => E c!"a:outerShdw" [(c!"blurRad", c!"40000"), (c!"dist", c!"20000"), (c!"dir", c!"5400000"),
      (c!"rotWithShape", c!"0")] (shade c!"000000" c!"40000")
  | .reflection => E c!"a:reflection" [(c!"blurRad", c!"6350"), (c!"stA", c!"50000"), (c!"endA", c!"300"),
      (c!"endPos", c!"35000"), (c!"dir", c!"5400000"), (c!"sy", c!"-100000"), (c!"algn", c!"bl"),
      (c!"rotWithShape", c!"0")] []
  | .glow => E c!"a:glow" [(c!"rad", c!"50800")] (shade c!"FFD700" c!"60000")
  | .softEdges => E c!"a:softEdge" [(c!"rad", c!"50800")] []
  | .innerShadow => E c!"a:innerShdw" [(c!"blurRad", c!"40000"), (c!"dist", c!"20000"), (c!"dir", c!"2700000")]
      (shade c!"000000" c!"50000")
  | .blur => E c!"a:blur" [(c!"rad", c!"38100")] []

theorem readsTagged_effect (e : ImageEffect) : ReadsTagged e.toXml [e.node] := by
  refine ReadsNodes.tagged ?_ ?_
  · cases e <;>
      exact (Splits.lit (by simp only [ImageEffect.toXml]; parts_ok)).readsNodes (by krfl)
  · cases e <;> exact ⟨_, rfl⟩

/-- The list of effects. -/
def effectNodes (l : List ImageEffect) : List Node :=
  if l = [] then [] else [E c!"a:effectLst" [] (l.map ImageEffect.node)]

theorem soft_effects (l : List ImageEffect) : Soft (effectsXml l) (effectNodes l) := by
  unfold effectsXml effectNodes
  have hs : Soft (l.flatMap ImageEffect.toXml) (l.map ImageEffect.node) :=
    Soft.flatMap fun e _ => readsTagged_effect e
  by_cases hl : l = []
  · rw [if_pos hl, if_pos hl]
    exact .nil
  · rw [if_neg hl, if_neg hl]
    generalize l.map ImageEffect.node = ks at hs ⊢
    generalize l.flatMap ImageEffect.toXml = ps at hs ⊢
    rcases hs with ⟨rfl, rfl⟩ | ⟨hs, hn⟩
    · exact .inr ⟨(Splits.readsNodes (((Splits.lit (by parts_ok)).append (.lit (by parts_ok))).append
        (.lit (by parts_ok))) (by krfl)).tagged ⟨_, rfl⟩, by simp⟩
    · exact .inr ⟨(Splits.readsNodes (((Splits.lit (by parts_ok)).append (.tagged hs)).append
        (.lit (by parts_ok))) (by krfl)).tagged ⟨_, rfl⟩, by simp⟩

/-- A part of a crop. -/
def cropPart (k : Str) (n : Nat) : List (Str × Str) := if decide (0 < n) = true then [(k, dec n)] else []

/-- The crop. -/
def cropNode (c : Crop) : Node :=
  E c!"a:srcRect" (cropPart c!"l" c.left ++ cropPart c!"t" c.top ++ cropPart c!"r" c.right
    ++ cropPart c!"b" c.bottom) []

theorem readsAttrs_crop (c : Crop) : ReadsAttrs c.attrs (cropPart c!"l" c.left ++ cropPart c!"t" c.top
    ++ cropPart c!"r" c.right ++ cropPart c!"b" c.bottom) := by
  unfold Crop.attrs
  refine ReadsAttrs.append (ReadsAttrs.append (ReadsAttrs.append ?_ ?_) ?_) ?_
  all_goals
    exact readsAttrs_whenSet ((Splits.lit (by parts_ok)).readsAttrs (fun top st n as => by krfl))

/-- The image of a picture. -/
def blipNode (rel : Nat) (c : Option Crop) : Node :=
  E c!"p:blipFill" [] (lines ([E c!"a:blip" [(c!"r:embed", c!"rId" ++ dec rel)] []] ++ c.toList.map cropNode
    ++ [E c!"a:stretch" [] (lines [E c!"a:fillRect" [] []])]))

theorem readsTagged_blip (rel : Nat) (c : Option Crop) :
    ReadsTagged (blipFillXml rel c) [blipNode rel c] := by
  refine ReadsNodes.tagged ?_ ⟨_, rfl⟩
  unfold blipFillXml
  cases c with
  | none =>
    exact Splits.readsNodes (((Splits.lit (by parts_ok)).append (.nodes (ps := cropXml none) readsNodes_nil)).append
      (.lit (by parts_ok))) (by krfl)
  | some c =>
    have h : ReadsNodes (t!"\n<a:srcRect" ++ c.attrs ++ t!"/>") [nl, cropNode c] :=
      Splits.readsNodes (((Splits.lit (by parts_ok)).append (.attrs (readsAttrs_crop c))).append
        (.lit (by parts_ok))) (by krfl)
    have e : cropXml (some c) = t!"\n<a:srcRect" ++ c.attrs ++ t!"/>" := by
      simp only [cropXml, whenSome, Option.toList_some, List.flatMap_cons, List.flatMap_nil, List.append_nil]
    rw [e]
    exact Splits.readsNodes (((Splits.lit (by parts_ok)).append (.nodes h)).append
      (.lit (by parts_ok))) (by krfl)

/-- A place. -/
def placeNodes (x y w h : Nat) : List Node :=
  lines [E c!"a:off" [(c!"x", dec x), (c!"y", dec y)] [], E c!"a:ext" [(c!"cx", dec w), (c!"cy", dec h)] []]

/-- The element of a picture. -/
def pictureNode (p : Picture) (id rel : Nat) : Node :=
  E c!"p:pic" [] (lines [
    E c!"p:nvPicPr" [] (lines [
      E c!"p:cNvPr" ([(c!"id", dec id), (c!"name", p.filename)] ++ p.altText.toList.flatMap
        (fun a => [(c!"descr", a)])) [],
      E c!"p:cNvPicPr" [] (lines [E c!"a:picLocks" [(c!"noChangeAspect", c!"1")] []]), E c!"p:nvPr" [] []]),
    blipNode rel p.crop,
    E c!"p:spPr" [] ([nl, E c!"a:xfrm" [] (placeNodes p.x p.y p.width p.height),
      nl, E c!"a:prstGeom" [(c!"prst", c!"rect")] (lines [E c!"a:avLst" [] []])] ++ gap (effectNodes p.effects))])

theorem readsTagged_picture (p : Picture) (id rel : Nat) :
    ReadsTagged (pictureXml p id rel) [pictureNode p id rel] := by
  refine ReadsNodes.tagged ?_ ⟨_, rfl⟩
  have h1 : ReadsAttrs (whenSome p.altText (fun a => t!" descr=\"{.esc a}\""))
      (p.altText.toList.flatMap fun a => [(c!"descr", a)]) :=
    readsAttrs_whenSome fun t _ => (Splits.lit (by parts_ok)).readsAttrs (fun top st n as => by krfl)
  have h2 := readsTagged_blip rel p.crop
  have h3 := soft_effects p.effects
  unfold pictureXml pictureNode
  generalize effectNodes p.effects = ks at h3 ⊢
  generalize effectsXml p.effects = ps at h3 ⊢
  generalize blipNode rel p.crop = b at h2 ⊢
  rcases h3 with ⟨rfl, rfl⟩ | ⟨h3, n3⟩
  · exact Splits.readsNodes (((((((Splits.lit (by parts_ok)).append (.attrs h1)).append
      (.lit (by parts_ok))).append (.tagged h2)).append (.lit (by parts_ok))).append
      (.lit (by parts_ok))).append (.lit (by parts_ok))) (by krfl)
  · rw [gap, if_neg n3]
    exact Splits.readsNodes (((((((Splits.lit (by parts_ok)).append (.attrs h1)).append
      (.lit (by parts_ok))).append (.tagged h2)).append (.lit (by parts_ok))).append
      (.tagged h3)).append (.lit (by parts_ok))) (by krfl)

/-! ### Connectors -/

/-- The kind of a line end contains no markup. -/
theorem plain_arrow (a : ArrowType) : Plain a.xml := by
  cases a <;> exact ⟨by decide, by decide, by decide⟩

theorem plain_size (a : ArrowSize) : Plain a.xml := by
  cases a <;> exact ⟨by decide, by decide, by decide⟩

theorem plain_dash (a : LineDash) : Plain a.xml := by
  cases a <;> exact ⟨by decide, by decide, by decide⟩

theorem plain_connectorKind (a : ConnectorType) : Plain a.presetName := by
  cases a <;> exact ⟨by decide, by decide, by decide⟩

/-- What an end is attached to. -/
def attachedNodes (n : Str) (p : Option (Nat × ConnectionSite)) : List Node :=
  p.toList.flatMap fun p => [nl, E n [(c!"id", dec p.1), (c!"idx", dec p.2.index)] []]

theorem readsNodes_startLink (c : Connector) :
    ReadsNodes (startLinkXml c) (attachedNodes c!"a:stCxn" (both c.startShape c.startSite)) :=
  readsNodes_flatMap fun _ _ => (Splits.lit (by parts_ok)).readsNodes (by krfl)

theorem readsNodes_endLink (c : Connector) :
    ReadsNodes (endLinkXml c) (attachedNodes c!"a:endCxn" (both c.endShape c.endSite)) :=
  readsNodes_flatMap fun _ _ => (Splits.lit (by parts_ok)).readsNodes (by krfl)

/-- A flip. -/
def flipPart (k : Str) (b : Bool) : List (Str × Str) := if b = true then [(k, c!"1")] else []

theorem readsAttrs_flips (c : Connector) :
    ReadsAttrs (flipAttrs c) (flipPart c!"flipH" (decide (c.endX < c.startX))
      ++ flipPart c!"flipV" (decide (c.endY < c.startY))) := by
  unfold flipAttrs
  refine ReadsAttrs.append ?_ ?_
  all_goals
    exact readsAttrs_whenSet ((Splits.lit (by parts_ok)).readsAttrs (fun top st n as => by krfl))

/-- An arrow. -/
def arrowNodes (n : Str) (a : ArrowType) (s : ArrowSize) : List Node :=
  if a = .none then [] else [nl, E n [(c!"type", a.xml), (c!"w", s.xml), (c!"len", s.xml)] []]

theorem readsNodes_head (c : Connector) :
    ReadsNodes (headXml c) (arrowNodes c!"a:headEnd" c.startArrow c.arrowSize) := by
  unfold headXml arrowNodes whenSet
  have h1 := plain_arrow c.startArrow
  have h2 := plain_size c.arrowSize
  by_cases h : c.startArrow = .none
  · rw [if_neg (by simpa using h), if_pos h]
    exact readsNodes_nil
  · rw [if_pos (by simpa using h), if_neg h]
    exact (Splits.lit (by parts_ok)).readsNodes (by krfl)

theorem readsNodes_tail (c : Connector) :
    ReadsNodes (tailXml c) (arrowNodes c!"a:tailEnd" c.endArrow c.arrowSize) := by
  unfold tailXml arrowNodes whenSet
  have h1 := plain_arrow c.endArrow
  have h2 := plain_size c.arrowSize
  by_cases h : c.endArrow = .none
  · rw [if_neg (by simpa using h), if_pos h]
    exact readsNodes_nil
  · rw [if_pos (by simpa using h), if_neg h]
    exact (Splits.lit (by parts_ok)).readsNodes (by krfl)

/-- The label of a connector. -/
def labelNodes (l : Option Str) : List Node :=
  l.toList.flatMap fun l => [nl, E c!"p:txBody" [] (lines [E c!"a:bodyPr" [] [], E c!"a:lstStyle" [] [],
    E c!"a:p" [] (lines [E c!"a:r" [] (lines [E c!"a:rPr" [(c!"lang", c!"en-US"), (c!"sz", c!"1000")] [],
      E c!"a:t" [] (addText [] l)])])])]

theorem readsNodes_label (c : Connector) : ReadsNodes (labelXml c) (labelNodes c.label) :=
  readsNodes_flatMap fun _ _ => (Splits.lit (by parts_ok)).readsNodes (by krfl)

/-- The shape properties of a connector. -/
def connectorProps (c : Connector) : Node :=
  E c!"p:spPr" [] (lines [
    E c!"a:xfrm" (flipPart c!"flipH" (decide (c.endX < c.startX)) ++ flipPart c!"flipV" (decide (c.endY < c.startY)))
      (placeNodes (min c.startX c.endX) (min c.startY c.endY) (absDiff c.endX c.startX) (absDiff c.endY c.startY)),
    E c!"a:prstGeom" [(c!"prst", c.kind.presetName)] (lines [E c!"a:avLst" [] []]),
    E c!"a:ln" [(c!"w", dec c.line.width)] ([nl, E c!"a:solidFill" [] (lines [E c!"a:srgbClr" [(c!"val", c.line.color)] []]),
      nl, E c!"a:prstDash" [(c!"val", c.line.dash.xml)] []]
      ++ arrowNodes c!"a:headEnd" c.startArrow c.arrowSize ++ arrowNodes c!"a:tailEnd" c.endArrow c.arrowSize
      ++ [nl])])

/-- The element of a connector. -/
def connectorNode (c : Connector) (id : Nat) : Node :=
  E c!"p:cxnSp" [] ([nl,
    E c!"p:nvCxnSpPr" [] (lines [
      E c!"p:cNvPr" [(c!"id", dec id), (c!"name", c!"Connector " ++ dec id)] [],
      E c!"p:cNvCxnSpPr" [] (attachedNodes c!"a:stCxn" (both c.startShape c.startSite)
        ++ attachedNodes c!"a:endCxn" (both c.endShape c.endSite) ++ [nl]),
      E c!"p:nvPr" [] []]),
    nl, connectorProps c] ++ labelNodes c.label ++ [nl])

theorem readsTagged_connector {c : Connector} (h : Plain c.line.color) (id : Nat) :
    ReadsTagged (connectorXml c id) [connectorNode c id] := by
  refine ReadsNodes.tagged ?_ ⟨_, rfl⟩
  have h1 := readsNodes_startLink c
  have h2 := readsNodes_endLink c
  have h3 := readsAttrs_flips c
  have h4 := readsNodes_head c
  have h5 := readsNodes_tail c
  have h6 := readsNodes_label c
  have p1 := plain_dash c.line.dash
  have p2 := plain_connectorKind c.kind
  unfold connectorXml connectorNode connectorProps
  exact Splits.readsNodes ((((((((((Splits.lit (by parts_ok)).append (.nodes h1)).append (.nodes h2)).append
    (.lit (by parts_ok))).append (.attrs h3)).append (.lit (by parts_ok))).append (.nodes h4)).append
    (.nodes h5)).append (.lit (by parts_ok))).append (.nodes h6) |>.append (.lit (by parts_ok))) (by krfl)

/-- The element written by the other writer of connectors. -/
def plainConnectorNode (sx sy ex ey id : Nat) (color : Str) (width : Nat) : Node :=
  E c!"p:cxnSp" [] (lines [
    E c!"p:nvCxnSpPr" [] (lines [
      E c!"p:cNvPr" [(c!"id", dec id), (c!"name", c!"Connector " ++ dec id)] [],
      E c!"p:cNvCxnSpPr" [] [], E c!"p:nvPr" [] []]),
    E c!"p:spPr" [] (lines [
      E c!"a:xfrm" [] (placeNodes (min sx ex) (min sy ey) (absDiff ex sx) (absDiff ey sy)),
      E c!"a:prstGeom" [(c!"prst", c!"straightConnector1")] (lines [E c!"a:avLst" [] []]),
      E c!"a:ln" [(c!"w", dec width)] (lines [E c!"a:solidFill" [] (lines [E c!"a:srgbClr" [(c!"val", cleanColor color)] []]),
        E c!"a:tailEnd" [(c!"type", c!"triangle")] []])])])

theorem readsTagged_plainConnector (sx sy ex ey id : Nat) {color : Str} (h : Plain (cleanColor color))
    (width : Nat) : ReadsTagged (plainConnectorXml sx sy ex ey id color width)
      [plainConnectorNode sx sy ex ey id color width] := by
  refine ReadsNodes.tagged ?_ ⟨_, rfl⟩
  unfold plainConnectorXml
  exact Splits.readsNodes (Splits.lit (by parts_ok)) (by krfl)

/-! ### Code blocks -/

/-- `escapeCode` character by character. -/
theorem escapeCode_cons (c : Char) (s : Str) : escapeCode (c :: s)
    = (if c = '&' then c!"&amp;" else if c = '<' then c!"&lt;" else if c = '>' then c!"&gt;" else [c])
      ++ escapeCode s := by
  unfold escapeCode
  rw [replaceChar_cons, replaceChar_append, replaceChar_append]
  congr 1
  by_cases h1 : c = '&'
  · subst h1; rfl
  · by_cases h2 : c = '<'
    · subst h2; rfl
    · by_cases h3 : c = '>'
      · subst h3; rfl
      · simp [replaceChar, h1, h2, h3]

theorem readText_escapeCode (s : Str) : readText (escapeCode s) = some s := by
  induction s with
  | nil => rfl
  | cons c s ih =>
    rw [escapeCode_cons]
    split
    · rename_i h; subst h
      simp only [List.cons_append, List.nil_append, readText, ih, Option.map_some]
    · split
      · rename_i h; subst h
        simp only [List.cons_append, List.nil_append, readText, ih, Option.map_some]
      · split
        · rename_i h; subst h
          simp only [List.cons_append, List.nil_append, readText, ih, Option.map_some]
        · rw [List.singleton_append, readText_plain _ ‹_› ‹_›, ih]
          rfl

theorem lt_notMem_escapeCode (s : Str) : '<' ∉ escapeCode s := by
  induction s with
  | nil => decide
  | cons c s ih =>
    rw [escapeCode_cons, List.mem_append, not_or]
    refine ⟨?_, ih⟩
    split
    · decide
    · split
      · decide
      · split
        · decide
        · simpa using fun h => ‹¬ c = '<'› h.symm

/-- Text without `<` is read as text. -/
theorem reads_textHole {str v : Str} (hr : readText str = some v) (h1 : '<' ∉ str) (top : Frame)
    (st : List Frame) (t : Str) : Reads str ⟨top, st, .text t⟩ ⟨top, st, .text (t ++ v)⟩ := by
  intro c hc
  obtain ⟨top', st', m⟩ := c
  obtain ⟨e1, e2, e3⟩ := hc
  simp only at e1 e2 e3
  subst e1 e2
  cases e3 with
  | text hr' =>
    refine ⟨_, steps_text _ _ _ _ h1, ⟨rfl, rfl, .text ?_⟩⟩
    rw [readText_append _ hr', hr]; rfl

/-- The text written without paragraphs. -/
def bareNode (s : Str) : Node := E c!"a:t" [] (addText [] s)

theorem readsTagged_bare (s : Str) : ReadsTagged t!"<a:t>{.raw (escapeCode s)}</a:t>" [bareNode s] := by
  refine ReadsNodes.tagged ?_ ⟨_, rfl⟩
  intro n as k st
  have e : fmt t!"<a:t>{.raw (escapeCode s)}</a:t>" = c!"<a:t>" ++ (escapeCode s ++ c!"</a:t>") := by
    simp [fmt, Part.render]
  rw [e]
  refine Reads.append (s1 := ⟨⟨c!"a:t", [], []⟩, ⟨n, as, k⟩ :: st, .text []⟩) (reads_lit (by krfl)) ?_
  refine Reads.append (reads_textHole (readText_escapeCode s) (lt_notMem_escapeCode s) _ _ _) ?_
  refine reads_lit ?_
  cases s <;> krfl

/-- The properties of a run of code. -/
def codeRunNode (as : List (Str × Str)) (color text : Str) : Node :=
  E c!"a:r" [] [E c!"a:rPr" ([(c!"lang", c!"en-US"), (c!"sz", c!"1400"), (c!"dirty", c!"0")] ++ as)
      [E c!"a:solidFill" [] [E c!"a:srgbClr" [(c!"val", color)] []], E c!"a:latin" [(c!"typeface", c!"Consolas")] []],
    E c!"a:t" [] (addText [] text)]

/-- A segment of highlighted code. -/
def segmentNode (s : Segment) : Node :=
  codeRunNode ((if s.bold then [(c!"b", c!"1")] else []) ++ (if s.italic then [(c!"i", c!"1")] else [])) s.color s.text

theorem readsTagged_segment {s : Segment} (h : Plain s.color) : ReadsTagged (segmentXml s) [segmentNode s] := by
  refine ReadsNodes.tagged ?_ ⟨_, rfl⟩
  have a1 : ReadsAttrs (whenSet s.bold t!" b=\"1\"") (if s.bold then [(c!"b", c!"1")] else []) :=
    readsAttrs_whenSet ((Splits.lit (by parts_ok)).readsAttrs (fun top st n as => by krfl))
  have a2 : ReadsAttrs (whenSet s.italic t!" i=\"1\"") (if s.italic then [(c!"i", c!"1")] else []) :=
    readsAttrs_whenSet ((Splits.lit (by parts_ok)).readsAttrs (fun top st n as => by krfl))
  unfold segmentXml segmentNode codeRunNode
  rw [← List.append_assoc]
  exact Splits.readsNodes ((((Splits.lit (by parts_ok)).append (.attrs a1)).append (.attrs a2)).append
    (.lit (by parts_ok))) (by krfl)

/-- The runs of a line of code. -/
def codeRuns (l : List Segment) : List Node :=
  if l = [] then [codeRunNode [] c!"839496" c!" "] else l.map segmentNode

/-- A line of highlighted code. -/
def highlightedNode (l : List Segment) : Node :=
  E c!"a:p" [] (E c!"a:pPr" [(c!"algn", c!"l")] [] :: codeRuns l)

theorem readsTagged_highlighted {l : List Segment} (h : ∀ s ∈ l, Plain s.color) :
    ReadsTagged (highlightedLineXml l) [highlightedNode l] := by
  refine ReadsNodes.tagged ?_ ⟨_, rfl⟩
  unfold highlightedLineXml highlightedNode codeRuns
  by_cases hl : l = []
  · rw [if_pos hl, if_pos hl]
    unfold blankLineXml
    exact Splits.readsNodes (((Splits.lit (by parts_ok)).append (.lit (by parts_ok))).append
      (.lit (by parts_ok))) (by krfl)
  · rw [if_neg hl, if_neg hl]
    have hs : Soft (l.flatMap segmentXml) (l.map segmentNode) := Soft.flatMap fun s hs => readsTagged_segment (h s hs)
    generalize l.map segmentNode = ks at hs ⊢
    generalize l.flatMap segmentXml = ps at hs ⊢
    rcases hs with ⟨rfl, rfl⟩ | ⟨hs, hn⟩
    · exact Splits.readsNodes (((Splits.lit (by parts_ok)).append (.lit (by parts_ok))).append
        (.lit (by parts_ok))) (by krfl)
    · exact Splits.readsNodes (((Splits.lit (by parts_ok)).append (.tagged hs)).append
        (.lit (by parts_ok))) (by krfl)

/-- The colours given by the highlighter contain no markup. -/
abbrev SafeHighlight (highlight : Option (Str → Str → List (List Segment))) : Prop :=
  ∀ f ∈ highlight, ∀ c l, ∀ line ∈ f c l, ∀ s ∈ line, Plain s.color

/-- The contents of a code block. -/
def codeNodes (highlight : Option (Str → Str → List (List Segment))) (b : CodeBlock) : List Node :=
  match highlight with
  | some f => (f b.code b.language).map highlightedNode
  | none => [bareNode b.code]

theorem soft_code {highlight : Option (Str → Str → List (List Segment))} (h : SafeHighlight highlight)
    (b : CodeBlock) : Soft (codeContentXml highlight b) (codeNodes highlight b) := by
  cases highlight with
  | none => exact .inr ⟨readsTagged_bare b.code, by simp [codeNodes]⟩
  | some f => exact Soft.flatMap fun l hl => readsTagged_highlighted (h f rfl _ _ l hl)

/-- The element of a code block. -/
def codeBlockNode (b : CodeBlock) (id : Nat) (ks : List Node) : Node :=
  E c!"p:sp" [] (lines [
    E c!"p:nvSpPr" [] (lines [E c!"p:cNvPr" [(c!"id", dec id), (c!"name", c!"Code Block")] [],
      E c!"p:cNvSpPr" [(c!"txBox", c!"1")] [], E c!"p:nvPr" [] []]),
    E c!"p:spPr" [] (lines [
      E c!"a:xfrm" [] (lines [E c!"a:off" [(c!"x", decInt b.x), (c!"y", decInt b.y)] [],
        E c!"a:ext" [(c!"cx", decInt b.width), (c!"cy", decInt b.height)] []]),
      E c!"a:prstGeom" [(c!"prst", c!"rect")] [E c!"a:avLst" [] []],
      E c!"a:solidFill" [] [E c!"a:srgbClr" [(c!"val", c!"002B36")] []],
      E c!"a:ln" [(c!"w", c!"12700")] [E c!"a:solidFill" [] [E c!"a:srgbClr" [(c!"val", c!"073642")] []]]]),
    codeBodyNode ks])

set_option maxRecDepth 8000 in
theorem readsTagged_codeBlock {highlight : Option (Str → Str → List (List Segment))}
    (h : SafeHighlight highlight) (b : CodeBlock) (id : Nat) :
    ReadsTagged (codeBlockXml highlight id b) [codeBlockNode b id (codeNodes highlight b)] := by
  refine ReadsNodes.tagged ?_ ⟨_, rfl⟩
  have hs := soft_code h b
  have p1 := plain_decInt b.x
  have p2 := plain_decInt b.y
  have p3 := plain_decInt b.width
  have p4 := plain_decInt b.height
  unfold codeBlockXml codeBlockNode codeBodyNode
  generalize codeNodes highlight b = ks at hs ⊢
  generalize codeContentXml highlight b = ps at hs ⊢
  rcases hs with ⟨rfl, rfl⟩ | ⟨hs, hn⟩
  · exact Splits.readsNodes (((Splits.lit (by parts_ok)).append (.lit (by parts_ok))).append
      (.lit (by parts_ok))) (by krfl)
  · exact Splits.readsNodes (((Splits.lit (by parts_ok)).append (.tagged hs)).append
      (.lit (by parts_ok))) (by krfl)

/-! ### Charts -/

/-- The element of a chart. -/
def chartNode (c : ChartBox) (rid : Str) (id : Nat) : Node :=
  E c!"p:graphicFrame" [] (lines [
    E c!"p:nvGraphicFramePr" [] (lines [E c!"p:cNvPr" [(c!"id", dec id), (c!"name", c!"Chart " ++ dec id)] [],
      E c!"p:cNvGraphicFramePr" [] [], E c!"p:nvPr" [] []]),
    E c!"p:xfrm" [] (placeNodes c.x c.y c.width c.height),
    E c!"a:graphic" [] (lines [
      E c!"a:graphicData" [(c!"uri", c!"http://schemas.openxmlformats.org/drawingml/2006/chart")] (lines [
        E c!"c:chart" [(c!"xmlns:c", c!"http://schemas.openxmlformats.org/drawingml/2006/chart"),
          (c!"xmlns:r", c!"http://schemas.openxmlformats.org/officeDocument/2006/relationships"),
          (c!"r:id", rid)] []])])])

set_option maxRecDepth 8000 in
theorem readsTagged_chart (c : ChartBox) {rid : Str} (h : Plain rid) (id : Nat) :
    ReadsTagged (chartRefXml c rid id) [chartNode c rid id] := by
  refine ReadsNodes.tagged ?_ ⟨_, rfl⟩
  unfold chartRefXml
  exact Splits.readsNodes (Splits.lit (by parts_ok)) (by krfl)

end PptRs.Draw
