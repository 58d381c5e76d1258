import Verif.Model.TablePart
import Verif.Spec.TablePart
import Verif.Lemmas.Drawing
import Verif.Lemmas.SlideText

/-!
# C122: the table part
-/

namespace PptRs.Props

open PptRs.Spec PptRs.Draw PptRs.TablePart

/-! ### What is expected -/

/-- A line, as ECMA-376 describes it: a double line is a compound line, not a dash. -/
def lineOfBorder (b : CellBorder) : LineLook :=
  ⟨some (decInt b.width), some (trimStartChar '#' b.color), some (if b.style = .double then c!"dbl" else c!"sng"),
    some (match b.style with | .dashed => c!"dash" | .dotted => c!"dot" | _ => c!"solid")⟩

/-- The code of an alignment (ST_TextAlignType). -/
def hAlignCode : HAlign → Str
  | .left => c!"l" | .center => c!"ctr" | .right => c!"r" | .justify => c!"just"

/-- The code of an anchor (ST_TextAnchoringType). -/
def vAlignCode : VAlign → Str
  | .top => c!"t" | .middle => c!"ctr" | .bottom => c!"b"

/-- How a cell should be shown that is not covered by another one. -/
def lookOf (c : Cell) : CellLook where
  cell := ⟨[c.text], if 1 < c.colSpan then some (dec c.colSpan) else none,
    if 1 < c.rowSpan then some (dec c.rowSpan) else none, none, none⟩
  runs := [⟨c.bold, c.italic, if c.underline then some c!"sng" else none, if c.strikethrough then some c!"sngStrike" else none,
    c.fontSize.map fun n => dec (n * 100), c.textColor.map (trimStartChar '#'), c.fontFamily⟩]
  align := hAlignCode c.hAlign
  anchor := vAlignCode c.vAlign
  margins := [c.margins.map fun m => decInt m.left, c.margins.map fun m => decInt m.right,
    c.margins.map fun m => decInt m.top, c.margins.map fun m => decInt m.bottom]
  lines := [(c.borders.bind (·.left)).map lineOfBorder, (c.borders.bind (·.right)).map lineOfBorder,
    (c.borders.bind (·.top)).map lineOfBorder, (c.borders.bind (·.bottom)).map lineOfBorder]
  fill := c.backgroundColor.map (trimStartChar '#')

/-- How a cell should be shown that is covered by the one to its left. -/
def lookCovered : CellLook :=
  ⟨⟨[], none, none, some c!"1", none⟩, [], c!"l", c!"t", [none, none, none, none], [none, none, none, none], none⟩

/-! ### Nodes -/

/-- A line feed and white space. -/
def ws (n : Nat) : Node := .text ('\n' :: List.replicate n ' ')

/-- A border that can be read. -/
structure SafeBorder (b : CellBorder) : Prop where
  color : Plain b.color
  style : b.style ≠ .none

/-- Borders that can be read. -/
structure SafeBorders (b : CellBorders) : Prop where
  left : ∀ x ∈ b.left, SafeBorder x
  right : ∀ x ∈ b.right, SafeBorder x
  top : ∀ x ∈ b.top, SafeBorder x
  bottom : ∀ x ∈ b.bottom, SafeBorder x

/-- A cell whose colours and font stand for themselves in XML, and without borders of style `None`. -/
structure SafeCell (c : Cell) : Prop where
  color : ∀ x ∈ c.textColor, Plain x
  background : ∀ x ∈ c.backgroundColor, Plain x
  font : ∀ x ∈ c.fontFamily, Plain x
  borders : ∀ x ∈ c.borders, SafeBorders x

theorem plain_trimHash {c : Str} (h : Plain c) : Plain (trimStartChar '#' c) :=
  ⟨fun e => h.1 (mem_trimStartChar e), fun e => h.2.1 (mem_trimStartChar e), fun e => h.2.2 (mem_trimStartChar e)⟩

/-- A colour element. -/
def hashColor (c : Str) : Node := E c!"a:solidFill" [] [E c!"a:srgbClr" [(c!"val", trimStartChar '#' c)] []]

/-- The element of a border. -/
def borderNode (tag : Str) (b : CellBorder) : Node :=
  E tag [(c!"w", decInt b.width), (c!"cap", c!"flat"), (c!"cmpd", c!"sng"), (c!"algn", c!"ctr")]
    [ws 14, hashColor b.color, ws 14, E c!"a:prstDash" [(c!"val", b.style.asStr)] [], ws 12]

theorem plain_borderStyle (b : BorderStyle) : Plain b.asStr := by
  cases b <;> exact ⟨by decide, by decide, by decide⟩

theorem readsNodes_border {b : CellBorder} (h : SafeBorder b) (tag : Str)
    (ht : tag ∈ [c!"lnL", c!"lnR", c!"lnT", c!"lnB"]) : ReadsNodes (b.toXml tag) [borderNode (c!"a:" ++ tag) b] := by
  have p1 := plain_decInt b.width
  have p2 := plain_trimHash h.color
  have p3 := plain_borderStyle b.style
  unfold CellBorder.toXml
  rw [if_neg h.style]
  simp only [List.mem_cons, List.not_mem_nil, or_false] at ht
  rcases ht with rfl | rfl | rfl | rfl
  all_goals exact Splits.readsNodes (Splits.lit (by
    simp only [List.cons_append, List.nil_append]; parts_ok)) (by krfl)

/-- The elements of the borders of a cell. -/
def bordersNodes (b : CellBorders) : List Node :=
  b.left.toList.flatMap (fun x => [borderNode c!"a:lnL" x]) ++ b.right.toList.flatMap (fun x => [borderNode c!"a:lnR" x])
    ++ b.top.toList.flatMap (fun x => [borderNode c!"a:lnT" x]) ++ b.bottom.toList.flatMap (fun x => [borderNode c!"a:lnB" x])

theorem readsNodes_borders {b : CellBorders} (h : SafeBorders b) : ReadsNodes b.toXml (bordersNodes b) := by
  refine (((readsNodes_whenSome fun x hx => ?_).append (readsNodes_whenSome fun x hx => ?_)).append
    (readsNodes_whenSome fun x hx => ?_)).append (readsNodes_whenSome fun x hx => ?_)
  · exact readsNodes_border (h.left x hx) c!"lnL" (by decide)
  · exact readsNodes_border (h.right x hx) c!"lnR" (by decide)
  · exact readsNodes_border (h.top x hx) c!"lnT" (by decide)
  · exact readsNodes_border (h.bottom x hx) c!"lnB" (by decide)

theorem readsNodes_hash {o : Option Str} (h : ∀ x ∈ o, Plain x) :
    ReadsNodes (fillXml o) (o.toList.flatMap fun c => [hashColor c]) :=
  readsNodes_whenSome fun c hc => Splits.readsNodes (Splits.lit (by parts_ok; exact plain_trimHash (h c hc))) (by krfl)

theorem readsAttrs_whenSome {α : Type} {o : Option α} {f : α → List Part} {g : α → List (Str × Str)}
    (h : ∀ a ∈ o, ReadsAttrs (f a) (g a)) : ReadsAttrs (whenSome o f) (o.toList.flatMap g) := by
  cases o with
  | none => exact readsAttrs_nil
  | some a =>
    have := h a rfl
    simpa [whenSome] using this

/-- The spans. -/
def spanNodes (c : Cell) : List (Str × Str) :=
  (if decide (1 < c.rowSpan) then [(c!"rowSpan", dec c.rowSpan)] else [])
    ++ (if decide (1 < c.colSpan) then [(c!"gridSpan", dec c.colSpan)] else [])

theorem readsAttrs_spans (c : Cell) : ReadsAttrs c.spanAttrs (spanNodes c) :=
  (readsAttrs_whenSet ((Splits.lit (by parts_ok)).readsAttrs (fun top st n as => by krfl))).append
    (readsAttrs_whenSet ((Splits.lit (by parts_ok)).readsAttrs (fun top st n as => by krfl)))

/-- The attributes of a run. -/
def runNodeAttrs (c : Cell) : List (Str × Str) :=
  (if c.bold then [(c!"b", c!"1")] else []) ++ (if c.italic then [(c!"i", c!"1")] else [])
    ++ (if c.underline then [(c!"u", c!"sng")] else []) ++ (if c.strikethrough then [(c!"strike", c!"sngStrike")] else [])
    ++ c.fontSize.toList.flatMap fun n => [(c!"sz", dec (n * 100))]

theorem readsAttrs_run (c : Cell) : ReadsAttrs c.runAttrs (runNodeAttrs c) :=
  ((((readsAttrs_whenSet ((Splits.lit (by parts_ok)).readsAttrs (fun top st n as => by krfl))).append
    (readsAttrs_whenSet ((Splits.lit (by parts_ok)).readsAttrs (fun top st n as => by krfl)))).append
    (readsAttrs_whenSet ((Splits.lit (by parts_ok)).readsAttrs (fun top st n as => by krfl)))).append
    (readsAttrs_whenSet ((Splits.lit (by parts_ok)).readsAttrs (fun top st n as => by krfl)))).append
    (readsAttrs_whenSome fun n _ => (Splits.lit (by parts_ok)).readsAttrs (fun top st n as => by krfl))

theorem readsNodes_font {c : Cell} (h : SafeCell c) :
    ReadsNodes c.fontXml (c.fontFamily.toList.flatMap fun x => [E c!"a:latin" [(c!"typeface", x)] []]) :=
  readsNodes_whenSome fun x hx => Splits.readsNodes (Splits.lit (by parts_ok; exact h.font x hx)) (by krfl)

/-- The attributes of the properties of a cell. -/
def cellNodeAttrs (c : Cell) : List (Str × Str) :=
  [(c!"anchor", c.vAlign.asStr)] ++ c.margins.toList.flatMap fun m =>
    [(c!"marL", decInt m.left), (c!"marR", decInt m.right), (c!"marT", decInt m.top), (c!"marB", decInt m.bottom)]

theorem plain_vAlign (a : VAlign) : Plain a.asStr := by cases a <;> exact ⟨by decide, by decide, by decide⟩
theorem plain_hAlign (a : HAlign) : Plain a.asStr := by cases a <;> exact ⟨by decide, by decide, by decide⟩

theorem readsAttrs_congr {a b : List Part} {as : List (Str × Str)} (h : fmt a = fmt b) (g : ReadsAttrs b as) : ReadsAttrs a as := by
  unfold ReadsAttrs at *
  rwa [h]

theorem readsNodes_congr {a b : List Part} {ks : List Node} (h : fmt a = fmt b) (g : ReadsNodes b ks) : ReadsNodes a ks := by
  unfold ReadsNodes at *
  rwa [h]

theorem readsAttrs_margins (m : CellMargins) : ReadsAttrs
    t!" marL=\"{.raw (decInt m.left)}\" marR=\"{.raw (decInt m.right)}\" marT=\"{.raw (decInt m.top)}\" marB=\"{.raw (decInt m.bottom)}\""
    [(c!"marL", decInt m.left), (c!"marR", decInt m.right), (c!"marT", decInt m.top), (c!"marB", decInt m.bottom)] := by
  refine readsAttrs_congr (b := t!" marL=\"{.raw (decInt m.left)}\"" ++ t!" marR=\"{.raw (decInt m.right)}\""
    ++ t!" marT=\"{.raw (decInt m.top)}\"" ++ t!" marB=\"{.raw (decInt m.bottom)}\"") (by simp [fmt, Part.render]) ?_
  refine ((ReadsAttrs.append (x := [_]) (y := [_]) ?_ ?_).append (y := [_]) ?_).append (y := [_]) ?_
  all_goals exact (Splits.lit (by parts_ok; exact plain_decInt _)).readsAttrs (fun top st n as => by krfl)

theorem readsAttrs_cell (c : Cell) : ReadsAttrs c.cellAttrs (cellNodeAttrs c) :=
  ((Splits.lit (by parts_ok; exact plain_vAlign _)).readsAttrs (fun top st n as => by krfl)).append
    (readsAttrs_whenSome fun m _ => readsAttrs_margins m)

/-- The properties of the paragraph, and the white space around them. -/
def paraGap (c : Cell) : List Node :=
  if c.hAlign = .center then [.text c!"\n              \n              "]
  else [ws 14, E c!"a:pPr" [(c!"algn", c.hAlign.asStr)] [], ws 14]

/-- The properties of the run. -/
def runPropsNode (c : Cell) : Node :=
  E c!"a:rPr" ((c!"lang", c!"en-US") :: runNodeAttrs c)
    ((c.textColor.toList.flatMap fun c => [hashColor c]) ++ c.fontFamily.toList.flatMap fun x => [E c!"a:latin" [(c!"typeface", x)] []])

/-- The body of a cell. -/
def bodyNode (c : Cell) : Node :=
  E c!"a:txBody" [] [ws 12, E c!"a:bodyPr" [] [], ws 12, E c!"a:lstStyle" [] [], ws 12,
    E c!"a:p" [] (paraGap c ++ [E c!"a:r" [] [ws 16, runPropsNode c, ws 16, E c!"a:t" [] (addText [] c.text), ws 14], ws 12]), ws 10]

/-- The properties of a cell. -/
def cellPropsNode (c : Cell) : Node :=
  E c!"a:tcPr" (cellNodeAttrs c) (c.borders.toList.flatMap bordersNodes ++ c.backgroundColor.toList.flatMap fun c => [hashColor c])

/-- The element of a cell. -/
def cellNode (c : Cell) : Node :=
  if c.isMerged then E c!"a:tc" [(c!"hMerge", c!"1")] mergedCellKids
  else E c!"a:tc" (spanNodes c) [ws 10, bodyNode c, ws 10, cellPropsNode c, ws 8]

theorem readsNodes_tableCell {c : Cell} (h : SafeCell c) : ReadsNodes c.toXml [cellNode c] := by
  unfold Cell.toXml cellNode
  split
  · exact Splits.readsNodes (Splits.lit (by parts_ok)) (by krfl)
  · unfold bodyNode paraGap Cell.paraXml
    have p := plain_hAlign c.hAlign
    split
    · exact Splits.readsNodes ((((((((((((Splits.lit (by parts_ok)).append (.attrs (readsAttrs_spans c))).append
        (.lit (by parts_ok))).append (.lit (by parts_ok))).append (.lit (by parts_ok))).append
        (.attrs (readsAttrs_run c))).append (.lit (by parts_ok))).append (.nodes (readsNodes_hash h.color))).append
        (.nodes (readsNodes_font h))).append (.lit (by parts_ok))).append (.attrs (readsAttrs_cell c))).append
        (.lit (by parts_ok)) |>.append (.nodes (readsNodes_whenSome fun x hx => readsNodes_borders (h.borders x hx)))
        |>.append (.nodes (readsNodes_hash h.background)) |>.append (.lit (by parts_ok))) (by krfl)
    · exact Splits.readsNodes ((((((((((((Splits.lit (by parts_ok)).append (.attrs (readsAttrs_spans c))).append
        (.lit (by parts_ok))).append (.lit (by parts_ok))).append (.lit (by parts_ok))).append
        (.attrs (readsAttrs_run c))).append (.lit (by parts_ok))).append (.nodes (readsNodes_hash h.color))).append
        (.nodes (readsNodes_font h))).append (.lit (by parts_ok))).append (.attrs (readsAttrs_cell c))).append
        (.lit (by parts_ok)) |>.append (.nodes (readsNodes_whenSome fun x hx => readsNodes_borders (h.borders x hx)))
        |>.append (.nodes (readsNodes_hash h.background)) |>.append (.lit (by parts_ok))) (by krfl)

/-! ### How cells look -/

theorem attrOf_cellElem (k n : Str) (as : List (Str × Str)) (ks : List Node) : attrOf k (E n as ks) = as.lookup k := rfl

/-- The style is one that can be written. -/
def ShownStyle (b : CellBorder) : Prop := b.style ≠ .double ∧ b.style ≠ .none

theorem lineLook_border (tag : Str) (b : CellBorder) (h : ShownStyle b) : lineLook (borderNode tag b) = lineOfBorder b := by
  obtain ⟨h1, h2⟩ := h
  unfold lineOfBorder
  have e : some b.style.asStr = some (match b.style with | .dashed => c!"dash" | .dotted => c!"dot" | _ => c!"solid") := by
    revert h1 h2
    cases b.style <;> intro h1 h2 <;> first | exact absurd rfl h1 | exact absurd rfl h2 | rfl
  rw [if_neg h1, ← e]
  rfl

/-- All borders have a style that can be written. -/
def ShownStyles (b : CellBorders) : Prop :=
  (∀ x ∈ b.left, ShownStyle x) ∧ (∀ x ∈ b.right, ShownStyle x) ∧ (∀ x ∈ b.top, ShownStyle x) ∧ ∀ x ∈ b.bottom, ShownStyle x

theorem look_runs (c : Cell) : runLook (runPropsNode c) =
    ⟨c.bold, c.italic, if c.underline then some c!"sng" else none, if c.strikethrough then some c!"sngStrike" else none,
      c.fontSize.map fun n => dec (n * 100), c.textColor.map (trimStartChar '#'), c.fontFamily⟩ := by
  unfold runPropsNode runNodeAttrs runLook
  cases c.bold <;> cases c.italic <;> cases c.underline <;> cases c.strikethrough <;> cases c.fontSize <;>
    cases c.textColor <;> cases c.fontFamily <;> krfl

theorem look_props (c : Cell) (h : ∀ x ∈ c.borders, ShownStyles x) :
    (([c!"marL", c!"marR", c!"marT", c!"marB"].map fun n => attrOf n (cellPropsNode c)) =
      [c.margins.map fun m => decInt m.left, c.margins.map fun m => decInt m.right,
        c.margins.map fun m => decInt m.top, c.margins.map fun m => decInt m.bottom]) ∧
    (([c!"a:lnL", c!"a:lnR", c!"a:lnT", c!"a:lnB"].map fun n => (child n (cellPropsNode c)).map lineLook) =
      [(c.borders.bind (·.left)).map lineOfBorder, (c.borders.bind (·.right)).map lineOfBorder,
        (c.borders.bind (·.top)).map lineOfBorder, (c.borders.bind (·.bottom)).map lineOfBorder]) ∧
    fillColor (cellPropsNode c) = c.backgroundColor.map (trimStartChar '#') := by
  unfold cellPropsNode cellNodeAttrs
  refine ⟨?_, ?_, ?_⟩
  · cases c.margins <;> krfl
  · revert h
    cases c.borders with
    | none => intro _; cases c.backgroundColor <;> krfl
    | some b =>
      intro h
      obtain ⟨h1, h2, h3, h4⟩ := h b rfl
      obtain ⟨l, r, t, b⟩ := b
      simp only at h1 h2 h3 h4
      have e1 : ∀ x ∈ l, lineLook (borderNode c!"a:lnL" x) = lineOfBorder x := fun x hx => lineLook_border _ x (h1 x hx)
      have e2 : ∀ x ∈ r, lineLook (borderNode c!"a:lnR" x) = lineOfBorder x := fun x hx => lineLook_border _ x (h2 x hx)
      have e3 : ∀ x ∈ t, lineLook (borderNode c!"a:lnT" x) = lineOfBorder x := fun x hx => lineLook_border _ x (h3 x hx)
      have e4 : ∀ x ∈ b, lineLook (borderNode c!"a:lnB" x) = lineOfBorder x := fun x hx => lineLook_border _ x (h4 x hx)
      have f1 : l.map lineOfBorder = l.map fun x => lineLook (borderNode c!"a:lnL" x) := by
        cases l with | none => rfl | some x => simp [e1 x rfl]
      have f2 : r.map lineOfBorder = r.map fun x => lineLook (borderNode c!"a:lnR" x) := by
        cases r with | none => rfl | some x => simp [e2 x rfl]
      have f3 : t.map lineOfBorder = t.map fun x => lineLook (borderNode c!"a:lnT" x) := by
        cases t with | none => rfl | some x => simp [e3 x rfl]
      have f4 : b.map lineOfBorder = b.map fun x => lineLook (borderNode c!"a:lnB" x) := by
        cases b with | none => rfl | some x => simp [e4 x rfl]
      simp only [Option.bind_some, f1, f2, f3, f4]
      clear e1 e2 e3 e4 f1 f2 f3 f4 h1 h2 h3 h4 h
      cases l <;> cases r <;> cases t <;> cases b <;> cases c.backgroundColor <;> krfl
  · cases c.borders with
    | none => cases c.backgroundColor <;> krfl
    | some b =>
      obtain ⟨l, r, t, b⟩ := b
      cases l <;> cases r <;> cases t <;> cases b <;> cases c.backgroundColor <;> krfl

theorem elems_props (c : Cell) (n : Str) (hn : n ∈ [c!"a:rPr", c!"a:pPr", c!"a:t", c!"a:gridCol", c!"a:tr", c!"a:tc"]) : elems n (cellPropsNode c) = [] := by
  unfold cellPropsNode
  simp only [List.mem_cons, List.not_mem_nil, or_false] at hn
  cases c.borders with
  | none => rcases hn with rfl | rfl | rfl | rfl | rfl | rfl <;> cases c.backgroundColor <;> krfl
  | some b =>
    obtain ⟨l, r, t, b⟩ := b
    rcases hn with rfl | rfl | rfl | rfl | rfl | rfl <;> cases l <;> cases r <;> cases t <;> cases b <;> cases c.backgroundColor <;> krfl

theorem runs_props (c : Cell) : runs (cellPropsNode c) = [] := by
  unfold cellPropsNode
  cases c.borders with
  | none => cases c.backgroundColor <;> krfl
  | some b =>
    obtain ⟨l, r, t, b⟩ := b
    cases l <;> cases r <;> cases t <;> cases b <;> cases c.backgroundColor <;> krfl

theorem runs_rPr (c : Cell) : runs (runPropsNode c) = [] := by
  unfold runPropsNode
  cases c.textColor <;> cases c.fontFamily <;> krfl

theorem runs_body (c : Cell) : runs (bodyNode c) = [c.text] := by
  have h1 : textOf (addText [] c.text) = c.text := by rw [addText_eq]; exact textOf_textNode _
  have h2 : runsL (paraGap c) = [] := by unfold paraGap; split <;> krfl
  unfold bodyNode
  simp [runs, runsL, runsL_append, h1, h2, ws, runs_rPr]

theorem elems_body (c : Cell) (h : c.hAlign ≠ .center) :
    elems c!"a:rPr" (bodyNode c) = [runPropsNode c] ∧ elems c!"a:pPr" (bodyNode c) = [E c!"a:pPr" [(c!"algn", c.hAlign.asStr)] []]
    ∧ elems c!"a:tcPr" (bodyNode c) = [] := by
  unfold bodyNode paraGap runPropsNode
  rw [if_neg h]
  refine ⟨?_, ?_, ?_⟩ <;> cases c.text <;> cases c.textColor <;> cases c.fontFamily <;> krfl

theorem cellLook_node (c : Cell) (hm : c.isMerged = false) (ha : c.hAlign ≠ .center) (hb : ∀ x ∈ c.borders, ShownStyles x) :
    cellLook (cellNode c) = lookOf c := by
  obtain ⟨p1, p2, p3⟩ := look_props c hb
  obtain ⟨b1, b2, b3⟩ := elems_body c ha
  have hc : child c!"a:tcPr" (cellNode c) = some (cellPropsNode c) := by
    unfold cellNode; rw [hm]; rfl
  have hk : ∀ n, n ≠ c!"a:tc" → elems n (cellNode c) = elems n (bodyNode c) ++ elems n (cellPropsNode c) := by
    intro n hn
    unfold cellNode
    rw [hm]
    simp [elems, elemsL, ws, Ne.symm hn]
  have ht : elems c!"a:tcPr" (cellPropsNode c) = [cellPropsNode c] := by
    unfold cellPropsNode; simp [elems]
  unfold cellLook lookOf
  simp only [hc, Option.bind_some]
  rw [p1, p2, p3]
  have r1 : readCell (cellNode c) = ⟨[c.text], if 1 < c.colSpan then some (dec c.colSpan) else none,
    if 1 < c.rowSpan then some (dec c.rowSpan) else none, none, none⟩ := by
    have e : runs (cellNode c) = [c.text] := by
      unfold cellNode
      rw [hm]
      simp [runs, runsL, ws, runs_body, runs_props]
    have e2 : ∀ n, attrOf n (cellNode c) = (spanNodes c).lookup n := by
      intro n; unfold cellNode; rw [hm]; rfl
    unfold readCell
    rw [e, e2, e2, e2, e2]
    unfold spanNodes
    by_cases h1 : 1 < c.rowSpan <;> by_cases h2 : 1 < c.colSpan <;> simp only [h1, h2, decide_true, decide_false, if_true, if_false] <;> krfl
  have r2 : (elems c!"a:rPr" (cellNode c)).map runLook = [runLook (runPropsNode c)] := by
    rw [hk _ (by decide), b1, elems_props c _ (by decide)]; rfl
  have r3 : cellAlign (cellNode c) = hAlignCode c.hAlign := by
    unfold cellAlign
    rw [hk _ (by decide), b2]
    cases c.hAlign <;> rfl
  have r4 : Spec.cellAnchor (cellNode c) = vAlignCode c.vAlign := by
    unfold Spec.cellAnchor
    rw [hk _ (by decide), b3, ht]
    unfold cellPropsNode cellNodeAttrs
    cases c.vAlign <;> rfl
  rw [r1, r2, r3, r4, look_runs]

theorem cellLook_merged (c : Cell) (hm : c.isMerged = true) : cellLook (cellNode c) = lookCovered := by
  unfold cellNode
  rw [hm]
  krfl

/-! ### Rows and tables -/

theorem fmt_joined (sep : List Part) {l : List (List Part)} (h : l ≠ []) : fmt (sep ++ joined sep l) = fmt (l.flatMap fun x => sep ++ x) := by
  induction l with
  | nil => exact absurd rfl h
  | cons x l ih =>
    cases l with
    | nil => simp [joined]
    | cons y l =>
      have := ih (by simp)
      simp only [fmt_append] at this
      simp only [joined, fmt_append, List.flatMap_cons, List.append_assoc] at this ⊢
      rw [this]

/-- The element of a row. -/
def tableRowNode (r : Row) : Node :=
  E c!"a:tr" (r.height.toList.flatMap fun h => [(c!"h", decInt h)])
    (if r.cells = [] then [.text c!"\n        \n      "] else r.cells.flatMap (fun c => [ws 8, cellNode c]) ++ [ws 6])

theorem tagged_tableCell {c : Cell} (h : SafeCell c) : ReadsTagged c.toXml [cellNode c] := by
  refine (readsNodes_tableCell h).tagged ?_
  unfold Cell.toXml
  split <;> exact ⟨_, rfl⟩

theorem readsAttrs_height (o : Option Int) : ReadsAttrs (whenSome o fun h => t!" h=\"{.raw (decInt h)}\"")
    (o.toList.flatMap fun h => [(c!"h", decInt h)]) :=
  readsAttrs_whenSome fun h _ => (Splits.lit (by parts_ok; exact plain_decInt _)).readsAttrs (fun top st n as => by krfl)

theorem readsNodes_tableRow {r : Row} (h : ∀ c ∈ r.cells, SafeCell c) : ReadsNodes r.toXml [tableRowNode r] := by
  unfold tableRowNode
  by_cases hc : r.cells = []
  · unfold Row.toXml
    rw [hc, if_pos rfl]
    simp only [List.map_nil, joined]
    exact Splits.readsNodes (((((Splits.lit (by parts_ok)).append (.attrs (readsAttrs_height r.height))).append
      (.lit (by parts_ok))).append (.lit (by simp))).append (.lit (by parts_ok))) (by krfl)
  · rw [if_neg hc]
    refine readsNodes_congr (b := t!"<a:tr" ++ whenSome r.height (fun h => t!" h=\"{.raw (decInt h)}\"") ++ t!">"
      ++ r.cells.flatMap (fun c => t!"\n        " ++ c.toXml) ++ t!"\n      </a:tr>") ?_ ?_
    · have e := fmt_joined t!"\n        " (l := r.cells.map Cell.toXml) (by simpa using hc)
      rw [List.flatMap_map] at e
      simp only [fmt_append, ← e, Row.toXml]
      simp [fmt, Part.render]
    · exact Splits.readsNodes (((((Splits.lit (by parts_ok)).append (.attrs (readsAttrs_height r.height))).append
        (.lit (by parts_ok))).append (.nodes (readsNodes_flatMap (g := fun c => [ws 8, cellNode c]) fun c hc => Splits.readsNodes
          ((Splits.lit (by parts_ok)).append (.tagged (tagged_tableCell (h c hc)))) (by krfl)))).append
        (.lit (by parts_ok))) (by krfl)

theorem tagged_tableRow {r : Row} (h : ∀ c ∈ r.cells, SafeCell c) : ReadsTagged r.toXml [tableRowNode r] :=
  (readsNodes_tableRow h).tagged ⟨_, rfl⟩

/-- The element of a column. -/
def gridColNode (w : Int) : Node := E c!"a:gridCol" [(c!"w", decInt w)] []

theorem tagged_gridCol (w : Int) : ReadsTagged t!"<a:gridCol w=\"{.raw (decInt w)}\"/>" [gridColNode w] :=
  (Splits.readsNodes (Splits.lit (by parts_ok; exact plain_decInt _)) (by krfl)).tagged ⟨_, rfl⟩

/-- The columns. -/
def gridKids (l : List Int) : List Node :=
  if l = [] then [.text c!"\n        \n        "] else l.flatMap (fun w => [ws 8, gridColNode w]) ++ [ws 8]

/-- The rows. -/
def rowKids (l : List Row) : List Node :=
  if l = [] then [.text c!"\n      \n      "] else l.flatMap (fun r => [ws 6, tableRowNode r]) ++ [ws 6]

/-- The table proper. -/
def tblNode (t : Table) : Node :=
  E c!"a:tbl" [] ([ws 8, E c!"a:tblPr" [(c!"firstRow", c!"1"), (c!"bandRow", c!"1")]
      [ws 10, E c!"a:tableStyleId" [] [.text c!"{5C22544A-7EE6-4342-B048-85BDC9FD1C3A}"], ws 8], ws 8,
    E c!"a:tblGrid" [] (gridKids t.colWidths)] ++ rowKids t.rows)

/-- The frame of a table. -/
def framePartNode (t : Table) (id : Nat) : Node :=
  E c!"p:graphicFrame" [] [ws 2,
    E c!"p:nvGraphicFramePr" [] [ws 4, E c!"p:cNvPr" [(c!"id", dec id), (c!"name", c!"Table " ++ dec id)] [], ws 4,
      E c!"p:cNvGraphicFramePr" [] [E c!"a:graphicFrameLocks" [(c!"noGrp", c!"1")] []], ws 4, E c!"p:nvPr" [] [], ws 2], ws 2,
    E c!"p:xfrm" [] [ws 4, E c!"a:off" [(c!"x", decInt t.x), (c!"y", decInt t.y)] [], ws 4,
      E c!"a:ext" [(c!"cx", decInt t.width), (c!"cy", decInt t.height)] [], ws 2], ws 2,
    E c!"a:graphic" [] [ws 4, E c!"a:graphicData" [(c!"uri", c!"http://schemas.openxmlformats.org/drawingml/2006/table")]
      [ws 6, tblNode t, ws 4], ws 2], ws 0]

theorem gridParts_eq {l : List Int} (h : l ≠ []) : fmt (gridParts l) =
    fmt (l.flatMap (fun w => t!"\n        " ++ t!"<a:gridCol w=\"{.raw (decInt w)}\"/>") ++ t!"\n        ") := by
  have e := fmt_joined t!"\n        " (l := l.map fun w => t!"<a:gridCol w=\"{.raw (decInt w)}\"/>") (by simpa using h)
  rw [List.flatMap_map] at e
  unfold gridParts
  rw [fmt_append, e, ← fmt_append]

theorem rowParts_eq {l : List Row} (h : l ≠ []) : fmt (rowParts l) =
    fmt (l.flatMap (fun r => t!"\n      " ++ r.toXml) ++ t!"\n      ") := by
  have e := fmt_joined t!"\n      " (l := l.map Row.toXml) (by simpa using h)
  rw [List.flatMap_map] at e
  unfold rowParts
  rw [fmt_append, e, ← fmt_append]

theorem readsNodes_gridBox (l : List Int) : ReadsNodes (t!"<a:tblGrid>" ++ gridParts l ++ t!"</a:tblGrid>") [E c!"a:tblGrid" [] (gridKids l)] := by
  unfold gridKids
  by_cases h : l = []
  · subst h
    exact Splits.readsNodes (Splits.lit (by simp only [gridParts, joined, List.map_nil, List.cons_append, List.nil_append]; parts_ok)) (by krfl)
  · rw [if_neg h]
    refine readsNodes_congr (b := t!"<a:tblGrid>" ++ (l.flatMap (fun w => t!"\n        " ++ t!"<a:gridCol w=\"{.raw (decInt w)}\"/>") ++ t!"\n        ") ++ t!"</a:tblGrid>") ?_ ?_
    · rw [fmt_append, fmt_append, gridParts_eq h, ← fmt_append, ← fmt_append]
    · exact Splits.readsNodes (((Splits.lit (by parts_ok)).append ((Splits.nodes (readsNodes_flatMap (g := fun w => [ws 8, gridColNode w])
        fun w _ => Splits.readsNodes ((Splits.lit (by parts_ok)).append (.tagged (tagged_gridCol w))) (by krfl))).append (.lit (by parts_ok)))).append
        (.lit (by parts_ok))) (by krfl)

theorem tagged_gridBox (l : List Int) : ReadsTagged (t!"<a:tblGrid>" ++ gridParts l ++ t!"</a:tblGrid>") [E c!"a:tblGrid" [] (gridKids l)] :=
  (readsNodes_gridBox l).tagged ⟨_, rfl⟩

/-- A table whose cells can be read. -/
def SafeTable (t : Table) : Prop := ∀ r ∈ t.rows, ∀ c ∈ r.cells, SafeCell c

set_option maxRecDepth 8000 in
theorem readsNodes_tablePart {t : Table} (h : SafeTable t) (id : Nat) : ReadsNodes (t.toXml id) [framePartNode t id] := by
  have p1 := plain_decInt t.x
  have p2 := plain_decInt t.y
  have p3 := plain_decInt t.width
  have p4 := plain_decInt t.height
  unfold framePartNode tblNode rowKids
  by_cases hr : t.rows = []
  · rw [hr, if_pos rfl]
    unfold Table.toXml
    rw [hr]
    exact Splits.readsNodes ((((Splits.lit (by unfold tableHead; parts_ok)).append (.tagged (tagged_gridBox _))).append
      (.lit (by simp only [rowParts, joined, List.map_nil, List.cons_append, List.nil_append]; parts_ok))).append (.lit (by unfold tableTail; parts_ok))) (by krfl)
  · rw [if_neg hr]
    refine readsNodes_congr (b := tableHead t id ++ (t!"<a:tblGrid>" ++ gridParts t.colWidths ++ t!"</a:tblGrid>")
      ++ (t.rows.flatMap (fun r => t!"\n      " ++ r.toXml) ++ t!"\n      ") ++ tableTail) ?_ ?_
    · unfold Table.toXml
      rw [fmt_append, fmt_append, rowParts_eq hr, ← fmt_append, ← fmt_append]
    · exact Splits.readsNodes ((((Splits.lit (by unfold tableHead; parts_ok)).append (.tagged (tagged_gridBox _))).append
        ((Splits.nodes (readsNodes_flatMap (g := fun r => [ws 6, tableRowNode r])
        fun r hr => Splits.readsNodes ((Splits.lit (by parts_ok)).append (.tagged (tagged_tableRow (h r hr)))) (by krfl))).append (.lit (by parts_ok)))).append
        (.lit (by unfold tableTail; parts_ok))) (by krfl)

/-! ### C122 -/

theorem elemsL_flatMap_ws {α : Type} (n : Str) (k : Nat) (f : α → Node) (l : List α) :
    elemsL n (l.flatMap fun x => [ws k, f x]) = l.flatMap fun x => elems n (f x) := by
  induction l with
  | nil => rfl
  | cons a l ih =>
    rw [List.flatMap_cons, elemsL_append, ih]
    simp [elemsL, ws, elems]

theorem elems_row_cells (r : Row) : elems c!"a:tc" (tableRowNode r) = r.cells.map cellNode := by
  have h : ∀ c : Cell, elems c!"a:tc" (cellNode c) = [cellNode c] := by
    intro c; unfold cellNode; split <;> simp [elems]
  unfold tableRowNode
  rw [elems, if_neg (by decide)]
  split
  · rename_i e; rw [e]; rfl
  · rw [elemsL_append, elemsL_flatMap_ws]
    simp only [h]
    simp [elemsL, elems, ws, ← List.map_eq_flatMap]

theorem elems_table_rows (t : Table) : elems c!"a:tr" (tblNode t) = t.rows.map tableRowNode := by
  have h : ∀ r : Row, elems c!"a:tr" (tableRowNode r) = [tableRowNode r] := by
    intro r; unfold tableRowNode; simp [elems]
  have g : elemsL c!"a:tr" (gridKids t.colWidths) = [] := by
    unfold gridKids
    split
    · rfl
    · rw [elemsL_append, elemsL_flatMap_ws]
      simp [elemsL, elems, ws, gridColNode]
  unfold tblNode
  rw [elems, if_neg (by decide), elemsL_append]
  have : elemsL c!"a:tr" (rowKids t.rows) = t.rows.map tableRowNode := by
    unfold rowKids
    split
    · rename_i e; rw [e]; rfl
    · rw [elemsL_append, elemsL_flatMap_ws]
      simp only [h]
      simp [elemsL, elems, ws, ← List.map_eq_flatMap]
  rw [this]
  simp [elemsL, elems, ws, g]

theorem elems_table_columns (t : Table) : elems c!"a:gridCol" (tblNode t) = t.colWidths.map gridColNode := by
  have hc : ∀ c : Cell, elems c!"a:gridCol" (cellNode c) = [] := by
    intro c
    unfold cellNode
    split
    · krfl
    · have h1 := elems_props c c!"a:gridCol" (by decide)
      have h2 : elems c!"a:gridCol" (bodyNode c) = [] := by
        unfold bodyNode paraGap runPropsNode
        split <;> cases c.text <;> cases c.textColor <;> cases c.fontFamily <;> krfl
      simp [elems, elemsL, ws, h1, h2]
  have hr : ∀ r : Row, elems c!"a:gridCol" (tableRowNode r) = [] := by
    intro r
    unfold tableRowNode
    rw [elems, if_neg (by decide)]
    split
    · rfl
    · rw [elemsL_append, elemsL_flatMap_ws]
      simp [hc, elemsL, elems, ws]
  have g : elemsL c!"a:gridCol" (gridKids t.colWidths) = t.colWidths.map gridColNode := by
    have h : ∀ w, elems c!"a:gridCol" (gridColNode w) = [gridColNode w] := fun w => by simp [elems, gridColNode]
    unfold gridKids
    split
    · rename_i e; rw [e]; rfl
    · rw [elemsL_append, elemsL_flatMap_ws]
      simp only [h]
      simp [elemsL, elems, ws, ← List.map_eq_flatMap]
  have hk : elemsL c!"a:gridCol" (rowKids t.rows) = [] := by
    unfold rowKids
    split
    · rfl
    · rw [elemsL_append, elemsL_flatMap_ws]
      simp [hr, elemsL, elems, ws]
  unfold tblNode
  rw [elems, if_neg (by decide), elemsL_append, hk]
  simp [elemsL, elems, ws, g]

/-- A cell that is shown as it was set. -/
structure Shown (c : Cell) : Prop extends SafeCell c where
  align : c.isMerged = false → c.hAlign ≠ .center
  styles : c.isMerged = false → ∀ x ∈ c.borders, ShownStyles x

/-- The table as it was set. -/
def tableLookOf (t : Table) : TableLook :=
  ⟨t.colWidths.map fun w => some (decInt w), t.rows.map fun r => r.height.map decInt,
    t.rows.map fun r => r.cells.map fun c => if c.isMerged then lookCovered else lookOf c⟩

/-- **C122**, where it holds (no cell is centred, no border is double or off, colours and fonts contain no `&`, `<` or `"`):
the XML of a table part is one frame with the position, size and id it was given, and in it one table with the columns and
rows that were set, every cell with its text, spans, font, alignment, margins, borders and colours. -/
theorem C122_table_partial (t : Table) (id : Nat) (h : ∀ r ∈ t.rows, ∀ c ∈ r.cells, Shown c) :
    ∃ f tbl, parse (fmt (t.toXml id)) = some [f] ∧ elems c!"a:tbl" f = [tbl] ∧ tableLook tbl = tableLookOf t ∧
      ((child c!"p:nvGraphicFramePr" f).bind (child c!"p:cNvPr")).bind (attrOf c!"id") = some (dec id) ∧
      ((child c!"p:xfrm" f).bind (child c!"a:off")).map (fun k => (attrOf c!"x" k, attrOf c!"y" k)) =
        some (some (decInt t.x), some (decInt t.y)) ∧
      ((child c!"p:xfrm" f).bind (child c!"a:ext")).map (fun k => (attrOf c!"cx" k, attrOf c!"cy" k)) =
        some (some (decInt t.width), some (decInt t.height)) := by
  refine ⟨_, tblNode t, parse_of_nodes (readsNodes_tablePart (fun r hr c hc => (h r hr c hc).toSafeCell) id), ?_, ?_, ?_, ?_, ?_⟩
  · unfold framePartNode tblNode; simp [elems, elemsL, ws]
  · unfold tableLook tableLookOf
    simp only [elems_table_rows, elems_table_columns, List.map_map]
    congr 1
    · apply List.map_congr_left
      intro r hr
      simp only [Function.comp_apply]
      unfold tableRowNode
      cases r.height <;> rfl
    · apply List.map_congr_left
      intro r hr
      simp only [Function.comp_apply]
      rw [elems_row_cells, List.map_map]
      apply List.map_congr_left
      intro c hc
      have hs := h r hr c hc
      simp only [Function.comp_apply]
      cases hm : c.isMerged with
      | true => rw [cellLook_merged c hm]; rfl
      | false => rw [cellLook_node c hm (hs.align hm) (hs.styles hm)]; rfl
  · krfl
  · krfl
  · krfl

/-- A table to try. -/
def sampleTable : Table where
  rows := [⟨[{ text := c!"a & b", bold := true, hAlign := .right, colSpan := 2, borders := some (.all ⟨12700, c!"#FF0000", .dashed⟩), backgroundColor := some c!"#00FF00", textColor := some c!"0000FF", fontSize := some 12, fontFamily := some c!"Arial", margins := some ⟨1, 2, 3, -4⟩ }, .merged], some 400⟩,
    ⟨[{ text := [] }], none⟩]
  colWidths := [100, 200]

/-- Not vacuous. -/
example : (parse (fmt (sampleTable.toXml 7))).map (fun l => (elemsL c!"a:tbl" l).map tableLook) = some [tableLookOf sampleTable] := by
  krfl

/-- The columns of a table whose rows were added one by one: the width is divided evenly by the cells of the first row that has any. -/
theorem C122_columns (l : List Row) (t : Table) (h : t.colWidths = []) (r : Row) (hr : l.find? (fun r => !r.cells.isEmpty) = some r) :
    (l.foldl Table.addRow t).colWidths = List.replicate r.cells.length (t.width.tdiv r.cells.length) ∧
      (l.foldl Table.addRow t).rows = t.rows ++ l := by
  have keep : ∀ (l : List Row) (t : Table), t.colWidths ≠ [] →
      (l.foldl Table.addRow t).colWidths = t.colWidths ∧ (l.foldl Table.addRow t).rows = t.rows ++ l := by
    intro l
    induction l with
    | nil => intro t _; simp
    | cons x l ih =>
      intro t ht
      have := ih (t.addRow x) (by simp [Table.addRow, ht])
      rw [List.foldl_cons, this.1, this.2]
      simp [Table.addRow, ht]
  induction l generalizing t with
  | nil => simp at hr
  | cons x l ih =>
    rw [List.foldl_cons]
    by_cases hx : x.cells = []
    · have hr' : l.find? (fun r => !r.cells.isEmpty) = some r := by simpa [List.find?_cons, hx] using hr
      have := ih (t.addRow x) (by simp [Table.addRow, h, hx]) hr'
      rw [this.1, this.2]
      simp [Table.addRow]
    · have e : x = r := by
        have : (!x.cells.isEmpty) = true := by cases hc : x.cells <;> simp_all
        simpa [List.find?_cons, this] using hr
      subst e
      have hl : x.cells.length ≠ 0 := by simpa using hx
      have := keep l (t.addRow x) (by simp [Table.addRow, h, hx])
      rw [this.1, this.2]
      simp [Table.addRow, h, hx]

example : ([⟨[], none⟩, ⟨[{ text := c!"a" }, { text := c!"b" }], none⟩, ⟨[{ text := c!"c" }], none⟩].foldl Table.addRow { width := 1001 }).colWidths
    = [500, 500] := by krfl

/-- **C122 does not hold in full.** A centred cell of a table part is shown with its text on the left: for the alignment
`Center` no paragraph properties are written, but the default of the format is left. -/
theorem C122_center_violated (c : Cell) (h : SafeCell c) (hm : c.isMerged = false) :
    ∃ k, parse (fmt c.center.toXml) = some [k] ∧ cellAlign k = c!"l" := by
  have hs : SafeCell c.center := ⟨h.color, h.background, h.font, h.borders⟩
  refine ⟨_, parse_of_nodes (readsNodes_tableCell hs), ?_⟩
  have e : elems c!"a:pPr" (cellNode c.center) = [] := by
    have e1 := elems_props c.center c!"a:pPr" (by decide)
    have e2 : elems c!"a:pPr" (bodyNode c.center) = [] := by
      unfold bodyNode paraGap runPropsNode
      rw [if_pos (show c.center.hAlign = .center from rfl)]
      cases c.center.text <;> cases c.center.textColor <;> cases c.center.fontFamily <;> krfl
    unfold cellNode
    rw [show c.center.isMerged = false from hm]
    simp [elems, elemsL, ws, e1, e2]
  unfold cellAlign
  rw [e]
  rfl

/-- **C122 does not hold in full.** A double border is written as a dash with the name `dbl`, which does not exist, and as a
single line; Office reports such a file as damaged. -/
theorem C122_double_border_violated (b : CellBorder) (hp : Plain b.color) (hd : b.style = .double) :
    ∃ k, parse (fmt (b.toXml c!"lnL")) = some [k] ∧ (lineLook k).dash = some c!"dbl" ∧ c!"dbl" ∉ dashValues ∧
      (lineLook k).compound = some c!"sng" := by
  refine ⟨_, parse_of_nodes (readsNodes_border ⟨hp, by rw [hd]; decide⟩ c!"lnL" (by decide)), ?_, by decide, rfl⟩
  unfold borderNode
  rw [hd]
  rfl

example : ∃ b : CellBorder, Plain b.color ∧ b.style = .double := ⟨⟨0, [], .double⟩, ⟨by decide, by decide, by decide⟩, rfl⟩

/-- **C122 does not hold in full.** Borders that were switched off are written as lines without any properties: no element
says that there is no line, so that the lines of the style of the table stay. -/
theorem C122_no_border_violated : (parse (fmt ({ text := c!"x", borders := some .off } : Cell).toXml)).map (fun l =>
      (elemsL c!"a:lnL" l).map kidsOf) = some [[]] := by krfl

/-- **C122 does not hold in full.** A cell that is covered by the cell above it is written as covered by the one to its left,
since there is only one kind of covered cell. -/
theorem C122_row_span_violated :
    (parse (fmt (({ rows := [⟨[{ text := c!"a", rowSpan := 2 }, { text := c!"b" }], none⟩, ⟨[.merged, { text := c!"c" }], none⟩] } : Table).toXml 2))).map
      (fun l => (tableCells l).map (·.map fun c => (c.coveredLeft, c.coveredAbove))) =
      some [[(none, none), (none, none)], [(some c!"1", none), (none, none)]] := by krfl

/-- **C122 does not hold in full.** A row whose height was not set is written without a height, which is a required attribute. -/
theorem C122_row_height_violated (r : Row) (h : ∀ c ∈ r.cells, SafeCell c) (hh : r.height = none) :
    ∃ k, parse (fmt r.toXml) = some [k] ∧ attrOf c!"h" k = none := by
  refine ⟨_, parse_of_nodes (readsNodes_tableRow h), ?_⟩
  unfold tableRowNode
  rw [hh]
  rfl

/-- **C122 does not hold in full.** Setting the size of a table after its rows changes the frame but not the columns. -/
theorem C122_size_violated (r : Row) (w h : Int) :
    ((({} : Table).addRow r).size w h).colWidths = (({} : Table).addRow r).colWidths := rfl

/-- **C122 does not hold in full.** Fonts and colours are not escaped: a font with an ampersand in its name gives a part that
is not XML. -/
theorem C122_font_violated : parse (fmt ({ text := c!"x", fontFamily := some c!"A&B" } : Cell).toXml) = none := by krfl

/-- **C122 does not hold in full.** A table part that is read from XML is always empty. -/
theorem C122_from_xml_violated (x : Str) : (Table.fromXml x).map (·.rows.length) = some 0 := rfl

end PptRs.Props
