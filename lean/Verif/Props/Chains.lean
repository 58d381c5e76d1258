import Verif.Model.Chains
import Verif.Spec.Chains
import Mathlib.Data.List.Induction

/-!
# Chains of calls (C141)
-/

namespace PptRs.Props

open PptRs PptRs.Spec PptRs.Draw PptRs.Chains

/-! ### The two rules -/

theorem chain_last {σ ω α : Type} (run : σ → ω → σ) (get : σ → α) (sets : ω → Option α)
    (h : ∀ s o, get (run s o) = (sets o).getD (get s)) (calls : List ω) :
    ∀ s, get (calls.foldl run s) = lastSet sets (get s) calls := by
  induction calls with
  | nil => intro s; rfl
  | cons o calls ih =>
    intro s
    rw [List.foldl_cons, ih, h]
    unfold lastSet
    cases ho : sets o with
    | none => rw [List.filterMap_cons_none ho]; rfl
    | some a =>
      rw [List.filterMap_cons_some ho, List.getLast?_cons]
      cases (calls.filterMap sets).getLast? <;> rfl

theorem chain_adds {σ ω α : Type} (run : σ → ω → σ) (get : σ → List α) (adds : ω → List α)
    (h : ∀ s o, get (run s o) = get s ++ adds o) (calls : List ω) :
    ∀ s, get (calls.foldl run s) = get s ++ calls.flatMap adds := by
  induction calls with
  | nil => intro s; simp
  | cons o calls ih => intro s; rw [List.foldl_cons, ih, h, List.flatMap_cons, List.append_assoc]

theorem chain_keeps {σ ω : Type} (run : σ → ω → σ) (P : σ → Prop) (h : ∀ s o, P s → P (run s o)) (calls : List ω) :
    ∀ s, P s → P (calls.foldl run s) := by
  induction calls with
  | nil => intro s hs; exact hs
  | cons o calls ih => intro s hs; exact ih _ (h s o hs)

/-! ### Bullets -/

/-- **C141.** After any calls on the format of a bullet every setting is the last that was asked for. -/
theorem C141_format (f : BulletTextFormat) (calls : List FormatCall) :
    let g := calls.foldl FormatCall.run f
    g.bold = lastSet (fun | .bold => some true | _ => none) f.bold calls ∧
    g.italic = lastSet (fun | .italic => some true | _ => none) f.italic calls ∧
    g.underline = lastSet (fun | .underline => some true | _ => none) f.underline calls ∧
    g.strikethrough = lastSet (fun | .strikethrough => some true | _ => none) f.strikethrough calls ∧
    g.subscript = lastSet (fun | .subscript => some true | .superscript => some false | _ => none) f.subscript calls ∧
    g.superscript =
      lastSet (fun | .superscript => some true | .subscript => some false | _ => none) f.superscript calls ∧
    g.color = lastSet (fun | .color c => some (some (cleanColor c)) | _ => none) f.color calls ∧
    g.highlight = lastSet (fun | .highlight c => some (some (cleanColor c)) | _ => none) f.highlight calls ∧
    g.fontSize = lastSet (fun | .fontSize n => some (some n) | _ => none) f.fontSize calls ∧
    g.fontFamily = lastSet (fun | .fontFamily s => some (some s) | _ => none) f.fontFamily calls := by
  refine ⟨?_, ?_, ?_, ?_, ?_, ?_, ?_, ?_, ?_, ?_⟩ <;>
    exact chain_last FormatCall.run _ _ (fun s o => by cases o <;> rfl) calls f

/-- **C141.** Text is never both lowered and raised. -/
theorem C141_one_script (calls : List FormatCall) :
    ¬ ((calls.foldl FormatCall.run {}).subscript = true ∧ (calls.foldl FormatCall.run {}).superscript = true) := by
  refine chain_keeps FormatCall.run (fun f => ¬ (f.subscript = true ∧ f.superscript = true)) ?_ calls {} (by decide)
  intro s o h
  cases o <;> simp_all [FormatCall.run]

example : (([FormatCall.subscript, .bold, .superscript, .color c!"#ab12cd", .color c!"#00ff00"]).foldl FormatCall.run
    {}).subscript = false ∧
    (([FormatCall.subscript, .bold, .superscript, .color c!"#ab12cd", .color c!"#00ff00"]).foldl FormatCall.run
    {}).color = some c!"00FF00" := by decide +kernel

/-- The format that a call on a bullet gives or changes. -/
private def inFormat (c : BulletCall) : Bool := match c with
  | .level _ | .style _ => false
  | _ => true

/-- **C141.** After any calls on a bullet its text is that it was made with, its level and style are the last asked for, and
so is every setting of its format. A format that is set as a whole replaces all settings. -/
theorem C141_bullet (t : Str) (calls : List BulletCall) :
    let b := calls.foldl BulletCall.run (newBullet t)
    let f := b.format.getD {}
    b.text = t ∧
    b.level = lastSet (fun | .level n => some n | _ => none) 0 calls ∧
    b.style = lastSet (fun | .style s => some s | _ => none) .bullet calls ∧
    (b.format.isSome ↔ ∃ c ∈ calls, (∀ n, c ≠ .level n) ∧ ∀ s, c ≠ .style s) ∧
    f.bold = lastSet (fun | .format f => some f.bold | .bold => some true | _ => none) false calls ∧
    f.italic = lastSet (fun | .format f => some f.italic | .italic => some true | _ => none) false calls ∧
    f.underline = lastSet (fun | .format f => some f.underline | _ => none) false calls ∧
    f.strikethrough =
      lastSet (fun | .format f => some f.strikethrough | .strikethrough => some true | _ => none) false calls ∧
    f.subscript = lastSet (fun
      | .format f => some f.subscript | .subscript => some true | .superscript => some false | _ => none) false calls ∧
    f.superscript = lastSet (fun
      | .format f => some f.superscript | .superscript => some true | .subscript => some false | _ => none) false calls ∧
    f.color = lastSet (fun | .format f => some f.color | .color c => some (some (cleanColor c)) | _ => none) none calls ∧
    f.highlight =
      lastSet (fun | .format f => some f.highlight | .highlight c => some (some (cleanColor c)) | _ => none) none calls ∧
    f.fontSize = lastSet (fun | .format f => some f.fontSize | .fontSize n => some (some n) | _ => none) none calls ∧
    f.fontFamily = lastSet (fun | .format f => some f.fontFamily | _ => none) none calls := by
  refine ⟨?_, ?_, ?_, ?_, ?_, ?_, ?_, ?_, ?_, ?_, ?_, ?_, ?_, ?_⟩
  · exact chain_keeps BulletCall.run (fun b => b.text = t) (fun s o h => by cases o <;> exact h) calls _ rfl
  · exact chain_last BulletCall.run (·.level) _ (fun s o => by cases o <;> rfl) calls _
  · exact chain_last BulletCall.run (·.style) _ (fun s o => by cases o <;> rfl) calls _
  · have key : ∀ (calls : List BulletCall) (b : BulletPoint), (calls.foldl BulletCall.run b).format.isSome =
        (b.format.isSome || calls.any inFormat) := by
      intro calls
      induction calls with
      | nil => intro b; simp
      | cons o calls ih => intro b; rw [List.foldl_cons, ih, List.any_cons]; cases o <;>
          simp [BulletCall.run, inFormat, onFormat]
    have : ∀ c : BulletCall, inFormat c = true ↔ ((∀ n, c ≠ .level n) ∧ ∀ s, c ≠ .style s) := by
      intro c; cases c <;> simp [inFormat]
    rw [key]
    simp [newBullet, List.any_eq_true, this]
  · exact chain_last BulletCall.run (fun b => (b.format.getD {}).bold) _ (fun s o => by cases o <;> rfl) calls _
  · exact chain_last BulletCall.run (fun b => (b.format.getD {}).italic) _ (fun s o => by cases o <;> rfl) calls _
  · exact chain_last BulletCall.run (fun b => (b.format.getD {}).underline) _ (fun s o => by cases o <;> rfl) calls _
  · exact chain_last BulletCall.run (fun b => (b.format.getD {}).strikethrough) _ (fun s o => by cases o <;> rfl) calls _
  · exact chain_last BulletCall.run (fun b => (b.format.getD {}).subscript) _ (fun s o => by cases o <;> rfl) calls _
  · exact chain_last BulletCall.run (fun b => (b.format.getD {}).superscript) _ (fun s o => by cases o <;> rfl) calls _
  · exact chain_last BulletCall.run (fun b => (b.format.getD {}).color) _ (fun s o => by cases o <;> rfl) calls _
  · exact chain_last BulletCall.run (fun b => (b.format.getD {}).highlight) _ (fun s o => by cases o <;> rfl) calls _
  · exact chain_last BulletCall.run (fun b => (b.format.getD {}).fontSize) _ (fun s o => by cases o <;> rfl) calls _
  · exact chain_last BulletCall.run (fun b => (b.format.getD {}).fontFamily) _ (fun s o => by cases o <;> rfl) calls _

example : ((([BulletCall.bold, .level 2, .color c!"#ff0000"]).foldl BulletCall.run (newBullet c!"x")).format.getD {}).bold =
    true ∧
    (([BulletCall.bold, .level 2, .color c!"#ff0000", .format {}]).foldl BulletCall.run (newBullet c!"x")).level = 2 ∧
    ((([BulletCall.bold, .level 2, .color c!"#ff0000", .format {}]).foldl BulletCall.run
      (newBullet c!"x")).format.getD {}).bold = false := by decide +kernel

/-- **C141.** The indent of a level puts the first line half an inch further right for each level; it can be computed up
to level 4696 and no further. -/
theorem C141_indent (level : Nat) :
    (level ≤ 4696 ↔ (indentXml level).isSome) ∧
    ∀ indent margin, indentXml level = some (indent, margin) → margin - indent = level * 457200 ∧
      indent = 457200 * (level + 1) := by
  unfold indentXml
  refine ⟨?_, ?_⟩
  · split <;> simp <;> omega
  · intro i m h
    split at h
    · simp only [Option.some.injEq, Prod.mk.injEq] at h
      omega
    · cases h

example : indentXml 2 = some (1371600, 2286000) := by decide +kernel

/-! ### Cells and tables -/

/-- **C141.** After any calls on a cell every setting is the last that was asked for. -/
theorem C141_cell (t : Str) (calls : List CellCall) :
    let c := calls.foldl CellCall.run (newCell t)
    c.text = t ∧
    c.bold = lastSet (fun | .bold => some true | _ => none) false calls ∧
    c.italic = lastSet (fun | .italic => some true | _ => none) false calls ∧
    c.underline = lastSet (fun | .underline => some true | _ => none) false calls ∧
    c.textColor = lastSet (fun | .textColor s => some (some (cleanColor s)) | _ => none) none calls ∧
    c.backgroundColor = lastSet (fun | .backgroundColor s => some (some (cleanColor s)) | _ => none) none calls ∧
    c.fontSize = lastSet (fun | .fontSize n => some (some n) | _ => none) none calls ∧
    c.fontFamily = lastSet (fun | .fontFamily n => some (some n) | _ => none) none calls ∧
    c.align = lastSet (fun
      | .align a => some a | .alignLeft => some .left | .alignRight => some .right | .alignCenter => some .center
      | _ => none) .center calls ∧
    c.valign = lastSet (fun
      | .valign a => some a | .valignTop => some .top | .valignBottom => some .bottom | _ => none) .middle calls ∧
    c.gridSpan = lastSet (fun | .gridSpan n => some (some n) | _ => none) none calls ∧
    c.rowSpan = lastSet (fun | .rowSpan n => some (some n) | _ => none) none calls ∧
    c.hMerge = lastSet (fun | .hMerge => some true | _ => none) false calls ∧
    c.vMerge = lastSet (fun | .vMerge => some true | _ => none) false calls := by
  refine ⟨?_, ?_, ?_, ?_, ?_, ?_, ?_, ?_, ?_, ?_, ?_, ?_, ?_, ?_⟩
  · exact chain_keeps CellCall.run (fun c => c.text = t) (fun s o h => by cases o <;> exact h) calls _ rfl
  all_goals exact chain_last CellCall.run _ _ (fun s o => by cases o <;> rfl) calls _

example : (([CellCall.alignLeft, .gridSpan 2, .align .right, .bold]).foldl CellCall.run (newCell c!"a")).align = .right ∧
    (headerCell c!"h").bold = true ∧ (headerCell c!"h").backgroundColor = some c!"4472C4" := by decide +kernel

/-- **C141.** A header cell is bold white text on blue and otherwise as a new cell. -/
theorem C141_header_cell (t : Str) : headerCell t =
    { newCell t with bold := true, backgroundColor := some c!"4472C4", textColor := some c!"FFFFFF" } := by
  have h : cleanColor c!"4472C4" = c!"4472C4" ∧ cleanColor c!"FFFFFF" = c!"FFFFFF" := by decide +kernel
  unfold headerCell
  simp only [List.foldl_cons, List.foldl_nil, CellCall.run, h.1, h.2]

example : (headerCell c!"h").textColor = some c!"FFFFFF" ∧ (headerCell c!"h").text = c!"h" := by decide +kernel

/-- **C141 does not hold in full.** `wrap(false)` on a cell of a table has no effect: the setting is kept, and nothing
reads it, so the written table is the same. -/
theorem C141_wrap_violated (c : CellIn) (b : Bool) (pre post : List CellCall) :
    (pre ++ .wrap b :: post).foldl CellCall.run c = (pre ++ post).foldl CellCall.run c := by
  rw [List.foldl_append, List.foldl_cons, List.foldl_append]
  rfl

/-- **C141.** A built table has the rows asked for in their order, the last position and the widths it was made with.
A table made from data is the one built from its rows. -/
theorem C141_table (ws : List Nat) (calls : List TableCall) :
    let t := calls.foldl TableCall.run (newTable ws)
    t.columnWidths = ws ∧
    t.rows = calls.flatMap (fun
      | .row r => [r]
      | .simple l => [⟨none, l.map fun s => { text := s }⟩]
      | .position _ _ => []) ∧
    (t.x, t.y) = lastSet (fun | .position x y => some (x, y) | _ => none) (0, 0) calls ∧
    ∀ data x y, fromData data ws x y = (data.map TableCall.simple ++ [TableCall.position x y]).foldl TableCall.run (newTable ws) := by
  refine ⟨?_, ?_, ?_, ?_⟩
  · exact chain_keeps TableCall.run (fun t => t.columnWidths = ws) (fun s o h => by cases o <;> exact h) calls _ rfl
  · exact chain_adds TableCall.run (·.rows) _ (fun s o => by cases o <;> simp [TableCall.run, newRow, newCell]) calls _
  · exact chain_last TableCall.run (fun t => (t.x, t.y)) _ (fun s o => by cases o <;> rfl) calls _
  · intro data x y
    have key : ∀ (data : List (List Str)) (t : TableIn), (data.map TableCall.simple).foldl TableCall.run t =
        { t with rows := t.rows ++ data.map fun r => newRow (r.map newCell) } := by
      intro data
      induction data with
      | nil => intro t; simp
      | cons r data ih => intro t; rw [List.map_cons, List.foldl_cons, ih]; simp [TableCall.run]
    rw [List.foldl_append, key]
    rfl

/-- **C141.** The size of a table is the sum of its widths and of the heights of its rows, where a row without a height
counts 400000; a table whose sums exceed 32 bits has none. -/
theorem C141_table_size (t : TableIn) (w h : Nat) :
    (tableWidth t = some w ↔ t.columnWidths.sum = w ∧ w < 2 ^ 32) ∧
    (tableHeight t = some h ↔ (t.rows.map fun r => match r.height with | some x => x | none => 400000).sum = h ∧
      h < 2 ^ 32) := by
  have e : (t.rows.map fun r => match r.height with | some x => x | none => 400000) =
      t.rows.map fun r => r.height.getD 400000 := by
    refine List.map_congr_left fun r _ => ?_
    cases r.height <;> rfl
  rw [e]
  unfold tableWidth tableHeight
  constructor <;> (split <;> simp <;> omega)

example : tableHeight ((([TableCall.row (withHeight (newRow []) 5), .simple [c!"a"], .position 3 4])).foldl TableCall.run
    (newTable [1, 2])) = some 400005 ∧ tableWidth (newTable [1, 2]) = some 3 := by decide +kernel

/-! ### Connectors and shapes -/

/-- **C141.** After any calls on a connector every setting is the last that was asked for; a line that is set as a whole
replaces its colour, width and dashes; a shape and its site are set together. -/
theorem C141_connector (k : ConnectorType) (x y x' y' : Nat) (calls : List ConnectorCall) :
    let c := calls.foldl ConnectorCall.run (newConnector k x y x' y')
    (c.kind, c.startX, c.startY, c.endX, c.endY) = (k, x, y, x', y') ∧
    c.line.color = lastSet (fun | .line l => some l.color | .color s => some (cleanColor s) | _ => none) c!"000000" calls ∧
    c.line.width = lastSet (fun | .line l => some l.width | .width n => some n | _ => none) 12700 calls ∧
    c.line.dash = lastSet (fun | .line l => some l.dash | _ => none) .solid calls ∧
    c.startArrow = lastSet (fun | .startArrow a => some a | .arrows a _ => some a | _ => none) .none calls ∧
    c.endArrow = lastSet (fun | .endArrow a => some a | .arrows _ a => some a | _ => none) .none calls ∧
    c.arrowSize = lastSet (fun | .arrowSize s => some s | _ => none) .medium calls ∧
    (c.startShape, c.startSite) =
      lastSet (fun | .connectStart i s => some (some i, some s) | _ => none) (none, none) calls ∧
    (c.endShape, c.endSite) = lastSet (fun | .connectEnd i s => some (some i, some s) | _ => none) (none, none) calls ∧
    c.label = lastSet (fun | .label s => some (some s) | _ => none) none calls := by
  refine ⟨?_, ?_, ?_, ?_, ?_, ?_, ?_, ?_, ?_, ?_⟩
  · exact chain_keeps ConnectorCall.run (fun c => (c.kind, c.startX, c.startY, c.endX, c.endY) = (k, x, y, x', y'))
      (fun s o h => by cases o <;> exact h) calls _ rfl
  · exact chain_last ConnectorCall.run (·.line.color) _ (fun s o => by cases o <;> rfl) calls _
  · exact chain_last ConnectorCall.run (·.line.width) _ (fun s o => by cases o <;> rfl) calls _
  · exact chain_last ConnectorCall.run (·.line.dash) _ (fun s o => by cases o <;> rfl) calls _
  · exact chain_last ConnectorCall.run (·.startArrow) _ (fun s o => by cases o <;> rfl) calls _
  · exact chain_last ConnectorCall.run (·.endArrow) _ (fun s o => by cases o <;> rfl) calls _
  · exact chain_last ConnectorCall.run (·.arrowSize) _ (fun s o => by cases o <;> rfl) calls _
  · exact chain_last ConnectorCall.run (fun c => (c.startShape, c.startSite)) _ (fun s o => by cases o <;> rfl) calls _
  · exact chain_last ConnectorCall.run (fun c => (c.endShape, c.endSite)) _ (fun s o => by cases o <;> rfl) calls _
  · exact chain_last ConnectorCall.run (·.label) _ (fun s o => by cases o <;> rfl) calls _

/-- **C141.** A line has the colour without a number sign and in capitals, the width and the dashes it was made with. -/
theorem C141_line (color : Str) (width : Nat) (d : LineDash) :
    newLine color width = ⟨(trimStartChar '#' color).map Char.toUpper, width, .solid⟩ ∧
    withDash (newLine color width) d = ⟨(trimStartChar '#' color).map Char.toUpper, width, d⟩ := ⟨rfl, rfl⟩

example : (([ConnectorCall.width 5, .line (withDash (newLine c!"#a0b0c0" 7) .dash), .color c!"#112233"]).foldl
    ConnectorCall.run (newConnector .straight 0 0 1 1)).line.width = 7 ∧
    (([ConnectorCall.width 5, .line (withDash (newLine c!"#a0b0c0" 7) .dash), .color c!"#112233"]).foldl
    ConnectorCall.run (newConnector .straight 0 0 1 1)).line.color = c!"112233" := by decide +kernel

/-- **C141.** After any calls on a shape every setting is the last that was asked for; a plain colour takes a gradient
away, and the other way round. -/
theorem C141_shape (k : ShapeType) (x y w h : Nat) (calls : List ShapeCall) :
    let s := calls.foldl ShapeCall.run (newShape k x y w h)
    s.kind = k ∧
    (s.x, s.y) = lastSet (fun | .position x y => some (x, y) | _ => none) (x, y) calls ∧
    (s.width, s.height) = lastSet (fun | .size w h => some (w, h) | _ => none) (w, h) calls ∧
    s.id = lastSet (fun | .id n => some (some n) | _ => none) none calls ∧
    s.rotation = lastSet (fun | .rotation n => some (some n) | _ => none) none calls ∧
    s.link = lastSet (fun | .hyperlink l => some (some l) | _ => none) none calls ∧
    s.line = lastSet (fun | .line l => some (some l) | _ => none) none calls ∧
    s.text = lastSet (fun | .text l => some (some l) | _ => none) none calls ∧
    (s.fill, s.gradient) = lastSet (fun | .fill f => some (some f, none) | .gradient g => some (none, some g) | _ => none)
      (none, none) calls := by
  refine ⟨?_, ?_, ?_, ?_, ?_, ?_, ?_, ?_, ?_⟩
  · exact chain_keeps ShapeCall.run (fun s => s.kind = k) (fun s o h => by cases o <;> exact h) calls _ rfl
  · exact chain_last ShapeCall.run (fun s => (s.x, s.y)) _ (fun s o => by cases o <;> rfl) calls _
  · exact chain_last ShapeCall.run (fun s => (s.width, s.height)) _ (fun s o => by cases o <;> rfl) calls _
  · exact chain_last ShapeCall.run (·.id) _ (fun s o => by cases o <;> rfl) calls _
  · exact chain_last ShapeCall.run (·.rotation) _ (fun s o => by cases o <;> rfl) calls _
  · exact chain_last ShapeCall.run (·.link) _ (fun s o => by cases o <;> rfl) calls _
  · exact chain_last ShapeCall.run (·.line) _ (fun s o => by cases o <;> rfl) calls _
  · exact chain_last ShapeCall.run (·.text) _ (fun s o => by cases o <;> rfl) calls _
  · exact chain_last ShapeCall.run (fun s => (s.fill, s.gradient)) _ (fun s o => by cases o <;> rfl) calls _

/-! ### Slides -/

section

variable {Sh Im Co Vi Au Ch In : Type}

/-- The default style of bullets after some calls. -/
def styleAsked (calls : List (SlideCall Sh Im Co Vi Au Ch In)) : BulletStyle :=
  lastSet (fun | .bulletStyle s => some s | _ => none) .bullet calls

/-- The bullets that a call adds when the default style is `d`. -/
def bulletAsked (d : BulletStyle) : SlideCall Sh Im Co Vi Au Ch In → List BulletPoint
  | .bullet t => [{ text := t, style := d }]
  | .styledBullet t s => [{ text := t, style := s }]
  | .numbered t => [{ text := t, style := .number }]
  | .lettered t => [{ text := t, style := .letterLower }]
  | .subBullet t => [{ text := t, level := 1, style := d }]
  | _ => []

/-- **C141.** After any calls on a slide every setting of its text is the last that was asked for. -/
theorem C141_slide_text (title : Str) (calls : List (SlideCall Sh Im Co Vi Au Ch In)) :
    let s := (calls.foldl SlideCall.run (newSlide title)).text
    s.title = title ∧
    s.titleSize = lastSet (fun | .titleSize n => some (some n) | _ => none) (some 44) calls ∧
    s.contentSize = lastSet (fun | .contentSize n => some (some n) | _ => none) (some 28) calls ∧
    s.titleBold = lastSet (fun | .titleBold b => some b | _ => none) true calls ∧
    s.contentBold = lastSet (fun | .contentBold b => some b | _ => none) false calls ∧
    s.titleItalic = lastSet (fun | .titleItalic b => some b | _ => none) false calls ∧
    s.contentItalic = lastSet (fun | .contentItalic b => some b | _ => none) false calls ∧
    s.titleUnderline = lastSet (fun | .titleUnderline b => some b | _ => none) false calls ∧
    s.contentUnderline = lastSet (fun | .contentUnderline b => some b | _ => none) false calls ∧
    s.titleColor = lastSet (fun | .titleColor c => some (some (cleanColor c)) | _ => none) none calls ∧
    s.contentColor = lastSet (fun | .contentColor c => some (some (cleanColor c)) | _ => none) none calls ∧
    s.layout = lastSet (fun | .layout l => some l | _ => none) .titleAndContent calls ∧
    s.transition = lastSet (fun | .transition l => some l | _ => none) .none calls ∧
    s.table = lastSet (fun | .table l => some (some l) | _ => none) none calls ∧
    s.bulletStyle = styleAsked calls := by
  refine ⟨?_, ?_, ?_, ?_, ?_, ?_, ?_, ?_, ?_, ?_, ?_, ?_, ?_, ?_, ?_⟩
  · exact chain_keeps SlideCall.run (fun s => s.text.title = title) (fun s o h => by cases o <;> exact h) calls _ rfl
  · exact chain_last SlideCall.run (·.text.titleSize) _ (fun s o => by cases o <;> rfl) calls _
  · exact chain_last SlideCall.run (·.text.contentSize) _ (fun s o => by cases o <;> rfl) calls _
  · exact chain_last SlideCall.run (·.text.titleBold) _ (fun s o => by cases o <;> rfl) calls _
  · exact chain_last SlideCall.run (·.text.contentBold) _ (fun s o => by cases o <;> rfl) calls _
  · exact chain_last SlideCall.run (·.text.titleItalic) _ (fun s o => by cases o <;> rfl) calls _
  · exact chain_last SlideCall.run (·.text.contentItalic) _ (fun s o => by cases o <;> rfl) calls _
  · exact chain_last SlideCall.run (·.text.titleUnderline) _ (fun s o => by cases o <;> rfl) calls _
  · exact chain_last SlideCall.run (·.text.contentUnderline) _ (fun s o => by cases o <;> rfl) calls _
  · exact chain_last SlideCall.run (·.text.titleColor) _ (fun s o => by cases o <;> rfl) calls _
  · exact chain_last SlideCall.run (·.text.contentColor) _ (fun s o => by cases o <;> rfl) calls _
  · exact chain_last SlideCall.run (·.text.layout) _ (fun s o => by cases o <;> rfl) calls _
  · exact chain_last SlideCall.run (·.text.transition) _ (fun s o => by cases o <;> rfl) calls _
  · exact chain_last SlideCall.run (·.text.table) _ (fun s o => by cases o <;> rfl) calls _
  · exact chain_last SlideCall.run (·.text.bulletStyle) _ (fun s o => by cases o <;> rfl) calls _

/-- **C141.** The bullets of a slide are those that were added, in their order; each has the default style that was set
last before it was added, unless it was given its own. The plain texts follow the bullets, a deeper one with two spaces
before it. -/
theorem C141_slide_bullets (title : Str) (calls : List (SlideCall Sh Im Co Vi Au Ch In)) :
    let s := (calls.foldl SlideCall.run (newSlide title)).text
    s.bullets = (List.range calls.length).flatMap (fun i =>
      (calls[i]?).toList.flatMap (bulletAsked (styleAsked (calls.take i)))) ∧
    s.content = calls.flatMap (fun
      | .bullet t | .styledBullet t _ | .numbered t | .lettered t => [t]
      | .subBullet t => [c!"  " ++ t]
      | _ => []) := by
  refine ⟨?_, ?_⟩
  · induction calls using List.reverseRecOn with
    | nil => rfl
    | append_singleton calls c ih =>
      have hs := (C141_slide_text title calls).2.2.2.2.2.2.2.2.2.2.2.2.2.2
      rw [List.foldl_append, List.length_append, List.length_singleton, List.range_succ, List.flatMap_append]
      have e1 : ((List.range calls.length).flatMap fun i =>
          ((calls ++ [c])[i]?).toList.flatMap (bulletAsked (styleAsked ((calls ++ [c]).take i)))) =
          (List.range calls.length).flatMap fun i =>
            (calls[i]?).toList.flatMap (bulletAsked (styleAsked (calls.take i))) := by
        refine List.flatMap_congr fun i hi => ?_
        have hi := List.mem_range.mp hi
        rw [List.getElem?_append_left hi, List.take_append_of_le_length (by omega)]
      rw [e1, ← ih]
      simp only [List.flatMap_cons, List.flatMap_nil, List.append_nil, List.getElem?_concat_length, Option.toList_some,
        List.take_left, List.foldl_cons, List.foldl_nil, ← hs]
      generalize List.foldl SlideCall.run (newSlide title) calls = s
      cases c <;> simp [SlideCall.run, bulletAsked, SlideText.addBullet, SlideText.addStyledBullet,
        SlideText.addSubBullet]
  · refine chain_adds SlideCall.run (·.text.content) _ (fun s o => ?_) calls _
    cases o <;> simp [SlideCall.run, SlideText.addBullet, SlideText.addStyledBullet, SlideText.addSubBullet]

/-- **C141.** The objects of a slide are those that were added, in their order, alone or in groups; the notes and the ink
are the last. -/
theorem C141_slide_objects (title : Str) (calls : List (SlideCall Sh Im Co Vi Au Ch In)) :
    let s := calls.foldl SlideCall.run (newSlide title)
    s.shapes = calls.flatMap (fun | .shape x => [x] | .shapes l => l | _ => []) ∧
    s.images = calls.flatMap (fun | .image x => [x] | .images l => l | _ => []) ∧
    s.connectors = calls.flatMap (fun | .connector x => [x] | .connectors l => l | _ => []) ∧
    s.videos = calls.flatMap (fun | .video x => [x] | .videos l => l | _ => []) ∧
    s.audios = calls.flatMap (fun | .audio x => [x] | .audios l => l | _ => []) ∧
    s.charts = calls.flatMap (fun | .chart x => [x] | .charts l => l | _ => []) ∧
    s.notes = lastSet (fun | .notes t => some (some t) | _ => none) none calls ∧
    s.ink = lastSet (fun | .ink t => some (some t) | _ => none) none calls := by
  refine ⟨?_, ?_, ?_, ?_, ?_, ?_, ?_, ?_⟩
  · exact chain_adds SlideCall.run (·.shapes) _ (fun s o => by cases o <;> simp [SlideCall.run]) calls _
  · exact chain_adds SlideCall.run (·.images) _ (fun s o => by cases o <;> simp [SlideCall.run]) calls _
  · exact chain_adds SlideCall.run (·.connectors) _ (fun s o => by cases o <;> simp [SlideCall.run]) calls _
  · exact chain_adds SlideCall.run (·.videos) _ (fun s o => by cases o <;> simp [SlideCall.run]) calls _
  · exact chain_adds SlideCall.run (·.audios) _ (fun s o => by cases o <;> simp [SlideCall.run]) calls _
  · exact chain_adds SlideCall.run (·.charts) _ (fun s o => by cases o <;> simp [SlideCall.run]) calls _
  · exact chain_last SlideCall.run (·.notes) _ (fun s o => by cases o <;> rfl) calls _
  · exact chain_last SlideCall.run (·.ink) _ (fun s o => by cases o <;> rfl) calls _

/-- **C141.** A slide with a table, charts or images says so, and its answers about notes, media and connectors are
right. -/
theorem C141_slide_flags_partial (title : Str) (calls : List (SlideCall Sh Im Co Vi Au Ch In)) :
    let s := calls.foldl SlideCall.run (newSlide title)
    (s.text.table.isSome → s.hasTable = true) ∧ (s.charts ≠ [] → s.hasChart = true) ∧
    (s.images ≠ [] → s.hasImage = true) ∧
    (s.hasNotes = true ↔ ∃ t, SlideCall.notes t ∈ calls) ∧
    (s.hasMedia = true ↔ s.videos ≠ [] ∨ s.audios ≠ []) ∧ (s.hasConnectors = true ↔ s.connectors ≠ []) := by
  have inv := chain_keeps SlideCall.run (fun s : Content Sh Im Co Vi Au Ch In =>
      (s.text.table.isSome → s.hasTable = true) ∧ (s.charts ≠ [] → s.hasChart = true) ∧
      (s.images ≠ [] → s.hasImage = true))
    (fun s o h => by cases o <;> simp_all [SlideCall.run, SlideText.addBullet, SlideText.addStyledBullet,
      SlideText.addSubBullet]) calls (newSlide title)
    ⟨fun h => by simp [newSlide, SlideText.new] at h, fun h => absurd rfl h, fun h => absurd rfl h⟩
  refine ⟨inv.1, inv.2.1, inv.2.2, ?_, ?_, ?_⟩
  · have key : ∀ (calls : List (SlideCall Sh Im Co Vi Au Ch In)) s,
        (calls.foldl SlideCall.run s).notes.isSome = true ↔ s.notes.isSome = true ∨ ∃ t, SlideCall.notes t ∈ calls := by
      intro calls
      induction calls with
      | nil => intro s; simp
      | cons o calls ih =>
        intro s
        rw [List.foldl_cons, ih]
        cases o <;> simp [SlideCall.run, SlideText.addBullet, SlideText.addStyledBullet, SlideText.addSubBullet]
    rw [Content.hasNotes, key]
    simp [newSlide]
  · unfold Content.hasMedia
    cases (calls.foldl SlideCall.run (newSlide title)).videos <;>
      cases (calls.foldl SlideCall.run (newSlide title)).audios <;> simp
  · unfold Content.hasConnectors
    cases (calls.foldl SlideCall.run (newSlide title)).connectors <;> simp

end

/-- **C141 does not hold in full.** A slide may say it has a table, a chart or an image and have none: `with_table()`,
`with_chart()` and `with_image()` only set the answer, and so does giving an empty list of images or charts. -/
theorem C141_flags_violated : ∃ (calls : List (SlideCall Shape Nat Connector Nat Nat Nat Nat)),
    let s := calls.foldl SlideCall.run (newSlide c!"t")
    s.hasTable = true ∧ s.text.table.isNone ∧ s.hasChart = true ∧ s.charts = [] ∧ s.hasImage = true ∧ s.images = [] :=
  ⟨[.hasTable, .charts [], .images []], rfl, rfl, rfl, rfl, rfl, rfl⟩

example :
    let s := ([SlideCall.bullet c!"a", .bulletStyle .number, .subBullet c!"b", .titleSize 9, .lettered c!"c", .titleSize 7,
      .image 4, .images [5, 6]] : List (SlideCall Shape Nat Connector Nat Nat Nat Nat)).foldl SlideCall.run (newSlide c!"t")
    s.text.bullets.map (fun b => (b.text, b.level, b.style)) =
      [(c!"a", 0, .bullet), (c!"b", 1, .number), (c!"c", 0, .letterLower)] ∧
    s.text.content = [c!"a", c!"  b", c!"c"] ∧ s.text.titleSize = some 7 ∧ s.images = [4, 5, 6] := by
  exact ⟨rfl, rfl, rfl, rfl⟩

end PptRs.Props
