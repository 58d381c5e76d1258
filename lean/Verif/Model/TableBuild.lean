import Verif.Model.TablePart
import Verif.Model.Theme

/-!
# Building cells, rows and tables of the table part, and themes

Simplification: `border` is given its width in EMU (the conversion from points in `CellBorder::new`,
src/parts/table.rs 90-96, is floating-point).
-/

namespace PptRs.TableBuild

open PptRs PptRs.TablePart PptRs.Themes

/-- The methods of `TableCellPart`, src/parts/table.rs 260-355. -/
inductive CellCall where
  | bold | italic | underline | strikethrough
  | background (s : Str)
  | color (s : Str)
  | fontSize (n : Nat)
  | font (s : Str)
  | align (a : HAlign)
  | valign (a : VAlign)
  | center
  | rowSpan (n : Nat)
  | colSpan (n : Nat)
  | borders (b : CellBorders)
  | border (width : Int) (color : Str)
  | margins (m : CellMargins)

/-- What they do, src/parts/table.rs 260-355. -/
def setCell (c : Cell) : CellCall → Cell
  | .bold => { c with bold := true }
  | .italic => { c with italic := true }
  | .underline => { c with underline := true }
  | .strikethrough => { c with strikethrough := true }
  | .background s => { c with backgroundColor := some s }
  | .color s => { c with textColor := some s }
  | .fontSize n => { c with fontSize := some n }
  | .font s => { c with fontFamily := some s }
  | .align a => { c with hAlign := a }
  | .valign a => { c with vAlign := a }
  | .center => { c with hAlign := .center, vAlign := .middle }
  | .rowSpan n => { c with rowSpan := n }
  | .colSpan n => { c with colSpan := n }
  | .borders b => { c with borders := some b }
  | .border w s => { c with borders := some (.all ⟨w, s, .solid⟩) }
  | .margins m => { c with margins := some m }

/-- `CellMargins::uniform`, src/parts/table.rs 199-206. -/
def uniformMargins (n : Int) : CellMargins := ⟨n, n, n, n⟩

/-- The methods of `TablePart`, src/parts/table.rs 553-583. -/
inductive TableCall where
  | row (r : Row)
  | position (x y : Int)
  | size (w h : Int)
  | colWidths (l : List Int)

/-- What they do, src/parts/table.rs 553-583. -/
def setTable (t : Table) : TableCall → Table
  | .row r => t.addRow r
  | .position x y => { t with x := x, y := y }
  | .size w h => t.size w h
  | .colWidths l => { t with colWidths := l }

/-- The methods of `ThemeColorScheme`, src/generator/presentation_theme.rs 74-92. -/
inductive ColorCall where
  | accent1 (s : Str)
  | accent2 (s : Str)
  | accent3 (s : Str)
  | hyperlink (s : Str)

/-- What they do, src/generator/presentation_theme.rs 74-92. -/
def setColor (c : Colors) : ColorCall → Colors
  | .accent1 s => { c with accent1 := normalizeHex s }
  | .accent2 s => { c with accent2 := normalizeHex s }
  | .accent3 s => { c with accent3 := normalizeHex s }
  | .hyperlink s => { c with hlink := normalizeHex s }

/-- The methods of `PresentationTheme`, src/generator/presentation_theme.rs 145-163. -/
inductive ThemeCall where
  | colors (c : Colors)
  | fonts (major minor : Str)
  | majorFont (s : Str)
  | minorFont (s : Str)

/-- What they do, src/generator/presentation_theme.rs 145-163, with `ThemeFonts::new`, 110-115. -/
def setTheme (t : Theme) : ThemeCall → Theme
  | .colors c => { t with colors := c }
  | .fonts a b => { t with major := a, minor := b }
  | .majorFont s => { t with major := s }
  | .minorFont s => { t with minor := s }

/-- `PresentationTheme::new`, src/generator/presentation_theme.rs 133-139. -/
def newTheme (name : Str) : Theme := { name }

end PptRs.TableBuild
