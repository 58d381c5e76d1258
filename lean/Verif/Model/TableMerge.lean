/-!
# Table cell merging
-/

namespace PptRs

/-- src/generator/slide_content/table_merge.rs 8-13. -/
structure MergeRegion where
  row : Nat
  col : Nat
  rowSpan : Nat
  colSpan : Nat
deriving DecidableEq, Repr

namespace MergeRegion

/-- src/generator/slide_content/table_merge.rs 17-22. `none` is the error. -/
def new (row col rowSpan colSpan : Nat) : Option MergeRegion :=
  if rowSpan = 0 ∨ colSpan = 0 then none else some ⟨row, col, rowSpan, colSpan⟩

/-- src/generator/slide_content/table_merge.rs 25-27. For a region made by `new` the
subtraction never underflows. `row + row_span` is assumed to fit `usize`. -/
def lastRow (m : MergeRegion) : Nat := m.row + m.rowSpan - 1

/-- src/generator/slide_content/table_merge.rs 30-32. -/
def lastCol (m : MergeRegion) : Nat := m.col + m.colSpan - 1

/-- src/generator/slide_content/table_merge.rs 35-37. -/
def contains (m : MergeRegion) (r c : Nat) : Bool :=
  r ≥ m.row && r ≤ m.lastRow && c ≥ m.col && c ≤ m.lastCol

/-- src/generator/slide_content/table_merge.rs 40-42. -/
def isAnchor (m : MergeRegion) (r c : Nat) : Bool := r == m.row && c == m.col

/-- src/generator/slide_content/table_merge.rs 45-50. -/
def overlaps (m other : MergeRegion) : Bool :=
  m.row ≤ other.lastRow && other.row ≤ m.lastRow && m.col ≤ other.lastCol && other.col ≤ m.lastCol

end MergeRegion

/-- src/generator/slide_content/table_merge.rs 55-64. -/
inductive CellMergeState where
  | normal
  | anchor (rowSpan colSpan : Nat)
  | hMerge
  | vMerge
deriving DecidableEq, Repr

/-- src/generator/slide_content/table_merge.rs 86-88. -/
def CellMergeState.isMergedAway : CellMergeState → Bool
  | .hMerge | .vMerge => true
  | _ => false

/-- src/generator/slide_content/table_merge.rs 93-97. -/
structure TableMergeMap where
  regions : List MergeRegion
  rows : Nat
  cols : Nat
deriving DecidableEq, Repr

namespace TableMergeMap

/-- src/generator/slide_content/table_merge.rs 101-103. -/
def new (rows cols : Nat) : TableMergeMap := ⟨[], rows, cols⟩

/-- src/generator/slide_content/table_merge.rs 106-130: the map afterwards and whether the
request was accepted. Error messages are not modelled. -/
def addMerge (t : TableMergeMap) (region : MergeRegion) : TableMergeMap × Bool :=
  if region.lastRow ≥ t.rows then (t, false)
  else if region.lastCol ≥ t.cols then (t, false)
  else if t.regions.any (fun existing => existing.overlaps region) then (t, false)
  else ({ t with regions := t.regions ++ [region] }, true)

/-- src/generator/slide_content/table_merge.rs 133-136. -/
def mergeCells (t : TableMergeMap) (row col rowSpan colSpan : Nat) : TableMergeMap × Bool :=
  match MergeRegion.new row col rowSpan colSpan with
  | none => (t, false)
  | some region => t.addMerge region

/-- The loop of `cell_state`, src/generator/slide_content/table_merge.rs 140-156. -/
def stateIn (r c : Nat) : List MergeRegion → CellMergeState
  | [] => .normal
  | region :: rest =>
    if region.isAnchor r c then .anchor region.rowSpan region.colSpan
    else if region.contains r c then
      if r = region.row then .hMerge else .vMerge
    else stateIn r c rest

/-- src/generator/slide_content/table_merge.rs 139-157. -/
def cellState (t : TableMergeMap) (r c : Nat) : CellMergeState := stateIn r c t.regions

end TableMergeMap

end PptRs
