import Verif.Model.Str

/-!
# Helpers that build tables

A table is its column widths, the texts of its cells and its position; cell styles are left out.
`usize as u32` keeps the low 32 bits. The division panics for zero columns: the outer `none`.
-/

namespace PptRs

/-- src/generator/table/builder.rs 12-24, without cell styles. -/
structure TextTable where
  widths : List Nat
  rows : List (List Str)
  x : Nat
  y : Nat
deriving DecidableEq, Repr

/-- `total / cols as u32`; `none` is the panic. -/
def columnWidth (total cols : Nat) : Option Nat :=
  if cols % 4294967296 = 0 then none else some (total / (cols % 4294967296))

/-- `TableBuilder::new` with equal columns, src/generator/table/builder.rs 78-84. The position is
`ElementPlacement::new()`. -/
def equalColumns (total cols : Nat) (rows : List (List Str)) (x y : Nat) : Option TextTable :=
  (columnWidth total cols).map fun w => ⟨List.replicate cols w, rows, x, y⟩

/-- `simple_table`, src/helpers/tables.rs 15-27. -/
def simpleTable (rows cols : Nat) : Option TextTable :=
  equalColumns 9144000 cols (List.replicate rows (List.replicate cols [])) 0 0

/-- `table_from_data`, src/helpers/tables.rs 58-79. Custom widths are given in EMU: the conversion from
inches (line 65) is left out. -/
def tableFromData (data : List (List Str)) (widths : Option (List Nat)) : Option TextTable :=
  match data with
  | [] => simpleTable 0 0
  | head :: _ =>
    match widths with
    | some w => some ⟨w, data, 0, 0⟩
    | none => equalColumns 9144000 head.length data 0 0

/-- `table_with_header`, src/helpers/tables.rs 90-117. -/
def tableWithHeader (headers : List Str) (dataRows : Nat) : Option TextTable :=
  equalColumns 9144000 headers.length (headers :: List.replicate dataRows (List.replicate headers.length [])) 0 0

/-- `QuickTable::new` followed by `header`, `row` and `rows`, src/helpers/tables.rs 126-181. -/
def quickTable (cols : Nat) (rows : List (List Str)) : Option TextTable := equalColumns 9144000 cols rows 0 0

/-- The longest row, src/generator/table/style.rs 31. -/
def maxCells (rows : List (List Str)) : Nat := if rows = [] then 1 else rows.foldl (fun m r => max m r.length) 0

/-- src/generator/table/style.rs 50-52. -/
def padRow (n : Nat) (row : List Str) : List Str := row ++ List.replicate (n - row.length) []

/-- `table_from_string_rows`, src/generator/table/style.rs 30-60. -/
def tableFromStringRows (rows : List (List Str)) : Option TextTable :=
  equalColumns 8000000 (maxCells rows) (rows.map (padRow (maxCells rows))) 500000 1800000

end PptRs
