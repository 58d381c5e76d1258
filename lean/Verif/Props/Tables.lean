import Verif.Model.Tables

/-!
# C57: table helpers accept every size

Statements use `TextTable.widths`, `.rows`, `.x` only. The slide is 9144000 EMU wide.
-/

namespace PptRs.Props
open PptRs

/-- Every row has one cell for each column and the columns lie on the slide. -/
def WellShaped (t : TextTable) : Prop :=
  (∀ r ∈ t.rows, r.length = t.widths.length) ∧ t.x + t.widths.sum ≤ 9144000

theorem sum_replicate' (n w : Nat) : (List.replicate n w).sum = n * w := by
  induction n with
  | zero => simp
  | succ n ih => simp [List.replicate_succ, ih, Nat.succ_mul, Nat.add_comm]

theorem equalColumns_some {total cols x y : Nat} {rows : List (List Str)} (h0 : 0 < cols) (h : cols < 4294967296) :
    equalColumns total cols rows x y = some ⟨List.replicate cols (total / cols), rows, x, y⟩ := by
  have e : cols % 4294967296 = cols := Nat.mod_eq_of_lt h
  simp [equalColumns, columnWidth, e, Nat.ne_of_gt h0]

theorem equal_fits {total cols x : Nat} (h : x + total ≤ 9144000) :
    x + (List.replicate cols (total / cols)).sum ≤ 9144000 := by
  rw [sum_replicate']
  have := Nat.mul_div_le total cols
  omega

/-- `simple_table` gives the requested number of empty rows and columns. -/
theorem C57_simple_partial (rows cols : Nat) (h0 : 0 < cols) (h : cols < 4294967296) :
    ∃ t, simpleTable rows cols = some t ∧ t.rows.length = rows ∧ t.widths.length = cols ∧
      (∀ r ∈ t.rows, ∀ c ∈ r, c = []) ∧ WellShaped t := by
  refine ⟨_, equalColumns_some h0 h, by simp, by simp, ?_, ?_, equal_fits (by simp)⟩
  · intro r hr c hc
    obtain rfl := (List.mem_replicate.mp hr).2
    exact (List.mem_replicate.mp hc).2
  · intro r hr
    obtain rfl := (List.mem_replicate.mp hr).2
    simp

example : simpleTable 2 3 = some ⟨[3048000, 3048000, 3048000], [[[], [], []], [[], [], []]], 0, 0⟩ := by decide

/-- A table of no columns is a division by zero. -/
theorem C57_simple_violated (rows : Nat) : simpleTable rows 0 = none := rfl

/-- The test for empty data in `table_from_data` leads straight to the division by zero. -/
theorem C57_data_empty_violated (widths : Option (List Nat)) : tableFromData [] widths = none := rfl

/-- A first row without cells is a division by zero too. -/
theorem C57_data_first_violated (rows : List (List Str)) : tableFromData ([] :: rows) none = none := rfl

/-- Rows are written as they are given: a row of another length than the first does not match the columns. -/
theorem C57_data_ragged_violated (head row : List Str) (rows : List (List Str)) (h0 : 0 < head.length)
    (h : head.length < 4294967296) (hr : row ∈ rows) (hn : row.length ≠ head.length) :
    ∃ t, tableFromData (head :: rows) none = some t ∧ ¬ WellShaped t := by
  refine ⟨_, equalColumns_some h0 h, fun hw => hn ?_⟩
  simpa using hw.1 row (by simp [hr])

example : ∃ t, tableFromData [[c!"a", c!"b"], [c!"c"]] none = some t ∧ ¬ WellShaped t :=
  C57_data_ragged_violated [c!"a", c!"b"] [c!"c"] [[c!"c"]] (by decide) (by decide) (by decide) (by decide)

/-- Data of equal rows, at least one cell wide, becomes exactly the table of these texts. -/
theorem C57_data_partial (head : List Str) (rows : List (List Str)) (h0 : 0 < head.length)
    (h : head.length < 4294967296) (hr : ∀ r ∈ rows, r.length = head.length) :
    ∃ t, tableFromData (head :: rows) none = some t ∧ t.rows = head :: rows ∧ t.widths.length = head.length ∧ WellShaped t := by
  refine ⟨_, equalColumns_some h0 h, rfl, by simp, ?_, equal_fits (by simp)⟩
  intro r hm
  rcases List.mem_cons.mp hm with rfl | hm
  · simp
  · simpa using hr r hm

example : tableFromData [[c!"a", c!"b"], [c!"c", c!"d"]] none =
    some ⟨[4572000, 4572000], [[c!"a", c!"b"], [c!"c", c!"d"]], 0, 0⟩ := by decide

/-- `table_with_header`: the header row and empty rows below it. -/
theorem C57_header_partial (headers : List Str) (n : Nat) (h0 : 0 < headers.length) (h : headers.length < 4294967296) :
    ∃ t, tableWithHeader headers n = some t ∧ t.rows.head? = some headers ∧ t.rows.length = n + 1 ∧
      (∀ r ∈ t.rows.tail, ∀ c ∈ r, c = []) ∧ WellShaped t := by
  refine ⟨_, equalColumns_some h0 h, rfl, by simp, ?_, ?_, equal_fits (by simp)⟩
  · intro r hr c hc
    obtain rfl := (List.mem_replicate.mp hr).2
    exact (List.mem_replicate.mp hc).2
  · intro r hm
    rcases List.mem_cons.mp hm with rfl | hm
    · simp
    · obtain rfl := (List.mem_replicate.mp hm).2
      simp

/-- A table with a header and no header cells stops with a division by zero. -/
theorem C57_header_violated (n : Nat) : tableWithHeader [] n = none := rfl

/-- `QuickTable`: crashes for no columns; keeps the rows and gives the requested columns otherwise. -/
theorem C57_quick_partial (cols : Nat) (rows : List (List Str)) (h0 : 0 < cols) (h : cols < 4294967296)
    (hr : ∀ r ∈ rows, r.length = cols) :
    ∃ t, quickTable cols rows = some t ∧ t.rows = rows ∧ t.widths.length = cols ∧ WellShaped t := by
  refine ⟨_, equalColumns_some h0 h, rfl, by simp, ?_, equal_fits (by simp)⟩
  intro r hm
  simpa using hr r hm

/-- A quick table without columns stops with a division by zero. -/
theorem C57_quick_violated (rows : List (List Str)) : quickTable 0 rows = none := rfl

theorem foldl_max_ge (rows : List (List Str)) (m : Nat) :
    m ≤ rows.foldl (fun m r => max m r.length) m ∧
      ∀ r ∈ rows, r.length ≤ rows.foldl (fun m r => max m r.length) m := by
  induction rows generalizing m with
  | nil => simp
  | cons a rows ih =>
    obtain ⟨h1, h2⟩ := ih (max m a.length)
    refine ⟨by simp only [List.foldl_cons]; omega, ?_⟩
    intro r hr
    simp only [List.foldl_cons]
    rcases List.mem_cons.mp hr with rfl | hr
    · omega
    · exact h2 r hr

theorem foldl_max_le (rows : List (List Str)) (m b : Nat) (hm : m ≤ b) (h : ∀ r ∈ rows, r.length ≤ b) :
    rows.foldl (fun m r => max m r.length) m ≤ b := by
  induction rows generalizing m with
  | nil => simpa
  | cons a rows ih =>
    simp only [List.foldl_cons]
    exact ih _ (by have := h a (by simp); omega) (fun r hr => h r (by simp [hr]))

theorem length_le_maxCells {rows : List (List Str)} {r : List Str} (h : r ∈ rows) : r.length ≤ maxCells rows := by
  have : rows ≠ [] := by rintro rfl; simp at h
  simp only [maxCells, this, if_false]
  exact (foldl_max_ge rows 0).2 r h

theorem maxCells_le (rows : List (List Str)) (n : Nat) (hn : ∀ r ∈ rows, r.length ≤ n) (h1 : 1 ≤ n) :
    maxCells rows ≤ n := by
  unfold maxCells
  split
  · exact h1
  · exact foldl_max_le rows 0 n (by omega) hn

theorem maxCells_lt (rows : List (List Str)) (n : Nat) (h1 : 1 < n) (h : ∀ r ∈ rows, r.length < n) :
    maxCells rows < n := by
  have := maxCells_le rows (n - 1) (fun r hr => by have := h r hr; omega) (by omega)
  omega

/-- `table_from_string_rows` (used by the HTML and Markdown importers) on ragged data: one row for each row,
every cell in its place, short rows filled up with empty cells, the columns on the slide. The first row with a
cell rules out the division by zero. -/
theorem C57_string_rows_partial (rows : List (List Str)) (h0 : rows = [] ∨ ∃ r ∈ rows, r ≠ [])
    (h : ∀ r ∈ rows, r.length < 4294967296) :
    ∃ t, tableFromStringRows rows = some t ∧ t.rows.length = rows.length ∧
      (∀ (i : Nat) (row : List Str), rows[i]? = some row → ∃ row', t.rows[i]? = some row' ∧ row <+: row' ∧
        ∀ c ∈ row'.drop row.length, c = []) ∧
      (∀ n, (∀ r ∈ rows, r.length ≤ n) → 1 ≤ n → t.widths.length ≤ n) ∧
      WellShaped t := by
  have h1 : 0 < maxCells rows := by
    rcases h0 with rfl | ⟨r, hr, hn⟩
    · decide
    · have := length_le_maxCells hr
      have := List.length_pos_iff.mpr hn
      omega
  have h3 := maxCells_lt rows 4294967296 (by simp) h
  refine ⟨_, equalColumns_some h1 h3, by simp, ?_, ?_, ?_, equal_fits (x := 500000) (by simp)⟩
  · intro i row hi
    refine ⟨padRow (maxCells rows) row, by simp [hi], ⟨_, rfl⟩, ?_⟩
    intro c hc
    simp only [padRow, List.drop_left] at hc
    exact (List.mem_replicate.mp hc).2
  · intro n hn h1n
    simpa using maxCells_le rows n hn h1n
  · intro r hr
    obtain ⟨row, hrow, rfl⟩ := List.mem_map.mp hr
    have := length_le_maxCells hrow
    simp only [padRow, List.length_append, List.length_replicate]
    omega

example : tableFromStringRows [[c!"a"], [c!"b", c!"c"]] =
    some ⟨[4000000, 4000000], [[c!"a", []], [c!"b", c!"c"]], 500000, 1800000⟩ := by decide

/-- Rows that are all empty are a division by zero. -/
theorem C57_string_rows_violated (rows : List (List Str)) (hn : rows ≠ []) (h : ∀ r ∈ rows, r = []) :
    tableFromStringRows rows = none := by
  have : maxCells rows = 0 := by
    simp only [maxCells, hn, if_false]
    exact Nat.le_zero.mp (foldl_max_le rows 0 0 (by omega) (fun r hr => by simp [h r hr]))
  simp [tableFromStringRows, equalColumns, columnWidth, this]

end PptRs.Props
