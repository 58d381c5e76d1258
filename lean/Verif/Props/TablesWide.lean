import Verif.Props.Tables

/-!
# Widths and places of tables (C57)
-/

namespace PptRs.Props

open PptRs

/-- **C57.** Columns of the helpers are equal parts of 10 inches, or of 8000000 EMU for tables from rows of texts; widths given
are kept; tables are at the corner of the slide, those from rows of texts at (500000, 1800000). -/
theorem C57_widths (rows cols : Nat) (head : List Str) (data : List (List Str)) (w : List Nat) (t : TextTable) :
    (cols < 4294967296 → simpleTable rows cols = some t → t.widths = List.replicate cols (9144000 / cols) ∧ (t.x, t.y) = (0, 0)) ∧
    (head.length < 4294967296 → tableWithHeader head rows = some t →
      t.widths = List.replicate head.length (9144000 / head.length) ∧ (t.x, t.y) = (0, 0)) ∧
    (head.length < 4294967296 → tableFromData (head :: data) none = some t →
      t.widths = List.replicate head.length (9144000 / head.length) ∧ (t.x, t.y) = (0, 0)) ∧
    (cols < 4294967296 → quickTable cols data = some t → t.widths = List.replicate cols (9144000 / cols) ∧ (t.x, t.y) = (0, 0)) ∧
    tableFromData (head :: data) (some w) = some ⟨w, head :: data, 0, 0⟩ ∧
    (∀ n, n < 4294967296 → (∃ r ∈ data, r.length = n) → (∀ r ∈ data, r.length ≤ n) → tableFromStringRows data = some t →
      t.widths = List.replicate n (8000000 / n) ∧ (t.x, t.y) = (500000, 1800000)) := by
  have key : ∀ (total c : Nat) (l : List (List Str)) (x y : Nat), c < 4294967296 → equalColumns total c l x y = some t →
      t.widths = List.replicate c (total / c) ∧ (t.x, t.y) = (x, y) := by
    intro total c l x y hc h
    unfold equalColumns columnWidth at h
    rw [Nat.mod_eq_of_lt hc] at h
    split at h
    · cases h
    · cases h; exact ⟨rfl, rfl⟩
  refine ⟨fun h => key _ _ _ _ _ h, fun h => key _ _ _ _ _ h, fun h => key _ _ _ _ _ h, fun h => key _ _ _ _ _ h, rfl, ?_⟩
  intro n hn ⟨r, hr, he⟩ hm h
  have e : maxCells data = n := by
    have h1 := length_le_maxCells hr
    have h2 : maxCells data ≤ n := by
      unfold maxCells
      rw [if_neg (List.ne_nil_of_mem hr)]
      exact foldl_max_le data 0 n (by omega) hm
    omega
  unfold tableFromStringRows at h
  rw [e] at h
  exact key _ _ _ _ _ hn h

/-- **C57 does not hold in full.** The number of columns is cut to 32 bits before the division: a table of 4294967296 columns
stops with a division by zero. -/
theorem C57_wide_violated (rows k : Nat) (data : List (List Str)) :
    simpleTable rows (4294967296 * k) = none ∧ quickTable (4294967296 * k) data = none := by
  simp [simpleTable, quickTable, equalColumns, columnWidth]

example : (tableFromStringRows [[c!"a"], [c!"b", c!"c"]]).map (fun t => (t.widths, t.x, t.y)) = some ([4000000, 4000000], 500000, 1800000) := by
  decide

end PptRs.Props
