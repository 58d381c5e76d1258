import Verif.Model.TableBuild
import Verif.Props.SettingsBuild

/-!
# Building cells, rows and tables of the table part, and themes (C178)
-/

namespace PptRs.Props

open PptRs PptRs.TablePart PptRs.Themes PptRs.TableBuild

/-- **C178.** Cells: whatever the calls and their order, every field has the value of the last call that sets it. -/
theorem C178_cell (c : Cell) (calls : List CellCall) :
    calls.foldl setCell c =
      { text := c.text
        isMerged := c.isMerged
        bold := Spec.latest (fun | .bold => some true | _ => none) c.bold calls
        italic := Spec.latest (fun | .italic => some true | _ => none) c.italic calls
        underline := Spec.latest (fun | .underline => some true | _ => none) c.underline calls
        strikethrough := Spec.latest (fun | .strikethrough => some true | _ => none) c.strikethrough calls
        backgroundColor := Spec.latest (fun | .background s => some (some s) | _ => none) c.backgroundColor calls
        textColor := Spec.latest (fun | .color s => some (some s) | _ => none) c.textColor calls
        fontSize := Spec.latest (fun | .fontSize n => some (some n) | _ => none) c.fontSize calls
        fontFamily := Spec.latest (fun | .font s => some (some s) | _ => none) c.fontFamily calls
        hAlign := Spec.latest (fun | .align a => some a | .center => some .center | _ => none) c.hAlign calls
        vAlign := Spec.latest (fun | .valign a => some a | .center => some .middle | _ => none) c.vAlign calls
        rowSpan := Spec.latest (fun | .rowSpan n => some n | _ => none) c.rowSpan calls
        colSpan := Spec.latest (fun | .colSpan n => some n | _ => none) c.colSpan calls
        borders := Spec.latest (fun
          | .borders b => some (some b)
          | .border w s => some (some ⟨some ⟨w, s, .solid⟩, some ⟨w, s, .solid⟩, some ⟨w, s, .solid⟩, some ⟨w, s, .solid⟩⟩)
          | _ => none) c.borders calls
        margins := Spec.latest (fun | .margins m => some (some m) | _ => none) c.margins calls } := by
  rw [← fold_latest setCell _ (·.bold) ?_ calls c, ← fold_latest setCell _ (·.italic) ?_ calls c,
    ← fold_latest setCell _ (·.underline) ?_ calls c, ← fold_latest setCell _ (·.strikethrough) ?_ calls c,
    ← fold_latest setCell _ (·.backgroundColor) ?_ calls c, ← fold_latest setCell _ (·.textColor) ?_ calls c,
    ← fold_latest setCell _ (·.fontSize) ?_ calls c, ← fold_latest setCell _ (·.fontFamily) ?_ calls c,
    ← fold_latest setCell _ (·.hAlign) ?_ calls c, ← fold_latest setCell _ (·.vAlign) ?_ calls c,
    ← fold_latest setCell _ (·.rowSpan) ?_ calls c, ← fold_latest setCell _ (·.colSpan) ?_ calls c,
    ← fold_latest setCell _ (·.borders) ?_ calls c, ← fold_latest setCell _ (·.margins) ?_ calls c]
  · have ht : (calls.foldl setCell c).text = c.text ∧ (calls.foldl setCell c).isMerged = c.isMerged := by
      induction calls generalizing c with
      | nil => exact ⟨rfl, rfl⟩
      | cons k l ih =>
        rw [List.foldl_cons]
        refine ⟨(ih _).1.trans ?_, (ih _).2.trans ?_⟩ <;> cases k <;> rfl
    rw [← ht.1, ← ht.2]
  all_goals
    intro s k
    cases k <;> rfl

/-- **C178.** The same margins on all sides. -/
theorem C178_margins (n : Int) : let m := uniformMargins n
    m.left = n ∧ m.right = n ∧ m.top = n ∧ m.bottom = n := ⟨rfl, rfl, rfl, rfl⟩

/-- **C178.** Tables: the rows are those added, in order; position and size are those of the last call. -/
theorem C178_table (t : Table) (calls : List TableCall) :
    let r := calls.foldl setTable t
    r.rows = t.rows ++ calls.filterMap (fun | .row r => some r | _ => none) ∧
    (r.x, r.y) = Spec.latest (fun | .position x y => some (x, y) | _ => none) (t.x, t.y) calls ∧
    (r.width, r.height) = Spec.latest (fun | .size w h => some (w, h) | _ => none) (t.width, t.height) calls := by
  refine ⟨?_, fold_latest setTable _ (fun t => (t.x, t.y)) ?_ calls t, fold_latest setTable _ (fun t => (t.width, t.height)) ?_ calls t⟩
  · induction calls generalizing t with
    | nil => simp
    | cons k l ih =>
      rw [List.foldl_cons, ih]
      cases k <;> simp [setTable, Table.addRow, Table.size]
  all_goals
    intro s k
    cases k <;> rfl

/-- **C178.** Column widths given (at least one) stay whatever rows are added and however the table is moved or
resized, until others are given. -/
theorem C178_widths (t : Table) (calls : List TableCall) (l : List Int) (hl : l ≠ []) (later : List TableCall)
    (h : ∀ k ∈ later, ∀ m, k ≠ .colWidths m) :
    ((calls ++ .colWidths l :: later).foldl setTable t).colWidths = l := by
  rw [List.foldl_append, List.foldl_cons]
  have key : ∀ (later : List TableCall) (s : Table), s.colWidths = l → (∀ k ∈ later, ∀ m, k ≠ .colWidths m) →
      (later.foldl setTable s).colWidths = l := by
    intro later
    induction later with
    | nil => intro s hs _; exact hs
    | cons k r ih =>
      intro s hs hk
      rw [List.foldl_cons]
      refine ih _ ?_ fun k' hk' => hk k' (List.mem_cons_of_mem _ hk')
      cases k with
      | row x => simp [setTable, Table.addRow, hs, hl]
      | position x y => exact hs
      | size w h => exact hs
      | colWidths m => exact absurd rfl (hk _ List.mem_cons_self m)
  exact key later _ rfl h

/-- **C178.** Colors of a scheme: those with a method have the last value given, cleaned; the others stay. -/
theorem C178_colors (c : Colors) (calls : List ColorCall) :
    calls.foldl setColor c =
      { c with
        accent1 := Spec.latest (fun | .accent1 s => some (cleanColor (trim s)) | _ => none) c.accent1 calls
        accent2 := Spec.latest (fun | .accent2 s => some (cleanColor (trim s)) | _ => none) c.accent2 calls
        accent3 := Spec.latest (fun | .accent3 s => some (cleanColor (trim s)) | _ => none) c.accent3 calls
        hlink := Spec.latest (fun | .hyperlink s => some (cleanColor (trim s)) | _ => none) c.hlink calls } := by
  rw [← fold_latest setColor _ (·.accent1) ?_ calls c, ← fold_latest setColor _ (·.accent2) ?_ calls c,
    ← fold_latest setColor _ (·.accent3) ?_ calls c, ← fold_latest setColor _ (·.hlink) ?_ calls c]
  · induction calls generalizing c with
    | nil => rfl
    | cons k l ih =>
      rw [List.foldl_cons, ih]
      cases k <;> rfl
  all_goals
    intro s k
    cases k <;> rfl

/-- **C178.** Themes: the name stays; colors and fonts are the last given, whether both fonts or one. -/
theorem C178_theme (name : Str) (calls : List ThemeCall) :
    calls.foldl setTheme (newTheme name) =
      { name
        colors := Spec.latest (fun | .colors c => some c | _ => none) .office calls
        major := Spec.latest (fun | .fonts a _ => some a | .majorFont a => some a | _ => none) c!"Calibri Light" calls
        minor := Spec.latest (fun | .fonts _ b => some b | .minorFont b => some b | _ => none) c!"Calibri" calls } := by
  have e1 := fold_latest setTheme (fun | .colors c => some c | _ => none) (·.colors) (fun s k => by cases k <;> rfl) calls (newTheme name)
  have e2 := fold_latest setTheme (fun | .fonts a _ => some a | .majorFont a => some a | _ => none) (·.major)
    (fun s k => by cases k <;> rfl) calls (newTheme name)
  have e3 := fold_latest setTheme (fun | .fonts _ b => some b | .minorFont b => some b | _ => none) (·.minor)
    (fun s k => by cases k <;> rfl) calls (newTheme name)
  have e0 : ∀ t : Theme, (calls.foldl setTheme t).name = t.name := by
    induction calls with
    | nil => intro t; rfl
    | cons k l ih =>
      intro t
      rw [List.foldl_cons, ih (fold_latest setTheme _ (·.colors) (fun s k => by cases k <;> rfl) l _)
        (fold_latest setTheme _ (·.major) (fun s k => by cases k <;> rfl) l _)
        (fold_latest setTheme _ (·.minor) (fun s k => by cases k <;> rfl) l _)]
      cases k <;> rfl
  have e0 := e0 (newTheme name)
  generalize calls.foldl setTheme (newTheme name) = t at *
  cases t
  simp only at e0 e1 e2 e3
  subst e0 e1 e2 e3
  rfl

/-- **C178 does not hold in full.** No attribute of a cell of `TablePart` can be taken back: once a cell is bold, italic,
underlined or struck out, no method makes it plain again, and a color, font, border or margin can be replaced but not
removed. -/
theorem C178_undo_violated (c : Cell) (calls : List CellCall) :
    let r := calls.foldl setCell c
    (c.bold = true → r.bold = true) ∧ (c.italic = true → r.italic = true) ∧
    (c.underline = true → r.underline = true) ∧ (c.strikethrough = true → r.strikethrough = true) ∧
    (c.backgroundColor.isSome → r.backgroundColor.isSome) ∧ (c.textColor.isSome → r.textColor.isSome) ∧
    (c.fontSize.isSome → r.fontSize.isSome) ∧ (c.fontFamily.isSome → r.fontFamily.isSome) ∧
    (c.borders.isSome → r.borders.isSome) ∧ (c.margins.isSome → r.margins.isSome) := by
  induction calls generalizing c with
  | nil => exact ⟨id, id, id, id, id, id, id, id, id, id⟩
  | cons k l ih =>
    obtain ⟨h1, h2, h3, h4, h5, h6, h7, h8, h9, h10⟩ := ih (setCell c k)
    refine ⟨fun h => h1 ?_, fun h => h2 ?_, fun h => h3 ?_, fun h => h4 ?_, fun h => h5 ?_, fun h => h6 ?_, fun h => h7 ?_,
      fun h => h8 ?_, fun h => h9 ?_, fun h => h10 ?_⟩ <;> cases k <;> first | exact h | rfl

/-- **C178 does not hold in full.** The order of `size` and `add_row` of a `TablePart` matters: a table given its size
after the first row keeps columns for the default width of 8 inches, so that they add up to another width than that of
the table; given the size first, they fit. -/
theorem C178_order_violated (a b : Cell) :
    let wide := ([.size 1000 500, .row ⟨[a, b], none⟩].foldl setTable {}).colWidths
    let late := ([.row ⟨[a, b], none⟩, .size 1000 500].foldl setTable {}).colWidths
    wide = [500, 500] ∧ late = [3657600, 3657600] := by
  constructor <;> simp [setTable, Table.addRow, Table.size, List.replicate]

/-- **C178 does not hold in full.** Of the twelve colors of a scheme only four have a method: text, backgrounds, the
fourth to sixth accent and followed links cannot be set one at a time. -/
theorem C178_unreachable_violated (c : Colors) (calls : List ColorCall) :
    let r := calls.foldl setColor c
    r.dk1 = c.dk1 ∧ r.lt1 = c.lt1 ∧ r.dk2 = c.dk2 ∧ r.lt2 = c.lt2 ∧ r.accent4 = c.accent4 ∧ r.accent5 = c.accent5 ∧
      r.accent6 = c.accent6 ∧ r.folHlink = c.folHlink := by
  rw [C178_colors]
  exact ⟨rfl, rfl, rfl, rfl, rfl, rfl, rfl, rfl⟩

example : ([.center, .valign .top, .bold, .border 12700 c!"FF0000"].foldl setCell { text := c!"x" } : Cell).vAlign = .top := rfl
example : (([.colWidths [1, 2], .row ⟨[], none⟩, .size 9 9] : List TableCall).foldl setTable {}).colWidths = [1, 2] := by decide
example : ([.accent1 c!" #ff0000 "].foldl setColor Colors.office).accent1 = c!"FF0000" := by decide
example : ([.fonts c!"A" c!"B", .majorFont c!"C"].foldl setTheme (newTheme c!"T")) = ⟨c!"T", .office, c!"C", c!"B"⟩ := by decide

end PptRs.Props
