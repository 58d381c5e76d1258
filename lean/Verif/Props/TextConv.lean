import Verif.Model.TextConv
import Verif.Spec.TextConv
import Verif.Props.Escapers
import Verif.Props.Color

/-!
# C41, C42, C43, C46, C49, C77: conversions of text
-/

namespace PptRs.Props

open PptRs PptRs.Spec

/-! ### C41: JSON -/

theorem readJsonChars_plain {c : Char} (r : Str) (h1 : c ≠ '"') (h2 : c ≠ '\\') (h3 : ¬ c.toNat < 32) :
    readJsonChars (c :: r) = (readJsonChars r).map (c :: ·) := by
  rw [readJsonChars.eq_def]
  split
  · simp_all
  · simp_all
  · simp_all
  · rename_i heq
    simp only [List.cons.injEq] at heq
    obtain ⟨rfl, rfl⟩ := heq
    rw [if_neg (by simp [h1, h2]; omega)]
  · simp_all

theorem readJsonChars_escape {e x : Char} (r : Str) (h : e ≠ 'u') (hx : jsonEscape e = some x) :
    readJsonChars ('\\' :: e :: r) = (readJsonChars r).map (x :: ·) := by
  rw [readJsonChars.eq_def]
  split
  · simp_all
  · simp_all
  · simp_all
  · rename_i hne heq
    simp only [List.cons.injEq] at heq
    exact absurd heq.2.symm (hne _ _ heq.1.symm)
  · simp_all

theorem jsonUnicode_hex4 : ∀ n < 160, jsonUnicode (hexLower (n / 4096 % 16)) (hexLower (n / 256 % 16))
    (hexLower (n / 16 % 16)) (hexLower (n % 16)) = some (Char.ofNat n) := by decide +kernel

theorem isControl_lt {c : Char} (h : isControl c = true) : c.toNat < 160 := by
  simp only [isControl, Bool.or_eq_true, Bool.and_eq_true, decide_eq_true_eq] at h
  omega

theorem readJsonChars_control {c : Char} (r : Str) (h : isControl c = true) :
    readJsonChars (c!"\\u" ++ hex4 c.toNat ++ r) = (readJsonChars r).map (c :: ·) := by
  simp only [hex4, List.cons_append, List.nil_append, readJsonChars, jsonUnicode_hex4 _ (isControl_lt h),
    Option.bind_some, Char.ofNat_toNat]

theorem readJsonChars_jsonChar (c : Char) (r : Str) :
    readJsonChars (jsonChar c ++ r) = (readJsonChars r).map (c :: ·) := by
  unfold jsonChar
  split
  · subst_vars; exact readJsonChars_escape r (by decide) (by decide)
  · split
    · subst_vars; exact readJsonChars_escape r (by decide) (by decide)
    · split
      · subst_vars; exact readJsonChars_escape r (by decide) (by decide)
      · split
        · subst_vars; exact readJsonChars_escape r (by decide) (by decide)
        · split
          · subst_vars; exact readJsonChars_escape r (by decide) (by decide)
          · split
            · exact readJsonChars_control r ‹_›
            · rename_i h1 h2 _ _ _ h6
              refine readJsonChars_plain r h1 h2 fun h => h6 ?_
              simp [isControl, h]

/-- **C41**: a JSON reader gets exactly the text back. -/
theorem C41_roundtrip (s : Str) : readJson (jsonString s) = some s := by
  simp only [jsonString, List.cons_append, List.nil_append, readJson]
  induction s with
  | nil => rfl
  | cons c s ih => rw [List.flatMap_cons, List.append_assoc, readJsonChars_jsonChar, ih]; rfl

theorem hex4_plain : ∀ n < 160, ∀ c ∈ hex4 n, isControl c = false := by decide +kernel

/-- **C41**: no control character is written raw. -/
theorem C41_no_control (s : Str) : ∀ c ∈ jsonString s, isControl c = false := by
  intro c hc
  simp only [jsonString, List.mem_append, List.mem_flatMap] at hc
  rcases hc with (hc | ⟨d, _, hd⟩) | hc
  · simp at hc; subst hc; decide
  · unfold jsonChar at hd
    repeat' split at hd
    all_goals first
      | (rcases List.mem_append.mp hd with hd | hd
         · simp at hd; rcases hd with h | h <;> subst h <;> decide
         · exact hex4_plain _ (isControl_lt ‹_›) _ hd)
      | (simp at hd; rcases hd with h | h <;> subst h <;> decide)
      | (simp at hd; subst hd; decide)
      | (simp at hd; subst hd; simpa using ‹¬ isControl _ = true›)
  · simp at hc; subst hc; decide

/-- **C41**: different texts have different JSON forms. -/
theorem C41_injective {s t : Str} (h : jsonString s = jsonString t) : s = t := by
  have := congrArg readJson h
  simpa [C41_roundtrip] using this

example : jsonString c!"C:\\a \"b\"\n" = c!"\"C:\\\\a \\\"b\\\"\\n\"" ∧
    jsonString [Char.ofNat 7] = c!"\"\\u0007\"" := by decide

/-! ### C42: Markdown escaping -/

/-- The characters that `escape_markdown` escapes. -/
def mdActive : List Char := ['\\', '*', '_', '[', ']', '`', '#', '<', '>']

/-- What `escape_markdown` writes for one character. -/
def mdChar (c : Char) : Str := if c ∈ mdActive then ['\\', c] else [c]

theorem escapeMarkdown_append (s t : Str) : escapeMarkdown (s ++ t) = escapeMarkdown s ++ escapeMarkdown t := by
  simp only [escapeMarkdown, replaceChar_append]

theorem escapeMarkdown_single (c : Char) : escapeMarkdown [c] = mdChar c := by
  by_cases h : c ∈ mdActive
  · simp only [mdActive, List.mem_cons, List.not_mem_nil, or_false] at h
    rcases h with h | h | h | h | h | h | h | h | h <;> subst h <;> decide
  · have h' := h
    simp only [mdActive, List.mem_cons, List.not_mem_nil, or_false, not_or] at h'
    simp [h', h, escapeMarkdown, replaceChar, mdChar]

theorem escapeMarkdown_cons (c : Char) (s : Str) : escapeMarkdown (c :: s) = mdChar c ++ escapeMarkdown s := by
  rw [← escapeMarkdown_single, ← escapeMarkdown_append]
  rfl

theorem escapeMarkdown_eq (s : Str) : escapeMarkdown s = s.flatMap mdChar := by
  induction s with
  | nil => rfl
  | cons c s ih => rw [escapeMarkdown_cons, ih, List.flatMap_cons]

attribute [local irreducible] escapeMarkdown

theorem readMarkdown_plain {c : Char} (r : Str) (h : c ≠ '\\') : readMarkdown (c :: r) = c :: readMarkdown r := by
  rw [readMarkdown.eq_def]
  split <;> simp_all

theorem unescapedChars_plain {c : Char} (r : Str) (h : c ≠ '\\') :
    unescapedChars (c :: r) = c :: unescapedChars r := by
  rw [unescapedChars.eq_def]
  split <;> simp_all

theorem readMarkdown_mdChar (c : Char) (r : Str) : readMarkdown (mdChar c ++ r) = c :: readMarkdown r := by
  unfold mdChar
  split
  · simp [readMarkdown]
  · exact readMarkdown_plain r fun h => ‹c ∉ mdActive› (by subst h; decide)

/-- **C42**: undoing the backslash escapes gives the text back. -/
theorem C42_roundtrip (s : Str) : readMarkdown (escapeMarkdown s) = s := by
  induction s with
  | nil => rw [escapeMarkdown_eq]; rfl
  | cons c s ih => rw [escapeMarkdown_cons, readMarkdown_mdChar, ih]

theorem unescapedChars_escape (s : Str) : unescapedChars (escapeMarkdown s) = s.filter fun c => c ∉ mdActive := by
  induction s with
  | nil => rw [escapeMarkdown_eq]; rfl
  | cons c s ih =>
    rw [escapeMarkdown_cons]
    unfold mdChar
    split
    · rename_i h
      simp [unescapedChars, ih, h]
    · rename_i h
      rw [List.cons_append, List.nil_append, unescapedChars_plain _ fun h' => h (by subst h'; decide), ih]
      simp [h]

/-- **C42**: none of the characters for emphasis, links, code, headings or HTML is left unescaped. -/
theorem C42_active_escaped (s : Str) :
    ∀ c ∈ unescapedChars (escapeMarkdown s), c ∉ ['\\', '*', '_', '[', ']', '`', '#', '<', '>'] := by
  intro c hc
  rw [unescapedChars_escape] at hc
  simpa [mdActive] using (List.mem_filter.mp hc).2

/-- **C42**: the escaped text is at most twice as long, and text without special characters is unchanged. -/
theorem C42_plain {s : Str} (h : ∀ c ∈ s, c ∉ ['\\', '*', '_', '[', ']', '`', '#', '<', '>']) :
    escapeMarkdown s = s := by
  induction s with
  | nil => rw [escapeMarkdown_eq]; rfl
  | cons c s ih =>
    rw [escapeMarkdown_cons, ih fun x hx => h x (List.mem_cons_of_mem _ hx)]
    have : c ∉ mdActive := h c List.mem_cons_self
    simp [mdChar, this]

example : escapeMarkdown c!"a*b <c> \\d" = c!"a\\*b \\<c\\> \\\\d" := by decide +kernel

/-! ### C43: tables -/

theorem splitCells_plain {c : Char} (cell r : Str) (h : c ≠ '\\') (h2 : c ≠ '|') :
    splitCells cell (c :: r) = splitCells (cell ++ [c]) r := by
  rw [splitCells.eq_def]
  split <;> simp_all

theorem splitCells_bar (cell r : Str) : splitCells cell ('|' :: r) = cell :: splitCells [] r := by
  rw [splitCells.eq_def]
  split
  · simp_all
  · rename_i heq
    simp only [List.cons.injEq] at heq
    obtain ⟨rfl, rfl⟩ := heq
    rw [if_pos rfl]
  · simp_all

theorem splitCells_escape {t : Str} (h : '|' ∉ t) (cell r : Str) :
    splitCells cell (escapeMarkdown t ++ r) = splitCells (cell ++ escapeMarkdown t) r := by
  induction t generalizing cell with
  | nil => simp [escapeMarkdown_eq]
  | cons c t ih =>
    have hc : c ≠ '|' := by intro hh; simp_all
    have ht : '|' ∉ t := by simp_all
    rw [escapeMarkdown_cons, List.append_assoc]
    unfold mdChar
    split
    · show splitCells cell ('\\' :: c :: (escapeMarkdown t ++ r)) = _
      rw [splitCells, ih ht]
      simp
    · rename_i hm
      rw [List.cons_append, List.nil_append, splitCells_plain _ _ (fun hh => hm (by subst hh; decide)) hc, ih ht]
      simp

theorem splitCells_row {cells : List Str} (h : ∀ t ∈ cells, '|' ∉ t) :
    splitCells c!" " (cells.flatMap fun t => escapeMarkdown t ++ c!" | ") =
      cells.map (fun t => c!" " ++ escapeMarkdown t ++ c!" ") ++ [c!" "] := by
  induction cells with
  | nil => rfl
  | cons t cells ih =>
    rw [List.flatMap_cons, List.append_assoc, splitCells_escape (h t List.mem_cons_self)]
    simp only [List.cons_append, List.nil_append]
    rw [splitCells_plain _ _ (by decide) (by decide), splitCells_bar, splitCells_plain _ _ (by decide) (by decide)]
    simp only [List.nil_append]
    rw [ih fun x hx => h x (List.mem_cons_of_mem _ hx)]
    simp

theorem mdChar_ws {c : Char} (h : isWs c = true) : mdChar c = [c] := by
  have : c ∉ mdActive := by
    intro hc
    simp only [mdActive, List.mem_cons, List.not_mem_nil, or_false] at hc
    rcases hc with hc | hc | hc | hc | hc | hc | hc | hc | hc <;> subst hc <;> revert h <;> decide
  simp [mdChar, this]

theorem mdChar_not_ws {c : Char} (h : isWs c = false) : ∀ x ∈ mdChar c, isWs x = false := by
  unfold mdChar
  split
  · simp [h]; decide
  · simp [h]

theorem mdChar_ne_nil (c : Char) : mdChar c ≠ [] := by unfold mdChar; split <;> simp

theorem trimStart_escape (s : Str) : trimStart (escapeMarkdown s) = escapeMarkdown (trimStart s) := by
  induction s with
  | nil => simp only [escapeMarkdown_eq]; rfl
  | cons c s ih =>
    by_cases hc : isWs c = true
    · rw [escapeMarkdown_cons, mdChar_ws hc]
      simp only [trimStart, List.cons_append, List.nil_append, List.dropWhile_cons, hc, if_true]
      exact ih
    · have hc : isWs c = false := by simpa using hc
      have h1 : trimStart (c :: s) = c :: s := by simp [trimStart, hc]
      rw [h1, escapeMarkdown_cons]
      cases hm : mdChar c with
      | nil => exact absurd hm (mdChar_ne_nil c)
      | cons x xs =>
        have := mdChar_not_ws hc x (by simp [hm])
        simp [trimStart, this]

theorem trimEnd_escape (s : Str) : trimEnd (escapeMarkdown s) = escapeMarkdown (trimEnd s) := by
  rw [← List.reverse_reverse s]
  generalize s.reverse = r
  induction r with
  | nil => simp only [escapeMarkdown_eq]; rfl
  | cons c r ih =>
    rw [List.reverse_cons]
    generalize hs : r.reverse = s at ih ⊢
    have ih' : (List.dropWhile isWs (escapeMarkdown s).reverse).reverse
        = escapeMarkdown (List.dropWhile isWs s.reverse).reverse := ih
    by_cases hc : isWs c = true
    · have : escapeMarkdown [c] = [c] := by rw [escapeMarkdown_single, mdChar_ws hc]
      rw [escapeMarkdown_append, this]
      simp [trimEnd, hc, ih']
    · have hc : isWs c = false := by simpa using hc
      have h1 : trimEnd (s ++ [c]) = s ++ [c] := by simp [trimEnd, hc]
      rw [h1, escapeMarkdown_append]
      rw [escapeMarkdown_single]
      rcases List.eq_nil_or_concat (mdChar c) with hm | ⟨xs, x, hm⟩
      · exact absurd hm (mdChar_ne_nil c)
      · have := mdChar_not_ws hc x (by simp [hm])
        rw [hm]
        simp [trimEnd, this]

theorem trim_escape (s : Str) : trim (escapeMarkdown s) = escapeMarkdown (trim s) := by
  unfold trim
  rw [trimStart_escape, trimEnd_escape]

theorem trimStart_blank (s : Str) : trimStart (c!" " ++ s) = trimStart s := by
  simp only [trimStart, List.cons_append, List.nil_append, List.dropWhile_cons]
  rfl

theorem trimEnd_space (s : Str) : trimEnd (s ++ c!" ") = trimEnd s := by
  have : (s ++ c!" ").reverse = ' ' :: s.reverse := by simp
  simp only [trimEnd, this, List.dropWhile_cons]
  rfl

theorem trimStart_append_blank (s : Str) : trimEnd (trimStart (s ++ c!" ")) = trimEnd (trimStart s) := by
  induction s with
  | nil => rfl
  | cons c s ih =>
    by_cases hc : isWs c = true
    · simp only [trimStart, List.cons_append, List.dropWhile_cons, hc, if_true]
      exact ih
    · have hc : isWs c = false := by simpa using hc
      have h1 : trimStart (c :: (s ++ c!" ")) = (c :: s) ++ c!" " := by simp [trimStart, hc]
      have h2 : trimStart (c :: s) = c :: s := by simp [trimStart, hc]
      rw [List.cons_append, h1, h2, trimEnd_space]

theorem trim_padded (s : Str) : trim (c!" " ++ s ++ c!" ") = trim s := by
  unfold trim
  rw [List.append_assoc, trimStart_blank, trimStart_append_blank]

theorem readCells_row {cells : List Str} (h : ∀ t ∈ cells, '|' ∉ t) :
    readCells (c!"| " ++ cells.flatMap fun t => escapeMarkdown t ++ c!" | ") = some (cells.map trim) := by
  unfold readCells
  have e : splitCells [] (c!"| " ++ cells.flatMap fun t => escapeMarkdown t ++ c!" | ") =
      [] :: (cells.map (fun t => c!" " ++ escapeMarkdown t ++ c!" ") ++ [c!" "]) := by
    simp only [List.cons_append, List.nil_append]
    rw [splitCells_bar, splitCells_plain _ _ (by decide) (by decide)]
    exact congrArg _ (splitCells_row h)
  rw [e]
  have h1 : trim ((cells.map (fun t => c!" " ++ escapeMarkdown t ++ c!" ") ++ [c!" "]).getLast?.getD []) = [] := by
    simp; decide
  simp only [h1]
  simp only [List.dropLast_concat, List.map_map]
  rw [if_pos (by simp; decide)]
  congr 1
  apply List.map_congr_left
  intro t _
  simp only [Function.comp, trim_padded, trim_escape, C42_roundtrip]

theorem splitCells_sep (n : Nat) :
    splitCells [] (List.replicate n c!" --- |").flatten = List.replicate n c!" --- " ++ [[]] := by
  induction n with
  | zero => rfl
  | succ n ih =>
    rw [List.replicate_succ, List.flatten_cons]
    simp only [List.cons_append, List.nil_append]
    iterate 5 rw [splitCells_plain _ _ (by decide) (by decide)]
    rw [splitCells_bar, ih]
    rfl

theorem readCells_sep (n : Nat) :
    readCells (c!"|" ++ (List.replicate n c!" --- |").flatten) = some (List.replicate n c!"---") := by
  unfold readCells
  have e : splitCells [] (c!"|" ++ (List.replicate n c!" --- |").flatten) =
      [] :: (List.replicate n c!" --- " ++ [[]]) := by
    simp only [List.cons_append, List.nil_append]
    rw [splitCells_bar, splitCells_sep]
  rw [e]
  have : readMarkdown (trim c!" --- ") = c!"---" := by decide
  simp [this]
  decide

theorem mdChar_newline {c : Char} : '\n' ∈ mdChar c ↔ c = '\n' := by
  unfold mdChar
  split
  · rename_i h
    have : c ≠ '\n' := by intro hh; subst hh; revert h; decide
    simp [this, Ne.symm this]
  · simp; exact eq_comm

theorem newline_escape {s : Str} : '\n' ∈ escapeMarkdown s ↔ '\n' ∈ s := by
  simp [escapeMarkdown_eq, List.mem_flatMap, mdChar_newline]

/-- Lines ended by a newline each. -/
theorem linesOf_lines {ls : List Str} (h : ∀ l ∈ ls, '\n' ∉ l) : linesOf (ls.flatMap fun l => l ++ c!"\n") = ls := by
  unfold linesOf
  have : splitChar '\n' (ls.flatMap fun l => l ++ c!"\n") = ls ++ [[]] := by
    induction ls with
    | nil => rfl
    | cons l ls ih =>
      rw [List.flatMap_cons, List.append_assoc]
      show splitChar '\n' (l ++ '\n' :: _) = _
      rw [splitChar_append_sep (h l List.mem_cons_self)]
      exact congrArg (l :: ·) (ih fun x hx => h x (List.mem_cons_of_mem _ hx))
  rw [this, List.dropLast_concat]

/-- The lines of an exported table. -/
def gfmLines (head : List Str) (rows : List (List Str)) : List Str :=
  (c!"| " ++ head.flatMap fun t => escapeMarkdown t ++ c!" | ") ::
    (c!"|" ++ (List.replicate head.length c!" --- |").flatten) ::
    rows.map fun r => c!"| " ++ r.flatMap fun t => escapeMarkdown t ++ c!" | "

theorem exportTableGfm_lines (head : List Str) (rows : List (List Str)) :
    exportTableGfm (head :: rows) = (gfmLines head rows).flatMap fun l => l ++ c!"\n" := by
  have hg : gfmRow = fun a => c!"| " ++ (a.flatMap (fun t => escapeMarkdown t ++ c!" | ") ++ c!"\n") := by
    funext a; simp only [gfmRow, List.append_assoc]
  simp only [exportTableGfm, hg, gfmSeparator, gfmLines, List.flatMap_cons, List.append_assoc, List.flatMap_map]

theorem row_newline {cells : List Str} (h : ∀ t ∈ cells, '\n' ∉ t) :
    '\n' ∉ c!"| " ++ cells.flatMap fun t => escapeMarkdown t ++ c!" | " := by
  intro hc
  rcases List.mem_append.mp hc with hc | hc
  · revert hc; decide
  · obtain ⟨t, ht, hc⟩ := List.mem_flatMap.mp hc
    rcases List.mem_append.mp hc with hc | hc
    · exact h t ht (newline_escape.mp hc)
    · revert hc; decide

theorem sep_newline (n : Nat) : '\n' ∉ c!"|" ++ (List.replicate n c!" --- |").flatten := by
  intro hc
  rcases List.mem_append.mp hc with hc | hc
  · revert hc; decide
  · obtain ⟨t, ht, hc⟩ := List.mem_flatten.mp hc
    rw [List.eq_of_mem_replicate ht] at hc
    revert hc; decide

/-- **C43 (partial)**: a table of any shape whose texts contain no `|` and no line break is read back cell by
cell, up to blanks around the texts. (`\r` also ends lines in Markdown; the reader used here does not need
that.) Missing: texts with `|` or line breaks, see `C43_pipes_violated` and `C43_newline_violated`. -/
theorem C43_roundtrip_partial (head : List Str) (rows : List (List Str))
    (h : ∀ r ∈ head :: rows, ∀ t ∈ r, '|' ∉ t ∧ '\n' ∉ t ∧ '\r' ∉ t) :
    readGfm (exportTableGfm (head :: rows)) = some ((head :: rows).map (·.map trim)) := by
  have hn : ∀ l ∈ gfmLines head rows, '\n' ∉ l := by
    intro l hl
    simp only [gfmLines, List.mem_cons, List.mem_map] at hl
    rcases hl with rfl | rfl | ⟨r, hr, rfl⟩
    · exact row_newline fun t ht => (h _ List.mem_cons_self t ht).2.1
    · exact sep_newline _
    · exact row_newline fun t ht => (h _ (List.mem_cons_of_mem _ hr) t ht).2.1
  have hl := linesOf_lines hn
  unfold readGfm
  rw [exportTableGfm_lines, hl]
  simp only [gfmLines]
  rw [readCells_row fun t ht => (h _ List.mem_cons_self t ht).1, readCells_sep]
  have hd : (List.replicate head.length c!"---").all isDelimiter = true := by
    rw [List.all_eq_true]
    intro x hx
    rw [List.eq_of_mem_replicate hx]
    decide
  simp only [List.length_map, List.length_replicate]
  rw [if_pos ⟨trivial, hd⟩]
  have hm : ∀ rows : List (List Str), (∀ r ∈ rows, ∀ t ∈ r, '|' ∉ t) →
      (rows.map fun r => c!"| " ++ r.flatMap fun t => escapeMarkdown t ++ c!" | ").mapM readCells =
        some (rows.map (·.map trim)) := by
    intro rows
    induction rows with
    | nil => intro _; rfl
    | cons r rows ih =>
      intro hr
      rw [List.map_cons, List.mapM_cons, readCells_row (hr r List.mem_cons_self),
        ih fun x hx => hr x (List.mem_cons_of_mem _ hx)]
      rfl
  rw [hm rows fun r hr t ht => (h r (List.mem_cons_of_mem _ hr) t ht).1]
  rfl

/-- **C43 (partial)**: under the same condition every row of a rectangular table has as many cells as the
table has columns. -/
theorem C43_shape_partial (head : List Str) (rows : List (List Str)) (n : Nat)
    (h : ∀ r ∈ head :: rows, ∀ t ∈ r, '|' ∉ t ∧ '\n' ∉ t ∧ '\r' ∉ t) (hw : ∀ r ∈ head :: rows, r.length = n) :
    ∃ t, readGfm (exportTableGfm (head :: rows)) = some t ∧ t.length = rows.length + 1 ∧ ∀ r ∈ t, r.length = n := by
  refine ⟨_, C43_roundtrip_partial head rows h, by simp, fun r hr => ?_⟩
  obtain ⟨x, hx, rfl⟩ := List.mem_map.mp hr
  simpa using hw x hx

/-- **C43 is violated**: `|` is not escaped, so a cell that contains it becomes two cells. -/
theorem C43_pipes_violated : readGfm (exportTableGfm [[c!"a", c!"b"], [c!"1|2", c!"3"]]) =
    some [[c!"a", c!"b"], [c!"1", c!"2", c!"3"]] := by decide +kernel

/-- **C43 is violated**: a line break in a cell breaks the row. -/
theorem C43_newline_violated : readGfm (exportTableGfm [[c!"a"], [c!"1\n2"]]) = none := by decide +kernel

example : readGfm (exportTableGfm [[c!"Name", c!"*"], [c!"A_b ", c!"<1>"]]) =
    some [[c!"Name", c!"*"], [c!"A_b", c!"<1>"]] := by decide +kernel

end PptRs.Props
