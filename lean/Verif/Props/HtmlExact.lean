import Verif.Props.HtmlLimits
import Verif.Props.Tables

/-!
# C84: articles are imported completely
-/

namespace PptRs.Props
open PptRs PptRs.Spec

/-- A state between blocks or inside a paragraph. -/
def mid (sl : List HtmlSlide) (cur : Option HtmlSlide) (buf : Str) (k : List Str) (items : List Str)
    (rows : List (List Str)) (code : Str) (title : Option Str) : HtmlState :=
  { slides := sl, current := cur, buffer := buf, stack := k, items := items, rows := rows, code := code, title := title }

def SkipFree (k : List Str) : Prop := (k.any fun t => skipTags.contains t) = false

theorem SkipFree.cons {k : List Str} (h : SkipFree k) {n : Str} (hn : skipTags.contains n = false) : SkipFree (n :: k) := by
  unfold SkipFree at *
  rw [List.any_cons, h, hn]; rfl

theorem SkipFree.tail {k : List Str} (h : SkipFree k) : SkipFree (k.drop 1) := by
  cases k with
  | nil => exact h
  | cons a k =>
    unfold SkipFree at *
    rw [List.any_cons, Bool.or_eq_false_iff] at h
    exact h.2

theorem step_open (env : HtmlEnv) (o : HtmlOptions) (st : HtmlState) {n : Str} {a : List (Str × Str)} (hs : SkipFree st.stack)
    (hn : skipTags.contains n = false) (ha : attrValue? a c!"style" = none) :
    st.step env o (.openTag n a) = some (HtmlState.openBody env o { st with stack := n :: st.stack } n a) := by
  have h1 : HtmlState.inSkip { st with stack := n :: st.stack } = false := hs.cons hn
  have h2 : stylePanics env.low ((none : Option Str).getD []) = false := rfl
  simp only [HtmlState.step, HtmlState.openTag, h1, ha, h2, Bool.and_false, Bool.false_eq_true, if_false]

theorem step_close (env : HtmlEnv) (o : HtmlOptions) (st : HtmlState) (n : Str) (hs : SkipFree st.stack) :
    st.step env o (.closeTag n) = (st.closeBody o n).map fun st => { st with stack := st.stack.drop 1 } := by
  have h1 : st.inSkip = false := hs
  simp only [HtmlState.step, HtmlState.closeTag, h1, Bool.false_eq_true, if_false]

/-- An element whose opening and closing tags act as given. -/
theorem run_elem (env : HtmlEnv) (o : HtmlOptions) {st st1 st2 st3 : HtmlState} {n : Str} {a : List (Str × Str)} {kids : List Html}
    (hs : SkipFree st.stack) (hn : skipTags.contains n = false) (ha : attrValue? a c!"style" = none)
    (h1 : HtmlState.openBody env o { st with stack := n :: st.stack } n a = st1)
    (h2 : st1.run env o (eventsL kids) = some st2) (hs2 : SkipFree st2.stack) (h3 : st2.closeBody o n = some st3) :
    st.run env o (Html.events (.elem n a kids)) = some { st3 with stack := st3.stack.drop 1 } := by
  simp only [Html.events, run_cons, step_open env o st hs hn ha, h1, Option.bind_some, run_append, h2,
    step_close env o st2 n hs2, h3, Option.map_some, HtmlState.run]

section
variable (env : HtmlEnv) (o : HtmlOptions)

theorem run_text (sl : List HtmlSlide) (cur : Option HtmlSlide) (buf : Str) {k : List Str} (items : List Str)
    (rows : List (List Str)) (code : Str) (title : Option Str) (hk : SkipFree k) (s : Str) :
    HtmlState.run env o (mid sl cur buf k items rows code title) (eventsL [.text s]) =
      some (mid sl cur (buf ++ s) k items rows code title) := by
  have h1 : HtmlState.inSkip (mid sl cur buf k items rows code title) = false := hk
  simp only [eventsL, Html.events, List.append_nil, HtmlState.run, HtmlState.step, HtmlState.addText, h1, Option.bind_some]
  rfl

theorem run_inline (sl : List HtmlSlide) (cur : Option HtmlSlide) (buf : Str) {k : List Str} (items : List Str)
    (rows : List (List Str)) (code : Str) (title : Option Str) (hk : SkipFree k) (x : Inline) :
    ∃ k', SkipFree k' ∧ HtmlState.run env o (mid sl cur buf k items rows code title) (Html.events x.html) =
      some (mid sl cur (buf ++ x.show) k' items rows code title) := by
  cases x with
  | text s =>
    refine ⟨k, hk, ?_⟩
    have := run_text env o sl cur buf items rows code title hk s
    simpa [eventsL, Inline.html, Inline.show] using this
  | strong s =>
    have hk1 : SkipFree (c!"strong" :: k) := hk.cons rfl
    refine ⟨k, hk, ?_⟩
    refine Eq.trans (run_elem env o hk rfl rfl rfl
      (run_text env o sl cur (buf ++ c!"**") items rows code title hk1 s) hk1 rfl) ?_
    simp [mid, Inline.show, HtmlState.mark]
  | em s =>
    have hk1 : SkipFree (c!"em" :: k) := hk.cons rfl
    refine ⟨k, hk, ?_⟩
    refine Eq.trans (run_elem env o hk rfl rfl rfl
      (run_text env o sl cur (buf ++ c!"*") items rows code title hk1 s) hk1 rfl) ?_
    simp [mid, Inline.show, HtmlState.mark]
  | br =>
    refine ⟨c!"br" :: k, hk.cons rfl, ?_⟩
    simp only [Inline.html, Html.events, run_cons, step_open env o (mid sl cur buf k items rows code title) (n := c!"br")
      (a := []) hk rfl rfl, Option.bind_some, HtmlState.run]
    rfl
  | link h s =>
    have hk1 : SkipFree (c!"a" :: k) := hk.cons rfl
    refine ⟨k, hk, ?_⟩
    refine Eq.trans (run_elem env o hk rfl rfl rfl
      (run_text env o sl cur buf items rows code title hk1 s) hk1 rfl) ?_
    simp [mid, Inline.show]

theorem run_inlines (sl : List HtmlSlide) (cur : Option HtmlSlide) (buf : Str) {k : List Str} (items : List Str)
    (rows : List (List Str)) (code : Str) (title : Option Str) (hk : SkipFree k) (l : List Inline) :
    ∃ k', SkipFree k' ∧ HtmlState.run env o (mid sl cur buf k items rows code title) (eventsL (l.map Inline.html)) =
      some (mid sl cur (buf ++ showL l) k' items rows code title) := by
  induction l generalizing buf k with
  | nil => exact ⟨k, hk, by simp [eventsL, HtmlState.run, showL]⟩
  | cons x l ih =>
    obtain ⟨k1, hk1, h1⟩ := run_inline env o sl cur buf items rows code title hk x
    obtain ⟨k2, hk2, h2⟩ := ih (buf ++ x.show) hk1
    refine ⟨k2, hk2, ?_⟩
    simp only [List.map_cons, eventsL, run_append, h1, Option.bind_some, h2]
    simp [showL]

/-- A slide with its bullets. -/
def shown (t : Str) (c : List Str) (tab : Option TextTable) (code : List Str) (notes : Option Str) : HtmlSlide :=
  { title := t, content := c, bullets := c, table := tab, code := code, notes := notes }

theorem pushLimited_shown (m : Nat) (t : Str) (c : List Str) (tab : Option TextTable) (code : List Str) (notes : Option Str) (x : Str) :
    (shown t c tab code notes).pushLimited m x = shown t (c ++ [x].take (m - c.length)) tab code notes := by
  unfold HtmlSlide.pushLimited
  by_cases h : c.length < m
  · obtain ⟨d, hd⟩ : ∃ d, m - c.length = d + 1 := ⟨m - c.length - 1, by omega⟩
    simp [shown, h, hd, HtmlSlide.push]
  · simp [shown, h, show m - c.length = 0 by omega]

theorem items_shown (m : Nat) (t : Str) (tab : Option TextTable) (code : List Str) (notes : Option Str) (l c : List Str) :
    l.foldl (HtmlSlide.pushLimited m) (shown t c tab code notes) = shown t (c ++ l.take (m - c.length)) tab code notes := by
  induction l generalizing c with
  | nil => simp
  | cons x l ih =>
    rw [List.foldl_cons, pushLimited_shown, ih]
    by_cases h : c.length < m
    · obtain ⟨d, hd⟩ : ∃ d, m - c.length = d + 1 := ⟨m - c.length - 1, by omega⟩
      have : m - (c.length + 1) = d := by omega
      simp [hd, this]
    · simp [show m - c.length = 0 by omega]

theorem flushText_shown (sl : List HtmlSlide) (t : Str) (c : List Str) (tab : Option TextTable) (cs : List Str) (notes : Option Str)
    (buf : Str) (k items : List Str) (rows : List (List Str)) (code : Str) (title : Option Str) :
    HtmlState.flushText o (mid sl (some (shown t c tab cs notes)) buf k items rows code title) =
      mid sl (some (shown t (c ++ (filled buf).take (o.maxBullets - c.length)) tab cs notes)) [] k items rows code title := by
  by_cases h : trim buf = []
  · simp [HtmlState.flushText, mid, h, filled]
  · simp [HtmlState.flushText, mid, h, filled, HtmlState.addParagraph, pushLimited_shown]

theorem run_items (sl : List HtmlSlide) (cur : Option HtmlSlide) {k : List Str} (its : List Str)
    (rows : List (List Str)) (code : Str) (title : Option Str) (hk : SkipFree k) (l : List (List Inline)) :
    ∃ k', SkipFree k' ∧ HtmlState.run env o (mid sl cur [] k its rows code title) (eventsL (l.map itemHtml)) =
      some (mid sl cur [] k' (its ++ l.flatMap fun x => filled (showL x)) rows code title) := by
  induction l generalizing its k with
  | nil => exact ⟨k, hk, by simp [eventsL, HtmlState.run]⟩
  | cons x l ih =>
    have hk1 : SkipFree (c!"li" :: k) := hk.cons rfl
    obtain ⟨k1, hk1', h1⟩ := run_inlines env o sl cur [] its rows code title hk1 x
    have h2 : HtmlState.run env o (mid sl cur [] k its rows code title) (Html.events (itemHtml x)) =
        some (mid sl cur [] (k1.drop 1) (its ++ filled (showL x)) rows code title) := by
      refine Eq.trans (run_elem env o hk rfl rfl rfl h1 hk1' rfl) ?_
      by_cases hb : trim (showL x) = []
      · simp [mid, HtmlState.closeItem, hb, filled]
      · simp [mid, HtmlState.closeItem, hb, filled]
    obtain ⟨k2, hk2, h3⟩ := ih (its ++ filled (showL x)) hk1'.tail
    refine ⟨k2, hk2, ?_⟩
    simp only [List.map_cons, eventsL, run_append, h2, Option.bind_some, h3]
    simp

theorem sub_not_skip (lv : Fin 5) : skipTags.contains (subName lv) = false := by
  revert lv; decide

theorem openBody_sub (st : HtmlState) (lv : Fin 5) (a : List (Str × Str)) :
    st.openBody env o (subName lv) a = st.flushText o := by
  match lv with
  | 0 => rfl
  | 1 => rfl
  | 2 => rfl
  | 3 => rfl
  | 4 => rfl

theorem closeBody_sub (st : HtmlState) (lv : Fin 5) : st.closeBody o (subName lv) = some st.closeSub := by
  match lv with
  | 0 => rfl
  | 1 => rfl
  | 2 => rfl
  | 3 => rfl
  | 4 => rfl

/-! ### Tables -/

/-- A state inside a table. -/
def inTab (sl : List HtmlSlide) (cur : Option HtmlSlide) (k : List Str) (rows : List (List Str)) (row : List Str) (cell : Str)
    (code : Str) (title : Option Str) : HtmlState :=
  { slides := sl, current := cur, stack := k, inTable := true, rows := rows, row := row, cell := cell, code := code, title := title }

theorem run_cell (sl : List HtmlSlide) (cur : Option HtmlSlide) {k : List Str} (rows : List (List Str)) (row : List Str)
    (code : Str) (title : Option Str) (hk : SkipFree k) (c : Str) :
    HtmlState.run env o (inTab sl cur k rows row [] code title) (Html.events (cellHtml c)) =
      some (inTab sl cur k rows (row ++ [trim c]) [] code title) := by
  have hk1 : SkipFree (c!"td" :: k) := hk.cons rfl
  have h1 : HtmlState.run env o (inTab sl cur (c!"td" :: k) rows row [] code title) (eventsL [.text c]) =
      some (inTab sl cur (c!"td" :: k) rows row c code title) := by
    have h1 : HtmlState.inSkip (inTab sl cur (c!"td" :: k) rows row [] code title) = false := hk1
    simp only [eventsL, Html.events, List.append_nil, HtmlState.run, HtmlState.step, HtmlState.addText, h1, Option.bind_some]
    rfl
  refine Eq.trans (run_elem env o hk rfl rfl rfl h1 hk1 rfl) ?_
  rfl

theorem run_cells (sl : List HtmlSlide) (cur : Option HtmlSlide) {k : List Str} (rows : List (List Str)) (row : List Str)
    (code : Str) (title : Option Str) (hk : SkipFree k) (r : List Str) :
    HtmlState.run env o (inTab sl cur k rows row [] code title) (eventsL (r.map cellHtml)) =
      some (inTab sl cur k rows (row ++ r.map trim) [] code title) := by
  induction r generalizing row with
  | nil => simp [eventsL, HtmlState.run]
  | cons c r ih =>
    simp only [List.map_cons, eventsL, run_append, run_cell env o sl cur rows row code title hk c, Option.bind_some, ih]
    simp

theorem run_rows (sl : List HtmlSlide) (cur : Option HtmlSlide) {k : List Str} (rows : List (List Str))
    (code : Str) (title : Option Str) (hk : SkipFree k) (rs : List (List Str)) :
    HtmlState.run env o (inTab sl cur k rows [] [] code title) (eventsL (rs.map rowHtml)) =
      some (inTab sl cur k (rows ++ (rs.filter (· ≠ [])).map (·.map trim)) [] [] code title) := by
  induction rs generalizing rows with
  | nil => simp [eventsL, HtmlState.run]
  | cons r rs ih =>
    have hk1 : SkipFree (c!"tr" :: k) := hk.cons rfl
    have h1 : HtmlState.run env o (inTab sl cur k rows [] [] code title) (Html.events (rowHtml r)) =
        some (inTab sl cur k (rows ++ if r = [] then [] else [r.map trim]) [] [] code title) := by
      refine Eq.trans (run_elem env o hk rfl rfl rfl (run_cells env o sl cur rows [] code title hk1 r) hk1 rfl) ?_
      cases r with
      | nil => simp [inTab, HtmlState.closeRow]
      | cons c r => simp [inTab, HtmlState.closeRow]
    simp only [List.map_cons, eventsL, run_append, h1, Option.bind_some, ih]
    cases r <;> simp

/-! ### Blocks -/

/-- The table of the rows. -/
def tableOf (b : ArticleBlock) : Option TextTable := b.rows.head?.bind tableFromStringRows

/-- What a block makes of the slide. -/
def shownAfter (o : HtmlOptions) (t : Str) (c : List Str) (tab : Option TextTable) (cs : List Str) (notes : Option Str)
    (b : ArticleBlock) : HtmlSlide :=
  shown t (fillBullets o.maxBullets c b) (if o.includeTables then (tableOf b).or tab else tab)
    (if o.includeCode then cs ++ b.codes else cs) (b.notes.head?.or notes)

/-- Rows of cells that fit a table. -/
def ArticleBlock.tableOk (b : ArticleBlock) : Prop := ∀ rs ∈ b.rows, ∀ r ∈ rs, r.length < 4294967296

theorem run_block (sl : List HtmlSlide) (t : Str) (c : List Str) (tab : Option TextTable) (cs : List Str) (notes : Option Str)
    {k : List Str} (rows : List (List Str)) (code : Str) (title : Option Str) (hk : SkipFree k) (b : ArticleBlock)
    (hb : ArticleBlock.tableOk b) :
    ∃ k' rows' code', SkipFree k' ∧
      HtmlState.run env o (mid sl (some (shown t c tab cs notes)) [] k [] rows code title) (Html.events b.html) =
        some (mid sl (some (shownAfter o t c tab cs notes b)) [] k' [] rows' code' title) := by
  cases b with
  | para l =>
    have hk1 : SkipFree (c!"p" :: k) := hk.cons rfl
    obtain ⟨k1, hk1', h1⟩ := run_inlines env o sl (some (shown t c tab cs notes)) [] [] rows code title hk1 l
    refine ⟨k1.drop 1, rows, code, hk1'.tail, ?_⟩
    refine Eq.trans (run_elem env o hk rfl rfl rfl h1 hk1' rfl) ?_
    rw [List.nil_append, flushText_shown]
    simp [mid, shownAfter, fillBullets, ArticleBlock.isSub, ArticleBlock.bullets, tableOf, ArticleBlock.rows, ArticleBlock.codes, ArticleBlock.notes]
  | list ord items =>
    have key : ∀ n, skipTags.contains n = false → (∀ st : HtmlState, st.openBody env o n [] = { st with items := [] }) →
        (∀ st : HtmlState, st.closeBody o n = some (st.flushItems o)) →
        ∃ k', SkipFree k' ∧ HtmlState.run env o (mid sl (some (shown t c tab cs notes)) [] k [] rows code title)
          (Html.events (.elem n [] (items.map itemHtml))) =
        some (mid sl (some (shownAfter o t c tab cs notes (.list ord items))) [] k' [] rows code title) := by
      intro n hn ho hc
      have hk1 : SkipFree (n :: k) := hk.cons hn
      obtain ⟨k1, hk1', h1⟩ := run_items env o sl (some (shown t c tab cs notes)) [] rows code title hk1 items
      refine ⟨k1.drop 1, hk1'.tail, ?_⟩
      refine Eq.trans (run_elem env o hk hn rfl (ho _) h1 hk1' (hc _)) ?_
      by_cases he : (items.flatMap fun l => filled (showL l)) = []
      · simp [mid, HtmlState.flushItems, he, shownAfter, fillBullets, ArticleBlock.isSub, ArticleBlock.bullets, tableOf,
          ArticleBlock.rows, ArticleBlock.codes, ArticleBlock.notes]
      · simp [mid, HtmlState.flushItems, he, items_shown, shownAfter, fillBullets, ArticleBlock.isSub, ArticleBlock.bullets,
          tableOf, ArticleBlock.rows, ArticleBlock.codes, ArticleBlock.notes]
    cases ord with
    | true =>
      obtain ⟨k', hk', h⟩ := key c!"ol" rfl (fun _ => rfl) (fun _ => rfl)
      exact ⟨k', rows, code, hk', h⟩
    | false =>
      obtain ⟨k', hk', h⟩ := key c!"ul" rfl (fun _ => rfl) (fun _ => rfl)
      exact ⟨k', rows, code, hk', h⟩
  | sub lv l =>
    have hk1 : SkipFree (subName lv :: k) := hk.cons (sub_not_skip lv)
    obtain ⟨k1, hk1', h1⟩ := run_inlines env o sl (some (shown t c tab cs notes)) [] [] rows code title hk1 l
    refine ⟨k1.drop 1, rows, code, hk1'.tail, ?_⟩
    refine Eq.trans (run_elem env o hk (sub_not_skip lv) rfl (openBody_sub env o _ lv _) h1 hk1' (closeBody_sub o _ lv)) ?_
    rw [List.nil_append]
    by_cases hb : trim (showL l) = []
    · simp [mid, HtmlState.closeSub, hb, shownAfter, fillBullets, ArticleBlock.isSub, ArticleBlock.bullets, filled, tableOf,
        ArticleBlock.rows, ArticleBlock.codes, ArticleBlock.notes]
    · simp [mid, HtmlState.closeSub, hb, shownAfter, fillBullets, ArticleBlock.isSub, ArticleBlock.bullets, filled, tableOf,
        ArticleBlock.rows, ArticleBlock.codes, ArticleBlock.notes, HtmlState.addFormatted, HtmlSlide.push, shown]
  | code s =>
    have hk1 : SkipFree (c!"pre" :: k) := hk.cons rfl
    have hk2 : SkipFree (c!"code" :: c!"pre" :: k) := hk1.cons rfl
    have h1 : HtmlState.run env o { (mid sl (some (shown t c tab cs notes)) [] (c!"pre" :: k) [] rows [] title) with inCode := true }
        (eventsL [.elem c!"code" [] [.text s]]) =
        some { (mid sl (some (shown t c tab cs notes)) [] (c!"pre" :: k) [] rows s title) with inCode := true } := by
      have h2 : HtmlState.run env o { (mid sl (some (shown t c tab cs notes)) [] (c!"code" :: c!"pre" :: k) [] rows [] title) with inCode := true }
          (eventsL [.text s]) =
          some { (mid sl (some (shown t c tab cs notes)) [] (c!"code" :: c!"pre" :: k) [] rows s title) with inCode := true } := by
        have h3 : HtmlState.inSkip { (mid sl (some (shown t c tab cs notes)) [] (c!"code" :: c!"pre" :: k) [] rows [] title) with inCode := true } = false := hk2
        simp only [eventsL, Html.events, List.append_nil, HtmlState.run, HtmlState.step, HtmlState.addText, h3, Option.bind_some]
        rfl
      have h4 := run_elem env o (st := { (mid sl (some (shown t c tab cs notes)) [] (c!"pre" :: k) [] rows [] title) with inCode := true })
        (n := c!"code") (a := []) hk1 rfl rfl rfl h2 hk2 rfl
      simp only [eventsL, List.append_nil]
      exact h4
    refine ⟨k, rows, if o.includeCode then [] else s, hk, ?_⟩
    refine Eq.trans (run_elem env o hk rfl rfl rfl h1 hk1 rfl) ?_
    cases ho : o.includeCode <;> by_cases hs : s = [] <;>
      simp [HtmlState.flushCode, mid, ho, hs, shownAfter, fillBullets, ArticleBlock.isSub, ArticleBlock.bullets, tableOf,
        ArticleBlock.rows, ArticleBlock.codes, ArticleBlock.notes, shown]
  | table rs =>
    have hk1 : SkipFree (c!"table" :: k) := hk.cons rfl
    have h1 := run_rows env o sl (some (shown t c tab cs notes)) [] code title hk1 rs
    simp only [List.nil_append] at h1
    by_cases he : rs.filter (· ≠ []) = []
    · refine ⟨k, [], code, hk, ?_⟩
      refine Eq.trans (run_elem env o hk rfl rfl rfl h1 hk1
        (st3 := mid sl (some (shown t c tab cs notes)) [] (c!"table" :: k) [] [] code title) ?_) ?_
      · simp only [he, List.map_nil]
        show HtmlState.flushTable o _ = _
        simp [HtmlState.flushTable, inTab, mid]
      · have hr : (ArticleBlock.table rs).rows = [] := by simp only [ArticleBlock.rows, he, if_true]
        simp [mid, shownAfter, fillBullets, ArticleBlock.isSub, ArticleBlock.bullets, tableOf, hr, ArticleBlock.codes, ArticleBlock.notes]
    · have hr : (ArticleBlock.table rs).rows = [(rs.filter (· ≠ [])).map (·.map trim)] := by
        simp only [ArticleBlock.rows, he, if_false]
      obtain ⟨r0, hr0⟩ := List.exists_mem_of_ne_nil _ he
      obtain ⟨tt, htt, _⟩ := C57_string_rows_partial ((rs.filter (· ≠ [])).map (·.map trim))
        (.inr ⟨r0.map trim, List.mem_map.mpr ⟨r0, hr0, rfl⟩, by
          have := (List.mem_filter.mp hr0).2
          simpa using this⟩) (hb _ (by rw [hr]; simp))
      have hne : ((rs.filter (· ≠ [])).map (·.map trim)).isEmpty = false := by
        simp only [List.isEmpty_eq_false_iff, ne_eq, List.map_eq_nil_iff]
        exact he
      refine ⟨k, if o.includeTables then [] else (rs.filter (· ≠ [])).map (·.map trim), code, hk, ?_⟩
      refine Eq.trans (run_elem env o hk rfl rfl rfl h1 hk1
        (st3 := mid sl (some (shownAfter o t c tab cs notes (.table rs))) [] (c!"table" :: k) []
          (if o.includeTables then [] else (rs.filter (· ≠ [])).map (·.map trim)) code title) ?_) ?_
      · show HtmlState.flushTable o _ = _
        cases ho : o.includeTables
        · simp [HtmlState.flushTable, inTab, mid, ho, shownAfter, fillBullets, ArticleBlock.isSub, ArticleBlock.bullets,
            ArticleBlock.codes, ArticleBlock.notes]
        · simp only [HtmlState.flushTable, inTab, ho, hne, Bool.not_true, Bool.or_self, Bool.false_eq_true, if_false, htt,
            Option.map_some]
          have htab : tableOf (.table rs) = some tt := by
            unfold tableOf
            rw [hr]
            exact htt
          simp [mid, shownAfter, fillBullets, ArticleBlock.isSub, ArticleBlock.bullets, htab, ho,
            ArticleBlock.codes, ArticleBlock.notes, shown]
      · simp [mid]
  | quote s =>
    have hk1 : SkipFree (c!"blockquote" :: k) := hk.cons rfl
    have h1 : HtmlState.run env o { (mid sl (some (shown t c tab cs notes)) [] (c!"blockquote" :: k) [] rows code title) with inQuote := true }
        (eventsL [.text s]) =
        some { (mid sl (some (shown t c tab cs notes)) [] (c!"blockquote" :: k) [] rows code title) with inQuote := true, quote := s } := by
      have h3 : HtmlState.inSkip { (mid sl (some (shown t c tab cs notes)) [] (c!"blockquote" :: k) [] rows code title) with inQuote := true } = false := hk1
      simp only [eventsL, Html.events, List.append_nil, HtmlState.run, HtmlState.step, HtmlState.addText, h3, Option.bind_some]
      rfl
    refine ⟨k, rows, code, hk, ?_⟩
    refine Eq.trans (run_elem env o hk rfl rfl rfl h1 hk1 rfl) ?_
    by_cases hs : trim s = [] <;>
      simp [HtmlState.flushQuote, mid, hs, shownAfter, fillBullets, ArticleBlock.isSub, ArticleBlock.bullets, tableOf,
        ArticleBlock.rows, ArticleBlock.codes, ArticleBlock.notes, shown, filled]

theorem run_blocks (sl : List HtmlSlide) (s : HtmlSlide) {k : List Str} (rows : List (List Str)) (code : Str) (title : Option Str)
    (hk : SkipFree k) (bs : List ArticleBlock) (hb : ∀ b ∈ bs, ArticleBlock.tableOk b) (hs : ∃ t c tab cs n, s = shown t c tab cs n) :
    ∃ k' rows' code', SkipFree k' ∧
      HtmlState.run env o (mid sl (some s) [] k [] rows code title) (eventsL (bs.map ArticleBlock.html)) =
        some (mid sl (some (bs.foldl (fun s b => shownAfter o s.title s.content s.table s.code s.notes b) s)) [] k' [] rows' code' title) := by
  induction bs generalizing s k rows code with
  | nil => exact ⟨k, rows, code, hk, by simp [eventsL, HtmlState.run]⟩
  | cons b bs ih =>
    obtain ⟨t, c, tab, cs, n, rfl⟩ := hs
    obtain ⟨k1, r1, c1, hk1, h1⟩ := run_block env o sl t c tab cs n rows code title hk b (hb b (by simp))
    obtain ⟨k2, r2, c2, hk2, h2⟩ := ih (shownAfter o t c tab cs n b) r1 c1 hk1 (fun b h => hb b (by simp [h]))
      ⟨_, _, _, _, _, rfl⟩
    refine ⟨k2, r2, c2, hk2, ?_⟩
    simp only [List.map_cons, eventsL, run_append, h1, Option.bind_some, h2]
    rfl

end

theorem getLast_step {α β : Type} (f : α → Option β) (a : α) (l : List α) (d : Option β) :
    ((a :: l).filterMap f).getLast?.or d = (l.filterMap f).getLast?.or ((f a).or d) := by
  cases h : f a with
  | none => simp [h]
  | some x =>
    rw [List.filterMap_cons_some h, List.getLast?_cons]
    cases (List.filterMap f l).getLast? <;> rfl

theorem getLast_steps {α β : Type} (f : α → List β) (h : ∀ a, (f a).length ≤ 1) (a : α) (l : List α) (d : Option β) :
    ((a :: l).flatMap f).getLast?.or d = (l.flatMap f).getLast?.or ((f a).head?.or d) := by
  rw [List.flatMap_cons, List.getLast?_append]
  have := h a
  match hfa : f a with
  | [] => cases (List.flatMap f l).getLast? <;> rfl
  | [x] => cases (List.flatMap f l).getLast? <;> rfl
  | _ :: _ :: _ => rw [hfa] at this; simp at this

theorem notes_le (b : ArticleBlock) : b.notes.length ≤ 1 := by
  cases b <;> simp [ArticleBlock.notes, filled]
  split <;> simp

theorem fold_shown (o : HtmlOptions) (bs : List ArticleBlock) (t : Str) (c : List Str) (tab : Option TextTable) (cs : List Str)
    (n : Option Str) :
    bs.foldl (fun s b => shownAfter o s.title s.content s.table s.code s.notes b) (shown t c tab cs n) =
      shown t (bs.foldl (fillBullets o.maxBullets) c)
        (if o.includeTables then (bs.filterMap tableOf).getLast?.or tab else tab)
        (if o.includeCode then cs ++ bs.flatMap ArticleBlock.codes else cs)
        ((bs.flatMap ArticleBlock.notes).getLast?.or n) := by
  induction bs generalizing c tab cs n with
  | nil => cases ho : o.includeTables <;> cases hc : o.includeCode <;> simp
  | cons b bs ih =>
    rw [List.foldl_cons, getLast_step, getLast_steps _ notes_le]
    show List.foldl _ (shownAfter o t c tab cs n b) bs = _
    rw [shownAfter, ih]
    cases ho : o.includeTables <;> cases hc : o.includeCode <;> simp

/-- The slide of a section: its heading, the texts and list items as bullets, the last table, the code blocks and the last
quotation as notes. -/
def articleSlide (o : HtmlOptions) (s : ArticleSection) : HtmlSlide :=
  { title := if trim (showL s.title) = [] then c!"Slide" else trim (showL s.title)
    content := s.blocks.foldl (fillBullets o.maxBullets) []
    bullets := s.blocks.foldl (fillBullets o.maxBullets) []
    table := if o.includeTables then (s.blocks.filterMap tableOf).getLast? else none
    code := if o.includeCode then s.blocks.flatMap ArticleBlock.codes else []
    notes := (s.blocks.flatMap ArticleBlock.notes).getLast? }

section
variable (env : HtmlEnv) (o : HtmlOptions)

theorem openBody_h1 (sl : List HtmlSlide) (cur : Option HtmlSlide) (k : List Str) (rows : List (List Str)) (code : Str)
    (title : Option Str) (a : List (Str × Str)) :
    HtmlState.openBody env o (mid sl cur [] k [] rows code title) c!"h1" a =
      mid (sl ++ cur.toList) none [] k [] rows code title := by
  show HtmlState.finalize o (HtmlState.flushText o _) = _
  have hf : HtmlState.flushText o (mid sl cur [] k [] rows code title) = mid sl cur [] k [] rows code title := by
    simp [HtmlState.flushText, mid, trim, trimStart, trimEnd]
  simp only [hf, HtmlState.finalize]
  simp [HtmlState.flushItems, mid]

theorem run_section (sl : List HtmlSlide) (cur : Option HtmlSlide) {k : List Str} (rows : List (List Str)) (code : Str)
    (title : Option Str) (hk : SkipFree k) (s : ArticleSection) (hb : ∀ b ∈ s.blocks, ArticleBlock.tableOk b) :
    ∃ k' rows' code' title', SkipFree k' ∧
      HtmlState.run env o (mid sl cur [] k [] rows code title) (eventsL s.html) =
        some (mid (sl ++ cur.toList) (some (articleSlide o s)) [] k' [] rows' code' title') := by
  have hk1 : SkipFree (c!"h1" :: k) := hk.cons rfl
  obtain ⟨k1, hk1', h1⟩ := run_inlines env o (sl ++ cur.toList) none [] [] rows code title hk1 s.title
  rw [List.nil_append] at h1
  have h2 := run_elem env o (st := mid sl cur [] k [] rows code title) (n := c!"h1") (a := []) hk rfl rfl
    (openBody_h1 env o sl cur _ rows code title []) h1 hk1' rfl
  have h3 : ∃ title', HtmlState.run env o (mid sl cur [] k [] rows code title) (Html.events (.elem c!"h1" [] (s.title.map Inline.html))) =
      some (mid (sl ++ cur.toList) (some (shown (if trim (showL s.title) = [] then c!"Slide" else trim (showL s.title)) [] none [] none)) []
        (k1.drop 1) [] rows code title') := ⟨_, h2⟩
  obtain ⟨title', h3⟩ := h3
  obtain ⟨k2, r2, c2, hk2, h4⟩ := run_blocks env o (sl ++ cur.toList)
    (shown (if trim (showL s.title) = [] then c!"Slide" else trim (showL s.title)) [] none [] none)
    rows code title' hk1'.tail s.blocks hb ⟨_, _, _, _, _, rfl⟩
  refine ⟨k2, r2, c2, title', hk2, ?_⟩
  rw [fold_shown] at h4
  simp only [ArticleSection.html, eventsL, run_append, h3, Option.bind_some, h4]
  simp [articleSlide, shown]

theorem run_article (sl : List HtmlSlide) (cur : Option HtmlSlide) {k : List Str} (rows : List (List Str)) (code : Str)
    (title : Option Str) (hk : SkipFree k) (a : List ArticleSection) (hb : ∀ s ∈ a, ∀ b ∈ s.blocks, ArticleBlock.tableOk b) :
    ∃ sl' cur' k' rows' code' title', sl' ++ cur'.toList = sl ++ cur.toList ++ a.map (articleSlide o) ∧
      HtmlState.run env o (mid sl cur [] k [] rows code title) (eventsL (articleHtml a)) =
        some (mid sl' cur' [] k' [] rows' code' title') := by
  induction a generalizing sl cur k rows code title with
  | nil => exact ⟨sl, cur, k, rows, code, title, by simp, by simp [articleHtml, eventsL, HtmlState.run]⟩
  | cons s a ih =>
    obtain ⟨k1, r1, c1, t1, hk1, h1⟩ := run_section env o sl cur rows code title hk s (hb s (by simp))
    obtain ⟨sl', cur', k2, r2, c2, t2, he, h2⟩ := ih (sl ++ cur.toList) (some (articleSlide o s)) r1 c1 t1 hk1
      (fun s h => hb s (by simp [h]))
    refine ⟨sl', cur', k2, r2, c2, t2, by simp [he], ?_⟩
    have e : articleHtml (s :: a) = s.html ++ articleHtml a := by simp [articleHtml]
    rw [e, eventsL_append, run_append, h1, Option.bind_some, h2]

theorem finish_mid (sl : List HtmlSlide) (cur : Option HtmlSlide) (k : List Str) (rows : List (List Str)) (code : Str) (title : Option Str) :
    HtmlState.finish o (mid sl cur [] k [] rows code title) =
      if sl ++ cur.toList = [] then .error () else .ok ((sl ++ cur.toList).take o.maxSlides) := by
  have hf : HtmlState.flushText o (mid sl cur [] k [] rows code title) = mid sl cur [] k [] rows code title := by
    simp [HtmlState.flushText, mid, trim, trimStart, trimEnd]
  have : (HtmlState.finalize o (mid sl cur [] k [] rows code title)).slides = sl ++ cur.toList := by
    simp only [HtmlState.finalize, hf]
    simp [HtmlState.flushItems, mid]
  simp only [HtmlState.finish, this]

/-- An article of sections is imported as one slide per section. -/
theorem C84_events (a : List ArticleSection) (ha : a ≠ [])
    (hb : ∀ s ∈ a, ∀ b ∈ s.blocks, ∀ rs ∈ b.rows, ∀ r ∈ rs, r.length < 4294967296) :
    parseEvents env o (eventsL (articleHtml a)) = some (.ok ((a.map (articleSlide o)).take o.maxSlides)) := by
  obtain ⟨sl', cur', k', r', c', t', he, h⟩ := run_article env o [] none (k := []) [] [] none rfl a hb
  have h0 : ({} : HtmlState) = mid [] none [] [] [] [] [] none := rfl
  rw [parseEvents, h0, h, Option.map_some, finish_mid, he]
  simp [ha]

/-- The same from the text of the page. -/
theorem C84_article (a : List ArticleSection) (ha : a ≠ []) (hp : properL (articleHtml a) = true)
    (hb : ∀ s ∈ a, ∀ b ∈ s.blocks, ∀ rs ∈ b.rows, ∀ r ∈ rs, r.length < 4294967296) :
    parseHtml env o (writeL (articleHtml a)) = some (.ok ((a.map (articleSlide o)).take o.maxSlides)) := by
  rw [parseHtml, C44_tokens env _ hp, C84_events env o a ha hb]

end

/-! ### What is kept of the text -/

theorem fill_all (m : Nat) (bs : List ArticleBlock) (c : List Str) (h : c.length + (bs.flatMap ArticleBlock.bullets).length ≤ m) :
    bs.foldl (fillBullets m) c = c ++ bs.flatMap ArticleBlock.bullets := by
  induction bs generalizing c with
  | nil => simp
  | cons b bs ih =>
    simp only [List.flatMap_cons, List.length_append] at h
    have hb : fillBullets m c b = c ++ b.bullets := by
      unfold fillBullets
      split
      · rfl
      · rw [List.take_of_length_le (by omega)]
    rw [List.foldl_cons, hb, ih _ (by rw [List.length_append]; omega)]
    simp

/-- Every paragraph, heading and list item of a section is a bullet of its slide, in order, if there is room. -/
theorem C84_complete (o : HtmlOptions) (s : ArticleSection) (h : (s.blocks.flatMap ArticleBlock.bullets).length ≤ o.maxBullets) :
    (articleSlide o s).content = s.blocks.flatMap ArticleBlock.bullets ∧
    (articleSlide o s).bullets = s.blocks.flatMap ArticleBlock.bullets := by
  have := fill_all o.maxBullets s.blocks [] (by simpa using h)
  exact ⟨by simpa [articleSlide] using this, by simpa [articleSlide] using this⟩

theorem fill_take (m : Nat) (bs : List ArticleBlock) (hs : ∀ b ∈ bs, b.isSub = false) (c : List Str) (hc : c.length ≤ m) :
    bs.foldl (fillBullets m) c = (c ++ bs.flatMap ArticleBlock.bullets).take m := by
  induction bs generalizing c with
  | nil => simp [List.take_of_length_le hc]
  | cons b bs ih =>
    have hb : fillBullets m c b = c ++ b.bullets.take (m - c.length) := by
      simp [fillBullets, hs b (by simp)]
    rw [List.foldl_cons, hb, ih (fun b h => hs b (by simp [h])) _ (by simp; omega)]
    rw [List.flatMap_cons, ← List.append_assoc c]
    by_cases hl : b.bullets.length ≤ m - c.length
    · rw [List.take_of_length_le hl]
    · have e1 : (c ++ b.bullets.take (m - c.length)).length = m := by simp; omega
      rw [List.take_append_of_le_length (by omega), List.take_of_length_le (by omega),
        List.take_append_of_le_length (by simp; omega), List.take_append, List.take_of_length_le hc]

/-- Without sub-headings the first texts are kept, up to the limit. -/
theorem C84_first (o : HtmlOptions) (s : ArticleSection) (h : ∀ b ∈ s.blocks, b.isSub = false) :
    (articleSlide o s).content = (s.blocks.flatMap ArticleBlock.bullets).take o.maxBullets := by
  have := fill_take o.maxBullets s.blocks h [] (by simp)
  simpa [articleSlide] using this

/-- The table of a slide is the last table of its section: every row with cells, short rows filled up with empty cells. -/
theorem C84_table (o : HtmlOptions) (ho : o.includeTables = true) (title : List Inline) (before after : List ArticleBlock)
    (rows : List (List Str)) (hne : rows.filter (· ≠ []) ≠ []) (ha : ∀ b ∈ after, b.rows = [])
    (hl : ∀ r ∈ rows, r.length < 4294967296) :
    ∃ t, (articleSlide o ⟨title, before ++ .table rows :: after⟩).table = some t ∧
      t.rows.length = (rows.filter (· ≠ [])).length ∧
      (∀ (i : Nat) (row : List Str), (rows.filter (· ≠ []))[i]? = some row → ∃ row', t.rows[i]? = some row' ∧
        row.map trim <+: row' ∧ ∀ c ∈ row'.drop row.length, c = []) ∧ WellShaped t := by
  obtain ⟨r0, hr0⟩ := List.exists_mem_of_ne_nil _ hne
  obtain ⟨t, h1, h2, h3, _, h4⟩ := C57_string_rows_partial ((rows.filter (· ≠ [])).map (·.map trim))
    (.inr ⟨r0.map trim, List.mem_map.mpr ⟨r0, hr0, rfl⟩, by simpa using (List.mem_filter.mp hr0).2⟩) (by
      intro r hr
      obtain ⟨r1, hr1, rfl⟩ := List.mem_map.mp hr
      simpa using hl r1 (List.mem_filter.mp hr1).1)
  have hr : (ArticleBlock.table rows).rows = [(rows.filter (· ≠ [])).map (·.map trim)] := by
    simp only [ArticleBlock.rows, hne, if_false]
  have ht : tableOf (.table rows) = some t := by
    unfold tableOf
    rw [hr]; exact h1
  have hn : after.filterMap tableOf = [] := by
    rw [List.filterMap_eq_nil_iff]
    intro b hb
    simp [tableOf, ha b hb]
  refine ⟨t, ?_, by simpa using h2, ?_, h4⟩
  · simp [articleSlide, ho, List.filterMap_append, List.filterMap_cons_some ht, hn]
  · intro i row hrow
    obtain ⟨row', e1, e2, e3⟩ := h3 i (row.map trim) (by rw [List.getElem?_map, hrow]; rfl)
    exact ⟨row', e1, e2, by simpa using e3⟩

/-! ### C45: the limit is not always obeyed -/

/-- Sub-headings are bullets whatever the limit is: `n` of them give `n` bullets. -/
theorem C45_headings_violated (env : HtmlEnv) (o : HtmlOptions) (n : Nat) (hm : 1 ≤ o.maxSlides) :
    ∃ s : HtmlSlide, parseHtml env o (writeL (articleHtml [⟨[.text c!"A"], List.replicate n (.sub 0 [.text c!"B"])⟩])) =
      some (.ok [s]) ∧ s.content.length = n := by
  have hp : properL (articleHtml [⟨[.text c!"A"], List.replicate n (.sub 0 [.text c!"B"])⟩]) = true := by
    have : properL ((List.replicate n (ArticleBlock.sub 0 [.text c!"B"])).map ArticleBlock.html) = true := by
      induction n with
      | zero => rfl
      | succ n ih =>
        rw [List.replicate_succ, List.map_cons, properL, ih]
        rfl
    have h1 : (Html.elem c!"h1" [] [Html.text c!"A"]).proper = true := by decide
    simp only [articleHtml, List.flatMap_cons, List.flatMap_nil, List.append_nil, ArticleSection.html, properL, this,
      List.map_cons, List.map_nil, Inline.html, h1, Html.isText]
    rfl
  have h := C84_article env o [⟨[.text c!"A"], List.replicate n (.sub 0 [.text c!"B"])⟩] (by simp) hp (by
    intro s hs b hb rs hrs
    rw [List.mem_singleton] at hs
    subst hs
    rw [(List.mem_replicate.mp hb).2] at hrs
    simp [ArticleBlock.rows] at hrs)
  refine ⟨_, by rw [h, List.map_singleton, List.take_of_length_le (by simpa using hm)], ?_⟩
  have : ∀ c : List Str, (List.foldl (fillBullets o.maxBullets) c (List.replicate n (ArticleBlock.sub 0 [.text c!"B"]))).length = c.length + n := by
    intro c
    clear h hp
    induction n generalizing c with
    | zero => rfl
    | succ n ih =>
      rw [List.replicate_succ, List.foldl_cons, ih]
      have : (fillBullets o.maxBullets c (ArticleBlock.sub 0 [.text c!"B"])).length = c.length + 1 := by
        show (c ++ _).length = _
        rw [List.length_append]
        rfl
      omega
  simpa [articleSlide] using this []

/-- A paragraph before any heading is a bullet even if no bullets are asked for. -/
theorem C45_zero_violated (env : HtmlEnv) (o : HtmlOptions) (h0 : o.maxBullets = 0) (h1 : 1 ≤ o.maxSlides) :
    ∃ s : HtmlSlide, parseHtml env o c!"<p>x</p>" = some (.ok [s]) ∧ s.content = [c!"x"] := by
  obtain ⟨m, b, x, y, z⟩ := o
  subst h0
  have hr : HtmlState.run env ⟨m, 0, x, y, z⟩ {} (tokenizeHtml env c!"<p>x</p>") =
      some (mid [] (some { title := c!"Overview", content := [c!"x"], bullets := [c!"x"] }) [] [] [] [] [] none) := by krfl
  exact ⟨{ title := c!"Overview", content := [c!"x"], bullets := [c!"x"] }, by
    rw [parseHtml, parseEvents, hr, Option.map_some, finish_mid, if_neg (by simp), List.take_of_length_le (by simpa using h1)]
    rfl, rfl⟩

/-! ### C22: colours in style attributes -/

/-- A colour written with eight bytes after `#` that cannot be cut after six stops the import. -/
theorem C22_html_violated (env : HtmlEnv) (o : HtmlOptions) :
    parseHtml env o c!"<p style=\"color:#12345éf\">x</p>" = none := by
  krfl

/-- An article of the kind above. -/
def sampleArticle : List ArticleSection :=
  [⟨[.text c!"One"], [.para [.text c!"x < y ", .strong c!"b"], .list false [[.text c!"i"], [.em c!"j"]],
     .table [[c!"a", c!"b"], [c!"c"]], .sub 1 [.text c!"more"], .code c!"f()", .quote c!"q"]⟩,
   ⟨[.text c!"Two"], [.list true [[.link c!"u" c!"v"]]]⟩]

def sampleSlides : List HtmlSlide :=
  [{ title := c!"One", content := [c!"x < y **b**", c!"i", c!"*j*", c!"**more**"],
     bullets := [c!"x < y **b**", c!"i", c!"*j*", c!"**more**"],
     table := some ⟨[4000000, 4000000], [[c!"a", c!"b"], [c!"c", []]], 500000, 1800000⟩,
     code := [c!"f()"], notes := some c!"q" },
   { title := c!"Two", content := [c!"v"], bullets := [c!"v"] }]

example (env : HtmlEnv) : parseHtml env defaultHtml (writeL (articleHtml sampleArticle)) = some (.ok sampleSlides) := by
  rw [C84_article env defaultHtml sampleArticle (by simp [sampleArticle]) (by decide +kernel) (by decide +kernel)]
  have : (sampleArticle.map (articleSlide defaultHtml)).take defaultHtml.maxSlides = sampleSlides := by decide +kernel
  rw [this]

end PptRs.Props
