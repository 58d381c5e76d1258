import Verif.Props.WebSound

/-!
# C143: what is lost
-/

namespace PptRs.Props

open PptRs PptRs.Web PptRs.Spec

/-- Some content inside a number of sections. -/
def nestedFlow : Nat → Flow → Flow
  | 0, f => f
  | n + 1, f => .box c!"div" [] [nestedFlow n f]

theorem nested_text (n : Nat) (f : Flow) : domText (nestedFlow n f).dom = domText f.dom := by
  induction n with
  | zero => rfl
  | succ n ih => simp [nestedFlow, Flow.dom, flowDoms, domText, domTexts, ih]

theorem plain_not_mainish {n : Str} (l : List Dom) (hn : n ∉ [c!"article", c!"main", c!"body"]) : ¬ Mainish (.el n [] l) := by
  intro h
  rcases h with h | h | ⟨c, -, h⟩ | ⟨c, -, h⟩
  · exact hn h
  · simp [attr, Dom.attrs] at h
  · simp [hasClass, attr, Dom.attrs] at h
  · simp [hasId, attr, Dom.attrs] at h

theorem nested_not_mainish (f : Flow) (hf : ∀ e ∈ f.dom.elements, ¬ Mainish e) (n : Nat) :
    ∀ e ∈ (nestedFlow n f).dom.elements, ¬ Mainish e := by
  induction n with
  | zero => exact hf
  | succ n ih =>
    intro e he
    simp only [nestedFlow, Flow.dom, flowDoms, Dom.elements, elementsOf, List.append_nil, List.mem_cons] at he
    rcases he with rfl | he
    · exact plain_not_mainish _ (by decide +kernel)
    · exact ih e he

theorem nested_crash (low : Str → Str) (cfg : ParserConfig) (f : Flow) (n : Nat) : ∀ depth, depth ≤ 255 → 256 ≤ depth + n →
    (∃ m a l, f.dom = .el m a l) → walkElement low cfg depth (nestedFlow n f).dom = none := by
  induction n with
  | zero => intro depth h1 h2 _; omega
  | succ n ih =>
    intro depth h1 h2 hf
    have he : ∃ m a l, (nestedFlow n f).dom = .el m a l := by
      cases n with
      | zero => exact hf
      | succ k => exact ⟨_, _, _, rfl⟩
    have hs : skipped low c!"div" [] = false := skipped_box (by decide +kernel) (classOk_nil low)
    obtain ⟨m, a, l, he⟩ := he
    rw [nestedFlow, Flow.dom, flowDoms, flowDoms, walkElement, if_neg (by simp [hs]),
      if_neg (by rw [leafTags_contains]; decide +kernel), he, walkAll]
    by_cases hd : depth + 1 < 256
    · rw [if_pos hd, ← he, ih (depth + 1) (by omega) (by omega) hf]
      rfl
    · rw [if_neg hd]
      rfl

/-- **C143 does not hold in full.** A paragraph inside 256 or more sections one inside the other crashes the reader of web
pages: the depth is counted in a `u8` and grows with every element, not with every list, so that a build with overflow
checks panics. -/
theorem C143_deep_violated (low : Str → Str) (cfg : ParserConfig) (url : Str) (s : Str) (n : Nat) (hn : 256 ≤ n) (hs : 100 < utf8Len s) :
    parsePage low cfg (WebDoc.dom ⟨none, none, [nestedFlow n (.leaf .paragraph [] [.text s])]⟩) url = none := by
  have hm := mainElement_body ⟨none, none, [nestedFlow n (.leaf .paragraph [] [.text s])]⟩
    (by
      intro e he
      simp only [flowDoms, elementsOf, List.append_nil] at he
      refine nested_not_mainish _ ?_ n e he
      intro e he
      simp only [Flow.dom, LeafKind.tag, Dom.elements, elementsOf, List.append_nil, List.mem_singleton] at he
      subst he
      exact plain_not_mainish _ (by decide +kernel))
    (by
      simp only [flowDoms, domTexts, nested_text, List.append_nil]
      simpa [Flow.dom, domText, domTexts] using hs)
  rw [parsePage, hm]
  simp only
  have : walkElement low cfg 0 (.el c!"body" [] (flowDoms [nestedFlow n (.leaf .paragraph [] [.text s])])) = none := by
    obtain ⟨k, rfl⟩ : ∃ k, n = k + 1 := ⟨n - 1, by omega⟩
    have hb : skipped low c!"body" [] = false := skipped_box (by decide +kernel) (classOk_nil low)
    have hc := nested_crash low cfg (.leaf .paragraph [] [.text s]) (k + 1) 1 (by omega) (by omega) ⟨_, _, _, rfl⟩
    rw [walkElement, if_neg (by simp [hb]), if_neg (by rw [leafTags_contains]; decide +kernel), flowDoms, flowDoms]
    rw [nestedFlow, Flow.dom] at hc ⊢
    rw [walkAll, if_pos (by omega), hc]
    rfl
  rw [this]
  rfl

/-- **C143 does not hold in full.** Text of a page that stands directly in a section, not in a paragraph, heading, list item,
quotation, code or table, is lost, however long it is: a page that only has such text is refused as a page without
content. -/
theorem C143_loose_violated (low : Str → Str) (cfg : ParserConfig) (url t s : Str) :
    parsePage low cfg (WebDoc.dom ⟨some t, none, [.box c!"div" [] [.loose s]]⟩) url = some (.error ()) := by
  unfold parsePage
  cases hm : mainElement (WebDoc.dom ⟨some t, none, [.box c!"div" [] [.loose s]]⟩) with
  | none => rfl
  | some m =>
    have hb : ∀ n : Str, n ∉ neverShown → skipped low n [] = false := fun n hn => skipped_box hn (classOk_nil low)
    have h1 : skipped low c!"html" [] = false := hb _ (by decide +kernel)
    have h2 : skipped low c!"head" [] = false := hb _ (by decide +kernel)
    have h3 : skipped low c!"title" [] = false := hb _ (by decide +kernel)
    have h4 : skipped low c!"body" [] = false := hb _ (by decide +kernel)
    have h5 : skipped low c!"div" [] = false := hb _ (by decide +kernel)
    have l1 : leafTags.contains c!"html" = false := by decide +kernel
    have l2 : leafTags.contains c!"head" = false := by decide +kernel
    have l3 : leafTags.contains c!"title" = false := by decide +kernel
    have l4 : leafTags.contains c!"body" = false := by decide +kernel
    have l5 : leafTags.contains c!"div" = false := by decide +kernel
    have o : ∀ (n : Str) (depth : Nat) (l : List Dom), n ∉ contentTags → ownOf cfg depth (.el n [] l) = {} :=
      fun n depth l hn => own_box cfg depth [] l hn
    have w3 : ∀ d, walkElement low cfg d (.el c!"title" [] [.text t]) = some {} := by
      intro d
      rw [walkElement, if_neg (by simp [h3]), if_neg (by simp only [l3]; decide), walkAll, walkAll, o _ _ _ (by decide +kernel)]
      rfl
    have w5 : ∀ d, walkElement low cfg d (.el c!"div" [] [.text s]) = some {} := by
      intro d
      rw [walkElement, if_neg (by simp [h5]), if_neg (by simp only [l5]; decide), walkAll, walkAll, o _ _ _ (by decide +kernel)]
      rfl
    have w2 : ∀ d, d < 200 → walkElement low cfg d (.el c!"head" [] [.el c!"title" [] [.text t]]) = some {} := by
      intro d hd
      rw [walkElement, if_neg (by simp [h2]), if_neg (by simp only [l2]; decide), walkAll, if_pos (by omega), w3, walkAll, o _ _ _ (by decide +kernel)]
      rfl
    have w4 : ∀ d, d < 200 → walkElement low cfg d (.el c!"body" [] [.el c!"div" [] [.text s]]) = some {} := by
      intro d hd
      rw [walkElement, if_neg (by simp [h4]), if_neg (by simp only [l4]; decide), walkAll, if_pos (by omega), w5, walkAll, o _ _ _ (by decide +kernel)]
      rfl
    have w1 : walkElement low cfg 0 (.el c!"html" [] [.el c!"head" [] [.el c!"title" [] [.text t]],
        .el c!"body" [] [.el c!"div" [] [.text s]]]) = some {} := by
      rw [walkElement, if_neg (by simp [h1]), if_neg (by simp only [l1]; decide), walkAll, if_pos (by omega), w2 _ (by omega), walkAll, if_pos (by omega), w4 _ (by omega), walkAll,
        o _ _ _ (by decide +kernel)]
      rfl
    have hmem := (mainElement_mem hm).1
    have he : (WebDoc.dom ⟨some t, none, [.box c!"div" [] [.loose s]]⟩).elements =
        [.el c!"html" [] [.el c!"head" [] [.el c!"title" [] [.text t]], .el c!"body" [] [.el c!"div" [] [.text s]]],
         .el c!"head" [] [.el c!"title" [] [.text t]], .el c!"title" [] [.text t],
         .el c!"body" [] [.el c!"div" [] [.text s]], .el c!"div" [] [.text s]] := by
      simp [WebDoc.dom, WebDoc.head, Dom.elements, elementsOf, flowDoms, Flow.dom]
    rw [he] at hmem
    have hw : walkElement low cfg 0 m = some {} := by
      simp only [List.mem_cons, List.not_mem_nil, or_false] at hmem
      rcases hmem with rfl | rfl | rfl | rfl | rfl
      · exact w1
      · exact w2 _ (by omega)
      · exact w3 _
      · exact w4 _ (by omega)
      · exact w5 _
    simp only [hw]
    rfl

/-- A walk that finds nothing. -/
theorem walk_leaf (low : Str → Str) (cfg : ParserConfig) (depth : Nat) (n : Str) (a : List (Str × Str)) (l : List Dom)
    (hn : n ∈ contentTags) (hs : n ∉ neverShown) (ha : ClassOk low a) :
    walkElement low cfg depth (.el n a l) = some (ownOf cfg depth (.el n a l)) := by
  rw [walkElement, if_neg (by simp [skipped_box hs ha]), if_pos ((leafTags_contains n).2 hn)]

/-- **C143 does not hold in full.** A paragraph of a web page with fewer than ten bytes of text ("Yes.", "Price: 5") is lost. -/
theorem C143_short_violated (low : Str → Str) (cfg : ParserConfig) (depth : Nat) (l : List Dom)
    (h : utf8Len (shown (domTexts l)) < 10) : walkElement low cfg depth (.el c!"p" [] l) = some {} := by
  rw [walk_leaf low cfg depth _ _ _ (by decide +kernel) (by decide +kernel) (classOk_nil low)]
  show some (if 10 ≤ utf8Len (cleanText (.el c!"p" [] l)) then Found.block .paragraph (cleanText (.el c!"p" [] l)) else {}) = _
  rw [cleanText_eq, if_neg (by omega)]

/-- **C143 does not hold in full.** Long content of a web page is not shortened but lost: a list item with 500 bytes or more,
a heading with 300 or more, code with more than 1000. -/
theorem C143_long_violated (low : Str → Str) (cfg : ParserConfig) (depth : Nat) (l : List Dom) :
    (500 ≤ utf8Len (shown (domTexts l)) → walkElement low cfg depth (.el c!"li" [] l) = some {}) ∧
    (300 ≤ utf8Len (shown (domTexts l)) → walkElement low cfg depth (.el c!"h1" [] l) = some {}
      ∧ walkElement low cfg depth (.el c!"h2" [] l) = some {}) ∧
    (1000 < utf8Len (trim (domTexts l)) → walkElement low cfg depth (.el c!"pre" [] l) = some {}) := by
  refine ⟨fun h => ?_, fun h => ⟨?_, ?_⟩, fun h => ?_⟩
  · rw [walk_leaf low cfg depth _ _ _ (by decide +kernel) (by decide +kernel) (classOk_nil low)]
    show some (if cleanText (.el c!"li" [] l) ≠ [] ∧ utf8Len (cleanText (.el c!"li" [] l)) < 500 then
        (⟨[(WebBlock.new .listItem (cleanText (.el c!"li" [] l)), depth)], []⟩ : Found) else {}) = _
    rw [cleanText_eq, if_neg (by omega)]
  · rw [walk_leaf low cfg depth _ _ _ (by decide +kernel) (by decide +kernel) (classOk_nil low)]
    show some (headingOf .title _) = _
    rw [headingOf, cleanText_eq, if_neg (by omega)]
  · rw [walk_leaf low cfg depth _ _ _ (by decide +kernel) (by decide +kernel) (classOk_nil low)]
    show some (headingOf (.heading 2) _) = _
    rw [headingOf, cleanText_eq, if_neg (by omega)]
  · rw [walk_leaf low cfg depth _ _ _ (by decide +kernel) (by decide +kernel) (classOk_nil low)]
    show some (if cfg.code ∧ trim (Dom.textOf (.el c!"pre" [] l)) ≠ [] ∧ utf8Len (trim (Dom.textOf (.el c!"pre" [] l))) ≤ 1000 then
        Found.block .code (trim (Dom.textOf (.el c!"pre" [] l))) else {}) = _
    rw [textOf_eq, domText, if_neg (by omega)]

/-- **C143 does not hold in full.** A table of a web page with more than 30 rows is lost. -/
theorem C143_table_violated (low : Str → Str) (cfg : ParserConfig) (depth : Nat) (rows : List (List (Bool × List Dom)))
    (h : ∀ r ∈ rows, r ≠ [] ∧ ∀ c ∈ r, NoTableParts c.2) (hl : 30 < rows.length) :
    walkElement low cfg depth (Flow.dom (.table rows)) = some {} := by
  have e : Flow.dom (.table rows) = .el c!"table" [] [.el c!"tbody" [] (rows.map rowDom)] := rfl
  have hr := rowsOf_dom rows h
  rw [e] at hr ⊢
  rw [walk_leaf low cfg depth _ _ _ (by decide +kernel) (by decide +kernel) (classOk_nil low)]
  show some (if cfg.tables then extractTable _ else {}) = _
  have hx : extractTable (.el c!"table" [] [.el c!"tbody" [] (rows.map rowDom)]) = {} := by
    rw [extractTable, hr, if_neg fun c => absurd c.2 (by rw [List.length_map]; omega)]
  rw [hx, ite_self]

/-- **C143 does not hold in full.** A picture of a web page without a description (`alt`) is lost. -/
theorem C143_alt_violated (low : Str → Str) (cfg : ParserConfig) (depth : Nat) (src : Str) :
    walkElement low cfg depth (.el c!"img" [(c!"src", src)] []) = some {} ∧
    walkElement low cfg depth (.el c!"img" [(c!"src", src), (c!"alt", [])] []) = some {} := by
  have hc : ClassOk low [(c!"src", src)] := by intro c hc; simp [attr] at hc
  refine ⟨?_, ?_⟩
  · rw [walk_leaf low cfg depth _ _ _ (by decide +kernel) (by decide +kernel) hc]
    show some (imageOf cfg [(c!"src", src)]) = _
    simp [imageOf, attr]
  · rw [walk_leaf low cfg depth _ _ _ (by decide +kernel) (by decide +kernel) (classOk_image low src [])]
    show some (imageOf cfg [(c!"src", src), (c!"alt", [])]) = _
    simp [imageOf, attr]

theorem own_paragraph (cfg : ParserConfig) (depth : Nat) (l : List Dom) (h : 10 ≤ utf8Len (shown (domTexts l))) :
    ownOf cfg depth (.el c!"p" [] l) = .block .paragraph (shown (domTexts l)) := by
  show (if 10 ≤ utf8Len (cleanText (.el c!"p" [] l)) then Found.block .paragraph (cleanText (.el c!"p" [] l)) else {}) = _
  rw [cleanText_eq, if_pos h]

theorem own_item (cfg : ParserConfig) (depth : Nat) (l : List Dom)
    (h : shown (domTexts l) ≠ [] ∧ utf8Len (shown (domTexts l)) < 500) :
    ownOf cfg depth (.el c!"li" [] l) = ⟨[(WebBlock.new .listItem (shown (domTexts l)), depth)], []⟩ := by
  show (if cleanText (.el c!"li" [] l) ≠ [] ∧ utf8Len (cleanText (.el c!"li" [] l)) < 500 then
      (⟨[(WebBlock.new .listItem (cleanText (.el c!"li" [] l)), depth)], []⟩ : Found) else {}) = _
  rw [cleanText_eq, if_pos h]

theorem own_table (cfg : ParserConfig) (depth : Nat) (l : List Dom) (h : cfg.tables = true) :
    ownOf cfg depth (.el c!"table" [] l) = extractTable (.el c!"table" [] l) := by
  show (if cfg.tables then extractTable (.el c!"table" [] l) else {}) = _
  rw [if_pos h]

/-- **C143 does not hold in full.** A line break does not separate the words of a web page: the texts before and after `<br>`
are joined without a blank. The same happens to an item and the list inside it, which become one item. -/
theorem C143_glued_violated :
    walkElement id {} 0 (.el c!"p" [] [.text c!"Monday", .el c!"br" [] [], .text c!"Tuesday"])
      = some (.block .paragraph c!"MondayTuesday") ∧
    walkElement id {} 0 (.el c!"li" [] [.text c!"Fruit", .el c!"ul" [] [.el c!"li" [] [.text c!"Apple"], .el c!"li" [] [.text c!"Pear"]]])
      = some (.block .listItem c!"FruitApplePear") := by
  have e1 : shown (domTexts [.text c!"Monday", .el c!"br" [] [], .text c!"Tuesday"]) = c!"MondayTuesday" := by decide +kernel
  have e2 : shown (domTexts [.text c!"Fruit", .el c!"ul" [] [.el c!"li" [] [.text c!"Apple"], .el c!"li" [] [.text c!"Pear"]]])
      = c!"FruitApplePear" := by decide +kernel
  refine ⟨?_, ?_⟩
  · rw [walk_leaf id {} 0 _ _ _ (by decide +kernel) (by decide +kernel) (classOk_nil id)]
    rw [own_paragraph {} 0 _ (by rw [e1]; decide +kernel), e1]
  · rw [walk_leaf id {} 0 _ _ _ (by decide +kernel) (by decide +kernel) (classOk_nil id)]
    rw [own_item {} 0 _ (by rw [e2]; decide +kernel), e2]
    rfl

/-- **C143 does not hold in full.** Elements that are skipped elsewhere are text inside a paragraph: the program of a script in
a paragraph becomes part of the text of the paragraph. -/
theorem C143_script_violated :
    walkElement id {} 0 (.el c!"p" [] [.text c!"Our prices ", .el c!"script" [] [.text c!"track(1);"]])
      = some (.block .paragraph c!"Our prices track(1);") ∧
    walkElement id {} 0 (.el c!"script" [] [.text c!"track(1);"]) = some {} := by
  have e1 : shown (domTexts [.text c!"Our prices ", .el c!"script" [] [.text c!"track(1);"]]) = c!"Our prices track(1);" := by
    decide +kernel
  refine ⟨?_, ?_⟩
  · rw [walk_leaf id {} 0 _ _ _ (by decide +kernel) (by decide +kernel) (classOk_nil id)]
    rw [own_paragraph {} 0 _ (by rw [e1]; decide +kernel), e1]
  · rw [walkElement, if_pos (by decide +kernel)]

/-- **C143 does not hold in full.** The rows of a table inside a table of a web page are read twice, as cells of the outer row
and as rows of the outer table. -/
theorem C143_inner_table_violated :
    walkElement id {} 0 (.el c!"table" [] [.el c!"tr" [] [.el c!"td" [] [.text c!"out",
        .el c!"table" [] [.el c!"tr" [] [.el c!"td" [] [.text c!"in"]]]]]])
      = some (.block (.table [[c!"outin", c!"in"], [c!"in"]]) []) := by
  rw [walk_leaf id {} 0 _ _ _ (by decide +kernel) (by decide +kernel) (classOk_nil id)]
  rw [own_table {} 0 _ rfl]
  have : rowsOf (.el c!"table" [] [.el c!"tr" [] [.el c!"td" [] [.text c!"out",
        .el c!"table" [] [.el c!"tr" [] [.el c!"td" [] [.text c!"in"]]]]]]) = [[c!"outin", c!"in"], [c!"in"]] := by decide +kernel
  rw [extractTable, this, if_pos (by decide)]

/-- **C143 does not hold in full.** If a web page has several articles, as the pages of blogs and newspapers have, only the
first one is read: the blocks are the same whatever follows it. -/
theorem C143_articles_violated (low : Str → Str) (cfg : ParserConfig) (url : Str) (head : Dom) (a : List (Str × Str)) (l : List Flow)
    (after : List Dom) (hh : ∀ e ∈ head.elements, e.name ∉ [c!"article", c!"main"])
    (hl : ∀ e ∈ elementsOf (flowDoms l), e.name ≠ c!"main") (ha : ∀ e ∈ elementsOf after, e.name ≠ c!"main")
    (ht : 100 < utf8Len (domTexts (flowDoms l))) (hc : ClassOk low a) (h : FlowsOk low l) (hd : flowsHeight l < 256)
    (hn : flowBlocks cfg.images cfg.tables cfg.code l ≠ []) :
    ∃ p q, parsePage low cfg (articlePage head [] a l after) url = some (.ok p) ∧
      parsePage low cfg (articlePage head [] a l []) url = some (.ok q) ∧ p.page.blocks = q.page.blocks := by
  obtain ⟨p, hp, ep⟩ := C143_article_partial low cfg url head [] a l after hh (by simp [elementsOf]) hl ha ht hc h hd hn
  obtain ⟨q, hq, eq⟩ := C143_article_partial low cfg url head [] a l [] hh (by simp [elementsOf]) hl (by simp [elementsOf]) ht hc h hd hn
  exact ⟨p, q, hp, hq, by rw [ep, eq]⟩

mutual
theorem walk_links (low : Str → Str) (cfg : ParserConfig) (b : Bool) : ∀ (d : Dom) (depth : Nat),
    walkElement low { cfg with links := b } depth d = walkElement low cfg depth d
  | .text _, depth => by simp [walkElement]
  | .el n a l, depth => by
    rw [walkElement, walkElement, walkAll_links low cfg b l depth]
    rfl
theorem walkAll_links (low : Str → Str) (cfg : ParserConfig) (b : Bool) : ∀ (l : List Dom) (depth : Nat),
    walkAll low { cfg with links := b } depth l = walkAll low cfg depth l
  | [], depth => by simp [walkAll]
  | .text _ :: l, depth => by rw [walkAll, walkAll, walkAll_links low cfg b l depth]
  | .el n a c :: l, depth => by
    rw [walkAll, walkAll, walk_links low cfg b (.el n a c) (depth + 1), walkAll_links low cfg b l depth]
end

/-- **C143 does not hold in full.** The links of a web page are never extracted: the option `extract_links` has no effect and
no block is a link. -/
theorem C143_links_violated (low : Str → Str) (cfg : ParserConfig) (doc : Dom) (url : Str) (b : Bool) :
    parsePage low { cfg with links := b } doc url = parsePage low cfg doc url ∧
    ∀ p, parsePage low cfg doc url = some (.ok p) → ∀ t href s, WebBlock.mk (.link t href) s ∉ p.page.blocks := by
  refine ⟨?_, ?_⟩
  · unfold parsePage
    cases mainElement doc with
    | none => rfl
    | some m => simp only [walk_links]
  · intro p hp t href s hm
    obtain ⟨e, -, -, hs⟩ := (C143_sound low cfg doc url p hp).2.2.2.2 _ hm
    exact hs

/-! ### Examples -/

/-- A page with a heading, a paragraph, a list, a picture, a table, code, a quotation and a script. -/
def fruitPage : WebDoc where
  title := some c!" Fruit \n"
  description := some c!" About fruit "
  body := [.box c!"section" [(c!"class", c!"Intro")] [
      .leaf (.heading 1) [] [.text c!"All about\n", .el c!"em" [] [.text c!"fruit"]], .loose c!"\n  ",
      .leaf .paragraph [] [.text c!"Fruit is sweet, and it is grown in every country of the world in many different forms and kinds."],
      .hidden c!"script" [] [.text c!"track(1);"],
      .box c!"ul" [] [.leaf .item [] [.text c!" Apple "], .leaf .item [] [.text c!"Pear"]]],
    .leaf (.heading 2) [] [.text c!"More"], .image c!"a.png" c!"An apple",
    .table [[(true, [.text c!"Kind"]), (true, [.text c!"Price"])], [(false, [.text c!"Apple"]), (false, [.text c!"5"])]],
    .leaf .pre [] [.text c!"a  b\nc\n"], .leaf .quote [] [.text c!"An apple a day"]]

/-- What is expected. -/
def sampleBlocks : List WebBlock :=
  [⟨.title, c!"All about fruit"⟩,
   ⟨.paragraph, c!"Fruit is sweet, and it is grown in every country of the world in many different forms and kinds."⟩,
   ⟨.listItem, c!"Apple"⟩, ⟨.listItem, c!"Pear"⟩, ⟨.heading 2, c!"More"⟩, ⟨.image c!"a.png" c!"An apple", []⟩,
   ⟨.table [[c!"Kind", c!"Price"], [c!"Apple", c!"5"]], []⟩, ⟨.code, c!"a  b\nc"⟩, ⟨.quote, c!"An apple a day"⟩]

theorem sample_blocks : flowBlocks true true true fruitPage.body = sampleBlocks := by decide +kernel

/-- What is read. -/
def sampleRead : Str × Option Str × Bool × List (Str × Str) × List Nat :=
  match parsePage id {} fruitPage.dom c!"http://a" with
  | some (.ok p) => (p.page.title, p.page.description, decide (p.page.blocks = sampleBlocks), p.images, p.levels)
  | _ => ([], none, false, [], [])

example : sampleRead.1 = c!"Fruit" ∧ sampleRead.2.1 = some c!"About fruit" ∧ sampleRead.2.2.1 = true ∧
    sampleRead.2.2.2.1 = [(c!"a.png", c!"An apple")] ∧ sampleRead.2.2.2.2 = [0, 0, 3, 3, 0, 0, 0, 0, 0] := by decide +kernel

theorem sample_ok : FlowsOk id fruitPage.body := by
  have hc : ClassOk id [(c!"class", c!"Intro")] := by
    intro c hc
    have : c = c!"Intro" := by simpa [attr] using hc.symm
    subst this
    decide +kernel
  have n := classOk_nil id
  simp only [fruitPage, FlowsOk, FlowOk, LeafOk, NoTableParts]
  refine ⟨⟨by decide +kernel, by decide +kernel, hc, ⟨n, by decide, by decide, by decide +kernel, by decide +kernel⟩, trivial,
    ⟨n, by decide +kernel⟩, by decide +kernel, ⟨by decide +kernel, by decide +kernel, n, ⟨n, by decide +kernel⟩,
      ⟨n, by decide +kernel⟩, trivial⟩, trivial⟩, ⟨n, by decide, by decide, by decide +kernel, by decide +kernel⟩,
    ⟨by decide +kernel, by decide +kernel⟩, ⟨by simp, by decide, ?_⟩, ⟨n, by decide +kernel⟩, ⟨n, by decide +kernel⟩, trivial⟩
  simp [elementsOf, Dom.elements]

theorem sample_notMain : ∀ e ∈ elementsOf (flowDoms fruitPage.body), ¬ Mainish e := by
  intro e he
  have : ∀ e ∈ elementsOf (flowDoms fruitPage.body), e.name ∉ [c!"article", c!"main", c!"body"] ∧
      attr e.attrs c!"role" = none ∧ attr e.attrs c!"id" = none ∧
      (attr e.attrs c!"class" = none ∨ attr e.attrs c!"class" = some c!"Intro") := by
    simp [fruitPage, flowDoms, Flow.dom, elementsOf, Dom.elements, Dom.name, Dom.attrs, attr, LeafKind.tag, rowDom, cellDom, dec]
    refine ⟨?_, ?_, ?_⟩ <;> rintro a b (⟨rfl, -⟩ | ⟨rfl, -⟩) <;> decide
  obtain ⟨a1, a2, a3, a4⟩ := this e he
  rintro (h | h | ⟨c, hc, h⟩ | ⟨i, hi, h⟩)
  · exact a1 h
  · rw [a2] at h; simp at h
  · rcases a4 with a4 | a4
    · simp [hasClass, a4] at h
    · rw [hasClass, a4] at h
      revert c
      decide +kernel
  · simp [hasId, a3] at h

/-- The premises of `C143_page_partial` can be met. -/
example : ∃ p, parsePage id {} fruitPage.dom c!"http://a" = some (.ok p) ∧ p.page.title = c!"Fruit" ∧
    p.page.blocks = sampleBlocks := by
  obtain ⟨p, h1, h2, -, h3, -⟩ := C143_page_partial id {} fruitPage c!"http://a" c!" Fruit \n" rfl (by decide +kernel) sample_ok
    (by decide +kernel)
    sample_notMain
    (by decide +kernel) (by rw [sample_blocks]; decide +kernel)
  refine ⟨p, h1, ?_, ?_⟩
  · rw [h2]; decide +kernel
  · rw [h3]; exact sample_blocks

/-- The premises of `C143_article_partial` and `C143_articles_violated` can be met. -/
example : ∃ p, parsePage id {} (articlePage fruitPage.head [.el c!"nav" [] [.text c!"Home"]] [] fruitPage.body
    [.el c!"article" [] [.el c!"p" [] [.text c!"The second article"]]]) c!"http://a" = some (.ok p) ∧ p.page.blocks = sampleBlocks := by
  obtain ⟨p, h1, h2⟩ := C143_article_partial id {} c!"http://a" fruitPage.head [.el c!"nav" [] [.text c!"Home"]] [] fruitPage.body
    [.el c!"article" [] [.el c!"p" [] [.text c!"The second article"]]]
    (by simp [fruitPage, WebDoc.head, elementsOf, Dom.elements, Dom.name])
    (by simp [elementsOf, Dom.elements, Dom.name])
    (by simp [fruitPage, flowDoms, Flow.dom, elementsOf, Dom.elements, Dom.name, LeafKind.tag, rowDom, cellDom, dec])
    (by simp [elementsOf, Dom.elements, Dom.name])
    (by decide +kernel) (classOk_nil id) sample_ok (by decide +kernel) (by rw [sample_blocks]; decide +kernel)
  exact ⟨p, h1, by rw [h2]; exact sample_blocks⟩

/-- The premises of `C143_no_crash_partial` can be met. -/
example : domHeight fruitPage.dom ≤ 256 := by decide +kernel

/-- Text of more than 100 bytes. -/
example : 100 < utf8Len (List.replicate 101 'a') := by decide +kernel

end PptRs.Props
