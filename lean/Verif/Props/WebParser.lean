import Verif.Spec.WebParser
import Verif.Props.FlowSource
import Verif.Props.Entities

/-!
# C143: reading web pages
-/

namespace PptRs.Props

open PptRs PptRs.Web PptRs.Spec

/-! ### Words -/

theorem wordsFrom_eq (s cur : Str) (hc : ∀ c ∈ cur, isWs c = false) : wordsFrom cur s =
    if cur = [] then textWords s
    else match s.head?, textWords s with
      | some d, w :: ws => if isWs d then cur :: w :: ws else (cur ++ w) :: ws
      | _, ws => cur :: ws := by
  induction s generalizing cur with
  | nil => by_cases h : cur = [] <;> simp [wordsFrom, textWords, h]
  | cons c r ih =>
    by_cases hw : isWs c = true
    · simp only [wordsFrom, hw, if_true]
      by_cases h : cur = []
      · rw [if_pos h, if_pos h, ih [] (by simp), if_pos rfl]
        simp [textWords, hw]
      · rw [if_neg h, if_neg h, ih [] (by simp), if_pos rfl]
        simp only [textWords, hw, if_true, List.head?_cons]
        cases textWords r <;> simp [hw]
    · simp only [Bool.not_eq_true] at hw
      have hc' : ∀ x ∈ cur ++ [c], isWs x = false := by
        intro x hx
        rcases List.mem_append.1 hx with hx | hx
        · exact hc x hx
        · rw [List.mem_singleton.1 hx]; exact hw
      have e : wordsFrom cur (c :: r) = wordsFrom (cur ++ [c]) r := by rw [wordsFrom, if_neg (by simp [hw])]
      have e2 : textWords (c :: r) = match r.head?, textWords r with
          | some d, w :: ws => if isWs d then [c] :: w :: ws else (c :: w) :: ws
          | _, ws => [c] :: ws := by
        rw [textWords, if_neg (by simp [hw])]
        cases r.head? <;> cases textWords r <;> rfl
      have hne : cur ++ [c] ≠ [] := by simp
      rw [e, ih _ hc', e2, if_neg hne, List.head?_cons]
      by_cases h : cur = []
      · subst h
        rw [if_pos rfl]
        cases r.head? with
        | none => rfl
        | some d =>
          cases textWords r with
          | nil => rfl
          | cons w ws => rfl
      · rw [if_neg h]
        cases r.head? with
        | none => simp [hw]
        | some d =>
          cases textWords r with
          | nil => simp [hw]
          | cons w ws => by_cases hd : isWs d = true <;> simp [hw, hd]

theorem splitWhitespace_eq (s : Str) : splitWhitespace s = textWords s := by
  rw [splitWhitespace, wordsFrom_eq s [] (by simp), if_pos rfl]

theorem textWords_ok (s : Str) : ∀ w ∈ textWords s, w ≠ [] ∧ ∀ c ∈ w, isWs c = false := by
  induction s with
  | nil => simp [textWords]
  | cons c r ih =>
    intro w hw
    rw [textWords] at hw
    by_cases hc : isWs c = true
    · rw [if_pos hc] at hw
      exact ih w hw
    · rw [if_neg hc] at hw
      simp only [Bool.not_eq_true] at hc
      have one : ([c] : Str) ≠ [] ∧ ∀ x ∈ ([c] : Str), isWs x = false := by simp [hc]
      cases hr : r.head? with
      | none =>
        rw [hr] at hw
        rcases List.mem_cons.1 hw with e | hw
        · rw [e]; exact one
        · exact ih w hw
      | some d =>
        rw [hr] at hw
        cases ht : textWords r with
        | nil =>
          rw [ht] at hw
          simp only [List.mem_singleton] at hw
          rw [hw]; exact one
        | cons v vs =>
          rw [ht] at hw ih
          by_cases hd : isWs d = true
          · simp only [hd, if_true] at hw
            rcases List.mem_cons.1 hw with e | hw
            · rw [e]; exact one
            · exact ih w hw
          · simp only [hd, Bool.false_eq_true, if_false] at hw
            rcases List.mem_cons.1 hw with e | hw
            · rw [e]
              refine ⟨by simp, fun x hx => ?_⟩
              rcases List.mem_cons.1 hx with e | hx
              · rw [e]; exact hc
              · exact (ih v List.mem_cons_self).2 x hx
            · exact ih w (List.mem_cons_of_mem _ hw)

theorem joinStr_tight {l : List Str} (hl : l ≠ []) (h : ∀ w ∈ l, w ≠ [] ∧ ∀ c ∈ w, isWs c = false) :
    Tight (joinStr c!" " l) := by
  have word : ∀ w : Str, (w ≠ [] ∧ ∀ c ∈ w, isWs c = false) → Tight w := fun w hw =>
    ⟨fun c hc => hw.2 c (List.mem_of_head? hc), fun c hc => hw.2 c (List.mem_of_getLast? hc), hw.1⟩
  induction l with
  | nil => exact absurd rfl hl
  | cons w ws ih =>
    cases ws with
    | nil => exact word w (h w List.mem_cons_self)
    | cons v vs =>
      exact (word w (h w List.mem_cons_self)).append c!" " (ih (by simp) fun x hx => h x (List.mem_cons_of_mem _ hx))

theorem trim_shown (s : Str) : trim (shown s) = shown s := by
  by_cases h : textWords s = []
  · rw [shown, h]; rfl
  · exact trim_tight (joinStr_tight h (textWords_ok s))

theorem head_dropWhile_ws {s : Str} {c : Char} (h : (s.dropWhile isWs).head? = some c) : isWs c = false := by
  induction s with
  | nil => simp at h
  | cons d s ih =>
    by_cases hd : isWs d = true
    · rw [List.dropWhile_cons_of_pos hd] at h
      exact ih h
    · rw [List.dropWhile_cons_of_neg hd] at h
      simp only [List.head?_cons, Option.some.injEq] at h
      rw [← h]
      simpa using hd

theorem tight_of_trim {s : Str} (h : trim s ≠ []) : Tight (trim s) := by
  refine ⟨fun c hc => ?_, fun c hc => ?_, h⟩
  · obtain ⟨t, ht⟩ : trim s <+: trimStart s := trimEnd_prefix _
    refine head_dropWhile_ws (s := s) ?_
    have : (trimStart s).head? = some c := by
      rw [← ht, List.head?_append, hc]
      rfl
    exact this
  · rw [trim, trimEnd, List.getLast?_reverse] at hc
    exact head_dropWhile_ws hc

theorem trim_trim (s : Str) : trim (trim s) = trim s := by
  by_cases h : trim s = []
  · rw [h]; rfl
  · exact trim_tight (tight_of_trim h)

mutual
theorem textOf_eq : ∀ d : Dom, d.textOf = domText d
  | .text _ => rfl
  | .el _ _ l => by rw [Dom.textOf, domText, textsOf_eq l]
theorem textsOf_eq : ∀ l : List Dom, textsOf l = domTexts l
  | [] => rfl
  | d :: l => by rw [textsOf, domTexts, textOf_eq d, textsOf_eq l]
end

theorem cleanText_eq (n : Str) (a : List (Str × Str)) (l : List Dom) : cleanText (.el n a l) = shown (domTexts l) := by
  rw [cleanText, splitWhitespace_eq, textOf_eq, domText]
  exact trim_shown _

/-! ### Walking through a page -/

/-- The limits of the parser for an element with text. -/
def LeafOk (k : LeafKind) (content : List Dom) : Prop :=
  match k with
  | .heading n => 1 ≤ n ∧ n ≤ 6 ∧ shown (domTexts content) ≠ [] ∧ utf8Len (shown (domTexts content)) < 300
  | .paragraph => 10 ≤ utf8Len (shown (domTexts content))
  | .item => shown (domTexts content) ≠ [] ∧ utf8Len (shown (domTexts content)) < 500
  | .quote => shown (domTexts content) ≠ []
  | .pre => trim (domTexts content) ≠ [] ∧ utf8Len (trim (domTexts content)) ≤ 1000
  | .code => trim (domTexts content) ≠ [] ∧ utf8Len (trim (domTexts content)) ≤ 1000

/-- No part of a table. -/
def NoTableParts (l : List Dom) : Prop := ∀ d ∈ elementsOf l, d.name ∉ [c!"tr", c!"th", c!"td"]

/-- Attributes without one of the classes that are skipped. -/
def ClassOk (low : Str → Str) (a : List (Str × Str)) : Prop :=
  ∀ c, attr a c!"class" = some c → ∀ s ∈ [c!"advertisement", c!"ad-container", c!"social-share", c!"comment-section"],
    containsStr s (lowerStr low c) = false

mutual
/-- Content within the limits of the parser. -/
def FlowOk (low : Str → Str) : Flow → Prop
  | .box n a l => n ∉ neverShown ∧ n ∉ contentTags ∧ ClassOk low a ∧ FlowsOk low l
  | .leaf k a l => ClassOk low a ∧ LeafOk k l
  | .image src alt => alt ≠ [] ∧ startsWith c!"data:" src = false
  | .table rows => rows ≠ [] ∧ rows.length ≤ 30 ∧ ∀ r ∈ rows, r ≠ [] ∧ ∀ c ∈ r, NoTableParts c.2
  | .loose _ => True
  | .hidden n _ _ => n ∈ neverShown

def FlowsOk (low : Str → Str) : List Flow → Prop
  | [] => True
  | f :: l => FlowOk low f ∧ FlowsOk low l
end

theorem skipped_box {low : Str → Str} {n : Str} {a : List (Str × Str)} (hn : n ∉ neverShown) (ha : ClassOk low a) :
    skipped low n a = false := by
  unfold skipped
  rw [Bool.or_eq_false_iff]
  refine ⟨by simpa [Web.skipTags, neverShown] using hn, ?_⟩
  cases h : attr a c!"class" with
  | none => rfl
  | some c =>
    simp only [Option.any_some]
    rw [List.any_eq_false]
    intro s hs
    simp [ha c h s hs]

theorem elementsOf_append (a b : List Dom) : elementsOf (a ++ b) = elementsOf a ++ elementsOf b := by
  induction a with
  | nil => rfl
  | cons d a ih => simp [elementsOf, ih]

theorem row_cells (r : List (Bool × List Dom)) (h : ∀ c ∈ r, NoTableParts c.2) :
    ((elementsOf (r.map cellDom)).filter fun d => d.name = c!"th" || d.name = c!"td") = r.map cellDom := by
  induction r with
  | nil => rfl
  | cons c r ih =>
    have hc := h c List.mem_cons_self
    have e : ((elementsOf c.2).filter fun d => d.name = c!"th" || d.name = c!"td") = [] := by
      rw [List.filter_eq_nil_iff]
      intro d hd
      have := hc d hd
      simp only [List.mem_cons, not_or] at this
      simp [this.2.1, this.2.2.1]
    rw [List.map_cons, elementsOf, List.filter_append, ih fun x hx => h x (List.mem_cons_of_mem _ hx)]
    have e2 : (cellDom c).elements = cellDom c :: elementsOf c.2 := by rw [cellDom, Dom.elements]
    rw [e2, List.filter_cons, e]
    cases hb : c.1 <;> simp [cellDom, Dom.name, hb]

theorem rowOf_dom (r : List (Bool × List Dom)) (h : ∀ c ∈ r, NoTableParts c.2) :
    rowOf (rowDom r) = r.map fun c => shown (domTexts c.2) := by
  rw [rowOf, rowDom, Dom.inside, row_cells r h, List.map_map]
  refine List.map_congr_left fun c _ => ?_
  exact cleanText_eq _ _ _

theorem table_rows (rows : List (List (Bool × List Dom))) (h : ∀ r ∈ rows, ∀ c ∈ r, NoTableParts c.2) :
    ((elementsOf (rows.map rowDom)).filter fun d => d.name = c!"tr") = rows.map rowDom := by
  induction rows with
  | nil => rfl
  | cons r rows ih =>
    have cells : ∀ l : List (Bool × List Dom), (∀ c ∈ l, NoTableParts c.2) →
        ((elementsOf (l.map cellDom)).filter fun d => d.name = c!"tr") = [] := by
      intro l
      induction l with
      | nil => intro _; rfl
      | cons c l ih =>
        intro hl
        have e2 : (cellDom c).elements = cellDom c :: elementsOf c.2 := by rw [cellDom, Dom.elements]
        rw [List.map_cons, elementsOf, List.filter_append, ih fun x hx => hl x (List.mem_cons_of_mem _ hx), e2,
          List.filter_cons, if_neg (by cases hb : c.1 <;> simp [cellDom, Dom.name, hb]), List.append_nil,
          List.filter_eq_nil_iff]
        intro d hd
        have := hl c List.mem_cons_self d hd
        simp only [List.mem_cons, not_or] at this
        simp [this.1]
    have e2 : (rowDom r).elements = rowDom r :: elementsOf (r.map cellDom) := by rw [rowDom, Dom.elements]
    rw [List.map_cons, elementsOf, List.filter_append, ih fun x hx => h x (List.mem_cons_of_mem _ hx), e2, List.filter_cons,
      if_pos (by simp [rowDom, Dom.name]), cells r (h r List.mem_cons_self)]
    rfl

theorem rowsOf_dom (rows : List (List (Bool × List Dom))) (h : ∀ r ∈ rows, r ≠ [] ∧ ∀ c ∈ r, NoTableParts c.2) :
    rowsOf (Flow.dom (.table rows)) = rows.map fun r => r.map fun c => shown (domTexts c.2) := by
  have e : elementsOf [Dom.el c!"tbody" [] (rows.map rowDom)]
      = Dom.el c!"tbody" [] (rows.map rowDom) :: elementsOf (rows.map rowDom) := by
    simp [elementsOf, Dom.elements]
  rw [rowsOf, Flow.dom, Dom.inside, e, List.filter_cons, if_neg (by simp [Dom.name]), table_rows rows fun r hr => (h r hr).2,
    List.map_map]
  have e2 : rows.map (rowOf ∘ rowDom) = rows.map fun r => r.map fun c => shown (domTexts c.2) :=
    List.map_congr_left fun r hr => rowOf_dom r (h r hr).2
  rw [e2, List.filter_eq_self]
  intro x hx
  obtain ⟨r, hr, rfl⟩ := List.mem_map.1 hx
  have := (h r hr).1
  cases r with
  | nil => exact absurd rfl this
  | cons c r => rfl

/-- The blocks of a page without their levels. -/
def Found.plain (f : Found) : List WebBlock × List (Str × Str) := (f.blocks.map (·.1), f.images)

theorem foundPlain_append (a b : Found) : Found.plain (a.append b) = ((Found.plain a).1 ++ (Found.plain b).1, (Found.plain a).2 ++ (Found.plain b).2) := by
  simp [Found.plain, Found.append]

/-- What is expected of some blocks. -/
def foundOf (l : List WebBlock) : List WebBlock × List (Str × Str) := (l, pictures l)

theorem foundOf_append (a b : List WebBlock) :
    foundOf (a ++ b) = ((foundOf a).1 ++ (foundOf b).1, (foundOf a).2 ++ (foundOf b).2) := by
  simp [foundOf, pictures]

theorem own_leaf (cfg : ParserConfig) (depth : Nat) (k : LeafKind) (a : List (Str × Str)) (l : List Dom) (h : LeafOk k l) :
    Found.plain (ownOf cfg depth (.el k.tag a l))
      = foundOf ((Flow.leaf k a l).blocks cfg.images cfg.tables cfg.code) := by
  cases k with
  | heading n =>
    obtain ⟨h1, h2, h3, h4⟩ := h
    have hh : ∀ kind : WebKind, ∀ m : Str, Found.plain (headingOf kind (.el m a l)) = ([⟨kind, shown (domTexts l)⟩], []) := by
      intro kind m
      rw [headingOf, cleanText_eq, if_pos ⟨h3, h4⟩]
      simp [Found.plain, Found.block, WebBlock.new, trim_shown]
    have hn : n = 1 ∨ n = 2 ∨ n = 3 ∨ n = 4 ∨ n = 5 ∨ n = 6 := by omega
    rcases hn with rfl | rfl | rfl | rfl | rfl | rfl <;>
      · rw [show ∀ d : Dom, ownOf cfg depth d = ownOf cfg depth d from fun _ => rfl]
        simp only [Flow.blocks, leafBlock]
        rw [if_neg (by simp)]
        first
        | exact hh .title _
        | exact hh (.heading _) _
  | paragraph =>
    have e : ownOf cfg depth (.el c!"p" a l) = .block .paragraph (shown (domTexts l)) := by
      have : (10 : Nat) ≤ utf8Len (cleanText (.el c!"p" a l)) := by rw [cleanText_eq]; exact h
      show (if 10 ≤ utf8Len (cleanText (.el c!"p" a l)) then Found.block .paragraph (cleanText (.el c!"p" a l)) else {}) = _
      rw [if_pos this, cleanText_eq]
    show Found.plain (ownOf cfg depth (.el c!"p" a l)) = _
    rw [e]
    simp [Found.plain, Found.block, WebBlock.new, trim_shown, foundOf, pictures, Flow.blocks, leafBlock]
  | item =>
    have e : ownOf cfg depth (.el c!"li" a l) = ⟨[(WebBlock.new .listItem (shown (domTexts l)), depth)], []⟩ := by
      show (if cleanText (.el c!"li" a l) ≠ [] ∧ utf8Len (cleanText (.el c!"li" a l)) < 500 then
        (⟨[(WebBlock.new .listItem (cleanText (.el c!"li" a l)), depth)], []⟩ : Found) else {}) = _
      rw [cleanText_eq]
      exact if_pos h
    show Found.plain (ownOf cfg depth (.el c!"li" a l)) = _
    rw [e]
    simp [Found.plain, WebBlock.new, trim_shown, foundOf, pictures, Flow.blocks, leafBlock]
  | quote =>
    have e : ownOf cfg depth (.el c!"blockquote" a l) = .block .quote (shown (domTexts l)) := by
      show (if cleanText (.el c!"blockquote" a l) ≠ [] then
        Found.block .quote (cleanText (.el c!"blockquote" a l)) else {}) = _
      rw [cleanText_eq]
      exact if_pos h
    show Found.plain (ownOf cfg depth (.el c!"blockquote" a l)) = _
    rw [e]
    simp [Found.plain, Found.block, WebBlock.new, trim_shown, foundOf, pictures, Flow.blocks, leafBlock]
  | pre =>
    have e : ownOf cfg depth (.el c!"pre" a l) = if cfg.code then .block .code (trim (domTexts l)) else {} := by
      show (if cfg.code ∧ trim (Dom.textOf (.el c!"pre" a l)) ≠ [] ∧ utf8Len (trim (Dom.textOf (.el c!"pre" a l))) ≤ 1000 then
        Found.block .code (trim (Dom.textOf (.el c!"pre" a l))) else {}) = _
      rw [textOf_eq, domText]
      cases hc : cfg.code
      · rw [if_neg (by simp), if_neg (by simp)]
      · rw [if_pos ⟨rfl, h⟩, if_pos rfl]
    show Found.plain (ownOf cfg depth (.el c!"pre" a l)) = _
    rw [e]
    cases hc : cfg.code <;>
      simp [Found.plain, Found.block, WebBlock.new, trim_trim, foundOf, pictures, Flow.blocks, leafBlock]
  | code =>
    have e : ownOf cfg depth (.el c!"code" a l) = if cfg.code then .block .code (trim (domTexts l)) else {} := by
      show (if cfg.code ∧ trim (Dom.textOf (.el c!"code" a l)) ≠ [] ∧ utf8Len (trim (Dom.textOf (.el c!"code" a l))) ≤ 1000 then
        Found.block .code (trim (Dom.textOf (.el c!"code" a l))) else {}) = _
      rw [textOf_eq, domText]
      cases hc : cfg.code
      · rw [if_neg (by simp), if_neg (by simp)]
      · rw [if_pos ⟨rfl, h⟩, if_pos rfl]
    show Found.plain (ownOf cfg depth (.el c!"code" a l)) = _
    rw [e]
    cases hc : cfg.code <;>
      simp [Found.plain, Found.block, WebBlock.new, trim_trim, foundOf, pictures, Flow.blocks, leafBlock]

theorem own_box (cfg : ParserConfig) (depth : Nat) {n : Str} (a : List (Str × Str)) (l : List Dom) (h : n ∉ contentTags) :
    ownOf cfg depth (.el n a l) = {} := by
  simp only [contentTags, List.mem_cons, List.not_mem_nil, or_false, not_or] at h
  obtain ⟨h1, h2, h3, h4, h5, h6, h7, h8, h9, h10, h11, h12, h13⟩ := h
  have hn : (Dom.el n a l).name = n := rfl
  unfold ownOf
  rw [← hn] at h1 h2 h3 h4 h5 h6 h7 h8 h9 h10 h11 h12 h13
  rw [if_neg h1, if_neg h2, if_neg h3, if_neg h4, if_neg h5, if_neg h6, if_neg h7, if_neg h8, if_neg h9,
    if_neg (by rintro (e | e); exacts [h10 e, h11 e]), if_neg h12, if_neg h13]

theorem leafTags_contains (n : Str) : leafTags.contains n = true ↔ n ∈ contentTags := by
  rw [List.contains_iff_mem]
  simp only [leafTags, contentTags, List.mem_cons, List.not_mem_nil, or_false]
  constructor <;> intro h <;> grind

theorem leaf_tag_mem (k : LeafKind) (h : ∀ n, k = .heading n → 1 ≤ n ∧ n ≤ 6) : k.tag ∈ contentTags ∧ k.tag ∉ neverShown := by
  cases k with
  | heading n =>
    obtain ⟨h1, h2⟩ := h n rfl
    have hn : n = 1 ∨ n = 2 ∨ n = 3 ∨ n = 4 ∨ n = 5 ∨ n = 6 := by omega
    rcases hn with rfl | rfl | rfl | rfl | rfl | rfl <;> decide +kernel
  | _ => decide +kernel

theorem classOk_nil (low : Str → Str) : ClassOk low [] := by
  intro c hc
  simp [attr] at hc

theorem classOk_image (low : Str → Str) (src alt : Str) : ClassOk low [(c!"src", src), (c!"alt", alt)] := by
  intro c hc
  simp [attr] at hc

mutual
/-- The walk through one piece of content. -/
theorem walk_flow (low : Str → Str) (cfg : ParserConfig) : ∀ (f : Flow) (depth : Nat), FlowOk low f → depth + f.height ≤ 256 →
    (walkElement low cfg depth f.dom).map Found.plain = some (foundOf (f.blocks cfg.images cfg.tables cfg.code))
  | .box n a l, depth, h, hd => by
    rw [FlowOk] at h
    obtain ⟨h1, h2, h3, h4⟩ := h
    rw [Flow.height] at hd
    have := walkAll_flows low cfg l depth h4 (by omega)
    rw [Flow.dom, walkElement, if_neg (by simp [skipped_box h1 h3]),
      if_neg (by rw [leafTags_contains]; exact h2), Flow.blocks]
    cases hw : walkAll low cfg depth (flowDoms l) with
    | none => rw [hw] at this; simp at this
    | some f =>
      rw [hw] at this
      rw [own_box cfg depth a _ h2]
      simpa [Found.append] using this
  | .leaf k a l, depth, h, hd => by
    rw [FlowOk] at h
    have hk := leaf_tag_mem k (by rintro n rfl; exact ⟨h.2.1, h.2.2.1⟩)
    rw [Flow.dom, walkElement, if_neg (by simp [skipped_box hk.2 h.1]), if_pos ((leafTags_contains _).2 hk.1), Option.map_some,
      own_leaf cfg depth k a l h.2]
  | .image src alt, depth, h, hd => by
    rw [FlowOk] at h
    rw [Flow.dom, walkElement, if_neg (by simp [skipped_box (n := c!"img") (by decide +kernel) (classOk_image low src alt)]),
      if_pos ((leafTags_contains _).2 (by decide +kernel)), Option.map_some]
    have e : ownOf cfg depth (.el c!"img" [(c!"src", src), (c!"alt", alt)] []) = imageOf cfg [(c!"src", src), (c!"alt", alt)] := rfl
    have e2 : attr [(c!"src", src), (c!"alt", alt)] c!"alt" = some alt := by simp [attr]
    have e3 : attr [(c!"src", src), (c!"alt", alt)] c!"src" = some src := by simp [attr]
    have hne : alt.isEmpty = false := by cases alt with
      | nil => exact absurd rfl h.1
      | cons _ _ => rfl
    rw [e, imageOf, e3]
    simp only [e2, Option.getD_some, h.2, hne, Bool.not_false, Bool.and_self, if_true]
    cases hc : cfg.images <;> simp [Flow.blocks, foundOf, pictures, Found.plain, WebBlock.new] <;> rfl
  | .table rows, depth, h, hd => by
    rw [FlowOk] at h
    have e : Flow.dom (.table rows) = .el c!"table" [] [.el c!"tbody" [] (rows.map rowDom)] := rfl
    have hr := rowsOf_dom rows h.2.2
    rw [e] at hr
    rw [e, walkElement, if_neg (by simp [skipped_box (n := c!"table") (by decide +kernel) (classOk_nil low)]),
      if_pos ((leafTags_contains _).2 (by decide +kernel)), Option.map_some]
    have e2 : ∀ d : Dom, d.name = c!"table" → ownOf cfg depth d = if cfg.tables then extractTable d else {} := by
      intro d hd
      unfold ownOf
      rw [hd]
      rfl
    rw [e2 _ rfl]
    have e3 : extractTable (.el c!"table" [] [.el c!"tbody" [] (rows.map rowDom)])
        = .block (.table (rows.map fun r => r.map fun c => shown (domTexts c.2))) [] := by
      rw [extractTable, hr, if_pos ⟨by simpa using h.1, by simpa using h.2.1⟩]
    rw [e3]
    cases hc : cfg.tables <;> simp [Flow.blocks, foundOf, pictures, Found.plain, Found.block, WebBlock.new] <;> rfl
  | .loose s, depth, h, hd => by
    rw [Flow.dom, walkElement]
    rfl
  | .hidden n a l, depth, h, hd => by
    rw [FlowOk] at h
    rw [Flow.dom, walkElement, if_pos]
    · rfl
    · simp only [skipped, Bool.or_eq_true]
      left
      rw [List.contains_iff_mem]
      exact h

/-- The walk through several pieces. -/
theorem walkAll_flows (low : Str → Str) (cfg : ParserConfig) : ∀ (l : List Flow) (depth : Nat), FlowsOk low l →
    depth + flowsHeight l + 1 ≤ 256 →
    (walkAll low cfg depth (flowDoms l)).map Found.plain = some (foundOf (flowBlocks cfg.images cfg.tables cfg.code l))
  | [], depth, h, hd => by
    rw [flowDoms, walkAll, flowBlocks]
    rfl
  | f :: l, depth, h, hd => by
    rw [FlowsOk] at h
    rw [flowsHeight] at hd
    have h1 := walk_flow low cfg f (depth + 1) h.1 (by omega)
    have h2 := walkAll_flows low cfg l depth h.2 (by omega)
    rw [flowDoms, flowBlocks, foundOf_append]
    cases hf : f.dom with
    | text s =>
      rw [hf, walkElement] at h1
      simp only [Option.map_some, Option.some.injEq] at h1
      rw [walkAll, h2, ← h1]
      rfl
    | el n a c =>
      have hh : 1 ≤ f.height := by
        cases f <;> simp [Flow.dom] at hf <;> simp [Flow.height]
      rw [walkAll, if_pos (by omega), ← hf]
      cases hw : walkElement low cfg (depth + 1) f.dom with
      | none => rw [hw] at h1; simp at h1
      | some x =>
        cases hv : walkAll low cfg depth (flowDoms l) with
        | none => rw [hv] at h2; simp at h2
        | some y =>
          rw [hw] at h1
          rw [hv] at h2
          simp only [Option.map_some, Option.some.injEq] at h1 h2
          simp only [Option.bind_some, Option.map_some]
          rw [foundPlain_append, h1, h2]
end

end PptRs.Props
