import Verif.Props.ExportFile
import Verif.Props.FlowSource

/-!
# C162: exported Markdown is imported again
-/

namespace PptRs.Props

open PptRs PptRs.Spec PptRs.Import PptRs.Whole PptRs.MdImport PptRs.ExportFile

/-! ### Simple Markdown

A reader of those Markdown documents that are made of headings, thematic breaks, lists of one level and paragraphs, with text in which
every special character is escaped. Other documents are not read (`none`). -/

/-- Text that stands for itself up to its escapes and cannot begin a block: it begins with a letter, does not end with a blank, and has no
special character that is not escaped. -/
def mdInert (t : Str) : Bool :=
  (t.head?.any Char.isAlpha) && t.getLast? ≠ some ' ' &&
    t.all (fun c => c ∉ ['\n', '\r', '\t']) &&
    (unescapedChars t).all fun c => c ∉ ['\\', '*', '_', '[', ']', '`', '#', '<', '>', '&', '~', '|']

/-- The block that is being read. -/
inductive MdOpen where
  | nothing
  | para (lines : List Str)
  | list (items : List Str)

/-- The inline text of lines. -/
def mdLinesInline : List Str → List Inline
  | [] => []
  | [t] => [.text t]
  | t :: l => .text t :: .softBreak :: mdLinesInline l

def MdOpen.blocks : MdOpen → List DocBlock
  | .nothing => []
  | .para l => [.para (mdLinesInline l)]
  | .list l => [.list (l.map fun t => (false, [.text t]))]

/-- One line of a simple document. -/
def mdLine (s : List DocBlock × MdOpen) (line : Str) : Option (List DocBlock × MdOpen) :=
  if line = [] then some (s.1 ++ s.2.blocks, .nothing)
  else if line = c!"---" then
    match s.2 with
    | .para l => some (s.1 ++ [.heading 2 (mdLinesInline l)], .nothing)
    | o => some (s.1 ++ o.blocks ++ [.rule], .nothing)
  else if startsWith c!"# " line then
    if mdInert (line.drop 2) then some (s.1 ++ s.2.blocks ++ [.heading 1 [.text (readMarkdown (line.drop 2))]], .nothing) else none
  else if startsWith c!"## " line then
    if mdInert (line.drop 3) then some (s.1 ++ s.2.blocks ++ [.heading 2 [.text (readMarkdown (line.drop 3))]], .nothing) else none
  else if startsWith c!"- " line then
    if mdInert (line.drop 2) then
      match s.2 with
      | .list l => some (s.1, .list (l ++ [readMarkdown (line.drop 2)]))
      | o => some (s.1 ++ o.blocks, .list [readMarkdown (line.drop 2)])
    else none
  else if mdInert line then
    match s.2 with
    | .nothing => some (s.1, .para [readMarkdown line])
    | .para l => some (s.1, .para (l ++ [readMarkdown line]))
    | .list _ => none
  else none

def mdLines (s : List DocBlock × MdOpen) (lines : List Str) : Option (List DocBlock × MdOpen) := lines.foldlM mdLine s

/-- The blocks of a simple document. -/
def readBlocks (text : Str) : Option (List DocBlock) := (mdLines ([], .nothing) (splitChar '\n' text)).map fun s => s.1 ++ s.2.blocks

example : readBlocks c!"# Talk\n\n- a\n- b \\* c\n\nx\ny\n---\n## Z\n---\n" =
    some [.heading 1 [.text c!"Talk"], .list [(false, [.text c!"a"]), (false, [.text c!"b * c"])],
      .heading 2 [.text c!"x", .softBreak, .text c!"y"], .heading 2 [.text c!"Z"], .rule] := by krfl

/-! ### Reading line by line -/

/-- After the text the reader is in another state. -/
def MdGoes (text : Str) (a b : List DocBlock × MdOpen) : Prop :=
  ∀ rest, mdLines a (splitChar '\n' (text ++ rest)) = mdLines b (splitChar '\n' rest)

theorem MdGoes.nil (a : List DocBlock × MdOpen) : MdGoes [] a a := fun _ => rfl

theorem MdGoes.append {s t : Str} {a b c : List DocBlock × MdOpen} (h1 : MdGoes s a b) (h2 : MdGoes t b c) : MdGoes (s ++ t) a c := by
  intro rest
  rw [List.append_assoc, h1, h2]

theorem MdGoes.line {l : Str} {a b : List DocBlock × MdOpen} (hl : '\n' ∉ l) (h : mdLine a l = some b) : MdGoes (l ++ c!"\n") a b := by
  intro rest
  rw [List.append_assoc, List.singleton_append, splitChar_append_sep hl]
  unfold mdLines
  rw [List.foldlM_cons, h]
  rfl

theorem MdGoes.blank (d : List DocBlock) (o : MdOpen) : MdGoes c!"\n" (d, o) (d ++ o.blocks, .nothing) :=
  MdGoes.line (l := []) (by simp) rfl

theorem readBlocks_of {text : Str} {d : List DocBlock} (h : MdGoes text ([], .nothing) (d, .nothing)) : readBlocks text = some d := by
  have := h []
  rw [List.append_nil] at this
  unfold readBlocks
  rw [this]
  show some ((d ++ []) ++ []) = _
  simp

/-! ### What is exported -/

/-- Text of one line that begins with a letter, does not end with a blank, and has none of the characters `&`, `~` and `|`, which are not
escaped. -/
structure MdPlain (t : Str) : Prop where
  first : t.head?.any Char.isAlpha = true
  tight : Tight t
  inert : ∀ c ∈ t, c ∉ ['\n', '\r', '\t', '&', '~', '|']

theorem escape_last (s : Str) : (escapeMarkdown s).getLast? = s.getLast? := by
  rw [escapeMarkdown_eq]
  rcases List.eq_nil_or_concat s with rfl | ⟨l, c, rfl⟩
  · rfl
  · rw [List.concat_eq_append, List.flatMap_append, List.getLast?_append, List.getLast?_append]
    have : (List.flatMap mdChar [c]).getLast? = some c := by
      rw [List.flatMap_cons, List.flatMap_nil, List.append_nil]
      unfold mdChar
      split <;> rfl
    rw [this]
    rfl

theorem escape_mem {s : Str} {c : Char} (h : c ∈ escapeMarkdown s) : c = '\\' ∨ c ∈ s := by
  rw [escapeMarkdown_eq, List.mem_flatMap] at h
  obtain ⟨x, hx, hc⟩ := h
  unfold mdChar at hc
  split at hc
  · simp only [List.mem_cons, List.not_mem_nil, or_false] at hc
    rcases hc with h | h
    · exact .inl h
    · exact .inr (h ▸ hx)
  · simp only [List.mem_cons, List.not_mem_nil, or_false] at hc
    exact .inr (hc ▸ hx)

theorem alpha_active {c : Char} (h : c.isAlpha = true) : c ∉ mdActive := by
  intro hc
  simp only [mdActive, List.mem_cons, List.not_mem_nil, or_false] at hc
  rcases hc with h' | h' | h' | h' | h' | h' | h' | h' | h' <;> subst h' <;> revert h <;> decide

theorem inert_escape {t : Str} (h : MdPlain t) : mdInert (escapeMarkdown t) = true := by
  unfold mdInert
  have h1 : (escapeMarkdown t).head?.any Char.isAlpha = true := by
    have := h.first
    cases t with
    | nil => cases this
    | cons c t =>
      rw [escapeMarkdown_cons, mdChar, if_neg (alpha_active this)]
      exact this
  have hl : t.getLast? ≠ some ' ' := fun e => absurd (h.tight.2.1 _ e) (by decide)
  rw [h1, escape_last, decide_eq_true hl, unescapedChars_escape]
  simp only [Bool.true_and, Bool.and_eq_true, List.all_eq_true, decide_eq_true_eq, List.mem_filter]
  refine ⟨fun c hc => ?_, fun c hc => ?_⟩
  · rcases escape_mem hc with rfl | hm
    · decide
    · have := h.inert c hm
      simp only [List.mem_cons, not_or, List.not_mem_nil, or_false] at this ⊢
      exact ⟨this.1, this.2.1, this.2.2.1⟩
  · have h2 := h.inert c hc.1
    have h3 := hc.2
    simp only [List.mem_cons, not_or, List.not_mem_nil, or_false] at h2
    intro hx
    rcases List.mem_append.mp (show c ∈ mdActive ++ ['&', '~', '|'] from hx) with h4 | h4
    · exact h3 h4
    · simp only [List.mem_cons, List.not_mem_nil, or_false] at h4
      rcases h4 with rfl | rfl | rfl
      · exact h2.2.2.2.1 rfl
      · exact h2.2.2.2.2.1 rfl
      · exact h2.2.2.2.2.2 rfl

theorem MdPlain.numbered {t : Str} (h : MdPlain t) (n : Nat) : MdPlain (c!"Slide " ++ dec n ++ c!": " ++ t) := by
  have hn := h.tight.2.2
  have hd : ∀ c ∈ dec n, c.isDigit = true := fun c hc => isDigit_of_mem_dec hc
  refine ⟨rfl, ⟨?_, ?_, ?_⟩, ?_⟩
  · intro c hc
    have : c = 'S' := (Option.some.inj hc).symm
    subst this
    decide
  · intro c hc
    rw [List.getLast?_append] at hc
    cases e : t.getLast? with
    | none => exact absurd (List.getLast?_eq_none_iff.mp e) hn
    | some x =>
      rw [e] at hc
      have : x = c := by simpa using hc
      exact this ▸ h.tight.2.1 x e
  · simp
  · intro c hc
    simp only [List.mem_append] at hc
    rcases hc with ((hc | hc) | hc) | hc
    · exact (show ∀ c ∈ c!"Slide ", c ∉ ['\n', '\r', '\t', '&', '~', '|'] by decide) c hc
    · intro hx
      have := hd c hc
      simp only [List.mem_cons, List.not_mem_nil, or_false] at hx
      rcases hx with h' | h' | h' | h' | h' | h' <;> subst h' <;> revert this <;> decide
    · exact (show ∀ c ∈ c!": ", c ∉ ['\n', '\r', '\t', '&', '~', '|'] by decide) c hc
    · exact h.inert c hc

theorem escape_numbered (n : Nat) (t : Str) :
    escapeMarkdown (c!"Slide " ++ dec n ++ c!": " ++ t) = c!"Slide " ++ dec n ++ c!": " ++ escapeMarkdown t := by
  have hd : escapeMarkdown (dec n) = dec n := by
    refine C42_plain fun c hc hx => ?_
    have := isDigit_of_mem_dec hc
    simp only [List.mem_cons, List.not_mem_nil, or_false] at hx
    rcases hx with h' | h' | h' | h' | h' | h' | h' | h' | h' <;> subst h' <;> revert this <;> decide
  rw [escapeMarkdown_append, escapeMarkdown_append, escapeMarkdown_append, hd]
  rfl

theorem MdPlain.noLine {t : Str} (h : MdPlain t) : '\n' ∉ escapeMarkdown t := fun hc => h.inert _ (newline_escape.mp hc) (by decide)

theorem mdLine_heading1 {u : Str} (h : mdInert u = true) (d : List DocBlock) (o : MdOpen) :
    mdLine (d, o) (c!"# " ++ u) = some (d ++ o.blocks ++ [.heading 1 [.text (readMarkdown u)]], .nothing) := by
  unfold mdLine
  rw [if_neg (by simp), if_neg (by simp), if_pos (by simp [startsWith]), show (c!"# " ++ u).drop 2 = u from rfl, if_pos h]

theorem mdLine_heading2 {u : Str} (h : mdInert u = true) (d : List DocBlock) (o : MdOpen) :
    mdLine (d, o) (c!"## " ++ u) = some (d ++ o.blocks ++ [.heading 2 [.text (readMarkdown u)]], .nothing) := by
  unfold mdLine
  rw [if_neg (by simp), if_neg (by simp), if_neg (by simp [startsWith]), if_pos (by simp [startsWith]),
    show (c!"## " ++ u).drop 3 = u from rfl, if_pos h]

theorem mdLine_item {u : Str} (h : mdInert u = true) (d : List DocBlock) :
    (∀ l, mdLine (d, .list l) (c!"- " ++ u) = some (d, .list (l ++ [readMarkdown u]))) ∧
    mdLine (d, .nothing) (c!"- " ++ u) = some (d, .list [readMarkdown u]) := by
  have key : ∀ o, mdLine (d, o) (c!"- " ++ u) = match o with
      | .list l => some (d, .list (l ++ [readMarkdown u]))
      | o => some (d ++ o.blocks, .list [readMarkdown u]) := by
    intro o
    unfold mdLine
    rw [if_neg (by simp), if_neg (by simp), if_neg (by simp [startsWith]), if_neg (by simp [startsWith]), if_pos (by simp [startsWith]),
      show (c!"- " ++ u).drop 2 = u from rfl, if_pos h]
  refine ⟨fun l => key _, ?_⟩
  rw [key]
  simp [MdOpen.blocks]

theorem goes_heading1 {t : Str} (h : MdPlain t) (d : List DocBlock) (o : MdOpen) :
    MdGoes (c!"# " ++ escapeMarkdown t ++ c!"\n") (d, o) (d ++ o.blocks ++ [.heading 1 [.text t]], .nothing) := by
  refine MdGoes.line (by simpa using h.noLine) ?_
  rw [mdLine_heading1 (inert_escape h), C42_roundtrip]

theorem goes_heading2 {t : Str} (h : MdPlain t) (d : List DocBlock) (o : MdOpen) :
    MdGoes (c!"## " ++ escapeMarkdown t ++ c!"\n") (d, o) (d ++ o.blocks ++ [.heading 2 [.text t]], .nothing) := by
  refine MdGoes.line (by simpa using h.noLine) ?_
  rw [mdLine_heading2 (inert_escape h), C42_roundtrip]

theorem goes_item {t : Str} (h : MdPlain t) (d : List DocBlock) (l : List Str) :
    MdGoes (c!"- " ++ escapeMarkdown t ++ c!"\n") (d, .list l) (d, .list (l ++ [t])) := by
  refine MdGoes.line (by simpa using h.noLine) ?_
  rw [(mdLine_item (inert_escape h) d).1, C42_roundtrip]

theorem goes_item1 {t : Str} (h : MdPlain t) (d : List DocBlock) :
    MdGoes (c!"- " ++ escapeMarkdown t ++ c!"\n") (d, .nothing) (d, .list [t]) := by
  refine MdGoes.line (by simpa using h.noLine) ?_
  rw [(mdLine_item (inert_escape h) d).2, C42_roundtrip]

theorem goes_items (d : List DocBlock) (bs : List Str) (h : ∀ b ∈ bs, MdPlain b) (l : List Str) :
    MdGoes (bs.flatMap fun t => c!"- " ++ escapeMarkdown t ++ c!"\n") (d, .list l) (d, .list (l ++ bs)) := by
  induction bs generalizing l with
  | nil => simpa using MdGoes.nil _
  | cons b bs ih =>
    rw [List.flatMap_cons]
    have := (goes_item (h b (.head _)) d l).append (ih (fun x hx => h x (.tail _ hx)) (l ++ [b]))
    simpa using this

/-- The blocks of the bullets of a slide. -/
def bulletBlocks (bs : List Str) : List DocBlock := if bs = [] then [] else [.list (bs.map fun t => (false, [.text t]))]

theorem goes_bulletList (d : List DocBlock) {s : MdSlide} (h : ∀ b ∈ s.content, MdPlain b) :
    MdGoes (mdBullets s) (d, .nothing) (d ++ bulletBlocks s.content, .nothing) := by
  unfold mdBullets bulletBlocks
  cases hc : s.content with
  | nil => simpa using MdGoes.nil _
  | cons b bs =>
    rw [if_neg (by simp), if_neg (by simp), List.flatMap_cons]
    have := ((goes_item1 (h b (by simp [hc])) d).append (goes_items d bs (fun x hx => h x (by simp [hc, hx])) [b])).append (MdGoes.blank d (.list ([b] ++ bs)))
    exact this

theorem goes_rule (d : List DocBlock) : MdGoes c!"---\n" (d, .nothing) (d ++ [.rule], .nothing) := by
  refine MdGoes.line (l := c!"---") (by decide) ?_
  show some (d ++ [] ++ [DocBlock.rule], MdOpen.nothing) = _
  rw [List.append_nil]

/-- The heading of a slide. -/
def mdTitle (numbers : Bool) (i : Nat) (t : Str) : Str := if numbers then c!"Slide " ++ dec (i + 1) ++ c!": " ++ t else t

/-- The blocks of a slide. -/
def slideBlocks (numbers : Bool) (i : Nat) (s : Str × List Str) : List DocBlock :=
  (if i > 0 || numbers then [.rule] else []) ++ [.heading 2 [.text (mdTitle numbers i s.1)]] ++ bulletBlocks s.2

/-- What is exported of a slide with bullets. -/
def bareSlide (s : Str × List Str) : MdSlide := ⟨s.1, s.2, none, [], [], none⟩

theorem goes_mdSlide {ext : Str → Str} {o : MdOptions} (ho : o.separator = c!"---") {s : Str × List Str} (ht : MdPlain s.1)
    (hb : ∀ b ∈ s.2, MdPlain b) (i : Nat) (d : List DocBlock) :
    MdGoes (mdSlide ext o i (bareSlide s)) (d, .nothing) (d ++ slideBlocks o.slideNumbers i s, .nothing) := by
  have e : mdSlide ext o i (bareSlide s) = (if i > 0 || o.slideNumbers then c!"\n" ++ (c!"---\n" ++ c!"\n") else []) ++
      ((c!"## " ++ escapeMarkdown (mdTitle o.slideNumbers i s.1) ++ c!"\n") ++ c!"\n") ++ mdBullets (bareSlide s) := by
    have e1 : mdTable o (bareSlide s) = [] := by unfold mdTable; split <;> rfl
    have e2 : mdImages ext o i (bareSlide s) = [] := by unfold mdImages; split <;> rfl
    have e3 : mdNotes o (bareSlide s) = [] := by unfold mdNotes; rw [if_neg (by simp [bareSlide])]
    unfold mdSlide
    rw [e1, e2, e3, show mdCode (bareSlide s) = [] from rfl]
    unfold mdHeading mdTitle
    rw [ho]
    cases o.slideNumbers with
    | false => simp [bareSlide]
    | true =>
      simp only [if_true, escape_numbered]
      simp [bareSlide]
  have hp : MdPlain (mdTitle o.slideNumbers i s.1) := by
    unfold mdTitle
    split
    · exact ht.numbered _
    · exact ht
  rw [e]
  unfold slideBlocks
  have h1 : MdGoes (if i > 0 || o.slideNumbers then c!"\n" ++ (c!"---\n" ++ c!"\n") else []) (d, .nothing)
      (d ++ (if i > 0 || o.slideNumbers then [.rule] else []), .nothing) := by
    split
    · have := (MdGoes.blank d .nothing).append ((goes_rule (d ++ [])).append (MdGoes.blank _ .nothing))
      simpa [MdOpen.blocks] using this
    · simpa using MdGoes.nil _
  have h2 := (goes_heading2 hp (d ++ (if i > 0 || o.slideNumbers then [.rule] else [])) .nothing).append (MdGoes.blank _ .nothing)
  have := (h1.append h2).append (goes_bulletList _ (s := bareSlide s) hb)
  simpa [MdOpen.blocks, bareSlide] using this

theorem goes_mdSlides {ext : Str → Str} {o : MdOptions} (ho : o.separator = c!"---") (l : List (Str × List Str))
    (h : ∀ s ∈ l, MdPlain s.1 ∧ ∀ b ∈ s.2, MdPlain b) (k : Nat) (d : List DocBlock) :
    MdGoes ((l.map bareSlide |>.zipIdx k).flatMap fun x => mdSlide ext o x.2 x.1) (d, .nothing)
      (d ++ (l.zipIdx k).flatMap fun x => slideBlocks o.slideNumbers x.2 x.1, .nothing) := by
  induction l generalizing k d with
  | nil => simpa using MdGoes.nil _
  | cons s l ih =>
    simp only [List.map_cons, List.zipIdx_cons, List.flatMap_cons]
    have := (goes_mdSlide (ext := ext) ho (h s (.head _)).1 (h s (.head _)).2 k d).append
      (ih (fun x hx => h x (.tail _ hx)) (k + 1) (d ++ slideBlocks o.slideNumbers k s))
    simpa using this

/-! ### The beginning of the document -/

theorem mdLine_para {u : Str} (h : mdInert u = true) (d : List DocBlock) :
    mdLine (d, .nothing) u = some (d, .para [readMarkdown u]) ∧ ∀ l, mdLine (d, .para l) u = some (d, .para (l ++ [readMarkdown u])) := by
  have hf : u.head?.any Char.isAlpha = true := by
    unfold mdInert at h
    simp only [Bool.and_eq_true] at h
    exact h.1.1.1
  cases u with
  | nil => cases hf
  | cons c u =>
    have h1 : ∀ x : Char, x.isAlpha = false → ¬ c = x := by
      rintro x hx rfl
      have : c.isAlpha = true := hf
      rw [hx] at this
      cases this
    have a1 := h1 '-' (by decide)
    have a2 := h1 '#' (by decide)
    have key : ∀ o, mdLine (d, o) (c :: u) = match o with
        | .nothing => some (d, .para [readMarkdown (c :: u)])
        | .para l => some (d, .para (l ++ [readMarkdown (c :: u)]))
        | .list _ => none := by
      intro o
      unfold mdLine
      rw [if_neg (by simp), if_neg (by simp [a1]), if_neg (by simp [startsWith, Ne.symm a2]), if_neg (by simp [startsWith, Ne.symm a2]),
        if_neg (by simp [startsWith, Ne.symm a1]), if_pos h]
    exact ⟨key _, fun l => key _⟩

/-- Text that needs no escapes, and stands for itself in quotation marks. -/
structure MdBare (t : Str) : Prop extends MdPlain t where
  bare : ∀ c ∈ t, c ∉ ['"', '\\', '*', '_', '[', ']', '`', '#', '<', '>']

theorem MdBare.escape {t : Str} (h : MdBare t) : escapeMarkdown t = t :=
  C42_plain fun c hc hx => h.bare c hc (List.mem_cons_of_mem _ hx)

theorem inert_of_plain {t : Str} (h : MdPlain t) (he : escapeMarkdown t = t) : mdInert t = true ∧ readMarkdown t = t := by
  have h1 := inert_escape h
  have h2 := C42_roundtrip t
  rw [he] at h1 h2
  exact ⟨h1, h2⟩

theorem titleLine_plain {t : Str} (h : MdBare t) :
    mdInert (c!"title: \"" ++ t ++ c!"\"") = true ∧ readMarkdown (c!"title: \"" ++ t ++ c!"\"") = c!"title: \"" ++ t ++ c!"\"" := by
  refine inert_of_plain ⟨rfl, ⟨?_, ?_, by simp⟩, ?_⟩ ?_
  · intro c hc
    have : c = 't' := (Option.some.inj hc).symm
    subst this
    decide
  · intro c hc
    rw [List.getLast?_append] at hc
    have : c = '"' := (Option.some.inj hc).symm
    subst this
    decide
  · intro c hc
    rcases List.mem_append.mp hc with hc | hc
    · rcases List.mem_append.mp hc with hc | hc
      · exact (show ∀ c ∈ c!"title: \"", c ∉ ['\n', '\r', '\t', '&', '~', '|'] by decide) c hc
      · exact h.inert c hc
    · exact (show ∀ c ∈ c!"\"", c ∉ ['\n', '\r', '\t', '&', '~', '|'] by decide) c hc
  · rw [escapeMarkdown_append, escapeMarkdown_append, h.escape]
    rfl

theorem countLine_plain (n : Nat) : mdInert (c!"slides: " ++ dec n) = true ∧ readMarkdown (c!"slides: " ++ dec n) = c!"slides: " ++ dec n := by
  have hl : ∀ c, (c!"slides: " ++ dec n).getLast? = some c → c.isDigit = true := by
    intro c hc
    have := List.mem_of_getLast? hc
    rw [List.getLast?_append] at hc
    cases e : (dec n).getLast? with
    | none => exact absurd (List.getLast?_eq_none_iff.mp e) (dec_ne_nil n)
    | some x =>
      rw [e] at hc
      have hx : x = c := by simpa using hc
      exact hx ▸ isDigit_of_mem_dec (List.mem_of_getLast? e)
  refine inert_of_plain ⟨rfl, ⟨?_, ?_, by simp⟩, ?_⟩ ?_
  · intro c hc
    have : c = 's' := (Option.some.inj hc).symm
    subst this
    decide
  · intro c hc
    have hd := hl c hc
    have hd : c.toNat ≤ 57 ∧ 48 ≤ c.toNat := by
      simp only [Char.isDigit, Bool.and_eq_true, decide_eq_true_eq] at hd
      exact ⟨hd.2, hd.1⟩
    cases hw : isWs c with
    | false => rfl
    | true => exact absurd hw (by unfold isWs; simp; omega)
  · intro c hc
    rcases List.mem_append.mp hc with hc | hc
    · exact (show ∀ c ∈ c!"slides: ", c ∉ ['\n', '\r', '\t', '&', '~', '|'] by decide) c hc
    · intro hx
      have := isDigit_of_mem_dec hc
      simp only [List.mem_cons, List.not_mem_nil, or_false] at hx
      rcases hx with h' | h' | h' | h' | h' | h' <;> subst h' <;> revert this <;> decide
  · refine C42_plain fun c hc hx => ?_
    rcases List.mem_append.mp hc with hc | hc
    · exact (show ∀ c ∈ c!"slides: ", c ∉ ['\\', '*', '_', '[', ']', '`', '#', '<', '>'] by decide) c hc hx
    · have := isDigit_of_mem_dec hc
      simp only [List.mem_cons, List.not_mem_nil, or_false] at hx
      rcases hx with h' | h' | h' | h' | h' | h' | h' | h' | h' <;> subst h' <;> revert this <;> decide

/-- The blocks of the beginning: the lines between the thematic breaks are a paragraph with a line of dashes below, which is a heading. -/
def frontBlocks (front : Bool) (title : Str) (n : Nat) : List DocBlock :=
  if front then [.rule, .heading 2 [.text (c!"title: \"" ++ title ++ c!"\""), .softBreak, .text (c!"slides: " ++ dec n), .softBreak,
    .text c!"generator: ppt-rs"]] else []

theorem goes_preamble (o : MdOptions) {title : Str} (h : MdBare title) (n : Nat) :
    MdGoes (mdPreamble o title n) ([], .nothing) (frontBlocks o.frontmatter title n ++ [.heading 1 [.text title]], .nothing) := by
  have hy : escapeYaml title = title := by
    have h1 : '"' ∉ title := fun hc => h.bare _ hc (by decide)
    have h2 : '\\' ∉ title := fun hc => h.bare _ hc (by decide)
    have h3 : '\n' ∉ title := fun hc => h.inert _ hc (by decide)
    unfold escapeYaml
    rw [if_neg (by simp [h1, h2, h3]), replaceChar_of_notMem h1, replaceChar_of_notMem h2]
  have e : mdPreamble o title n = (if o.frontmatter then c!"---\n" ++ ((c!"title: \"" ++ title ++ c!"\"") ++ c!"\n") ++
      ((c!"slides: " ++ dec n) ++ c!"\n") ++ c!"generator: ppt-rs\n" ++ c!"---\n" ++ c!"\n" else []) ++
      ((c!"# " ++ escapeMarkdown title ++ c!"\n") ++ c!"\n") := by
    unfold mdPreamble
    rw [hy, h.escape]
    cases o.frontmatter <;> simp
  have h1 : MdGoes (if o.frontmatter then c!"---\n" ++ ((c!"title: \"" ++ title ++ c!"\"") ++ c!"\n") ++
      ((c!"slides: " ++ dec n) ++ c!"\n") ++ c!"generator: ppt-rs\n" ++ c!"---\n" ++ c!"\n" else []) ([], .nothing)
      (frontBlocks o.frontmatter title n, .nothing) := by
    unfold frontBlocks
    cases o.frontmatter with
    | false => exact MdGoes.nil _
    | true =>
      obtain ⟨t1, t2⟩ := titleLine_plain h
      obtain ⟨c1, c2⟩ := countLine_plain n
      have a1 := goes_rule []
      have n1 : '\n' ∉ c!"title: \"" ++ title ++ c!"\"" := by
        have : '\n' ∉ title := fun hc => h.inert _ hc (by decide)
        simpa using this
      have n2 : '\n' ∉ c!"slides: " ++ dec n := by
        have : '\n' ∉ dec n := not_mem_dec (by decide)
        simpa using this
      have a2 := MdGoes.line n1 (mdLine_para t1 ([] ++ [.rule])).1
      have a3 := MdGoes.line n2 ((mdLine_para c1 ([] ++ [.rule])).2 [readMarkdown (c!"title: \"" ++ title ++ c!"\"")])
      have a4 := MdGoes.line (l := c!"generator: ppt-rs") (by decide) ((mdLine_para (by decide +kernel) ([] ++ [.rule])).2
        ([readMarkdown (c!"title: \"" ++ title ++ c!"\"")] ++ [readMarkdown (c!"slides: " ++ dec n)]))
      have a5 : MdGoes c!"---\n" ([] ++ [.rule], .para ([readMarkdown (c!"title: \"" ++ title ++ c!"\"")] ++ [readMarkdown (c!"slides: " ++ dec n)] ++
          [readMarkdown c!"generator: ppt-rs"])) ([] ++ [.rule] ++ [.heading 2 (mdLinesInline ([readMarkdown (c!"title: \"" ++ title ++ c!"\"")] ++
          [readMarkdown (c!"slides: " ++ dec n)] ++ [readMarkdown c!"generator: ppt-rs"]))], .nothing) :=
        MdGoes.line (l := c!"---") (by decide) rfl
      have a6 := MdGoes.blank ([] ++ [.rule] ++ [.heading 2 (mdLinesInline ([readMarkdown (c!"title: \"" ++ title ++ c!"\"")] ++
          [readMarkdown (c!"slides: " ++ dec n)] ++ [readMarkdown c!"generator: ppt-rs"]))]) .nothing
      have := ((((a1.append a2).append a3).append a4).append a5).append a6
      rw [t2, c2, show readMarkdown c!"generator: ppt-rs" = c!"generator: ppt-rs" by decide +kernel] at this
      exact this
  rw [e]
  have := h1.append ((goes_heading1 h.toMdPlain _ .nothing).append (MdGoes.blank _ .nothing))
  simpa [MdOpen.blocks] using this

/-- The blocks of an exported presentation of titles and bullets. -/
theorem readBlocks_exported {ext : Str → Str} {o : MdOptions} (ho : o.separator = c!"---") {title : Str} (h : MdBare title)
    (l : List (Str × List Str)) (hl : ∀ s ∈ l, MdPlain s.1 ∧ ∀ b ∈ s.2, MdPlain b) :
    readBlocks (exportMarkdown ext o title (l.map bareSlide)) = some (frontBlocks o.frontmatter title l.length ++ [.heading 1 [.text title]] ++
      l.zipIdx.flatMap fun x => slideBlocks o.slideNumbers x.2 x.1) := by
  refine readBlocks_of ?_
  unfold exportMarkdown
  rw [List.length_map]
  exact (goes_preamble o h _).append (goes_mdSlides ho l hl 0 _)

/-! ### What is imported -/

theorem plain_text {t : Str} (h : Tight t) : plainText [.text t] = t := by
  have : mdShownL false false false [.text t] = t := by simp [mdShownL, mdShown, styled]
  rw [plainText, this, trim_tight h]

theorem execs_bullets (home : Str) (bs : List Str) (ds : List DocSlide) (c : DocSlide) :
    execs (bs.map fun b => .put (some home) (.bullet b)) (ds, some c) = (ds, some { c with bullets := c.bullets ++ bs }) := by
  induction bs generalizing c with
  | nil => simp [execs]
  | cons b bs ih =>
    show execs _ (ds, some { c with bullets := c.bullets ++ [b] }) = _
    rw [ih]
    simp

theorem bulletBlocks_acts (load : Str → Bool) (dt : Str → Str) {bs : List Str} (h : ∀ b ∈ bs, Tight b) :
    (bulletBlocks bs).flatMap (blockActs load dt) = bs.map fun b => .put (some c!"Slide") (.bullet b) := by
  unfold bulletBlocks
  by_cases h0 : bs = []
  · simp [h0]
  · rw [if_neg h0]
    have e1 : (bs.map fun t => (false, [Inline.text t])).flatMap (fun it => picActs load it.2) = [] := by
      rw [List.flatMap_map]
      induction bs with
      | nil => rfl
      | cons b bs ih =>
        rw [List.flatMap_cons]
        by_cases hb : bs = []
        · subst hb; rfl
        · rw [ih (fun x hx => h x (.tail _ hx)) hb]; rfl
    have e2 : (bs.map fun t => (false, [Inline.text t])).flatMap (fun it => bulletAct (plainText it.2)) =
        bs.map fun b => .put (some c!"Slide") (.bullet b) := by
      rw [List.flatMap_map]
      clear e1 h0
      induction bs with
      | nil => rfl
      | cons b bs ih =>
        rw [List.flatMap_cons, ih (fun x hx => h x (.tail _ hx)), List.map_cons]
        have := h b (.head _)
        show bulletAct (plainText [.text b]) ++ _ = _
        rw [plain_text this, bulletAct, if_neg this.2.2]
        rfl
    rw [List.flatMap_cons, List.flatMap_nil, List.append_nil]
    show _ ++ _ = _
    rw [e1, e2]
    rfl

/-- A slide with a thematic break before it. -/
theorem execs_slide (load : Str → Bool) (dt : Str → Str) {numbers : Bool} {i : Nat} {s : Str × List Str} (ht : MdPlain s.1)
    (hb : ∀ b ∈ s.2, MdPlain b) (ds : List DocSlide) (c : DocSlide) :
    execs ((slideBlocks numbers i s).flatMap (blockActs load dt)) (ds, some c) =
      if i > 0 || numbers then (ds ++ [c], some { title := c.title ++ c!" (continued)", bullets := (c!"**" ++ mdTitle numbers i s.1 ++ c!"**") :: s.2 })
      else (ds, some { c with bullets := c.bullets ++ (c!"**" ++ mdTitle numbers i s.1 ++ c!"**") :: s.2 }) := by
  have hm : Tight (mdTitle numbers i s.1) := by
    unfold mdTitle
    cases numbers
    · exact ht.tight
    · exact (ht.numbered (i + 1)).tight
  unfold slideBlocks
  rw [List.flatMap_append, List.flatMap_append, execs_append, execs_append, bulletBlocks_acts load dt (fun b h => (hb b h).tight)]
  have e : ∀ ds (c : DocSlide), execs (([.heading 2 [.text (mdTitle numbers i s.1)]] : List DocBlock).flatMap (blockActs load dt)) (ds, some c) =
      (ds, some { c with bullets := c.bullets ++ [c!"**" ++ mdTitle numbers i s.1 ++ c!"**"] }) := by
    intro ds c
    rw [List.flatMap_cons, List.flatMap_nil, List.append_nil]
    show (ds, some ((Piece.bullet (c!"**" ++ plainText [.text (mdTitle numbers i s.1)] ++ c!"**")).on c)) = _
    rw [plain_text hm]
    rfl
  cases h : (decide (i > 0) || numbers) with
  | false =>
    rw [if_neg (by simp), if_neg (by simp), List.flatMap_nil, execs_nil, e, execs_bullets]
    simp
  | true =>
    rw [if_pos rfl, if_pos rfl]
    have e0 : execs (([.rule] : List DocBlock).flatMap (blockActs load dt)) (ds, some c) =
        (ds ++ [c], some { title := c.title ++ c!" (continued)" }) := by
      show (ds ++ [c], (ds ++ [c]).getLast?.map fun d => ({ title := d.title ++ c!" (continued)" } : DocSlide)) = _
      rw [List.getLast?_concat]
      rfl
    rw [e0, e, execs_bullets]
    rfl

/-- The marks of a slide that goes on after a thematic break, so many times. -/
def continued (n : Nat) : Str := (List.replicate n c!" (continued)").flatten

theorem execs_slides (load : Str → Bool) (dt : Str → Str) {numbers : Bool} (l : List (Str × List Str))
    (h : ∀ s ∈ l, MdPlain s.1 ∧ ∀ b ∈ s.2, MdPlain b) (k : Nat) (hk : k > 0 || numbers) (ds : List DocSlide) (c : DocSlide) :
    let f := execs (((l.zipIdx k).flatMap fun x => slideBlocks numbers x.2 x.1).flatMap (blockActs load dt)) (ds, some c)
    f.1 ++ f.2.toList = ds ++ [c] ++ l.zipIdx.map fun x => { title := c.title ++ continued (x.2 + 1), bullets := (c!"**" ++ mdTitle numbers (x.2 + k) x.1.1 ++ c!"**") :: x.1.2 } := by
  induction l generalizing k ds c with
  | nil => simp [execs]
  | cons s l ih =>
    simp only [List.zipIdx_cons, List.flatMap_cons, List.flatMap_append, execs_append]
    rw [execs_slide load dt (h s (.head _)).1 (h s (.head _)).2, if_pos hk]
    have := ih (fun x hx => h x (.tail _ hx)) (k + 1) (by simp) (ds ++ [c])
      { title := c.title ++ c!" (continued)", bullets := (c!"**" ++ mdTitle numbers k s.1 ++ c!"**") :: s.2 }
    simp only at this
    rw [this, List.map_cons, List.zipIdx_succ, List.map_map]
    simp only [List.append_assoc, List.cons_append, List.nil_append, Function.comp_def]
    congr 3
    · simp [continued]
    · refine List.map_congr_left fun x _ => ?_
      have e1 : continued (x.2 + 1 + 1) = c!" (continued)" ++ continued (x.2 + 1) := by
        unfold continued
        rw [List.replicate_succ, List.flatten_cons]
      rw [e1, show x.2 + (k + 1) = x.2 + 1 + k by omega]
      rfl

theorem front_execs (load : Str → Bool) (dt : Str → Str) (front : Bool) {title : Str} (ht : Tight title) (n : Nat) :
    execs ((frontBlocks front title n ++ [DocBlock.heading 1 [.text title]]).flatMap (blockActs load dt)) ([], none) =
      ([], some { title := title }) := by
  rw [List.flatMap_append, execs_append]
  have e : execs ((frontBlocks front title n).flatMap (blockActs load dt)) ([], none) = ([], none) := by
    cases front <;> rfl
  rw [e]
  show (([] ++ (none : Option DocSlide).toList, some { title := plainText [.text title] }) : Filling) = _
  rw [plain_text ht]
  rfl

theorem exported_ok (front numbers : Bool) (title : Str) (n : Nat) (l : List (Str × List Str)) :
    ∀ b ∈ frontBlocks front title n ++ [.heading 1 [.text title]] ++ l.zipIdx.flatMap (fun x => slideBlocks numbers x.2 x.1),
      blockOk b = true := by
  intro b hb
  rcases List.mem_append.mp hb with hb | hb
  · rcases List.mem_append.mp hb with hb | hb
    · cases front
      · cases hb
      · simp only [frontBlocks, if_true, List.mem_cons, List.not_mem_nil, or_false] at hb
        rcases hb with rfl | rfl <;> rfl
    · rw [List.mem_singleton.mp hb]
      rfl
  · obtain ⟨x, -, hx⟩ := List.mem_flatMap.mp hb
    unfold slideBlocks at hx
    rcases List.mem_append.mp hx with hx | hx
    · rcases List.mem_append.mp hx with hx | hx
      · split at hx
        · rw [List.mem_singleton.mp hx]
          rfl
        · cases hx
      · rw [List.mem_singleton.mp hx]
        rfl
    · unfold bulletBlocks at hx
      split at hx
      · cases hx
      · rw [List.mem_singleton.mp hx]
        show (x.1.2.map fun t => (false, [Inline.text t])).all _ = true
        rw [List.all_map, List.all_eq_true]
        intro t _
        rfl

/-- The pages that are exported with nothing but a title and bullets of plain text. -/
def TextPage (s : PageIn) : Prop := s.text.table = none ∧ s.notes = none ∧ MdPlain s.text.title ∧ ∀ b ∈ s.text.content, MdPlain b

/-- A Markdown text read and imported, as `md2ppt` does: `none` is a text that the reader above does not read or a panic, `some none` an
error. -/
def mdAgain (load : Str → Bool) (dt : Str → Str) (text : Str) : Option (Option (List MdImport.Slide)) :=
  (readBlocks text).bind fun doc => importMd load dt (docEvs doc)

theorem pageMd_bare (ext : Str → Str) (o : MdOptions) (title : Str) {l : List PageIn} (h : ∀ s ∈ l, TextPage s) :
    pageMd ext o title l = exportMarkdown ext o title ((l.map fun s => (s.text.title, s.text.content)).map bareSlide) := by
  unfold pageMd
  rw [List.map_map]
  congr 1
  refine List.map_congr_left fun s hs => ?_
  obtain ⟨h1, h2, -⟩ := h s hs
  simp [mdSlideOf, bareSlide, h1, h2]

theorem mdAgain_slides (load : Str → Bool) (dt : Str → Str) {ext : Str → Str} {o : MdOptions} (ho : o.separator = c!"---") {title : Str}
    (ht : MdBare title) {l : List PageIn} (hl : ∀ s ∈ l, TextPage s) :
    mdAgain load dt (pageMd ext o title l) =
      some (if docSlides load dt (frontBlocks o.frontmatter title l.length ++ [.heading 1 [.text title]] ++
        (l.map fun s => (s.text.title, s.text.content)).zipIdx.flatMap fun x => slideBlocks o.slideNumbers x.2 x.1) = [] then none
      else some ((docSlides load dt (frontBlocks o.frontmatter title l.length ++ [.heading 1 [.text title]] ++
        (l.map fun s => (s.text.title, s.text.content)).zipIdx.flatMap fun x => slideBlocks o.slideNumbers x.2 x.1)).map DocSlide.kept)) := by
  unfold mdAgain
  have hl' : ∀ s ∈ l.map (fun s => (s.text.title, s.text.content)), MdPlain s.1 ∧ ∀ b ∈ s.2, MdPlain b := by
    intro s hs
    obtain ⟨p, hp, rfl⟩ := List.mem_map.mp hs
    exact (hl p hp).2.2
  rw [pageMd_bare ext o title hl, readBlocks_exported ho ht _ hl', Option.bind_some, C89_import_partial load dt _ (exported_ok _ _ _ _ _),
    List.length_map]

/-- **C162 does not hold in full.** Markdown exported with the numbers of slides, which is the default, is not imported as the slides it
was exported from. There is one slide more, with the title of the presentation and nothing on it. Each slide after it has the title of the
presentation, with " (continued)" once more than the slide before; its own title is a bullet, with its number, between asterisks. The
exporter writes a slide as a heading of the second level below a thematic break; to the importer only headings of the first level begin
slides, and a thematic break goes on with the slide before. The lines of metadata are lost. -/
theorem C162_titles_violated (load : Str → Bool) (dt : Str → Str) {ext : Str → Str} {o : MdOptions} (ho : o.separator = c!"---")
    (hn : o.slideNumbers = true) {title : Str} (ht : MdBare title) {l : List PageIn} (hl : ∀ s ∈ l, TextPage s) :
    mdAgain load dt (pageMd ext o title l) = some (some ({ title := title } :: l.zipIdx.map fun x =>
      { title := title ++ continued (x.2 + 1)
        bullets := (c!"**Slide " ++ dec (x.2 + 1) ++ c!": " ++ x.1.text.title ++ c!"**") :: x.1.text.content })) := by
  have hl' : ∀ s ∈ l.map (fun s => (s.text.title, s.text.content)), MdPlain s.1 ∧ ∀ b ∈ s.2, MdPlain b := by
    intro s hs
    obtain ⟨p, hp, rfl⟩ := List.mem_map.mp hs
    exact (hl p hp).2.2
  have e : docSlides load dt (frontBlocks o.frontmatter title l.length ++ [.heading 1 [.text title]] ++
      (l.map fun s => (s.text.title, s.text.content)).zipIdx.flatMap fun x => slideBlocks o.slideNumbers x.2 x.1) =
      { title := title } :: l.zipIdx.map fun x => { title := title ++ continued (x.2 + 1)
                                                    bullets := (c!"**Slide " ++ dec (x.2 + 1) ++ c!": " ++ x.1.text.title ++ c!"**") :: x.1.text.content } := by
    unfold docSlides
    rw [List.flatMap_append, execs_append, front_execs load dt _ ht.tight]
    have := execs_slides load dt (numbers := o.slideNumbers) _ hl' 0 (by simp [hn]) [] { title := title }
    simp only at this ⊢
    rw [this, List.zipIdx_map, List.map_map]
    simp [mdTitle, hn, Function.comp_def]
  rw [mdAgain_slides load dt ho ht hl, e, if_neg (by simp), List.map_cons, List.map_map]
  rfl

/-- **C162 does not hold in full.** Without the numbers there is no slide too many, but the first slide has the title of the presentation
instead of its own, and the others have it with " (continued)" once more each. -/
theorem C162_unnumbered_violated (load : Str → Bool) (dt : Str → Str) {ext : Str → Str} {o : MdOptions} (ho : o.separator = c!"---")
    (hn : o.slideNumbers = false) {title : Str} (ht : MdBare title) {s : PageIn} {l : List PageIn} (hl : ∀ p ∈ s :: l, TextPage p) :
    mdAgain load dt (pageMd ext o title (s :: l)) = some (some (
      { title := title, bullets := (c!"**" ++ s.text.title ++ c!"**") :: s.text.content } :: l.zipIdx.map fun x =>
      { title := title ++ continued (x.2 + 1)
        bullets := (c!"**" ++ x.1.text.title ++ c!"**") :: x.1.text.content })) := by
  have hl' : ∀ p ∈ l.map (fun s => (s.text.title, s.text.content)), MdPlain p.1 ∧ ∀ b ∈ p.2, MdPlain b := by
    intro s hs
    obtain ⟨p, hp, rfl⟩ := List.mem_map.mp hs
    exact (hl p (.tail _ hp)).2.2
  have e : docSlides load dt (frontBlocks o.frontmatter title (s :: l).length ++ [.heading 1 [.text title]] ++
      ((s :: l).map fun s => (s.text.title, s.text.content)).zipIdx.flatMap fun x => slideBlocks o.slideNumbers x.2 x.1) =
      { title := title, bullets := (c!"**" ++ s.text.title ++ c!"**") :: s.text.content } :: l.zipIdx.map fun x =>
      { title := title ++ continued (x.2 + 1)
        bullets := (c!"**" ++ x.1.text.title ++ c!"**") :: x.1.text.content } := by
    unfold docSlides
    rw [List.flatMap_append, execs_append, front_execs load dt _ ht.tight, List.map_cons, List.zipIdx_cons, List.flatMap_cons,
      List.flatMap_append, execs_append, execs_slide load dt (hl s (.head _)).2.2.1 (hl s (.head _)).2.2.2, if_neg (by simp [hn])]
    have := execs_slides load dt (numbers := o.slideNumbers) _ hl' 1 (by simp) []
      { title := title, bullets := (c!"**" ++ mdTitle o.slideNumbers 0 s.text.title ++ c!"**") :: s.text.content }
    simp only [List.nil_append] at this ⊢
    rw [this, List.zipIdx_map, List.map_map]
    simp [mdTitle, hn, Function.comp_def]
  rw [mdAgain_slides load dt ho ht hl, e, if_neg (by simp), List.map_cons, List.map_map]
  rfl

/-- Two slides with bullets. -/
def againSample : List PageIn :=
  [{ text := [c!"one", c!"two < three"].foldl SlideText.addBullet (SlideText.new c!"First") }, { text := SlideText.new c!"Second" }]

theorem againSample_text : ∀ s ∈ againSample, TextPage s := by
  intro s h
  simp only [againSample, List.mem_cons, List.not_mem_nil, or_false] at h
  rcases h with rfl | rfl
  · refine ⟨rfl, rfl, ⟨by decide, by decide, by decide⟩, fun b hb => ?_⟩
    have : b = c!"one" ∨ b = c!"two < three" := by simpa [SlideText.new, SlideText.addBullet, SlideText.addStyledBullet] using hb
    rcases this with rfl | rfl
    · exact ⟨by decide, by decide, by decide⟩
    · exact ⟨by decide, by decide, by decide⟩
  · exact ⟨rfl, rfl, ⟨by decide, by decide, by decide⟩, fun b hb => by cases hb⟩

example (load : Str → Bool) (dt ext : Str → Str) : mdAgain load dt (pageMd ext mdDefault c!"Talk" againSample) = some (some
    [{ title := c!"Talk" },
     { title := c!"Talk (continued)", bullets := [c!"**Slide 1: First**", c!"one", c!"two < three"] },
     { title := c!"Talk (continued) (continued)", bullets := [c!"**Slide 2: Second**"] }]) := by
  rw [C162_titles_violated load dt rfl rfl ⟨⟨by decide, by decide, by decide⟩, by decide⟩ againSample_text]
  krfl

/-- The same from the saved file. -/
example (secs : Nat) (desc : Str → Str) (other : PartName → Bytes) (load : Str → Bool) (dt ext : Str → Str) :
    (exportedMd ext mdDefault (written secs c!"Talk" againSample .none desc other)).map (mdAgain load dt) = some (some (some
    [{ title := c!"Talk" },
     { title := c!"Talk (continued)", bullets := [c!"**Slide 1: First**", c!"one", c!"two < three"] },
     { title := c!"Talk (continued) (continued)", bullets := [c!"**Slide 2: Second**"] }])) := by
  have ho : ∀ s ∈ againSample, Ordinary s := by
    intro s h
    simp only [againSample, List.mem_cons, List.not_mem_nil, or_false] at h
    rcases h with rfl | rfl
    · exact .bullets (by decide) (by decide)
    · exact .bullets (l := []) (by decide) (by decide)
  rw [(C161_same_partial secs desc other rfl rfl (by decide) (by decide) ho (by decide) (by decide) (by decide)).2.1, Option.map_some,
    C162_titles_violated load dt rfl rfl ⟨⟨by decide, by decide, by decide⟩, by decide⟩ againSample_text]
  krfl

/-- **C162, for the bullets.** Below the bullets that are the titles, each slide has the bullets of the exported slide, all of them in
order, and the slides are in order. What is missing is the titles (see below). -/
theorem C162_bullets_partial (load : Str → Bool) (dt : Str → Str) {ext : Str → Str} {o : MdOptions} (ho : o.separator = c!"---")
    {title : Str} (ht : MdBare title) {l : List PageIn} (h0 : l ≠ []) (hl : ∀ s ∈ l, TextPage s) :
    ∃ r, mdAgain load dt (pageMd ext o title l) = some (some r) ∧
      (r.drop (if o.slideNumbers then 1 else 0)).map (fun s => s.bullets.tail) = l.map fun s => s.text.content := by
  cases hn : o.slideNumbers with
  | true =>
    refine ⟨_, C162_titles_violated load dt ho hn ht hl, ?_⟩
    simp only [if_true, List.drop_succ_cons, List.drop_zero, List.map_map, Function.comp_def, List.tail_cons]
    conv_rhs => rw [← List.zipIdx_map_fst 0 l, List.map_map]
    rfl
  | false =>
    obtain ⟨s, l, rfl⟩ := List.exists_cons_of_ne_nil h0
    refine ⟨_, C162_unnumbered_violated load dt ho hn ht hl, ?_⟩
    simp only [if_false, List.drop_zero, List.map_map, List.map_cons, Function.comp_def, List.tail_cons, Bool.false_eq_true]
    congr 1
    conv_rhs => rw [← List.zipIdx_map_fst 0 l, List.map_map]
    rfl

end PptRs.Props
