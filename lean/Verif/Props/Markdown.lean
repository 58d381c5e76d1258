import Verif.Props.TextConv

/-!
# C77 and C78: the exported Markdown document
-/

namespace PptRs.Props

open PptRs PptRs.Spec

/-! ### C77: the title in the front matter -/

theorem readYamlChars_plain {c : Char} (r : Str) (h1 : c ≠ '"') (h2 : c ≠ '\\') (h3 : c ≠ '\n') :
    readYamlChars (c :: r) = (readYamlChars r).map (c :: ·) := by
  rw [readYamlChars.eq_def]
  split
  · simp_all
  · simp_all
  · rename_i heq
    simp only [List.cons.injEq] at heq
    obtain ⟨rfl, rfl⟩ := heq
    rw [if_neg (by simp [h1, h2, h3])]
  · simp_all

/-- **C77 (partial)**: a title without quotes, backslashes and line breaks is read back from the front matter.
Missing: the other titles, see `C77_special_violated`. -/
theorem C77_plain_partial (s : Str) (h1 : '"' ∉ s) (h2 : '\\' ∉ s) (h3 : '\n' ∉ s) :
    readYaml (c!"\"" ++ escapeYaml s ++ c!"\"") = some s := by
  have e : escapeYaml s = s := by
    unfold escapeYaml
    rw [if_neg (by simp [h1, h2, h3]), replaceChar_of_notMem h1, replaceChar_of_notMem h2]
  rw [e]
  show readYamlChars (s ++ c!"\"") = some s
  clear e
  induction s with
  | nil => rfl
  | cons c s ih =>
    rw [List.cons_append, readYamlChars_plain _ (by rintro rfl; simp at h1) (by rintro rfl; simp at h2)
      (by rintro rfl; simp at h3), ih (by simp_all) (by simp_all) (by simp_all)]
    rfl

/-- **C77 is violated** for every title with a quote, a backslash or a line break: the literal block marker is
put inside the quotes, so the scalar begins with `|` and does not end on its line. -/
theorem C77_special_violated (s : Str) (h : '"' ∈ s ∨ '\\' ∈ s ∨ '\n' ∈ s) :
    ∃ r, c!"\"" ++ escapeYaml s ++ c!"\"" = c!"\"|\n  " ++ r ∧ readYaml (c!"\"" ++ escapeYaml s ++ c!"\"") = none := by
  have e : escapeYaml s = c!"|\n  " ++ replaceChar '\n' c!"\n  " s := by
    unfold escapeYaml
    rw [if_pos (by simp; tauto)]
  rw [e]
  refine ⟨replaceChar '\n' c!"\n  " s ++ c!"\"", by simp, ?_⟩
  show readYamlChars ('|' :: '\n' :: _) = none
  rw [readYamlChars_plain _ (by decide) (by decide) (by decide)]
  rfl

example : mdPreamble ⟨true, c!"---", true, true, true, true⟩ c!"a\"b" 1 =
    c!"---\ntitle: \"|\n  a\"b\"\nslides: 1\ngenerator: ppt-rs\n---\n\n# a\"b\n\n" := by decide +kernel

/-! ### C78: one section per slide -/

attribute [local irreducible] escapeMarkdown

theorem splitChar_append (sep : Char) (a b : Str) :
    splitChar sep (a ++ sep :: b) = splitChar sep a ++ splitChar sep b := by
  induction a with
  | nil => simp [splitChar]
  | cons c a ih =>
    simp only [List.cons_append, splitChar, ih]
    split
    · rfl
    · split
      · rename_i h
        exact absurd (List.append_eq_nil_iff.mp h).1 (splitChar_ne_nil _ _)
      · rename_i x xs h
        cases hs : splitChar sep a with
        | nil => exact absurd hs (splitChar_ne_nil _ _)
        | cons y ys =>
          rw [hs] at h
          simp only [List.cons_append, List.cons.injEq] at h
          obtain ⟨rfl, rfl⟩ := h
          rfl

theorem linesOf_append (a b : Str) : linesOf (a ++ '\n' :: b) = splitChar '\n' a ++ linesOf b := by
  unfold linesOf
  rw [splitChar_append, List.dropLast_append_of_ne_nil (splitChar_ne_nil _ _)]

/-- Reading `b` before any other text changes the state from `st` to `st'`. -/
def Scans (b : Str) (st st' : Bool × List Str) : Prop :=
  ∀ r, (linesOf (b ++ r)).foldl mdScan st = (linesOf r).foldl mdScan st'

theorem Scans.nil (st : Bool × List Str) : Scans [] st st := fun _ => rfl

theorem Scans.append {a b : Str} {s t u : Bool × List Str} (h : Scans a s t) (h' : Scans b t u) : Scans (a ++ b) s u := by
  intro r
  rw [List.append_assoc, h, h']

theorem Scans.line (a : Str) (st : Bool × List Str) : Scans (a ++ c!"\n") st ((splitChar '\n' a).foldl mdScan st) := by
  intro r
  rw [List.append_assoc]
  show (linesOf (a ++ '\n' :: r)).foldl mdScan st = _
  rw [linesOf_append, List.foldl_append]

/-- No line begins with `#` or a backquote; the flag tells whether the text begins a line. -/
def lineStartOk : Bool → Str → Bool
  | _, [] => true
  | b, c :: s => (!b || (c ≠ '#' && c ≠ '`')) && lineStartOk (c = '\n') s

/-- Whether a line begins behind the text. -/
def atStart (b : Bool) (s : Str) : Bool := s.foldl (fun _ c => decide (c = '\n')) b

theorem lineStartOk_append (b : Bool) (s t : Str) :
    lineStartOk b (s ++ t) = (lineStartOk b s && lineStartOk (atStart b s) t) := by
  induction s generalizing b with
  | nil => simp [lineStartOk, atStart]
  | cons c s ih => simp [lineStartOk, atStart, ih, Bool.and_assoc]

/-- No line begins with `#` or a backquote, wherever the text begins. -/
def NoMark (s : Str) : Prop := ∀ b, lineStartOk b s = true

theorem NoMark.append {s t : Str} (h : NoMark s) (h' : NoMark t) : NoMark (s ++ t) := by
  intro b
  rw [lineStartOk_append, h, h']
  rfl

theorem noMark_lit {s : Str} (h : lineStartOk true s = true ∧ lineStartOk false s = true) : NoMark s := by
  intro b; cases b
  · exact h.2
  · exact h.1

theorem NoMark.flatMap {α : Type} {l : List α} {f : α → Str} (h : ∀ x ∈ l, NoMark (f x)) : NoMark (l.flatMap f) := by
  induction l with
  | nil => intro b; rfl
  | cons x l ih =>
    rw [List.flatMap_cons]
    exact (h x List.mem_cons_self).append (ih fun y hy => h y (List.mem_cons_of_mem _ hy))

theorem noMark_escape (s : Str) : NoMark (escapeMarkdown s) := by
  rw [escapeMarkdown_eq]
  apply NoMark.flatMap
  intro c _
  unfold mdChar
  split
  · intro b; cases b <;> simp [lineStartOk]
  · rename_i h
    have h1 : c ≠ '#' := by rintro rfl; exact h (by decide)
    have h2 : c ≠ '`' := by rintro rfl; exact h (by decide)
    intro b; cases b <;> simp [lineStartOk, h1, h2]

/-- Text without line breaks begins no line. -/
theorem lineStartOk_noNewline {s : Str} (h : '\n' ∉ s) : lineStartOk false s = true := by
  induction s with
  | nil => rfl
  | cons c s ih =>
    have hc : c ≠ '\n' := by rintro rfl; simp at h
    simp [lineStartOk, hc, ih (by simp_all)]

theorem NoMark.append_noNewline {s t : Str} (h : NoMark s) (hs : ∀ b, atStart b s = false) (ht : '\n' ∉ t) : NoMark (s ++ t) := by
  intro b
  rw [lineStartOk_append, h, hs, lineStartOk_noNewline ht]
  rfl

theorem noMark_dec (n : Nat) : NoMark (dec n) := by
  have : ∀ s : Str, (∀ c ∈ s, c.isDigit = true) → NoMark s := by
    intro s
    induction s with
    | nil => intro _ b; rfl
    | cons c s ih =>
      intro h b
      have hc := h c List.mem_cons_self
      have h1 : c ≠ '#' := by rintro rfl; revert hc; decide
      have h2 : c ≠ '`' := by rintro rfl; revert hc; decide
      simp only [lineStartOk, ih (fun x hx => h x (List.mem_cons_of_mem _ hx)) _]
      simp [h1, h2]
  exact this _ fun c hc => isDigit_of_mem_dec hc

theorem heads_of_ok (s : Str) : ∀ b, lineStartOk b s = true →
    ∃ l ls, splitChar '\n' s = l :: ls ∧ (b = true → l.head? ≠ some '#' ∧ l.head? ≠ some '`') ∧
      ∀ x ∈ ls, x.head? ≠ some '#' ∧ x.head? ≠ some '`' := by
  induction s with
  | nil => intro b _; exact ⟨[], [], rfl, by simp, by simp⟩
  | cons c s ih =>
    intro b h
    simp only [lineStartOk, Bool.and_eq_true] at h
    obtain ⟨l, ls, h1, h2, h3⟩ := ih _ h.2
    simp only [splitChar, h1]
    split
    · rename_i hc
      have hl := h2 (by simp [hc])
      exact ⟨[], l :: ls, rfl, by simp, by
        intro x hx
        rcases List.mem_cons.mp hx with rfl | hx
        · exact hl
        · exact h3 x hx⟩
    · refine ⟨c :: l, ls, rfl, fun hb => ?_, h3⟩
      subst hb
      have := h.1
      simp at this
      simp [this]

theorem scan_quiet {ls : List Str} (h : ∀ x ∈ ls, x.head? ≠ some '#' ∧ x.head? ≠ some '`') (st : Bool × List Str) :
    ls.foldl mdScan st = st := by
  induction ls with
  | nil => rfl
  | cons l ls ih =>
    have hl := h l List.mem_cons_self
    have e : mdScan st l = st := by
      unfold mdScan
      cases l with
      | nil => simp [startsWith, List.isPrefixOf]
      | cons c l =>
        simp only [List.head?_cons, ne_eq, Option.some.injEq] at hl
        have h1 : startsWith c!"```" (c :: l) = false := by
          simp [startsWith, List.isPrefixOf, Ne.symm hl.2]
        have h2 : startsWith c!"## " (c :: l) = false := by
          simp [startsWith, List.isPrefixOf, Ne.symm hl.1]
        rw [h1, h2]
        simp
    rw [List.foldl_cons, e, ih fun x hx => h x (List.mem_cons_of_mem _ hx)]

theorem Scans.quiet {s : Str} (h : NoMark s) (st : Bool × List Str) : Scans (s ++ c!"\n") st st := by
  have := Scans.line s st
  obtain ⟨l, ls, h1, h2, h3⟩ := heads_of_ok s true (h true)
  rw [h1, scan_quiet (by
    intro x hx
    rcases List.mem_cons.mp hx with rfl | hx
    · exact h2 rfl
    · exact h3 x hx)] at this
  exact this

/-- The heading written for slide number `i`. -/
def headingLine (o : MdOptions) (s : MdSlide) (i : Nat) : Str :=
  if o.slideNumbers then c!"## Slide " ++ dec (i + 1) ++ c!": " ++ escapeMarkdown s.title
  else c!"## " ++ escapeMarkdown s.title

/-- What the theorem requires of a slide: the title has no line breaks, the language of a code block neither, no
line of code begins with the fence, and the suffix of an image has no line breaks. Bullets, tables and notes are
arbitrary. -/
structure SimpleMd (ext : Str → Str) (s : MdSlide) : Prop where
  title : '\n' ∉ s.title
  lang : ∀ b ∈ s.code, '\n' ∉ b.1
  code : ∀ b ∈ s.code, ∀ l ∈ splitChar '\n' b.2, startsWith c!"```" l = false
  image : ∀ f ∈ s.images, '\n' ∉ ext f

theorem headingLine_newline {o : MdOptions} {s : MdSlide} (h : '\n' ∉ s.title) (i : Nat) : '\n' ∉ headingLine o s i := by
  have he : '\n' ∉ escapeMarkdown s.title := fun hc => h (newline_escape.mp hc)
  have hd : '\n' ∉ dec (i + 1) := not_mem_dec (by decide)
  unfold headingLine
  split
  · simp [he, hd]
  · simp [he]

theorem scan_heading {o : MdOptions} {s : MdSlide} (h : '\n' ∉ s.title) (i : Nat) (hs : List Str) :
    Scans (headingLine o s i ++ c!"\n") (false, hs) (false, hs ++ [headingLine o s i]) := by
  have := Scans.line (headingLine o s i) (false, hs)
  rw [splitChar_of_notMem (headingLine_newline h i)] at this
  have e : mdScan (false, hs) (headingLine o s i) = (false, hs ++ [headingLine o s i]) := by
    have h1 : startsWith c!"```" (headingLine o s i) = false := by
      unfold headingLine; split <;> rfl
    have h2 : startsWith c!"## " (headingLine o s i) = true := by
      unfold headingLine; split <;> rfl
    unfold mdScan
    rw [h1, h2]
    simp
  simpa [e] using this

theorem scan_blank (st : Bool × List Str) : Scans c!"\n" st st := Scans.quiet (s := []) (fun _ => rfl) st

theorem scans_mdHeading {o : MdOptions} (ho : NoMark o.separator) {s : MdSlide} (h : '\n' ∉ s.title) (i : Nat) (hs : List Str) :
    Scans (mdHeading o i s) (false, hs) (false, hs ++ [headingLine o s i]) := by
  have e : mdHeading o i s = (if i > 0 || o.slideNumbers then c!"\n" ++ (o.separator ++ c!"\n") ++ c!"\n" else []) ++
      ((headingLine o s i ++ c!"\n") ++ c!"\n") := by
    unfold mdHeading headingLine
    split <;> split <;> simp
  rw [e]
  refine Scans.append (t := (false, hs)) ?_ (Scans.append (scan_heading h i hs) (scan_blank _))
  split
  · exact ((scan_blank _).append (Scans.quiet ho _)).append (scan_blank _)
  · exact Scans.nil _

theorem Scans.flatMap {α : Type} {l : List α} {f : α → Str} {st : Bool × List Str} (h : ∀ x ∈ l, Scans (f x) st st) :
    Scans (l.flatMap f) st st := by
  induction l with
  | nil => exact Scans.nil _
  | cons x l ih =>
    rw [List.flatMap_cons]
    exact (h x List.mem_cons_self).append (ih fun y hy => h y (List.mem_cons_of_mem _ hy))

theorem scans_bullets (s : MdSlide) (st : Bool × List Str) : Scans (mdBullets s) st st := by
  unfold mdBullets
  split
  · exact Scans.nil _
  · refine Scans.append (t := st) (Scans.flatMap fun t _ => ?_) (scan_blank _)
    exact Scans.quiet ((noMark_lit (by decide)).append (noMark_escape t)) _

theorem noMark_row (cells : List Str) : NoMark (c!"| " ++ cells.flatMap fun t => escapeMarkdown t ++ c!" | ") :=
  (noMark_lit (by decide)).append (NoMark.flatMap fun t _ => (noMark_escape t).append (noMark_lit (by decide)))

theorem noMark_sep (n : Nat) : NoMark (c!"|" ++ (List.replicate n c!" --- |").flatten) := by
  refine (noMark_lit (by decide)).append ?_
  induction n with
  | zero => intro b; rfl
  | succ n ih =>
    rw [List.replicate_succ, List.flatten_cons]
    exact (noMark_lit (by decide)).append ih

theorem scans_table (o : MdOptions) (s : MdSlide) (st : Bool × List Str) : Scans (mdTable o s) st st := by
  unfold mdTable
  split
  · refine Scans.flatMap fun t _ => Scans.append (t := st) ?_ (scan_blank _)
    cases t with
    | nil => exact Scans.nil _
    | cons head rows =>
      rw [exportTableGfm_lines]
      refine Scans.flatMap fun l hl => Scans.quiet ?_ _
      simp only [gfmLines, List.mem_cons, List.mem_map] at hl
      rcases hl with rfl | rfl | ⟨r, _, rfl⟩
      · exact noMark_row _
      · exact noMark_sep _
      · exact noMark_row _
  · exact Scans.nil _

theorem scans_images {ext : Str → Str} (o : MdOptions) (i : Nat) {s : MdSlide} (h : ∀ f ∈ s.images, '\n' ∉ ext f)
    (st : Bool × List Str) : Scans (mdImages ext o i s) st st := by
  unfold mdImages
  split
  · refine Scans.flatMap fun x hx => ?_
    have hf : x.1 ∈ s.images := List.fst_mem_of_mem_zipIdx hx
    have e : mdImage ext i x.2 x.1 = ((c!"![Image " ++ (dec (x.2 + 1) ++ (c!" on slide " ++ (dec (i + 1) ++
        (c!"](images/slide" ++ (dec (i + 1) ++ (c!"_image" ++ (dec (x.2 + 1) ++ (ext x.1 ++ c!")"))))))))) ++ c!"\n") ++ c!"\n" := by
      simp only [mdImage, List.append_assoc]
      rfl
    rw [e]
    refine Scans.append (t := st) (Scans.quiet (NoMark.append_noNewline (noMark_lit (by decide)) ?_ ?_) _) (scan_blank _)
    · intro b; cases b <;> rfl
    · have hd : ∀ n, '\n' ∉ dec n := fun n => not_mem_dec (by decide)
      simp [hd, h _ hf]
  · exact Scans.nil _

theorem scan_fenced {ls : List Str} (h : ∀ l ∈ ls, startsWith c!"```" l = false) (hs : List Str) :
    ls.foldl mdScan (true, hs) = (true, hs) := by
  induction ls with
  | nil => rfl
  | cons l ls ih =>
    have e : mdScan (true, hs) l = (true, hs) := by simp [mdScan, h l List.mem_cons_self]
    rw [List.foldl_cons, e, ih fun x hx => h x (List.mem_cons_of_mem _ hx)]

theorem scans_code {s : MdSlide} (h1 : ∀ b ∈ s.code, '\n' ∉ b.1)
    (h2 : ∀ b ∈ s.code, ∀ l ∈ splitChar '\n' b.2, startsWith c!"```" l = false) (hs : List Str) :
    Scans (mdCode s) (false, hs) (false, hs) := by
  unfold mdCode
  refine Scans.flatMap fun b hb => ?_
  have e : c!"```" ++ b.1 ++ c!"\n" ++ b.2 ++ c!"\n```\n\n" =
      ((c!"```" ++ b.1) ++ c!"\n") ++ ((b.2 ++ c!"\n") ++ ((c!"```" ++ c!"\n") ++ c!"\n")) := by simp
  rw [e]
  have hopen : Scans ((c!"```" ++ b.1) ++ c!"\n") (false, hs) (true, hs) := by
    have := Scans.line (c!"```" ++ b.1) (false, hs)
    rw [splitChar_of_notMem (by simp [h1 b hb])] at this
    exact this
  have hbody : Scans (b.2 ++ c!"\n") (true, hs) (true, hs) := by
    have := Scans.line b.2 (true, hs)
    rw [scan_fenced (h2 b hb)] at this
    exact this
  have hclose : Scans (c!"```" ++ c!"\n") (true, hs) (false, hs) := Scans.line c!"```" (true, hs)
  exact hopen.append (hbody.append (hclose.append (scan_blank _)))

theorem scans_notes (o : MdOptions) (s : MdSlide) (st : Bool × List Str) : Scans (mdNotes o s) st st := by
  unfold mdNotes
  split
  · have e : c!"**Notes:**\n\n" ++ c!"> " ++ escapeMarkdown (s.notes.getD []) ++ c!"\n\n" =
      (c!"**Notes:**\n" ++ c!"\n") ++ (((c!"> " ++ escapeMarkdown (s.notes.getD [])) ++ c!"\n") ++ c!"\n") := by simp
    rw [e]
    exact (Scans.quiet (noMark_lit (by decide)) _).append
      ((Scans.quiet ((noMark_lit (by decide)).append (noMark_escape _)) _).append (scan_blank _))
  · exact Scans.nil _

theorem scans_slide {ext : Str → Str} {o : MdOptions} (ho : NoMark o.separator) {s : MdSlide} (h : SimpleMd ext s) (i : Nat)
    (hs : List Str) : Scans (mdSlide ext o i s) (false, hs) (false, hs ++ [headingLine o s i]) := by
  unfold mdSlide
  exact (((((scans_mdHeading ho h.title i hs).append (scans_bullets s _)).append (scans_table o s _)).append
    (scans_images o i h.image _)).append (scans_code h.lang h.code _)).append (scans_notes o s _)

theorem scans_slides {ext : Str → Str} {o : MdOptions} (ho : NoMark o.separator) (l : List (MdSlide × Nat))
    (h : ∀ x ∈ l, SimpleMd ext x.1) (hs : List Str) :
    Scans (l.flatMap fun x => mdSlide ext o x.2 x.1) (false, hs) (false, hs ++ l.map fun x => headingLine o x.1 x.2) := by
  induction l generalizing hs with
  | nil => simpa using Scans.nil _
  | cons x l ih =>
    rw [List.flatMap_cons]
    have h1 := scans_slide ho (h x List.mem_cons_self) x.2 hs
    have h2 := ih (fun y hy => h y (List.mem_cons_of_mem _ hy)) (hs ++ [headingLine o x.1 x.2])
    have := h1.append h2
    simpa using this

theorem atStart_append (b : Bool) (s t : Str) : atStart b (s ++ t) = atStart (atStart b s) t := by
  simp [atStart]

theorem scans_preamble (o : MdOptions) {title : Str} (h : '\n' ∉ title) (n : Nat) (st : Bool × List Str) :
    Scans (mdPreamble o title n) st st := by
  unfold mdPreamble
  have htitle : Scans (c!"# " ++ title ++ c!"\n\n") st st := by
    have e : c!"# " ++ title ++ c!"\n\n" = ((c!"# " ++ title) ++ c!"\n") ++ c!"\n" := by simp
    rw [e]
    refine Scans.append (t := st) ?_ (scan_blank _)
    have := Scans.line (c!"# " ++ title) st
    rw [splitChar_of_notMem (by simp [h])] at this
    have e2 : mdScan st (c!"# " ++ title) = st := by
      unfold mdScan
      have h1 : startsWith c!"```" (c!"# " ++ title) = false := rfl
      have h2 : startsWith c!"## " (c!"# " ++ title) = false := rfl
      rw [h1, h2]
      simp
    rw [List.foldl_cons, List.foldl_nil, e2] at this
    exact this
  rw [List.append_assoc, List.append_assoc, ← List.append_assoc c!"# "]
  refine Scans.append (t := st) ?_ htitle
  split
  · have hy : ∃ a b, escapeYaml title = a ++ b ∧ NoMark (c!"---\ntitle: \"" ++ a) ∧
        (∀ x, atStart x (c!"---\ntitle: \"" ++ a) = false) ∧ '\n' ∉ b := by
      unfold escapeYaml
      split
      · refine ⟨c!"|\n  ", _, rfl, noMark_lit (by decide), by intro x; cases x <;> rfl, ?_⟩
        rw [replaceChar_of_notMem h]
        exact h
      · rename_i hc
        have hb : '"' ∉ title ∧ '\\' ∉ title := by
          simp at hc
          exact ⟨hc.1.2, hc.2⟩
        refine ⟨[], title, ?_, noMark_lit (by decide), by intro x; cases x <;> rfl, h⟩
        rw [replaceChar_of_notMem hb.1, replaceChar_of_notMem hb.2]
        rfl
    obtain ⟨a, b, e1, h1, h2, h3⟩ := hy
    have e : c!"---\n" ++ c!"title: \"" ++ escapeYaml title ++ c!"\"\n" ++ c!"slides: " ++ dec n ++ c!"\n" ++
        c!"generator: ppt-rs\n" ++ c!"---\n\n" =
        (((c!"---\ntitle: \"" ++ a) ++ (b ++ c!"\"")) ++ c!"\n") ++ (((c!"slides: " ++ dec n) ++ c!"\n") ++
          (c!"generator: ppt-rs\n---\n" ++ c!"\n")) := by
      rw [e1]; simp
    rw [e]
    refine Scans.append (t := st) (Scans.quiet (h1.append_noNewline h2 (by simp [h3])) _) ?_
    exact (Scans.quiet ((noMark_lit (by decide)).append (noMark_dec n)) _).append (Scans.quiet (noMark_lit (by decide)) _)
  · exact Scans.nil _

/-- **C78 (partial)**: the second-level headings of the exported Markdown, as a Markdown reader finds them, are
exactly one per slide, in order, with the slide's number and title — whatever the bullets, tables and notes
contain. Missing: titles with line breaks and code that contains a fence, see `C78_title_violated` and
`C78_code_violated`. -/
theorem C78_headings_partial (ext : Str → Str) (o : MdOptions) (title : Str) (slides : List MdSlide)
    (ho : '\n' ∉ o.separator ∧ o.separator.head? ≠ some '#' ∧ o.separator.head? ≠ some '`') (ht : '\n' ∉ title)
    (h : ∀ s ∈ slides, SimpleMd ext s) :
    mdHeadings (exportMarkdown ext o title slides) = slides.zipIdx.map fun x =>
      if o.slideNumbers then c!"## Slide " ++ dec (x.2 + 1) ++ c!": " ++ escapeMarkdown x.1.title
      else c!"## " ++ escapeMarkdown x.1.title := by
  have hsep : NoMark o.separator := by
    intro b
    cases hs : o.separator with
    | nil => rfl
    | cons c s =>
      rw [hs] at ho
      simp only [List.mem_cons, not_or, List.head?_cons, ne_eq, Option.some.injEq] at ho
      have hc : decide (c = '\n') = false := decide_eq_false (Ne.symm ho.1.1)
      rw [lineStartOk, hc, lineStartOk_noNewline ho.1.2]
      simp [ho.2.1, ho.2.2]
  have hsc := Scans.append (scans_preamble o ht slides.length (false, []))
    (scans_slides (ext := ext) hsep slides.zipIdx (fun x hx => h _ (List.fst_mem_of_mem_zipIdx hx)) [])
  have := hsc []
  unfold mdHeadings exportMarkdown
  rw [List.append_nil] at this
  rw [this]
  simp [linesOf, splitChar, headingLine]

/-- The default options, src/export/md.rs 26-36. -/
def mdDefault : MdOptions := ⟨true, c!"---", true, true, true, true⟩

/-- **C78 (partial)**: in particular there are as many sections as slides. -/
theorem C78_count_partial (ext : Str → Str) (title : Str) (slides : List MdSlide) (ht : '\n' ∉ title)
    (h : ∀ s ∈ slides, SimpleMd ext s) :
    (mdHeadings (exportMarkdown ext mdDefault title slides)).length = slides.length := by
  rw [C78_headings_partial ext mdDefault title slides (by decide) ht h]
  simp

/-- **C78 is violated** by a deck title with a line break, which is not escaped. -/
theorem C78_title_violated : mdHeadings (exportMarkdown id mdDefault c!"A\n## B" []) = [c!"## B"] := by decide +kernel

/-- **C78 is violated** by code that contains a fence: the heading of the next slide is read as code. -/
theorem C78_code_violated :
    mdHeadings (exportMarkdown id mdDefault c!"T"
      [⟨c!"A", [], none, [], [(c!"md", c!"```")], none⟩, ⟨c!"B", [], none, [], [], none⟩]) = [c!"## Slide 1: A"] := by
  decide +kernel

/-- A deck for which the theorem speaks: bullets that look like headings and fences do not matter. -/
def mdSample : List MdSlide :=
  [⟨c!"Intro #1", [c!"x\n## fake", c!"```"], some [[c!"h"], [c!"1\n## 2"]], [c!"png"], [(c!"rust", c!"fn main() {}\n## no")], some c!"n\n## n"⟩,
   ⟨c!"End", [], none, [], [], none⟩]

example : mdHeadings (exportMarkdown id mdDefault c!"T" mdSample) = [c!"## Slide 1: Intro \\#1", c!"## Slide 2: End"] := by
  decide +kernel

example : ∀ s ∈ mdSample, SimpleMd id s := by
  intro s hs
  simp only [mdSample, List.mem_cons, List.not_mem_nil, or_false] at hs
  rcases hs with rfl | rfl
  · constructor <;> decide +kernel
  · constructor <;> decide +kernel

end PptRs.Props
