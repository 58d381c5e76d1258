import Verif.Model.CliRun
import Verif.Props.Handlers
import Verif.Props.HtmlAgain
import Verif.Model.HtmlStyle

/-!
# Runs of the command line tool (C172)
-/

namespace PptRs.Props

open PptRs PptRs.CliRun PptRs.Handlers PptRs.External

/-- The run wrote a file and nothing else, and said so. -/
def Spec.Done (s : Sys) (a : After) (path : Str) (b : Bytes) : Prop :=
  a.exit = 0 ∧ a.err = [] ∧ a.files path = some b ∧ (∀ p, p ≠ path → a.files p = s.files p) ∧ ∃ l ∈ a.out, path <:+: l

/-- The run failed with one message, and changed no file, but for the output if it could not be written. -/
def Spec.Failed (s : Sys) (a : After) (path : Str) : Prop :=
  a.exit = 1 ∧ (∃ m, a.err = [c!"✗ " ++ m] ∧ m ≠ []) ∧ (∀ p, p ≠ path → a.files p = s.files p) ∧
    (s.writes path = true → a.files path = s.files path)

theorem stop_failed (s : Sys) (path : Str) (made out : List Str) (m : Str) (h : m ≠ []) : Spec.Failed s (stop s.files made out m) path :=
  ⟨rfl, ⟨m, rfl, h⟩, fun _ _ => rfl, fun _ => rfl⟩

theorem writeOut_cases (s : Sys) (made : List Str) (output : Str) (b : Bytes) (before lines : List Str) (bad : Str) (hb : bad ≠ [])
    (hl : ∃ l ∈ lines, output <:+: l) :
    (s.writes output = true ∧ Spec.Done s (writeOut s made output b before lines bad) output b ∧
      (writeOut s made output b before lines bad).out = before ++ lines) ∨
    (s.writes output = false ∧ Spec.Failed s (writeOut s made output b before lines bad) output) := by
  unfold writeOut
  by_cases h : s.writes output = true
  · rw [if_pos h]
    obtain ⟨l, hm, hi⟩ := hl
    exact .inl ⟨h, ⟨rfl, rfl, if_pos rfl, fun p hp => if_neg hp, l, List.mem_append_right _ hm, hi⟩, rfl⟩
  · rw [if_neg h]
    exact .inr ⟨by simpa using h, rfl, ⟨bad, rfl, hb⟩, fun p hp => if_neg hp, fun e => absurd e h⟩

/-- **C172.** The commands `md2ppt` and `html2ppt` either write the presentation of the input to the output and nothing else, end with code 0
and print the output, the input and the title of the presentation; or they end with code 1 and one message. They succeed exactly if the
input can be read and has slides, the presentation can be made, and its directory and file can be written. -/
theorem C172_convert {σ : Type} (parse : Str → Except Str (List σ)) (gen : Str → List σ → Option Bytes) (d : Doc) (s : Sys) (input : Str)
    (output : Option Str) (title : Option Str) :
    (∀ out, out = output.getD (defaultOutput input) →
      (∃ bytes t slides b, s.files input = some bytes ∧ s.text bytes = some t ∧ parse t = .ok slides ∧ slides ≠ [] ∧
          gen (title.getD d.title) slides = some b ∧ (∀ dir, parentOf out = some dir → s.makes dir = true) ∧ s.writes out = true ∧
          Spec.Done s (convert parse gen d s input output title) out b ∧
          (convert parse gen d s input output title).out =
            [c!"✓ Created presentation: " ++ out, c!"  Input: " ++ input, c!"  Title: " ++ title.getD d.title]) ∨
        (Spec.Failed s (convert parse gen d s input output title) out ∧
          ¬ ∃ bytes t slides b, s.files input = some bytes ∧ s.text bytes = some t ∧ parse t = .ok slides ∧ slides ≠ [] ∧
            gen (title.getD d.title) slides = some b ∧ (∀ dir, parentOf out = some dir → s.makes dir = true) ∧ s.writes out = true)) := by
  intro out ho
  unfold convert
  rw [← ho]
  cases hf : s.files input with
  | none => exact .inr ⟨stop_failed _ _ _ _ _ (by simp), by simp⟩
  | some bytes =>
    cases ht : s.text bytes with
    | none => exact .inr ⟨by simpa [ht] using stop_failed _ _ _ _ _ (by simp), by simp [ht]⟩
    | some t =>
      simp only [Option.bind_some, ht]
      cases hp : parse t with
      | error e => exact .inr ⟨stop_failed _ _ _ _ _ (by simp), by simp [ht, hp]⟩
      | ok slides =>
        by_cases he : slides = []
        · subst he
          exact .inr ⟨stop_failed _ _ _ _ _ (by simp), by simp [ht, hp]⟩
        · simp only [List.isEmpty_iff, he, if_false]
          by_cases hd : (wantedDirs out).all s.makes
          · simp only [hd, if_true]
            have hd' : ∀ dir, parentOf out = some dir → s.makes dir = true := by
              intro dir e
              simpa [wantedDirs, e] using hd
            cases hg : gen (title.getD d.title) slides with
            | none =>
              refine .inr ⟨stop_failed _ _ _ _ _ (by simp), ?_⟩
              rintro ⟨_, _, _, b, h1, h2, h3, _, h5, _⟩
              cases h1; rw [ht] at h2; cases h2; rw [hp] at h3; cases h3; rw [hg] at h5; cases h5
            | some b =>
              rcases writeOut_cases s (wantedDirs out) out b []
                  [c!"✓ Created presentation: " ++ out, c!"  Input: " ++ input, c!"  Title: " ++ title.getD d.title]
                  c!"Error: Failed to write file" (by simp) ⟨_, List.mem_cons_self, List.suffix_append _ _ |>.isInfix⟩ with ⟨h1, h2, h3⟩ | ⟨h1, h2⟩
              · exact .inl ⟨bytes, t, slides, b, rfl, ht, hp, he, hg, hd', h1, h2, h3⟩
              · refine .inr ⟨h2, ?_⟩
                rintro ⟨_, _, _, _, _, _, _, _, _, _, h⟩
                rw [h1] at h; cases h
          · simp only [hd]
            refine .inr ⟨stop_failed _ _ _ _ _ (by simp), ?_⟩
            rintro ⟨_, _, _, _, _, _, _, _, _, h, _⟩
            apply hd
            cases e : parentOf out with
            | none => simp [wantedDirs, e]
            | some dir => simp [wantedDirs, e, h dir e]

/-- **C172.** If the input of `md2ppt` or `html2ppt` cannot be read or has no slides, nothing at all is changed: no directory is made,
and no file is written. -/
theorem C172_untouched {σ : Type} (parse : Str → Except Str (List σ)) (gen : Str → List σ → Option Bytes) (d : Doc) (s : Sys) (input : Str)
    (output : Option Str) (title : Option Str)
    (h : ∀ bytes t slides, s.files input = some bytes → s.text bytes = some t → parse t = .ok slides → slides = []) :
    (convert parse gen d s input output title).made = [] ∧ (convert parse gen d s input output title).files = s.files ∧
    (convert parse gen d s input output title).exit = 1 := by
  unfold convert
  cases hf : s.files input with
  | none => exact ⟨rfl, rfl, rfl⟩
  | some bytes =>
    cases ht : s.text bytes with
    | none => simp only [Option.bind_some, ht]; exact ⟨rfl, rfl, rfl⟩
    | some t =>
      simp only [Option.bind_some, ht]
      cases hp : parse t with
      | error e => exact ⟨rfl, rfl, rfl⟩
      | ok slides =>
        obtain rfl := h bytes t slides hf ht hp
        exact ⟨rfl, rfl, rfl⟩

/-- **C172.** The command `create` either writes the presentation with the title and the number of slides that it prints, or it fails with a
message; it succeeds exactly if the presentation can be made and written. -/
theorem C172_create (gen : Str → Nat → Option Str → Option Bytes) (s : Sys) (output : Str) (title : Option Str) (slides : Nat)
    (template : Option Str) :
    (∃ b, gen (title.getD c!"Presentation") slides template = some b ∧ (∀ dir, parentOf output = some dir → s.makes dir = true) ∧
        s.writes output = true ∧ Spec.Done s (create gen s output title slides template) output b ∧
        (create gen s output title slides template).out =
          [c!"✓ Created presentation: " ++ output, c!"  Title: " ++ title.getD c!"Presentation", c!"  Slides: " ++ dec slides]) ∨
      (Spec.Failed s (create gen s output title slides template) output ∧
        ¬ ∃ b, gen (title.getD c!"Presentation") slides template = some b ∧ (∀ dir, parentOf output = some dir → s.makes dir = true) ∧
          s.writes output = true) := by
  unfold CliRun.create
  by_cases hd : (wantedDirs output).all s.makes
  · simp only [hd, if_true]
    have hd' : ∀ dir, parentOf output = some dir → s.makes dir = true := by
      intro dir e
      simpa [wantedDirs, e] using hd
    cases hg : gen (title.getD c!"Presentation") slides template with
    | none => exact .inr ⟨stop_failed _ _ _ _ _ (by simp), by simp⟩
    | some b =>
      rcases writeOut_cases s (wantedDirs output) output b []
          [c!"✓ Created presentation: " ++ output, c!"  Title: " ++ title.getD c!"Presentation", c!"  Slides: " ++ dec slides]
          c!"Error: Failed to write file" (by simp) ⟨_, List.mem_cons_self, List.suffix_append _ _ |>.isInfix⟩ with ⟨h1, h2, h3⟩ | ⟨h1, h2⟩
      · exact .inl ⟨b, rfl, hd', h1, h2, h3⟩
      · refine .inr ⟨h2, ?_⟩
        rintro ⟨_, _, _, h⟩
        rw [h1] at h; cases h
  · simp only [hd]
    refine .inr ⟨stop_failed _ _ _ _ _ (by simp), ?_⟩
    rintro ⟨_, _, h, _⟩
    apply hd
    cases e : parentOf output with
    | none => simp [wantedDirs, e]
    | some dir => simp [wantedDirs, e, h dir e]

/-- **C172.** The command `pdf2ppt` either writes the presentation made of the PDF, or fails with a message; in both cases it has first
printed what it is going to do. -/
theorem C172_pdf {π : Type} (fromPdf : Str → Option π) (build : π → Option Bytes) (s : Sys) (input : Str) (output : Option Str) :
    ∀ out, out = output.getD (withPptx input) →
      ((∃ p b, fromPdf input = some p ∧ build p = some b ∧ s.writes out = true ∧
          Spec.Done s (pdf2ppt fromPdf build s input output) out b) ∨
        (Spec.Failed s (pdf2ppt fromPdf build s input output) out ∧
          ¬ ∃ p b, fromPdf input = some p ∧ build p = some b ∧ s.writes out = true)) ∧
      (pdf2ppt fromPdf build s input output).out.head? = some (c!"Converting " ++ input ++ c!" to " ++ out ++ c!"...") ∧
      (pdf2ppt fromPdf build s input output).made = [] := by
  intro out ho
  unfold pdf2ppt
  simp only [← ho]
  cases hp : fromPdf input with
  | none => exact ⟨.inr ⟨stop_failed _ _ _ _ _ (by simp), by simp⟩, rfl, rfl⟩
  | some p =>
    cases hb : build p with
    | none => exact ⟨.inr ⟨by simpa [hb] using stop_failed _ _ _ _ _ (by simp), by simp [hb]⟩, by simp [hb, stop], by simp [hb, stop]⟩
    | some b =>
      simp only [hb]
      refine ⟨?_, ?_, ?_⟩
      · rcases writeOut_cases s [] out b [c!"Converting " ++ input ++ c!" to " ++ out ++ c!"..."] [c!"✓ Conversion completed: " ++ out]
            c!"Error saving presentation" (by simp) ⟨_, List.mem_cons_self, List.suffix_append _ _ |>.isInfix⟩ with ⟨h1, h2, _⟩ | ⟨h1, h2⟩
        · exact .inl ⟨p, b, rfl, hb, h1, h2⟩
        · refine .inr ⟨h2, ?_⟩
          rintro ⟨_, _, _, _, h⟩
          rw [h1] at h; cases h
      · unfold writeOut; split <;> rfl
      · unfold writeOut; split <;> rfl

/-- **C172.** The command `web2ppt` either writes what the converter made of the page and prints its size, or fails with a message. -/
theorem C172_web {γ : Type} (fetcher : Bool) (fetch : Str → Option Str) (parse : Str → Str → Option γ)
    (conv : γ → Option Str → Option Bytes) (s : Sys) (url output : Str) (title : Option Str) :
    (∃ page c b, fetch url = some page ∧ parse page url = some c ∧ conv c title = some b ∧
        Spec.Done s (web2ppt fetcher fetch parse conv s url output title) output b ∧
        (web2ppt fetcher fetch parse conv s url output title).out = [c!"✓ Created: " ++ output ++ c!" (" ++ dec b.length ++ c!" bytes)"]) ∨
      Spec.Failed s (web2ppt fetcher fetch parse conv s url output title) output := by
  unfold web2ppt
  cases fetcher
  · exact .inr (stop_failed _ _ _ _ _ (by simp))
  · simp only [if_true]
    cases hf : fetch url with
    | none => exact .inr (stop_failed _ _ _ _ _ (by simp))
    | some page =>
      cases hp : parse page url with
      | none => exact .inr (by simpa [hp] using stop_failed _ _ _ _ _ (by simp))
      | some c =>
        cases hc : conv c title with
        | none => exact .inr (by simpa [hp, hc] using stop_failed _ _ _ _ _ (by simp))
        | some b =>
          simp only [hp, hc]
          rcases writeOut_cases s [] output b [] [c!"✓ Created: " ++ output ++ c!" (" ++ dec b.length ++ c!" bytes)"]
              c!"Failed to save file" (by simp) ⟨_, List.mem_cons_self, ⟨c!"✓ Created: ", c!" (" ++ dec b.length ++ c!" bytes)", by simp⟩⟩ with
            ⟨_, h2, h3⟩ | ⟨_, h2⟩
          · exact .inl ⟨page, c, b, rfl, hp, hc, h2, h3⟩
          · exact .inr h2

/-- **C172.** The tool `markdown_to_pptx` writes the same file as the command `md2ppt` does for the same text, title and output, and answers
with the number of slides; it changes no other file, and fails only if the command fails. -/
theorem C172_tool {σ : Type} (parse : Str → Except Str (List σ)) (gen : Str → List σ → Option Bytes) (s : Sys) (input output t : Str)
    (title : Option Str) (ht : (s.files input).bind s.text = some t) :
    ((convert parse gen .md s input (some output) title).exit = 0 →
      (∃ slides, parse t = .ok slides ∧ (mdTool parse gen s t output title).1 =
        .ok (c!"Converted markdown to presentation with " ++ dec slides.length ++ c!" slide(s) at: " ++ output)) ∧
      (mdTool parse gen s t output title).2 = (convert parse gen .md s input (some output) title).files) ∧
    ∀ p, p ≠ output → (mdTool parse gen s t output title).2 p = s.files p := by
  constructor
  · intro h
    unfold convert at h ⊢
    rw [ht] at h ⊢
    simp only [Option.getD_some] at h ⊢
    unfold mdTool
    cases hp : parse t with
    | error e => rw [hp] at h; cases h
    | ok slides =>
      rw [hp] at h
      simp only at h ⊢
      by_cases he : slides.isEmpty
      · rw [if_pos he] at h; cases h
      · rw [if_neg he] at h ⊢
        rw [if_neg he]
        by_cases hd : (wantedDirs output).all s.makes
        · rw [if_pos hd] at h ⊢
          cases hg : gen (title.getD Doc.md.title) slides with
          | none => rw [hg] at h; cases h
          | some b =>
            rw [hg] at h
            simp only [writeOut] at h ⊢
            by_cases hw : s.writes output = true
            · simp only [hw, if_true]
              exact ⟨⟨slides, rfl, rfl⟩, trivial⟩
            · rw [if_neg hw] at h; cases h
        · rw [if_neg hd] at h; cases h
  · intro p hp
    unfold mdTool
    split
    · rfl
    · split
      · rfl
      · split
        · exact if_neg hp
        · exact if_neg hp

/-- **C172.** An output that is not given ends with `.pptx`, so an input with any other end is never overwritten. -/
theorem C172_default (input : Str) :
    c!".pptx" <:+ defaultOutput input ∧ c!".pptx" <:+ withPptx input ∧
    (¬ c!".pptx" <:+ input → defaultOutput input ≠ input ∧ withPptx input ≠ input) := by
  have h1 : c!".pptx" <:+ defaultOutput input := by
    unfold defaultOutput
    split
    · exact List.suffix_append _ _
    · exact List.suffix_append _ _
  have h2 : c!".pptx" <:+ withPptx input := by
    unfold withPptx
    split
    · exact List.suffix_append _ _
    · exact List.suffix_append _ _
  exact ⟨h1, h2, fun h => ⟨fun e => h (e ▸ h1), fun e => h (e ▸ h2)⟩⟩

/-- **C172 does not hold in full.** If the text is in a file that is called `.pptx`, as in `md2ppt deck.pptx`, the output is the input: the
text is replaced by the presentation, with code 0 and no warning. -/
theorem C172_overwrites_violated {σ : Type} (parse : Str → Except Str (List σ)) (gen : Str → List σ → Option Bytes) (d : Doc) (s : Sys)
    (name : Str) (title : Option Str) (hn : name ≠ []) (hs : '/' ∉ name)
    (h : (convert parse gen d s (name ++ c!".pptx") none title).exit = 0) :
    ∃ t b slides, parse t = .ok slides ∧ gen (title.getD d.title) slides = some b ∧
      (convert parse gen d s (name ++ c!".pptx") none title).files (name ++ c!".pptx") = some b := by
  have e : defaultOutput (name ++ c!".pptx") = name ++ c!".pptx" :=
    (C112_default_output (dir := c!"d") (ext := c!"pptx") hn (by simp [hs]) (by decide) (by decide)).1
  rcases C172_convert parse gen d s (name ++ c!".pptx") none title _ rfl with ⟨_, t, slides, b, _, _, h3, _, h5, _, _, h8, _⟩ | ⟨hf, _⟩
  · rw [Option.getD_none, e] at h8
    exact ⟨t, b, slides, h3, h5, h8.2.2.1⟩
  · rw [hf.1] at h; cases h

/-- **C172 does not hold in full.** A failed `create` leaves the directories of its output behind: they are made before the template is
read. -/
theorem C172_directories_violated (gen : Str → Nat → Option Str → Option Bytes) (s : Sys) (dir name : Str) (title : Option Str)
    (slides : Nat) (template : Option Str) (hd : dir ≠ []) (hn : '/' ∉ name) (hm : s.makes dir = true)
    (hg : gen (title.getD c!"Presentation") slides template = none) :
    (create gen s (dir ++ '/' :: name) title slides template).exit = 1 ∧
    (create gen s (dir ++ '/' :: name) title slides template).made = [dir] := by
  have hp : wantedDirs (dir ++ '/' :: name) = [dir] := by
    simp [wantedDirs, parentOf, rsplitOnceChar?_append hn, hd]
  unfold CliRun.create
  simp [hp, hm, hg, stop]

theorem title_skipped (env : HtmlEnv) (o : HtmlOptions) (t : Str) (es : List HtmlEvent) :
    Html.parseStyled env o (.openTag c!"title" [] :: (textEvents t ++ .closeTag c!"title" :: es)) = Html.parseStyled env o es := by
  unfold Html.parseStyled
  congr 1
  unfold textEvents
  split <;> rfl

/-- **C172 does not hold in full.** The title of an imported page is not the title of the presentation, although the help of `--title` says
that it is overridden and the description of the importer that it is used: a page is imported as if it had no title, whatever the title
is, and the presentation is called `Presentation from HTML`. -/
theorem C172_title_violated (env : HtmlEnv) (o : HtmlOptions) (gen : Str → List Html.StyledSlide → Option Bytes) (s : Sys) (input : Str)
    (output : Option Str) (t h : Str) (ht : '<' ∉ t) (hh : '<' ∉ h) :
    Html.parseHtmlStyled env o (c!"<title>" ++ t ++ c!"</title><h1>" ++ h ++ c!"</h1>") = Html.parseHtmlStyled env o (c!"<h1>" ++ h ++ c!"</h1>") ∧
    ∀ parse : Str → Except Str (List Html.StyledSlide), (convert parse gen .html s input output none).exit = 0 →
      ∃ slides b, gen c!"Presentation from HTML" slides = some b ∧
        (convert parse gen .html s input output none).files (output.getD (defaultOutput input)) = some b := by
  constructor
  · have s1 := (seg_open env (n := c!"title") (t := t) (attrs := []) rfl rfl ht).append (seg_close env (n := c!"title") (t := []) rfl (by simp))
    have s2 := (seg_open env (n := c!"h1") (t := h) (attrs := []) rfl rfl hh).append (seg_close env (n := c!"h1") (t := []) rfl (by simp))
    have e1 := (s1.append s2).tokenize
    have e2 := s2.tokenize
    unfold Html.parseHtmlStyled
    have w1 : c!"<title>" ++ t ++ c!"</title><h1>" ++ h ++ c!"</h1>" = c!"<" ++ c!"title" ++ Spec.writeHtmlAttrs [] ++ c!">" ++ t ++
        (c!"</" ++ c!"title" ++ c!">" ++ []) ++ (c!"<" ++ c!"h1" ++ Spec.writeHtmlAttrs [] ++ c!">" ++ h ++ (c!"</" ++ c!"h1" ++ c!">" ++ [])) := by
      simp [Spec.writeHtmlAttrs]
    have w2 : c!"<h1>" ++ h ++ c!"</h1>" = c!"<" ++ c!"h1" ++ Spec.writeHtmlAttrs [] ++ c!">" ++ h ++ (c!"</" ++ c!"h1" ++ c!">" ++ []) := by
      simp [Spec.writeHtmlAttrs]
    rw [w1, w2, e1, e2]
    have n : textEvents [] = [] := rfl
    simp only [n, List.cons_append, List.append_assoc, List.nil_append]
    exact title_skipped env o t _
  · intro parse hx
    rcases C172_convert parse gen .html s input output none _ rfl with ⟨_, _, slides, b, _, _, _, _, h5, _, _, h8, _⟩ | ⟨hf, _⟩
    · exact ⟨slides, b, h5, h8.2.2.1⟩
    · rw [hf.1] at hx; cases hx

/-- A system with one text file on which everything works. -/
def Spec.oneFile : Sys := ⟨fun p => if p = c!"a.md" then some [35] else none, fun _ => true, fun _ => true, fun _ => none, fun _ => some c!"#"⟩

example : (convert (σ := Str) (fun t => .ok [t]) (fun _ _ => some [80, 75]) .md Spec.oneFile c!"a.md" none none).exit = 0 ∧
    (convert (σ := Str) (fun t => .ok [t]) (fun _ _ => some [80, 75]) .md Spec.oneFile c!"a.md" none none).out.head? =
      some c!"✓ Created presentation: a.pptx" := by decide +kernel
example : (mdTool (σ := Str) (fun t => .ok [t]) (fun _ _ => some [80, 75]) Spec.oneFile c!"#" c!"b" none).1 =
    .ok c!"Converted markdown to presentation with 1 slide(s) at: b" := by decide +kernel
example : (CliRun.create (fun _ _ _ => some [80]) Spec.oneFile c!"x/y.pptx" none 3 none).made = [c!"x"] := by decide +kernel
example : (pdf2ppt (π := Unit) (fun _ => some ()) (fun _ => some [80]) Spec.oneFile c!"d/b.pdf" none).files c!"d/b.pptx" = some [80] := by
  decide +kernel
example : (web2ppt (γ := Unit) true (fun _ => some []) (fun _ _ => some ()) (fun _ _ => some [80]) Spec.oneFile c!"u" c!"o" none).out =
    [c!"✓ Created: o (1 bytes)"] := by decide +kernel

end PptRs.Props
