import Verif.Model.CliSession
import Verif.Props.CliRun
import Verif.Props.CliArgs

/-!
# Sessions of command lines (C175)
-/

namespace PptRs.Props

open PptRs PptRs.CliRun PptRs.CliArgs PptRs.Handlers PptRs.CliSession

variable {σ π γ : Type}

/-- The file a command is to write. -/
def Spec.target : Command → Option Str
  | .create output _ _ _ => some output
  | .md2ppt input output _ => some (output.getD (defaultOutput input))
  | .html2ppt input output _ _ _ _ _ _ => some (output.getD (defaultOutput input))
  | .pdf2ppt input output => some (output.getD (withPptx input))
  | .web2ppt _ output _ _ _ _ _ _ _ _ _ => some output
  | .merge output _ => some output
  | .exportFile _ output _ => some output
  | .info _ | .validate _ _ => none

/-- Does a command draw pictures? They are written by an external program. -/
def Spec.pictures? : Command → Prop
  | .exportFile _ output format => exportFormat format output = .png
  | _ => False

/-- The command that a line is, if it writes at most one file. -/
def Spec.plainLine (args : List Str) : Prop := ∀ c, parseLine args = some c → ¬ Spec.pictures? c

theorem merge_outcome (e : Env σ π γ) (s : Sys) (output : Str) (inputs : List Str) :
    (∃ b, Spec.Done s (CliSession.merge e s output inputs) output b) ∨ Spec.Failed s (CliSession.merge e s output inputs) output := by
  unfold CliSession.merge
  cases inputs with
  | nil => exact .inr (stop_failed _ _ _ _ _ (by simp))
  | cons a l =>
    simp only
    cases open? e s.files a with
    | none => exact .inr (stop_failed _ _ _ _ _ (by simp))
    | some p =>
      simp only
      cases addAll e s.files p l with
      | error b => exact .inr (stop_failed _ _ _ _ _ (by simp))
      | ok p =>
        simp only
        cases e.build p with
        | none => exact .inr (stop_failed _ _ _ _ _ (by simp))
        | some b =>
          rcases writeOut_cases s [] output b [c!"Merging " ++ dec (a :: l).length ++ c!" files into " ++ output ++ c!"..."]
            [c!"✓ Merge completed: " ++ output] c!"Error saving merged file" (by simp) ⟨_, List.mem_singleton_self _, List.suffix_append _ _ |>.isInfix⟩
            with ⟨-, h, -⟩ | ⟨-, h⟩
          · exact .inl ⟨b, h⟩
          · exact .inr h

theorem export_outcome (e : Env σ π γ) (s : Sys) (input output : Str) (format : Option Format) (h : exportFormat format output ≠ .png) :
    (∃ b, Spec.Done s (CliSession.exportFile e s input output format) output b) ∨
      Spec.Failed s (CliSession.exportFile e s input output format) output := by
  unfold CliSession.exportFile
  cases open? e s.files input with
  | none => exact .inr (stop_failed _ _ _ _ _ (by simp))
  | some p =>
    simp only
    split
    · exact .inr (stop_failed _ _ _ _ _ (by simp))
    · rename_i b _
      rcases writeOut_cases s [] output b [c!"Exporting " ++ input ++ c!"..."] [c!"✓ Export completed: " ++ output] c!"Error exporting"
        (by simp) ⟨_, List.mem_singleton_self _, List.suffix_append _ _ |>.isInfix⟩ with ⟨-, h, -⟩ | ⟨-, h⟩
      · exact .inl ⟨b, h⟩
      · exact .inr h

/-- **C175.** A command either writes its output and nothing else and ends with code 0, or ends with code 1 and one message, and leaves all
files as they were if the output can be written. Those without an output change nothing. -/
theorem C175_command (e : Env σ π γ) (s : Sys) (c : Command) (hc : ¬ Spec.pictures? c) :
    (∀ o, Spec.target c = some o → (∃ b, Spec.Done s (runCommand e s c) o b) ∨ Spec.Failed s (runCommand e s c) o) ∧
      (Spec.target c = none → (runCommand e s c).files = s.files) := by
  refine ⟨?_, ?_⟩
  · intro o ho
    cases c with
    | create output title slides template =>
      simp only [Spec.target, Option.some.injEq] at ho
      subst ho
      rcases C172_create (e.blank s.files) s output title slides template with ⟨b, -, -, -, h, -⟩ | ⟨h, -⟩
      · exact .inl ⟨b, h⟩
      · exact .inr h
    | md2ppt input output title =>
      simp only [Spec.target, Option.some.injEq] at ho
      rcases C172_convert (e.md s.files) e.deck .md s input output title o ho.symm with ⟨-, -, -, b, -, -, -, -, -, -, -, h, -⟩ | ⟨h, -⟩
      · exact .inl ⟨b, h⟩
      · exact .inr h
    | html2ppt input output title n m a b' c' =>
      simp only [Spec.target, Option.some.injEq] at ho
      rcases C172_convert (e.html ⟨n, m, !c', !b', !a⟩ s.files) e.deck .html s input output title o ho.symm with
        ⟨-, -, -, b, -, -, -, -, -, -, -, h, -⟩ | ⟨h, -⟩
      · exact .inl ⟨b, h⟩
      · exact .inr h
    | pdf2ppt input output =>
      simp only [Spec.target, Option.some.injEq] at ho
      rcases (C172_pdf (e.fromPdf s.files) e.build s input output o ho.symm).1 with ⟨-, b, -, -, -, h⟩ | ⟨h, -⟩
      · exact .inl ⟨b, h⟩
      · exact .inr h
    | web2ppt url output title n m a b' c' d t v =>
      simp only [Spec.target, Option.some.injEq] at ho
      subst ho
      simp only [runCommand]
      cases (Command.web2ppt url output title n m a b' c' d t v).webOptions with
      | none => exact .inr (stop_failed _ _ _ _ _ (by simp))
      | some x =>
      obtain ⟨cfg, opt⟩ := x
      simp only
      rcases C172_web (e.fetcher cfg) (e.fetch cfg) (e.page cfg) (fun p t => e.convert cfg { opt with title := t } p) s url output opt.title with
        ⟨-, -, b, -, -, -, h, -⟩ | h
      · exact .inl ⟨b, h⟩
      · exact .inr h
    | merge output inputs =>
      simp only [Spec.target, Option.some.injEq] at ho
      subst ho
      exact merge_outcome e s output inputs
    | exportFile input output format =>
      simp only [Spec.target, Option.some.injEq] at ho
      subst ho
      exact export_outcome e s input output format hc
    | info f => simp [Spec.target] at ho
    | validate f j => simp [Spec.target] at ho
  · intro ht
    cases c <;> first | rfl | simp [Spec.target] at ht

/-- **C175.** A command line that is refused changes nothing. -/
theorem C175_refused (e : Env σ π γ) (s : Sys) (args : List Str) (h : parseLine args = none) : (runLine e s args).files = s.files := by
  simp only [runLine, h]

/-- A file is the output of none of these lines. -/
def Spec.spared (p : Str) (args : List Str) : Prop := ∀ c o, parseLine args = some c → Spec.target c = some o → p ≠ o

theorem line_frame (e : Env σ π γ) (s : Sys) (args : List Str) (hl : Spec.plainLine args) (p : Str) (hp : Spec.spared p args) :
    (runLine e s args).files p = s.files p := by
  unfold runLine
  cases hc : parseLine args with
  | none => rfl
  | some c =>
    obtain ⟨h1, h2⟩ := C175_command e s c (hl c hc)
    cases ht : Spec.target c with
    | none => exact congrFun (h2 ht) p
    | some o =>
      rcases h1 o ht with ⟨b, h⟩ | h
      · exact h.2.2.2.1 p (hp c o hc ht)
      · exact h.2.2.1 p (hp c o hc ht)

/-- **C175.** However many command lines are run one after another, whatever the system does and whether they fail or not: a file that is the
output of none of them is as before. -/
theorem C175_session (e : Env σ π γ) (p : Str) (l : List (Sys × List Str)) : ∀ (files : Files), (∀ x ∈ l, Spec.plainLine x.2) →
    (∀ x ∈ l, Spec.spared p x.2) → session e files l p = files p := by
  induction l with
  | nil => intro files _ _; rfl
  | cons x l ih =>
    intro files hl hp
    obtain ⟨s, args⟩ := x
    rw [session, ih _ (fun y hy => hl y (List.mem_cons_of_mem _ hy)) fun y hy => hp y (List.mem_cons_of_mem _ hy)]
    exact line_frame e { s with files } args (hl _ List.mem_cons_self) p (hp _ List.mem_cons_self)

theorem session_append (e : Env σ π γ) (l m : List (Sys × List Str)) : ∀ files, session e files (l ++ m) = session e (session e files l) m := by
  induction l with
  | nil => intro files; rfl
  | cons x l ih => intro files; exact ih _

/-- **C175.** What the last successful run with an output wrote is in it at the end of the session, whatever came before and after. -/
theorem C175_last (e : Env σ π γ) (before after : List (Sys × List Str)) (s : Sys) (args : List Str) (files : Files) (c : Command) (o : Str)
    (hc : parseLine args = some c) (hp : ¬ Spec.pictures? c) (ht : Spec.target c = some o) (ha : ∀ x ∈ after, Spec.plainLine x.2)
    (hs : ∀ x ∈ after, Spec.spared o x.2) (hx : (runLine e { s with files := session e files before } args).exit = 0) :
    ∃ b, Spec.Done { s with files := session e files before } (runLine e { s with files := session e files before } args) o b ∧
      session e files (before ++ (s, args) :: after) o = some b := by
  have hr : runLine e { s with files := session e files before } args = runCommand e { s with files := session e files before } c := by
    simp only [runLine, hc]
  rcases (C175_command e { s with files := session e files before } c hp).1 o ht with ⟨b, h⟩ | h
  · refine ⟨b, by rw [hr]; exact h, ?_⟩
    rw [session_append, session, C175_session e o after _ ha hs, hr]
    exact h.2.2.1
  · rw [hr, h.1] at hx
    cases hx

/-- **C175.** A run that fails leaves all files as they were, if its output can be written. -/
theorem C175_failed (e : Env σ π γ) (s : Sys) (args : List Str) (hl : Spec.plainLine args) (hx : (runLine e s args).exit ≠ 0)
    (hw : ∀ c o, parseLine args = some c → Spec.target c = some o → s.writes o = true) : (runLine e s args).files = s.files := by
  cases hc : parseLine args with
  | none => exact C175_refused e s args hc
  | some c =>
    have hr : runLine e s args = runCommand e s c := by simp only [runLine, hc]
    rw [hr] at hx ⊢
    obtain ⟨h1, h2⟩ := C175_command e s c (hl c hc)
    cases ht : Spec.target c with
    | none => exact h2 ht
    | some o =>
      rcases h1 o ht with ⟨b, h⟩ | h
      · exact absurd h.1 hx
      · funext p
        by_cases hp : p = o
        · subst hp
          exact h.2.2.2 (hw c p hc ht)
        · exact h.2.2.1 p hp

/-- **C175.** From a command line to the file: `md2ppt` with its arguments and options in any order, under each of its names, writes the
presentation of the Markdown text of the input, with the title given or else its own. -/
theorem C175_md (e : Env σ π γ) (s : Sys) (name : Str) (hs : name ∈ [c!"md2ppt", c!"from-md", c!"from-markdown"]) (ps : List Spec.Piece)
    (input : Str) (output : Option Str) (hp : ∀ p ∈ ps, p.allowed Sub.md2ppt.options)
    (hn : ((ps.filterMap Spec.Piece.opt?).map (·.1)).Nodup) (ha : ps.filterMap Spec.Piece.arg? = input :: output.toList)
    (hx : (runLine e s (name :: ps.flatMap Spec.Piece.write)).exit = 0) :
    ∃ bytes t slides b title, s.files input = some bytes ∧ s.text bytes = some t ∧ e.md s.files t = .ok slides ∧ slides ≠ [] ∧
      Spec.Text (ps.filterMap Spec.Piece.opt?) c!"title" title ∧ e.deck (title.getD c!"Presentation from Markdown") slides = some b ∧
      (runLine e s (name :: ps.flatMap Spec.Piece.write)).files (output.getD (defaultOutput input)) = some b := by
  obtain ⟨title, h1, h2⟩ := C174_md2ppt name hs ps input output hp hn ha
  have hr : runLine e s (name :: ps.flatMap Spec.Piece.write) = CliRun.convert (e.md s.files) e.deck .md s input output title := by
    simp only [runLine, h1, runCommand]
  rw [hr] at hx ⊢
  rcases C172_convert (e.md s.files) e.deck .md s input output title _ rfl with ⟨bytes, t, slides, b, a1, a2, a3, a4, a5, -, -, a8, -⟩ | ⟨h, -⟩
  · exact ⟨bytes, t, slides, b, title, a1, a2, a3, a4, h2, a5, a8.2.2.1⟩
  · rw [h.1] at hx
    cases hx

/-- **C175.** From a command line to the file: `html2ppt`, with what its options say reaching the importer. -/
theorem C175_html (e : Env σ π γ) (s : Sys) (name : Str) (hs : name ∈ [c!"html2ppt", c!"from-html", c!"from-html-file"])
    (ps : List Spec.Piece) (input : Str) (output : Option Str) (hp : ∀ p ∈ ps, p.allowed Sub.html2ppt.options)
    (hn : ((ps.filterMap Spec.Piece.opt?).map (·.1)).Nodup) (ha : ps.filterMap Spec.Piece.arg? = input :: output.toList)
    (hx : (runLine e s (name :: ps.flatMap Spec.Piece.write)).exit = 0) :
    ∃ bytes t slides b title, ∃ o : HtmlOptions, s.files input = some bytes ∧ s.text bytes = some t ∧ e.html o s.files t = .ok slides ∧
      slides ≠ [] ∧ Spec.Number (ps.filterMap Spec.Piece.opt?) c!"max-slides" 50 o.maxSlides ∧
      Spec.Number (ps.filterMap Spec.Piece.opt?) c!"max-bullets" 10 o.maxBullets ∧
      Spec.Flag (ps.filterMap Spec.Piece.opt?) c!"no-images" (!o.includeImages) ∧
      Spec.Flag (ps.filterMap Spec.Piece.opt?) c!"no-tables" (!o.includeTables) ∧
      Spec.Flag (ps.filterMap Spec.Piece.opt?) c!"no-code" (!o.includeCode) ∧
      Spec.Text (ps.filterMap Spec.Piece.opt?) c!"title" title ∧ e.deck (title.getD c!"Presentation from HTML") slides = some b ∧
      (runLine e s (name :: ps.flatMap Spec.Piece.write)).files (output.getD (defaultOutput input)) = some b := by
  obtain ⟨title, n, m, a, b', c', h1, h2, o, h3, h4, h5, h6, h7, h8⟩ := C174_html2ppt name hs ps input output hp hn ha
  simp only [Command.htmlOptions, Option.some.injEq] at h3
  have hr : runLine e s (name :: ps.flatMap Spec.Piece.write) = CliRun.convert (e.html o s.files) e.deck .html s input output title := by
    simp only [runLine, h1, runCommand, h3]
  rw [hr] at hx ⊢
  rcases C172_convert (e.html o s.files) e.deck .html s input output title _ rfl with ⟨bytes, t, slides, b, a1, a2, a3, a4, a5, -, -, a8, -⟩ | ⟨h, -⟩
  · exact ⟨bytes, t, slides, b, title, o, a1, a2, a3, a4, h4, h5, h6, h7, h8, h2, a5, a8.2.2.1⟩
  · rw [h.1] at hx
    cases hx

theorem addAll_ok (e : Env σ π γ) (files : Files) (l : List Str) : ∀ (p q : π), addAll e files p l = .ok q →
    ∃ ps, List.Forall₂ (fun a r => open? e files a = some r) l ps ∧ q = ps.foldl e.add p := by
  induction l with
  | nil =>
    intro p q h
    simp only [addAll, Except.ok.injEq] at h
    exact ⟨[], .nil, h.symm⟩
  | cons a l ih =>
    intro p q h
    rw [addAll] at h
    cases ho : open? e files a with
    | none => rw [ho] at h; cases h
    | some r =>
      rw [ho] at h
      obtain ⟨ps, h1, h2⟩ := ih _ _ h
      exact ⟨r :: ps, .cons ho h1, h2⟩

/-- **C175.** From a command line to the file: `merge` writes the presentations of its inputs, one after another. -/
theorem C175_merge (e : Env σ π γ) (s : Sys) (ps : List Spec.Piece) (a : Str) (l : List Str) (output : Str)
    (hp : ∀ p ∈ ps, p.allowed Sub.merge.options) (hn : ((ps.filterMap Spec.Piece.opt?).map (·.1)).Nodup)
    (ha : ps.filterMap Spec.Piece.arg? = a :: l) (ho : (c!"output", some output) ∈ ps.filterMap Spec.Piece.opt?)
    (hx : (runLine e s (c!"merge" :: ps.flatMap Spec.Piece.write)).exit = 0) :
    ∃ p qs b, open? e s.files a = some p ∧ List.Forall₂ (fun x r => open? e s.files x = some r) l qs ∧ e.build (qs.foldl e.add p) = some b ∧
      (runLine e s (c!"merge" :: ps.flatMap Spec.Piece.write)).files output = some b := by
  have h1 := (C174_others .merge ps hp hn).2.2.2.1 (a :: l) output rfl ha (by simp) ho
  have hr : runLine e s (c!"merge" :: ps.flatMap Spec.Piece.write) = CliSession.merge e s output (a :: l) := by
    simp only [runLine, h1, runCommand]
  rw [hr] at hx ⊢
  unfold CliSession.merge at hx ⊢
  simp only at hx ⊢
  cases h2 : open? e s.files a with
  | none => rw [h2] at hx; cases hx
  | some p =>
    rw [h2] at hx
    simp only at hx ⊢
    cases h3 : addAll e s.files p l with
    | error b => rw [h3] at hx; cases hx
    | ok q =>
      rw [h3] at hx
      simp only at hx ⊢
      obtain ⟨qs, h4, rfl⟩ := addAll_ok e s.files l p q h3
      cases h5 : e.build (qs.foldl e.add p) with
      | none => rw [h5] at hx; cases hx
      | some b =>
        rw [h5] at hx
        simp only at hx ⊢
        refine ⟨p, qs, b, rfl, h4, h5, ?_⟩
        unfold writeOut at hx ⊢
        by_cases hw : s.writes output = true
        · rw [if_pos hw]
          exact if_pos rfl
        · rw [if_neg hw] at hx
          cases hx

/-- **C175.** From a command line to the file: `create`. -/
theorem C175_create (e : Env σ π γ) (s : Sys) (ps : List Spec.Piece) (output : Str) (hp : ∀ p ∈ ps, p.allowed Sub.create.options)
    (hn : ((ps.filterMap Spec.Piece.opt?).map (·.1)).Nodup) (ha : ps.filterMap Spec.Piece.arg? = [output])
    (hx : (runLine e s (c!"create" :: ps.flatMap Spec.Piece.write)).exit = 0) :
    ∃ title slides template b, Spec.Text (ps.filterMap Spec.Piece.opt?) c!"title" title ∧
      Spec.Number (ps.filterMap Spec.Piece.opt?) c!"slides" 1 slides ∧ Spec.Text (ps.filterMap Spec.Piece.opt?) c!"template" template ∧
      e.blank s.files (title.getD c!"Presentation") slides template = some b ∧
      (runLine e s (c!"create" :: ps.flatMap Spec.Piece.write)).files output = some b := by
  obtain ⟨title, slides, template, h1, h2, h3, h4⟩ := C174_create ps output hp hn ha
  have hr : runLine e s (c!"create" :: ps.flatMap Spec.Piece.write) = CliRun.create (e.blank s.files) s output title slides template := by
    simp only [runLine, h1, runCommand]
  rw [hr] at hx ⊢
  rcases C172_create (e.blank s.files) s output title slides template with ⟨b, a1, -, -, a2, -⟩ | ⟨h, -⟩
  · exact ⟨title, slides, template, b, h2, h3, h4, a1, a2.2.2.1⟩
  · rw [h.1] at hx
    cases hx

/-- **C175.** From a command line to the file: `web2ppt`, with what its options say reaching every step. -/
theorem C175_web (e : Env σ π γ) (s : Sys) (ps : List Spec.Piece) (url : Str) (hp : ∀ p ∈ ps, p.allowed Sub.web2ppt.options)
    (hn : ((ps.filterMap Spec.Piece.opt?).map (·.1)).Nodup) (ha : ps.filterMap Spec.Piece.arg? = [url])
    (hx : (runLine e s (c!"web2ppt" :: ps.flatMap Spec.Piece.write)).exit = 0) :
    ∃ output cfg opt text page b, (∀ o, (c!"output", some o) ∈ ps.filterMap Spec.Piece.opt? → output = o) ∧
      ((∀ o, (c!"output", o) ∉ ps.filterMap Spec.Piece.opt?) → output = c!"output.pptx") ∧
      Spec.Text (ps.filterMap Spec.Piece.opt?) c!"title" opt.title ∧
      Spec.Number (ps.filterMap Spec.Piece.opt?) c!"max-slides" 20 cfg.maxSlides ∧
      Spec.Number (ps.filterMap Spec.Piece.opt?) c!"max-bullets" 7 cfg.maxBullets ∧
      Spec.Number (ps.filterMap Spec.Piece.opt?) c!"timeout" 30 cfg.timeout ∧
      Spec.Flag (ps.filterMap Spec.Piece.opt?) c!"no-images" (!cfg.images) ∧ Spec.Flag (ps.filterMap Spec.Piece.opt?) c!"no-tables" (!cfg.tables) ∧
      Spec.Flag (ps.filterMap Spec.Piece.opt?) c!"no-code" (!cfg.code) ∧ Spec.Flag (ps.filterMap Spec.Piece.opt?) c!"no-source-url" (!opt.source) ∧
      e.fetch cfg url = some text ∧ e.page cfg text url = some page ∧ e.convert cfg opt page = some b ∧
      (runLine e s (c!"web2ppt" :: ps.flatMap Spec.Piece.write)).files output = some b := by
  obtain ⟨output, title, n, m, a, b', c', d, t, v, h1, h2, h3, ⟨cfg, opt⟩, h4, h5, h6, h7, h8, h9, h10, h11, h12, -⟩ := C174_web2ppt ps url hp hn ha
  have hr : runLine e s (c!"web2ppt" :: ps.flatMap Spec.Piece.write) = CliRun.web2ppt (e.fetcher cfg) (e.fetch cfg) (e.page cfg)
      (fun p t => e.convert cfg { opt with title := t } p) s url output opt.title := by
    simp only [runLine, h1, runCommand, h4]
  rw [hr] at hx ⊢
  rcases C172_web (e.fetcher cfg) (e.fetch cfg) (e.page cfg) (fun p t => e.convert cfg { opt with title := t } p) s url output opt.title with
    ⟨text, page, b, a1, a2, a3, a4, -⟩ | h
  · exact ⟨output, cfg, opt, text, page, b, h2, h3, h5, h6, h7, h8, h9, h10, h11, h12, a1, a2, a3, a4.2.2.1⟩
  · rw [h.1] at hx
    cases hx

/-- **C175.** From a command line to the file: `pdf2ppt`. -/
theorem C175_pdf (e : Env σ π γ) (s : Sys) (ps : List Spec.Piece) (input : Str) (output : Option Str)
    (hp : ∀ p ∈ ps, p.allowed Sub.pdf2ppt.options) (hn : ((ps.filterMap Spec.Piece.opt?).map (·.1)).Nodup)
    (ha : ps.filterMap Spec.Piece.arg? = input :: output.toList) (hx : (runLine e s (c!"pdf2ppt" :: ps.flatMap Spec.Piece.write)).exit = 0) :
    ∃ p b, e.fromPdf s.files input = some p ∧ e.build p = some b ∧
      (runLine e s (c!"pdf2ppt" :: ps.flatMap Spec.Piece.write)).files (output.getD (withPptx input)) = some b := by
  have h1 := (C174_others .pdf2ppt ps hp hn).2.2.2.2 input output rfl ha
  have hr : runLine e s (c!"pdf2ppt" :: ps.flatMap Spec.Piece.write) = CliRun.pdf2ppt (e.fromPdf s.files) e.build s input output := by
    simp only [runLine, h1, runCommand]
  rw [hr] at hx ⊢
  rcases (C172_pdf (e.fromPdf s.files) e.build s input output _ rfl).1 with ⟨p, b, a1, a2, -, a3⟩ | ⟨h, -⟩
  · exact ⟨p, b, a1, a2, a3.2.2.1⟩
  · rw [h.1] at hx
    cases hx

/-- **C175.** From a command line to the file: `export`, in the format given or else that of the name, but for pictures. -/
theorem C175_export (e : Env σ π γ) (s : Sys) (ps : List Spec.Piece) (input output : Str) (hp : ∀ p ∈ ps, p.allowed Sub.exportFile.options)
    (hn : ((ps.filterMap Spec.Piece.opt?).map (·.1)).Nodup) (ha : ps.filterMap Spec.Piece.arg? = [input, output])
    (hx : (runLine e s (c!"export" :: ps.flatMap Spec.Piece.write)).exit = 0) :
    ∃ format, Spec.Text (ps.filterMap Spec.Piece.opt?) c!"format" format ∧ (exportFormat (format.bind formatNamed) output ≠ .png →
      ∃ p b, open? e s.files input = some p ∧ e.render (exportFormat (format.bind formatNamed) output) p = some b ∧
        (runLine e s (c!"export" :: ps.flatMap Spec.Piece.write)).files output = some b) := by
  obtain ⟨format, h1, h2⟩ := (C174_others .exportFile ps hp hn).2.2.1 input output rfl ha
  refine ⟨format, h2, fun hf => ?_⟩
  have hr : runLine e s (c!"export" :: ps.flatMap Spec.Piece.write) = CliSession.exportFile e s input output (format.bind formatNamed) := by
    simp only [runLine, h1, runCommand]
  rw [hr] at hx ⊢
  unfold CliSession.exportFile at hx ⊢
  cases ho : open? e s.files input with
  | none => rw [ho] at hx; cases hx
  | some p =>
    rw [ho] at hx
    simp only [hf] at hx ⊢
    cases hb : e.render (exportFormat (format.bind formatNamed) output) p with
    | none => rw [hb] at hx; cases hx
    | some b =>
      rw [hb] at hx
      refine ⟨p, b, rfl, hb, ?_⟩
      simp only at hx ⊢
      unfold writeOut at hx ⊢
      by_cases hw : s.writes output = true
      · rw [if_pos hw]
        exact if_pos rfl
      · rw [if_neg hw] at hx
        cases hx

/-- **C175 does not hold in full.** A run that cannot write its output to the end destroys what was there: the file holds whatever the system
leaves of it, and the old presentation is lost. Nothing is written under another name first. -/
theorem C175_replace_violated (e : Env σ π γ) (s : Sys) (output : Str) (left b : Bytes) (ho : output.head? ≠ some '-')
    (hd : ∀ dir, parentOf output = some dir → s.makes dir = true) (hg : e.blank s.files c!"Presentation" 1 none = some b)
    (hw : s.writes output = false) (hb : s.broken output = some left) :
    (runLine e s [c!"create", output]).exit = 1 ∧ (runLine e s [c!"create", output]).files output = some left := by
  have h1 := line_built .create c!"create" (by decide +kernel) [.arg output] (by simpa [Spec.Piece.allowed] using ho) List.nodup_nil
  have hr : runLine e s [c!"create", output] = CliRun.create (e.blank s.files) s output none 1 none := by
    have h2 : parseLine [c!"create", output] = some (.create output none 1 none) := h1
    simp only [runLine, h2, runCommand]
  rw [hr]
  have hall : (wantedDirs output).all s.makes = true := by
    unfold wantedDirs
    cases hp : parentOf output with
    | none => rfl
    | some dir => simpa using hd dir hp
  unfold CliRun.create
  simp only [hall, if_true, Option.getD_none, hg, writeOut, hw, Bool.false_eq_true, if_false, stop, put]
  exact ⟨trivial, hb⟩

/-! ### Examples -/

/-- A tool whose files are the letters of titles and slides. -/
def exampleTool : Env Str Bytes Str where
  clap _ := (2, [], [c!"usage"])
  blank _ _ n _ := some [n.toUInt8]
  md _ t := .ok [t]
  html _ _ t := .ok [t]
  deck _ l := some [l.length.toUInt8]
  load b := some b
  add a b := a ++ b
  build b := some b
  fromPdf _ _ := none
  render _ b := some b
  png s _ _ := ⟨0, [], [], [], s.files⟩
  report _ _ := (0, [], [])
  fetcher _ := true
  fetch _ _ := none
  page _ _ _ := none
  convert _ _ _ := none

/-- A system in which everything works. -/
def exampleSystem : Sys where
  files _ := none
  makes _ := true
  writes _ := true
  broken _ := none
  text _ := some c!"text"

example : session exampleTool (fun _ => none)
    [(exampleSystem, [c!"create", c!"a.pptx", c!"--slides", c!"3"]), (exampleSystem, [c!"create", c!"b.pptx"]),
     (exampleSystem, [c!"create", c!"--oops"]), (exampleSystem, [c!"merge", c!"b.pptx", c!"a.pptx", c!"--output=c.pptx"])] c!"c.pptx" =
    some [1, 3] := by decide +kernel

example : (runLine exampleTool exampleSystem [c!"merge", c!"x.pptx", c!"-o", c!"y.pptx"]).exit = 1 := by decide +kernel

example : (runLine exampleTool { exampleSystem with files := fun _ => some [] } [c!"md2ppt", c!"a.md"]).files c!"a.pptx" = some [1] := by
  decide +kernel

end PptRs.Props
