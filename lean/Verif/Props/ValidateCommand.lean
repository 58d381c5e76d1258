import Verif.Model.ValidateCommand
import Verif.Props.ReportJson

/-!
# C164: the validation command
-/

namespace PptRs.Props

open PptRs PptRs.Spec PptRs.Validate PptRs.ReportJson PptRs.ValidateCommand

/-- **C164.** The exit code is 0 exactly if the file could be read and has no error, in both forms of the output. -/
theorem C164_exit (file : Str) (json : Bool) (r : Except Str (List FullIssue)) :
    ((run file json r).code = 0 ↔ ∃ l, r = .ok l ∧ ∀ i ∈ l, i.error = false) ∧ ((run file json r).code = 0 ∨ (run file json r).code = 1) := by
  cases r with
  | error e => exact ⟨⟨fun h => (by cases h), fun ⟨_, h, _⟩ => (by cases h)⟩, .inr rfl⟩
  | ok l =>
    cases h : isValid l
    · have e : (run file json (.ok l)).code = 1 := by simp [run, execute, h]
      refine ⟨⟨fun h0 => (by rw [e] at h0; cases h0), ?_⟩, .inr e⟩
      rintro ⟨l', hl, hv⟩
      cases hl
      have : isValid l = true := by simpa [isValid] using hv
      rw [this] at h
      cases h
    · have e : (run file json (.ok l)).code = 0 := by simp [run, execute, h]
      refine ⟨⟨fun _ => ⟨l, rfl, ?_⟩, fun _ => e⟩, .inl e⟩
      simpa [isValid] using h

/-- **C164.** For a file that can be read the output is the JSON document of the report and nothing else, if JSON was asked for, and the value of
`valid` in it agrees with the exit code. -/
theorem C164_json (file : Str) (l : List FullIssue) :
    jsonDocument (run file true (.ok l)).out = some (reportValue file l) ∧ (run file true (.ok l)).err = [] := by
  have e : (run file true (.ok l)).out = reportJson file l := by
    simp only [run, execute, if_true]
    cases isValid l <;> simp
  rw [e]
  refine ⟨C113_json file l, ?_⟩
  simp only [run, execute, if_true]
  cases isValid l <;> simp

/-- **C164 does not hold in full.** If the file cannot be read, `pptcli validate --json` prints nothing, neither a document nor a message: a program
that reads the output has no JSON to read, and nobody learns the reason. -/
theorem C164_unreadable_violated (file reason : Str) :
    run file true (.error reason) = ⟨[], [], 1⟩ ∧ jsonDocument (run file true (.error reason)).out = none ∧
      (run file false (.error reason)).err = c!"✗ Error: Failed to read file: " ++ reason ++ c!"\n" := by
  refine ⟨rfl, by krfl, ?_⟩
  simp [run, execute]

/-! ### The text for people -/

/-- The first line, and what follows it. -/
def cutLine (s : Str) : Str × Str := (s.takeWhile (· ≠ '\n'), (s.dropWhile (· ≠ '\n')).drop 1)

/-- A severity at the beginning of a line. -/
def severityOf (s : Str) : Option (Bool × Str) :=
  if c!"[ERROR] " <+: s then some (true, s.drop 8) else if c!"[WARNING] " <+: s then some (false, s.drop 10) else none

/-- The issues as a person reads them, line by line: severity, category, path, message. -/
def readIssueLines : Nat → Str → List (Bool × Str × Str × Str)
  | 0, _ => []
  | n + 1, s =>
    match severityOf (cutLine s).1 with
    | none => []
    | some (e, rest) =>
      (e, rest.takeWhile (· ≠ ' '), (rest.dropWhile (· ≠ ' ')).drop 2, (cutLine (cutLine s).2).1.drop 2)
        :: readIssueLines n (cutLine (cutLine s).2).2

theorem cutLine_append {a b : Str} (h : '\n' ∉ a) : cutLine (a ++ '\n' :: b) = (a, b) := by
  have h' : ∀ x ∈ a, decide (x ≠ '\n') = true := fun x hx => by
    rw [decide_eq_true_eq]
    rintro rfl
    exact h hx
  unfold cutLine
  rw [List.takeWhile_append_of_pos h', List.dropWhile_append_of_pos h']
  simp

theorem categoryName_plain (c : Category) : '\n' ∉ categoryName c ∧ ∀ x ∈ categoryName c, decide (x ≠ ' ') = true := by
  cases c <;> decide

/-- Names and messages of one line. -/
def FullIssue.OneLine (i : FullIssue) : Prop := '\n' ∉ i.path.getD [] ∧ '\n' ∉ i.message

theorem readIssueLines_append {l : List FullIssue} (h : ∀ i ∈ l, FullIssue.OneLine i) {t : Str} (ht : severityOf (cutLine t).1 = none) {n : Nat}
    (hn : l.length < n) :
    readIssueLines n (l.flatMap issueLines ++ t) = l.map fun i => (i.error, categoryName i.category, i.path.getD c!"-", i.message) := by
  induction l generalizing n with
  | nil =>
    obtain ⟨n, rfl⟩ : ∃ m, n = m + 1 := ⟨n - 1, by simp at hn; omega⟩
    simp only [List.flatMap_nil, List.nil_append, readIssueLines, ht, List.map_nil]
  | cons i l ih =>
    obtain ⟨n, rfl⟩ : ∃ m, n = m + 1 := ⟨n - 1, by simp at hn; omega⟩
    have hi := h i (by simp)
    have hp : '\n' ∉ i.path.getD c!"-" := by
      obtain ⟨h1, _⟩ := hi
      cases hpp : i.path with
      | none => decide
      | some p => rw [hpp] at h1; exact h1
    have hc := categoryName_plain i.category
    let head : Str := (if i.error then c!"[ERROR] " else c!"[WARNING] ") ++ (categoryName i.category ++ c!"  " ++ i.path.getD c!"-")
    have hh : '\n' ∉ head := by
      simp only [head, List.mem_append, not_or]
      refine ⟨by cases i.error <;> decide, ⟨hc.1, by decide⟩, hp⟩
    have hm : '\n' ∉ c!"  " ++ i.message := by
      simp only [List.mem_append, not_or]
      exact ⟨by decide, hi.2⟩
    have e : (i :: l).flatMap issueLines ++ t = head ++ '\n' :: ((c!"  " ++ i.message) ++ '\n' :: (l.flatMap issueLines ++ t)) := by
      simp only [List.flatMap_cons, issueLines, head]
      cases i.error <;> simp
    have hsev : severityOf head = some (i.error, categoryName i.category ++ c!"  " ++ i.path.getD c!"-") := by
      simp only [head, severityOf]
      cases i.error <;> simp
    rw [e, readIssueLines, cutLine_append hh]
    simp only [hsev, cutLine_append hm]
    rw [ih (fun j hj => h j (by simp [hj])) (by simp at hn; omega)]
    have e1 : (categoryName i.category ++ c!"  " ++ i.path.getD c!"-").takeWhile (· ≠ ' ') = categoryName i.category := by
      rw [List.append_assoc, List.takeWhile_append_of_pos hc.2]
      simp
    have e2 : ((categoryName i.category ++ c!"  " ++ i.path.getD c!"-").dropWhile (· ≠ ' ')).drop 2 = i.path.getD c!"-" := by
      rw [List.append_assoc, List.dropWhile_append_of_pos hc.2]
      simp
    rw [e1, e2]
    simp

/-- **C164.** The text for people names the file and the numbers of errors and warnings and then every issue in order, with its severity, its
category, its path and its message. Names and messages are assumed to have one line each. -/
theorem C164_issues_partial {file : Str} {l : List FullIssue} (h : ∀ i ∈ l, FullIssue.OneLine i) (hl : l ≠ []) :
    ∃ a b : Str, ∃ rest, (run file false (.ok l)).out = (c!"Validating PPTX file: " ++ file) ++ '\n' :: (a ++ '\n' :: (b ++ '\n' :: '\n' :: rest)) ∧
      '\n' ∉ a ∧ b = c!"Summary: " ++ dec (l.countP (·.error)) ++ c!" error(s), " ++ dec (l.countP fun i => !i.error) ++ c!" warning(s)" ∧
      readIssueLines rest.length rest = l.map fun i => (i.error, categoryName i.category, i.path.getD c!"-", i.message) := by
  have key : ∃ t : Str, severityOf (cutLine t).1 = none ∧ t ≠ [] ∧
      (run file false (.ok l)).out = humanHead file l ++ c!"\n" ++ (l.flatMap issueLines ++ t) := by
    cases hv : isValid l
    · exact ⟨c!"\n✗ Validation FAILED\n", by decide, by decide, by simp [run, execute, humanReport, hl, hv]⟩
    · exact ⟨c!"\n✓ Validation PASSED (warnings only)\n\n✓ Validation completed successfully\n", by decide, by decide,
        by simp [run, execute, humanReport, hl, hv]⟩
  obtain ⟨t, ht, ht0, e⟩ := key
  refine ⟨List.replicate 60 '=', _, l.flatMap issueLines ++ t, ?_, by decide, rfl, ?_⟩
  · rw [e]
    simp only [humanHead, errorCount, warningCount, List.countP_eq_length_filter]
    simp
  · apply readIssueLines_append h ht
    have : l.length ≤ (l.flatMap issueLines).length := by
      clear e hl h
      induction l with
      | nil => simp
      | cons i l ih =>
        have : 1 ≤ (issueLines i).length := by simp [issueLines]
        simp only [List.flatMap_cons, List.length_append, List.length_cons]
        omega
    have : 0 < t.length := List.length_pos_iff.mpr ht0
    simp only [List.length_append]
    omega

/-- **C164.** The last line of the output agrees with the exit code, whatever the messages say. -/
theorem C164_verdict (file : Str) (l : List FullIssue) :
    ((run file false (.ok l)).code = 0 → c!"\n✓ Validation completed successfully\n" <:+ (run file false (.ok l)).out ∧ (run file false (.ok l)).err = []) ∧
    ((run file false (.ok l)).code = 1 → c!"\n✗ Validation FAILED\n" <:+ (run file false (.ok l)).out ∧
      (run file false (.ok l)).err = c!"✗ Error: Validation failed with " ++ dec (l.countP (·.error)) ++ c!" error(s), " ++
        dec (l.countP fun i => !i.error) ++ c!" warning(s)\n") := by
  cases hv : isValid l
  · refine ⟨fun h => by simp [run, execute, hv] at h, fun _ => ?_⟩
    have hl : l ≠ [] := by rintro rfl; cases hv
    refine ⟨⟨humanHead file l ++ c!"\n" ++ l.flatMap issueLines, by simp [run, execute, humanReport, hl, hv]⟩, ?_⟩
    simp [run, execute, hv, errorCount, warningCount, List.countP_eq_length_filter]
  · refine ⟨fun _ => ⟨⟨humanReport file l, by simp [run, execute, hv]⟩, by simp [run, execute, hv]⟩, fun h => by simp [run, execute, hv] at h⟩

/-- **C164.** The tool for assistants says that the validation passed exactly if the command ends with exit code 0, and otherwise lists the messages
of all errors in order. -/
theorem C164_tool (file : Str) (json : Bool) (l : List FullIssue) :
    ((run file json (.ok l)).code = 0 → tool (.ok l) = .ok c!"Validation passed. No issues found.") ∧
    ((run file json (.ok l)).code = 1 → tool (.ok l) = .ok (joinStr c!"\n" ((c!"Found " ++ dec (l.countP (·.error)) ++ c!" issue(s):") ::
      (l.filter (·.error)).map fun i => c!"  [error] " ++ i.message))) := by
  have hx := (C164_exit file json (.ok l)).1
  refine ⟨fun h => ?_, fun h => ?_⟩
  · obtain ⟨l', hl, hv⟩ := hx.1 h
    cases hl
    have : l.filter (·.error) = [] := List.filter_eq_nil_iff.mpr fun i hi => by simp [hv i hi]
    simp [tool, Handlers.validateTool, this]
  · have hne : l.filter (·.error) ≠ [] := by
      intro h0
      have : (run file json (.ok l)).code = 0 := hx.2 ⟨l, rfl, fun i hi => by
        have := List.filter_eq_nil_iff.mp h0 i hi
        simpa using this⟩
      rw [this] at h
      cases h
    simp [tool, Handlers.validateTool, hne, List.countP_eq_length_filter, Function.comp_def]

/-- **C164.** A file that cannot be read is an error for the tool too. -/
theorem C164_tool_unreadable (reason : Str) : tool (.error reason) = .error (c!"Failed to read file: " ++ reason) := rfl

example : run c!"a.pptx" false (.ok [⟨.xml, false, none, c!"m"⟩]) = ⟨c!"Validating PPTX file: a.pptx\n============================================================\nSummary: 0 error(s), 1 warning(s)\n\n[WARNING] Xml  -\n  m\n\n✓ Validation PASSED (warnings only)\n\n✓ Validation completed successfully\n", [], 0⟩ := by decide +kernel

example : (run c!"a.pptx" true (.ok [⟨.xml, true, none, c!"m"⟩])).code = 1 := by decide +kernel

end PptRs.Props
