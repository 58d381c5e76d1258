import Verif.Model.ReportJson
import Verif.Spec.Json
import Verif.Props.TextConv
import Verif.Lemmas.Str
import Verif.Lemmas.Template

/-!
# The JSON output of the validation command: C113
-/

namespace PptRs.Props

open PptRs PptRs.Spec PptRs.Validate PptRs.ReportJson

theorem jsonText_plain {c : Char} (r : Str) (h1 : c ≠ '"') (h2 : c ≠ '\\') (h : ¬ c.toNat < 32) :
    jsonText (c :: r) = (jsonText r).map fun p => (c :: p.1, p.2) := by
  rw [jsonText.eq_def]
  split
  · simp_all
  · simp_all
  · simp_all
  · rename_i heq
    simp only [List.cons.injEq] at heq
    obtain ⟨rfl, rfl⟩ := heq
    rw [if_neg (by simp [h2]; omega)]
  · simp_all

theorem jsonText_escape {e x : Char} (r : Str) (h : e ≠ 'u') (hx : jsonEscape e = some x) :
    jsonText ('\\' :: e :: r) = (jsonText r).map fun p => (x :: p.1, p.2) := by
  rw [jsonText.eq_def]
  split
  · simp_all
  · simp_all
  · simp_all
  · rename_i hne heq
    simp only [List.cons.injEq] at heq
    exact absurd heq.2.symm (hne _ _ heq.1.symm)
  · simp_all

theorem jsonText_control {c : Char} (r : Str) (h : isControl c = true) :
    jsonText (c!"\\u" ++ hex4 c.toNat ++ r) = (jsonText r).map fun p => (c :: p.1, p.2) := by
  simp only [hex4, List.cons_append, List.nil_append, jsonText, jsonUnicode_hex4 _ (isControl_lt h),
    Option.bind_some, Char.ofNat_toNat]

theorem jsonText_jsonChar (c : Char) (r : Str) :
    jsonText (jsonChar c ++ r) = (jsonText r).map fun p => (c :: p.1, p.2) := by
  unfold jsonChar
  split
  · subst_vars; exact jsonText_escape r (by decide) (by decide)
  · split
    · subst_vars; exact jsonText_escape r (by decide) (by decide)
    · split
      · subst_vars; exact jsonText_escape r (by decide) (by decide)
      · split
        · subst_vars; exact jsonText_escape r (by decide) (by decide)
        · split
          · subst_vars; exact jsonText_escape r (by decide) (by decide)
          · split
            · exact jsonText_control r ‹_›
            · rename_i h1 h2 _ _ _ h6
              refine jsonText_plain r h1 h2 fun h => h6 ?_
              simp [isControl, h]

/-- A written string is read back, whatever follows. -/
theorem jsonText_jsonString (s r : Str) : jsonText (s.flatMap jsonChar ++ '"' :: r) = some (s, r) := by
  induction s with
  | nil => rfl
  | cons c s ih => rw [List.flatMap_cons, List.append_assoc, jsonText_jsonChar, ih]; rfl

/-- Characters that end a number. -/
def JsonEnd (r : Str) : Prop := ∀ c ∈ r.head?, c.isDigit = false

/-- A text is read as a value, whatever follows it. -/
def ReadsJson (s : Str) (v : Json) : Prop :=
  ∀ r n, JsonEnd r → 2 * s.length + 1 ≤ n → jsonValue n (s ++ r) = some (v, r)

/-- A text is read as the elements of an array. -/
def ReadsElems (s : Str) (l : List Json) : Prop :=
  ∀ r n, 2 * s.length + 1 ≤ n → jsonElems n (s ++ r) = some (l, r)

/-- A text is read as the members of an object. -/
def ReadsMembers (s : Str) (l : List (Str × Json)) : Prop :=
  ∀ r n, 2 * s.length + 1 ≤ n → jsonMembers n (s ++ r) = some (l, r)

theorem skipJson_space {w : Str} (h : w.all isJsonSpace = true) (s : Str) : skipJson (w ++ s) = skipJson s := by
  induction w with
  | nil => rfl
  | cons c w ih =>
    simp only [List.all_cons, Bool.and_eq_true] at h
    rw [List.cons_append, skipJson, if_pos h.1, ih h.2]

theorem readsJson_space {w s : Str} {v : Json} (hw : w.all isJsonSpace = true) (h : ReadsJson s v) : ReadsJson (w ++ s) v := by
  intro r n hr hn
  have := h r n hr (by simp only [List.length_append] at hn; omega)
  cases n with
  | zero => omega
  | succ n =>
    rw [jsonValue] at this ⊢
    rw [List.append_assoc, skipJson_space hw]
    exact this

theorem readsJson_string (s : Str) : ReadsJson (jsonString s) (.str s) := by
  intro r n _ hn
  cases n with
  | zero => omega
  | succ n =>
    have e : jsonString s ++ r = '"' :: (s.flatMap jsonChar ++ '"' :: r) := by simp [jsonString]
    rw [e, jsonValue]
    have e2 : skipJson ('"' :: (s.flatMap jsonChar ++ '"' :: r)) = '"' :: (s.flatMap jsonChar ++ '"' :: r) := if_neg (by decide)
    rw [e2]
    simp only [jsonText_jsonString, Option.map_some]

theorem readsJson_null : ReadsJson c!"null" .null := by
  intro r n _ hn
  cases n with
  | zero => omega
  | succ n => rfl

theorem readsJson_bool (b : Bool) : ReadsJson (if b then c!"true" else c!"false") (.bool b) := by
  intro r n _ hn
  cases n with
  | zero => omega
  | succ n => cases b <;> rfl

theorem takeWhile_dec {n : Nat} {r : Str} (h : JsonEnd r) : (dec n ++ r).takeWhile Char.isDigit = dec n ∧ (dec n ++ r).dropWhile Char.isDigit = r := by
  have hd : ∀ c ∈ dec n, c.isDigit = true := fun c hc => isDigit_of_mem_dec hc
  have hr : r.takeWhile Char.isDigit = [] ∧ r.dropWhile Char.isDigit = r := by
    cases r with
    | nil => exact ⟨rfl, rfl⟩
    | cons c r =>
      have : c.isDigit = false := h c rfl
      simp [this]
  rw [List.takeWhile_append_of_pos hd, List.dropWhile_append_of_pos hd, hr.1, hr.2]
  simp

theorem dec_zero_head {k : Nat} {t : Str} (h : dec k = '0' :: t) : k = 0 ∧ t = [] := by
  induction k using Nat.strongRecOn generalizing t with
  | ind k ih =>
    by_cases hk : k < 10
    · have e : dec k = [k.digitChar] := Nat.toDigits_of_lt_base hk
      rw [e] at h
      simp only [List.cons.injEq] at h
      have : ∀ k < 10, Nat.digitChar k = '0' → k = 0 := by decide
      exact ⟨this k hk h.1, h.2.symm⟩
    · have e : dec k = dec (k / 10) ++ [(k % 10).digitChar] := Nat.toDigits_of_base_le (by decide) (by omega)
      cases e2 : dec (k / 10) with
      | nil => exact absurd e2 (dec_ne_nil _)
      | cons c u =>
        rw [e, e2, List.cons_append, List.cons.injEq] at h
        rw [h.1] at e2
        have := (ih (k / 10) (by omega) e2).1
        omega

theorem readsJson_num (k : Nat) : ReadsJson (dec k) (.num k) := by
  intro r n hr hn
  cases n with
  | zero => omega
  | succ n =>
    have hne := dec_ne_nil k
    cases e : dec k with
    | nil => exact absurd e hne
    | cons c t =>
      have hd : c.isDigit = true := isDigit_of_mem_dec (n := k) (by rw [e]; simp)
      have hs : isJsonSpace c = false := by
        cases hc : isJsonSpace c with
        | false => rfl
        | true =>
          simp only [isJsonSpace, Bool.or_eq_true, decide_eq_true_eq] at hc
          rcases hc with ((rfl | rfl) | rfl) | rfl <;> cases hd
      have e2 : skipJson ((c :: t) ++ r) = (c :: t) ++ r := if_neg (by simp [hs])
      obtain ⟨h1, h2⟩ := takeWhile_dec (n := k) hr
      rw [e] at h1 h2
      have hk : Nat.ofDigitChars 10 (c :: t) 0 = k := by rw [← e]; simp [dec]
      rw [jsonValue, e2]
      simp only [List.cons_append] at h1 h2 ⊢
      have hsc : jsonScalar (c :: (t ++ r)) = some (.num k, r) := by
        unfold jsonScalar
        split
        · rename_i heq; rw [List.cons.injEq] at heq; rw [heq.1] at hd; cases hd
        · rename_i heq; rw [List.cons.injEq] at heq; rw [heq.1] at hd; cases hd
        · rename_i heq; rw [List.cons.injEq] at heq; rw [heq.1] at hd; cases hd
        · rename_i heq
          rw [List.cons.injEq] at heq
          rw [heq.1] at e
          obtain ⟨rfl, rfl⟩ := dec_zero_head e
          rw [← heq.2]
          rfl
        · rw [h1, h2, hk]
          simp
      split
      · rename_i heq; rw [List.cons.injEq] at heq; rw [heq.1] at hd; cases hd
      · rename_i heq; rw [List.cons.injEq] at heq; rw [heq.1] at hd; cases hd
      · rename_i heq; rw [List.cons.injEq] at heq; rw [heq.1] at hd; cases hd
      · exact hsc

theorem jsonEnd_space {w : Str} (hw : w.all isJsonSpace = true) {c : Char} (hc : c.isDigit = false) (r : Str) : JsonEnd (w ++ c :: r) := by
  intro x hx
  cases w with
  | nil => cases hx; exact hc
  | cons y w =>
    cases hx
    simp only [List.all_cons, Bool.and_eq_true] at hw
    have := hw.1
    simp only [isJsonSpace, Bool.or_eq_true, decide_eq_true_eq] at this
    rcases this with ((rfl | rfl) | rfl) | rfl <;> rfl

theorem skipJson_end {w : Str} (hw : w.all isJsonSpace = true) {c : Char} (hc : isJsonSpace c = false) (r : Str) :
    skipJson (w ++ c :: r) = c :: r := by
  rw [skipJson_space hw, skipJson, if_neg (by simp [hc])]

theorem readsElems_one {s w : Str} {v : Json} (h : ReadsJson s v) (hw : w.all isJsonSpace = true) :
    ReadsElems (s ++ (w ++ [']'])) [v] := by
  intro r n hn
  cases n with
  | zero => omega
  | succ n =>
    simp only [List.length_append, List.length_cons, List.length_nil] at hn
    have e : s ++ (w ++ [']']) ++ r = s ++ (w ++ ']' :: r) := by simp
    rw [e, jsonElems, h _ n (jsonEnd_space hw (by decide) r) (by omega), Option.bind_some]
    simp only [skipJson_end hw (show isJsonSpace ']' = false by decide) r]

theorem readsElems_more {s w t : Str} {v : Json} {l : List Json} (h : ReadsJson s v) (hw : w.all isJsonSpace = true) (ht : ReadsElems t l) :
    ReadsElems (s ++ (w ++ ',' :: t)) (v :: l) := by
  intro r n hn
  cases n with
  | zero => omega
  | succ n =>
    simp only [List.length_append, List.length_cons] at hn
    have e : s ++ (w ++ ',' :: t) ++ r = s ++ (w ++ ',' :: (t ++ r)) := by simp
    rw [e, jsonElems, h _ n (jsonEnd_space hw (by decide) _) (by omega), Option.bind_some]
    simp only [skipJson_end hw (show isJsonSpace ',' = false by decide) _]
    rw [ht r n (by omega)]
    rfl

theorem readsElems_space {w t : Str} {l : List Json} (hw : w.all isJsonSpace = true) (h : ReadsElems t l) : ReadsElems (w ++ t) l := by
  intro r n hn
  simp only [List.length_append] at hn
  have := h r n (by omega)
  cases n with
  | zero => omega
  | succ n =>
    rw [jsonElems] at this ⊢
    have e : jsonValue n (w ++ t ++ r) = jsonValue n (t ++ r) := by
      cases n with
      | zero => rfl
      | succ n => rw [jsonValue, jsonValue, List.append_assoc, skipJson_space hw]
    rw [e]
    exact this

theorem readsJson_arr {s : Str} {l : List Json} (h : ReadsElems s l) : ReadsJson ('[' :: s) (.arr l) := by
  intro r n _ hn
  cases n with
  | zero => omega
  | succ n =>
    simp only [List.length_cons] at hn
    have hs := h r n (by omega)
    rw [List.cons_append, jsonValue]
    have e : skipJson ('[' :: (s ++ r)) = '[' :: (s ++ r) := if_neg (by decide)
    rw [e]
    simp only
    split
    · rename_i r' heq
      exfalso
      cases n with
      | zero => omega
      | succ n =>
        rw [jsonElems] at hs
        cases n with
        | zero => omega
        | succ n =>
          rw [jsonValue, heq] at hs
          cases hs
    · rw [hs]; rfl

/-- A member of an object. -/
def jsonMember (w k s : Str) : Str := w ++ jsonString k ++ c!": " ++ s

theorem readsMember {w k s : Str} {v : Json} (hw : w.all isJsonSpace = true) (h : ReadsJson s v) (n : Nat) (hn : 2 * s.length + 1 ≤ n) (r : Str) (hr : JsonEnd r) :
    jsonMembers (n + 1) (jsonMember w k s ++ r) = match skipJson r with
      | ',' :: r => (jsonMembers n r).map fun q => ((k, v) :: q.1, q.2)
      | '}' :: r => some ([(k, v)], r)
      | _ => none := by
  have e : jsonMember w k s ++ r = w ++ '"' :: (k.flatMap jsonChar ++ '"' :: (':' :: (' ' :: s ++ r))) := by
    simp [jsonMember, jsonString]
  rw [e, jsonMembers, skipJson_end hw (by decide)]
  simp only [jsonText_jsonString, Option.bind_some]
  have e2 : skipJson (':' :: (' ' :: s ++ r)) = ':' :: (' ' :: s ++ r) := if_neg (by decide)
  rw [e2]
  simp only
  have e3 : jsonValue n (' ' :: s ++ r) = some (v, r) := by
    have := h r n hr hn
    cases n with
    | zero => omega
    | succ n =>
      rw [jsonValue] at this ⊢
      have : skipJson (' ' :: s ++ r) = skipJson (s ++ r) := if_pos (by decide)
      rw [this]
      assumption
  rw [e3]
  rfl

theorem readsMembers_one {w k s u : Str} {v : Json} (hw : w.all isJsonSpace = true) (h : ReadsJson s v) (hu : u.all isJsonSpace = true) :
    ReadsMembers (jsonMember w k s ++ (u ++ ['}'])) [(k, v)] := by
  intro r n hn
  cases n with
  | zero => omega
  | succ n =>
    simp only [List.length_append, List.length_cons, List.length_nil, jsonMember] at hn
    have e : jsonMember w k s ++ (u ++ ['}']) ++ r = jsonMember w k s ++ (u ++ '}' :: r) := by simp
    rw [e, readsMember hw h n (by omega) _ (jsonEnd_space hu (by decide) _), skipJson_end hu (by decide)]
    rfl

theorem readsMembers_more {w k s t : Str} {v : Json} {l : List (Str × Json)} (hw : w.all isJsonSpace = true) (h : ReadsJson s v) (ht : ReadsMembers t l) :
    ReadsMembers (jsonMember w k s ++ (',' :: t)) ((k, v) :: l) := by
  intro r n hn
  cases n with
  | zero => omega
  | succ n =>
    simp only [List.length_append, List.length_cons, jsonMember] at hn
    have e : jsonMember w k s ++ (',' :: t) ++ r = jsonMember w k s ++ (',' :: (t ++ r)) := by simp
    rw [e, readsMember hw h n (by omega) _ (fun c hc => by cases hc; rfl)]
    have e2 : skipJson (',' :: (t ++ r)) = ',' :: (t ++ r) := if_neg (by decide)
    rw [e2]
    simp only
    rw [ht r n (by omega)]
    rfl

theorem readsJson_obj {s : Str} {l : List (Str × Json)} (h : ReadsMembers s l) : ReadsJson ('{' :: s) (.obj l) := by
  intro r n _ hn
  cases n with
  | zero => omega
  | succ n =>
    simp only [List.length_cons] at hn
    have hs := h r n (by omega)
    rw [List.cons_append, jsonValue]
    have e : skipJson ('{' :: (s ++ r)) = '{' :: (s ++ r) := if_neg (by decide)
    rw [e]
    simp only
    split
    · rename_i r' heq
      exfalso
      cases n with
      | zero => omega
      | succ n =>
        rw [jsonMembers, heq] at hs
        cases hs
    · rw [hs]; rfl

/-! ### The report -/

/-- What should be read for an issue. -/
def issueValue (i : FullIssue) : Json :=
  .obj [(c!"severity", .str (if i.error then c!"error" else c!"warning")), (c!"category", .str (categoryName i.category)),
    (c!"path", match i.path with | some p => .str p | none => .null), (c!"message", .str i.message)]

theorem categoryName_json (c : Category) : jsonString (categoryName c) = c!"\"" ++ categoryName c ++ c!"\"" := by
  cases c <;> rfl

theorem readsIssue (i : FullIssue) (last : Bool) :
    ∃ t, issueJson i last = c!"    " ++ t ++ (if last then [] else c!",") ++ c!"\n" ∧ ReadsJson t (issueValue i) := by
  have hp : ReadsJson ((i.path.map jsonString).getD c!"null") (match i.path with | some p => .str p | none => .null) := by
    cases i.path with
    | none => exact readsJson_null
    | some p => exact readsJson_string p
  refine ⟨_, ?_, readsJson_obj (readsMembers_more (w := c!"\n      ") (k := c!"severity") (by decide)
    (readsJson_string (if i.error then c!"error" else c!"warning"))
    (readsMembers_more (w := c!"\n      ") (k := c!"category") (by decide) (readsJson_string (categoryName i.category))
      (readsMembers_more (w := c!"\n      ") (k := c!"path") (by decide) hp
        (readsMembers_one (w := c!"\n      ") (k := c!"message") (u := c!"\n    ") (by decide) (readsJson_string i.message) (by decide)))))⟩
  have e1 : jsonString (if i.error then c!"error" else c!"warning") = c!"\"" ++ (if i.error then c!"error" else c!"warning") ++ c!"\"" := by
    cases i.error <;> rfl
  rw [e1, categoryName_json]
  have f1 : jsonString c!"severity" = c!"\"severity\"" := rfl
  have f2 : jsonString c!"category" = c!"\"category\"" := rfl
  have f3 : jsonString c!"path" = c!"\"path\"" := rfl
  have f4 : jsonString c!"message" = c!"\"message\"" := rfl
  simp only [issueJson, jsonMember, f1, f2, f3, f4, List.append_assoc, List.cons_append, List.nil_append]

theorem readsIssues (l : List FullIssue) (h : l ≠ []) : ReadsElems (issuesJson l ++ c!"  ]") (l.map issueValue) := by
  induction l with
  | nil => exact absurd rfl h
  | cons i l ih =>
    cases l with
    | nil =>
      obtain ⟨t, e, ht⟩ := readsIssue i true
      have := readsElems_one (w := c!"\n  ") (readsJson_space (w := c!"    ") (by decide) ht) (by decide)
      simpa [issuesJson, e] using this
    | cons j l =>
      obtain ⟨t, e, ht⟩ := readsIssue i false
      have key : ReadsElems (c!"\n" ++ (issuesJson (j :: l) ++ c!"  ]")) ((j :: l).map issueValue) :=
        readsElems_space (by decide) (ih (by simp))
      have := readsElems_more (w := []) (readsJson_space (w := c!"    ") (by decide) ht) rfl key
      simpa [issuesJson, e] using this

/-- What should be read for a report. -/
def reportValue (file : Str) (l : List FullIssue) : Json :=
  .obj [(c!"file", .str file), (c!"valid", .bool (l.all fun i => !i.error)), (c!"error_count", .num (l.countP (·.error))),
    (c!"warning_count", .num (l.countP fun i => !i.error)), (c!"issues", .arr (l.map issueValue))]

theorem readsJson_emptyArr {w : Str} (hw : w.all isJsonSpace = true) : ReadsJson ('[' :: (w ++ [']'])) (.arr []) := by
  intro r n _ hn
  cases n with
  | zero => omega
  | succ n =>
    have e : '[' :: (w ++ [']']) ++ r = '[' :: (w ++ ']' :: r) := by simp
    rw [e, jsonValue]
    have e : skipJson ('[' :: (w ++ ']' :: r)) = '[' :: (w ++ ']' :: r) := if_neg (by decide)
    rw [e]
    simp only [skipJson_end hw (show isJsonSpace ']' = false by decide) r]

/-- **C113.** What the validation command prints is a JSON document with the name of the file, whether it is valid, the
numbers of errors and warnings and every issue with its severity, category, path and message, whatever characters
the name of the file and the messages contain. -/
theorem C113_json (file : Str) (l : List FullIssue) : jsonDocument (reportJson file l) = some (reportValue file l) := by
  have hi : ReadsJson (c!"[\n" ++ (issuesJson l ++ c!"  ]")) (.arr (l.map issueValue)) := by
    by_cases hl : l = []
    · subst hl
      exact readsJson_emptyArr (w := c!"\n  ") (by decide)
    · exact readsJson_arr (readsElems_space (w := c!"\n") (by decide) (readsIssues l hl))
  have h := readsJson_obj (readsMembers_more (w := c!"\n  ") (k := c!"file") (by decide) (readsJson_string file)
    (readsMembers_more (w := c!"\n  ") (k := c!"valid") (by decide) (readsJson_bool (isValid l))
      (readsMembers_more (w := c!"\n  ") (k := c!"error_count") (by decide) (readsJson_num (errorCount l))
        (readsMembers_more (w := c!"\n  ") (k := c!"warning_count") (by decide) (readsJson_num (warningCount l))
          (readsMembers_one (w := c!"\n  ") (k := c!"issues") (u := c!"\n") (by decide) hi (by decide))))))
  have f1 : jsonString c!"file" = c!"\"file\"" := rfl
  have f2 : jsonString c!"valid" = c!"\"valid\"" := rfl
  have f3 : jsonString c!"error_count" = c!"\"error_count\"" := rfl
  have f4 : jsonString c!"warning_count" = c!"\"warning_count\"" := rfl
  have f5 : jsonString c!"issues" = c!"\"issues\"" := rfl
  have e : ∀ t, t ++ c!"\n" = reportJson file l → ReadsJson t (reportValue file l) → jsonDocument (reportJson file l) = some (reportValue file l) := by
    intro t ht hr
    unfold jsonDocument
    rw [← ht, hr c!"\n" _ (by intro c hc; cases hc; rfl) (by simp only [List.length_append]; omega), Option.bind_some]
    exact if_pos rfl
  have hv : reportValue file l = .obj [(c!"file", .str file), (c!"valid", .bool (isValid l)), (c!"error_count", .num (errorCount l)),
      (c!"warning_count", .num (warningCount l)), (c!"issues", .arr (l.map issueValue))] := by
    simp only [reportValue, isValid, errorCount, warningCount, List.countP_eq_length_filter]
  rw [← hv] at h
  refine e _ ?_ h
  simp only [reportJson, jsonMember, f1, f2, f3, f4, f5, List.append_assoc, List.cons_append, List.nil_append]

/-- **C113.** The counts and the flag agree with the listed issues. -/
theorem C113_counts (l : List FullIssue) : errorCount l + warningCount l = l.length ∧ (isValid l = true ↔ errorCount l = 0) := by
  constructor
  · simp only [errorCount, warningCount]
    induction l with
    | nil => rfl
    | cons i l ih => cases h : i.error <;> simp [h] <;> omega
  · simp [isValid, errorCount]

/-- Non-vacuity: a name and a message with quotes, a backslash and a line feed, and an issue without a path. -/
example : jsonDocument (reportJson c!"C:\\decks\\\"a\".pptx" [⟨.missingPart, true, none, c!"bad\nfile"⟩, ⟨.xml, false, some c!"ppt/a.xml", c!"\"x\""⟩]) =
    some (.obj [(c!"file", .str c!"C:\\decks\\\"a\".pptx"), (c!"valid", .bool false), (c!"error_count", .num 1), (c!"warning_count", .num 1),
      (c!"issues", .arr [
        .obj [(c!"severity", .str c!"error"), (c!"category", .str (categoryName .missingPart)), (c!"path", .null), (c!"message", .str c!"bad\nfile")],
        .obj [(c!"severity", .str c!"warning"), (c!"category", .str (categoryName .xml)), (c!"path", .str c!"ppt/a.xml"), (c!"message", .str c!"\"x\"")]])]) := by
  krfl

end PptRs.Props
