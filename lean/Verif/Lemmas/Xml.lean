import Verif.Model.Xml
import Verif.Spec.XmlDoc
import Verif.Lemmas.Str

namespace PptRs

open Spec

theorem escapeLoop_eq (buf s : Str) : escapeLoop buf s = buf ++ s.flatMap escapeChar := by
  induction s generalizing buf with
  | nil => simp [escapeLoop]
  | cons c s ih => simp [escapeLoop, ih]

theorem escapeChar_of_not {c : Char} (h : needsEscape c = false) : escapeChar c = [c] := by
  simp [needsEscape] at h
  simp [escapeChar, h]

theorem flatMap_escapeChar_of_none {s : Str} (h : s.any needsEscape = false) :
    s.flatMap escapeChar = s := by
  induction s with
  | nil => rfl
  | cons c s ih =>
    simp only [List.any_cons, Bool.or_eq_false_iff] at h
    simp [escapeChar_of_not h.1, ih h.2]

theorem escapeXml_eq (s : Str) : escapeXml s = s.flatMap escapeChar := by
  unfold escapeXml
  split
  · rename_i h; rw [flatMap_escapeChar_of_none (by simpa using h)]
  · simp [escapeLoop_eq]

theorem appendEscapeXml_eq (buf s : Str) : appendEscapeXml buf s = buf ++ escapeXml s := by
  rw [escapeXml_eq]
  unfold appendEscapeXml
  split
  · rename_i h; rw [flatMap_escapeChar_of_none (by simpa using h)]
  · simp [escapeLoop_eq]

@[simp] theorem escapeXml_nil : escapeXml [] = [] := by simp [escapeXml_eq]

theorem escapeXml_cons (c : Char) (s : Str) : escapeXml (c :: s) = escapeChar c ++ escapeXml s := by
  simp [escapeXml_eq]

theorem escapeXml_append (s t : Str) : escapeXml (s ++ t) = escapeXml s ++ escapeXml t := by
  simp [escapeXml_eq]

theorem readText_plain {c : Char} (r : Str) (h1 : c ≠ '&') (h2 : c ≠ '<') :
    readText (c :: r) = (readText r).map (c :: ·) := by
  rw [readText.eq_def]
  split <;> simp_all

theorem readText_escapeChar (c : Char) (r : Str) :
    readText (escapeChar c ++ r) = (readText r).map (c :: ·) := by
  unfold escapeChar
  split
  · subst_vars; simp [readText]
  · split
    · subst_vars; simp [readText]
    · split
      · subst_vars; simp [readText]
      · split
        · subst_vars; simp [readText]
        · split
          · subst_vars; simp [readText]
          · simpa using readText_plain r ‹_› ‹_›

theorem readText_escapeXml (s : Str) : readText (escapeXml s) = some s := by
  induction s with
  | nil => simp [readText]
  | cons c s ih => rw [escapeXml_cons, readText_escapeChar, ih]; rfl

theorem escapeXml_inj {s t : Str} (h : escapeXml s = escapeXml t) : s = t := by
  have := congrArg readText h
  simpa [readText_escapeXml] using this

theorem mem_escapeChar {c d : Char} (h : d ∈ escapeChar c) :
    d ≠ '<' ∧ d ≠ '>' ∧ d ≠ '"' ∧ d ≠ '\'' := by
  unfold escapeChar at h
  repeat' split at h
  all_goals first
    | (simp at h; rcases h with h | h | h | h | h | h <;> subst h <;> decide)
    | (simp at h; rcases h with h | h | h | h | h <;> subst h <;> decide)
    | (simp at h; rcases h with h | h | h | h <;> subst h <;> decide)
    | (simp at h; subst h; simp_all)

theorem mem_escapeXml {s : Str} {d : Char} (h : d ∈ escapeXml s) :
    d ≠ '<' ∧ d ≠ '>' ∧ d ≠ '"' ∧ d ≠ '\'' := by
  rw [escapeXml_eq, List.mem_flatMap] at h
  obtain ⟨c, _, h⟩ := h
  exact mem_escapeChar h

theorem escapeXml_eq_nil {s : Str} : escapeXml s = [] ↔ s = [] := by
  constructor
  · intro h; exact escapeXml_inj (by simpa using h)
  · rintro rfl; simp

/-- Chained replacement, character by character. -/
theorem xmlEscapeChained_eq (s : Str) : xmlEscapeChained s = escapeXml s := by
  rw [escapeXml_eq]
  unfold xmlEscapeChained
  conv => lhs; arg 3; arg 3; arg 3; arg 3; unfold replaceChar
  simp only [replaceChar_flatMap]
  congr 1
  funext c
  by_cases h1 : c = '&'
  · subst h1; decide
  · by_cases h2 : c = '<'
    · subst h2; decide
    · by_cases h3 : c = '>'
      · subst h3; decide
      · by_cases h4 : c = '"'
        · subst h4; decide
        · by_cases h5 : c = '\''
          · subst h5; decide
          · simp [h1, h2, h3, h4, h5, replaceChar, escapeChar]

/-! ### The writer -/

theorem writeAttrs_eq (buf : Str) (as : List (Str × Str)) :
    writeAttrs buf as =
      buf ++ as.flatMap fun kv => ' ' :: (kv.1 ++ '=' :: '"' :: (escapeXml kv.2 ++ ['"'])) := by
  induction as generalizing buf with
  | nil => simp [writeAttrs]
  | cons kv as ih =>
    obtain ⟨k, v⟩ := kv
    simp [writeAttrs, ih, appendEscapeXml_eq]

mutual
theorem writeTree_buf (buf : Str) : ∀ t, writeTree buf t = buf ++ writeTree [] t
  | .elem n as ks => by
    simp only [writeTree, endElement, startElement]
    rw [writeTrees_buf _ ks, writeTrees_buf (writeAttrs ([] ++ _ ++ n) as ++ _) ks]
    simp [writeAttrs_eq]
  | .empty n as => by simp [writeTree, emptyElement, writeAttrs_eq]
  | .text s => by simp [writeTree, writeText, appendEscapeXml_eq]
theorem writeTrees_buf (buf : Str) : ∀ ts, writeTrees buf ts = buf ++ writeTrees [] ts
  | [] => by simp [writeTrees]
  | t :: ts => by
    simp only [writeTrees]
    rw [writeTrees_buf _ ts, writeTrees_buf (writeTree [] t) ts, writeTree_buf buf t]
    simp
end

/-! ### Reading back -/

theorem steps_append (r : Reader) (a b : Str) :
    steps r (a ++ b) = (steps r a).bind fun r' => steps r' b := by
  induction a generalizing r with
  | nil => simp [steps]
  | cons c a ih =>
    simp only [List.cons_append, steps]
    cases step r c with
    | none => rfl
    | some r' => simp [ih]

theorem steps_text (top : Frame) (st : List Frame) (raw s : Str) (h : '<' ∉ s) :
    steps ⟨top, st, .text raw⟩ s = some ⟨top, st, .text (raw ++ s)⟩ := by
  induction s generalizing raw with
  | nil => simp [steps]
  | cons c s ih =>
    have hc : c ≠ '<' := by intro hh; simp_all
    have hs : '<' ∉ s := by simp_all
    simp [steps, step, hc, ih _ hs]

theorem steps_name (top : Frame) (st : List Frame) (n s : Str) (h : ∀ c ∈ s, NameChar c) :
    steps ⟨top, st, .name n⟩ s = some ⟨top, st, .name (n ++ s)⟩ := by
  induction s generalizing n with
  | nil => simp [steps]
  | cons c s ih =>
    have hc := h c (by simp)
    simp [steps, step, hc.1, hc.2.1, hc.2.2.1, ih _ (fun d hd => h d (by simp [hd]))]

theorem steps_close (top : Frame) (st : List Frame) (n s : Str) (h : ∀ c ∈ s, NameChar c) :
    steps ⟨top, st, .close n⟩ s = some ⟨top, st, .close (n ++ s)⟩ := by
  induction s generalizing n with
  | nil => simp [steps]
  | cons c s ih =>
    have hc := h c (by simp)
    simp [steps, step, hc.2.1, ih _ (fun d hd => h d (by simp [hd]))]

theorem steps_attrName (top : Frame) (st : List Frame) (n : Str) (as : List (Str × Str))
    (k s : Str) (h : ∀ c ∈ s, NameChar c) :
    steps ⟨top, st, .attr n as k⟩ s = some ⟨top, st, .attr n as (k ++ s)⟩ := by
  induction s generalizing k with
  | nil => simp [steps]
  | cons c s ih =>
    have hc := h c (by simp)
    simp [steps, step, hc.2.2.1, hc.2.2.2.2, ih _ (fun d hd => h d (by simp [hd]))]

theorem steps_val (top : Frame) (st : List Frame) (n : Str) (as : List (Str × Str))
    (k v s : Str) (h : '"' ∉ s) :
    steps ⟨top, st, .val n as k v⟩ s = some ⟨top, st, .val n as k (v ++ s)⟩ := by
  induction s generalizing v with
  | nil => simp [steps]
  | cons c s ih =>
    have hc : c ≠ '"' := by intro hh; simp_all
    have hs : '"' ∉ s := by simp_all
    simp [steps, step, hc, ih _ hs]

/-- One written attribute, read from a mode that accepts a blank. -/
theorem steps_attr (top : Frame) (st : List Frame) (n : Str) (as : List (Str × Str)) (k v : Str)
    (hk : ∀ c ∈ k, NameChar c) :
    steps ⟨top, st, .tag n as⟩ (' ' :: (k ++ '=' :: '"' :: (escapeXml v ++ ['"']))) =
      some ⟨top, st, .tag n (as ++ [(k, v)])⟩ := by
  have hq : '"' ∉ escapeXml v := fun h => (mem_escapeXml h).2.2.1 rfl
  simp only [steps, step, if_true, Option.bind_some]
  rw [steps_append, steps_attrName _ _ _ _ _ _ hk]
  simp only [Option.bind_some, steps, step, if_true, List.nil_append]
  rw [steps_append, steps_val _ _ _ _ _ _ _ hq]
  simp [steps, step, readText_escapeXml]

theorem steps_attr_name (top : Frame) (st : List Frame) (n : Str) (s : Str) :
    steps ⟨top, st, .name n⟩ (' ' :: s) = steps ⟨top, st, .tag n []⟩ (' ' :: s) := by
  simp [steps, step]

theorem steps_attrs (top : Frame) (st : List Frame) (n : Str) (as0 as : List (Str × Str))
    (hk : ∀ kv ∈ as, ∀ c ∈ kv.1, NameChar c) :
    steps ⟨top, st, .tag n as0⟩
        (as.flatMap fun kv => ' ' :: (kv.1 ++ '=' :: '"' :: (escapeXml kv.2 ++ ['"']))) =
      some ⟨top, st, .tag n (as0 ++ as)⟩ := by
  induction as generalizing as0 with
  | nil => simp [steps]
  | cons kv as ih =>
    rw [List.flatMap_cons, steps_append, steps_attr _ _ _ _ _ _ (hk kv (by simp))]
    simp [ih _ (fun kv' h => hk kv' (by simp [h]))]

theorem steps_open {top : Frame} {st : List Frame} {raw : Str} {f : Frame} (n : Str)
    (as : List (Str × Str)) (hn : ValidName n) (hk : ∀ kv ∈ as, ∀ c ∈ kv.1, NameChar c)
    (hf : flush top raw = some f) (rest : Str) (hrest : ∃ c r, rest = c :: r ∧ (c = '>' ∨ c = '/')) :
    steps ⟨top, st, .text raw⟩ (writeAttrs ('<' :: n) as ++ rest) =
      steps ⟨f, st, .tag n as⟩ rest := by
  obtain ⟨hne, hc⟩ := hn
  cases n with
  | nil => exact absurd rfl hne
  | cons c n =>
    have h0 := hc c (by simp)
    rw [writeAttrs_eq]
    simp only [List.cons_append, List.nil_append, steps, step, if_true, hf, Option.map_some,
      Option.bind_some, h0.1, h0.2.1, h0.2.2.1, h0.2.2.2.1, or_self, if_false]
    rw [List.append_assoc, steps_append, steps_name _ _ _ _ (fun d hd => hc d (by simp [hd]))]
    simp only [Option.bind_some, List.cons_append, List.nil_append]
    cases as with
    | nil =>
      obtain ⟨d, r, rfl, hd⟩ := hrest
      rcases hd with rfl | rfl <;> simp [steps, step]
    | cons kv as =>
      rw [List.flatMap_cons, List.cons_append, List.cons_append, steps_attr_name,
        ← List.cons_append, ← List.cons_append, steps_append]
      have := steps_attrs f st (c :: n) [] (kv :: as) hk
      rw [List.flatMap_cons] at this
      rw [this]
      simp

theorem flush_escape (f : Frame) (t : Str) :
    flush f (escapeXml t) = some { f with kids := f.kids ++ if t = [] then [] else [.text t] } := by
  unfold flush
  by_cases h : t = []
  · simp [h]
  · simp [escapeXml_eq_nil, h, readText_escapeXml, Frame.push]

end PptRs
