import Verif.Lemmas.Xml

/-!
# C02: the attribute and HTML escapers
-/

namespace PptRs.Spec

/-- Decodes HTML character data: the references that matter here are the four named ones and `&#39;`. A
`&` must start one of them, and `<` is not allowed. -/
def readHtml : Str → Option Str
  | [] => some []
  | '&' :: 'a' :: 'm' :: 'p' :: ';' :: r => (readHtml r).map ('&' :: ·)
  | '&' :: 'l' :: 't' :: ';' :: r => (readHtml r).map ('<' :: ·)
  | '&' :: 'g' :: 't' :: ';' :: r => (readHtml r).map ('>' :: ·)
  | '&' :: 'q' :: 'u' :: 'o' :: 't' :: ';' :: r => (readHtml r).map ('"' :: ·)
  | '&' :: '#' :: '3' :: '9' :: ';' :: r => (readHtml r).map ('\'' :: ·)
  | c :: r => if c = '&' ∨ c = '<' then none else (readHtml r).map (c :: ·)

end PptRs.Spec

namespace PptRs.Props

open PptRs PptRs.Spec

/-- What `escape_xml_attr` writes for one character. -/
def attrChar (c : Char) : Str :=
  if c = '&' then c!"&amp;" else if c = '"' then c!"&quot;" else if c = '<' then c!"&lt;" else [c]

theorem escapeXmlAttr_eq (s : Str) : escapeXmlAttr s = s.flatMap attrChar := by
  unfold escapeXmlAttr
  conv => lhs; arg 3; arg 3; unfold replaceChar
  simp only [replaceChar_flatMap]
  congr 1
  funext c
  by_cases h1 : c = '&'
  · subst h1; decide
  · by_cases h2 : c = '"'
    · subst h2; decide
    · by_cases h3 : c = '<'
      · subst h3; decide
      · simp [h1, h2, h3, replaceChar, attrChar]

/-- What `escape_html` writes for one character. -/
def htmlChar (c : Char) : Str :=
  if c = '&' then c!"&amp;" else if c = '<' then c!"&lt;" else if c = '>' then c!"&gt;"
  else if c = '"' then c!"&quot;" else if c = '\'' then c!"&#39;" else [c]

theorem escapeHtml_eq (s : Str) : escapeHtml s = s.flatMap htmlChar := by
  unfold escapeHtml
  conv => lhs; arg 3; arg 3; arg 3; arg 3; unfold replaceChar
  simp only [replaceChar_flatMap]
  congr 1
  funext c
  by_cases h1 : c = '&'
  · subst h1; decide
  · by_cases h2 : c = '<'
    · subst h2; decide
    · by_cases h3 : c = '>'
      · subst h3; decide
      · by_cases h4 : c = '"'
        · subst h4; decide
        · by_cases h5 : c = '\''
          · subst h5; decide
          · simp [h1, h2, h3, h4, h5, replaceChar, htmlChar]

/-- **C02**: what `escape_xml_attr` writes can stand in a double-quoted attribute, and an XML reader
gets the text back, although fewer characters are escaped than by `escape_xml`. -/
theorem C02_attr_roundtrip (s : Str) :
    readText (escapeXmlAttr s) = some s ∧ '"' ∉ escapeXmlAttr s ∧ '<' ∉ escapeXmlAttr s := by
  rw [escapeXmlAttr_eq]
  have hm : ∀ c, '"' ∉ attrChar c ∧ '<' ∉ attrChar c := by
    intro c
    unfold attrChar
    split
    · decide
    · split
      · decide
      · split
        · decide
        · rename_i h2 h3
          exact ⟨by simpa using Ne.symm h2, by simpa using Ne.symm h3⟩
  refine ⟨?_, fun h => ?_, fun h => ?_⟩
  · induction s with
    | nil => simp [readText]
    | cons c s ih =>
      rw [List.flatMap_cons]
      have : readText (attrChar c ++ s.flatMap attrChar) = (readText (s.flatMap attrChar)).map (c :: ·) := by
        unfold attrChar
        split
        · subst_vars; simp [readText]
        · split
          · subst_vars; simp [readText]
          · split
            · subst_vars; simp [readText]
            · exact readText_plain _ ‹_› ‹_›
      rw [this, ih]
      rfl
  · obtain ⟨c, _, hc⟩ := List.mem_flatMap.mp h; exact (hm c).1 hc
  · obtain ⟨c, _, hc⟩ := List.mem_flatMap.mp h; exact (hm c).2 hc

theorem readHtml_plain {c : Char} (r : Str) (h1 : c ≠ '&') (h2 : c ≠ '<') :
    readHtml (c :: r) = (readHtml r).map (c :: ·) := by
  rw [readHtml.eq_def]
  split <;> simp_all

/-- **C02**: what `escape_html` writes can stand in HTML text and in quoted attributes, and an HTML
reader gets the text back. -/
theorem C02_html_roundtrip (s : Str) :
    readHtml (escapeHtml s) = some s ∧
      ∀ c ∈ escapeHtml s, c ≠ '<' ∧ c ≠ '>' ∧ c ≠ '"' ∧ c ≠ '\'' := by
  rw [escapeHtml_eq]
  constructor
  · induction s with
    | nil => simp [readHtml]
    | cons c s ih =>
      rw [List.flatMap_cons]
      have : readHtml (htmlChar c ++ s.flatMap htmlChar) = (readHtml (s.flatMap htmlChar)).map (c :: ·) := by
        unfold htmlChar
        split
        · subst_vars; simp [readHtml]
        · split
          · subst_vars; simp [readHtml]
          · split
            · subst_vars; simp [readHtml]
            · split
              · subst_vars; simp [readHtml]
              · split
                · subst_vars; simp [readHtml]
                · exact readHtml_plain _ ‹_› ‹_›
      rw [this, ih]
      rfl
  · intro c h
    obtain ⟨d, _, hd⟩ := List.mem_flatMap.mp h
    unfold htmlChar at hd
    repeat' split at hd
    all_goals first
      | (simp at hd; rcases hd with h | h | h | h | h | h <;> subst h <;> decide)
      | (simp at hd; rcases hd with h | h | h | h | h <;> subst h <;> decide)
      | (simp at hd; rcases hd with h | h | h | h <;> subst h <;> decide)
      | (simp at hd; subst hd; exact ⟨‹_›, ‹_›, ‹_›, ‹_›⟩)

example : escapeXmlAttr c!"A & \"B\" <'" = c!"A &amp; &quot;B&quot; &lt;'" ∧
    escapeHtml c!"<'&lt;" = c!"&lt;&#39;&amp;lt;" := by decide

end PptRs.Props
