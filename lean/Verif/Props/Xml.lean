import Verif.Lemmas.XmlTree

/-!
# C01, C02, C03: XML escaping and the XML writer
-/

namespace PptRs.Props

open PptRs PptRs.Spec

/-! ## C01 -/

/-- **C01**: an XML reader gets back exactly the text that was escaped. -/
theorem C01_escape_roundtrip (s : Str) : readText (escapeXml s) = some s :=
  readText_escapeXml s

/-- **C01**: the escaped text contains no raw markup character. -/
theorem C01_escape_no_markup (s : Str) :
    '<' ∉ escapeXml s ∧ '>' ∉ escapeXml s ∧ '"' ∉ escapeXml s ∧ '\'' ∉ escapeXml s :=
  ⟨fun h => (mem_escapeXml h).1 rfl, fun h => (mem_escapeXml h).2.1 rfl,
   fun h => (mem_escapeXml h).2.2.1 rfl, fun h => (mem_escapeXml h).2.2.2 rfl⟩

/-- **C01**: every `&` of the escaped text starts one of the five predefined entities. -/
theorem C01_escape_amp (s a b : Str) (h : escapeXml s = a ++ '&' :: b) :
    ∃ e ∈ [c!"amp;", c!"lt;", c!"gt;", c!"quot;", c!"apos;"], e <+: b := by
  rw [escapeXml_eq] at h
  induction s generalizing a with
  | nil => simp at h
  | cons c s ih =>
    rw [List.flatMap_cons] at h
    rcases List.append_eq_append_iff.mp h with ⟨a', rfl, h2⟩ | ⟨c', h1, h2⟩
    · exact ih a' h2
    · cases c' with
      | nil => exact ih [] (by simpa using h2.symm)
      | cons d ds =>
        rw [List.cons_append, List.cons.injEq] at h2
        obtain ⟨rfl, rfl⟩ := h2
        have key : ∀ e : Str, '&' ∉ e → '&' :: e = a ++ '&' :: ds → ds = e := by
          intro e he h
          cases a with
          | nil => simpa using h.symm
          | cons x a =>
            rw [List.cons_append, List.cons.injEq] at h
            exact absurd (h.2 ▸ by simp) he
        unfold escapeChar at h1
        repeat' split at h1
        · exact ⟨c!"amp;", by simp, by rw [key _ (by decide) h1]; exact List.prefix_append _ _⟩
        · exact ⟨c!"lt;", by simp, by rw [key _ (by decide) h1]; exact List.prefix_append _ _⟩
        · exact ⟨c!"gt;", by simp, by rw [key _ (by decide) h1]; exact List.prefix_append _ _⟩
        · exact ⟨c!"quot;", by simp, by rw [key _ (by decide) h1]; exact List.prefix_append _ _⟩
        · exact ⟨c!"apos;", by simp, by rw [key _ (by decide) h1]; exact List.prefix_append _ _⟩
        · rename_i hne _ _ _ _
          cases a with
          | nil => rw [List.nil_append, List.cons.injEq] at h1; exact absurd h1.1 hne
          | cons x a => simp at h1

/-- **C01**: different texts have different escaped forms. -/
theorem C01_escape_injective (s t : Str) (h : escapeXml s = escapeXml t) : s = t :=
  escapeXml_inj h

/-- A text that already looks like markup and like an entity is escaped again and read back. -/
example : escapeXml c!"<a>&amp;\"'" = c!"&lt;a&gt;&amp;amp;&quot;&apos;" ∧
    readText c!"&lt;a&gt;&amp;amp;&quot;&apos;" = some c!"<a>&amp;\"'" := by decide

/-- A case of the hypothesis of `C01_escape_amp`. -/
example : escapeXml c!"x&y" = c!"x" ++ '&' :: c!"amp;y" := by decide

/-! ## C02 -/

/-- **C02**: the chained-replace escapers return the same text as `escape_xml`. -/
theorem C02_chained_eq (s : Str) : xmlEscapeChained s = escapeXml s := xmlEscapeChained_eq s

/-- **C02**: the loop without fast path (document properties) agrees with `escape_xml`. -/
theorem C02_props_eq (s : Str) : xmlEscapeProps s = escapeXml s := by
  simp [xmlEscapeProps, escapeLoop_eq, escapeXml_eq]

/-- **C02**: appending to a buffer is the same as escaping and then appending. -/
theorem C02_append_eq (buf s : Str) : appendEscapeXml buf s = buf ++ escapeXml s :=
  appendEscapeXml_eq buf s

example : xmlEscapeChained c!"&lt;'" = c!"&amp;lt;&apos;" := by decide

/-! ## C03 -/

/-- **C03**: what the writer emits for a tree of calls, an XML reader parses back into exactly
that tree: element names, attributes in order with their values, nesting and text. -/
theorem C03_writer_roundtrip (ts : List WTree) (h : AllNamesOk ts) :
    parse (writeTrees [] ts) = some (treesDoc ts) := by
  obtain ⟨K, u', h1, h2⟩ := steps_writeTrees ts h ⟨[], [], []⟩ [] []
  have h2' := h2 []
  rw [prependText_nil, prependText_of_nil] at h2'
  rw [escapeXml_nil] at h1
  simp only [parse]
  rw [h1]
  simp [flush_escape, h2', treesDoc_eq]

/-- **C03**: the writer only appends, so earlier output is never touched. -/
theorem C03_writer_appends (buf : Str) (ts : List WTree) :
    writeTrees buf ts = buf ++ writeTrees [] ts := writeTrees_buf buf ts

/-- A document with markup characters in attribute values and text. -/
def sampleTrees : List WTree :=
  [.elem c!"p:sp" [(c!"name", c!"a\"<b>"), (c!"id", c!"7")]
    [.text c!"x<", .text c!"&amp;", .empty c!"a:br" [(c!"k", c!"'")], .elem c!"q" [] []]]

example : AllNamesOk sampleTrees := by
  simp only [sampleTrees, AllNamesOk, NamesOk, ValidName, NameChar]
  decide

example : treesDoc sampleTrees =
    [.elem c!"p:sp" [(c!"name", c!"a\"<b>"), (c!"id", c!"7")]
      [.text c!"x<&amp;", .elem c!"a:br" [(c!"k", c!"'")] [], .elem c!"q" [] []]] := by
  rfl

end PptRs.Props
