import Verif.Model.Str

/-!
# XML escaping and the XML writer
-/

namespace PptRs

/-- The five characters tested by the fast path, src/core/xml_utils.rs:10-13 (the code tests
UTF-8 bytes; the five are ASCII, so a byte matches exactly when a character does). -/
def needsEscape (c : Char) : Bool :=
  c == '&' || c == '<' || c == '>' || c == '"' || c == '\''

/-- The `match` of the escaping loop, src/core/xml_utils.rs:19-26. -/
def escapeChar (c : Char) : Str :=
  if c = '&' then c!"&amp;"
  else if c = '<' then c!"&lt;"
  else if c = '>' then c!"&gt;"
  else if c = '"' then c!"&quot;"
  else if c = '\'' then c!"&apos;"
  else [c]

/-- The escaping loop on an output buffer, src/core/xml_utils.rs:18-27 and 40-49. -/
def escapeLoop (buf : Str) : Str → Str
  | [] => buf
  | c :: cs => escapeLoop (buf ++ escapeChar c) cs

/-- `escape_xml`, src/core/xml_utils.rs:8-29, including the fast path. -/
def escapeXml (s : Str) : Str :=
  if !s.any needsEscape then s else escapeLoop [] s

/-- `append_escape_xml`, src/core/xml_utils.rs:32-50. -/
def appendEscapeXml (buf s : Str) : Str :=
  if !s.any needsEscape then buf ++ s else escapeLoop buf s

/-- The chained-replace escaper `xml_escape`, the same five lines in
src/generator/slide_content/sections.rs:179-185, comments.rs:220-226,
embedded_fonts.rs:251-257, digital_signature.rs:186-192, print_settings.rs:234-240 and
src/parts/coreprops.rs:112-118. -/
def xmlEscapeChained (s : Str) : Str :=
  replaceChar '\'' c!"&apos;"
    (replaceChar '"' c!"&quot;"
      (replaceChar '>' c!"&gt;"
        (replaceChar '<' c!"&lt;"
          (replaceChar '&' c!"&amp;" s))))

/-- `xml_escape` of src/generator/props_xml.rs:45-58: the loop without the fast path. -/
def xmlEscapeProps (s : Str) : Str := escapeLoop [] s

/-- `escape_xml_attr`, src/generator/presentation_theme.rs:311-315. -/
def escapeXmlAttr (s : Str) : Str :=
  replaceChar '<' c!"&lt;" (replaceChar '"' c!"&quot;" (replaceChar '&' c!"&amp;" s))

/-- `escape_html`, src/export/html.rs:196-202. -/
def escapeHtml (s : Str) : Str :=
  replaceChar '\'' c!"&#39;"
    (replaceChar '"' c!"&quot;"
      (replaceChar '>' c!"&gt;"
        (replaceChar '<' c!"&lt;"
          (replaceChar '&' c!"&amp;" s))))

/-! ### `XmlWriter`, src/core/xml_utils.rs:63-147. The writer state is its buffer. -/

/-- The attribute loop, src/core/xml_utils.rs:92-98 and 115-121. -/
def writeAttrs (buf : Str) : List (Str × Str) → Str
  | [] => buf
  | (k, v) :: rest =>
    writeAttrs (appendEscapeXml (buf ++ c!" " ++ k ++ c!"=\"") v ++ c!"\"") rest

/-- `XmlWriter::start_element`, src/core/xml_utils.rs:89-101. -/
def startElement (buf name : Str) (attrs : List (Str × Str)) : Str :=
  writeAttrs (buf ++ c!"<" ++ name) attrs ++ c!">"

/-- `XmlWriter::end_element`, src/core/xml_utils.rs:104-109. -/
def endElement (buf name : Str) : Str := buf ++ c!"</" ++ name ++ c!">"

/-- `XmlWriter::empty_element`, src/core/xml_utils.rs:112-124. -/
def emptyElement (buf name : Str) (attrs : List (Str × Str)) : Str :=
  writeAttrs (buf ++ c!"<" ++ name) attrs ++ c!"/>"

/-- `XmlWriter::text`, src/core/xml_utils.rs:127-130. -/
def writeText (buf content : Str) : Str := appendEscapeXml buf content

/-- `XmlWriter::xml_declaration`, src/core/xml_utils.rs:81-86. -/
def xmlDeclaration (buf : Str) : Str :=
  buf ++ c!"<?xml version=\"1.0\" encoding=\"UTF-8\" standalone=\"yes\"?>\n"

/-- A tree of writer calls: what a caller of `XmlWriter` wants to emit. -/
inductive WTree where
  | elem (name : Str) (attrs : List (Str × Str)) (kids : List WTree)
  | empty (name : Str) (attrs : List (Str × Str))
  | text (s : Str)

mutual
/-- The calls issued for one tree: `start_element`, the children, `end_element` (or
`empty_element`, or `text`). -/
def writeTree (buf : Str) : WTree → Str
  | .elem n as ks => endElement (writeTrees (startElement buf n as) ks) n
  | .empty n as => emptyElement buf n as
  | .text s => writeText buf s
/-- The calls issued for a list of trees. -/
def writeTrees (buf : Str) : List WTree → Str
  | [] => buf
  | t :: ts => writeTrees (writeTree buf t) ts
end

end PptRs
