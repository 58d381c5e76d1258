import Verif.Model.Comments
import Verif.Model.Sections
import Verif.Model.Settings
import Verif.Model.Utf8

/-!
# The XML of comments, comment authors and sections
-/

namespace PptRs

/-- `CommentAuthor::to_xml`, src/generator/slide_content/comments.rs 33-41; `xml_escape` of 220-226 is the
`esc` of a template. -/
def CommentAuthor.xml (a : CommentAuthor) : List Part :=
  t!"<p:cmAuthor id=\"{.num a.id}\" name=\"{.esc a.name}\" initials=\"{.esc a.initials}\" lastIdx=\"1\" clrIdx=\"{.num a.colorIndex}\"/>"

/-- The elements of `CommentAuthorList::to_xml`, src/generator/slide_content/comments.rs 152-158. -/
def CommentAuthorList.body (l : CommentAuthorList) : List Part :=
  t!"<p:cmAuthorLst xmlns:a=\"http://schemas.openxmlformats.org/drawingml/2006/main\" xmlns:r=\"http://schemas.openxmlformats.org/officeDocument/2006/relationships\" xmlns:p=\"http://schemas.openxmlformats.org/presentationml/2006/main\">"
    ++ l.authors.flatMap CommentAuthor.xml ++ t!"</p:cmAuthorLst>"

/-- `CommentAuthorList::to_xml`, src/generator/slide_content/comments.rs 148-160. -/
def CommentAuthorList.xml (l : CommentAuthorList) : Str := Settings.xmlDeclTight ++ fmt l.body

/-- src/generator/slide_content/comments.rs 46-53. -/
structure Comment where
  authorId : Nat
  text : Str
  date : Str
  x : Nat
  y : Nat
  index : Nat
deriving DecidableEq, Repr

namespace Comment

/-- src/generator/slide_content/comments.rs 57-66. -/
def new (authorId : Nat) (text : Str) : Comment := ⟨authorId, text, c!"2025-01-01T00:00:00.000", 0, 0, 1⟩

/-- src/generator/slide_content/comments.rs 69-73. -/
def position (c : Comment) (x y : Nat) : Comment := { c with x := x, y := y }

/-- src/generator/slide_content/comments.rs 76-79. -/
def withDate (c : Comment) (d : Str) : Comment := { c with date := d }

/-- src/generator/slide_content/comments.rs 82-85. -/
def withIndex (c : Comment) (i : Nat) : Comment := { c with index := i }

/-- src/generator/slide_content/comments.rs 88-98. -/
def xml (c : Comment) : List Part :=
  t!"<p:cm authorId=\"{.num c.authorId}\" dt=\"{.esc c.date}\" idx=\"{.num c.index}\"><p:pos x=\"{.num c.x}\" y=\"{.num c.y}\"/><p:text>{.esc c.text}</p:text></p:cm>"

end Comment

/-- `SlideComments`, src/generator/slide_content/comments.rs 165-167 and 170-172, as the list of the comments. -/
abbrev SlideComments := List Comment

namespace SlideComments

/-- src/generator/slide_content/comments.rs 175-177. -/
def add (l : SlideComments) (c : Comment) : SlideComments := l ++ [c]

/-- src/generator/slide_content/comments.rs 180-187. The number of comments is assumed to fit `u32`. -/
def addComment (l : SlideComments) (authorId : Nat) (text : Str) (x y : Nat) : SlideComments :=
  l ++ [((Comment.new authorId text).position x y).withIndex (l.length + 1)]

/-- The elements of `SlideComments::to_xml`, src/generator/slide_content/comments.rs 209-215. -/
def body (l : SlideComments) : List Part :=
  t!"<p:cmLst xmlns:a=\"http://schemas.openxmlformats.org/drawingml/2006/main\" xmlns:r=\"http://schemas.openxmlformats.org/officeDocument/2006/relationships\" xmlns:p=\"http://schemas.openxmlformats.org/presentationml/2006/main\">"
    ++ l.flatMap Comment.xml ++ t!"</p:cmLst>"

/-- `SlideComments::to_xml`, src/generator/slide_content/comments.rs 205-217. -/
def xml (l : SlideComments) : Str := Settings.xmlDeclTight ++ fmt (body l)

end SlideComments

/-! ### Sections -/

/-- One upper case hexadecimal digit. -/
def hexDigitU (n : Nat) : Char := if n < 10 then Char.ofNat (48 + n) else Char.ofNat (55 + n)

/-- `{:0wX}` for a number below `16 ^ w`. -/
def hexU : Nat → Nat → Str
  | 0, _ => []
  | w + 1, n => hexU w (n / 16) ++ [hexDigitU (n % 16)]

/-- The loop of `generate_section_id`, src/generator/slide_content/sections.rs 160-164. -/
def sectionHash (bytes : Bytes) : UInt64 :=
  bytes.foldl (fun h b => (h ^^^ b.toUInt64) * 0x100000001b3) 0xcbf29ce484222325

/-- src/generator/slide_content/sections.rs 165-176: the text of a hash. -/
def sectionIdOf (h : UInt64) : Str :=
  let d := h * 0x9e3779b97f4a7c15
  hexU 8 (h.toNat / 2 ^ 32) ++ c!"-" ++ hexU 4 (h.toNat % 2 ^ 16) ++ c!"-" ++ hexU 4 (h.toNat / 2 ^ 16 % 2 ^ 16)
    ++ c!"-" ++ hexU 4 (d.toNat % 2 ^ 16) ++ c!"-" ++ hexU 12 (d.toNat / 2 ^ 16)

/-- `generate_section_id`, src/generator/slide_content/sections.rs 159-177. -/
def sectionId (name : Str) : Str := sectionIdOf (sectionHash (encode name))

/-- One section, src/generator/slide_content/sections.rs 129-142. -/
def SlideSection.xml (total : Nat) (s : SlideSection) : List Part :=
  t!"<p14:section name=\"{.esc s.name}\" id=\"\x7b{.raw (sectionId s.name)}}\"><p14:sldIdLst>"
    ++ (SectionManager.sectionIds total s).flatMap (fun n => t!"<p14:sldId id=\"{.num n}\"/>")
    ++ t!"</p14:sldIdLst></p14:section>"

/-- The elements of `SectionManager::to_xml`, src/generator/slide_content/sections.rs 124-145. -/
def SectionManager.body (m : SectionManager) (total : Nat) : List Part :=
  t!"<p:extLst><p:ext uri=\"\x7b521415D9-36F7-43E2-AB2F-B90AF26B5E84}\"><p14:sectionLst xmlns:p14=\"http://schemas.microsoft.com/office/powerpoint/2010/main\">"
    ++ m.sections.flatMap (SlideSection.xml total) ++ t!"</p14:sectionLst></p:ext></p:extLst>"

/-- `SectionManager::to_xml`, src/generator/slide_content/sections.rs 119-147; `xml_escape` of 179-185 is the `esc` of a
template. -/
def SectionManager.xml (m : SectionManager) (total : Nat) : Str :=
  if m.sections = [] then [] else fmt (m.body total)

end PptRs
