import Verif.Model.CommentXml
import Verif.Spec.Drawing

/-!
# Reading comments, comment authors and sections
-/

namespace PptRs.Spec

/-- A comment author as it is read. -/
structure AuthorRead where
  id : Option Str
  name : Option Str
  initials : Option Str
  /-- the index of the author's last comment -/
  last : Option Str
  color : Option Str
deriving DecidableEq

/-- The authors listed by the root of a part. -/
def readAuthors (k : Node) : List AuthorRead :=
  (path [c!"p:cmAuthor"] k).map fun a =>
    ⟨attrOf c!"id" a, attrOf c!"name" a, attrOf c!"initials" a, attrOf c!"lastIdx" a, attrOf c!"clrIdx" a⟩

/-- A comment as it is read. -/
structure CommentRead where
  author : Option Str
  date : Option Str
  index : Option Str
  x : Option Str
  y : Option Str
  /-- the contents of the text elements -/
  text : List Str
deriving DecidableEq

/-- The content of an element. -/
def contentOf : Node → Str
  | .text _ => []
  | .elem _ _ ks => textOf ks

/-- The comments listed by the root of a part. -/
def readComments (k : Node) : List CommentRead :=
  (path [c!"p:cm"] k).map fun c =>
    ⟨attrOf c!"authorId" c, attrOf c!"dt" c, attrOf c!"idx" c, pathAttr [c!"p:pos"] c!"x" c, pathAttr [c!"p:pos"] c!"y" c,
      (path [c!"p:text"] c).map contentOf⟩

/-- A section as it is read: name, id and the ids of its slides. -/
structure SectionRead where
  name : Option Str
  id : Option Str
  slides : List (Option Str)
deriving DecidableEq

/-- The sections listed in an extension list. -/
def readSections (k : Node) : List SectionRead :=
  (path [c!"p:ext", c!"p14:sectionLst", c!"p14:section"] k).map fun s =>
    ⟨attrOf c!"name" s, attrOf c!"id" s, (path [c!"p14:sldIdLst", c!"p14:sldId"] s).map (attrOf c!"id")⟩

/-- A digit of a GUID. -/
def isGuidDigit (c : Char) : Bool := c.isDigit || ('A' ≤ c && c ≤ 'F')

/-- The form of a GUID: five groups of 8, 4, 4, 4 and 12 hexadecimal digits in braces. -/
def IsGuid (s : Str) : Prop :=
  ∃ a b c d e : Str, s = c!"{" ++ a ++ c!"-" ++ b ++ c!"-" ++ c ++ c!"-" ++ d ++ c!"-" ++ e ++ c!"}" ∧
    a.length = 8 ∧ b.length = 4 ∧ c.length = 4 ∧ d.length = 4 ∧ e.length = 12 ∧
    (a ++ b ++ c ++ d ++ e).all isGuidDigit = true

end PptRs.Spec
