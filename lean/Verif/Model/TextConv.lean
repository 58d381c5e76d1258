import Verif.Model.Xml
import Verif.Model.Color

/-!
# Conversions of text: JSON strings, Markdown, HTML entities, truncation
-/

namespace PptRs

/-! ### JSON -/

/-- `char::is_control`: the general category `Cc`. -/
def isControl (c : Char) : Bool := c.toNat < 32 || (127 ≤ c.toNat && c.toNat < 160)

/-- A lower-case hexadecimal digit. -/
def hexLower (n : Nat) : Char := if n < 10 then Char.ofNat (48 + n) else Char.ofNat (87 + n)

/-- `format!("{:04x}", n)` for `n < 65536`; control characters are below 160. -/
def hex4 (n : Nat) : Str :=
  [hexLower (n / 4096 % 16), hexLower (n / 256 % 16), hexLower (n / 16 % 16), hexLower (n % 16)]

/-- src/cli/commands.rs 275-283. -/
def jsonChar (c : Char) : Str :=
  if c = '"' then c!"\\\""
  else if c = '\\' then c!"\\\\"
  else if c = '\n' then c!"\\n"
  else if c = '\r' then c!"\\r"
  else if c = '\t' then c!"\\t"
  else if isControl c then c!"\\u" ++ hex4 c.toNat
  else [c]

/-- `json_string`, src/cli/commands.rs 271-287. -/
def jsonString (s : Str) : Str := c!"\"" ++ s.flatMap jsonChar ++ c!"\""

/-! ### Markdown -/

/-- `escape_markdown`, src/export/md.rs 211-221. -/
def escapeMarkdown (s : Str) : Str :=
  replaceChar '>' c!"\\>" (replaceChar '<' c!"\\<" (replaceChar '#' c!"\\#" (replaceChar '`' c!"\\`"
    (replaceChar ']' c!"\\]" (replaceChar '[' c!"\\[" (replaceChar '_' c!"\\_" (replaceChar '*' c!"\\*"
      (replaceChar '\\' c!"\\\\" s))))))))

/-- `escape_yaml`, src/export/md.rs 224-231. -/
def escapeYaml (s : Str) : Str :=
  if s.contains '\n' || s.contains '"' || s.contains '\\' then c!"|\n  " ++ replaceChar '\n' c!"\n  " s
  else replaceChar '\\' c!"\\\\" (replaceChar '"' c!"\\\"" s)

/-- A row of cells, src/export/md.rs 182-187 and 198-203. -/
def gfmRow (cells : List Str) : Str := c!"| " ++ cells.flatMap (fun t => escapeMarkdown t ++ c!" | ") ++ c!"\n"

/-- The line below the header, src/export/md.rs 190-194. -/
def gfmSeparator (n : Nat) : Str := c!"|" ++ (List.replicate n c!" --- |").flatten ++ c!"\n"

/-- `export_table_to_gfm`, src/export/md.rs 177-208, on the texts of the cells. -/
def exportTableGfm : List (List Str) → Str
  | [] => []
  | head :: rows => gfmRow head ++ gfmSeparator head.length ++ rows.flatMap gfmRow

/-- What `export_to_markdown` uses of a slide. A code block is its language and its code; an image is its
format. -/
structure MdSlide where
  title : Str
  content : List Str
  table : Option (List (List Str))
  images : List Str
  code : List (Str × Str)
  notes : Option Str
deriving DecidableEq, Repr

/-- src/export/md.rs 11-24. -/
structure MdOptions where
  slideNumbers : Bool
  separator : Str
  notes : Bool
  gfmTables : Bool
  images : Bool
  frontmatter : Bool
deriving DecidableEq, Repr

/-- src/export/md.rs 110-120. -/
def mdHeading (o : MdOptions) (i : Nat) (s : MdSlide) : Str :=
  (if i > 0 || o.slideNumbers then c!"\n" ++ o.separator ++ c!"\n\n" else []) ++
  (if o.slideNumbers then c!"## Slide " ++ dec (i + 1) ++ c!": " ++ escapeMarkdown s.title ++ c!"\n\n"
   else c!"## " ++ escapeMarkdown s.title ++ c!"\n\n")

/-- src/export/md.rs 123-128. -/
def mdBullets (s : MdSlide) : Str :=
  if s.content = [] then []
  else s.content.flatMap (fun t => c!"- " ++ escapeMarkdown t ++ c!"\n") ++ c!"\n"

/-- src/export/md.rs 131-135. (`has_table` is set exactly if there is a table.) -/
def mdTable (o : MdOptions) (s : MdSlide) : Str :=
  if o.gfmTables then (s.table.toList.flatMap fun t => exportTableGfm t ++ c!"\n") else []

/-- src/export/md.rs 138-150; `ext` is what becomes of the image's format in line 147. -/
def mdImage (ext : Str → Str) (i j : Nat) (format : Str) : Str :=
  c!"![Image " ++ dec (j + 1) ++ c!" on slide " ++ dec (i + 1) ++ c!"](images/slide" ++ dec (i + 1) ++ c!"_image" ++
    dec (j + 1) ++ ext format ++ c!")\n\n"

/-- src/export/md.rs 138-150. -/
def mdImages (ext : Str → Str) (o : MdOptions) (i : Nat) (s : MdSlide) : Str :=
  if o.images then s.images.zipIdx.flatMap (fun x => mdImage ext i x.2 x.1) else []

/-- src/export/md.rs 153-161. -/
def mdCode (s : MdSlide) : Str :=
  s.code.flatMap fun b => c!"```" ++ b.1 ++ c!"\n" ++ b.2 ++ c!"\n```\n\n"

/-- src/export/md.rs 164-170. -/
def mdNotes (o : MdOptions) (s : MdSlide) : Str :=
  if o.notes && !(s.notes.getD []).isEmpty then
    c!"**Notes:**\n\n" ++ c!"> " ++ escapeMarkdown (s.notes.getD []) ++ c!"\n\n"
  else []

/-- One slide, src/export/md.rs 107-171. -/
def mdSlide (ext : Str → Str) (o : MdOptions) (i : Nat) (s : MdSlide) : Str :=
  mdHeading o i s ++ mdBullets s ++ mdTable o s ++ mdImages ext o i s ++ mdCode s ++ mdNotes o s

/-- src/export/md.rs 95-104. -/
def mdPreamble (o : MdOptions) (title : Str) (count : Nat) : Str :=
  (if o.frontmatter then
    c!"---\n" ++ c!"title: \"" ++ escapeYaml title ++ c!"\"\n" ++ c!"slides: " ++ dec count ++ c!"\n" ++
      c!"generator: ppt-rs\n" ++ c!"---\n\n"
   else []) ++ c!"# " ++ title ++ c!"\n\n"

/-- `export_to_markdown_with_options`, src/export/md.rs 88-174. -/
def exportMarkdown (ext : Str → Str) (o : MdOptions) (title : Str) (slides : List MdSlide) : Str :=
  mdPreamble o title slides.length ++ slides.zipIdx.flatMap fun x => mdSlide ext o x.2 x.1

/-! ### HTML entities -/

/-- `u32::from_str_radix(s, 16)`. -/
def parseHexU32? (s : Str) : Option Nat :=
  let body := dropPlus s
  if body = [] then none
  else (hexDigits 0 body).bind fun n => if n < 4294967296 then some n else none

/-- `char::from_u32`. -/
def charOfU32? (n : Nat) : Option Char := if n.isValidChar then some (Char.ofNat n) else none

/-- The character of an entity (the text between `&` and `;`), src/import/html.rs 133-155. The six codes
listed separately in lines 140-145 have the value that the general rule gives them. -/
def entityChar (e : Str) : Option Char :=
  if e = c!"amp" then some '&'
  else if e = c!"lt" then some '<'
  else if e = c!"gt" then some '>'
  else if e = c!"quot" then some '"'
  else if e = c!"apos" ∨ e = c!"#39" ∨ e = c!"#x27" then some '\''
  else if e = c!"nbsp" then some '\u00a0'
  else
    match stripPrefix? c!"#x" e with
    | some hex => (parseHexU32? hex).bind charOfU32?
    | none =>
      match stripPrefix? c!"#" e with
      | some num => (parseU32? num).bind charOfU32?
      | none => none

/-- The entity at the beginning of a text that starts behind `&`, with the text behind it. -/
def entityAt (s : Str) : Option (Char × Str) :=
  (splitOnce? c!";" s).bind fun p => (entityChar p.1).map fun c => (c, p.2)

/-- The loop of `decode_entities`, src/import/html.rs 129-166. The fuel is the length of the text. -/
def decodeLoop : Nat → Str → Str
  | 0, _ => []
  | _ + 1, [] => []
  | fuel + 1, c :: s =>
    if c = '&' then
      match entityAt s with
      | some (d, rest) => d :: decodeLoop fuel rest
      | none => c :: decodeLoop fuel s
    else c :: decodeLoop fuel s

/-- `decode_entities`, src/import/html.rs 125-168. -/
def decodeEntities (s : Str) : Str := decodeLoop s.length s

/-! ### Truncation -/

/-- `&text[..end]` for the largest character boundary `end` not above the budget,
src/web2ppt/converter.rs 13-16. -/
def takeBytes : Nat → Str → Str
  | _, [] => []
  | n, c :: s => if utf8Size c ≤ n then c :: takeBytes (n - utf8Size c) s else []

/-- `truncate_text`, src/web2ppt/converter.rs 7-26. The position of the last space is the length of the text
before it. -/
def truncateText (s : Str) (maxLen : Nat) : Str :=
  if utf8Len s ≤ maxLen then s
  else
    let cut := takeBytes maxLen s
    let cut :=
      match rsplitOnceChar? ' ' cut with
      | some (a, _) => if utf8Len a > maxLen / 2 then a else cut
      | none => cut
    trimEnd cut ++ c!"..."

end PptRs
