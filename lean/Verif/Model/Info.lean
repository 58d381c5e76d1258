import Verif.Model.Handlers
import Verif.Model.TextConv
import Verif.Spec.Json

/-!
# Information about a file

The tool `get_pptx_info` (src/mcp/mod.rs 279-322) answers with a JSON document, the command `info`
(src/cli/commands.rs 134-177) prints lines.

`serde_json::to_string_pretty` is written out as its documentation says: two blanks for each level,
`": "` after a key, members in the order of their keys (`serde_json` is used without
`preserve_order`). `Spec.Json` stands for `serde_json::Value`; numbers are natural numbers only.
-/

namespace PptRs.Info

open PptRs PptRs.Handlers PptRs.Import
open PptRs.Spec (Json)

/-- One character of a string as `serde_json` writes it. -/
def serdeChar (c : Char) : Str :=
  if c = '"' then c!"\\\""
  else if c = '\\' then c!"\\\\"
  else if c.toNat = 8 then c!"\\b"
  else if c.toNat = 9 then c!"\\t"
  else if c.toNat = 10 then c!"\\n"
  else if c.toNat = 12 then c!"\\f"
  else if c.toNat = 13 then c!"\\r"
  else if c.toNat < 32 then c!"\\u" ++ hex4 c.toNat
  else [c]

/-- A string as `serde_json` writes it. -/
def serdeString (s : Str) : Str := '"' :: (s.flatMap serdeChar ++ ['"'])

/-- The beginning of a line at a level. -/
def newLine (depth : Nat) : Str := '\n' :: List.replicate (2 * depth) ' '

mutual
/-- `serde_json::to_string_pretty`, the value being at a level. -/
def pretty : Nat → Json → Str
  | _, .null => c!"null"
  | _, .bool b => if b then c!"true" else c!"false"
  | _, .num n => dec n
  | _, .str s => serdeString s
  | d, .arr l => '[' :: prettyElems d l
  | d, .obj l => '{' :: prettyMembers d l
/-- The elements of an array up to its end. -/
def prettyElems : Nat → List Json → Str
  | _, [] => [']']
  | d, [v] => newLine (d + 1) ++ pretty (d + 1) v ++ (newLine d ++ [']'])
  | d, v :: l => newLine (d + 1) ++ pretty (d + 1) v ++ (',' :: prettyElems d l)
/-- The members of an object up to its end. -/
def prettyMembers : Nat → List (Str × Json) → Str
  | _, [] => ['}']
  | d, [(k, v)] => newLine (d + 1) ++ serdeString k ++ c!": " ++ pretty (d + 1) v ++ (newLine d ++ ['}'])
  | d, (k, v) :: l => newLine (d + 1) ++ serdeString k ++ c!": " ++ pretty (d + 1) v ++ (',' :: prettyMembers d l)
end

/-- The names of what is on a slide, src/mcp/mod.rs 285-302. -/
def features (table images charts shapes : Bool) : List Str :=
  (if table then [c!"table"] else []) ++ (if images then [c!"images"] else []) ++
  (if charts then [c!"charts"] else []) ++ (if shapes then [c!"shapes"] else [])

/-- The entry of a slide, src/mcp/mod.rs 284-309. `import_pptx` adds no pictures to a slide
(src/import/mod.rs 20-73), and `DeckSlide` has none. -/
def slideInfo (i : Nat) (s : DeckSlide) : Json :=
  .obj [(c!"bullet_count", .num s.text.bullets.length),
    (c!"features", .arr ((features s.text.table.isSome false (!s.charts.isEmpty) (!s.shapes.isEmpty)).map .str)),
    (c!"slide_number", .num (i + 1)),
    (c!"title", .str s.text.title)]

/-- src/mcp/mod.rs 282-316. -/
def infoValue (p : Pres) : Json :=
  .obj [(c!"slide_count", .num p.slides.length),
    (c!"slides", .arr (p.slides.mapIdx slideInfo)),
    (c!"title", .str p.title)]

/-- `handle_get_pptx_info`, src/mcp/mod.rs 279-322. -/
def getInfo (w : World) (path : Str) : Reply :=
  match w.load path with
  | some p => .ok (pretty 0 (infoValue p))
  | none => .error c!"Failed to read presentation"

/-- What is between a marker and the next end marker, src/cli/commands.rs 159-164 and 165-171. -/
def between (a b s : Str) : Option Str := (splitOnce? a s).bind fun p => (splitOnce? b p.2).map (·.1)

/-- src/cli/commands.rs 155-173: `content` is the text of the file, `none` if it is not UTF-8. -/
def presentationLines (content : Option Str) : List Str :=
  match content with
  | none => []
  | some s =>
    if startsWith c!"<?xml" s then
      [[], c!"Presentation Information", c!"========================"] ++
      ((between c!"<title>" c!"</title>" s).map fun t => c!"Title: " ++ t).toList ++
      ((between c!"count=\"" c!"\"" s).map fun t => c!"Slides: " ++ t).toList
    else []

/-- `InfoCommand::execute`, src/cli/commands.rs 134-176, the lines it prints. The age is given as
text. -/
def infoCommand (path : Str) (size : Nat) (modified : Str) (isFile : Bool) (content : Option Str) : List Str :=
  [c!"File Information", c!"================", c!"Path:     " ++ path,
    c!"Size:     " ++ dec size ++ c!" bytes", c!"Modified: " ++ modified,
    c!"Is file:  " ++ (if isFile then c!"true" else c!"false")] ++ presentationLines content

end PptRs.Info
