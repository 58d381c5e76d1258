import Verif.Model.SlideText

/-!
# Inline formatting

`src/generator/slide/formatting.rs`: text with `**bold**`, `*italic*` and `` `code` ``, and the runs
written for it. `escape_xml` is the part `esc`; `to_uppercase` is the ASCII one, as elsewhere.
-/

namespace PptRs.Inline

open PptRs

/-- `TextSegment`, src/generator/slide/formatting.rs 10-15. -/
structure Segment where
  text : Str
  bold : Bool
  italic : Bool
  code : Bool
deriving DecidableEq, Repr

/-- Text collected so far, if there is any, src/generator/slide/formatting.rs 29-37, 53-61 and 64-72. -/
def flush (cur : Str) (bold italic : Bool) : List Segment :=
  if cur.isEmpty then [] else [⟨cur, bold, italic, false⟩]

/-- The loop and the segment after it, src/generator/slide/formatting.rs 26-89. -/
def segs (cur : Str) (bold italic code : Bool) : Str → List Segment
  | [] => if cur.isEmpty then [] else [⟨cur, bold, italic, code⟩]
  | [c] =>
    if c = '`' then
      if code then [⟨cur, false, false, true⟩] else flush cur bold italic
    else if (c = '*' ∨ c = '_') ∧ code = false then flush cur bold italic
    else [⟨cur ++ [c], bold, italic, code⟩]
  | c :: d :: r =>
    if c = '`' then
      if code then ⟨cur, false, false, true⟩ :: segs [] bold italic false (d :: r)
      else flush cur bold italic ++ segs [] bold italic true (d :: r)
    else if (c = '*' ∨ c = '_') ∧ code = false then
      if d = c then flush cur bold italic ++ segs [] (!bold) italic false r
      else flush cur bold italic ++ segs [] bold (!italic) false (d :: r)
    else segs (cur ++ [c]) bold italic code (d :: r)

/-- `parse_inline_formatting`, src/generator/slide/formatting.rs 18-101. -/
def parse (text : Str) : List Segment :=
  let l := segs [] false false false text
  if l.isEmpty then [⟨text, false, false, false⟩] else l

/-- One run, src/generator/slide/formatting.rs 114-143. -/
def runXml (size : Nat) (bold italic : Bool) (color : Option Str) (s : Segment) : List Part :=
  if s.code then
    t!"<a:r><a:rPr lang=\"en-US\" sz=\"{.num size}\" dirty=\"0\"><a:latin typeface=\"Consolas\"/><a:solidFill><a:srgbClr val=\"C7254E\"/></a:solidFill></a:rPr><a:t>{.esc s.text}</a:t></a:r>"
  else
    t!"<a:r><a:rPr lang=\"en-US\" sz=\"{.num size}\" b=\"{.raw (flag (bold || s.bold))}\" i=\"{.raw (flag (italic || s.italic))}\" dirty=\"0\""
    ++ (match color with
      | some c => t!"><a:solidFill><a:srgbClr val=\"{.raw (cleanColor c)}\"/></a:solidFill></a:rPr>"
      | none => t!"/>")
    ++ t!"<a:t>{.esc s.text}</a:t></a:r>"

/-- `generate_rich_text_runs`, src/generator/slide/formatting.rs 104-147. -/
def richRuns (text : Str) (size : Nat) (bold italic : Bool) (color : Option Str) : List Part :=
  (parse text).flatMap (runXml size bold italic color)

end PptRs.Inline
