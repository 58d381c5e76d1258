import Verif.Model.TextFrame

/-!
# Building runs, paragraphs and frames of text

A product that does not fit into `u32` is a panic, `none`.
-/

namespace PptRs.TextBuild

open PptRs PptRs.Text

/-- The methods of `Run`, src/generator/text/run.rs 24-63, and of `FormattedText`, src/generator/text/format.rs
146-203: both replace the format or pass one setting on to it. Each of the two has only some of the setters. -/
inductive RunCall where
  | format (f : Format)
  | set (s : Setter)

/-- What they do, src/generator/text/run.rs 24-63 and src/generator/text/format.rs 146-203. -/
def callRun (r : Run) : RunCall → Run
  | .format f => { r with format := f }
  | .set s => r.set s

/-- `Run::new`, src/generator/text/run.rs 16-21, and `FormattedText::new`, src/generator/text/format.rs 138-143. -/
def newRun (text : Str) : Run := ⟨text, {}⟩

/-- The methods of `Paragraph`, src/generator/text/paragraph.rs 41-80. -/
inductive ParaCall where
  | run (r : Run)
  | text (s : Str)
  | align (a : Align)
  | bullet
  | level (n : Nat)
  | before (n : Nat)
  | after (n : Nat)

/-- What they do, src/generator/text/paragraph.rs 41-80. -/
def callPara (p : Paragraph) : ParaCall → Option Paragraph
  | .run r => some { p with runs := p.runs ++ [r] }
  | .text s => some { p with runs := p.runs ++ [newRun s] }
  | .align a => some { p with align := a }
  | .bullet => some { p with bullet := true }
  | .level n => some (p.withLevel n)
  | .before n => p.spacingBefore n
  | .after n => p.spacingAfter n

/-- The methods of `TextFrame`, src/generator/text/frame.rs 41-65. -/
inductive FrameCall where
  | paragraph (p : Paragraph)
  | text (s : Str)
  | anchor (a : Anchor)
  | margins (left right top bottom : Nat)

/-- What they do, src/generator/text/frame.rs 41-65. -/
def callFrame (f : TextFrame) : FrameCall → TextFrame
  | .paragraph p => { f with paragraphs := f.paragraphs ++ [p] }
  | .text s => f.addText s
  | .anchor a => { f with anchor := a }
  | .margins l r t b => { f with left := l, right := r, top := t, bottom := b }

/-- `TextFrame::with_text`, src/generator/text/frame.rs 34-38. -/
def frameOfText (s : Str) : TextFrame := { paragraphs := [.ofText s] }

end PptRs.TextBuild
