import Verif.Model.Float
import Verif.Model.Drawing
import Verif.Model.Repair

/-!
The size of the text in a shape, src/generator/shapes_xml.rs 134-311, computed in `f64`.

Only the metrics that are used are modelled: `calculate_font_size` (lines 198-200) never passes the name
of a font, so that `FontMetrics::for_font` and the branch for fixed width fonts are never reached.
-/

namespace PptRs.Autofit

open PptRs.Fl

/-- A floating point literal. -/
def lit64 (q : Rat) : Val := mk b64 q

/-- One line in `estimate_wrapped_lines`, src/generator/shapes_xml.rs 276-308: the lines counted so far
and the characters of the longest line so far. -/
def estimateLine (acc : Val × Val) (line : Str) : Val × Val :=
  if line = [] then (add b64 acc.1 (lit64 1), acc.2)
  else if line.all isWs then (add b64 acc.1 (lit64 1), acc.2)
  else
    let count := mk b64 line.length
    (if lt (lit64 50) count then add b64 acc.1 (lit64 (3 / 2))
      else if lt (lit64 30) count then add b64 acc.1 (lit64 (12 / 10))
      else add b64 acc.1 (lit64 1),
     maxv acc.2 count)

/-- `estimate_wrapped_lines`, src/generator/shapes_xml.rs 272-311. -/
def estimate (lines : List Str) : Val × Val := lines.foldl estimateLine (lit64 0, lit64 0)

/-- The points that are usable of a side, src/generator/shapes_xml.rs 210-211 and 220-224. -/
def usable (emu : Nat) : Val :=
  maxv (sub b64 (mul b64 (div b64 (mk b64 emu) (lit64 914400)) (lit64 72)) (lit64 (144 / 10))) (lit64 10)

/-- The size that fits one side, src/generator/shapes_xml.rs 244-248 and 254-258. -/
def fitting (side count ratio : Val) : Val :=
  if lt (lit64 0) count then div b64 side (mul b64 count ratio) else lit64 72

/-- `calculate_font_size`, src/generator/shapes_xml.rs 198-269. -/
def fontSize (text : Str) (width height : Nat) : Nat :=
  let e := estimate (strLines text)
  let size := minv (fitting (usable width) e.2 (lit64 (1 / 2))) (fitting (usable height) e.1 (lit64 (115 / 100)))
  max 600 (min (toU maxU32 (mul b64 size (lit64 100))) 7200)

end PptRs.Autofit
