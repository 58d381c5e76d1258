import Verif.Model.Quick

/-!
# Filling, outlining and labelling shapes (C134)
-/

namespace PptRs.Props

open PptRs PptRs.Quick PptRs.Units PptRs.Draw

/-- **C134.** `fill`, `stroke` and `text` set what they are given and leave the rest of the shape as it is. -/
theorem C134_setters (s : Shape) (c : RgbColor) (w : Fl.Val) (t : Str) :
    fill s (.rgb c) = { s with fill := some (.new c.toHex), gradient := none } ∧
    stroke s (.rgb c) w = { s with line := some ⟨cleanColor c.toHex, scaled perPt w⟩ } ∧
    Quick.text s t = { s with text := some t } := ⟨rfl, rfl, rfl⟩

example : (stroke { kind := .rectangle, x := 1, y := 2, width := 3, height := 4, text := some c!"a" } (.rgb ⟨255, 0, 0⟩) (.fin 1)).text =
    some c!"a" := rfl

end PptRs.Props
