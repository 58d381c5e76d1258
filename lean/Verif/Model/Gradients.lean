import Verif.Model.SlideText
import Verif.Model.Sort

/-!
# Gradient fills

`src/generator/gradients.rs`. `u32` arithmetic that overflows or goes below zero is a panic, `none`.
-/

namespace PptRs.Grad

open PptRs

/-- `GradientType`, src/generator/gradients.rs 7-16. -/
inductive Kind where
  | linear | radial | rectangular | path
deriving DecidableEq, Repr

/-- `GradientType::xml_value`, src/generator/gradients.rs 20-27. -/
def Kind.xmlValue : Kind → Str
  | .linear => c!"lin"
  | .radial => c!"circle"
  | .rectangular => c!"rect"
  | .path => c!"path"

/-- `GradientDirection`, src/generator/gradients.rs 32-43. -/
inductive Direction where
  | horizontal | vertical | diagonalDown | diagonalUp
  | custom (degrees : Nat)
deriving DecidableEq, Repr

/-- `GradientDirection::angle`, src/generator/gradients.rs 47-55. -/
def Direction.angle : Direction → Option Nat
  | .horizontal => some 0
  | .vertical => some 5400000
  | .diagonalDown => some 2700000
  | .diagonalUp => some 18900000
  | .custom d => if d * 60000 < 4294967296 then some (d * 60000) else none

/-- `GradientStop`, src/generator/gradients.rs 60-67. -/
structure Stop where
  position : Nat
  color : Str
  transparency : Option Nat
deriving DecidableEq, Repr

/-- `GradientStop::new`, src/generator/gradients.rs 71-77. -/
def Stop.new (position : Nat) (color : Str) : Stop := ⟨min position 100000, cleanColor color, none⟩

/-- `GradientStop::start`, src/generator/gradients.rs 80-82. -/
def Stop.start (color : Str) : Stop := .new 0 color

/-- `GradientStop::middle`, src/generator/gradients.rs 85-87. -/
def Stop.middle (color : Str) : Stop := .new 50000 color

/-- `GradientStop::end`, src/generator/gradients.rs 90-92. -/
def Stop.end' (color : Str) : Stop := .new 100000 color

/-- `GradientStop::with_transparency`, src/generator/gradients.rs 95-98. -/
def Stop.withTransparency (s : Stop) (percent : Nat) : Stop :=
  { s with transparency := some (min percent 100 * 1000) }

/-- `GradientFill`, src/generator/gradients.rs 103-112. -/
structure Fill where
  kind : Kind
  direction : Direction
  stops : List Stop
  rotate : Bool
deriving DecidableEq, Repr

/-- `GradientFill::new`, src/generator/gradients.rs 116-123. -/
def Fill.new (k : Kind) : Fill := ⟨k, .vertical, [], true⟩

/-- `GradientFill::linear`, src/generator/gradients.rs 126-130. -/
def Fill.linear (d : Direction) : Fill := { Fill.new .linear with direction := d }

/-- `GradientFill::radial`, src/generator/gradients.rs 133-135. -/
def Fill.radial : Fill := .new .radial

/-- `GradientFill::add_stop`, src/generator/gradients.rs 153-156. -/
def Fill.addStop (g : Fill) (s : Stop) : Fill := { g with stops := g.stops ++ [s] }

/-- `GradientFill::two_color`, src/generator/gradients.rs 138-142. -/
def Fill.twoColor (a b : Str) : Fill := ((Fill.linear .vertical).addStop (.start a)).addStop (.end' b)

/-- `GradientFill::three_color`, src/generator/gradients.rs 145-150. -/
def Fill.threeColor (a b c : Str) : Fill :=
  (((Fill.linear .vertical).addStop (.start a)).addStop (.middle b)).addStop (.end' c)

/-- `GradientFill::with_direction`, src/generator/gradients.rs 159-162. -/
def Fill.withDirection (g : Fill) (d : Direction) : Fill := { g with direction := d }

/-- `GradientFill::with_rotate`, src/generator/gradients.rs 165-168. -/
def Fill.withRotate (g : Fill) (r : Bool) : Fill := { g with rotate := r }

/-- `GradientFill::sorted`, src/generator/gradients.rs 171-174. -/
def Fill.sorted (g : Fill) : Fill := { g with stops := sortByKey (·.position) g.stops }

/-- `PresetGradients`, src/generator/gradients.rs 180-237. -/
def presets : List Fill := [
  .twoColor c!"0066CC" c!"003366",
  .twoColor c!"00CC66" c!"006633",
  .twoColor c!"CC0000" c!"660000",
  .twoColor c!"FF9900" c!"CC6600",
  .twoColor c!"9933CC" c!"660099",
  .twoColor c!"999999" c!"333333",
  .threeColor c!"FF6600" c!"FFCC00" c!"FFFF66",
  .threeColor c!"003366" c!"0066CC" c!"66CCFF",
  .threeColor c!"003300" c!"006600" c!"66CC66",
  [(0, c!"FF0000"), (17000, c!"FF9900"), (33000, c!"FFFF00"), (50000, c!"00FF00"), (67000, c!"0000FF"), (83000, c!"9900FF"),
    (100000, c!"FF00FF")].foldl (fun g p => g.addStop (.new p.1 p.2)) (Fill.linear .horizontal)]

/-- The opacity written for a transparency, src/generator/gradients.rs 253-254. -/
def opacity : Option Nat → Option (Option Nat)
  | none => some none
  | some a => if a ≤ 100000 then some (some (100000 - a)) else none

/-- The text of a stop, src/generator/gradients.rs 248-259. -/
def stopText (position : Nat) (color : Str) (alpha : Option Nat) : List Part :=
  t!"<a:gs pos=\"{.num position}\"><a:srgbClr val=\"{.raw color}\""
  ++ (match alpha with
    | some a => t!"><a:alpha val=\"{.num a}\"/></a:srgbClr>"
    | none => t!"/>")
  ++ t!"</a:gs>"

/-- One stop, src/generator/gradients.rs 247-260. -/
def stopXml (s : Stop) : Option (List Part) := (opacity s.transparency).map (stopText s.position s.color)

/-- The end, src/generator/gradients.rs 264-277. -/
def shadeXml (g : Fill) : Option (List Part) :=
  if g.kind = .linear then g.direction.angle.map fun a => t!"<a:lin ang=\"{.num a}\" scaled=\"1\"/>"
  else some t!"<a:path path=\"{.raw g.kind.xmlValue}\"><a:fillToRect l=\"50000\" t=\"50000\" r=\"50000\" b=\"50000\"/></a:path>"

/-- `generate_gradient_fill_xml`, src/generator/gradients.rs 240-281. -/
def fillXml (g : Fill) : Option (List Part) := do
  let stops ← g.stops.mapM stopXml
  let shade ← shadeXml g
  return t!"<a:gradFill rotWithShape=\"{.raw (flag g.rotate)}\"><a:gsLst>" ++ stops.flatten ++ t!"</a:gsLst>" ++ shade
    ++ t!"</a:gradFill>"

end PptRs.Grad
