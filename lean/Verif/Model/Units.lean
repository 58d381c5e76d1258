import Verif.Model.Float
import Verif.Model.Drawing

/-!
Lengths: src/core/dimension.rs, src/elements/position.rs, the conversions of src/prelude.rs,
src/generator/shapes.rs and the scaling of src/generator/images.rs. Numbers are binary floating point
numbers (`Fl.Val`).
-/

namespace PptRs.Units

open PptRs.Fl

/-- `SLIDE_WIDTH_EMU`, src/core/dimension.rs 21. -/
def slideWidth : Nat := 9144000

/-- `SLIDE_HEIGHT_EMU`, src/core/dimension.rs 23. -/
def slideHeight : Nat := 6858000

/-- `EMU_PER_INCH`, src/core/dimension.rs 26. -/
def perInch : Nat := 914400

/-- `EMU_PER_CM`, src/core/dimension.rs 28. -/
def perCm : Nat := 360000

/-- `EMU_PER_PT`, src/core/dimension.rs 30. -/
def perPt : Nat := 12700

/-- `(v * unit) as u32`, as in src/core/dimension.rs 57-59; also `inches`, `cm` and `pt`,
src/prelude.rs 152-164, `inches_to_emu` and `cm_to_emu`, src/generator/shapes.rs 731-738, the width of
a stroke, src/helpers/mod.rs 340, and column widths, src/helpers/tables.rs 38-41. -/
def scaled (unit : Nat) (v : Val) : Nat := toU maxU32 (mul b64 v (.fin unit))

/-- `Dimension`, src/core/dimension.rs 37-48. -/
inductive Dimension where
  | emu (v : Nat)
  | inches (v : Val)
  | cm (v : Val)
  | pt (v : Val)
  | ratio (r : Val)
  deriving DecidableEq, Repr

/-- `Dimension::percent`, src/core/dimension.rs 110-112. -/
def Dimension.percent (v : Val) : Dimension := .ratio (div b64 v (.fin 100))

/-- `to_emu`, src/core/dimension.rs 54-64; `clamp_ratio`, src/core/validation.rs 58-60. -/
def Dimension.toEmu (reference : Nat) : Dimension → Nat
  | .emu v => v
  | .inches v => scaled perInch v
  | .cm v => scaled perCm v
  | .pt v => scaled perPt v
  | .ratio r => toU maxU32 (mul b64 (clamp01 r) (mk b64 reference))

/-- `to_emu_x`, src/core/dimension.rs 67-69. -/
def Dimension.toEmuX (d : Dimension) : Nat := d.toEmu slideWidth

/-- `to_emu_y`, src/core/dimension.rs 72-74. -/
def Dimension.toEmuY (d : Dimension) : Nat := d.toEmu slideHeight

/-- `FlexPosition::to_emu_with` and `FlexSize::to_emu_with`, src/core/dimension.rs 133-135 and 156-161. -/
def flexWith (a b : Dimension) (width height : Nat) : Nat × Nat := (a.toEmu width, b.toEmu height)

/-- `FlexPosition::to_emu` and `FlexSize::to_emu`, src/core/dimension.rs 128-130 and 151-153. -/
def flex (a b : Dimension) : Nat × Nat := (a.toEmuX, b.toEmuY)

/-- `emu_to_inches`, src/generator/shapes.rs 726-728. -/
def emuToInches (emu : Nat) : Val := div b64 (mk b64 emu) (.fin perInch)

/-- `Shape::from_dimensions`, src/generator/shapes.rs 672-674. -/
def fromDimensions (t : Draw.ShapeType) (x y width height : Dimension) : Draw.Shape :=
  { kind := t, x := x.toEmuX, y := y.toEmuY, width := width.toEmuX, height := height.toEmuY }

/-- `Shape::at`, src/generator/shapes.rs 685-689. -/
def shapeAt (s : Draw.Shape) (x y : Dimension) : Draw.Shape := { s with x := x.toEmuX, y := y.toEmuY }

/-- `Shape::with_dimensions`, src/generator/shapes.rs 700-704. -/
def withDimensions (s : Draw.Shape) (width height : Dimension) : Draw.Shape :=
  { s with width := width.toEmuX, height := height.toEmuY }

/-- `aspect_ratio`, src/generator/images.rs 246-248, 522 and 530. -/
def aspect (width height : Nat) : Val := div b64 (mk b64 width) (mk b64 height)

/-- The height after `scale_to_width`, src/generator/images.rs 251-256 and 520-526. -/
def heightFor (width height new : Nat) : Nat := toU maxU32 (div b64 (mk b64 new) (aspect width height))

/-- The width after `scale_to_height`, src/generator/images.rs 259-264 and 528-534. -/
def widthFor (width height new : Nat) : Nat := toU maxU32 (mul b64 (mk b64 new) (aspect width height))

/-- `Position` and `Size` of the elements: `from_inches`, `from_cm`, src/elements/position.rs 30-43 and
70-83. -/
def signed (unit : Nat) (v : Val) : Int := toI maxI64 (mul b64 v (.fin unit))

/-- `x_inches` and the like, src/elements/position.rs 46-53 and 86-93. -/
def signedInches (emu : Int) : Val := div b64 (mk b64 emu) (.fin perInch)

/-- `Transform`, src/elements/position.rs 98-102. -/
structure Transform where
  x : Int
  y : Int
  width : Int
  height : Int
  rotation : Int := 0

/-- `Transform::from_inches`, src/elements/position.rs 115-121. -/
def Transform.fromInches (x y width height : Val) : Transform where
  x := signed perInch x
  y := signed perInch y
  width := signed perInch width
  height := signed perInch height

/-- `with_rotation`, src/elements/position.rs 124-127. -/
def Transform.withRotation (t : Transform) (degrees : Val) : Transform :=
  { t with rotation := toI maxI32 (mul b64 degrees (.fin 60000)) }

/-- The `rot` attribute, src/elements/position.rs 133-135. -/
def Transform.rot (t : Transform) : List Part :=
  if t.rotation ≠ 0 then t!" rot=\"{.raw (Draw.decInt t.rotation)}\"" else []

/-- `to_xml`, src/elements/position.rs 131-141. -/
def Transform.xml (t : Transform) : List Part :=
  t!"<a:xfrm" ++ t.rot ++ t!"><a:off x=\"{.raw (Draw.decInt t.x)}\" y=\"{.raw (Draw.decInt t.y)}\"/><a:ext cx=\"{.raw (Draw.decInt t.width)}\" cy=\"{.raw (Draw.decInt t.height)}\"/></a:xfrm>"

end PptRs.Units
