import Verif.Model.Float
import Verif.Model.Color

/-!
Computing with colours, src/helpers/colors.rs 60-115. The parts of a colour are computed in `f32`.
-/

namespace PptRs.ColorMath

open PptRs.Fl

/-- `x as f32`. -/
def ofU8 (x : UInt8) : Val := mk b32 x.toNat

/-- `v as u8`. -/
def asU8 (v : Val) : UInt8 := (toU 255 v).toUInt8

/-- A floating point literal. -/
def lit32 (q : Rat) : Val := mk b32 q

/-- One part of `lighter`, src/helpers/colors.rs 63-65. -/
def lighterPart (amount : Val) (x : UInt8) : UInt8 :=
  asU8 (add b32 (ofU8 x) (mul b32 (sub b32 (lit32 255) (ofU8 x)) amount))

/-- `lighter`, src/helpers/colors.rs 61-67. -/
def lighter (c : ColorValue) (amount : Val) : ColorValue :=
  let f := lighterPart (clamp01 amount)
  ⟨f c.r, f c.g, f c.b, c.a⟩

/-- One part of `darker`, src/helpers/colors.rs 72-74. -/
def darkerPart (amount : Val) (x : UInt8) : UInt8 :=
  asU8 (mul b32 (ofU8 x) (sub b32 (lit32 1) amount))

/-- `darker`, src/helpers/colors.rs 70-76. -/
def darker (c : ColorValue) (amount : Val) : ColorValue :=
  let f := darkerPart (clamp01 amount)
  ⟨f c.r, f c.g, f c.b, c.a⟩

/-- `opacity`, src/helpers/colors.rs 79-82. -/
def opacity (c : ColorValue) (alpha : Val) : ColorValue :=
  { c with a := asU8 (mul b32 (clamp01 alpha) (lit32 255)) }

/-- `transparent`, src/helpers/colors.rs 85-89. -/
def transparent (c : ColorValue) (percent : UInt8) : ColorValue :=
  let percent := min percent 100
  { c with a := asU8 (mul b32 (div b32 (ofU8 (100 - percent)) (lit32 100)) (lit32 255)) }

/-- One part of `mix`, src/helpers/colors.rs 94-97. -/
def mixPart (ratio : Val) (x y : UInt8) : UInt8 :=
  asU8 (add b32 (mul b32 (ofU8 x) (sub b32 (lit32 1) ratio)) (mul b32 (ofU8 y) ratio))

/-- `mix`, src/helpers/colors.rs 92-99. -/
def mix (c other : ColorValue) (ratio : Val) : ColorValue :=
  let f := mixPart (clamp01 ratio)
  ⟨f c.r other.r, f c.g other.g, f c.b other.b, f c.a other.a⟩

/-- The brightness in `grayscale`, src/helpers/colors.rs 103. -/
def grayOf (c : ColorValue) : UInt8 :=
  asU8 (add b32 (add b32 (mul b32 (lit32 (299 / 1000)) (ofU8 c.r)) (mul b32 (lit32 (587 / 1000)) (ofU8 c.g)))
    (mul b32 (lit32 (114 / 1000)) (ofU8 c.b)))

/-- `grayscale`, src/helpers/colors.rs 102-105. -/
def grayscale (c : ColorValue) : ColorValue := ⟨grayOf c, grayOf c, grayOf c, c.a⟩

/-- `invert`, src/helpers/colors.rs 108-110. -/
def invert (c : ColorValue) : ColorValue := ⟨255 - c.r, 255 - c.g, 255 - c.b, c.a⟩

/-- `to_color`, src/helpers/colors.rs 113-115. -/
def toColor (c : ColorValue) : RgbColor := ⟨c.r, c.g, c.b⟩

end PptRs.ColorMath
