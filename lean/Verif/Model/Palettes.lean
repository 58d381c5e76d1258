import Verif.Model.HtmlStyle
import Verif.Model.Theme

/-!
# Named colours and palettes

The names of colours in src/helpers/colors.rs, src/prelude.rs and src/elements/color.rs, and the palettes of src/prelude.rs. The names
are those of the functions and constants, in lower case.
-/

namespace PptRs.Palettes

open PptRs PptRs.Themes

/-- The functions of src/helpers/colors.rs 119-147 with the colours they make. -/
def aliases : List (Str × ColorValue) :=
  [(c!"red", ⟨255, 0, 0, 255⟩), (c!"green", ⟨0, 255, 0, 255⟩), (c!"blue", ⟨0, 0, 255, 255⟩), (c!"yellow", ⟨255, 255, 0, 255⟩),
   (c!"cyan", ⟨0, 255, 255, 255⟩), (c!"magenta", ⟨255, 0, 255, 255⟩), (c!"white", ⟨255, 255, 255, 255⟩), (c!"black", ⟨0, 0, 0, 255⟩),
   (c!"gray", ⟨128, 128, 128, 255⟩), (c!"grey", ⟨128, 128, 128, 255⟩), (c!"light_gray", ⟨211, 211, 211, 255⟩), (c!"light_grey", ⟨211, 211, 211, 255⟩),
   (c!"dark_gray", ⟨64, 64, 64, 255⟩), (c!"dark_grey", ⟨64, 64, 64, 255⟩), (c!"silver", ⟨192, 192, 192, 255⟩), (c!"orange", ⟨255, 165, 0, 255⟩),
   (c!"purple", ⟨128, 0, 128, 255⟩), (c!"pink", ⟨255, 192, 203, 255⟩), (c!"brown", ⟨165, 42, 42, 255⟩), (c!"navy", ⟨0, 0, 128, 255⟩),
   (c!"teal", ⟨0, 128, 128, 255⟩), (c!"olive", ⟨128, 128, 0, 255⟩), (c!"maroon", ⟨128, 0, 0, 255⟩), (c!"lime", ⟨0, 255, 0, 255⟩),
   (c!"aqua", ⟨0, 255, 255, 255⟩)]

/-- The functions of src/helpers/colors.rs 150-169 with their arguments of `from_hex`. -/
def hexAliases : List (Str × Str) :=
  [(c!"material_red", c!"F44336"), (c!"material_pink", c!"E91E63"), (c!"material_purple", c!"9C27B0"), (c!"material_indigo", c!"3F51B5"),
   (c!"material_blue", c!"2196F3"), (c!"material_cyan", c!"00BCD4"), (c!"material_teal", c!"009688"), (c!"material_green", c!"4CAF50"),
   (c!"material_lime", c!"CDDC39"), (c!"material_amber", c!"FFC107"), (c!"material_orange", c!"FF9800"), (c!"material_brown", c!"795548"),
   (c!"material_gray", c!"9E9E9E"), (c!"material_grey", c!"9E9E9E"), (c!"corporate_blue", c!"1565C0"), (c!"corporate_green", c!"2E7D32"),
   (c!"corporate_red", c!"C62828"), (c!"corporate_orange", c!"EF6C00")]

/-- The colours of `helpers`, as what is written of them; `none` is a panic. -/
def helperColors : Option (List (Str × Str)) :=
  ((hexAliases.mapM fun p => (ColorValue.fromHex p.2).map fun c => (p.1, c)).map fun l => (aliases ++ l).map fun p => (p.1, p.2.toHex))

/-- The constants of `prelude::colors`, src/prelude.rs 533-570. -/
def preludeColors : List (Str × Str) :=
  [(c!"red", c!"FF0000"), (c!"green", c!"00FF00"), (c!"blue", c!"0000FF"), (c!"white", c!"FFFFFF"), (c!"black", c!"000000"),
   (c!"gray", c!"808080"), (c!"yellow", c!"FFFF00"), (c!"orange", c!"FFA500"), (c!"purple", c!"800080"), (c!"cyan", c!"00FFFF"),
   (c!"magenta", c!"FF00FF"), (c!"corporate_blue", c!"1565C0"), (c!"corporate_green", c!"2E7D32"), (c!"corporate_orange", c!"EF6C00"),
   (c!"material_red", c!"F44336"), (c!"material_pink", c!"E91E63"), (c!"material_purple", c!"9C27B0"), (c!"material_indigo", c!"3F51B5"),
   (c!"material_blue", c!"2196F3"), (c!"material_cyan", c!"00BCD4"), (c!"material_teal", c!"009688"), (c!"material_green", c!"4CAF50"),
   (c!"material_lime", c!"CDDC39"), (c!"material_amber", c!"FFC107"), (c!"material_orange", c!"FF9800"), (c!"material_brown", c!"795548"),
   (c!"material_gray", c!"9E9E9E"), (c!"carbon_blue_60", c!"0043CE"), (c!"carbon_blue_40", c!"4589FF"), (c!"carbon_gray_100", c!"161616"),
   (c!"carbon_gray_80", c!"393939"), (c!"carbon_gray_20", c!"E0E0E0"), (c!"carbon_green_50", c!"24A148"), (c!"carbon_red_60", c!"DA1E28"),
   (c!"carbon_purple_60", c!"8A3FFC")]

/-- The colours of `RgbColor`, src/elements/color.rs 39-53. -/
def elementColors : List (Str × RgbColor) :=
  [(c!"black", ⟨0, 0, 0⟩), (c!"white", ⟨255, 255, 255⟩), (c!"red", ⟨255, 0, 0⟩), (c!"green", ⟨0, 255, 0⟩), (c!"blue", ⟨0, 0, 255⟩)]

/-- `prelude::themes::Theme`, src/prelude.rs 577-586. -/
structure Palette where
  name : Str
  primary : Str
  secondary : Str
  accent : Str
  background : Str
  text : Str
  light : Str
  dark : Str

/-- `themes::all`, src/prelude.rs 589-670 and 689-691. -/
def palettes : List Palette :=
  [⟨c!"Corporate", c!"1565C0", c!"1976D2", c!"FF6F00", c!"FFFFFF", c!"212121", c!"E3F2FD", c!"0D47A1"⟩,
   ⟨c!"Modern", c!"212121", c!"757575", c!"00BCD4", c!"FAFAFA", c!"212121", c!"F5F5F5", c!"424242"⟩,
   ⟨c!"Vibrant", c!"E91E63", c!"9C27B0", c!"FF9800", c!"FFFFFF", c!"212121", c!"FCE4EC", c!"880E4F"⟩,
   ⟨c!"Dark", c!"BB86FC", c!"03DAC6", c!"CF6679", c!"121212", c!"FFFFFF", c!"1E1E1E", c!"000000"⟩,
   ⟨c!"Nature", c!"2E7D32", c!"4CAF50", c!"8BC34A", c!"FFFFFF", c!"1B5E20", c!"E8F5E9", c!"1B5E20"⟩,
   ⟨c!"Tech", c!"0D47A1", c!"1976D2", c!"00E676", c!"FAFAFA", c!"263238", c!"E3F2FD", c!"01579B"⟩,
   ⟨c!"Carbon", c!"0043CE", c!"4589FF", c!"24A148", c!"FFFFFF", c!"161616", c!"E0E0E0", c!"161616"⟩]

/-- `to_presentation_theme`, src/prelude.rs 674-685. -/
def Palette.toTheme (p : Palette) : Theme :=
  .fromPalette p.name p.primary p.secondary p.accent p.background p.text p.light p.dark

end PptRs.Palettes
