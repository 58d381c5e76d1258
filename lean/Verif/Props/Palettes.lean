import Verif.Model.Palettes
import Verif.Props.Theme

/-!
# Named colours and palettes (C171)
-/

namespace PptRs.Props

open PptRs PptRs.Palettes PptRs.Themes

/-- The colours that the lists give for a name. -/
def Spec.coloursOf (name : Str) (l : List (Str × Str)) : List Str := (l.filter fun p => p.1 = name).map (·.2)

/-- The name of a colour as CSS writes it. -/
def Spec.cssName (name : Str) : Str := name.filter (· ≠ '_')

/-- What is written of all named colours of the library. -/
def Spec.allNamed : List (Str × Str) :=
  (helperColors.getD []) ++ preludeColors ++ elementColors.map fun p => (p.1, p.2.toHex)

/-- Six hexadecimal digits, in upper case. -/
def Spec.isColour (s : Str) : Prop := s.length = 6 ∧ ∀ c ∈ s, c ∈ c!"0123456789ABCDEF"

instance (s : Str) : Decidable (Spec.isColour s) := inferInstanceAs (Decidable (_ ∧ _))

set_option maxRecDepth 20000 in
/-- **C171.** No function of a named colour fails, and what is written of every named colour are six digits. -/
theorem C171_digits : helperColors.isSome ∧ ∀ p ∈ Spec.allNamed, Spec.isColour p.2 := by
  decide +kernel

set_option maxRecDepth 20000 in
/-- **C171.** A name means the same colour in all of the library: functions, constants and presets of the same name are the same
colour, and so are the two spellings of grey. -/
theorem C171_one_colour : (∀ p ∈ Spec.allNamed, ∀ q ∈ Spec.allNamed, p.1 = q.1 → p.2 = q.2) ∧
    ∀ n : Str, n ∈ [c!"gr", c!"light_gr", c!"dark_gr", c!"material_gr"] →
      Spec.coloursOf (n ++ c!"ey") (helperColors.getD []) = Spec.coloursOf (n ++ c!"ay") (helperColors.getD []) ∧
      (Spec.coloursOf (n ++ c!"ay") (helperColors.getD [])).length = 1 := by
  decide +kernel

set_option maxRecDepth 20000 in
/-- **C171.** The names that are also names of CSS mean the colours of CSS, but for three. -/
theorem C171_css_partial : ∀ p ∈ Spec.allNamed, p.1 ∉ [c!"green", c!"dark_gray", c!"dark_grey"] →
    ∀ q ∈ Html.namedColors, q.1 = Spec.cssName p.1 → p.2 = q.2 := by
  decide +kernel

set_option maxRecDepth 20000 in
/-- **C171 does not hold in full.** Three names are other colours than in pages that are imported, where the names of CSS are used:
`green` is the colour that CSS calls lime (`00FF00`, not `008000`), and `dark_gray` and `dark_grey` are `404040`, not `A9A9A9`. -/
theorem C171_css_violated :
    (Spec.coloursOf c!"green" Spec.allNamed = [c!"00FF00", c!"00FF00", c!"00FF00"] ∧
      Spec.coloursOf c!"green" Html.namedColors = [c!"008000"]) ∧
    (Spec.coloursOf c!"dark_gray" Spec.allNamed = [c!"404040"] ∧ Spec.coloursOf c!"darkgray" Html.namedColors = [c!"A9A9A9"]) ∧
    (Spec.coloursOf c!"dark_grey" Spec.allNamed = [c!"404040"] ∧ Spec.coloursOf c!"darkgrey" Html.namedColors = [c!"A9A9A9"]) := by
  decide +kernel

set_option maxRecDepth 20000 in
/-- **C171.** The palettes of the prelude are the themes that come with the generator, in the same order and with different names. -/
theorem C171_palettes : palettes.map Palette.toTheme = builtinThemes ∧ (palettes.map (·.name)).Nodup := by
  decide +kernel

/-- **C171.** The colours of every palette, whatever they are, get to the places of the theme they are named for. -/
theorem C171_places (p : Palette) :
    p.toTheme.name = p.name ∧ p.toTheme.colors.accent1 = normalizeHex p.primary ∧ p.toTheme.colors.accent2 = normalizeHex p.secondary ∧
    p.toTheme.colors.accent3 = normalizeHex p.accent ∧ p.toTheme.colors.lt1 = normalizeHex p.background ∧
    p.toTheme.colors.dk1 = normalizeHex p.text ∧ p.toTheme.colors.lt2 = normalizeHex p.light ∧ p.toTheme.colors.dk2 = normalizeHex p.dark :=
  ⟨rfl, rfl, rfl, rfl, rfl, rfl, rfl, rfl⟩

set_option maxRecDepth 20000 in
/-- **C171.** The colours of all palettes are six digits, and text and background are different. -/
theorem C171_readable : ∀ p ∈ palettes, p.text ≠ p.background ∧
    ∀ c ∈ [p.primary, p.secondary, p.accent, p.background, p.text, p.light, p.dark], Spec.isColour c := by
  decide +kernel

example : Spec.allNamed.length = 83 := by decide +kernel
example : ∃ p ∈ Spec.allNamed, ∃ q ∈ Html.namedColors, q.1 = Spec.cssName p.1 ∧ p.2 = q.2 := ⟨(c!"red", c!"FF0000"), by decide +kernel, (c!"red", c!"FF0000"), by decide +kernel⟩

end PptRs.Props
