import Verif.Lemmas.Theme
import Verif.Lemmas.SlideText

/-!
# Themes (C101)
-/

namespace PptRs.Props

open PptRs PptRs.Spec PptRs.Themes

/-- What a reader has to find of a theme. -/
def themeRead (t : Theme) : ThemeRead := ⟨some t.name, some t.name, wantedColors t.colors, some t.major, some t.minor⟩

/-- The colours of a theme have no character that has a meaning in an attribute. -/
def PlainColors (c : Colors) : Prop := ∀ p ∈ wantedColors c, ∀ v, p.2 = some v → Plain v

theorem PlainColors.plain {c : Colors} (h : PlainColors c) : c.Plain := by
  intro p hp
  refine h (c!"a:" ++ p.1, some p.2) ?_ p.2 rfl
  simp only [Colors.slots, List.mem_cons, List.not_mem_nil, or_false] at hp
  rcases hp with rfl | rfl | rfl | rfl | rfl | rfl | rfl | rfl | rfl | rfl | rfl | rfl <;> simp [wantedColors]

/-- **C101.** A theme with its own name or its own colours, whose colours contain no markup, is read back with
its name, its colours in the order of the schema and its two fonts. The name and the fonts may be any text.
What is missing: the theme named like the default with the default colours, whose fonts are ignored, and
colours with markup. -/
theorem C101_partial {t : Theme} (h : ¬ (t.name = c!"Office Theme" ∧ t.colors = .office)) (hc : PlainColors t.colors) :
    ∃ k, document (createThemeXml (some t)) = some [k] ∧ readTheme k = themeRead t := by
  refine ⟨themeNode t, ?_, ?_⟩
  · show document t.toXml = _
    rw [toXml_eq h hc.plain, document_theme hc.plain]
  · krfl

/-- A presentation without a theme of its own gets the Office theme. -/
theorem C101_default : ∃ k, document (createThemeXml none) = some [k] ∧
    readTheme k = ⟨some c!"Office Theme", some c!"Office", wantedColors .office, some c!"Calibri", some c!"Calibri"⟩ := by
  have h : (match document (createThemeXml none) with
    | some [k] => decide (readTheme k = ⟨some c!"Office Theme", some c!"Office", wantedColors .office, some c!"Calibri",
        some c!"Calibri"⟩)
    | _ => false) = true := by decide +kernel
  generalize document (createThemeXml none) = d at h
  match d, h with
  | some [k], h => exact ⟨k, rfl, of_decide_eq_true h⟩

/-- **C101 does not hold for every theme**: a theme with the name `Office Theme` and the colours of the Office
theme is replaced by the built-in text, so the fonts set with `with_fonts` are lost and both fonts are read as
Calibri. -/
theorem C101_fonts_violated (major minor : Str) :
    ∃ k, document (createThemeXml (some { name := c!"Office Theme", major, minor })) = some [k] ∧
      (readTheme k).major = some c!"Calibri" ∧ (readTheme k).minor = some c!"Calibri" := by
  obtain ⟨k, h1, h2⟩ := C101_default
  exact ⟨k, h1, by rw [h2], by rw [h2]⟩

/-- **C101 does not hold for every theme**: the colours are written without escaping, so a theme with the
colour `&` is not well formed. -/
theorem C101_colors_violated : document (createThemeXml (some { name := c!"T", colors := { Colors.office with dk1 := c!"&" } })) = none := by
  decide +kernel

/-- `Plain`, computed. -/
def plainB (v : Str) : Bool := v.all fun c => c ≠ '<' ∧ c ≠ '&' ∧ c ≠ '"'

theorem plain_of_plainB {v : Str} (h : plainB v = true) : Plain v := by
  have h' := List.all_eq_true.mp h
  refine ⟨fun hm => ?_, fun hm => ?_, fun hm => ?_⟩ <;> exact absurd (h' _ hm) (by decide)

theorem plainColors_of {c : Colors} (h : ((wantedColors c).all fun p => match p.2 with
    | some v => plainB v
    | none => true) = true) : PlainColors c := by
  intro p hp v hv
  have := List.all_eq_true.mp h p hp
  rw [hv] at this
  exact plain_of_plainB this

theorem mem_of_mem_trimEnd {c : Char} {s : Str} (h : c ∈ trim s) : c ∈ s := by
  unfold trim trimEnd trimStart at h
  rw [List.mem_reverse] at h
  exact (List.dropWhile_sublist _).subset (List.mem_reverse.mp ((List.dropWhile_sublist _).subset h))

theorem plain_trim {s : Str} (h : Plain s) : Plain (trim s) :=
  ⟨fun e => h.1 (mem_of_mem_trimEnd e), fun e => h.2.1 (mem_of_mem_trimEnd e), fun e => h.2.2 (mem_of_mem_trimEnd e)⟩

/-- The themes that come with the library are read back with their names, colours and fonts. -/
theorem C101_builtin : ∀ t ∈ builtinThemes, ∃ k, document (createThemeXml (some t)) = some [k] ∧ readTheme k = themeRead t := by
  have h : ∀ t ∈ builtinThemes, ¬ (t.name = c!"Office Theme" ∧ t.colors = .office) ∧ PlainColors t.colors := by
    have h1 : ∀ t ∈ builtinThemes, ¬ (t.name = c!"Office Theme" ∧ t.colors = .office) := by decide +kernel
    have h2 : ∀ t ∈ builtinThemes, ((wantedColors t.colors).all fun p => match p.2 with
      | some v => plainB v
      | none => true) = true := by decide +kernel
    exact fun t ht => ⟨h1 t ht, plainColors_of (h2 t ht)⟩
  exact fun t ht => C101_partial (h t ht).1 (h t ht).2

/-- All colours of the themes that come with the library, and of the Office theme, have six hexadecimal digits, as
the schema requires, and no two of these themes have the same name. -/
theorem C101_builtin_values :
    (∀ t ∈ ⟨c!"Office Theme", .office, c!"Calibri Light", c!"Calibri"⟩ :: builtinThemes, ∀ p ∈ wantedColors t.colors, ∃ v, p.2 = some v ∧ v.length = 6 ∧
      ∀ c ∈ v, c.isDigit ∨ c ∈ ['A', 'B', 'C', 'D', 'E', 'F']) ∧
    ((⟨c!"Office Theme", .office, c!"Calibri Light", c!"Calibri"⟩ :: builtinThemes).map (·.name)).Nodup := by
  constructor
  · have h : (⟨c!"Office Theme", .office, c!"Calibri Light", c!"Calibri"⟩ :: builtinThemes).all (fun t => (wantedColors t.colors).all fun p => match p.2 with
      | some v => v.length = 6 && v.all fun c => c.isDigit || c ∈ ['A', 'B', 'C', 'D', 'E', 'F']
      | none => false) = true := by decide +kernel
    intro t ht p hp
    have := List.all_eq_true.mp (List.all_eq_true.mp h t ht) p hp
    split at this
    · rename_i v e
      simp only [Bool.and_eq_true, decide_eq_true_eq, List.all_eq_true, Bool.or_eq_true] at this
      exact ⟨v, e, this.1, this.2⟩
    · cases this
  · decide +kernel

/-- A theme made from a palette has the colours of the palette: text and background are the first dark and
light colours, and links have the primary colour. -/
theorem C101_palette {name primary secondary accent background text light dark : Str}
    (hp : Plain primary) (hs : Plain secondary) (ha : Plain accent) (hb : Plain background) (ht : Plain text)
    (hl : Plain light) (hd : Plain dark) : ∃ k,
    document (createThemeXml (some (.fromPalette name primary secondary accent background text light dark))) = some [k] ∧
    readTheme k = ⟨some name, some name, [(c!"a:dk1", some (normalizeHex text)), (c!"a:lt1", some (normalizeHex background)),
      (c!"a:dk2", some (normalizeHex dark)), (c!"a:lt2", some (normalizeHex light)),
      (c!"a:accent1", some (normalizeHex primary)), (c!"a:accent2", some (normalizeHex secondary)),
      (c!"a:accent3", some (normalizeHex accent)), (c!"a:accent4", some (normalizeHex primary)),
      (c!"a:accent5", some (normalizeHex accent)), (c!"a:accent6", some (normalizeHex primary)),
      (c!"a:hlink", some (normalizeHex primary)), (c!"a:folHlink", some c!"954F72")],
      some c!"Calibri Light", some c!"Calibri"⟩ := by
  have hn : ∀ {s : Str}, Plain s → Plain (normalizeHex s) := fun h => plain_cleanColor (plain_trim h)
  refine C101_partial (t := .fromPalette name primary secondary accent background text light dark) (fun h => ?_) ?_
  · have : c!"954F72" = c!"800080" := congrArg Colors.folHlink h.2
    exact absurd this (by decide)
  · intro p hm v hv
    simp only [Theme.fromPalette, Colors.fromPalette, wantedColors, List.mem_cons, List.not_mem_nil, or_false] at hm
    rcases hm with rfl | rfl | rfl | rfl | rfl | rfl | rfl | rfl | rfl | rfl | rfl | rfl <;>
      obtain rfl := Option.some.inj hv
    · exact hn ht
    · exact hn hb
    · exact hn hd
    · exact hn hl
    · exact hn hp
    · exact hn hs
    · exact hn ha
    · exact hn hp
    · exact hn ha
    · exact hn hp
    · exact hn hp
    · exact plain_of_plainB (by decide)

/-- A colour of six hexadecimal digits is used as it is, also with blanks around it and after `#`. -/
theorem C101_hex {h : Str} (hu : ∀ c ∈ h, isWs c = false ∧ c ≠ '#' ∧ c.toUpper = c) :
    normalizeHex h = h ∧ normalizeHex ('#' :: h) = h ∧ normalizeHex (c!" #" ++ h ++ c!" ") = h := by
  have hd : ∀ l : Str, (∀ c ∈ l, isWs c = false) → l.dropWhile isWs = l := by
    intro l hl
    cases l with
    | nil => rfl
    | cons c l => rw [List.dropWhile_cons, if_neg (by simp [hl c])]
  have ht : ∀ l : Str, (∀ c ∈ l, isWs c = false) → trim l = l := by
    intro l hl
    unfold trim trimEnd trimStart
    rw [hd l hl, hd _ (fun c hc => hl c (List.mem_reverse.mp hc)), List.reverse_reverse]
  have hm : ∀ l : Str, (∀ c ∈ l, c.toUpper = c) → l.map Char.toUpper = l := by
    intro l hl
    conv => rhs; rw [← List.map_id l]
    exact List.map_congr_left hl
  have hc : cleanColor h = h := by
    unfold cleanColor
    have : trimStartChar '#' h = h := by
      cases h with
      | nil => rfl
      | cons c l => exact if_neg (hu c (by simp)).2.1
    rw [this, hm h fun c hc => (hu c hc).2.2]
  have hc' : cleanColor ('#' :: h) = h := hc
  have hw : ∀ c ∈ '#' :: h, isWs c = false := by
    intro c hc
    rcases List.mem_cons.mp hc with rfl | hc
    · decide
    · exact (hu c hc).1
  refine ⟨?_, ?_, ?_⟩
  · unfold normalizeHex
    rw [ht h fun c hc => (hu c hc).1, hc]
  · unfold normalizeHex
    rw [ht _ hw, hc']
  · have : trim (c!" #" ++ h ++ c!" ") = '#' :: h := by
      show trimEnd (trimStart (' ' :: '#' :: (h ++ c!" "))) = _
      unfold trimStart
      rw [List.dropWhile_cons, if_pos (by decide), List.dropWhile_cons, if_neg (by decide)]
      unfold trimEnd
      rw [show '#' :: (h ++ c!" ") = ('#' :: h) ++ c!" " from rfl, List.reverse_append]
      show (List.dropWhile isWs (' ' :: ('#' :: h).reverse)).reverse = _
      rw [List.dropWhile_cons, if_pos (by decide), hd _ fun c hc => hw c (List.mem_reverse.mp hc), List.reverse_reverse]
    unfold normalizeHex
    rw [this, hc']

theorem length_le_utf8Len (s : Str) : s.length ≤ utf8Len s := by
  induction s with
  | nil => exact Nat.le_refl _
  | cons c s ih =>
    have e : utf8Len (c :: s) = utf8Size c + utf8Len s := by simp [utf8Len]
    have h : 1 ≤ utf8Size c := by
      unfold utf8Size
      split
      · exact Nat.le_refl _
      · split
        · decide
        · split <;> decide
    rw [e, List.length_cons]
    omega

/-- The text of a theme is at least 7000 bytes long, as the package validator wants it. -/
theorem C101_size {t : Option Theme} (hc : ∀ x, t = some x → PlainColors x.colors) : 7000 ≤ utf8Len (createThemeXml t) := by
  have ho : 7000 ≤ utf8Len officeTheme := by
    refine Nat.le_trans ?_ (length_le_utf8Len _)
    decide +kernel
  cases t with
  | none => exact ho
  | some t =>
    show 7000 ≤ utf8Len t.toXml
    by_cases h : t.name = c!"Office Theme" ∧ t.colors = .office
    · have : t.toXml = officeTheme := if_pos h
      rw [this]
      exact ho
    · rw [toXml_eq h (hc t rfl).plain]
      refine Nat.le_trans ?_ (length_le_utf8Len _)
      have a1 : 500 ≤ (clrScheme t.name t.colors).length := by
        unfold clrScheme
        simp only [Colors.slots, List.flatMap_cons, List.flatMap_nil, List.length_append, colorSlot, List.length_cons,
          List.length_nil]
        omega
      have a2 : 6500 ≤ majorRest.length + minorRest.length + formatScheme.length + formatScheme2.length + themeEnd.length
          + themeDecl.length + themeStart.length + themeElements.length + fontsStart.length + minorStart.length := by
        decide +kernel
      unfold themeText afterColors
      generalize clrScheme t.name t.colors = x0 at *
      generalize majorRest = x1 at *
      generalize minorRest = x2 at *
      generalize formatScheme = x3 at *
      generalize formatScheme2 = x4 at *
      generalize themeEnd = x5 at *
      generalize themeDecl = x6 at *
      generalize themeStart = x7 at *
      generalize themeElements = x8 at *
      generalize fontsStart = x9 at *
      generalize minorStart = x10 at *
      simp only [List.length_append]
      omega

/-- The theorem applies to a theme with markup in its name and in the name of a font. -/
example : ∃ k, document (createThemeXml (some { name := c!"A & B \"<", major := c!"\"x\"" })) = some [k] ∧
    (readTheme k).name = some c!"A & B \"<" ∧ (readTheme k).major = some c!"\"x\"" := by
  obtain ⟨k, h1, h2⟩ := C101_partial (t := { name := c!"A & B \"<", major := c!"\"x\"" }) (by decide)
    (plainColors_of (by decide +kernel))
  exact ⟨k, h1, by rw [h2]; rfl, by rw [h2]; rfl⟩

end PptRs.Props
