import Verif.Lemmas.Fonts

/-!
# Embedded fonts as they are read (C102)
-/

namespace PptRs.Props

open PptRs PptRs.Spec PptRs.Settings

/-- The element for a style of a font. -/
def styleElement : FontStyle → Str
  | .regular => c!"p:regular"
  | .bold => c!"p:bold"
  | .italic => c!"p:italic"
  | .boldItalic => c!"p:boldItalic"

/-- The texts of the fonts that are written unescaped have no markup. -/
def PlainFonts (fonts : List FontIn) : Prop :=
  ∀ f ∈ fonts, Plain f.font.relationshipId ∧ ∀ p, f.panose = some p → Plain p

/-- What a reader finds for the typeface `t`: the descriptor of its first font and the styles of all its fonts,
each with the relationship of its data. -/
structure FontAgrees (r : FontRead) (fonts : List FontIn) (t : Str) : Prop where
  typeface : r.typeface = some t
  styles : r.styles = (fonts.filter fun f => f.font.typeface = t).map fun f =>
    (styleElement f.font.style, some f.font.relationshipId)
  descriptor : ∃ f ∈ fonts, f.font.typeface = t ∧ (∀ pre post g, fonts = pre ++ g :: post → g.font.typeface = t →
    f ∈ pre ++ [g]) ∧ r.charset = some (dec f.charset.code) ∧ r.pitchFamily = some (dec f.pitchFamily.toNat) ∧ r.panose = f.panose

theorem head?_filter_first {α : Type} {p : α → Bool} {l : List α} {x : α} (h : (l.filter p).head? = some x) :
    ∀ pre post g, l = pre ++ g :: post → p g = true → x ∈ pre ++ [g] := by
  rintro pre post g rfl hg
  rw [List.filter_append, List.filter_cons_of_pos hg] at h
  cases e : pre.filter p with
  | nil =>
    rw [e] at h
    obtain rfl := Option.some.inj h
    simp
  | cons y ys =>
    rw [e] at h
    obtain rfl := Option.some.inj h
    have : y ∈ pre.filter p := by rw [e]; simp
    exact List.mem_append_left _ (List.mem_filter.mp this).1

/-- **C102.** The list of embedded fonts is read back: one entry for each typeface, in the order of their first
appearance and none twice, with the descriptor of the first font of the typeface and the relationship of the data
of every style. Typefaces may be any text. What is missing: Panose numbers and relationship ids with markup, and
the values of the descriptor (see the theorems below). -/
theorem C102_partial {fonts : List FontIn} (hne : fonts ≠ []) (h : PlainFonts fonts) :
    ∃ k, parse (fmt (fontList fonts)) = some [k] ∧ ∃ ts : List Str,
      ts.Nodup ∧ ts.Sublist (fonts.map (·.font.typeface)) ∧ (∀ f ∈ fonts, f.font.typeface ∈ ts) ∧
      ((readFonts k).length = ts.length ∧ ∀ i (hi : i < (readFonts k).length) (hj : i < ts.length),
        FontAgrees ((readFonts k)[i]) fonts ts[i]) := by
  refine ⟨_, parse_of_nodes (readsNodes_fonts h hne), typefacesFrom [] fonts, ?_⟩
  obtain ⟨h1, h2, r, h3, h4⟩ := typefacesFrom_spec fonts [] List.nodup_nil
  refine ⟨h1, by rw [h3]; exact h4, fun f hf => (h2 _).mpr (.inr ⟨f, hf, rfl⟩), ?_⟩
  have e : readFonts (fontsNode fonts) = (typefacesFrom [] fonts).map fun t => readFont (groupNode fonts t) := by
    unfold readFonts
    rw [children_groups, List.map_map]
    rfl
  refine ⟨by rw [e, List.length_map], fun i hi hj => ?_⟩
  have ei : (readFonts (fontsNode fonts))[i] = readFont (groupNode fonts (typefacesFrom [] fonts)[i]) := by
    simp only [e, List.getElem_map]
  rw [ei]
  have hm : (typefacesFrom [] fonts)[i] ∈ typefacesFrom [] fonts := List.getElem_mem _
  generalize (typefacesFrom [] fonts)[i] = t at hm
  obtain ⟨r1, r2⟩ := readFont_group fonts t
  have hv : ∃ f, (variantsOf fonts t).head? = some f := by
    rcases (h2 t).mp hm with h | ⟨f, hf, ht⟩
    · exact absurd h (by simp)
    · have : f ∈ variantsOf fonts t := List.mem_filter.mpr ⟨hf, by simpa using ht⟩
      cases e : variantsOf fonts t with
      | nil => rw [e] at this; exact absurd this (by simp)
      | cons g l => exact ⟨g, rfl⟩
  obtain ⟨f, hf⟩ := hv
  obtain ⟨a1, a2, a3, a4⟩ := r2 f hf
  have hfm := List.mem_filter.mp (List.mem_of_head? hf)
  have hft : f.font.typeface = t := by simpa using hfm.2
  refine ⟨by rw [a1, hft], ?_, f, hfm.1, hft, fun pre post g e hg => head?_filter_first hf pre post g e (by simpa using hg), a2, a3, a4⟩
  rw [r1]
  unfold variantsOf
  refine List.map_congr_left fun g _ => ?_
  cases g.font.style <;> rfl

/-- Without embedded fonts nothing is written. -/
theorem C102_none : fontList [] = [] := rfl

/-- The list is the text that goes into the presentation part. -/
theorem C102_text (fonts : List FontIn) : ∃ desc, fontListText desc (fonts.map (·.font)) = fmt (fontList fonts) :=
  ⟨_, (fmt_fonts fonts).symm⟩

/-- Text of the schema's type `xsd:byte`. -/
def ByteText (s : Str) : Prop := ∃ i : Int, -128 ≤ i ∧ i ≤ 127 ∧ s = Draw.decInt i

theorem not_byteText {n : Nat} (h : 127 < n) : ¬ ByteText (dec n) := by
  rintro ⟨i, h1, h2, e⟩
  cases i with
  | ofNat m =>
    have := dec_inj (show dec n = dec m from e)
    subst this
    have : (Int.ofNat n) = (n : Int) := rfl
    omega
  | negSucc m =>
    have h0 : '-' ∈ dec n := by rw [e]; exact List.mem_cons_self
    exact absurd (isDigit_of_mem_dec h0) (by decide)

/-- **C102 does not hold for most character sets**: `charset` has the type `xsd:byte`, from −128 to 127, but it is
written as the unsigned code, so 12 of the 14 character sets (all but ANSI and symbol) are written with a number
that is not a value of the schema. -/
theorem C102_charset_violated {c : Charset} (h : c ≠ .ansi) (h' : c ≠ .symbol) : ¬ ByteText (dec c.code) := by
  refine not_byteText ?_
  cases c <;> first | exact absurd rfl h | exact absurd rfl h' | decide

/-- **C102 does not hold for every Panose number**: it is written without escaping, so one with an ampersand makes
the presentation part unreadable. -/
theorem C102_panose_violated : parse (fmt (fontList [{ font := ⟨c!"A", .regular, c!"rId9"⟩, panose := some c!"&" }])) = none := by
  decide +kernel

/-- **C102 does not hold for the order of styles**: the styles of a typeface are written in the order in which they
were added and as often as they were added. The schema has them once and in the order regular, bold, italic, bold
italic, so adding the bold font before the regular one, or a style twice, gives a presentation that does not follow
the schema. -/
theorem C102_order_violated : ∃ k k', 
    parse (fmt (fontList [{ font := ⟨c!"A", .bold, c!"rId9"⟩ }, { font := ⟨c!"A", .regular, c!"rId10"⟩ }])) = some [k] ∧
    orderedBy partModels k = false ∧
    parse (fmt (fontList [{ font := ⟨c!"A", .bold, c!"rId9"⟩ }, { font := ⟨c!"A", .bold, c!"rId10"⟩ }])) = some [k'] ∧
    orderedBy partModels k' = false :=
  ⟨_, _, parse_of_nodes (readsNodes_fonts (by
      intro f hf
      simp only [List.mem_cons, List.not_mem_nil, or_false] at hf
      rcases hf with rfl | rfl <;> exact ⟨plain_of (by decide), by simp⟩) (by simp)), by decide +kernel,
    parse_of_nodes (readsNodes_fonts (by
      intro f hf
      simp only [List.mem_cons, List.not_mem_nil, or_false] at hf
      rcases hf with rfl | rfl <;> exact ⟨plain_of (by decide), by simp⟩) (by simp)), by decide +kernel⟩

/-- The theorem applies to two styles of a typeface with markup in its name and another typeface between them. -/
example : PlainFonts [{ font := ⟨c!"A & <B>", .regular, c!"rId9"⟩ }, { font := ⟨c!"C", .italic, c!"rId10"⟩ },
    { font := ⟨c!"A & <B>", .bold, c!"rId11"⟩, panose := some c!"020B0604020202020204" }] := by
  intro f hf
  simp only [List.mem_cons, List.not_mem_nil, or_false] at hf
  rcases hf with rfl | rfl | rfl <;> refine ⟨plain_of (by decide), fun p hp => ?_⟩ <;> cases hp
  exact plain_of (by decide)

end PptRs.Props
