import Verif.Lemmas.PdfSlide
import Verif.Props.Color
import Verif.Lemmas.Str

/-!
# Export to PDF (C106, C107, C108)
-/

namespace PptRs.Props

open PptRs PptRs.Pdf PptRs.PdfRead

/-! ### C106: what is painted for a slide -/

/-- The name of a Helvetica font. -/
def helvetica (bold italic : Bool) : Str :=
  c!"Helvetica" ++ (if bold || italic then c!"-" else []) ++ (if bold then c!"Bold" else []) ++ (if italic then c!"Oblique" else [])

/-- The first line of the body of a slide. -/
def bodyTop (g : Page) (s : SlideText) : Int := g.height - 540000 - titleSize s - lineHeight s * 3 / 2

/-- How many of `n` lines of a body are painted. -/
def bodyFits (g : Page) (s : SlideText) (n : Nat) : Nat := fitting (540000 + lineHeight s) (lineHeight s) (bodyTop g s) n

/-- The lines of the body of a slide: those of the bullets, or those of the content if there are no bullets. -/
def bodyPainted (P : Printer) (g : Page) (s : SlideText) (c : Rgb) : List Line :=
  if s.bullets = [] then contentFrom g s c (bodyTop g s) (bodyFits g s s.content.length) s.content
  else bulletsFrom P s c (bodyTop g s) 0 (bodyFits g s s.bullets.length) s.bullets

/-- How many lines the body has. -/
def bodyCount (s : SlideText) : Nat := if s.bullets = [] then s.content.length else s.bullets.length

/-- Where the code blocks start. -/
def codeTop (g : Page) (s : SlideText) : Int := bodyTop g s - bodyFits g s (bodyCount s) * lineHeight s

/-- **C106.** A reader of the content stream of a page finds exactly: a white box on the whole page, the title, the
lines of the body that fit, one below the other in the order of the slide, the code blocks and the number of the slide.
What is missing: what does not fit, the characters outside ASCII, carriage returns, and colours that are cut within a
character, see below. -/
theorem C106_partial {P : Printer} (hP : P.Ok) {g : Page} {s : SlideText} {codes : List Str} {num total : Nat} {str : Str}
    (h : renderSlide P g s codes num total = some str) :
    ∃ tc cc, colorOr P (c!"0.100", c!"0.100", c!"0.100") s.titleColor = some tc ∧
      colorOr P (c!"0.200", c!"0.200", c!"0.200") s.contentColor = some cc ∧
      readMarks (encode str) = some (
        [.box [encode c!"1.000", encode c!"1.000", encode c!"1.000"] (boxSides P 0 0 g.width g.height)]
          ++ [(titleLine g s tc).mark P] ++ (bodyPainted P g s cc).map (Line.mark P)
          ++ codeMarks P g s (codeTop g s) codes ++ [(footerLine g num total).mark P]) := by
  unfold renderSlide at h
  simp only [Option.bind_eq_some_iff, Option.map_eq_some_iff] at h
  obtain ⟨tc, htc, cc, hcc, ⟨b1, b2⟩, hb, rfl⟩ := h
  have h1 := numRgb_colorOr hP (numRgb_const (by decide) (by decide)) htc
  have h2 := numRgb_colorOr hP (numRgb_const (by decide) (by decide)) hcc
  refine ⟨tc, cc, htc, hcc, ?_⟩
  have hw := draws_box hP (c := (c!"1.000", c!"1.000", c!"1.000")) (numRgb_const (by decide) (by decide)) 0 0 g.width g.height
  have hbody : Draws b1 ((bodyPainted P g s cc).map (Line.mark P)) ∧ b2 = codeTop g s := by
    unfold bodyPainted codeTop bodyCount
    by_cases hn : s.bullets = []
    · rw [if_neg (by simpa using hn)] at hb
      have := draws_content hP g s h2 s.content (titleY g s - lineHeight s * 3 / 2)
      rw [Option.some.injEq] at hb
      rw [hb] at this
      rw [if_pos hn, if_pos hn]
      exact this
    · rw [if_pos hn] at hb
      rw [if_neg hn, if_neg hn]
      exact draws_bullets hP s h2 s.bullets hb
  obtain ⟨hb1, rfl⟩ := hbody
  exact ((((hw.append (draws_title hP g s h1)).append hb1).append (draws_codes hP g s codes (codeTop g s))).append
    (draws_footer hP g num total)).read

theorem C106_fonts (b i : Bool) : fontName b i = helvetica b i := by
  cases b <;> cases i <;> rfl

/-- **C106.** Sizes and positions, in 1/10000 point: a size on the slide is multiplied by three quarters, the margin is
54 points, the title stands at the margin or, on centred layouts, in the middle by half its size for each character. -/
theorem C106_title_place (g : Page) (s : SlideText) (c : Rgb) :
    (titleLine g s c).text = s.title ∧
    (titleLine g s c).size = 7500 * s.titleSize.getD 36 ∧
    (titleLine g s c).font = helvetica s.titleBold s.titleItalic ∧
    (titleLine g s c).color = c ∧
    (titleLine g s c).y = g.height - 540000 - 7500 * s.titleSize.getD 36 ∧
    (titleLine g s c).x = (if s.layout = .centeredTitle ∨ s.layout = .sectionHeader
      then (g.width - s.title.length * (7500 * s.titleSize.getD 36) / 2) / 2 else 540000) := by
  refine ⟨rfl, rfl, C106_fonts _ _, rfl, rfl, ?_⟩
  show (if centered s then _ else margin) = _
  unfold centered
  by_cases h : s.layout = .centeredTitle ∨ s.layout = .sectionHeader
  · rw [if_pos h, if_pos (by simpa using h)]; rfl
  · rw [if_neg h, if_neg (by simpa using h)]; rfl

/-- **C106.** A line of content. -/
theorem C106_content_place (g : Page) (s : SlideText) (c : Rgb) (l : Str) (y : Int) :
    (contentLine g s c l y).text = l ∧
    (contentLine g s c l y).size = 7500 * s.contentSize.getD 24 ∧
    (contentLine g s c l y).font = helvetica s.contentBold s.contentItalic ∧
    (contentLine g s c l y).color = c ∧ (contentLine g s c l y).y = y ∧
    (contentLine g s c l y).x = (if s.layout = .centeredTitle ∨ s.layout = .sectionHeader
      then (g.width - l.length * (7500 * s.contentSize.getD 24) / 2) / 2 else 540000) := by
  refine ⟨rfl, rfl, C106_fonts _ _, rfl, rfl, ?_⟩
  show (if centered s then _ else margin) = _
  unfold centered
  by_cases h : s.layout = .centeredTitle ∨ s.layout = .sectionHeader
  · rw [if_pos h, if_pos (by simpa using h)]; rfl
  · rw [if_neg h, if_neg (by simpa using h)]; rfl

/-- **C106.** The last line of a bullet is its text, in its own colour, size and font; the mark in front of it stands on
the same line, 20 points to the left. Each level indents by 20 points. -/
theorem C106_bullet_place (s : SlideText) (c : Rgb) (b : BulletPoint) (y : Int) (n : Nat) :
    ∃ (pre : List Line) (t : Line), bulletLines s c b y n = pre ++ [t] ∧ t.text = b.text ∧ t.y = y ∧ t.color = c ∧
      t.font = helvetica (s.contentBold || (b.format.map (·.bold)).getD false) (s.contentItalic || (b.format.map (·.italic)).getD false) ∧
      t.size = 7500 * ((b.format.bind (·.fontSize)).getD (s.contentSize.getD 24)) ∧
      t.x = 540000 + 200000 * b.level + 200000 * pre.length ∧
      (∀ p ∈ pre, p = { t with text := bulletPrefix b.style n, x := t.x - 200000 }) ∧
      pre.length = (if bulletPrefix b.style n = [] then 0 else 1) := by
  have ef : bulletFont s b = helvetica (s.contentBold || (b.format.map (·.bold)).getD false) (s.contentItalic || (b.format.map (·.italic)).getD false) := by
    unfold bulletFont
    rw [C106_fonts]
    cases b.format <;> rfl
  have es : bulletSize s b = 7500 * ((b.format.bind (·.fontSize)).getD (s.contentSize.getD 24)) := by
    unfold bulletSize
    cases b.format.bind (·.fontSize) <;> rfl
  unfold bulletLines
  simp only
  rw [ef, es]
  by_cases h : bulletPrefix b.style n = []
  · simp only [h, if_true]
    exact ⟨[], _, rfl, rfl, rfl, rfl, rfl, rfl, by simp [margin], by simp, rfl⟩
  · simp only [h, if_false]
    refine ⟨[_], _, rfl, rfl, rfl, rfl, rfl, rfl, by simp [margin], ?_, rfl⟩
    intro p hp
    rw [List.mem_singleton] at hp
    subst hp
    simp

/-- **C106.** The height of a line is one and a half of its size. -/
theorem C106_line_height (s : SlideText) :
    lineHeight s = 11250 * s.contentSize.getD 24 ∧ codeSize s = 6375 * s.contentSize.getD 24 ∧
    codeLineHeight s = 8925 * s.contentSize.getD 24 := by
  unfold lineHeight codeLineHeight codeSize contentSize points
  refine ⟨by omega, by omega, by omega⟩

/-- **C106.** The lines that are painted are the first ones; if one is left out, there was no room above the margin for
the next line. -/
theorem C106_fit (g : Page) (s : SlideText) (n : Nat) :
    bodyFits g s n ≤ n ∧
    (∀ i < bodyFits g s n, 540000 + lineHeight s ≤ bodyTop g s - i * lineHeight s) ∧
    (bodyFits g s n < n → bodyTop g s - bodyFits g s n * lineHeight s < 540000 + lineHeight s) :=
  ⟨fitting_le .., fun _ h => fitting_fits h, fun h => fitting_full h⟩

/-- **C106.** If there is room for the last line, all lines are painted. -/
theorem C106_all_fit {g : Page} {s : SlideText} {n : Nat} (h : 540000 + lineHeight s ≤ bodyTop g s - (n - 1 : Nat) * lineHeight s) :
    bodyFits g s n = n := by
  have h0 : 0 ≤ lineHeight s := by rw [(C106_line_height s).1]; omega
  have hle := (C106_fit g s n).1
  have hf := (C106_fit g s n).2.2
  apply Classical.byContradiction
  intro hc
  have hlt : bodyFits g s n ≤ n - 1 := by omega
  have hf := hf (by omega)
  have : (bodyFits g s n : Int) * lineHeight s ≤ (n - 1 : Nat) * lineHeight s :=
    Int.mul_le_mul_of_nonneg_right (by exact_mod_cast hlt) h0
  omega

/-- **C106.** With room for all, the texts of the bullets are painted in their order, each after its mark. -/
theorem C106_bullets_in_order {P : Printer} {g : Page} {s : SlideText} {c : Rgb} (hb : s.bullets ≠ [])
    (h : bodyFits g s s.bullets.length = s.bullets.length) :
    (bodyPainted P g s c).map (·.text) = s.bullets.zipIdx.flatMap fun p =>
      let pre := bulletPrefix p.1.style ((s.bullets.take p.2).countP fun b => counted b.style)
      (if pre = [] then [] else [pre]) ++ [p.1.text] := by
  unfold bodyPainted bulletsFrom
  rw [if_neg hb, h, List.take_length, List.map_flatMap]
  congr 1
  funext p
  rw [Nat.zero_add]
  unfold bulletLines
  simp only
  split <;> rfl

/-- **C106.** With room for all, the lines of content are painted in their order. -/
theorem C106_content_in_order {P : Printer} {g : Page} {s : SlideText} {c : Rgb} (hb : s.bullets = [])
    (h : bodyFits g s s.content.length = s.content.length) : (bodyPainted P g s c).map (·.text) = s.content := by
  unfold bodyPainted contentFrom
  rw [if_pos hb, h, List.take_length, List.map_map]
  have : ((fun l : Line => l.text) ∘ fun p : Str × Nat => contentLine g s c p.1 (bodyTop g s - p.2 * lineHeight s)) = Prod.fst := rfl
  rw [this, List.zipIdx_map_fst]

/-- Bytes without carriage returns are read as they were written. -/
theorem C106_text_read {b : Bytes} (h : 13 ∉ b) : normalEol false b = b := by
  induction b with
  | nil => rfl
  | cons x b ih =>
    have h1 : x ≠ 13 := fun e => h (by simp [e])
    unfold normalEol
    rw [Bool.false_and, if_neg (by simp), if_neg h1, ih (fun hm => h (by simp [hm]))]

theorem hexToRgb_some {P : Printer} {c : Str} (h : AllAscii c) : (hexToRgb P c).isSome = true := by
  unfold hexToRgb
  have ha : AllAscii (trimStartChar '#' c) := fun x hx => h x (mem_trimStartChar hx)
  generalize trimStartChar '#' c = s at ha
  simp only
  split
  · rename_i hl
    rw [utf8Len_ascii ha] at hl
    obtain ⟨x, hx⟩ := Option.isSome_iff_exists.mp (byteSlice_some ha (a := 0) (b := 2) (by omega) (by omega))
    obtain ⟨y, hy⟩ := Option.isSome_iff_exists.mp (byteSlice_some ha (a := 2) (b := 4) (by omega) (by omega))
    obtain ⟨z, hz⟩ := Option.isSome_iff_exists.mp (byteSlice_some ha (a := 4) (b := 6) (by omega) (by omega))
    rw [hx, hy, hz]
    rfl
  · rfl

theorem colorOr_some {P : Printer} {d : Rgb} {h : Option Str} (ha : ∀ c, h = some c → AllAscii c) : (colorOr P d h).isSome = true := by
  cases h with
  | none => rfl
  | some c => exact hexToRgb_some (ha c rfl)

theorem bulletsLoop_some {P : Printer} {s : SlideText} {c : Rgb} : ∀ (bs : List BulletPoint) (y : Int) (n : Nat),
    (∀ b ∈ bs, ∀ x, b.format.bind (·.color) = some x → AllAscii x) → (bulletsLoop P s c y n bs).isSome = true := by
  intro bs
  induction bs with
  | nil => intros; rfl
  | cons b bs ih =>
    intro y n h
    unfold bulletsLoop
    split
    · rfl
    · have h1 : (bulletColor P c b).isSome = true := by
        unfold bulletColor
        split
        · rename_i x hx
          exact hexToRgb_some (h b (by simp) x hx)
        · rfl
      obtain ⟨bc, hbc⟩ := Option.isSome_iff_exists.mp h1
      obtain ⟨r, hr⟩ := Option.isSome_iff_exists.mp
        (ih (y - lineHeight s) (if counted b.style then n + 1 else n) fun b hb => h b (by simp [hb]))
      rw [hbc, hr]
      rfl

/-- **C106.** The export does not crash on a slide whose colours are ASCII texts of whatever form. -/
theorem C106_no_panic {P : Printer} {g : Page} {s : SlideText} {codes : List Str} {num total : Nat}
    (ht : ∀ c, s.titleColor = some c → AllAscii c) (hc : ∀ c, s.contentColor = some c → AllAscii c)
    (hb : ∀ b ∈ s.bullets, ∀ c, b.format.bind (·.color) = some c → AllAscii c) :
    (renderSlide P g s codes num total).isSome = true := by
  unfold renderSlide
  obtain ⟨tc, htc⟩ := Option.isSome_iff_exists.mp (colorOr_some (P := P) (d := (c!"0.100", c!"0.100", c!"0.100")) ht)
  obtain ⟨cc, hcc⟩ := Option.isSome_iff_exists.mp (colorOr_some (P := P) (d := (c!"0.200", c!"0.200", c!"0.200")) hc)
  rw [htc, hcc]
  simp only [Option.bind_some, Option.isSome_map]
  split
  · exact bulletsLoop_some _ _ _ hb
  · rfl

/-- **C106.** A colour of six hexadecimal digits, with or without `#`, gives the three channels in order. -/
theorem C106_color (P : Printer) {a b c d e f : Char} (h : AllAscii [a, b, c, d, e, f]) (hs : a ≠ '#') :
    hexToRgb P ['#', a, b, c, d, e, f] = hexToRgb P [a, b, c, d, e, f] ∧
    hexToRgb P [a, b, c, d, e, f]
      = some (P.chan ((parseHexU8 [a, b]).getD 0), P.chan ((parseHexU8 [c, d]).getD 0), P.chan ((parseHexU8 [e, f]).getD 0)) := by
  have e1 : trimStartChar '#' [a, b, c, d, e, f] = [a, b, c, d, e, f] := by
    simp [trimStartChar, hs]
  have e2 : trimStartChar '#' ['#', a, b, c, d, e, f] = [a, b, c, d, e, f] := by
    simp [trimStartChar, hs]
  refine ⟨by unfold hexToRgb; rw [e1, e2], ?_⟩
  unfold hexToRgb
  rw [e1]
  simp only
  rw [utf8Len_ascii h, if_pos (show [a, b, c, d, e, f].length = 6 from rfl)]
  have s1 : byteSlice [a, b, c, d, e, f] 0 2 = some [a, b] :=
    byteSlice_ascii (s := []) (t := [a, b]) (u := [c, d, e, f]) (fun x hx => by cases hx) (fun x hx => h x (by simp at hx ⊢; tauto)) rfl rfl
  have s2 : byteSlice [a, b, c, d, e, f] 2 4 = some [c, d] :=
    byteSlice_ascii (s := [a, b]) (t := [c, d]) (u := [e, f]) (fun x hx => h x (by simp at hx ⊢; tauto)) (fun x hx => h x (by simp at hx ⊢; tauto)) rfl rfl
  have s3 : byteSlice [a, b, c, d, e, f] 4 6 = some [e, f] :=
    byteSlice_ascii (s := [a, b, c, d]) (t := [e, f]) (u := []) (fun x hx => h x (by simp at hx ⊢; tauto)) (fun x hx => h x (by simp at hx ⊢; tauto)) rfl rfl
  rw [s1, s2, s3]
  rfl

/-- **C106 does not hold in full.** A title colour of six bytes in which a character of two bytes is cut, for example
`aéxyz`, crashes the export to PDF. -/
theorem C106_violated_panic (P : Printer) (g : Page) (s : SlideText) (codes : List Str) (num total : Nat) :
    renderSlide P g { s with titleColor := some c!"aéxyz" } codes num total = none := by
  have : hexToRgb P c!"aéxyz" = none := by
    unfold hexToRgb
    simp only [show trimStartChar '#' c!"aéxyz" = c!"aéxyz" by decide, show byteSlice c!"aéxyz" 0 2 = none by decide +kernel]
    rfl
  unfold renderSlide
  simp only [colorOr, this]
  rfl

/-- **C106 does not hold in full.** Lines of the body for which there is no room are left out without a notice and
without a further page: on a page of 842 by 595 points a slide of 20 bullets with the default sizes is painted with 12. -/
theorem C106_violated_overflow :
    bodyFits ⟨8420000, 5950000⟩ { title := c!"T", bullets := List.replicate 20 { text := c!"x" } } 20 = 12 := by decide

/-- **C106 does not hold in full.** The text of a bullet mark is written as UTF-8, but the fonts declare no encoding, so
that a reader takes single bytes: of the three bytes of the bullet mark only the last one has a character in the
standard encoding, and that one is a cent sign. -/
theorem C106_violated_encoding :
    encode (bulletPrefix .bullet 0) = [0xE2, 0x80, 0xA2] ∧
    (encode (bulletPrefix .bullet 0)).map standardEncoding = [none, none, some '¢'] := by decide

/-- **C106 does not hold in full.** A carriage return in a text is not escaped in the exported PDF; a reader takes it,
with a line feed after it or not, for a line feed. -/
theorem C106_violated_carriage_return :
    normalEol false (encode c!"a\r\nb") = encode c!"a\nb" ∧ normalEol false (encode c!"a\rb") = encode c!"a\nb" := by decide

/-- **C106 does not hold in full.** The table of a slide is not painted in the exported PDF: the page is the same as
without it. -/
theorem C106_violated_table (P : Printer) (g : Page) (s : SlideText) (t : TableIn) (codes : List Str) (num total : Nat) :
    renderSlide P g { s with table := some t } codes num total = renderSlide P g { s with table := none } codes num total := by
  have hl : ∀ t, lineHeight { s with table := t } = lineHeight s := fun _ => rfl
  have hb : ∀ t c bs y n, bulletsLoop P { s with table := t } c y n bs = bulletsLoop P s c y n bs := by
    intro t c bs
    induction bs with
    | nil => intros; rfl
    | cons b bs ih => intro y n; unfold bulletsLoop; rw [ih, hl]; rfl
  have hc : ∀ t c ls y, contentLoop P g { s with table := t } c y ls = contentLoop P g s c y ls := by
    intro t c ls
    induction ls with
    | nil => intros; rfl
    | cons b bs ih => intro y; unfold contentLoop; simp only [hl, ih]; rfl
  have hcl : ∀ t ls y, codeLines P { s with table := t } y ls = codeLines P s y ls := by
    intro t ls
    induction ls with
    | nil => intros; rfl
    | cons b bs ih => intro y; unfold codeLines; rw [show codeLineHeight { s with table := t } = codeLineHeight s from rfl, ih]; rfl
  have hcs : ∀ t cs y, codesLoop P g { s with table := t } y cs = codesLoop P g s y cs := by
    intro t cs
    induction cs with
    | nil => intros; rfl
    | cons b bs ih =>
      intro y; unfold codesLoop
      simp only [hl, show codeLineHeight { s with table := t } = codeLineHeight s from rfl, hcl, ih]
  unfold renderSlide
  simp only [hb, hc, hcs, hl]
  rfl

/-- **C106.** The lines of a code block that are painted are its first ones, in `Courier`, 8 points from the margin, and
none is below the margin. -/
theorem C106_code_place (s : SlideText) (top : Int) (ls : List Str) :
    (codeFrom s top (fitting 540000 (codeLineHeight s) top ls.length) ls).map (·.text)
      = ls.take (fitting 540000 (codeLineHeight s) top ls.length) ∧
    (∀ i < fitting 540000 (codeLineHeight s) top ls.length, 540000 ≤ top - i * codeLineHeight s) ∧
    ∀ l ∈ codeFrom s top (fitting 540000 (codeLineHeight s) top ls.length) ls,
      l.x = 620000 ∧ l.font = c!"Courier" ∧ l.size = codeSize s ∧ l.color = (c!"0.100", c!"0.100", c!"0.100") ∧
      ∃ i < fitting 540000 (codeLineHeight s) top ls.length, l.y = top - i * codeLineHeight s ∧ ls[i]? = some l.text := by
  refine ⟨?_, fun i h => fitting_fits h, ?_⟩
  · unfold codeFrom
    rw [List.map_map]
    have : ((fun l : Line => l.text) ∘ fun p : Str × Nat => codeLine s p.1 (top - p.2 * codeLineHeight s)) = Prod.fst := rfl
    rw [this, List.zipIdx_map_fst]
  · intro l hl
    simp only [codeFrom, List.mem_map] at hl
    obtain ⟨⟨t, i⟩, hp, rfl⟩ := hl
    rw [List.mem_zipIdx_iff_getElem?] at hp
    have hi : i < fitting 540000 (codeLineHeight s) top ls.length := by
      rw [List.getElem?_take] at hp
      split at hp
      · assumption
      · cases hp
    refine ⟨rfl, rfl, rfl, rfl, i, hi, rfl, ?_⟩
    rwa [List.getElem?_take, if_pos hi] at hp

/-- A printer of whole numbers. -/
def samplePrinter : Printer := ⟨fun n => dec n.natAbs, fun n => dec n.natAbs, fun n => dec n.toNat⟩

theorem numText_dec (n : Nat) : NumText (dec n) := by
  refine ⟨dec_ne_nil n, fun c hc => .inl ?_⟩
  have := isDigit_of_mem_dec hc
  simp only [Char.isDigit, Bool.and_eq_true, decide_eq_true_eq] at this
  exact this

example : samplePrinter.Ok := ⟨fun _ => numText_dec _, fun _ => numText_dec _, fun _ => numText_dec _⟩

/-- A slide with a bullet, to see that the theorems apply. -/
def samplePdfSlide : SlideText := { title := c!"(T)", bullets := [{ text := c!"a\\b", style := .number }] }

example : ((renderSlide samplePrinter ⟨8420000, 5950000⟩ samplePdfSlide [] 1 1).bind fun s => readMarks (encode s)).map List.length
    = some 5 := by decide +kernel

/-! ### C107: the objects of the file -/

/-- A PDF file whose objects are numbered in sequence and whose last object is the catalog: it refers to the list of
pages; the list has one page for each slide, in the order of the slides; each page refers back to the list, to a stream
with the length and the bytes of what is painted for its slide, and to its fonts. -/
structure PdfOk (P : Printer) (pg : Page) (start : Nat) (slides : List (SlideText × List Str)) (g : Gen) : Prop where
  ids : g.objects.map Prod.fst = List.range' start g.objects.length
  next : g.nextId = start + g.objects.length
  root : ∃ root pages kids, g.objects.getLast? = some (root, .catalog pages) ∧
    (pages, .pages kids slides.length) ∈ g.objects ∧ kids.length = slides.length ∧
    ∀ i (h : i < slides.length), ∃ c k strm fonts, renderSlide P pg slides[i].1 slides[i].2 (i + 1) slides.length = some c ∧
      kids[i]? = some k ∧ (k, .page pages strm fonts) ∈ g.objects ∧
      (strm, .stream (encode c).length (encode c)) ∈ g.objects ∧
      fonts.map Prod.fst = [c!"Helvetica", c!"Helvetica-Bold", c!"Helvetica-Oblique", c!"Helvetica-BoldOblique"] ∧
      ∀ f ∈ fonts, (f.2, .font f.1) ∈ g.objects

/-- Numbered in sequence. -/
def Numbered (start : Nat) (g : Gen) : Prop :=
  g.objects.map Prod.fst = List.range' start g.objects.length ∧ g.nextId = start + g.objects.length

theorem Numbered.add {start : Nat} {g : Gen} (h : Numbered start g) (o : Obj) : Numbered start (g.add o).1 := by
  obtain ⟨h1, h2⟩ := h
  refine ⟨?_, ?_⟩
  · simp only [Gen.add, List.map_append, List.map_cons, List.map_nil, List.length_append, List.length_singleton]
    rw [h1, h2, List.range'_concat]
    simp
  · simp only [Gen.add, List.length_append, List.length_singleton]
    omega

theorem addFonts_ok {start : Nat} (ns : List Str) : ∀ {g : Gen}, Numbered start g →
    Numbered start (addFonts g ns).1 ∧ (addFonts g ns).1.nextId = g.nextId + ns.length ∧
    (addFonts g ns).2.map Prod.fst = ns ∧ (∀ x ∈ g.objects, x ∈ (addFonts g ns).1.objects) ∧
    ∀ f ∈ (addFonts g ns).2, (f.2, .font f.1) ∈ (addFonts g ns).1.objects := by
  induction ns with
  | nil => intro g h; exact ⟨h, rfl, rfl, fun _ hx => hx, fun _ hx => by cases hx⟩
  | cons n ns ih =>
    intro g h
    obtain ⟨h1, h2, h3, h4, h5⟩ := ih (h.add (.font n))
    refine ⟨h1, ?_, ?_, ?_, ?_⟩
    · show (addFonts (g.add (.font n)).1 ns).1.nextId = _
      rw [h2]
      simp only [Gen.add, List.length_cons]
      omega
    · show n :: (addFonts (g.add (.font n)).1 ns).2.map Prod.fst = _
      rw [h3]
    · intro x hx
      exact h4 x (by simp [Gen.add, hx])
    · intro f hf
      rcases List.mem_cons.mp hf with rfl | hf
      · exact h4 _ (by simp [Gen.add])
      · exact h5 f hf

theorem addPages_ok {P : Printer} {pg : Page} {start total parent : Nat} {fonts : List (Str × Nat)}
    (ss : List (SlideText × List Str)) : ∀ {g g' : Gen} {i : Nat} {ids : List Nat}, Numbered start g →
    addPages P pg total fonts parent g i ss = some (g', ids) →
    Numbered start g' ∧ g'.nextId = g.nextId + 2 * ss.length ∧ ids.length = ss.length ∧ (∀ x ∈ g.objects, x ∈ g'.objects) ∧
    ∀ j (h : j < ss.length), ∃ c k strm, renderSlide P pg ss[j].1 ss[j].2 (i + j + 1) total = some c ∧ ids[j]? = some k ∧
      (k, .page parent strm fonts) ∈ g'.objects ∧ (strm, .stream (encode c).length (encode c)) ∈ g'.objects := by
  induction ss with
  | nil =>
    intro g g' i ids h he
    cases he
    exact ⟨h, rfl, rfl, fun _ hx => hx, fun j hj => by cases hj⟩
  | cons s ss ih =>
    intro g g' i ids h he
    unfold addPages at he
    simp only [Option.bind_eq_some_iff, Option.map_eq_some_iff] at he
    obtain ⟨c, hc, ⟨q1, q2⟩, hq, he⟩ := he
    cases he
    have hn := (h.add (.stream (encode c).length (encode c))).add (.page parent g.nextId fonts)
    obtain ⟨h1, h2, h3, h4, h5⟩ := ih hn hq
    refine ⟨h1, ?_, ?_, ?_, ?_⟩
    · rw [h2]
      simp only [Gen.add, List.length_cons]
      omega
    · simp [h3]
    · intro x hx
      exact h4 x (by simp [Gen.add, hx])
    · intro j hj
      cases j with
      | zero =>
        exact ⟨c, _, g.nextId, hc, rfl, h4 _ (by simp [Gen.add, addPage]), h4 _ (by simp [Gen.add])⟩
      | succ j =>
        obtain ⟨c', k, strm, e1, e2, e3, e4⟩ := h5 j (by simpa using hj)
        refine ⟨c', k, strm, ?_, by simpa using e2, e3, e4⟩
        rw [show i + (j + 1) + 1 = i + 1 + j + 1 by omega]
        exact e1

theorem addPages_some {P : Printer} {pg : Page} {total parent : Nat} {fonts : List (Str × Nat)}
    (ss : List (SlideText × List Str)) : ∀ (g : Gen) (i : Nat),
    (∀ j (h : j < ss.length), (renderSlide P pg ss[j].1 ss[j].2 (i + j + 1) total).isSome) →
    (addPages P pg total fonts parent g i ss).isSome := by
  induction ss with
  | nil => intros; rfl
  | cons s ss ih =>
    intro g i h
    unfold addPages
    obtain ⟨c, hc⟩ := Option.isSome_iff_exists.mp (h 0 (by simp))
    rw [show renderSlide P pg s.1 s.2 (i + 1) total = some c from hc]
    simp only [Option.bind_some, Option.isSome_map]
    apply ih
    intro j hj
    have := h (j + 1) (by simpa using hj)
    rw [show i + (j + 1) + 1 = i + 1 + j + 1 by omega] at this
    exact this

theorem numbered_start (start : Nat) : Numbered start { nextId := start } := ⟨rfl, rfl⟩

/-- **C107.** The export of slides, if it succeeds, gives a file with the structure of `PdfOk`. -/
theorem C107_partial {P : Printer} {pg : Page} {start : Nat} {slides : List (SlideText × List Str)} {g : Gen}
    (h : renderToPdf P pg start slides = .ok g) : PdfOk P pg start slides g := by
  unfold renderToPdf at h
  by_cases hs : slides = []
  · rw [if_pos hs] at h; cases h
  · rw [if_neg hs] at h
    obtain ⟨f1, f2, f3, f4, f5⟩ := addFonts_ok fontNames (numbered_start start)
    simp only at h
    split at h
    · cases h
    · rename_i g1 ids he
      obtain ⟨p1, p2, p3, p4, p5⟩ := addPages_ok slides f1 he
      split at h
      · rename_i hid
        cases h
        have hn := (p1.add (.pages ids ids.length)).add (.catalog ((addFonts { nextId := start } fontNames).1.nextId + 2 * slides.length))
        refine ⟨hn.1, hn.2, _, _, ids, List.getLast?_concat, ?_, p3, ?_⟩
        · simp only [Gen.add, List.mem_append, List.mem_singleton, Prod.mk.injEq]
          left; right
          exact ⟨p2.symm, by rw [p3]⟩
        · intro i hi
          obtain ⟨c, k, strm, e1, e2, e3, e4⟩ := p5 i hi
          rw [Nat.zero_add] at e1
          refine ⟨c, k, strm, _, e1, e2, ?_, ?_, f3, ?_⟩
          · simp only [Gen.add, List.mem_append]; exact .inl (.inl e3)
          · simp only [Gen.add, List.mem_append]; exact .inl (.inl e4)
          · intro f hf
            simp only [Gen.add, List.mem_append]
            exact .inl (.inl (p4 _ (f5 f hf)))
      · cases h

/-- **C107.** The numbers of objects are distinct: a reference means one object. -/
theorem C107_distinct {P : Printer} {pg : Page} {start : Nat} {slides : List (SlideText × List Str)} {g : Gen}
    (h : renderToPdf P pg start slides = .ok g) : (g.objects.map Prod.fst).Nodup := by
  rw [(C107_partial h).ids]
  exact List.nodup_range'

/-- **C107.** The assertion about the number of the list of pages never fails: the export crashes only if one of the
slides does, and fails only without slides. -/
theorem C107_no_panic {P : Printer} {pg : Page} {start : Nat} {slides : List (SlideText × List Str)} (hne : slides ≠ [])
    (h : ∀ j (h : j < slides.length), (renderSlide P pg slides[j].1 slides[j].2 (j + 1) slides.length).isSome) :
    ∃ g, renderToPdf P pg start slides = .ok g := by
  unfold renderToPdf
  rw [if_neg hne]
  obtain ⟨f1, f2, f3, f4, f5⟩ := addFonts_ok fontNames (numbered_start start)
  obtain ⟨⟨g1, ids⟩, he⟩ := Option.isSome_iff_exists.mp (addPages_some (total := slides.length)
    (parent := (addFonts { nextId := start } fontNames).1.nextId + 2 * slides.length)
    (fonts := (addFonts { nextId := start } fontNames).2) slides
    (addFonts { nextId := start } fontNames).1 0 (fun j hj => by rw [Nat.zero_add]; exact h j hj))
  obtain ⟨p1, p2, p3, p4, p5⟩ := addPages_ok slides f1 he
  simp only [he]
  rw [if_pos (show (g1.add (.pages ids ids.length)).2 = _ from p2)]
  exact ⟨_, rfl⟩

/-- **C107.** No slides: an error. -/
theorem C107_empty (P : Printer) (pg : Page) (start : Nat) : renderToPdf P pg start [] = .empty := rfl

theorem mem_helvetica (b i : Bool) : encode (fontName b i) ∈ fontNames.map encode := by
  cases b <;> cases i <;> decide

/-- **C107.** Every text on a page without code is in one of the fonts that the page declares. -/
theorem C107_fonts {P : Printer} (hP : P.Ok) {g : Page} {s : SlideText} {num total : Nat} {str : Str}
    (h : renderSlide P g s [] num total = some str) :
    ∃ ms, readMarks (encode str) = some ms ∧ ∀ c f z x y t, Mark.text c f z x y t ∈ ms →
      f ∈ [c!"Helvetica", c!"Helvetica-Bold", c!"Helvetica-Oblique", c!"Helvetica-BoldOblique"].map encode := by
  obtain ⟨tc, cc, _, _, hr⟩ := C106_partial hP h
  refine ⟨_, hr, ?_⟩
  intro c f z x y t hm
  show f ∈ fontNames.map encode
  simp only [codeMarks, List.append_nil, List.mem_append, List.mem_singleton, List.mem_map, reduceCtorEq, false_or] at hm
  have key : ∀ l : Line, Mark.text c f z x y t = l.mark P → (∃ b i, l.font = fontName b i) → f ∈ fontNames.map encode := by
    intro l he ⟨b, i, hb⟩
    simp only [Line.mark, textMark, Mark.text.injEq] at he
    rw [he.2.1, hb]
    exact mem_helvetica b i
  rcases hm with (hm | ⟨l, hl, hm⟩) | hm
  · exact key _ hm ⟨_, _, rfl⟩
  · refine key l hm.symm ?_
    unfold bodyPainted at hl
    split at hl
    · simp only [contentFrom, List.mem_map] at hl
      obtain ⟨p, _, rfl⟩ := hl
      exact ⟨_, _, rfl⟩
    · simp only [bulletsFrom, List.mem_flatMap] at hl
      obtain ⟨p, _, hl⟩ := hl
      simp only [bulletLines, List.mem_append, List.mem_singleton] at hl
      rcases hl with hl | rfl
      · split at hl
        · cases hl
        · rw [List.mem_singleton] at hl; subst hl; exact ⟨_, _, rfl⟩
      · exact ⟨_, _, rfl⟩
  · exact key _ hm ⟨false, false, rfl⟩

/-- **C107 does not hold in full.** Code is painted in the font `Courier`, which no page of the exported PDF declares. -/
theorem C107_violated_courier :
    (codeLine (.new c!"T") c!"x" 0).font = c!"Courier" ∧ c!"Courier" ∉ fontNames ∧
    ∀ g : Gen, c!"Courier" ∉ (addFonts g fontNames).2.map Prod.fst := by
  refine ⟨rfl, by decide, fun g => ?_⟩
  simp [addFonts, fontNames]

example : ∃ g, renderToPdf samplePrinter ⟨8420000, 5950000⟩ 1 [(samplePdfSlide, [])] = .ok g := by
  refine C107_no_panic (by simp) fun j hj => ?_
  have : j = 0 := by simpa using hj
  subst this
  exact C106_no_panic (fun _ h => by cases h) (fun _ h => by cases h) (fun b hb c hc => by
    simp only [samplePdfSlide, List.getElem_cons_zero, List.mem_singleton] at hb
    subst hb
    cases hc)

/-! ### C108: the numbers in front of bullets -/

theorem romanValue_M (k : Nat) {r : Str} (h : ∀ c ∈ r.head?, romanDigit c ≤ 1000) :
    romanValue ((List.replicate k c!"M").flatten ++ r) = 1000 * k + romanValue r := by
  induction k with
  | zero => simp
  | succ k ih =>
    rw [List.replicate_succ, List.flatten_cons, List.append_assoc]
    show romanValue ('M' :: ((List.replicate k c!"M").flatten ++ r)) = _
    cases hq : (List.replicate k c!"M").flatten ++ r with
    | nil =>
      rw [hq] at ih
      have : r = [] := by simp at hq; exact hq.2
      subst this
      have hk : (1000 : Int) * k = 0 := by
        have : romanValue [] = (0 : Int) := rfl
        rw [this] at ih; omega
      show ((romanDigit 'M' : Nat) : Int) = _
      simp only [romanDigit, romanValue]
      omega
    | cons d q =>
      have hd : ¬ romanDigit 'M' < romanDigit d := by
        have : romanDigit d ≤ 1000 := by
          cases k with
          | zero =>
            simp only [List.replicate_zero, List.flatten_nil, List.nil_append] at hq
            exact h d (by simp [hq])
          | succ k =>
            rw [List.replicate_succ, List.flatten_cons] at hq
            cases hq
            decide
        simp only [romanDigit] at this ⊢
        omega
      rw [hq] at ih
      show (if romanDigit 'M' < romanDigit d then _ else ((romanDigit 'M' : Nat) : Int)) + romanValue (d :: q) = _
      rw [if_neg hd, ih]
      simp only [romanDigit]
      omega

theorem roman_small : ∀ n < 1000, romanValue (romanLoop romanPairs.tail n) = n ∧
    ∀ c ∈ (romanLoop romanPairs.tail n).head?, romanDigit c ≤ 1000 := by decide +kernel

/-- **C108.** The Roman numeral of every number has the value of that number. -/
theorem C108_roman (n : Nat) : romanValue (toRoman n) = n := by
  have e : toRoman n = (List.replicate (n / 1000) c!"M").flatten ++ romanLoop romanPairs.tail (n % 1000) := rfl
  obtain ⟨h1, h2⟩ := roman_small (n % 1000) (Nat.mod_lt _ (by decide))
  rw [e, romanValue_M _ h2, h1]
  omega

/-- **C108.** Different numbers have different Roman numerals. -/
theorem C108_roman_distinct {m n : Nat} (h : toRoman m = toRoman n) : m = n := by
  have := C108_roman m
  rw [h, C108_roman n] at this
  omega

theorem mem_romanLoop {ps : List (Nat × Str)} {n : Nat} {c : Char} (h : c ∈ romanLoop ps n) : ∃ p ∈ ps, c ∈ p.2 := by
  induction ps generalizing n with
  | nil => cases h
  | cons p ps ih =>
    obtain ⟨v, s⟩ := p
    unfold romanLoop at h
    rcases List.mem_append.mp h with h | h
    · rw [List.mem_flatten] at h
      obtain ⟨l, hl, hc⟩ := h
      rw [List.mem_replicate] at hl
      exact ⟨(v, s), by simp, by rw [← hl.2]; exact hc⟩
    · obtain ⟨p, hp, hc⟩ := ih h
      exact ⟨p, by simp [hp], hc⟩

/-- **C108.** The small Roman numeral is the large one in small letters. -/
theorem C108_roman_lower (i : Nat) : romanValue ((bulletPrefix .romanLower i).map Char.toUpper) = i + 1 ∧
    romanValue (bulletPrefix .romanUpper i) = i + 1 := by
  refine ⟨?_, C108_roman (i + 1)⟩
  have : ((toRoman (i + 1)).map Char.toLower).map Char.toUpper = toRoman (i + 1) := by
    rw [List.map_map]
    refine (List.map_congr_left fun c hc => ?_).trans (List.map_id _)
    obtain ⟨p, hp, hc⟩ := mem_romanLoop hc
    have : ∀ p ∈ romanPairs, ∀ c ∈ p.2, (Char.toUpper ∘ Char.toLower) c = c := by decide
    exact this p hp c hc
  show romanValue (((toRoman (i + 1)).map Char.toLower).map Char.toUpper) = _
  rw [this]
  exact C108_roman (i + 1)

/-- **C108.** Numbers count from one and are followed by a period. -/
theorem C108_number (i : Nat) : bulletPrefix .number i = dec (i + 1) ++ c!"." := rfl

/-- **C108.** The first 26 letters. -/
theorem C108_letters {i : Nat} (h : i < 26) :
    bulletPrefix .letterLower i = [c!"abcdefghijklmnopqrstuvwxyz"[i]'h, '.'] ∧
    bulletPrefix .letterUpper i = [c!"ABCDEFGHIJKLMNOPQRSTUVWXYZ"[i]'h, '.'] := by
  have : ∀ i (h : i < 26), bulletPrefix .letterLower i = [c!"abcdefghijklmnopqrstuvwxyz"[i]'h, '.'] ∧
    bulletPrefix .letterUpper i = [c!"ABCDEFGHIJKLMNOPQRSTUVWXYZ"[i]'h, '.'] := by decide
  exact this i h

/-- The numbered styles. -/
def isNumbered (st : BulletStyle) : Prop :=
  st = .number ∨ st = .letterLower ∨ st = .letterUpper ∨ st = .romanLower ∨ st = .romanUpper

theorem counted_iff (st : BulletStyle) : counted st = true ↔ isNumbered st := by
  unfold isNumbered
  cases st <;> simp [counted]

/-- The number of an item of a list as presentation programs count (ECMA-376 Part 1, 21.1.2.4.1): one for each item
directly before it at its level with its style; items at deeper levels do not interrupt, others start anew. -/
def autoNumber (b : BulletPoint) : List BulletPoint → Nat
  | [] => 0
  | p :: before =>
    if b.level < p.level then autoNumber b before
    else if p.level = b.level ∧ p.style = b.style then autoNumber b before + 1
    else 0

theorem autoNumber_same {b : BulletPoint} {l : List BulletPoint} (h : ∀ p ∈ l, p.level = b.level ∧ p.style = b.style) :
    autoNumber b l = l.length := by
  induction l with
  | nil => rfl
  | cons p l ih =>
    have hp := h p (by simp)
    unfold autoNumber
    rw [if_neg (by omega), if_pos hp, ih (fun q hq => h q (by simp [hq]))]
    rfl

/-- **C108.** On a slide whose bullets have one level and one numbered style, each is painted with the number that
presentation programs show. What is missing: lists of several styles or levels, more than 26 letters, and the period
after Roman numerals, see below. -/
theorem C108_partial {bs : List BulletPoint} {lv : Nat} {st : BulletStyle} (hst : isNumbered st)
    (h : ∀ b ∈ bs, b.level = lv ∧ b.style = st) {i : Nat} (hi : i < bs.length) :
    (bs.take i).countP (fun b => counted b.style) = autoNumber bs[i] (bs.take i).reverse ∧
    (bs.take i).countP (fun b => counted b.style) = i := by
  have hc : (bs.take i).countP (fun b => counted b.style) = i := by
    have : (bs.take i).countP (fun b => counted b.style) = (bs.take i).length := by
      rw [List.countP_eq_length]
      intro b hb
      rw [(h b (List.mem_of_mem_take hb)).2]
      exact (counted_iff st).mpr hst
    rw [this, List.length_take]
    omega
  refine ⟨?_, hc⟩
  rw [hc, autoNumber_same, List.length_reverse, List.length_take]
  · omega
  · intro p hp
    have h1 := h p (List.mem_of_mem_take (List.mem_reverse.mp hp))
    have h2 := h bs[i] (List.getElem_mem hi)
    exact ⟨by rw [h1.1, h2.1], by rw [h1.2, h2.2]⟩

/-- **C108 does not hold in full.** The 27th item of a lettered list is marked `{` instead of `aa` in the exported PDF,
and the one of a list in large letters is marked `[`. -/
theorem C108_violated_letters : bulletPrefix .letterLower 26 = c!"{." ∧ bulletPrefix .letterUpper 26 = c!"[." := by decide

/-- **C108 does not hold in full.** One counter runs over all numbered styles and levels of a slide: after a numbered item
the first lettered item is painted as `b.`, and an item at a deeper level continues the numbers of the level above. -/
theorem C108_violated_counter :
    let bs : List BulletPoint := [{ text := c!"x", style := .number }, { text := c!"y", style := .letterLower },
      { text := c!"z", level := 1, style := .number }]
    (bs.take 1).countP (fun b => counted b.style) = 1 ∧ bulletPrefix .letterLower 1 = c!"b." ∧
    autoNumber { text := c!"y", style := .letterLower } (bs.take 1).reverse = 0 ∧
    (bs.take 2).countP (fun b => counted b.style) = 2 ∧
    autoNumber { text := c!"z", level := 1, style := .number } (bs.take 2).reverse = 0 := by decide

/-- **C108 does not hold in full.** Slides write Roman numerals as `romanLcPeriod`, a numeral with a period; the exported
PDF has no period after it. -/
theorem C108_violated_period :
    fmt BulletStyle.romanLower.toXml = c!"<a:buAutoNum type=\"romanLcPeriod\"/>" ∧ bulletPrefix .romanLower 3 = c!"iv" := by
  decide

end PptRs.Props
