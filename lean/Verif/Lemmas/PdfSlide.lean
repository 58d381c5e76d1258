import Verif.Lemmas.Pdf

/-! # What is painted on the page of a slide -/

namespace PptRs.Pdf

open PptRs PdfRead

/-- A line of text on a page. -/
structure Line where
  text : Str
  x : Int
  y : Int
  font : Str
  size : Int
  color : Rgb

/-- A line as it is read. -/
def Line.mark (P : Printer) (l : Line) : Mark := textMark P l.text l.x l.y l.font l.size l.color

theorem regular_hyphen : Regular '-' := by
  intro b hb
  obtain ⟨x, e, h1, h2, _⟩ := numChar_cases (c := '-') (.inr (.inl rfl))
  rw [e, List.mem_singleton] at hb
  subst hb
  exact ⟨h1, h2⟩

theorem regular_font {s : Str} (h : s.all (fun c => isLetter c || c = '-') = true) : ∀ c ∈ s, Regular c := by
  intro c hc
  have := List.all_eq_true.mp h c hc
  simp only [Bool.or_eq_true, decide_eq_true_eq] at this
  rcases this with h | rfl
  · exact regular_letter h
  · exact regular_hyphen

theorem regular_fontName (b i : Bool) : ∀ c ∈ fontName b i, Regular c := by
  apply regular_font
  cases b <;> cases i <;> decide

theorem numText_of {s : Str} (h : s ≠ []) (h' : s.all (fun c => (48 ≤ c.toNat && c.toNat ≤ 57) || c = '-' || c = '.') = true) :
    NumText s := by
  refine ⟨h, fun c hc => ?_⟩
  have := List.all_eq_true.mp h' c hc
  simpa [or_assoc] using this

/-- A colour given by three decimal numbers. -/
theorem numRgb_const {a b c : Str} (h : a ≠ [] ∧ b ≠ [] ∧ c ≠ [])
    (h' : (a ++ b ++ c).all (fun c => (48 ≤ c.toNat && c.toNat ≤ 57) || c = '-' || c = '.') = true) : NumRgb (a, b, c) := by
  simp only [List.all_append, Bool.and_eq_true] at h'
  exact ⟨numText_of h.1 h'.1.1, numText_of h.2.1 h'.1.2, numText_of h.2.2 h'.2⟩

theorem numRgb_hex {P : Printer} (hP : P.Ok) {hex : Str} {c : Rgb} (h : hexToRgb P hex = some c) : NumRgb c := by
  unfold hexToRgb at h
  simp only at h
  split at h
  · simp only [Option.bind_eq_some_iff, Option.map_eq_some_iff] at h
    obtain ⟨r, _, g, _, b, _, rfl⟩ := h
    exact ⟨hP.chan _, hP.chan _, hP.chan _⟩
  · cases h
    exact numRgb_const (by decide) (by decide)

theorem numRgb_colorOr {P : Printer} (hP : P.Ok) {d c : Rgb} (hd : NumRgb d) {h : Option Str} (e : colorOr P d h = some c) :
    NumRgb c := by
  cases h with
  | none => cases e; exact hd
  | some x => exact numRgb_hex hP e

/-! ### Title and footer -/

theorem draws_underline {P : Printer} (hP : P.Ok) {c : Rgb} (hc : NumRgb c) (a b d e : Int) :
    Draws (setColor c ++ (P.one a ++ c!" " ++ P.one b ++ c!" m\n" ++ P.one d ++ c!" " ++ P.one e ++ c!" l\n1 w\nS\n")) [] := by
  have h1 := ops_line (w := c!"m") ((lexesTo_num (hP.one a)).append (lexesTo_num (hP.one b))) rfl (by decide) (by decide) rfl
  have h2 := ops_line (w := c!"l") ((lexesTo_num (hP.one d)).append (lexesTo_num (hP.one e))) rfl (by decide) (by decide) rfl
  have h3 := ops_line (w := c!"w") (lexesTo_num (s := c!"1") (numText_of (by decide) (by decide))) rfl (by decide) (by decide) rfl
  have h4 := ops_line (w := c!"S") lexesTo_nil rfl (by decide) (by decide) rfl
  have h := (ops_setColor hc).append (((h1.append h2).append h3).append h4)
  have eq : setColor c ++ (((P.one a ++ c!" " ++ (P.one b ++ c!" ")) ++ (c!"m" ++ c!"\n"))
      ++ ((P.one d ++ c!" " ++ (P.one e ++ c!" ")) ++ (c!"l" ++ c!"\n")) ++ ((c!"1" ++ c!" ") ++ (c!"w" ++ c!"\n"))
      ++ ([] ++ (c!"S" ++ c!"\n")))
      = setColor c ++ (P.one a ++ c!" " ++ P.one b ++ c!" m\n" ++ P.one d ++ c!" " ++ P.one e ++ c!" l\n1 w\nS\n") := by simp
  rw [eq] at h
  exact ⟨_, h, fun _ => ⟨_, fun _ => rfl⟩⟩

/-- The title of a slide. -/
def titleLine (g : Page) (s : SlideText) (c : Rgb) : Line where
  text := s.title
  x := if centered s then (g.width - textWidth s.title (titleSize s)) / 2 else margin
  y := titleY g s
  font := fontName s.titleBold s.titleItalic
  size := titleSize s
  color := c

theorem draws_title {P : Printer} (hP : P.Ok) (g : Page) (s : SlideText) {c : Rgb} (hc : NumRgb c) :
    Draws (renderTitle P g s c) [(titleLine g s c).mark P] := by
  unfold renderTitle titleLine Line.mark
  simp only
  split
  · exact draws_textLine hP _ _ _ (regular_fontName _ _) _ hc
  · have h1 := draws_textLine hP s.title margin (titleY g s) (regular_fontName s.titleBold s.titleItalic) (titleSize s) hc
    split
    · have := h1.append (draws_underline hP hc margin (titleY g s - 40000) (g.width - margin) (titleY g s - 40000))
      simpa using this
    · rw [List.append_nil]
      exact h1

/-- The number of the slide. -/
def footerLine (g : Page) (num total : Nat) : Line where
  text := dec num ++ c!" / " ++ dec total
  x := (g.width - textWidth (dec num ++ c!" / " ++ dec total) 100000) / 2
  y := 270000
  font := c!"Helvetica"
  size := 100000
  color := (c!"0.500", c!"0.500", c!"0.500")

theorem draws_footer {P : Printer} (hP : P.Ok) (g : Page) (num total : Nat) :
    Draws (renderFooter P g num total) [(footerLine g num total).mark P] :=
  draws_textLine hP _ _ _ (regular_fontName false false) _ (numRgb_const (by decide) (by decide))

/-! ### Lines that fit -/

/-- How many of `n` lines fit, from `y` downwards in steps. -/
def fitting (limit step : Int) : Int → Nat → Nat
  | _, 0 => 0
  | y, n + 1 => if y < limit then 0 else fitting limit step (y - step) n + 1

theorem fitting_le (limit step y : Int) (n : Nat) : fitting limit step y n ≤ n := by
  induction n generalizing y with
  | zero => exact Nat.le_refl _
  | succ n ih =>
    unfold fitting
    split
    · omega
    · have := ih (y - step); omega

theorem step_succ (i : Nat) (L : Int) : ((i + 1 : Nat) : Int) * L = i * L + L := by
  rw [Int.natCast_add, Int.add_mul]
  simp

theorem fitting_fits {limit step y : Int} {n i : Nat} (h : i < fitting limit step y n) : limit ≤ y - i * step := by
  induction n generalizing y i with
  | zero => cases h
  | succ n ih =>
    unfold fitting at h
    split at h
    · cases h
    · cases i with
      | zero => simp; omega
      | succ i =>
        have := ih (y := y - step) (i := i) (by omega)
        rw [step_succ]
        omega

theorem fitting_full {limit step y : Int} {n : Nat} (h : fitting limit step y n < n) :
    y - fitting limit step y n * step < limit := by
  induction n generalizing y with
  | zero => cases h
  | succ n ih =>
    unfold fitting at h ⊢
    split
    · simp; omega
    · rename_i hy
      rw [if_neg hy] at h
      have := ih (y := y - step) (by omega)
      rw [step_succ]
      omega

/-! ### Bullets -/

/-- The lines of a bullet with the number `n`. -/
def bulletLines (s : SlideText) (c : Rgb) (b : BulletPoint) (y : Int) (n : Nat) : List Line :=
  let pre := bulletPrefix b.style n
  let x := margin + 200000 * b.level
  (if pre = [] then [] else [⟨pre, x, y, bulletFont s b, bulletSize s b, c⟩])
    ++ [⟨b.text, if pre = [] then x else x + 200000, y, bulletFont s b, bulletSize s b, c⟩]

theorem draws_bullet {P : Printer} (hP : P.Ok) (s : SlideText) (b : BulletPoint) (y : Int) (n : Nat) {c : Rgb} (hc : NumRgb c) :
    Draws (renderBullet P s b y n c) ((bulletLines s c b y n).map (Line.mark P)) := by
  unfold renderBullet bulletLines Line.mark
  simp only
  split
  · rename_i h
    simp only [List.nil_append, Int.add_zero]
    exact draws_textLine hP _ _ _ (regular_fontName _ _) _ hc
  · rename_i h
    exact (draws_textLine hP _ _ _ (regular_fontName _ _) _ hc).append (draws_textLine hP _ _ _ (regular_fontName _ _) _ hc)

theorem numRgb_bullet {P : Printer} (hP : P.Ok) {c bc : Rgb} (hc : NumRgb c) {b : BulletPoint} (h : bulletColor P c b = some bc) :
    NumRgb bc := by
  unfold bulletColor at h
  split at h
  · exact numRgb_hex hP h
  · cases h; exact hc

/-- The bullets from a position and a number on: `k` of them, one line below the other. -/
def bulletsFrom (P : Printer) (s : SlideText) (c : Rgb) (y : Int) (n k : Nat) (bs : List BulletPoint) : List Line :=
  (bs.take k).zipIdx.flatMap fun p =>
    bulletLines s ((bulletColor P c p.1).getD c) p.1 (y - p.2 * lineHeight s) (n + (bs.take p.2).countP fun b => counted b.style)

theorem bulletsFrom_cons (P : Printer) (s : SlideText) (c : Rgb) (y : Int) (n k : Nat) (b : BulletPoint) (bs : List BulletPoint) :
    bulletsFrom P s c y n (k + 1) (b :: bs)
      = bulletLines s ((bulletColor P c b).getD c) b y n
        ++ bulletsFrom P s c (y - lineHeight s) (if counted b.style then n + 1 else n) k bs := by
  unfold bulletsFrom
  rw [List.take_succ_cons, List.zipIdx_cons, List.flatMap_cons, Nat.zero_add]
  congr 1
  · simp
  · rw [show (bs.take k).zipIdx 1 = ((bs.take k).zipIdx 0).map (fun p => (p.1, p.2 + 1)) from List.zipIdx_succ ..,
      List.flatMap_map]
    congr 1
    funext p
    simp only
    rw [step_succ, List.take_succ_cons, List.countP_cons]
    have e1 : y - (p.2 * lineHeight s + lineHeight s) = y - lineHeight s - p.2 * lineHeight s := by omega
    rw [e1]
    congr 1
    split <;> omega

theorem draws_bullets {P : Printer} (hP : P.Ok) (s : SlideText) {c : Rgb} (hc : NumRgb c) (bs : List BulletPoint) :
    ∀ {y : Int} {n : Nat} {str : Str} {y' : Int}, bulletsLoop P s c y n bs = some (str, y') →
      Draws str ((bulletsFrom P s c y n (fitting (margin + lineHeight s) (lineHeight s) y bs.length) bs).map (Line.mark P)) ∧
      y' = y - fitting (margin + lineHeight s) (lineHeight s) y bs.length * lineHeight s := by
  induction bs with
  | nil =>
    intro y n str y' h
    cases h
    exact ⟨draws_nil, by simp [fitting]⟩
  | cons b bs ih =>
    intro y n str y' h
    unfold bulletsLoop at h
    by_cases hy : y < margin + lineHeight s
    · rw [if_pos hy] at h
      cases h
      simp only [List.length_cons, fitting, hy, if_true]
      exact ⟨draws_nil, by simp⟩
    · rw [if_neg hy] at h
      simp only [Option.bind_eq_some_iff, Option.map_eq_some_iff] at h
      obtain ⟨bc, hbc, ⟨r1, r2⟩, hr, he⟩ := h
      cases he
      obtain ⟨h1, h2⟩ := ih hr
      simp only [List.length_cons, fitting, hy, if_false]
      rw [bulletsFrom_cons, List.map_append, hbc]
      refine ⟨(draws_bullet hP s b y n (numRgb_bullet hP hc hbc)).append h1, ?_⟩
      rw [step_succ, h2]
      omega

/-! ### Content -/

/-- A line of content. -/
def contentLine (g : Page) (s : SlideText) (c : Rgb) (l : Str) (y : Int) : Line where
  text := l
  x := if centered s then (g.width - textWidth l (contentSize s)) / 2 else margin
  y := y
  font := fontName s.contentBold s.contentItalic
  size := contentSize s
  color := c

/-- The lines of content from a position on. -/
def contentFrom (g : Page) (s : SlideText) (c : Rgb) (y : Int) (k : Nat) (ls : List Str) : List Line :=
  (ls.take k).zipIdx.map fun p => contentLine g s c p.1 (y - p.2 * lineHeight s)

theorem contentFrom_cons (g : Page) (s : SlideText) (c : Rgb) (y : Int) (k : Nat) (l : Str) (ls : List Str) :
    contentFrom g s c y (k + 1) (l :: ls) = contentLine g s c l y :: contentFrom g s c (y - lineHeight s) k ls := by
  unfold contentFrom
  rw [List.take_succ_cons, List.zipIdx_cons, List.map_cons, Nat.zero_add]
  congr 1
  · simp
  · rw [show (ls.take k).zipIdx 1 = ((ls.take k).zipIdx 0).map (fun p => (p.1, p.2 + 1)) from List.zipIdx_succ .., List.map_map]
    congr 1
    funext p
    simp only [Function.comp]
    rw [step_succ]
    have e1 : y - (p.2 * lineHeight s + lineHeight s) = y - lineHeight s - p.2 * lineHeight s := by omega
    rw [e1]

theorem draws_content {P : Printer} (hP : P.Ok) (g : Page) (s : SlideText) {c : Rgb} (hc : NumRgb c) (ls : List Str) : ∀ (y : Int),
    Draws (contentLoop P g s c y ls).1
      ((contentFrom g s c y (fitting (margin + lineHeight s) (lineHeight s) y ls.length) ls).map (Line.mark P)) ∧
    (contentLoop P g s c y ls).2 = y - fitting (margin + lineHeight s) (lineHeight s) y ls.length * lineHeight s := by
  induction ls with
  | nil => intro y; exact ⟨draws_nil, by simp [fitting, contentLoop]⟩
  | cons l ls ih =>
    intro y
    by_cases hy : y < margin + lineHeight s
    · simp only [contentLoop, hy, if_true, List.length_cons, fitting]
      exact ⟨draws_nil, by simp⟩
    · obtain ⟨h1, h2⟩ := ih (y - lineHeight s)
      simp only [contentLoop, hy, if_false, List.length_cons, fitting]
      rw [contentFrom_cons, List.map_cons]
      refine ⟨(draws_textLine hP l _ y (regular_fontName s.contentBold s.contentItalic) (contentSize s) hc).append h1, ?_⟩
      rw [h2, step_succ]
      omega

/-! ### Code -/

/-- The light colour behind code. -/
def codeBack : Rgb := (c!"0.950", c!"0.950", c!"0.950")

/-- A line of code. -/
def codeLine (s : SlideText) (l : Str) (y : Int) : Line :=
  ⟨l, margin + 80000, y, c!"Courier", codeSize s, (c!"0.100", c!"0.100", c!"0.100")⟩

/-- The lines of a code block from a position on. -/
def codeFrom (s : SlideText) (y : Int) (k : Nat) (ls : List Str) : List Line :=
  (ls.take k).zipIdx.map fun p => codeLine s p.1 (y - p.2 * codeLineHeight s)

theorem codeFrom_cons (s : SlideText) (y : Int) (k : Nat) (l : Str) (ls : List Str) :
    codeFrom s y (k + 1) (l :: ls) = codeLine s l y :: codeFrom s (y - codeLineHeight s) k ls := by
  unfold codeFrom
  rw [List.take_succ_cons, List.zipIdx_cons, List.map_cons, Nat.zero_add]
  congr 1
  · simp
  · rw [show (ls.take k).zipIdx 1 = ((ls.take k).zipIdx 0).map (fun p => (p.1, p.2 + 1)) from List.zipIdx_succ .., List.map_map]
    congr 1
    funext p
    simp only [Function.comp]
    rw [step_succ]
    have e1 : y - (p.2 * codeLineHeight s + codeLineHeight s) = y - codeLineHeight s - p.2 * codeLineHeight s := by omega
    rw [e1]

theorem draws_codeLines {P : Printer} (hP : P.Ok) (s : SlideText) (ls : List Str) : ∀ (y : Int),
    Draws (codeLines P s y ls).1 ((codeFrom s y (fitting margin (codeLineHeight s) y ls.length) ls).map (Line.mark P)) ∧
    (codeLines P s y ls).2 = y - fitting margin (codeLineHeight s) y ls.length * codeLineHeight s := by
  induction ls with
  | nil => intro y; exact ⟨draws_nil, by simp [fitting, codeLines]⟩
  | cons l ls ih =>
    intro y
    by_cases hy : y < margin
    · simp only [codeLines, hy, if_true, List.length_cons, fitting]
      exact ⟨draws_nil, by simp⟩
    · obtain ⟨h1, h2⟩ := ih (y - codeLineHeight s)
      simp only [codeLines, hy, if_false, List.length_cons, fitting]
      rw [codeFrom_cons, List.map_cons]
      refine ⟨(draws_textLine hP l _ y (regular_font (by decide)) (codeSize s) (numRgb_const (by decide) (by decide))).append h1, ?_⟩
      rw [h2, step_succ]
      omega

/-- What is painted for code blocks from a position on. -/
def codeMarks (P : Printer) (g : Page) (s : SlideText) : Int → List Str → List Mark
  | _, [] => []
  | y, code :: cs =>
    if y < margin + lineHeight s then []
    else
      let ls := strLines code
      let h := (ls.length + 1) * codeLineHeight s
      let top := y - codeLineHeight s
      let k := fitting margin (codeLineHeight s) top ls.length
      .box (rgbBytes codeBack) (boxSides P margin (y - h) (g.width - 2 * margin) h)
        :: (codeFrom s top k ls).map (Line.mark P)
        ++ codeMarks P g s (top - k * codeLineHeight s - lineHeight s / 2) cs

theorem draws_codes {P : Printer} (hP : P.Ok) (g : Page) (s : SlideText) (cs : List Str) : ∀ (y : Int),
    Draws (codesLoop P g s y cs) (codeMarks P g s y cs) := by
  induction cs with
  | nil => intro y; exact draws_nil
  | cons code cs ih =>
    intro y
    by_cases hy : y < margin + lineHeight s
    · simp only [codesLoop, codeMarks, hy, if_true]
      exact draws_nil
    · simp only [codesLoop, codeMarks, hy, if_false]
      obtain ⟨h1, h2⟩ := draws_codeLines hP s (strLines code) (y - codeLineHeight s)
      have hb := draws_box hP (c := codeBack) (numRgb_const (by decide) (by decide)) margin
        (y - ((strLines code).length + 1) * codeLineHeight s) (g.width - 2 * margin) (((strLines code).length + 1) * codeLineHeight s)
      have h3 := ih ((codeLines P s (y - codeLineHeight s) (strLines code)).2 - lineHeight s / 2)
      rw [h2] at h3 ⊢
      exact (hb.append h1).append h3

end PptRs.Pdf
