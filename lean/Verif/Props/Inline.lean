import Verif.Model.Inline
import Verif.Spec.Inline
import Verif.Lemmas.Drawing
import Verif.Lemmas.SlideText

/-!
# C126: text with emphasis
-/

namespace PptRs.Props

open PptRs.Spec PptRs.Inline

/-- The characters of a segment. -/
def segChars (s : Segment) : List Shown := s.text.map (⟨·, s.bold, s.italic, s.code⟩)

/-! ### The loop -/

theorem flush_chars (cur : Str) (b i : Bool) :
    (Inline.flush cur b i).flatMap segChars = cur.map (⟨·, b, i, false⟩) := by
  cases cur <;> simp [Inline.flush, segChars]

theorem segs_tick (cur : Str) (b i : Bool) (s : Str) :
    segs cur b i false ('`' :: s) = Inline.flush cur b i ++ segs [] b i true s := by
  cases s <;> simp [segs]

theorem segs_close (cur : Str) (b i : Bool) (s : Str) :
    segs cur b i true ('`' :: s) = ⟨cur, false, false, true⟩ :: segs [] b i false s := by
  cases s <;> simp [segs]

theorem segs_char (cur : Str) (b i : Bool) {code : Bool} {c : Char} (s : Str) (h1 : c ≠ '`')
    (h2 : code = true ∨ (c ≠ '*' ∧ c ≠ '_')) :
    segs cur b i code (c :: s) = segs (cur ++ [c]) b i code s := by
  have h : ¬ ((c = '*' ∨ c = '_') ∧ code = false) := by
    rintro ⟨h, e⟩
    rcases h2 with h2 | h2
    · simp [e] at h2
    · rcases h with h | h <;> simp_all
  cases s with
  | nil =>
    show (if c = '`' then _ else if (c = '*' ∨ c = '_') ∧ code = false then _ else _) = _
    rw [if_neg h1, if_neg h]
    simp [segs]
  | cons d s =>
    show (if c = '`' then _ else if (c = '*' ∨ c = '_') ∧ code = false then _ else _) = _
    rw [if_neg h1, if_neg h]

theorem segs_double (cur : Str) (b i : Bool) (m : Mark) (s : Str) :
    segs cur b i false (m.char :: m.char :: s) = Inline.flush cur b i ++ segs [] (!b) i false s := by
  cases m <;> simp [segs, Mark.char]

theorem segs_single (cur : Str) (b i : Bool) (m : Mark) (s : Str) (h : s.head? ≠ some m.char) :
    segs cur b i false (m.char :: s) = Inline.flush cur b i ++ segs [] b (!i) false s := by
  cases s with
  | nil => cases m <;> simp [segs, Mark.char]
  | cons d s =>
    have hd : d ≠ m.char := by simpa using h
    cases m <;> simp [segs, Mark.char] at hd ⊢ <;> simp [hd]

/-- How signs are written. -/
def signSource : List Sign → Str
  | [] => []
  | .char c :: r => c :: signSource r
  | .code s :: r => '`' :: s ++ '`' :: signSource r
  | .double m :: r => m.char :: m.char :: signSource r
  | .single m :: r => m.char :: signSource r

/-- What signs stand for when every marker switches. -/
def switched (b i : Bool) : List Sign → List Shown
  | [] => []
  | .char c :: r => ⟨c, b, i, false⟩ :: switched b i r
  | .code s :: r => s.map (⟨·, false, false, true⟩) ++ switched b i r
  | .double _ :: r => switched (!b) i r
  | .single _ :: r => switched b (!i) r

/-- Signs without markers in the text. -/
def signOk : Sign → Prop
  | .char c => marker c = false
  | .code s => '`' ∉ s
  | _ => True

theorem segs_code (cur : Str) (b i : Bool) {s : Str} (h : '`' ∉ s) (r : Str) :
    segs cur b i true (s ++ '`' :: r) = ⟨cur ++ s, false, false, true⟩ :: segs [] b i false r := by
  induction s generalizing cur with
  | nil => simp [segs_close]
  | cons c s ih =>
    rw [List.cons_append, segs_char _ _ _ _ (by rintro rfl; simp at h) (.inl rfl), ih _ (by simp_all)]
    simp

theorem not_marker {c : Char} (h : marker c = false) : c ≠ '*' ∧ c ≠ '_' ∧ c ≠ '`' := by
  simpa [marker, and_assoc] using h

theorem not_marker_char {c : Char} (h : marker c = false) (m : Mark) : c ≠ m.char := by
  have := not_marker h
  cases m
  · exact this.1
  · exact this.2.1

theorem switched_segs (n : Nat) : ∀ (l : List Sign), l.length ≤ n → (∀ s ∈ l, signOk s) → unambiguous l = true →
    ∀ (cur : Str) (b i : Bool), (segs cur b i false (signSource l)).flatMap segChars =
      cur.map (⟨·, b, i, false⟩) ++ switched b i l := by
  induction n with
  | zero =>
    intro l hl _ _ cur b i
    obtain rfl := List.eq_nil_of_length_eq_zero (Nat.le_zero.mp hl)
    cases cur <;> simp [signSource, segs, switched, segChars]
  | succ n ih =>
    intro l hl hok hu cur b i
    cases l with
    | nil => cases cur <;> simp [signSource, segs, switched, segChars]
    | cons t r =>
      have hr : r.length ≤ n := by simpa using hl
      have hokr : ∀ s ∈ r, signOk s := fun s hs => hok s (by simp [hs])
      cases t with
      | char c =>
        have hc : marker c = false := hok (.char c) (by simp)
        have hu' : unambiguous r = true := by simpa [unambiguous] using hu
        have := not_marker hc
        rw [signSource, segs_char _ _ _ _ this.2.2 (.inr ⟨this.1, this.2.1⟩), ih r hr hokr hu']
        simp [switched]
      | code s =>
        have hs : '`' ∉ s := hok (.code s) (by simp)
        have hu' : unambiguous r = true := by simpa [unambiguous] using hu
        rw [signSource, List.cons_append, segs_tick, segs_code _ _ _ hs, List.flatMap_append, flush_chars,
          List.flatMap_cons, ih r hr hokr hu']
        simp [switched, segChars]
      | double m =>
        have hu' : unambiguous r = true := by simpa [unambiguous] using hu
        rw [signSource, segs_double, List.flatMap_append, flush_chars, ih r hr hokr hu']
        simp [switched]
      | single m =>
        simp only [unambiguous, Bool.and_eq_true] at hu
        obtain ⟨ha, hu'⟩ := hu
        by_cases hd : ∃ q, r = .double m :: q
        · obtain ⟨q, rfl⟩ := hd
          have hq : unambiguous (.single m :: q) = true := by
            simp only [unambiguous, Bool.and_eq_true]
            exact ⟨by simpa [apart] using ha, by simpa [unambiguous] using hu'⟩
          have hokq : ∀ s ∈ Sign.single m :: q, signOk s := by
            intro s hs
            rcases List.mem_cons.mp hs with rfl | hs
            · trivial
            · exact hokr s (by simp [hs])
          have key := ih (.single m :: q) (by simpa using hr) hokq hq [] (!b) i
          rw [signSource, signSource, segs_double, List.flatMap_append, flush_chars]
          rw [signSource] at key
          rw [key]
          simp [switched]
        · rw [signSource, segs_single _ _ _ _ _ ?_, List.flatMap_append, flush_chars, ih r hr hokr hu']
          · simp [switched]
          · cases r with
            | nil => simp [signSource]
            | cons t q =>
              cases t with
              | char c => simpa [signSource] using not_marker_char (hokr (.char c) (by simp)) m
              | code s => cases m <;> simp [signSource, Mark.char]
              | double k =>
                have hk : k ≠ m := by rintro rfl; exact hd ⟨q, rfl⟩
                cases m <;> cases k <;> simp_all [signSource, Mark.char]
              | single k =>
                have hk : k ≠ m := by simpa [apart] using ha
                cases m <;> cases k <;> simp_all [signSource, Mark.char]

/-! ### From text with emphasis to signs -/

theorem signSource_append (a b : List Sign) : signSource (a ++ b) = signSource a ++ signSource b := by
  induction a with
  | nil => rfl
  | cons t a ih => cases t <;> simp [signSource, ih]

theorem signSource_chars (s : Str) : signSource (s.map .char) = s := by
  induction s with
  | nil => rfl
  | cons c s ih => simp [signSource, ih]

mutual
theorem source_signs : (d : Rich) → signSource d.signs = d.source
  | .text s => by simp only [Rich.signs, Rich.source, signSource_chars]
  | .code s => by simp [Rich.signs, Rich.source, signSource]
  | .bold m l => by simp [Rich.signs, Rich.source, signSource, signSource_append, source_signsL l]
  | .italic m l => by simp [Rich.signs, Rich.source, signSource, signSource_append, source_signsL l]
theorem source_signsL : (l : List Rich) → signSource (signsL l) = sourceL l
  | [] => rfl
  | k :: ks => by simp [signsL, sourceL, signSource_append, source_signs k, source_signsL ks]
end

theorem switched_chars (b i : Bool) (s : Str) (r : List Sign) :
    switched b i (s.map .char ++ r) = s.map (⟨·, b, i, false⟩) ++ switched b i r := by
  induction s with
  | nil => rfl
  | cons c s ih => simp [switched, ih]

mutual
theorem switched_signs (b i : Bool) : (d : Rich) → d.simple b i = true → ∀ r,
    switched b i (d.signs ++ r) = d.shown b i ++ switched b i r
  | .text s, _, r => by rw [Rich.signs, switched_chars]; rfl
  | .code s, _, r => by simp [Rich.signs, switched, Rich.shown]
  | .bold m l, h, r => by
      simp only [Rich.simple, Bool.and_eq_true, Bool.not_eq_true'] at h
      obtain ⟨rfl, h⟩ := h
      simp [Rich.signs, switched, Rich.shown, switched_signsL true i l h]
  | .italic m l, h, r => by
      simp only [Rich.simple, Bool.and_eq_true, Bool.not_eq_true'] at h
      obtain ⟨rfl, h⟩ := h
      simp [Rich.signs, switched, Rich.shown, switched_signsL b true l h]
theorem switched_signsL (b i : Bool) : (l : List Rich) → simpleL b i l = true → ∀ r,
    switched b i (signsL l ++ r) = shownL b i l ++ switched b i r
  | [], _, r => rfl
  | k :: ks, h, r => by
      simp only [simpleL, Bool.and_eq_true] at h
      simp [signsL, shownL, switched_signs b i k h.1, switched_signsL b i ks h.2]
end

mutual
theorem signOk_signs (b i : Bool) : (d : Rich) → d.simple b i = true → ∀ s ∈ d.signs, signOk s
  | .text t, h, s, hs => by
      obtain ⟨c, hc, rfl⟩ := List.mem_map.mp hs
      simp only [Rich.simple, List.all_eq_true] at h
      simpa [signOk] using h c hc
  | .code t, h, s, hs => by
      obtain rfl := List.mem_singleton.mp hs
      simp only [Rich.simple, List.all_eq_true] at h
      exact fun hm => by simpa using h _ hm
  | .bold m l, h, s, hs => by
      simp only [Rich.simple, Bool.and_eq_true] at h
      simp only [Rich.signs, List.mem_cons, List.mem_append, List.not_mem_nil, or_false] at hs
      rcases hs with (rfl | hs) | rfl
      · trivial
      · exact signOk_signsL true i l h.2 s hs
      · trivial
  | .italic m l, h, s, hs => by
      simp only [Rich.simple, Bool.and_eq_true] at h
      simp only [Rich.signs, List.mem_cons, List.mem_append, List.not_mem_nil, or_false] at hs
      rcases hs with (rfl | hs) | rfl
      · trivial
      · exact signOk_signsL b true l h.2 s hs
      · trivial
theorem signOk_signsL (b i : Bool) : (l : List Rich) → simpleL b i l = true → ∀ s ∈ signsL l, signOk s
  | [], _, s, hs => by simp [signsL] at hs
  | k :: ks, h, s, hs => by
      simp only [simpleL, Bool.and_eq_true] at h
      simp only [signsL, List.mem_append] at hs
      rcases hs with hs | hs
      · exact signOk_signs b i k h.1 s hs
      · exact signOk_signsL b i ks h.2 s hs
end

/-- Text with emphasis is shown as it is meant, if nothing is emphasised twice in the same way, the
texts contain no markers, no two signs for italic text stand in one row of the same characters, and
there is something to show. -/
theorem C126_inline_partial (l : List Rich) (h : simpleL false false l = true)
    (hu : unambiguous (signsL l) = true) (hne : shownL false false l ≠ []) :
    (Inline.parse (sourceL l)).flatMap segChars = shownL false false l := by
  have key := switched_segs _ (signsL l) (Nat.le_refl _) (signOk_signsL false false l h) hu [] false false
  rw [source_signsL, List.map_nil, List.nil_append] at key
  have hs := switched_signsL false false l h []
  simp only [List.append_nil, switched] at hs
  rw [hs] at key
  unfold Inline.parse
  by_cases he : (segs [] false false false (sourceL l)).isEmpty = true
  · rw [List.isEmpty_iff.mp he] at key
    exact absurd key.symm hne
  · simp only [he]
    exact key

/-- A nested text to which `C126_inline_partial` applies. -/
example : simpleL false false [.text c!"a ", .bold .star [.text c!"b ", .italic .star [.text c!"c"]], .code c!"**", .italic .under [.text c!"d"]]
    = true ∧ unambiguous (signsL [.text c!"a ", .bold .star [.text c!"b ", .italic .star [.text c!"c"]], .code c!"**",
      .italic .under [.text c!"d"]]) = true
    ∧ sourceL [.text c!"a ", .bold .star [.text c!"b ", .italic .star [.text c!"c"]], .code c!"**", .italic .under [.text c!"d"]]
      = c!"a **b *c***`**`_d_" := by decide +kernel

/-! ### Nothing but markers is lost -/

/-- The text of a segment. -/
theorem segs_text (s : Str) : ∀ (n : Nat), s.length ≤ n → ∀ (cur : Str) (b i code : Bool),
    ∃ t : Str, (segs cur b i code s).flatMap (·.text) = cur ++ t ∧ t.Sublist s
      ∧ t.filter (fun c => !marker c) = s.filter (fun c => !marker c) := by
  intro n
  induction n generalizing s with
  | zero =>
    intro hl cur b i code
    obtain rfl := List.eq_nil_of_length_eq_zero (Nat.le_zero.mp hl)
    exact ⟨[], by cases cur <;> simp [segs], .slnil, rfl⟩
  | succ n ih =>
    intro hl cur b i code
    have hf : ∀ b i, (Inline.flush cur b i).flatMap (·.text) = cur := fun b i => by
      cases cur <;> simp [Inline.flush]
    cases s with
    | nil => exact ⟨[], by cases cur <;> simp [segs], .slnil, rfl⟩
    | cons c s =>
      have hs : s.length ≤ n := by simpa using hl
      by_cases h1 : c = '`'
      · subst h1
        cases code with
        | false =>
          obtain ⟨t, e, hsub, hfil⟩ := ih s hs [] b i true
          refine ⟨t, ?_, hsub.cons _, by simpa [marker] using hfil⟩
          rw [segs_tick, List.flatMap_append, e, hf]; rfl
        | true =>
          obtain ⟨t, e, hsub, hfil⟩ := ih s hs [] b i false
          refine ⟨t, ?_, hsub.cons _, by simpa [marker] using hfil⟩
          rw [segs_close, List.flatMap_cons, e]; rfl
      · by_cases h2 : code = true ∨ (c ≠ '*' ∧ c ≠ '_')
        · obtain ⟨t, e, hsub, hfil⟩ := ih s hs (cur ++ [c]) b i code
          refine ⟨c :: t, ?_, hsub.cons_cons _, by simp [List.filter_cons, hfil]⟩
          rw [segs_char _ _ _ _ h1 h2, e]; simp
        · obtain ⟨m, rfl⟩ : ∃ m : Mark, c = m.char := by
            by_cases hstar : c = '*'
            · exact ⟨.star, hstar⟩
            · refine ⟨.under, ?_⟩
              exact Decidable.byContradiction fun hne => h2 (.inr ⟨hstar, hne⟩)
          have hcode : code = false := by
            cases code with
            | false => rfl
            | true => exact absurd (.inl rfl) h2
          subst hcode
          have hm : marker m.char = true := by cases m <;> rfl
          by_cases h3 : s.head? = some m.char
          · cases s with
            | nil => simp at h3
            | cons d s =>
              obtain rfl : d = m.char := by simpa using h3
              obtain ⟨t, e, hsub, hfil⟩ := ih s (by simp at hs; omega) [] (!b) i false
              refine ⟨t, ?_, (hsub.cons _).cons _, by simpa [hm] using hfil⟩
              rw [segs_double, List.flatMap_append, e, hf]; rfl
          · obtain ⟨t, e, hsub, hfil⟩ := ih s hs [] b (!i) false
            refine ⟨t, ?_, hsub.cons _, by simpa [hm] using hfil⟩
            rw [segs_single _ _ _ _ _ h3, List.flatMap_append, e, hf]; rfl

/-- Whatever the text is: there is a segment, the segments show characters of the text in their
order, and all that are not markers. -/
theorem C126_kept (s : Str) :
    Inline.parse s ≠ [] ∧ ((Inline.parse s).flatMap (·.text)).Sublist s
      ∧ ((Inline.parse s).flatMap (·.text)).filter (fun c => !marker c) = s.filter (fun c => !marker c) := by
  unfold Inline.parse
  by_cases he : (segs [] false false false s).isEmpty = true
  · simp [he]
  · obtain ⟨t, e, hsub, hfil⟩ := segs_text s _ (Nat.le_refl _) [] false false false
    simp only [he]
    refine ⟨by simpa using he, ?_, ?_⟩
    · simpa [e] using hsub
    · simpa [e] using hfil

example : (Inline.parse c!"a **b** `c_d` *").flatMap (·.text) = c!"a b c_d " := by decide +kernel

/-! ### The runs -/

/-- A run. -/
def richNode (size : Nat) (bold italic : Bool) (color : Option Str) (s : Segment) : Node :=
  E c!"a:r" [] [
    if s.code then
      E c!"a:rPr" [(c!"lang", c!"en-US"), (c!"sz", dec size), (c!"dirty", c!"0")]
        [E c!"a:latin" [(c!"typeface", c!"Consolas")] [],
          E c!"a:solidFill" [] [E c!"a:srgbClr" [(c!"val", c!"C7254E")] []]]
    else
      E c!"a:rPr" [(c!"lang", c!"en-US"), (c!"sz", dec size), (c!"b", flag (bold || s.bold)), (c!"i", flag (italic || s.italic)),
        (c!"dirty", c!"0")]
        (match color with
          | some c => [E c!"a:solidFill" [] [E c!"a:srgbClr" [(c!"val", cleanColor c)] []]]
          | none => []),
    E c!"a:t" [] (addText [] s.text)]

theorem plain_flag (b : Bool) : Plain (flag b) := by
  cases b <;> refine ⟨?_, ?_, ?_⟩ <;> decide

theorem readsNodes_run (size : Nat) (bold italic : Bool) {color : Option Str}
    (h : ∀ c ∈ color, Plain (cleanColor c)) (s : Segment) :
    ReadsNodes (runXml size bold italic color s) [richNode size bold italic color s] := by
  have hb := plain_flag (bold || s.bold)
  have hi := plain_flag (italic || s.italic)
  unfold runXml richNode
  cases hc : s.code with
  | true =>
    simp only [if_true]
    exact (Splits.lit (by parts_ok)).readsNodes (by krfl)
  | false =>
    simp only [Bool.false_eq_true, if_false]
    generalize flag (bold || s.bold) = B at hb ⊢
    generalize flag (italic || s.italic) = I at hi ⊢
    cases color with
    | none =>
      simp only [List.cons_append, List.nil_append]
      exact (Splits.lit (by parts_ok)).readsNodes (by krfl)
    | some c =>
      have hp := h c rfl
      simp only [List.cons_append, List.nil_append]
      exact (Splits.lit (by parts_ok)).readsNodes (by krfl)

/-- How a segment should be shown. -/
def segLook (size : Nat) (bold italic : Bool) (color : Option Str) (s : Segment) : RunLook :=
  if s.code then ⟨false, false, none, none, some (dec size), some c!"C7254E", some c!"Consolas"⟩
  else ⟨bold || s.bold, italic || s.italic, none, none, some (dec size), color.map cleanColor, none⟩

theorem runRead_rich (size : Nat) (bold italic : Bool) (color : Option Str) (s : Segment) :
    runRead (richNode size bold italic color s) = (s.text, some (segLook size bold italic color s)) := by
  have ht : textOf (addText [] s.text) = s.text := by rw [addText_eq]; exact textOf_textNode _
  unfold richNode segLook runRead
  refine Prod.ext ?_ ?_
  · cases s.code with
    | true =>
      show (textOf (addText [] s.text) ++ []) = s.text
      rw [ht, List.append_nil]
    | false =>
      show (textOf (addText [] s.text) ++ []) = s.text
      rw [ht, List.append_nil]
  · cases s.code with
    | true => rfl
    | false =>
      cases color <;> cases bold <;> cases italic <;> cases s.bold <;> cases s.italic <;> rfl

/-- The runs written for a text are well-formed and show its segments. -/
theorem C126_runs (text : Str) (size : Nat) (bold italic : Bool) {color : Option Str}
    (h : ∀ c ∈ color, Plain (cleanColor c)) :
    ∃ ks, ReadsAs (fmt (richRuns text size bold italic color)) ks
      ∧ ks.map runRead = (Inline.parse text).map fun s => (s.text, some (segLook size bold italic color s)) := by
  have hr : ReadsNodes (richRuns text size bold italic color)
      ((Inline.parse text).flatMap fun s => [richNode size bold italic color s]) :=
    readsNodes_flatMap fun s _ => readsNodes_run size bold italic h s
  refine ⟨_, hr.readsAs, ?_⟩
  rw [← List.map_eq_flatMap, List.map_map]
  exact List.map_congr_left fun s _ => runRead_rich size bold italic color s

example : (Inline.parse c!"a **b**").map (fun s => (s.text, segLook 1800 false true (some c!"#ff0000") s))
    = [(c!"a ", ⟨false, true, none, none, some c!"1800", some c!"FF0000", none⟩),
      (c!"b", ⟨true, true, none, none, some c!"1800", some c!"FF0000", none⟩)] := by decide +kernel

/-- **C126 does not hold in full.** Inline formatting (`parse_inline_formatting`): an underscore
inside a word is taken for a marker, so `snake_case` loses it and the rest is italic; so is a single
star between spaces, as in `2 * 3`; bold text inside bold text is not bold; two italic texts side by
side (`*a**b*`) make the second one bold as well; and a text of markers only is shown with the
markers. -/
theorem C126_inline_violated :
    Inline.parse c!"snake_case" = [⟨c!"snake", false, false, false⟩, ⟨c!"case", false, true, false⟩]
    ∧ Inline.parse c!"2 * 3" = [⟨c!"2 ", false, false, false⟩, ⟨c!" 3", false, true, false⟩]
    ∧ Inline.parse (Rich.bold .star [.text c!"a", .bold .under [.text c!"b"]]).source
      = [⟨c!"a", true, false, false⟩, ⟨c!"b", false, false, false⟩]
    ∧ Inline.parse (sourceL [.italic .star [.text c!"a"], .italic .star [.text c!"b"]])
      = [⟨c!"a", false, true, false⟩, ⟨c!"b", true, true, false⟩]
    ∧ Inline.parse (Rich.bold .star []).source = [⟨c!"****", false, false, false⟩] := by
  decide +kernel

/-- **C126 does not hold in full.** The run written for a code span by `generate_rich_text_runs` has
`a:latin` before `a:solidFill`, which is not the order of the schema (`CT_TextCharacterProperties`),
for every code span. -/
theorem C126_order_violated (size : Nat) (bold italic : Bool) (color : Option Str) (s : Segment)
    (h : s.code = true) :
    ReadsNodes (runXml size bold italic color s) [richNode size bold italic color s]
      ∧ ordered (richNode size bold italic color s) = false := by
  constructor
  · unfold runXml richNode
    simp only [h, if_true]
    exact (Splits.lit (by parts_ok)).readsNodes (by krfl)
  · unfold richNode
    simp only [h, if_true]
    rfl

/-- Without code spans the runs follow the schema. -/
theorem C126_order_partial (size : Nat) (bold italic : Bool) (color : Option Str) (s : Segment)
    (h : s.code = false) : ordered (richNode size bold italic color s) = true := by
  have ht : orderedL (addText [] s.text) = true := by
    rw [addText_eq]
    unfold textNode
    split <;> rfl
  have hw : tags (addText [] s.text) = [] := by
    rw [addText_eq]
    unfold textNode
    split <;> rfl
  unfold richNode
  simp only [h]
  cases color with
  | none =>
    show (true && ((true && true) && ((true && orderedL (addText [] s.text)) && true))) = true
    rw [ht]; rfl
  | some c =>
    show (true && ((true && true) && ((true && orderedL (addText [] s.text)) && true))) = true
    rw [ht]; rfl

end PptRs.Props
