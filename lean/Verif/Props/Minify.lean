import Verif.Model.Compress

/-!
# C23, C24: minification of XML
-/

namespace PptRs.Spec

/-- The characters inside double quotes together with the quotes themselves. The flag tells whether the
text begins inside quotes. -/
def insideQuotes : Bool → Str → Str
  | _, [] => []
  | q, c :: s => if c = '"' then c :: insideQuotes (!q) s else if q then c :: insideQuotes q s else insideQuotes q s

/-- The non-blank characters. -/
def nonBlank (s : Str) : Str := s.filter fun c => c ∉ c!" \n\t\r"

/-- A text in which every blank is a single space, not at the beginning and not before `<`. -/
def Tidy : Str → Prop
  | [] => True
  | c :: s => c ∉ c!" \n\t\r" ∧ TidyAfter c s
where
  /-- The rest of a tidy text behind the character `p`. -/
  TidyAfter (p : Char) : Str → Prop
  | [] => True
  | c :: s => (c ∈ c!" \n\t\r" → c = ' ' ∧ p ∉ c!" \n\t\r") ∧ (c = '<' → p ∉ c!" \n\t\r") ∧ TidyAfter c s

end PptRs.Spec

namespace PptRs.Props

open PptRs PptRs.Spec

theorem isBlank_iff {c : Char} : isBlank c = true ↔ c ∈ c!" \n\t\r" := by
  simp [isBlank, or_assoc]

theorem nonBlank_append (s t : Str) : nonBlank (s ++ t) = nonBlank s ++ nonBlank t := List.filter_append ..

theorem nonBlank_blank {c : Char} (h : isBlank c = true) : nonBlank [c] = [] := by
  simp only [nonBlank, List.filter_cons, List.filter_nil]
  rw [if_neg]
  exact fun hh => of_decide_eq_true hh (isBlank_iff.mp h)

/-- Whether a text ends inside quotes. -/
def quoteParity : Bool → Str → Bool
  | q, [] => q
  | q, c :: s => quoteParity (if c = '"' then !q else q) s

theorem quoteParity_append (q : Bool) (s t : Str) :
    quoteParity q (s ++ t) = quoteParity (quoteParity q s) t := by
  induction s generalizing q with
  | nil => rfl
  | cons c s ih => rw [List.cons_append, quoteParity, quoteParity, ih]

theorem insideQuotes_append (q : Bool) (s t : Str) :
    insideQuotes q (s ++ t) = insideQuotes q s ++ insideQuotes (quoteParity q s) t := by
  induction s generalizing q with
  | nil => rfl
  | cons c s ih =>
    rw [List.cons_append, insideQuotes, insideQuotes, quoteParity]
    split
    · rw [ih]; rfl
    · split
      · rw [ih]; rfl
      · rw [ih]

theorem isBlank_ne {c : Char} (h : isBlank c = true) : c ≠ '"' := by
  rintro rfl; revert h; decide

/-- What the scanner maintains; `done` is the text read so far. -/
structure MinInv (done : Str) (s : MinState) : Prop where
  kept : nonBlank s.out.reverse = nonBlank done
  short : s.out.length ≤ done.length
  quotes : insideQuotes false s.out.reverse = insideQuotes false done
  parity : quoteParity false s.out.reverse = s.inStr
  parityDone : quoteParity false done = s.inStr
  last : isBlank s.prev = true → s.out = [] ∨ ∃ w r, s.out = w :: r ∧ isBlank w = true

theorem MinInv.init : MinInv [] MinState.init :=
  ⟨rfl, Nat.le_refl _, rfl, rfl, rfl, fun _ => .inl rfl⟩

theorem MinInv.push {done : Str} {s t : MinState} (h : MinInv done s) (c : Char) (h1 : t.out = c :: s.out)
    (h2 : t.prev = c) (h3 : t.inStr = if c = '"' then !s.inStr else s.inStr) : MinInv (done ++ [c]) t where
  kept := by rw [h1, List.reverse_cons, nonBlank_append, nonBlank_append, h.kept]
  short := by rw [h1]; simp; exact h.short
  quotes := by
    rw [h1, List.reverse_cons, insideQuotes_append, insideQuotes_append, h.quotes, h.parity, h.parityDone]
  parity := by rw [h1, List.reverse_cons, quoteParity_append, h.parity, h3]; rfl
  parityDone := by rw [quoteParity_append, h.parityDone, h3]; rfl
  last := fun hb => .inr ⟨c, s.out, h1, h2 ▸ hb⟩

/-- Dropping a blank that lies outside quotes. -/
theorem MinInv.pop {done : Str} {s : MinState} (h : MinInv done s) (hs : s.inStr = false)
    (hb : isBlank s.prev = true) :
    nonBlank s.out.tail.reverse = nonBlank done ∧ insideQuotes false s.out.tail.reverse = insideQuotes false done ∧
      quoteParity false s.out.tail.reverse = false := by
  rcases h.last hb with e | ⟨w, r, e, hw⟩
  · have k := h.kept; have q := h.quotes; have p := h.parity
    rw [e] at k q p ⊢
    exact ⟨k, q, p.trans hs⟩
  · have k := h.kept
    have q := h.quotes
    have p := h.parity
    rw [e, List.reverse_cons] at k q p
    rw [e, List.tail_cons]
    have hw' := isBlank_ne hw
    rw [nonBlank_append, nonBlank_blank hw, List.append_nil] at k
    rw [quoteParity_append, hs, quoteParity, if_neg hw', quoteParity] at p
    rw [insideQuotes_append, p, insideQuotes, if_neg hw'] at q
    exact ⟨k, by simpa [insideQuotes] using q, p⟩

theorem MinInv.step {done : Str} {s : MinState} (h : MinInv done s) (c : Char) :
    MinInv (done ++ [c]) (s.step c) := by
  unfold MinState.step
  split
  · rename_i hc
    exact h.push c rfl rfl (by rw [if_pos hc])
  · rename_i hc
    split
    · rename_i h2
      rw [Bool.and_eq_true, decide_eq_true_eq, Bool.not_eq_true'] at h2
      unfold MinState.popBlank
      split
      · rename_i h3
        have hb : isBlank s.prev = true := by
          simp only [Bool.or_eq_true, decide_eq_true_eq] at h3
          simp only [isBlank, Bool.or_eq_true, decide_eq_true_eq]
          exact .inl h3
        obtain ⟨k, q, p⟩ := h.pop h2.2 hb
        refine ⟨?_, ?_, ?_, ?_, ?_, ?_⟩
        · simp only [List.reverse_cons]
          rw [nonBlank_append, nonBlank_append, k]
        · have := h.short; simp; omega
        · simp only [List.reverse_cons]
          rw [insideQuotes_append, insideQuotes_append, q, p, h.parityDone, h2.2]
        · simp only [List.reverse_cons]
          rw [quoteParity_append, p, h2.2, quoteParity, if_neg hc]; rfl
        · rw [quoteParity_append, h.parityDone, quoteParity, if_neg hc]; rfl
        · intro hb
          have hb : isBlank c = true := hb
          rw [h2.1] at hb
          exact absurd hb (by decide)
      · exact h.push c rfl rfl (by rw [if_neg hc])
    · split
      · exact h.push c rfl rfl (by rw [if_neg hc])
      · split
        · rename_i h3
          simp only [Bool.and_eq_true, Bool.not_eq_true'] at h3
          have e1 : nonBlank (done ++ [c]) = nonBlank done := by
            rw [nonBlank_append, nonBlank_blank h3.1.1, List.append_nil]
          have e2 : insideQuotes false (done ++ [c]) = insideQuotes false done := by
            rw [insideQuotes_append, h.parityDone, h3.2, insideQuotes, if_neg hc]
            simp [insideQuotes]
          have e3 : quoteParity false (done ++ [c]) = s.inStr := by
            rw [quoteParity_append, h.parityDone, quoteParity, if_neg hc]; rfl
          split
          · rename_i hp
            refine ⟨?_, ?_, ?_, ?_, e3, ?_⟩
            · simp only [List.reverse_cons]
              rw [e1, nonBlank_append, nonBlank_blank (by decide), List.append_nil, h.kept]
            · have := h.short; simp; omega
            · simp only [List.reverse_cons]
              rw [e2, insideQuotes_append, h.parity, h3.2, h.quotes, insideQuotes, if_neg (by decide)]
              simp [insideQuotes]
            · simp only [List.reverse_cons]
              rw [quoteParity_append, h.parity, quoteParity, if_neg (by decide)]; rfl
            · exact fun _ => .inr ⟨' ', s.out, rfl, by decide⟩
          · rename_i hp
            rw [ne_eq, Decidable.not_not] at hp
            exact ⟨by rw [e1]; exact h.kept, by have := h.short; simp; omega, by rw [e2]; exact h.quotes,
              h.parity, e3, fun _ => h.last (by rw [hp]; decide)⟩
        · exact h.push c rfl rfl (by rw [if_neg hc])

theorem minInv_fold (done xml : Str) (s : MinState) (h : MinInv done s) :
    MinInv (done ++ xml) (xml.foldl MinState.step s) := by
  induction xml generalizing done s with
  | nil => simpa using h
  | cons c xml ih =>
    rw [List.foldl_cons]
    have := ih _ _ (h.step c)
    rwa [List.append_assoc, List.singleton_append] at this

/-- **C23**: minifying any text keeps the sequence of its non-blank characters. -/
theorem C23_nonblank_kept (xml : Str) : nonBlank (minimizeXml xml) = nonBlank xml :=
  (minInv_fold [] xml _ MinInv.init).kept

/-- **C23**: minifying never makes the text longer. -/
theorem C23_not_longer (xml : Str) : (minimizeXml xml).length ≤ xml.length := by
  have := (minInv_fold [] xml _ MinInv.init).short
  simpa [minimizeXml] using this

/-- **C23**: everything between double quotes is kept, blanks included. -/
theorem C23_quoted_kept (xml : Str) : insideQuotes false (minimizeXml xml) = insideQuotes false xml :=
  (minInv_fold [] xml _ MinInv.init).quotes

/-- A blank written as a space. -/
def asSpace (c : Char) : Char := if c ∈ c!" \n\t\r" then ' ' else c

/-- **C23**: characters are only left out or, if blank, turned into spaces; nothing is added or moved. -/
theorem C23_only_blanks_dropped (xml : Str) : ((minimizeXml xml).map asSpace).Sublist (xml.map asSpace) := by
  have k : ∀ (xml done : Str) (s : MinState), (s.out.reverse.map asSpace).Sublist (done.map asSpace) →
      ((xml.foldl MinState.step s).out.reverse.map asSpace).Sublist ((done ++ xml).map asSpace) := by
    intro xml
    induction xml with
    | nil => intro done s h; simpa using h
    | cons c xml ih =>
      intro done s h
      rw [List.foldl_cons, show done ++ c :: xml = (done ++ [c]) ++ xml by simp]
      apply ih
      have hpush : ((c :: s.out).reverse.map asSpace).Sublist ((done ++ [c]).map asSpace) := by
        rw [List.reverse_cons, List.map_append, List.map_append]
        exact h.append (List.Sublist.refl _)
      unfold MinState.step
      split
      · exact hpush
      · split
        · unfold MinState.popBlank
          split
          · simp only [List.reverse_cons, List.map_append]
            refine List.Sublist.append (List.Sublist.trans ?_ h) (List.Sublist.refl _)
            exact ((List.tail_sublist _).reverse).map _
          · exact hpush
        · split
          · exact hpush
          · split
            · rename_i hb
              simp only [Bool.and_eq_true] at hb
              split
              · simp only [List.reverse_cons, List.map_append, List.map_cons, List.map_nil]
                rw [show asSpace c = ' ' from if_pos (isBlank_iff.mp hb.1.1), show asSpace ' ' = ' ' from by decide]
                exact h.append (List.Sublist.refl _)
              · rw [List.map_append]
                exact h.trans (List.sublist_append_left _ _)
            · exact hpush
  exact k xml [] MinState.init (List.Sublist.refl _)

example : minimizeXml c!"<a>\n  <b x=\"1  2\"/>\n</a>" = c!"<a> <b x=\"1  2\"/></a>" := by decide

/-! ## C24 -/

theorem tidy_fold (p : Char) (xml : Str) (s : MinState) (hp : s.prev = p)
    (h : Tidy.TidyAfter p xml) : (xml.foldl MinState.step s).out = xml.reverse ++ s.out := by
  induction xml generalizing p s with
  | nil => rfl
  | cons c xml ih =>
    obtain ⟨h1, h2, h3⟩ := h
    rw [List.foldl_cons]
    have e : (s.step c).out = c :: s.out ∧ (s.step c).prev = c := by
      unfold MinState.step
      split
      · exact ⟨rfl, rfl⟩
      · split
        · rename_i hc
          rw [Bool.and_eq_true, decide_eq_true_eq] at hc
          have hb := h2 hc.1
          have : s.popBlank = s.out := by
            unfold MinState.popBlank
            rw [if_neg]
            intro hh
            simp only [Bool.or_eq_true, decide_eq_true_eq] at hh
            apply hb
            rw [← hp]
            rcases hh with (hh | hh) | hh <;> simp [hh]
          exact ⟨by rw [this], rfl⟩
        · split
          · exact ⟨rfl, rfl⟩
          · split
            · rename_i hb
              simp only [Bool.and_eq_true] at hb
              obtain ⟨hc, hnb⟩ := h1 (isBlank_iff.mp hb.1.1)
              rw [if_pos]
              · exact ⟨by rw [hc], rfl⟩
              · rintro e
                apply hnb
                rw [← hp, e]; simp
            · exact ⟨rfl, rfl⟩
    rw [ih c _ e.2 h3, e.1]
    simp

/-- **C24**, what does hold: a text in which every blank is a single space, not at the beginning and not
before a tag, is not changed. (Missing: texts with runs of blanks or with blanks before a tag.) -/
theorem C24_tidy_unchanged_partial (xml : Str) (h : Tidy xml) : minimizeXml xml = xml := by
  cases xml with
  | nil => rfl
  | cons c xml =>
    obtain ⟨h1, h2⟩ := h
    unfold minimizeXml
    rw [List.foldl_cons]
    have e : (MinState.init.step c).out = [c] ∧ (MinState.init.step c).prev = c := by
      unfold MinState.step
      split
      · exact ⟨rfl, rfl⟩
      · split
        · exact ⟨rfl, rfl⟩
        · split
          · exact ⟨rfl, rfl⟩
          · split
            · rename_i hb
              simp only [Bool.and_eq_true] at hb
              exact absurd (isBlank_iff.mp hb.1.1) h1
            · exact ⟨rfl, rfl⟩
    rw [tidy_fold c xml _ e.2 h2, e.1]
    simp

example : Tidy c!"<a:t>Sales by region</a:t>" := by
  simp [Tidy, Tidy.TidyAfter]

/-- Characters of running text. -/
def TextChar (c : Char) : Prop := c ≠ '"' ∧ c ≠ '<' ∧ c ≠ '>'

theorem fold_text (s : MinState) (t : Str) (h : ∀ c ∈ t, TextChar c) :
    (t.foldl MinState.step s).inTag = s.inTag ∧ (t.foldl MinState.step s).inStr = s.inStr := by
  induction t generalizing s with
  | nil => exact ⟨rfl, rfl⟩
  | cons c t ih =>
    rw [List.foldl_cons]
    obtain ⟨h1, h2, h3⟩ := h c (by simp)
    obtain ⟨e1, e2⟩ := ih (s.step c) fun x hx => h x (by simp [hx])
    rw [e1, e2]
    unfold MinState.step
    simp only [if_neg h1, h2, h3, decide_false, Bool.false_and, Bool.false_eq_true, if_false]
    split <;> exact ⟨rfl, rfl⟩

theorem step_prev (s : MinState) (c : Char) : (s.step c).prev = c := by
  unfold MinState.step
  repeat' split
  all_goals rfl

theorem fold_prev (s : MinState) (t : Str) (c : Char) : ((t ++ [c]).foldl MinState.step s).prev = c := by
  rw [List.foldl_append, List.foldl_cons, List.foldl_nil, step_prev]

theorem step_space_lt (s : MinState) (h1 : s.inTag = false) (h2 : s.inStr = false)
    (h : s.prev ≠ ' ' ∧ s.prev ≠ '\n' ∧ s.prev ≠ '\t') : (s.step ' ').step '<' = s.step '<' := by
  obtain ⟨it, is, pv, out⟩ := s
  have f1 : it = false := h1
  have f2 : is = false := h2
  subst f1 f2
  simp only [ne_eq] at h
  simp [MinState.step, MinState.popBlank, isBlank, h]

/-- **C24** fails: the text `t` and the same text with a space at its end become the same document, for
every `t` without markup that does not itself end with a space. The space is lost, so words of adjacent
text runs are joined. -/
theorem C24_trailing_space_violated (t rest : Str) (h : ∀ c ∈ t, TextChar c) (hl : t.getLast? ≠ some ' ')
    (hl2 : t.getLast? ≠ some '\n') (hl3 : t.getLast? ≠ some '\t') :
    minimizeXml (c!"<a:t>" ++ t ++ c!" " ++ c!"</a:t>" ++ rest) =
      minimizeXml (c!"<a:t>" ++ t ++ c!"</a:t>" ++ rest) := by
  obtain ⟨e1, e2⟩ := fold_text (c!"<a:t>".foldl MinState.step MinState.init) t h
  rw [← List.foldl_append] at e1 e2
  have hp : (c!"<a:t>" ++ t).getLast? ≠ some ' ' ∧ (c!"<a:t>" ++ t).getLast? ≠ some '\n' ∧
      (c!"<a:t>" ++ t).getLast? ≠ some '\t' := by
    rw [List.getLast?_append]
    cases e : t.getLast? with
    | none => decide
    | some c => rw [e] at hl hl2 hl3; exact ⟨hl, hl2, hl3⟩
  have hpr : ((c!"<a:t>" ++ t).foldl MinState.step MinState.init).prev =
      ((c!"<a:t>" ++ t).getLast?).getD ' ' := by
    obtain ⟨a, c, e⟩ : ∃ a c, c!"<a:t>" ++ t = a ++ [c] := by
      refine ⟨_, _, (List.dropLast_concat_getLast (l := c!"<a:t>" ++ t) (by simp)).symm⟩
    rw [e, fold_prev]; simp
  have hp2 : (c!"<a:t>" ++ t).getLast?.isSome := by simp
  have key := step_space_lt _ e1 e2 (by
    obtain ⟨c, hc⟩ := Option.isSome_iff_exists.mp hp2
    rw [hpr]
    rw [hc] at hp ⊢
    simpa using hp)
  unfold minimizeXml
  rw [show c!"<a:t>" ++ t ++ c!" " ++ c!"</a:t>" ++ rest = (c!"<a:t>" ++ t) ++ (' ' :: '<' :: (c!"/a:t>" ++ rest)) by
      simp, show c!"<a:t>" ++ t ++ c!"</a:t>" ++ rest = (c!"<a:t>" ++ t) ++ ('<' :: (c!"/a:t>" ++ rest)) by simp,
    List.foldl_append, List.foldl_append (l := c!"<a:t>" ++ t), List.foldl_cons, List.foldl_cons, List.foldl_cons]
  rw [key]

/-- **C24** fails: runs of spaces in a text are shortened. -/
theorem C24_inner_spaces_violated :
    minimizeXml c!"<a:t>a  b</a:t>" = c!"<a:t>a b</a:t>" ∧
    minimizeXml c!"<a:t>a\tb</a:t>" = c!"<a:t>a b</a:t>" := by decide

/-- **C24** fails: a single quotation mark in a text makes the scanner take markup for quoted text and the
other way round; attribute values are then changed. -/
theorem C24_quote_in_text_violated :
    minimizeXml c!"<a:t>5\"</a:t><p:cNvPr name=\"a  b\"/>" = c!"<a:t>5\"</a:t><p:cNvPr name=\"a b\"/>" := by
  decide

example : minimizeXml c!"<a:t>Hello </a:t><a:t>world</a:t>" = c!"<a:t>Hello</a:t><a:t>world</a:t>" := by decide

end PptRs.Props
