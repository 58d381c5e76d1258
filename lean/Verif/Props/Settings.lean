import Verif.Lemmas.Settings

/-!
# Settings of a presentation: slide show (C98) and print (C99)
-/

namespace PptRs.Props

open PptRs PptRs.Spec PptRs.Settings

/-! ### Slide show -/

theorem path_presProps (s : SlideShow) : [presPropsNode (some s)].flatMap (path [c!"p:showPr"]) = [s.node] := by krfl

theorem readShow_node (s : SlideShow) : readShow s.node =
    ⟨[showKind s.showType], s.looping, false, !s.withoutAnimation, true, readRange (E c!"p:showPr" [] [s.slideRange.node]),
      some s.penColor⟩ := by
  obtain ⟨t, a, b, c, pen, r, u, m⟩ := s
  cases t <;> cases r <;> cases a <;> cases b <;> cases c <;> cases u <;> krfl

/-- **C98.** A reader of the presentation properties finds one `p:showPr` with the kind of show, whether it loops,
whether animations are shown, the pen colour and the slides of a range. What is missing: narration, timings and
custom shows (see the theorems below), and pen colours with markup. -/
theorem C98_partial {s : SlideShow} (h : Plain s.penColor) :
    ∃ doc, document (createPresPropsXml (some s)) = some doc ∧ ∃ r, readShows doc = [r] ∧ r.Agrees s := by
  refine ⟨_, document_presProps (s := some s) (fun x hx => by cases hx; exact h), readShow s.node, ?_, ?_⟩
  · rw [readShows, path_presProps]
    rfl
  · rw [readShow_node]
    refine ⟨rfl, rfl, rfl, rfl, fun e => ?_, fun a b e => ?_⟩
    · rw [e]
      krfl
    · rw [e]
      krfl

/-- Without slide show settings there is no `p:showPr`. -/
theorem C98_none : ∃ doc, document (createPresPropsXml none) = some doc ∧ readShows doc = [] :=
  ⟨_, document_presProps (by simp), by krfl⟩

/-- The pen colour set with `PenColor::new` has no markup when the colour given has none. -/
theorem C98_pen {c : Str} (h : Plain c) : Plain (penColorOf c) := plain_cleanColor h

/-- **C98 does not hold for narration**: `showNarration` is written only with the value 0, and it is false when it
is not written, so a show is always read as a show without narration, also by default. -/
theorem C98_narration_violated {s : SlideShow} (h : Plain s.penColor) :
    ∃ doc, document (createPresPropsXml (some s)) = some doc ∧ (readShows doc).map (·.narration) = [false] := by
  refine ⟨_, document_presProps (s := some s) (fun x hx => by cases hx; exact h), ?_⟩
  rw [readShows, path_presProps, List.map_map]
  show [(readShow s.node).narration] = _
  rw [readShow_node]

/-- **C98 does not hold for timings**: `useTimings` is written only with the value 1, and it is true when it is not
written, so a show without timings (`use_timings(false)`) is read as one that uses them. -/
theorem C98_timings_violated {s : SlideShow} (h : Plain s.penColor) :
    ∃ doc, document (createPresPropsXml (some s)) = some doc ∧ (readShows doc).map (·.timings) = [true] := by
  refine ⟨_, document_presProps (s := some s) (fun x hx => by cases hx; exact h), ?_⟩
  rw [readShows, path_presProps, List.map_map]
  show [(readShow s.node).timings] = _
  rw [readShow_node]

/-- **C98 does not hold for custom shows**: for a list of slides, `p:custShow` is written without the required
attribute `id` of a custom show of the presentation, and with children that the schema does not allow there. The
slides asked for are not found by a reader. -/
theorem C98_custom_violated {s : SlideShow} (h : Plain s.penColor) {l : List Nat} (hr : s.slideRange = .custom l) :
    ∃ doc, document (createPresPropsXml (some s)) = some doc ∧ (readShows doc).map (·.slides) = [.custom none] ∧
      (l ≠ [] → orderedByL partModels doc = false) := by
  refine ⟨_, document_presProps (s := some s) (fun x hx => by cases hx; exact h), ?_, ?_⟩
  · rw [readShows, path_presProps, List.map_map]
    show [(readShow s.node).slides] = _
    rw [readShow_node, hr]
    krfl
  · intro hl
    obtain ⟨t, a, b, c, pen, r, u, m⟩ := s
    subst hr
    match l, hl with
    | n :: l, _ => cases t <;> krfl

/-- The theorem applies to the settings of a kiosk and to a range of slides. -/
example : ∃ doc, document (createPresPropsXml (some { SlideShow.kioskMode with slideRange := .range 2 5 })) = some doc ∧
    ∃ r, readShows doc = [r] ∧ r.kind = [c!"p:kiosk"] ∧ r.looping = true ∧ r.slides = .range (some c!"2") (some c!"5") := by
  obtain ⟨doc, h1, r, h2, h3⟩ := C98_partial (s := { SlideShow.kioskMode with slideRange := .range 2 5 }) (plain_of (by decide))
  exact ⟨doc, h1, r, h2, h3.kind, h3.looping, h3.range 2 5 rfl⟩

/-! ### Print -/

/-- The value for what is printed, except for handouts. -/
def wantedWhat : PrintWhat → Option Str
  | .slides => some c!"slides"
  | .notes => some c!"notes"
  | .outline => some c!"outline"
  | .handouts => none

/-- The value for a colour mode. -/
def wantedColor : PrintColorMode → Str
  | .color => c!"clr"
  | .grayscale => c!"gray"
  | .blackAndWhite => c!"bw"

/-- A reader that finds the print settings, except for handouts and hidden slides. -/
structure PrintAgrees (r : PrintRead) (p : PrintSettings) : Prop where
  what : ∀ w, wantedWhat p.what = some w → r.what = w ∧ w ∈ printWhats
  color : r.color = wantedColor p.colorMode ∧ wantedColor p.colorMode ∈ printColors
  scaled : r.scaled = p.scaleToFit
  framed : r.framed = p.frameSlides
  hidden : p.includeHidden = true → r.hidden = true

/-- **C99.** The element written by `to_prnpr_xml` has a legal colour mode and, unless handouts are printed, a legal
`prnWhat`, and it is read back with frames, scaling and hidden slides if they are printed. What is missing:
handouts, settings without hidden slides, and that the element does not reach the presentation (see the theorems
below). -/
theorem C99_partial (p : PrintSettings) : ∃ k, parse (fmt p.toPrnPr) = some [k] ∧ PrintAgrees (readPrint k) p := by
  refine ⟨_, parse_of_nodes (readsNodes_print p), ?_⟩
  obtain ⟨w, c, l, f, s, i, o, m⟩ := p
  constructor
  · intro v hv
    cases w <;> cases hv <;> cases f <;> cases s <;> cases i <;> exact ⟨rfl, by decide⟩
  · have hw : wantedColor c ∈ printColors := by cases c <;> decide
    exact ⟨by cases c <;> cases f <;> cases s <;> cases i <;> rfl, hw⟩
  · cases f <;> cases s <;> cases i <;> krfl
  · cases f <;> cases s <;> cases i <;> krfl
  · cases f <;> cases s <;> cases i <;> intro _ <;> krfl

/-- **C99 does not hold for handouts**: `prnWhat="handouts"` is not a value of the schema, which has `handouts1`,
`handouts2`, `handouts3`, `handouts4`, `handouts6` and `handouts9`. The number of slides per page is not
written. -/
theorem C99_handouts_violated {p : PrintSettings} (h : p.what = .handouts) : ∃ k, parse (fmt p.toPrnPr) = some [k] ∧
    (readPrint k).what ∉ printWhats ∧
    ∀ l, ({ p with handoutLayout := l } : PrintSettings).toPrnPr = p.toPrnPr := by
  refine ⟨_, parse_of_nodes (readsNodes_print p), ?_, fun l => rfl⟩
  obtain ⟨w, c, l, f, s, i, o, m⟩ := p
  subst h
  show c!"handouts" ∉ printWhats
  decide

/-- **C99 does not hold for hidden slides**: `hiddenSlides` is written only with the value 1 and is true when it is
not written, so settings without hidden slides are read as settings with them. -/
theorem C99_hidden_violated {p : PrintSettings} (h : p.includeHidden = false) : ∃ k, parse (fmt p.toPrnPr) = some [k] ∧
    (readPrint k).hidden = true := by
  refine ⟨_, parse_of_nodes (readsNodes_print p), ?_⟩
  obtain ⟨w, c, l, f, s, i, o, m⟩ := p
  subst h
  cases f <;> cases s <;> krfl

/-- **C99 does not hold in a presentation**: the presentation properties never have a `p:prnPr` element, whatever
the settings. -/
theorem C99_missing_violated {s : Option SlideShow} (h : ∀ x, s = some x → Plain x.penColor) :
    ∃ doc, document (createPresPropsXml s) = some doc ∧ doc.flatMap (path [c!"p:prnPr"]) = [] := by
  refine ⟨_, document_presProps h, ?_⟩
  cases s <;> krfl

/-- **C99 does not hold in a presentation**: the parts written for print settings depend only on whether handouts
are printed and on the header, footer, date and page number. The colour mode, the number of slides per page, frames,
hidden slides, scaling and the orientation have no effect on the presentation. -/
theorem C99_ignored_violated (styles : List Part) {p q : PrintSettings} (hw : p.what = q.what) (hm : p.masters = q.masters) :
    printTexts styles p = printTexts styles q := by
  unfold printTexts
  rw [hw, hm]

example : (readPrint (PrintSettings.node { what := .notes, frameSlides := true })).what = c!"notes" := rfl

end PptRs.Props
