import Verif.Props.FullText
import Verif.Lemmas.ScanPage

/-!
# C159: the library's validator accepts what the library writes

`create_pptx` and `create_pptx_with_settings` check their result with the library's validator in debug builds and panic if it
finds an error.
-/

namespace PptRs.Props

open PptRs PptRs.Spec PptRs.Full PptRs.Settings PptRs.Themes PptRs.Validate PptRs.Draw

/-! ### Texts -/

/-- The mark does not begin in the text. -/
def Quiet (m : Str) (ps : List Part) : Prop := noStart ('<' :: m) (fmt ps) = true

/-- No literal of the template has the mark. -/
def quietLits (m : Str) : List Part → Bool
  | [] => true
  | .lit s :: l => noStart m s && quietLits m l
  | _ :: l => quietLits m l

theorem Quiet.parts {m : Str} : ∀ {ps : List Part}, (∀ p ∈ ps, p.Ok) → quietLits ('<' :: m) ps = true → Quiet m ps := by
  intro ps hr h
  refine noStart_fmt fun p hp => ?_
  induction ps with
  | nil => simp at hp
  | cons q ps ih =>
    rcases List.mem_cons.mp hp with rfl | hp'
    · cases p with
      | lit s => simp only [quietLits, Bool.and_eq_true] at h; exact h.1
      | esc s => exact noStart_of_notMem (not_lt_esc s)
      | raw s => exact noStart_of_notMem (hr (.raw s) (by simp)).2.1
    · refine ih (fun s hs => hr s (by simp [hs])) ?_ hp'
      cases q with
      | lit s => simp only [quietLits, Bool.and_eq_true] at h; exact h.2
      | esc s => exact h
      | raw s => exact h

theorem Quiet.nil {m : Str} : Quiet m [] := rfl

theorem Quiet.append {m : Str} {a b : List Part} (ha : Quiet m a) (hb : Quiet m b) : Quiet m (a ++ b) := by
  unfold Quiet
  rw [fmt_append]
  exact noStart_append ha hb

theorem Quiet.flatMap {α : Type} {m : Str} {f : α → List Part} {l : List α} (h : ∀ a ∈ l, Quiet m (f a)) : Quiet m (l.flatMap f) := by
  induction l with
  | nil => exact .nil
  | cons a l ih =>
    rw [List.flatMap_cons]
    exact (h a (by simp)).append (ih fun b hb => h b (by simp [hb]))

theorem Quiet.ite {m : Str} {c : Prop} [Decidable c] {a : List Part} (h : Quiet m a) : Quiet m (if c then a else []) := by
  split
  · exact h
  · exact .nil

theorem Quiet.whenSet {m : Str} {b : Bool} {a : List Part} (h : Quiet m a) : Quiet m (whenSet b a) := by
  cases b
  · exact .nil
  · exact h

theorem nonblank_start {t : Str} (h : t.head? = some '<') : ∃ c ∈ t, isWs c = false := by
  cases t with
  | nil => cases h
  | cons c t => cases h; exact ⟨'<', by simp, by decide⟩

set_option maxRecDepth 8000 in
theorem footers_quiet (p : Option PrintIn) : Quiet c!"p:sldLayoutId" (slideMasterFooterShapes p) := by
  cases p with
  | none => exact .nil
  | some p =>
    refine (((Quiet.flatMap fun _ _ => ?_).append (.flatMap fun f _ => ?_)).append (.ite ?_)).append (.ite ?_)
    · show noStart _ _ = true
      krfl
    · exact (Quiet.parts (by unfold masterFooter; parts_ok) (by krfl))
    · exact (Quiet.parts (by unfold masterDate; parts_ok) (by krfl))
    · exact (Quiet.parts (by unfold masterNumber; parts_ok) (by krfl))

set_option maxRecDepth 8000 in
theorem layoutList_ok (k : Nat) : extractLoop c!"p:sldLayoutId" c!"r:id" (k + 9) (fmt (masterTail masterLayoutIdParts txStyles ++ t!"\n</p:sldMaster>")) =
    [c!"rId1", c!"rId2", c!"rId3", c!"rId4", c!"rId5", c!"rId6", c!"rId7"] := by
  krfl

set_option maxRecDepth 8000 in
/-- The slide master has the seven layouts and the text styles. -/
theorem master_ok (p : Option PrintIn) : containsStr c!"<p:txStyles>" (createSlideMasterXml txStyles p) = true ∧
    ∀ id ∈ extractAttrValues (createSlideMasterXml txStyles p) c!"p:sldLayoutId" c!"r:id", ∃ i, 1 ≤ i ∧ i ≤ 7 ∧ id = c!"rId" ++ dec i := by
  have key : ∃ A, Quiet c!"p:sldLayoutId" A ∧ createSlideMasterXml txStyles p = fmt A ++ fmt (masterTail masterLayoutIdParts txStyles ++ t!"\n</p:sldMaster>") := by
    refine ⟨[.lit xmlDecl] ++ ((masterBody [] none).take 1 ++ slideMasterFooterShapes p ++ t!"\n</p:spTree>\n</p:cSld>\n"), ?_, ?_⟩
    · refine Quiet.append ?_ (.append (.append ?_ (footers_quiet p)) ?_)
      · show noStart _ _ = true
        krfl
      · show noStart _ _ = true
        krfl
      · show noStart _ _ = true
        krfl
    · rw [fmt_append, List.append_assoc, ← fmt_append, ← List.append_assoc]
      exact congrArg (· ++ _) (List.append_nil _).symm
  obtain ⟨A, hA, e⟩ := key
  rw [e]
  constructor
  · refine containsStr_append (.inr ?_)
    krfl
  · unfold extractAttrValues
    rw [extractLoop_skip hA]
    have hl : 8 ≤ (fmt A ++ fmt (masterTail masterLayoutIdParts txStyles ++ t!"\n</p:sldMaster>")).length := by
      have : 8 ≤ (fmt (masterTail masterLayoutIdParts txStyles ++ t!"\n</p:sldMaster>")).length := by
        refine Nat.le_of_ble_eq_true ?_
        krfl
      rw [List.length_append]
      omega
    obtain ⟨k, hk⟩ := Nat.exists_eq_add_of_le hl
    rw [hk, show 8 + k + 1 = k + 9 by omega, layoutList_ok]
    intro id hid
    simp only [List.mem_cons, List.not_mem_nil, or_false] at hid
    rcases hid with rfl | rfl | rfl | rfl | rfl | rfl | rfl
    · exact ⟨1, by decide, by decide, rfl⟩
    · exact ⟨2, by decide, by decide, rfl⟩
    · exact ⟨3, by decide, by decide, rfl⟩
    · exact ⟨4, by decide, by decide, rfl⟩
    · exact ⟨5, by decide, by decide, rfl⟩
    · exact ⟨6, by decide, by decide, rfl⟩
    · exact ⟨7, by decide, by decide, rfl⟩

set_option maxRecDepth 8000 in
theorem presProps_ok {s : Option SlideShow} (h : ∀ x, s = some x → Plain x.penColor) : containsStr c!"<p:prnPr" (createPresPropsXml s) = false := by
  have hs : Quiet c!"p:prnPr" (whenSome s SlideShow.toXml) := by
    cases hx : s with
    | none => exact .nil
    | some x =>
      have hp := h x hx
      have h1 : Quiet c!"p:prnPr" x.attrs := by
        unfold SlideShow.attrs
        exact (((Quiet.whenSet (.parts (by parts_ok) (by krfl))).append (.whenSet (.parts (by parts_ok) (by krfl)))).append
          (.whenSet (.parts (by parts_ok) (by krfl)))).append (.whenSet (.parts (by parts_ok) (by krfl)))
      have h2 : Quiet c!"p:prnPr" x.showType.toXml := by
        cases x.showType <;> exact .parts (by simp [ShowType.toXml, Part.Ok]) (by krfl)
      have h3 : Quiet c!"p:prnPr" x.slideRange.toXml := by
        cases x.slideRange with
        | all => exact .parts (by unfold SlideRange.toXml; parts_ok) (by krfl)
        | range a b => exact .parts (by unfold SlideRange.toXml; parts_ok) (by krfl)
        | custom l =>
          exact ((Quiet.parts (by parts_ok) (by krfl)).append (.flatMap fun n _ => .parts (by unfold customSlide; parts_ok) (by krfl))).append
            (.parts (by parts_ok) (by krfl))
      rw [show whenSome (some x) SlideShow.toXml = x.toXml by simp [whenSome]]
      unfold SlideShow.toXml
      refine Quiet.append (Quiet.append (Quiet.append (Quiet.append (Quiet.append (Quiet.append ?_ ?_) ?_) ?_) ?_) ?_) ?_
      · exact Quiet.append (.parts (by parts_ok) (by krfl)) h1
      · exact .parts (by parts_ok) (by krfl)
      · exact h2
      · exact h3
      · exact .parts (by parts_ok) (by krfl)
      · exact .whenSet (.parts (by unfold mediaControlsExt; parts_ok) (by krfl))
      · exact .parts (by parts_ok) (by krfl)
  have : Quiet c!"p:prnPr" ([.lit xmlDeclTight] ++ presPropsBody s) := by
    unfold presPropsBody
    exact (Quiet.parts (by parts_ok) (by krfl)).append (((Quiet.parts (by parts_ok) (by krfl)).append hs).append (.parts (by parts_ok) (by krfl)))
  have e : fmt ([.lit xmlDeclTight] ++ presPropsBody s) = createPresPropsXml s := by
    rw [fmt_append]; exact congrArg (· ++ _) (List.append_nil _)
  unfold Quiet at this
  rw [e] at this
  exact containsStr_of_noStart this

set_option maxRecDepth 8000 in
theorem handout_ok (p : PrintIn) : containsStr c!"<p:bg>" (toHandoutMasterXml p) = true := by
  unfold toHandoutMasterXml handoutBody
  simp only [fmt_append]
  refine containsStr_append (.inr (containsStr_append (.inl (containsStr_append (.inl ?_)))))
  krfl

theorem notesMaster_ok : containsStr c!"<p:bg>" notesMasterText = true := by krfl

set_option maxRecDepth 8000 in
theorem chart_ok (c : Chart) : containsStr c!"<c:externalData" (generateChartPartXml c) = true := by
  unfold generateChartPartXml chartBody
  simp only [fmt_append]
  refine containsStr_append (.inr (containsStr_append (.inr ?_)))
  krfl

set_option maxRecDepth 8000 in
theorem plainSlide_ok (n : Nat) : SlideTextOk ⟨[1, 2], [], [], none, []⟩ (Quick.plainSlideXml n c!"Presentation") := by
  have hp : Plain (Quick.plainTitle n c!"Presentation") := by
    unfold Quick.plainTitle
    split
    · plain_lit
    · obtain ⟨a, b, c⟩ := plain_dec n
      refine ⟨?_, ?_, ?_⟩ <;> simp [*]
  have key : ∀ t : Str, Plain t → Seen [] ([.lit xmlDecl] ++ Quick.plainSlideBody t) [c!"1", c!"2"] := by
    intro t ht
    refine .parts ?_ (by krfl)
    intro p hp
    unfold Quick.plainSlideBody at hp
    simp only [List.mem_append, List.mem_cons, List.not_mem_nil, or_false] at hp
    rcases hp with rfl | rfl | rfl | rfl
    · trivial
    · trivial
    · exact ht
    · trivial
  obtain ⟨h1, h2⟩ := key _ hp
  have e : fmt ([.lit xmlDecl] ++ Quick.plainSlideBody (Quick.plainTitle n c!"Presentation")) = Quick.plainSlideXml n c!"Presentation" := by
    rw [fmt_append]; exact congrArg (· ++ _) (List.append_nil _)
  rw [e] at h1 h2
  exact ⟨fun id h => refs_of_quotes h2 id h, extractAttrValues_of_scan h1⟩

theorem descOf_noTag {fonts : List FontIn} (h : ∀ f ∈ fonts, f.Plain) (t : Str) : '<' ∉ descOf fonts t := by
  unfold descOf
  split
  · rename_i f hf
    have hm : f ∈ fonts := by
      have : f ∈ variantsOf fonts t := List.mem_of_head? hf
      unfold variantsOf at this
      exact (List.mem_filter.mp this).1
    have hp := (h f hm).2
    rw [fmt_append, List.mem_append, not_or]
    constructor
    · simp [fmt, Part.render, Part.num, not_mem_dec]
    · cases e : f.panose with
      | none => simp [whenSome, fmt]
      | some p =>
        simp [whenSome, fmt, Part.render, (hp p e).2.1]
  · simp

/-! ### The whole file -/

/-- **C159.** The validator finds in the text of a slide exactly the ids of the shapes, and no other references than those to
the relationships of the slide: for every slide, with any texts, shapes, pictures, code, connectors, charts, ink and notes.
(Partial: what is written without escaping has no markup; ids of links have no `>`; code that is not highlighted has no
`rId`.) -/
theorem C159_slide_partial (fontSize : Str → Nat → Nat → Nat) (highlight : Option (Str → Str → List (List Segment))) (p : Sheet)
    (h : SheetOk highlight p) {t : Str} (e : p.xml fontSize highlight = some t) :
    SlideTextOk (slideXml p.slideIn (chartRids (slideContentRelStart p.notes.isSome p.images.length) p.charts.length)
      (if p.ink then some (c!"rId" ++ dec (slideContentRelStart p.notes.isSome p.images.length + p.charts.length)) else none)) t := by
  obtain ⟨h1, h2⟩ := sheet_text h e
  exact ⟨h1, h2⟩

/-- What is written into the settings without escaping has no markup. -/
structure SettingsOk (S : FileSettings) : Prop where
  fonts : ∀ f ∈ S.fonts.getD [], f.Plain
  theme : ∀ t, S.theme = some t → PlainColors t.colors
  pen : ∀ s, S.slideShow = some s → Plain s.penColor

/-- The texts of a file have what the validator looks for, if its own parts have. -/
theorem textsOk_file (d : Deck) (S : FileSettings) (hS : SettingsOk S) (secs : Nat) (title : Str) (own : PartTexts)
    (hb : ∀ p t, own p = some t → t.head? = some '<')
    (hs : ∀ j s t, d.slides[j]? = some s → own (.slide (j + 1)) = some t →
      SlideTextOk (slideXml s (chartRids (slideContentRelStart s.notes.isSome s.images.length) s.charts)
        (if s.ink then some (c!"rId" ++ dec (slideContentRelStart s.notes.isSome s.images.length + s.charts)) else none)) t)
    (hc : ∀ n t, own (.chart n) = some t → ∃ c, t = generateChartPartXml c) :
    TextsOk d S.build (fileTexts d S secs title own) := by
  refine ⟨?_, ?_, ?_, ?_, ?_, ?_, ?_, ?_⟩
  · intro p t e
    refine nonblank_start ?_
    cases p <;> simp only [fileTexts, reduceCtorEq, Option.some.injEq] at e
    case slide n =>
      cases d with
      | plain n => cases e; rfl
      | custom l => exact hb _ _ e
    case chart n => exact hb _ _ e
    case ink n => exact hb _ _ e
    case notes n =>
      simp only [Option.map_eq_some_iff] at e
      obtain ⟨q, _, rfl⟩ := e
      rfl
    case theme n =>
      subst e
      split
      · cases hx : S.theme with
        | none => rfl
        | some x =>
          show x.toXml.head? = _
          by_cases hn : x.name = c!"Office Theme" ∧ x.colors = .office
          · rw [Theme.toXml, if_pos hn]; rfl
          · rw [toXml_eq hn (hS.theme x hx).plain]; rfl
      · rfl
    case sig =>
      simp only [Option.map_eq_some_iff] at e
      obtain ⟨q, _, rfl⟩ := e
      rfl
    all_goals (subst e; rfl)
  · intro n x t he e
    have hb' := bodyOk d S.build _ he
    simp only [BodyOk] at hb'
    rcases hb' with ⟨j, s, hj, rfl, hx⟩ | ⟨k, rfl, hx⟩
    · cases d with
      | plain n => simp [Deck.slides] at hj
      | custom l =>
        cases hx
        exact hs j s t hj e
    · cases hx
      cases e
      exact plainSlide_ok n
  · intro n t e
    obtain ⟨c, rfl⟩ := hc n t e
    exact chart_ok c
  · intro t e; cases e; exact master_ok _
  · intro t e; cases e; exact C101_size hS.theme
  · intro t e; cases e; exact presProps_ok hS.pen
  · intro t e; cases e; exact handout_ok _
  · intro t e; cases e; exact notesMaster_ok

/-- **C159.** The library's validator accepts every file that the library writes: for all slides with everything on them and
all settings. (Partial: images of type `png`, `jpg` or `gif` with bytes; links to slides that are there, with distinct ids that
the builder does not use; typefaces without characters to escape; ink with at least one stroke; what is written without escaping has no markup.) -/
theorem C159_accepted_partial (fontSize : Str → Nat → Nat → Nat) (highlight : Option (Str → Str → List (List Segment)))
    (l : List Sheet) (charts : List Chart) (inks : List (List Stroke)) (S : FileSettings) (secs : Nat) (title : Str)
    (hd : DeckOk (sheetsDeck l) S.build) (hs : SlidesOk (sheetsDeck l)) (hS : SettingsOk S) (hl : ∀ p ∈ l, SheetOk highlight p) (hi : ∀ x ∈ inks, x ≠ []) :
    validatePackage (fileArchive (sheetsDeck l) S secs title (ownTexts fontSize highlight l charts inks)) = [] := by
  refine C64_accepted_partial _ _ hd hs _ (fun f _ => descOf_noTag hS.fonts _) _ (textsOk_file _ _ hS _ _ _ ?_ ?_ ?_)
  · intro p t e
    cases p <;> simp only [ownTexts, reduceCtorEq] at e
    case slide n =>
      obtain ⟨q, _, e⟩ := Option.bind_eq_some_iff.mp e
      unfold Sheet.xml at e
      obtain ⟨x, _, rfl⟩ := Option.map_eq_some_iff.mp e
      rfl
    case chart n =>
      obtain ⟨q, _, rfl⟩ := Option.map_eq_some_iff.mp e
      rfl
    case ink n =>
      obtain ⟨q, hq, rfl⟩ := Option.map_eq_some_iff.mp e
      have := hi q (List.mem_of_getElem? hq)
      cases q with
      | nil => exact absurd rfl this
      | cons x l => rfl
  · intro j s t hj e
    simp only [sheetsDeck, Deck.slides, List.getElem?_map, Option.map_eq_some_iff] at hj
    obtain ⟨p, hp, rfl⟩ := hj
    simp only [ownTexts, Nat.add_sub_cancel, hp, Option.bind_some] at e
    have := C159_slide_partial fontSize highlight p (hl p (List.mem_of_getElem? hp)) e
    simpa [Sheet.slideIn] using this
  · intro n t e
    simp only [ownTexts, Option.map_eq_some_iff] at e
    obtain ⟨c, _, rfl⟩ := e
    exact ⟨c, rfl⟩

/-- **C159.** In debug builds `create_pptx_with_settings` does not panic in its check, under the same conditions. -/
theorem C159_debug_partial (debug : Bool) (fontSize : Str → Nat → Nat → Nat) (highlight : Option (Str → Str → List (List Segment)))
    (l : List Sheet) (charts : List Chart) (inks : List (List Stroke)) (S : FileSettings) (secs : Nat) (title : Str)
    (hd : DeckOk (sheetsDeck l) S.build) (hs : SlidesOk (sheetsDeck l)) (hS : SettingsOk S) (hl : ∀ p ∈ l, SheetOk highlight p) (hi : ∀ x ∈ inks, x ≠ []) :
    createChecked debug (sheetsDeck l) S secs title (ownTexts fontSize highlight l charts inks) =
      some (fileArchive (sheetsDeck l) S secs title (ownTexts fontSize highlight l charts inks)) := by
  simp [createChecked, debugAssert, C159_accepted_partial fontSize highlight l charts inks S secs title hd hs hS hl hi]

/-- **C159.** A release build checks nothing and always returns the file; a debug build returns the same file, or panics if the
validator finds anything in it. -/
theorem C159_builds (d : Deck) (S : FileSettings) (secs : Nat) (title : Str) (own : PartTexts) :
    createChecked false d S secs title own = some (fileArchive d S secs title own) ∧
    (createChecked true d S secs title own = some (fileArchive d S secs title own) ↔
      Validate.validatePackage (fileArchive d S secs title own) = []) ∧
    (createChecked true d S secs title own = none ↔ Validate.validatePackage (fileArchive d S secs title own) ≠ []) := by
  refine ⟨rfl, ?_, ?_⟩ <;>
    · unfold createChecked debugAssert
      simp

/-- **C159.** `create_pptx` never panics in its check, in any build, for any number of slides and any title, and the validator
accepts the file. -/
theorem C159_simple (debug : Bool) (n secs : Nat) (title : Str) :
    validatePackage (fileArchive (.plain n) {} secs title fun _ => none) = [] ∧
    (createChecked debug (.plain n) {} secs title fun _ => none).isSome = true := by
  have hd : DeckOk (.plain n) (FileSettings.build {}) :=
    ⟨⟨rfl, by simp [FileSettings.build], by simp [Deck.slides], by simp [Deck.slides]⟩, by simp [Deck.slides], by simp [Deck.slides],
      by simp [FileSettings.build], by simp [FileSettings.build], by simp [FileSettings.build]⟩
  have hs : SlidesOk (.plain n) := ⟨by simp [Deck.slides], by simp [Deck.slides], by simp [Deck.slides], by simp [Deck.slides], by simp [Deck.slides]⟩
  have key : validatePackage (fileArchive (.plain n) {} secs title fun _ => none) = [] :=
    C64_accepted_partial _ _ hd hs _ (by simp [FileSettings.build]) _
      (textsOk_file _ _ ⟨by simp, by simp, by simp⟩ _ _ _ (by simp) (by simp) (by simp))
  exact ⟨key, by simp [createChecked, debugAssert, key]⟩

/-! ### What is left out -/

/-- The size of a text in a shape, for the examples. -/
def anySize : Str → Nat → Nat → Nat := fun _ _ _ => 0

theorem not_created {d : Deck} {S : FileSettings} {secs : Nat} {title : Str} {own : PartTexts}
    (h : checkContentTypes (fileArchive d S secs title own) ≠ [] ∨ checkSlideRelationships (fileArchive d S secs title own) ≠ []) :
    createChecked true d S secs title own = none := by
  have : debugAssert (fileArchive d S secs title own) = false := by
    rw [debugAssert, List.isEmpty_eq_false_iff]
    unfold validatePackage
    rcases h with h | h <;> simp [h]
  simp [createChecked, this]

/-- A picture with the given extension. -/
def pictureSheet (ext : Str) : Sheet := { text := .new c!"T", images := [(⟨c!"a", 0, 0, 1, 1, none, [], none⟩, ⟨some [1], ext⟩)] }

/-- **C159 does not hold in full.** A slide with a picture of type `jpeg`: in a debug build `create_pptx_with_content` panics, because
the validator finds that the picture has no content type; with type `png` it does not. -/
theorem C159_jpeg_violated :
    createChecked true (sheetsDeck [pictureSheet c!"jpeg"]) {} 0 c!"T" (ownTexts anySize none [pictureSheet c!"jpeg"] [] []) = none ∧
    (createChecked true (sheetsDeck [pictureSheet c!"png"]) {} 0 c!"T" (ownTexts anySize none [pictureSheet c!"png"] [] [])).isSome = true := by
  constructor
  · refine not_created (.inl ?_)
    have : (checkContentTypes (fileArchive (sheetsDeck [pictureSheet c!"jpeg"]) {} 0 c!"T"
        (ownTexts anySize none [pictureSheet c!"jpeg"] [] []))).isEmpty = false := by krfl
    exact List.isEmpty_eq_false_iff.mp this
  · rw [C159_debug_partial]
    · rfl
    · exact ⟨⟨rfl, by simp [FileSettings.build], by simp [sheetsDeck, Deck.slides, pictureSheet, Sheet.slideIn, ExtOk], by simp [sheetsDeck, Deck.slides, pictureSheet, Sheet.slideIn]⟩,
        by simp [sheetsDeck, Deck.slides, pictureSheet, Sheet.slideIn], by simp [sheetsDeck, Deck.slides, pictureSheet, Sheet.slideIn, linkIds],
        by simp [FileSettings.build], by simp [FileSettings.build], by simp [FileSettings.build]⟩
    · exact ⟨by simp [sheetsDeck, Deck.slides, pictureSheet, Sheet.slideIn, ImagesOk], by simp [sheetsDeck, Deck.slides, pictureSheet, Sheet.slideIn, linkIds],
        by simp [sheetsDeck, Deck.slides, pictureSheet, Sheet.slideIn, linkIds], by simp [sheetsDeck, Deck.slides, pictureSheet, Sheet.slideIn],
        by simp [sheetsDeck, Deck.slides, pictureSheet, Sheet.slideIn]⟩
    · exact ⟨by simp, by simp, by simp⟩
    · simp only [List.mem_singleton, forall_eq]
      exact ⟨⟨by simp [pictureSheet, SlideText.new], by simp [pictureSheet, SlideText.new], by simp [pictureSheet, SlideText.new, BulletStyle.Safe], by simp [pictureSheet, SlideText.new], by simp [pictureSheet, SlideText.new]⟩,
        by simp [pictureSheet], by simp [pictureSheet], by simp [pictureSheet], by simp, by simp [pictureSheet]⟩
    · simp

/-- A slide with ink. -/
def inkSheet : Sheet := { text := .new c!"T", ink := true }

/-- **C159 does not hold in full.** A slide with ink annotations that have no strokes: the ink part is written with no content at
all, so it is no XML document, and in a debug build `create_pptx_with_content` panics. -/
theorem C159_ink_violated :
    createChecked true (sheetsDeck [inkSheet]) {} 0 c!"T" (ownTexts anySize none [inkSheet] [] [[]]) = none ∧
    inkPartXml [] = [] := by
  constructor
  · krfl
  · rfl

/-- A slide with code. -/
def codeSheet (code : Str) : Sheet := { text := .new c!"T", codeBlocks := [⟨code, c!"xml", 0, 0, 1, 1⟩] }

/-- **C159 does not hold in full.** Without the feature for highlighting, quotes in code are not escaped. A slide with the code
`r:id="rId9"` is taken by the validator for a slide that refers to a missing relationship, and in a debug build
`create_pptx_with_content` panics. -/
theorem C159_code_violated :
    createChecked true (sheetsDeck [codeSheet c!"r:id=\"rId9\""]) {} 0 c!"T" (ownTexts anySize none [codeSheet c!"r:id=\"rId9\""] [] []) = none := by
  refine not_created (.inr ?_)
  have : (checkSlideRelationships (fileArchive (sheetsDeck [codeSheet c!"r:id=\"rId9\""]) {} 0 c!"T"
      (ownTexts anySize none [codeSheet c!"r:id=\"rId9\""] [] []))).isEmpty = false := by krfl
  exact List.isEmpty_eq_false_iff.mp this

/-- A slide with a linked shape, a picture, code, a connector, a chart, ink and notes. -/
def fullSheet : Sheet where
  text := { title := c!"a < b", layout := .titleAndContent, content := [c!"x & y"] }
  notes := some c!"n"
  shapes := [{ someShape with link := some { action := .slide 1, rId := some c!"rIdHlink1" } }]
  images := [({ filename := c!"a&b.png", x := 5, y := 6, width := 7, height := 8 }, ⟨some [1], c!"png"⟩)]
  codeBlocks := [⟨c!"fn main() {}", c!"rust", 0, 0, 1, 1⟩]
  connectors := [{ kind := .elbow, startX := 100, startY := 20, endX := 30, endY := 40 }]
  charts := [⟨9, 10, 11, 12⟩]
  ink := true

/-- Settings with an embedded font, a handout with a header, a theme and a slide show. -/
def fullSettings : FileSettings where
  fonts := some [{ font := { typeface := c!"Mine", style := .bold, relationshipId := [] } }]
  print := some { what := .handouts, masters := ⟨some c!"a & b", none, true, true⟩ }
  theme := some { name := c!"Mine" }
  slideShow := some {}

theorem noId_of {s : Str} (h : containsStr c!"rId" s = false) (u v : Str) : s ≠ u ++ c!"rId" ++ v := by
  rintro rfl
  have : containsStr c!"rId" (u ++ c!"rId" ++ v) = true := containsStr_iff.mpr ⟨u, v, by simp⟩
  rw [this] at h
  cases h

/-- Not vacuous: the conditions hold for a slide with everything on it, with markup in its texts, an embedded font, a handout with a
header and a theme of its own. -/
example : DeckOk (sheetsDeck [fullSheet]) fullSettings.build ∧ SlidesOk (sheetsDeck [fullSheet]) ∧ SettingsOk fullSettings ∧
    SheetOk none fullSheet ∧ (fullSheet.xml anySize none).isSome = true := by
  have hs : ∀ s ∈ (sheetsDeck [fullSheet]).slides, s = fullSheet.slideIn := by simp [sheetsDeck, Deck.slides]
  have hf : ∀ f ∈ fullSettings.build.fonts.getD [], f = ⟨c!"Mine", .bold, []⟩ := by simp [fullSettings, FileSettings.build]
  have hl : linkIds fullSheet.slideIn = [c!"rIdHlink1"] := rfl
  refine ⟨⟨⟨rfl, ?_, ?_, ?_⟩, ?_, ?_, ?_, ?_, ?_⟩, ⟨?_, ?_, ?_, ?_, ?_⟩, ⟨?_, ?_, ?_⟩, ⟨?_, ?_, ?_, ?_, ?_, ?_⟩, ?_⟩
  · intro f h; rw [hf f h]; decide
  · intro s h i hi; rw [hs s h] at hi; simp [fullSheet, Sheet.slideIn] at hi; subst hi; simp [ExtOk]
  · intro s h sh h1 k h2 h3
    rw [hs s h] at h1
    simp [fullSheet, Sheet.slideIn] at h1
    subst h1
    cases h2
    exact .inr ⟨1, rfl, by decide, by decide⟩
  · intro s h i hi; rw [hs s h] at hi; simp [fullSheet, Sheet.slideIn] at hi; subst hi; exact .inl rfl
  · intro s h id hi; rw [hs s h, hl] at hi; simp at hi; subst hi; decide
  · intro f h; rw [hf f h]; decide
  · decide
  · intro f h; rw [hf f h]
  · intro s h i hi; rw [hs s h] at hi; simp [fullSheet, Sheet.slideIn] at hi; subst hi; rfl
  · intro s h; rw [hs s h, hl]; decide
  · intro s h n _ hn; rw [hs s h, hl] at hn; simp at hn
    exact not_mem_dec (c := 'H') (n := n) (by decide) (by rw [hn]; decide)
  · intro s h y hy; rw [hs s h] at hy; simp [fullSheet, Sheet.slideIn] at hy; subst hy; rfl
  · intro s h sh h1 k h2 h3
    rw [hs s h] at h1
    simp [fullSheet, Sheet.slideIn] at h1
    subst h1
    cases h2
    cases h3
  · simp [fullSettings, FontIn.Plain, PptRs.Plain]
  · intro t ht
    cases ht
    unfold PlainColors Plain
    decide +kernel
  · simp [fullSettings, Plain]
  · exact ⟨by simp [fullSheet], by simp [fullSheet], by simp [fullSheet, BulletStyle.Safe], by simp [fullSheet], by simp [fullSheet]⟩
  · intro s h
    simp [fullSheet] at h
    subst h
    refine ⟨?_, by simp [someShape], by simp [someShape], by simp [Plain]⟩
    intro f hf
    cases hf
    exact plain_cleanColor (plain_of (by decide))
  · intro s h k hk r hr
    simp [fullSheet] at h
    subst h
    cases hk
    cases hr
    decide
  · intro c hc
    simp [fullSheet] at hc
    subst hc
    exact plain_of (by decide)
  · simp
  · intro _ b hb
    simp [fullSheet] at hb
    subst hb
    exact noId_of (by decide)
  · krfl

end PptRs.Props
