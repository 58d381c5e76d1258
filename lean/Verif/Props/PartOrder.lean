import Verif.Lemmas.Settings
import Verif.Lemmas.Theme
import Verif.Lemmas.Fonts
import Verif.Lemmas.PresText
import Verif.Lemmas.DrawingOrder
import Verif.Props.Parts
import Verif.Props.ValidatePres

/-!
# C100: the elements of the other parts are in the order of the schema

`orderedByL allModels` (Spec/Settings) says for every element with a content model in the tables that its child
elements follow it. The tables are those of ECMA-376, written down without the model.
-/

namespace PptRs.Props

open PptRs PptRs.Spec PptRs.Settings PptRs.Themes

theorem orderedByL_append (t : List (Str × List Slot)) (a b : List Node) :
    orderedByL t (a ++ b) = (orderedByL t a && orderedByL t b) := by
  induction a with
  | nil => simp [orderedByL]
  | cons k ks ih => simp [orderedByL, ih, Bool.and_assoc]

theorem orderedByL_addText (t : List (Str × List Slot)) (s : Str) : orderedByL t (addText [] s) = true := by
  cases s <;> rfl

theorem orderedByL_flatMap {α : Type} {t : List (Str × List Slot)} {f : α → List Node} {l : List α}
    (h : ∀ a ∈ l, orderedByL t (f a) = true) : orderedByL t (l.flatMap f) = true := by
  induction l with
  | nil => rfl
  | cons a l ih =>
    rw [List.flatMap_cons, orderedByL_append, h a (by simp), ih fun b hb => h b (by simp [hb])]
    rfl

theorem tags_slideRefs (n : Nat) : tags (slideRefKids n ++ [nl]) = (upTo n).map fun _ => c!"p:sldId" := by
  have h : ∀ l : List Nat, tags (l.flatMap (fun i => [nl, slideRefNode i]) ++ [nl]) = l.map fun _ => c!"p:sldId" := by
    intro l
    induction l with
    | nil => rfl
    | cons a l ih =>
      rw [List.flatMap_cons, List.append_assoc, Draw.tags_append, ih]
      rfl
  exact h _

theorem orderedByL_slideRefs (n : Nat) : orderedByL allModels (slideRefKids n ++ [nl]) = true := by
  rw [orderedByL_append]
  have : orderedByL allModels (slideRefKids n) = true := orderedByL_flatMap (l := upTo n) fun i _ => by krfl
  rw [this]
  rfl

theorem placed_slideRefs (n : Nat) : placedBy allModels c!"p:sldIdLst" (slideRefKids n ++ [nl]) = true := by
  show follows [rep 0 [c!"p:sldId"]] (tags (slideRefKids n ++ [nl])) = true
  rw [tags_slideRefs]
  exact Draw.follows_rep (by simp) (by simp)

/-- The presentation part follows its content model when the slide list does. -/
theorem ordered_presentation (notes handout : Bool) (n m : Nat) {slides : List Node}
    (h1 : placedBy allModels c!"p:sldIdLst" slides = true) (h2 : orderedByL allModels slides = true) :
    orderedByL allModels (presentationDoc (notesRefNodes notes n) (handoutRefNodes handout m) slides) = true := by
  have e : orderedByL allModels (presentationDoc (notesRefNodes notes n) (handoutRefNodes handout m) slides) =
      (((placedBy allModels c!"p:sldIdLst" slides && orderedByL allModels slides) && true) && true) := by
    cases notes <;> cases handout <;> krfl
  rw [e, h1, h2]
  rfl

/-- **C100, presentation.** The presentation part of any number of slides, with or without notes and handouts,
without embedded fonts. -/
theorem C100_presentation_partial (n : Nat) (notes handout : Bool) :
    ∃ doc, document (presentationText n notes handout) = some doc ∧ orderedByL allModels doc = true :=
  ⟨_, document_presentationText n notes handout,
    ordered_presentation notes handout _ _ (placed_slideRefs n) (orderedByL_slideRefs n)⟩

/-- **C100, presentation properties.** With slide show settings for all slides or a range. Not for custom shows, see
`C98_custom_violated`. -/
theorem C100_presProps_partial {s : Option SlideShow} (h : ∀ x, s = some x → Plain x.penColor)
    (hc : ∀ x, s = some x → ∀ l, x.slideRange ≠ .custom l) :
    ∃ doc, document (createPresPropsXml s) = some doc ∧ orderedByL allModels doc = true := by
  refine ⟨_, document_presProps h, ?_⟩
  cases s with
  | none => krfl
  | some s =>
    obtain ⟨t, a, b, c, pen, r, u, m⟩ := s
    cases r with
    | all => cases t <;> cases m <;> krfl
    | range x y => cases t <;> cases m <;> krfl
    | custom l => exact absurd rfl (hc _ rfl l)

/-- **C100, view properties.** -/
theorem C100_viewProps : ∃ doc, document (xmlDeclTight ++ fmt viewPropsBody) = some doc ∧ orderedByL allModels doc = true := by
  have h : (document (xmlDeclTight ++ fmt viewPropsBody)).map (orderedByL allModels) = some true := by krfl
  cases e : document (xmlDeclTight ++ fmt viewPropsBody) with
  | none => rw [e] at h; cases h
  | some d => rw [e] at h; exact ⟨d, rfl, Option.some.inj h⟩

/-- **C100, layouts.** Every layout the library can write. -/
theorem C100_layout (l : SlideLayout) :
    ∃ doc, document (createSlideLayoutXml l.layoutNumber) = some doc ∧ orderedByL allModels doc = true := by
  have h : (document (createSlideLayoutXml l.layoutNumber)).map (orderedByL allModels) = some true := by
    cases l <;> krfl
  cases e : document (createSlideLayoutXml l.layoutNumber) with
  | none => rw [e] at h; cases h
  | some d => rw [e] at h; exact ⟨d, rfl, Option.some.inj h⟩

/-- **C100, theme.** -/
theorem C100_theme {t : Theme} (hc : t.colors.Plain) :
    ∃ doc, document (themeText t) = some doc ∧ orderedByL allModels doc = true := by
  refine ⟨_, document_theme hc, ?_⟩
  krfl

/-- **C100, notes.** -/
theorem C100_notes (n : Nat) (notes : Str) :
    ∃ doc, document (createNotesXml n notes) = some doc ∧ orderedByL allModels doc = true := by
  refine ⟨_, document_decl (readsNodes_notes _ _ _ (plain_fieldGuid n)) ⟨_, rfl⟩, ?_⟩
  unfold notesDoc
  generalize dec n = d
  cases notes <;> cases d <;> krfl

/-! ### Masters -/

theorem readsTagged_txStyles : ReadsTagged txStyles (constNodes (fmt txStyles)) := by
  have h : ReadsNodes [.lit (fmt txStyles)] (constNodes (fmt txStyles)) := readsNodes_const (by krfl)
  have e : ∀ x, fmt [Part.lit x] = x := fun x => by simp [fmt, Part.render]
  have h' : ReadsNodes txStyles (constNodes (fmt txStyles)) := by
    unfold ReadsNodes at h ⊢
    rw [e] at h
    exact h
  exact h'.tagged ⟨_, rfl⟩

/-- The text styles of the slide master are as `C81_master_partial` needs them. -/
theorem C81_styles : StylesOk txStyles (constNodes (fmt txStyles)) := ⟨readsTagged_txStyles, by krfl⟩

/-- **C100, slide master.** -/
theorem C100_master (p : Option PrintIn) :
    ∃ doc, document (createSlideMasterXml txStyles p) = some doc ∧ orderedByL allModels doc = true := by
  cases p with
  | none => exact ⟨_, document_decl (readsNodes_master_empty readsTagged_txStyles) ⟨_, rfl⟩, by krfl⟩
  | some p =>
    rcases masterShapes_start p with hemp | hr
    · have hb : masterBody txStyles (some p) = masterBody txStyles none := by
        unfold masterBody
        rw [hemp]; rfl
      have hd : document (createSlideMasterXml txStyles (some p)) = document (createSlideMasterXml txStyles none) := by
        rw [createSlideMasterXml, hb]
        rfl
      exact ⟨_, hd.trans (document_decl (readsNodes_master_empty readsTagged_txStyles) ⟨_, rfl⟩), by krfl⟩
    · refine ⟨_, document_decl (readsNodes_master readsTagged_txStyles ((readsNodes_masterShapes _).tagged hr))
        ⟨_, rfl⟩, ?_⟩
      obtain ⟨a, b, c, d⟩ := p
      cases a <;> rcases b with _ | (_ | _) <;> cases c <;> cases d <;> krfl

/-- **C100, handout master.** -/
theorem C100_handout (p : PrintIn) :
    ∃ doc, document (toHandoutMasterXml p) = some doc ∧ orderedByL allModels doc = true := by
  have e : document (toHandoutMasterXml p) = parse (fmt (handoutBody p)) := by krfl
  refine ⟨_, e.trans (parse_of_nodes (readsNodes_handout p)), ?_⟩
  obtain ⟨a, b, c, d⟩ := p
  rcases a with _ | (_ | _) <;> rcases b with _ | (_ | _) <;> cases c <;> cases d <;> krfl

/-! ### Embedded fonts -/

/-- The presentation with the list of fonts. -/
def presentationFontsDoc (notes handout : List Node) (slides : List Node) (fonts : Node) : List Node :=
  match presentationDoc notes handout slides with
  | [.elem n as ks] => [.elem n as (ks ++ [fonts])]
  | _ => []

/-- The parts of the presentation with the list of fonts. -/
def presentationFontsParts (fonts : List FontIn) (n : Nat) (a b : Bool) : List Part :=
  presentationHead n a b ++ t!"<p:sldIdLst>" ++ (upTo n).flatMap slideListEntry
    ++ t!"\n</p:sldIdLst>\n<p:sldSz cx=\"9144000\" cy=\"6858000\" type=\"screen4x3\"/>" ++ presentationRest
    ++ fontList fonts ++ t!"</p:presentation>"

theorem fmt_slideListEntry (i : Nat) : fmt (slideListEntry i) = c!"\n" ++ c!"<p:sldId " ++ slideRefTail i := by
  have : fmt (slideListEntry i) = c!"\n<p:sldId id=\"" ++ (dec (slideIdValue i) ++ (c!"\" r:id=\"rId" ++
    (dec (slideRelId i) ++ c!"\"/>"))) := rfl
  rw [this, slideRefTail]
  simp only [List.append_assoc]
  rfl

theorem presentationFonts_eq (fonts : List FontIn) (n : Nat) (a b : Bool) :
    presentationTextWithFonts (descOf fonts) n a b (fonts.map (·.font)) = xmlDecl ++ fmt (presentationFontsParts fonts n a b) := by
  have e1 : fmt t!"<p:sldIdLst>" = c!"<p:sldIdLst>" := rfl
  have e2 : fmt t!"\n</p:sldIdLst>\n<p:sldSz cx=\"9144000\" cy=\"6858000\" type=\"screen4x3\"/>" = slideSizeText ++ c!"/>" := rfl
  have e3 : fmt t!"</p:presentation>" = c!"</p:presentation>" := rfl
  rw [presentationTextWithFonts_eq]
  unfold presentationFontsParts
  simp only [fmt_append, fmt_flatMap, fmt_slideListEntry, e1, e2, e3, fmt_fonts, List.append_assoc]

set_option maxRecDepth 8000 in
theorem document_presentationFonts {fonts : List FontIn} (hne : fonts ≠ []) (hf : ∀ f ∈ fonts, f.Plain)
    (count : Nat) (notes handout : Bool) :
    document (presentationTextWithFonts (descOf fonts) count notes handout (fonts.map (·.font))) =
      some (presentationFontsDoc (notesRefNodes notes (notesMasterRelId count))
        (handoutRefNodes handout (handoutMasterRelId count notes)) (slideRefKids count ++ [nl]) (fontsNode fonts)) := by
  rw [presentationFonts_eq]
  have e : document (xmlDecl ++ fmt (presentationFontsParts fonts count notes handout)) =
      parse (fmt (presentationFontsParts fonts count notes handout)) := by krfl
  rw [e]
  refine parse_of_nodes ?_
  unfold presentationFontsParts presentationHead presentationRest
  exact ((((((Splits.lit (by parts_ok)).append
    (.nodes (readsNodes_whenSet (b := notes) (ks := [nl, E c!"p:notesMasterIdLst" [] [nl, E c!"p:notesMasterId"
          [(c!"r:id", c!"rId" ++ dec (notesMasterRelId count))] [], nl]])
        ((Splits.lit (by parts_ok)).readsNodes (by krfl))))
    |>.append (.nodes (readsNodes_whenSet (b := handout) (ks := [nl, E c!"p:handoutMasterIdLst" [] [nl, E c!"p:handoutMasterId"
          [(c!"r:id", c!"rId" ++ dec (handoutMasterRelId count notes))] [], nl]])
        ((Splits.lit (by parts_ok)).readsNodes (by krfl))))
    |>.append (.lit (by parts_ok)))
    |>.append (.lit (by parts_ok)))
    |>.append (.nodes (readsNodes_flatMap (l := upTo count) fun i _ => readsNodes_slideListEntry i))
    |>.append (.lit (by parts_ok)))
    |>.append (((Splits.lit (by parts_ok)).append
      (.tagged (readsNodes_defaultTextStyle.tagged ⟨_, rfl⟩))).append (.lit (by parts_ok))))
    |>.append (.nodes (readsNodes_fonts hf hne))
    |>.append (.lit (by parts_ok))).readsNodes (by krfl)

/-- **C100 does not hold with embedded fonts**: the list of fonts is written as the last element of the presentation
part, after the default text style and the extensions; the schema has it directly after the size of the notes. -/
theorem C100_fonts_violated {fonts : List FontIn} (hne : fonts ≠ []) (hf : ∀ f ∈ fonts, f.Plain)
    (count : Nat) (notes handout : Bool) :
    ∃ as ks, document (presentationTextWithFonts (descOf fonts) count notes handout (fonts.map (·.font))) =
        some [.elem c!"p:presentation" as ks] ∧
      placedBy allModels c!"p:presentation" ks = false := by
  refine ⟨_, _, document_presentationFonts hne hf count notes handout, ?_⟩
  cases notes <;> cases handout <;> krfl

/-- Not vacuous: an embedded font. -/
example : ∀ f ∈ [({ font := ⟨c!"A", .regular, c!"rId9"⟩ } : FontIn)], f.Plain := by
  intro f hf
  simp only [List.mem_cons, List.not_mem_nil, or_false] at hf
  rcases hf with rfl
  exact ⟨plain_of (by decide), by simp⟩

/-- The tables tell orders apart. -/
example : orderedByL allModels [E c!"p:sldMaster" [] [E c!"p:clrMap" [] [], E c!"p:cSld" [] [E c!"p:spTree" [] [
    E c!"p:nvGrpSpPr" [] [], E c!"p:grpSpPr" [] []]]]] = false := by krfl

end PptRs.Props
