import Verif.Spec.Settings
import Verif.Lemmas.Parts
import Verif.Lemmas.EditorXml
import Verif.Lemmas.SlideText
import Verif.Lemmas.Drawing

/-!
# Reading the settings of a presentation
-/

namespace PptRs.Settings

open PptRs PptRs.Spec

theorem splitsAll {ps : List Part} (h : ps.all (fun p => match p with
    | .raw _ => false
    | _ => true) = true) : Splits ps (ps.map .part) :=
  Splits.lit fun p hp => by
    have := List.all_eq_true.mp h p hp
    cases p with
    | raw s => exact absurd this (by simp)
    | _ => trivial

theorem document_tight {ps : List Part} {ks : List Node} (h : ReadsNodes ps ks)
    (hs : ∃ r, fmt ps = '<' :: r) : document (xmlDeclTight ++ fmt ps) = some ks := by
  obtain ⟨r, hr⟩ := hs
  have e : document (xmlDeclTight ++ fmt ps) = parse (fmt ps) := by
    rw [hr]
    krfl
  rw [e, parse_of_nodes h]

/-! ### Slide show -/

/-- The attributes of the settings. -/
def SlideShow.nodeAttrs (s : SlideShow) : List (Str × Str) :=
  (if s.looping then [(c!"loop", c!"1")] else []) ++ (if s.withoutNarration then [(c!"showNarration", c!"0")] else [])
    ++ (if s.withoutAnimation then [(c!"showAnimation", c!"0")] else []) ++ (if s.useTimings then [(c!"useTimings", c!"1")] else [])

theorem readsAttrs_show (s : SlideShow) : ReadsAttrs s.attrs s.nodeAttrs :=
  ((readsAttrs_whenSet ((splitsAll rfl).readsAttrs fun top st n as => by krfl)).append
    (readsAttrs_whenSet ((splitsAll rfl).readsAttrs fun top st n as => by krfl))).append
    (readsAttrs_whenSet ((splitsAll rfl).readsAttrs fun top st n as => by krfl)) |>.append
    (readsAttrs_whenSet ((splitsAll rfl).readsAttrs fun top st n as => by krfl))

/-- The kind of show. -/
def ShowType.node : ShowType → Node
  | .speaker => E c!"p:present" [] []
  | .kiosk => E c!"p:kiosk" [(c!"restart", c!"300000")] []
  | .browsed => E c!"p:browse" [(c!"showScrollbar", c!"1")] []

theorem readsNodes_showType (t : ShowType) : ReadsNodes t.toXml [t.node] := by
  cases t <;> exact (splitsAll rfl).readsNodes (by krfl)

/-- The slides of a custom show. -/
def customNode (n : Nat) : Node := E c!"p:sldId" [(c!"id", dec n)] []

/-- The slides shown. -/
def SlideRange.node : SlideRange → Node
  | .all => E c!"p:sldAll" [] []
  | .range a b => E c!"p:sldRg" [(c!"st", dec a), (c!"end", dec b)] []
  | .custom l => E c!"p:custShow" [] (l.flatMap fun n => [customNode n])

theorem readsNodes_range (r : SlideRange) : ReadsNodes r.toXml [r.node] := by
  cases r with
  | all => exact (splitsAll rfl).readsNodes (by krfl)
  | range a b => exact (Splits.lit (by unfold SlideRange.toXml; parts_ok)).readsNodes (by krfl)
  | custom l =>
    have h : ReadsNodes (l.flatMap customSlide) (l.flatMap fun n => [customNode n]) :=
      readsNodes_flatMap fun n _ => (Splits.lit (by unfold customSlide; parts_ok)).readsNodes (by krfl)
    exact (((splitsAll rfl).append (.nodes h)).append (splitsAll rfl)).readsNodes (by krfl)

/-- The address of the extensions of PowerPoint 2010. -/
def p14 : Str × Str := (c!"xmlns:p14", c!"http://schemas.microsoft.com/office/powerpoint/2010/main")

/-- The pen colour. -/
def penNode (c : Str) : Node := E c!"p:penClr" [] [E c!"a:srgbClr" [(c!"val", c)] []]

/-- The extension with the colour of the laser pointer. -/
def laserNode (c : Str) : Node :=
  E c!"p:ext" [(c!"uri", c!"{EC167BDD-8182-4AB7-AECC-EB403E3ABB37}")]
    [E c!"p14:laserClr" [p14] [E c!"a:srgbClr" [(c!"val", c)] []]]

/-- The extension that shows the media controls. -/
def mediaNode : Node :=
  E c!"p:ext" [(c!"uri", c!"{2FDB2607-1784-4EEB-B798-7EB5836EED8A}")] [E c!"p14:showMediaCtrls" [p14, (c!"val", c!"1")] []]

/-- The slide show settings. -/
def SlideShow.node (s : SlideShow) : Node :=
  E c!"p:showPr" s.nodeAttrs [s.showType.node, s.slideRange.node, penNode s.penColor,
    E c!"p:extLst" [] (laserNode s.penColor :: if s.mediaControls then [mediaNode] else [])]

theorem readsNodes_show {s : SlideShow} (h : Plain s.penColor) : ReadsNodes s.toXml [s.node] := by
  have hm : ReadsNodes mediaControlsExt [mediaNode] := (splitsAll rfl).readsNodes (by krfl)
  have hp : Splits t!"<p:penClr><a:srgbClr val=\"{.raw s.penColor}\"/></p:penClr><p:extLst><p:ext uri=\"\x7bEC167BDD-8182-4AB7-AECC-EB403E3ABB37}\"><p14:laserClr xmlns:p14=\"http://schemas.microsoft.com/office/powerpoint/2010/main\"><a:srgbClr val=\"{.raw s.penColor}\"/></p14:laserClr></p:ext>" _ :=
    Splits.lit (by simp [Part.Ok, h])
  exact (((((((splitsAll rfl).append (.attrs (readsAttrs_show s))).append (splitsAll rfl)).append
    (.nodes (readsNodes_showType s.showType))).append (.nodes (readsNodes_range s.slideRange))).append hp).append
    (.nodes (readsNodes_whenSet (b := s.mediaControls) hm))).append (splitsAll rfl) |>.readsNodes (by krfl)

/-- The extensions of the presentation properties. -/
def presExts : Node :=
  E c!"p:extLst" [] [
    E c!"p:ext" [(c!"uri", c!"{E76CE94A-603C-4142-B9EB-6D1370010A27}")] [E c!"p14:discardImageEditData" [p14, (c!"val", c!"0")] []],
    E c!"p:ext" [(c!"uri", c!"{D31A062A-798A-4329-ABDD-BBA856620510}")] [E c!"p14:defaultImageDpi" [p14, (c!"val", c!"0")] []],
    E c!"p:ext" [(c!"uri", c!"{FD5EFAAD-0ECE-453E-9831-46B23BE46B34}")] [E c!"p15:chartTrackingRefBased"
      [(c!"xmlns:p15", c!"http://schemas.microsoft.com/office/powerpoint/2012/main"), (c!"val", c!"0")] []]]

/-- The presentation properties. -/
def presPropsNode (s : Option SlideShow) : Node :=
  E c!"p:presentationPr" [(c!"xmlns:a", c!"http://schemas.openxmlformats.org/drawingml/2006/main"),
    (c!"xmlns:r", c!"http://schemas.openxmlformats.org/officeDocument/2006/relationships"),
    (c!"xmlns:p", c!"http://schemas.openxmlformats.org/presentationml/2006/main")]
    ((match s with
      | some s => [s.node]
      | none => []) ++ [presExts])

theorem document_presProps {s : Option SlideShow} (h : ∀ x, s = some x → Plain x.penColor) :
    document (createPresPropsXml s) = some [presPropsNode s] := by
  refine document_tight ?_ ⟨_, rfl⟩
  cases s with
  | none => exact (((splitsAll rfl).append (.nodes readsNodes_nil)).append (splitsAll rfl)).readsNodes (by krfl)
  | some s =>
    unfold presPropsBody
    have hs : ReadsNodes (whenSome (some s) SlideShow.toXml) ([s.node] ++ []) := by
      have : ReadsNodes (s.toXml ++ []) ([s.node] ++ []) := (readsNodes_show (h s rfl)).append readsNodes_nil
      exact this
    exact ((splitsAll rfl).append (.nodes hs) |>.append (splitsAll rfl)).readsNodes (by krfl)

/-! ### Print -/

/-- The print settings. -/
def PrintSettings.node (p : PrintSettings) : Node :=
  E c!"p:prnPr" ([(c!"prnWhat", p.what.value), (c!"clrMode", p.colorMode.value)]
    ++ (if p.frameSlides then [(c!"frameSlides", c!"1")] else []) ++ (if p.includeHidden then [(c!"hiddenSlides", c!"1")] else [])
    ++ (if p.scaleToFit then [(c!"scaleToFitPaper", c!"1")] else [])) []

theorem readsNodes_print (p : PrintSettings) : ReadsNodes p.toPrnPr [p.node] := by
  have h1 : Plain p.what.value := by cases p.what <;> exact plain_of (by decide)
  have h2 : Plain p.colorMode.value := by cases p.colorMode <;> exact plain_of (by decide)
  have ha : ReadsAttrs (whenSet p.frameSlides t!" frameSlides=\"1\"") _ :=
    readsAttrs_whenSet ((splitsAll rfl).readsAttrs (as := [(c!"frameSlides", c!"1")]) fun top st n as => by krfl)
  have hb : ReadsAttrs (whenSet p.includeHidden t!" hiddenSlides=\"1\"") _ :=
    readsAttrs_whenSet ((splitsAll rfl).readsAttrs (as := [(c!"hiddenSlides", c!"1")]) fun top st n as => by krfl)
  have hc : ReadsAttrs (whenSet p.scaleToFit t!" scaleToFitPaper=\"1\"") _ :=
    readsAttrs_whenSet ((splitsAll rfl).readsAttrs (as := [(c!"scaleToFitPaper", c!"1")]) fun top st n as => by krfl)
  exact ((((Splits.lit (by parts_ok)).append (.attrs ha)).append (.attrs hb)).append (.attrs hc)).append
    (splitsAll rfl) |>.readsNodes (by krfl)

end PptRs.Settings
