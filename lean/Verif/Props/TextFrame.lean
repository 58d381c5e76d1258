import Verif.Model.TextFrame
import Verif.Spec.TextFrame
import Verif.Lemmas.DrawingOrder
import Verif.Lemmas.DrawingRead
import Verif.Props.Inline

/-!
# C129: text frames
-/

namespace PptRs.Props

open PptRs.Spec PptRs.Draw PptRs.Text

/-! ### The elements -/

/-- A run. -/
def frameRun (r : Run) : Node :=
  E c!"a:r" [] [
    E c!"a:rPr" ([(c!"lang", c!"en-US"), (c!"sz", dec r.size), (c!"b", flag r.format.bold), (c!"i", flag r.format.italic)]
      ++ (if r.format.underline then [(c!"u", c!"sng")] else []) ++ [(c!"dirty", c!"0")])
      ((r.format.color.toList.flatMap fun c => [E c!"a:solidFill" [] [E c!"a:srgbClr" [(c!"val", c)] []]])
        ++ r.format.fontFamily.toList.flatMap fun f => [E c!"a:latin" [(c!"typeface", f)] []]),
    E c!"a:t" [] (addText [] r.text)]

/-- Colours without special characters. -/
def RunPlain (r : Run) : Prop := ∀ c ∈ r.format.color, Plain c

theorem readsNodes_frameColor {c : Str} (h : Plain c) :
    ReadsNodes t!"<a:solidFill><a:srgbClr val=\"{.raw c}\"/></a:solidFill>"
      [E c!"a:solidFill" [] [E c!"a:srgbClr" [(c!"val", c)] []]] :=
  (Splits.lit (by parts_ok)).readsNodes (by krfl)

theorem readsNodes_frameFont (f : Str) :
    ReadsNodes t!"<a:latin typeface=\"{.esc f}\"/>" [E c!"a:latin" [(c!"typeface", f)] []] :=
  (Splits.lit (by parts_ok)).readsNodes (by krfl)

theorem readsNodes_frameRun {r : Run} (h : RunPlain r) : ReadsNodes r.toText [frameRun r] := by
  have hb := plain_flag r.format.bold
  have hi := plain_flag r.format.italic
  unfold Run.toText frameRun
  generalize flag r.format.bold = B at hb ⊢
  generalize flag r.format.italic = I at hi ⊢
  exact Splits.readsNodes ((((((Splits.lit (by parts_ok)).append
    (.attrs (readsAttrs_whenSet readsAttrs_u))).append (.lit (by parts_ok))).append
    (.nodes (readsNodes_whenSome fun c hc => readsNodes_frameColor (h c hc)))).append
    (.nodes (readsNodes_whenSome fun f _ => readsNodes_frameFont f))).append (.lit (by parts_ok))) (by krfl)

/-- The properties of a paragraph. -/
def framePara (p : Paragraph) : Node :=
  E c!"a:pPr" [(c!"algn", p.align.toXml), (c!"lvl", dec p.level)]
    (p.before.toList.map (fun n => E c!"a:spcBef" [] [E c!"a:spcPts" [(c!"val", dec n)] []])
      ++ p.after.toList.map (fun n => E c!"a:spcAft" [] [E c!"a:spcPts" [(c!"val", dec n)] []])
      ++ if p.bullet then [E c!"a:buChar" [(c!"char", c!"•")] []] else [])

theorem plain_textAlign (a : Align) : Plain a.toXml := by
  cases a <;> refine ⟨?_, ?_, ?_⟩ <;> decide

theorem plain_textAnchor (a : Anchor) : Plain a.toXml := by
  cases a <;> refine ⟨?_, ?_, ?_⟩ <;> decide

theorem readsNodes_framePara (p : Paragraph) : ReadsNodes p.props [framePara p] := by
  have ha := plain_textAlign p.align
  obtain ⟨runs, align, level, bullet, before, after, line⟩ := p
  unfold Paragraph.props framePara
  generalize align.toXml = A at ha ⊢
  cases before <;> cases after <;> cases line <;> cases bullet <;>
    (simp only [Option.isSome, Bool.or_true, Bool.or_false, Bool.true_or, Bool.false_eq_true, if_true, if_false, whenSome, whenSet,
      Option.toList, List.flatMap_cons, List.flatMap_nil, List.cons_append, List.nil_append, List.append_nil, List.map_cons, List.map_nil]
     exact (Splits.lit (by parts_ok)).readsNodes (by krfl))

/-- A paragraph. -/
def frameP (p : Paragraph) : Node := E c!"a:p" [] (framePara p :: p.runs.map frameRun)

theorem readsNodes_frameP {p : Paragraph} (h : ∀ r ∈ p.runs, RunPlain r) : ReadsNodes p.toText [frameP p] := by
  have hr : ReadsNodes (p.runs.flatMap Run.toText) (p.runs.flatMap fun r => [frameRun r]) :=
    readsNodes_flatMap fun r hm => readsNodes_frameRun (h r hm)
  rw [← List.map_eq_flatMap] at hr
  unfold Paragraph.toText frameP
  exact Splits.readsNodes ((((Splits.lit (by parts_ok)).append (.nodes (readsNodes_framePara p))).append
    (.nodes hr)).append (.lit (by parts_ok))) (by krfl)

/-- A text frame. -/
def frameNode (f : TextFrame) : Node :=
  E c!"p:txBody" [] (
    E c!"a:bodyPr" [(c!"wrap", if f.wrap then c!"square" else c!"none"), (c!"lIns", dec f.left), (c!"rIns", dec f.right),
      (c!"tIns", dec f.top), (c!"bIns", dec f.bottom), (c!"anchor", f.anchor.toXml)] []
    :: E c!"a:lstStyle" [] []
    :: (f.paragraphs.map frameP ++ if f.paragraphs.isEmpty then [E c!"a:p" [] [E c!"a:endParaRPr" [] []]] else []))

theorem readsNodes_frame {f : TextFrame} (h : ∀ p ∈ f.paragraphs, ∀ r ∈ p.runs, RunPlain r) :
    ReadsNodes f.toText [frameNode f] := by
  have ha := plain_textAnchor f.anchor
  have hw : Plain (if f.wrap then c!"square" else c!"none") := by
    split <;> refine ⟨?_, ?_, ?_⟩ <;> decide
  have hr : ReadsNodes (f.paragraphs.flatMap Paragraph.toText) (f.paragraphs.flatMap fun p => [frameP p]) :=
    readsNodes_flatMap fun p hm => readsNodes_frameP (h p hm)
  rw [← List.map_eq_flatMap] at hr
  have he : ReadsNodes (whenSet f.paragraphs.isEmpty t!"<a:p><a:endParaRPr/></a:p>")
      (if f.paragraphs.isEmpty then [E c!"a:p" [] [E c!"a:endParaRPr" [] []]] else []) := by
    cases f.paragraphs.isEmpty
    · exact readsNodes_nil
    · show ReadsNodes t!"<a:p><a:endParaRPr/></a:p>" _
      exact (Splits.lit (by parts_ok)).readsNodes (by krfl)
  unfold TextFrame.toText frameNode
  generalize f.anchor.toXml = A at ha ⊢
  generalize (if f.wrap then c!"square" else c!"none") = W at hw ⊢
  exact Splits.readsNodes ((((Splits.lit (by parts_ok)).append (.nodes hr)).append
    (.nodes he)).append (.lit (by parts_ok))) (by krfl)

/-! ### What is read -/

/-- How a run should be shown: as its format says. -/
def runWanted (r : Run) : RunShown :=
  let f := r.format
  ⟨r.text, some ⟨f.bold, f.italic, if f.underline then some c!"sng" else none,
      if f.strikethrough then some c!"sngStrike" else none, some (dec (f.fontSize.getD 18 * 100)), f.color, f.fontFamily⟩,
    if f.subscript then some c!"-25000" else if f.superscript then some c!"30000" else none, f.highlight⟩

/-- How a paragraph should be shown. -/
def paraWanted (p : Paragraph) : ParaShown :=
  ⟨some (match p.align with
      | .left => c!"l"
      | .center => c!"ctr"
      | .right => c!"r"
      | .justify => c!"just"),
    some (dec p.level), if p.bullet then some c!"•" else none, p.before.map dec, p.after.map dec, p.line.map dec,
    p.runs.map runWanted⟩

/-- How a text frame should be shown: at least one paragraph, which can be empty. -/
def frameWanted (f : TextFrame) : BodyShown :=
  ⟨some (if f.wrap then c!"square" else c!"none"), [f.left, f.right, f.top, f.bottom].map (some ∘ dec),
    some (match f.anchor with
      | .top => c!"t"
      | .middle => c!"ctr"
      | .bottom => c!"b"),
    if f.paragraphs = [] then [⟨none, none, none, none, none, none, []⟩] else f.paragraphs.map paraWanted⟩

/-- What a run can say. -/
def RunSimple (r : Run) : Prop :=
  r.format.strikethrough = false ∧ r.format.subscript = false ∧ r.format.superscript = false ∧ r.format.highlight = none

theorem runShown_frame {r : Run} (h : RunSimple r) : runShown (frameRun r) = runWanted r := by
  obtain ⟨text, b, i, u, s, color, hl, size, font, sub, sup⟩ := r
  obtain ⟨rfl, rfl, rfl, rfl⟩ := h
  have ht : textOf (addText [] text) = text := by rw [addText_eq]; exact textOf_textNode _
  have e : (path [c!"a:t"] (frameRun ⟨text, b, i, u, false, color, none, size, font, false, false⟩)).flatMap
      (fun t => textOf (kidsOf t)) = text := by
    show (textOf (addText [] text) ++ []) = text
    rw [ht, List.append_nil]
  unfold runShown runRead
  dsimp only
  rw [e]
  cases b <;> cases i <;> cases u <;> cases color <;> cases font <;> rfl

theorem runs_frameP (p : Paragraph) : path [c!"a:r"] (frameP p) = p.runs.map frameRun := by
  unfold frameP
  show (named c!"a:r" (p.runs.map frameRun)).flatMap (fun k => [k]) = _
  rw [named_map (g := frameRun) fun r _ => ⟨_, _, rfl⟩, ← List.map_eq_flatMap, List.map_id']

/-- What a paragraph can say. -/
def ParaSimple (p : Paragraph) : Prop := p.line = none ∧ ∀ r ∈ p.runs, RunSimple r

theorem paraShown_frame {p : Paragraph} (h : ParaSimple p) : paraShown (frameP p) = paraWanted p := by
  have hr : (path [c!"a:r"] (frameP p)).map runShown = p.runs.map runWanted := by
    rw [runs_frameP, List.map_map]
    exact List.map_congr_left fun r hm => runShown_frame (h.2 r hm)
  unfold paraShown
  rw [hr]
  obtain ⟨runs, align, level, bullet, before, after, line⟩ := p
  obtain ⟨rfl, _⟩ := h
  cases align <;> cases before <;> cases after <;> cases bullet <;> rfl

theorem paras_frame (f : TextFrame) : path [c!"a:p"] (frameNode f)
    = f.paragraphs.map frameP ++ if f.paragraphs.isEmpty then [E c!"a:p" [] [E c!"a:endParaRPr" [] []]] else [] := by
  unfold frameNode
  show (named c!"a:p" (f.paragraphs.map frameP ++ _)).flatMap (fun k => [k]) = _
  rw [named_append, named_map (g := frameP) fun r _ => ⟨_, _, rfl⟩, ← List.map_eq_flatMap, List.map_id']
  cases f.paragraphs.isEmpty <;> rfl

/-- A text frame that is written is well-formed and says what it should, if no run is struck through,
raised, lowered or highlighted, no line spacing is set, and the colours have no special
characters. -/
theorem C129_frame_partial {f : TextFrame} (h : ∀ p ∈ f.paragraphs, ParaSimple p ∧ ∀ r ∈ p.runs, RunPlain r)
    {x : List Part} (hx : f.toXml = some x) :
    ∃ k, ReadsAs (fmt x) [k] ∧ bodyShown k = frameWanted f := by
  unfold TextFrame.toXml at hx
  split at hx
  · obtain rfl := Option.some.inj hx
    refine ⟨frameNode f, (readsNodes_frame fun p hp => (h p hp).2).readsAs, ?_⟩
    unfold bodyShown frameWanted
    rw [paras_frame]
    have hp : f.paragraphs.map (paraShown ∘ frameP) = f.paragraphs.map paraWanted :=
      List.map_congr_left fun p hp => paraShown_frame (h p hp).1
    obtain ⟨ps, a, w, l, r, t, b⟩ := f
    rw [List.map_append, List.map_map, hp]
    cases ps with
    | nil => cases a <;> cases w <;> rfl
    | cons p ps =>
      show BodyShown.mk _ _ _ ((p :: ps).map paraWanted ++ []) = _
      rw [List.append_nil]
      cases a <;> cases w <;> rfl
  · simp at hx

/-- It is written exactly if the sizes fit. -/
theorem C129_total (f : TextFrame) :
    f.toXml.isSome = true ↔ ∀ p ∈ f.paragraphs, ∀ r ∈ p.runs, r.format.fontSize.getD 18 * 100 < 2 ^ 32 := by
  unfold TextFrame.toXml
  have e : (f.paragraphs.all fun p => p.runs.all fun r => r.size < 4294967296) = true
      ↔ ∀ p ∈ f.paragraphs, ∀ r ∈ p.runs, r.format.fontSize.getD 18 * 100 < 2 ^ 32 := by
    simp only [List.all_eq_true, decide_eq_true_eq]
    rfl
  by_cases h : (f.paragraphs.all fun p => p.runs.all fun r => r.size < 4294967296) = true
  · rw [if_pos h]
    exact ⟨fun _ => e.mp h, fun _ => rfl⟩
  · rw [if_neg h]
    exact ⟨fun h' => by simp at h', fun h' => absurd (e.mpr h') h⟩

/-- The elements stand in the order of the schema, whatever is set. -/
theorem C129_schema {f : TextFrame} (h : ∀ p ∈ f.paragraphs, ∀ r ∈ p.runs, RunPlain r) {x : List Part}
    (hx : f.toXml = some x) : ∃ k, ReadsAs (fmt x) [k] ∧ ordered k = true := by
  have hrun : ∀ r, ordered (frameRun r) = true := by
    intro r
    obtain ⟨text, b, i, u, s, color, hl, size, font, sub, sup⟩ := r
    refine ordered_elem (by krfl) ?_
    show (ordered _ && (ordered (E c!"a:t" [] (addText [] text)) && true)) = true
    rw [show ordered (E c!"a:t" [] (addText [] text)) = true from
      ordered_elem (by krfl) (orderedL_addText text)]
    cases color <;> cases font <;> krfl
  have hpr : ∀ p, ordered (framePara p) = true := by
    intro p
    obtain ⟨runs, align, level, bullet, before, after, line⟩ := p
    cases bullet <;> cases before <;> cases after <;> krfl
  have hp : ∀ p, ordered (frameP p) = true := by
    intro p
    refine ordered_elem ?_ ?_
    · show follows [rep 0 [c!"a:r", c!"a:br", c!"a:fld"], opt [c!"a:endParaRPr"]] (tags (p.runs.map frameRun)) = true
      have ht : tags (p.runs.map frameRun) = p.runs.map fun _ => c!"a:r" := by
        induction p.runs with
        | nil => rfl
        | cons r l ih => rw [List.map_cons, List.map_cons, ← ih]; rfl
      rw [ht, follows_rep_end (by simp) (Nat.zero_le _)]
      rfl
    · show (ordered (framePara p) && orderedL (p.runs.map frameRun)) = true
      rw [hpr, orderedL_map fun r _ => hrun r]
      rfl
  have hf : ordered (frameNode f) = true := by
    have he : ∀ b : Bool, orderedL (if b then [E c!"a:p" [] [E c!"a:endParaRPr" [] []]] else []) = true := by
      intro b; cases b <;> krfl
    refine ordered_elem ?_ ?_
    · have ht : ∀ (l : List Paragraph), tags (l.map frameP) = l.map fun _ => c!"a:p" := by
        intro l
        induction l with
        | nil => rfl
        | cons r l ih => rw [List.map_cons, List.map_cons, ← ih]; rfl
      show follows [rep 1 [c!"a:p"]] (tags (f.paragraphs.map frameP ++ _)) = true
      cases f.paragraphs with
      | nil => krfl
      | cons p ps =>
        show follows [rep 1 [c!"a:p"]] (tags ((p :: ps).map frameP ++ [])) = true
        rw [List.append_nil, ht]
        exact follows_rep (by simp) (by simp)
    · show (true && (true && orderedL _)) = true
      rw [orderedL_append, orderedL_map fun p _ => hp p, he]
      rfl
  unfold TextFrame.toXml at hx
  split at hx
  · obtain rfl := Option.some.inj hx
    exact ⟨frameNode f, (readsNodes_frame h).readsAs, hf⟩
  · simp at hx

/-- A frame to which the theorems apply, and what is read from it. -/
def sampleFrame : TextFrame where
  paragraphs := [{ runs := [⟨c!"a < b", { bold := true, color := some c!"FF0000", fontFamily := some c!"A & B" }⟩, ⟨c!"", {}⟩],
                   align := .center, bullet := true, after := some 600 }, {}]
  anchor := .middle

example : (∀ p ∈ sampleFrame.paragraphs, ParaSimple p ∧ ∀ r ∈ p.runs, RunPlain r) ∧ sampleFrame.toXml.isSome = true
    ∧ frameWanted sampleFrame = ⟨some c!"square", [some c!"91440", some c!"91440", some c!"45720", some c!"45720"], some c!"ctr",
      [⟨some c!"ctr", some c!"0", some c!"•", none, some c!"600", none,
        [⟨c!"a < b", some ⟨true, false, none, none, some c!"1800", some c!"FF0000", some c!"A & B"⟩, none, none⟩,
         ⟨c!"", some ⟨false, false, none, none, some c!"1800", none, none⟩, none, none⟩]⟩,
       ⟨some c!"l", some c!"0", none, none, none, none, []⟩]⟩ := by
  refine ⟨?_, by decide +kernel, by decide +kernel⟩
  simp only [sampleFrame, ParaSimple, RunSimple, RunPlain]
  simp only [List.forall_mem_cons, List.not_mem_nil, false_implies, implies_true, and_true, true_and]
  refine ⟨?_, ?_⟩ <;> simp only [Option.mem_def, Option.some.injEq, reduceCtorEq, false_implies, implies_true, forall_eq']
  refine ⟨?_, ?_, ?_⟩ <;> decide

/-! ### The attributes of a format -/

/-- Whatever is called and in whatever order: a text is not both raised and lowered, and the last
call decides. -/
theorem C129_baseline (cs : List Setter) :
    (let f := cs.foldl Format.set {}
     (f.subscript && f.superscript) = false
      ∧ (f.subscript = true ↔ (cs.reverse.find? fun c => c = .subscript ∨ c = .superscript) = some .subscript)
      ∧ (f.superscript = true ↔ (cs.reverse.find? fun c => c = .subscript ∨ c = .superscript) = some .superscript)) := by
  show _ ∧ _ ∧ _
  rw [← List.foldr_reverse]
  induction cs.reverse with
  | nil => simp
  | cons c l ih =>
    rw [List.foldr_cons]
    generalize l.foldr (fun c f => Format.set f c) {} = f at ih ⊢
    cases c <;> simp_all [Format.set]

example : ([.subscript, .bold, .superscript, .color c!"#ff"].foldl Format.set {} : Format)
    = { bold := true, superscript := true, color := some c!"FF" } := by decide +kernel

/-- Reading the attributes of a run. -/
def attrsWanted (f : Format) : List (Str × Str) :=
  (if f.bold then [(c!"b", c!"1")] else []) ++ (if f.italic then [(c!"i", c!"1")] else [])
  ++ (if f.underline then [(c!"u", c!"sng")] else []) ++ (if f.strikethrough then [(c!"strike", c!"sngStrike")] else [])
  ++ (if f.subscript then [(c!"baseline", c!"-25000")] else [])
  ++ (if !f.subscript && f.superscript then [(c!"baseline", c!"30000")] else [])
  ++ match f.fontSize with
    | some n => [(c!"sz", dec (n * 100))]
    | none => []

/-- The attributes say what is set, and none of them twice. -/
theorem C129_attrs {f : Format} {x : List Part} (h : f.attrsXml = some x) :
    ReadsAttrs x (attrsWanted f) ∧ ((attrsWanted f).map (·.1)).Nodup := by
  unfold Format.attrsXml at h
  split at h
  · obtain rfl := Option.some.inj h
    constructor
    · unfold Format.attrsText attrsWanted
      refine ((((((readsAttrs_whenSet ?_).append (readsAttrs_whenSet ?_)).append (readsAttrs_whenSet readsAttrs_u)).append
        (readsAttrs_whenSet readsAttrs_strike)).append (readsAttrs_whenSet readsAttrs_sub)).append
        (readsAttrs_whenSet readsAttrs_super)).append ?_
      · exact (Splits.lit (by parts_ok)).readsAttrs (fun top st n as => by krfl)
      · exact (Splits.lit (by parts_ok)).readsAttrs (fun top st n as => by krfl)
      · cases f.fontSize with
        | none => exact readsAttrs_nil
        | some n =>
          simp only [whenSome, Option.toList, List.flatMap_cons, List.flatMap_nil, List.append_nil]
          exact (Splits.lit (by parts_ok)).readsAttrs (fun top st n as => by krfl)
    · unfold attrsWanted
      rcases f with ⟨b, i, u, s, _, _, z, _, sub, sup⟩
      cases b <;> cases i <;> cases u <;> cases s <;> cases z <;> cases sub <;> cases sup <;> simp
  · simp at h

example : (Format.attrsXml { bold := true, subscript := true, superscript := true, fontSize := some 12 }).map fmt
    = some c!" b=\"1\" baseline=\"-25000\" sz=\"1200\"" := by decide +kernel

/-- The highlight of a format is read back. -/
theorem C129_highlight_partial (f : Format) (h : ∀ c ∈ f.highlight, Plain c) :
    ReadsAs (fmt f.highlightXml)
      (f.highlight.toList.flatMap fun c => [E c!"a:highlight" [] [E c!"a:srgbClr" [(c!"val", c)] []]]) := by
  refine (readsNodes_whenSome (o := f.highlight) fun c hc => ?_).readsAs
  have hp := h c hc
  exact (Splits.lit (by parts_ok)).readsNodes (by krfl)

/-- The level of a paragraph is one of the nine levels, and kept if it is. -/
theorem C129_level (p : Paragraph) (n : Nat) :
    (p.withLevel n).level ≤ 8 ∧ (n ≤ 8 → (p.withLevel n).level = n) := by
  unfold Paragraph.withLevel
  exact ⟨Nat.min_le_right _ _, fun h => Nat.min_eq_left h⟩

/-- Text in one of the languages runs from right to left, and has the tag of the language and a
font; tags of different languages are different. -/
theorem C129_rtl :
    (∀ (r : Rtl) (l : Language), ReadsAttrs (r.set (.preset l)).paragraphAttr [(c!"rtl", c!"1")]
      ∧ ReadsAttrs (r.set (.preset l)).runAttr [(c!"lang", l.tag)]
      ∧ ReadsAs (fmt (r.set (.preset l)).fontXml) [E c!"a:cs" [(c!"typeface", l.font)] []])
    ∧ ∀ l m : Language, l.tag = m.tag → l = m := by
  refine ⟨fun r l => ⟨?_, ?_, ?_⟩, ?_⟩
  · show ReadsAttrs t!" rtl=\"1\"" _
    exact (Splits.lit (by parts_ok)).readsAttrs (fun top st n as => by krfl)
  · have hp : Plain l.tag := by cases l <;> refine ⟨?_, ?_, ?_⟩ <;> decide
    show ReadsAttrs t!" lang=\"{.raw l.tag}\"" _
    generalize l.tag = t at hp ⊢
    exact (Splits.lit (by parts_ok)).readsAttrs (fun top st n as => by krfl)
  · show ReadsAs (fmt t!"<a:cs typeface=\"{.esc l.font}\"/>") _
    exact ((Splits.lit (by parts_ok)).readsNodes (by krfl)).readsAs
  · intro l m
    cases l <;> cases m <;> decide

/-- **C129 does not hold in full.** Text frames (`Run::to_xml`, `Paragraph::to_xml`): strikethrough,
subscript, superscript and highlight of a run are not written, although `TextFormat` has setters for
them; the line spacing of a paragraph is not written; so frames that differ only in these give the
same text. -/
theorem C129_lost_violated :
    (∀ (r : Run) (s sub sup : Bool) (hl : Option Str),
      Run.toText { r with format := { r.format with strikethrough := s, subscript := sub, superscript := sup, highlight := hl } }
        = r.toText)
    ∧ ∀ p : Paragraph, (p.before.isSome || p.after.isSome) = true → ∀ n, Paragraph.toText { p with line := n } = p.toText := by
  refine ⟨fun r s sub sup hl => rfl, fun p hp n => ?_⟩
  unfold Paragraph.toText Paragraph.props
  simp [hp]

/-- **C129 does not hold in full.** Text frames: the colour of a run, the highlight and the language
tag are written without escaping, so a quotation mark in any of them breaks the part; a size of more
than 42949672 points overflows (a panic in debug builds). -/
theorem C129_raw_violated :
    (TextFrame.toXml { paragraphs := [{ runs := [⟨c!"a", Format.set {} (.color c!"\"<")⟩] }] }).map
      (fun x => (Spec.parse (fmt x)).isNone) = some true
    ∧ (Spec.parse (fmt (Format.highlightXml (Format.set {} (.highlight c!"\""))))).isNone = true
    ∧ fmt (Rtl.runAttr (Rtl.set {} (.language c!"a\" b=\"c"))) = c!" lang=\"a\" b=\"c\""
    ∧ (TextFrame.toXml { paragraphs := [{ runs := [⟨c!"a", Format.set {} (.fontSize 42949673)⟩] }] }).isNone = true
    ∧ Paragraph.spacingBefore {} 42949673 = none := by
  refine ⟨?_, ?_, ?_, ?_, ?_⟩ <;> decide +kernel

end PptRs.Props
