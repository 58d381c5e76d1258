import Verif.Lemmas.ScanText

/-!
# What the validator finds in the text of a slide
-/

namespace PptRs

open PptRs.Validate PptRs.Spec

variable {R : List Str}

theorem seen_props {p : TextProps} (h : p.Safe) : Seen R p.toXml [] := by
  unfold TextProps.toXml
  refine ((((((((((Seen.parts (by parts_ok) (by krfl)).quiet (.whenSet (.parts (by parts_ok) (by krfl)))).quiet
    (.whenSet (.parts (by parts_ok) (by krfl)))).quiet (.whenSet (.parts (by parts_ok) (by krfl)))).quiet
    (.whenSet (.parts (by parts_ok) (by krfl)))).quiet (.parts (by parts_ok) (by krfl))).quiet (.whenSome ?_)).quiet
    (.whenSome ?_)).quiet (.whenSome ?_)).quiet (.parts (by parts_ok) (by krfl)))
  · intro c hc
    have := plain_cleanColor (h.color c hc)
    exact .parts (by parts_ok) (by krfl)
  · intro c hc
    have := plain_cleanColor (h.highlight c hc)
    exact .parts (by parts_ok) (by krfl)
  · intro c hc
    have := h.font c hc
    exact .parts (by parts_ok) (by krfl)

theorem seen_bulletStyle {b : BulletStyle} (h : b.Safe) : Seen R b.toXml [] := by
  cases b with
  | custom c =>
    have := h c rfl
    exact .parts (by unfold BulletStyle.toXml; parts_ok) (by krfl)
  | _ => exact .parts (by unfold BulletStyle.toXml; parts_ok) (by krfl)

theorem seen_paragraph {d : TextProps} (hd : d.Safe) {b : BulletPoint} (hb : b.Safe) : Seen R (bulletParagraph d b) [] := by
  unfold bulletParagraph
  exact ((((Seen.parts (by parts_ok) (by krfl)).quiet (seen_bulletStyle hb.style)).quiet (.parts (by parts_ok) (by krfl))).quiet
    (seen_props (bulletProps_safe hd hb.format))).quiet (.parts (by parts_ok) (by krfl))

theorem seen_paragraphs {d : TextProps} (hd : d.Safe) {l : List BulletPoint} (hl : ∀ b ∈ l, b.Safe) : Seen R (paragraphs d l) [] :=
  .quietAll fun b hb => seen_paragraph hd (hl b hb)

theorem seen_title (title : Str) {props : List Part} (h : Seen R props []) (x y w k : Nat) {align : Str} (ha : Plain align) :
    Seen R (titleShape title props x y w k align) [c!"2"] := by
  unfold titleShape
  exact ((Seen.parts (ids := [c!"2"]) (by parts_ok) (by krfl)).append h).append (.parts (ids := []) (by parts_ok) (by krfl))

theorem Seen.of_str {ps : List Part} {s : Str} {ids : List Str} (e : fmt ps = s) (h1 : Scan s ids) (h2 : QuotesOk R s) : Seen R ps ids :=
  ⟨e ▸ h1, e ▸ h2⟩

theorem not_mem_gt_dec (n : Nat) : '>' ∉ dec n := not_mem_dec (by decide)

theorem not_mem_quote_dec (n : Nat) : '"' ∉ dec n := not_mem_dec (by decide)

/-- An element with an id and a name without `>`. -/
theorem seen_drawing {ps : List Part} {id : Nat} {x : Str}
    (e : fmt ps = c!"<p:cNvPr id=\"" ++ dec id ++ '"' :: x ++ c!"/>") (h1 : '>' ∉ x) (h2 : QuotesOk R ('"' :: x ++ c!"/>")) :
    Seen R ps [dec id] :=
  .of_str e (.drawing (not_mem_quote_dec id) (not_mem_gt_dec id) h1) (quotes_drawing (not_mem_quote_dec id) h2)

/-- A name. -/
theorem quotes_name {name : Str} (h : '"' ∉ name) : QuotesOk R ('"' :: (c!" name=\"" ++ name ++ c!"\"") ++ c!"/>") := by
  have := ((quotesOk_of_check (R := R) (s := c!"\" name=\"") (by decide)).append (.of_notMem h)).append
    (quotesOk_of_check (s := c!"\"/>") (by decide))
  simpa using this

theorem seen_box (id : Nat) {name : Str} (hn : Plain name) (hg : '>' ∉ name) (x y cx cy : Nat) {ps : List Part} (h : Seen R ps []) :
    Seen R (contentBox id name x y cx cy ps) [dec id] := by
  have hm : Seen R t!"<p:cNvPr id=\"{.num id}\" name=\"{.raw name}\"/>" [dec id] := by
    refine seen_drawing (x := c!" name=\"" ++ name ++ c!"\"") (by simp [fmt, Part.render, Part.num]) (by simp [hg]) ?_
    exact quotes_name hn.2.2
  have e : fmt (contentBox id name x y cx cy ps) = fmt (t!"
<p:sp>
<p:nvSpPr>
" ++ t!"<p:cNvPr id=\"{.num id}\" name=\"{.raw name}\"/>" ++ t!"
<p:cNvSpPr txBox=\"1\"/>
<p:nvPr/>
</p:nvSpPr>
<p:spPr>
<a:xfrm>
<a:off x=\"{.num x}\" y=\"{.num y}\"/>
<a:ext cx=\"{.num cx}\" cy=\"{.num cy}\"/>
</a:xfrm>
<a:prstGeom prst=\"rect\"><a:avLst/></a:prstGeom>
<a:noFill/>
</p:spPr>
<p:txBody>
<a:bodyPr wrap=\"square\" rtlCol=\"0\"/>
<a:lstStyle/>" ++ ps ++ t!"
</p:txBody>
</p:sp>") := by
    unfold contentBox
    simp [fmt, Part.render]
  have := ((((Seen.parts (R := R) (ids := []) (ps := t!"
<p:sp>
<p:nvSpPr>
") (by parts_ok) (by krfl)).append hm).append (.parts (ids := []) (ps := t!"
<p:cNvSpPr txBox=\"1\"/>
<p:nvPr/>
</p:nvSpPr>
<p:spPr>
<a:xfrm>
<a:off x=\"{.num x}\" y=\"{.num y}\"/>
<a:ext cx=\"{.num cx}\" cy=\"{.num cy}\"/>
</a:xfrm>
<a:prstGeom prst=\"rect\"><a:avLst/></a:prstGeom>
<a:noFill/>
</p:spPr>
<p:txBody>
<a:bodyPr wrap=\"square\" rtlCol=\"0\"/>
<a:lstStyle/>") (by parts_ok) (by krfl))).append h).append (.parts (ids := []) (ps := t!"
</p:txBody>
</p:sp>") (by parts_ok) (by krfl))
  exact ⟨e ▸ this.scan, e ▸ this.quotes⟩

/-! ### Tables -/

/-- An attribute whose value does not end with `=`. -/
theorem Seen.value {lit v : Str} (hq : quotesCheck [] lit = true) (hs : litScan (lit.length + 1) lit = some []) (h1 : '<' ∉ v)
    (h2 : '"' ∉ v) (h3 : '=' ∉ v) (h4 : v ≠ []) : Seen R [.lit lit, .raw v, .lit c!"\""] [] := by
  have e : fmt [.lit lit, .raw v, .lit c!"\""] = lit ++ (v ++ c!"\"") := by simp [fmt, Part.render]
  refine .of_str e ((scan_of_lit hs).append (.skip ?_)) ((quotesOk_of_check hq).append ?_)
  · exact noStart_append (noStart_of_notMem h1) (by decide)
  · intro a b eq
    have hb : b = [] ∧ a = v := by
      have := first_quote (a := v) (b := a) (x := []) (y := b) h2 ?_ eq
      · exact ⟨this.2.symm, this.1.symm⟩
      · intro ha
        have := congrArg (List.count '"') eq
        have h0 : v.count '"' = 0 := List.count_eq_zero.mpr h2
        have h9 : 0 < a.count '"' := List.count_pos_iff.mpr ha
        simp [h0] at this
        omega
    obtain ⟨rfl, rfl⟩ := hb
    refine .inr (.inl ?_)
    cases hr : a.reverse with
    | nil => exact absurd (List.reverse_eq_nil_iff.mp hr) h4
    | cons c r =>
      have hc : '=' ≠ c := by
        rintro rfl
        exact h3 (List.mem_reverse.mp (by rw [hr]; simp))
      simp [differ, hc]

theorem Seen.number {lit : Str} (hq : quotesCheck [] lit = true) (hs : litScan (lit.length + 1) lit = some []) (n : Nat) :
    Seen R [.lit lit, .num n, .lit c!"\""] [] :=
  .value hq hs (not_mem_dec (by decide)) (not_mem_dec (by decide)) (not_mem_dec (by decide)) (dec_ne_nil n)

theorem seen_color {c : Str} (h : Plain c) : Seen R (colorToXml c) [] := by
  have := plain_cleanColor h
  exact .parts (by unfold colorToXml; parts_ok) (by krfl)

theorem seen_merge (c : CellIn) : Seen R (mergeAttrs c) [] := by
  unfold mergeAttrs
  split
  · exact .parts (by parts_ok) (by krfl)
  · split
    · exact .parts (by parts_ok) (by krfl)
    · exact (Seen.whenSet (.number (by decide) (by krfl) _)).quiet (.whenSet (.number (by decide) (by krfl) _))

theorem seen_cellAttrs (c : CellIn) : Seen R (cellFormatAttrs c) [] := by
  unfold cellFormatAttrs
  exact (((Seen.whenSet (.parts (by parts_ok) (by krfl))).quiet (.whenSet (.parts (by parts_ok) (by krfl)))).quiet
    (.whenSet (.parts (by parts_ok) (by krfl)))).quiet (.whenSome fun _ _ => .number (by decide) (by krfl) _)

theorem seen_cellRun {c : CellIn} (h : c.Safe) : Seen R (cellRunProps c) [] := by
  unfold cellRunProps
  refine ((Seen.parts (by parts_ok) (by krfl)).quiet (seen_cellAttrs c)).quiet ?_
  split
  · exact .parts (by parts_ok) (by krfl)
  · refine ((Seen.parts (by parts_ok) (by krfl)).quiet ?_).quiet (.parts (by parts_ok) (by krfl))
    unfold cellRunKids
    exact (Seen.whenSome fun x hx => seen_color (h.color x hx)).quiet (.whenSome fun _ _ => .parts (by parts_ok) (by krfl))

theorem seen_cellParagraph {c : CellIn} (h : c.Safe) : Seen R (cellParagraph c) [] := by
  unfold cellParagraph
  split
  · exact .parts (by parts_ok) (by krfl)
  · refine ((((Seen.parts (by parts_ok) (by krfl)).quiet ?_).quiet (.parts (by parts_ok) (by krfl))).quiet (seen_cellRun h)).quiet
      (.parts (by parts_ok) (by krfl))
    unfold cellParagraphProps
    split
    · exact .nil
    · have : Plain c.align.asStr := by cases c.align <;> exact ⟨by decide, by decide, by decide⟩
      exact .parts (by parts_ok) (by krfl)

theorem seen_cellProps {c : CellIn} (h : c.Safe) : Seen R (cellProps c) [] := by
  have ha : Seen R (cellAnchor c) [] := by
    unfold cellAnchor
    split
    · exact .nil
    · cases c.valign <;> exact .value (by decide) (by krfl) (by decide) (by decide) (by decide) (by decide)
  unfold cellProps
  split
  · exact ((((Seen.parts (by parts_ok) (by krfl)).quiet ha).quiet (.parts (by parts_ok) (by krfl))).quiet
      (.whenSome fun x hx => seen_color (h.background x hx))).quiet (.parts (by parts_ok) (by krfl))
  · exact ((Seen.parts (by parts_ok) (by krfl)).quiet ha).quiet (.parts (by parts_ok) (by krfl))

theorem seen_cell {c : CellIn} (h : c.Safe) : Seen R (cellXml c) [] := by
  unfold cellXml
  split
  · exact ((Seen.parts (by parts_ok) (by krfl)).quiet (seen_merge c)).quiet (.parts (by parts_ok) (by krfl))
  · exact ((((((Seen.parts (by parts_ok) (by krfl)).quiet (seen_merge c)).quiet (.parts (by parts_ok) (by krfl))).quiet
      (seen_cellParagraph h)).quiet (.parts (by parts_ok) (by krfl))).quiet (seen_cellProps h)).quiet (.parts (by parts_ok) (by krfl))

theorem seen_row {r : RowIn} (h : ∀ c ∈ r.cells, c.Safe) (i : Nat) : Seen R (rowXml r i) [] := by
  unfold rowXml
  exact ((Seen.parts (by parts_ok) (by krfl)).quiet (.quietAll fun c hc => seen_cell (h c hc))).quiet (.parts (by parts_ok) (by krfl))

theorem seen_table {t : TableIn} (h : t.Safe) : Seen R (tableXml t) [c!"3"] := by
  unfold tableXml
  exact ((((Seen.parts (ids := [c!"3"]) (by parts_ok) (by krfl)).append
    (.quietAll fun w _ => .parts (by unfold columnXml; parts_ok) (by krfl))).append (.parts (ids := []) (by parts_ok) (by krfl))).append
    (.quietAll fun r hr => seen_row (h r.1 (List.fst_mem_of_mem_zipIdx hr)) r.2)).append (.parts (ids := []) (by parts_ok) (by krfl))

/-! ### Slides -/

theorem seen_oneColumn (y cy : Nat) {d : TextProps} (hd : d.Safe) {l : List BulletPoint} (hl : ∀ b ∈ l, b.Safe) :
    Seen R (oneColumn y cy d l) (if l ≠ [] then [c!"3"] else []) := by
  unfold oneColumn
  split
  · exact seen_box 3 (by unfold Plain; decide) (by decide) _ _ _ _ (seen_paragraphs hd hl)
  · exact .nil

theorem seen_twoColumns {d : TextProps} (hd : d.Safe) {l : List BulletPoint} (hl : ∀ b ∈ l, b.Safe) :
    Seen R (twoColumns d l) (if 0 < l.length then [c!"3"] ++ (if (l.length + 1) / 2 < l.length then [c!"4"] else []) else []) := by
  unfold twoColumns
  simp only
  split
  · refine (seen_box 3 (by unfold Plain; decide) (by decide) _ _ _ _ (seen_paragraphs hd fun b hb => hl b (List.mem_of_mem_take hb))).append ?_
    split
    · exact seen_box 4 (by unfold Plain; decide) (by decide) _ _ _ _ (seen_paragraphs hd fun b hb => hl b (List.mem_of_mem_drop hb))
    · exact .nil
  · exact .nil

/-- The ids of the placeholders of a slide, as they are written. -/
def SlideText.boxIds (s : SlideText) : List Str :=
  match s.layout with
  | .blank => []
  | .titleOnly | .sectionHeader | .centeredTitle => [c!"2"]
  | .titleAndBigContent => [c!"2"] ++ (if s.effective ≠ [] then [c!"3"] else [])
  | .twoColumn => [c!"2"] ++ (if 0 < s.effective.length then [c!"3"] ++
      (if (s.effective.length + 1) / 2 < s.effective.length then [c!"4"] else []) else [])
  | .titleAndContent => [c!"2"] ++ (if s.table.isSome then [c!"3"] else if s.effective ≠ [] then [c!"3"] else [])

theorem seen_shapes {s : SlideText} (h : s.Safe) : Seen R s.shapes s.boxIds := by
  have ht : ∀ n b, Seen R (s.titleProps n b).toXml [] := fun n b => seen_props (withBasic_safe h.titleColor)
  have hc : ∀ n, (s.contentProps n).Safe := fun n => withBasic_safe h.contentColor
  have hl := effective_safe h
  have hnl : Seen R t!"\n" [] := .parts (by parts_ok) (by krfl)
  have p1 : Plain c!"l" := by unfold Plain; decide
  have p2 : Plain c!"ctr" := by unfold Plain; decide
  unfold SlideText.shapes SlideText.boxIds
  cases s.layout <;> simp only
  · exact hnl.append (seen_title _ (ht _ _) _ _ _ _ p2)
  · refine (hnl.append (seen_title _ (ht _ _) _ _ _ _ p1)).append ?_
    cases hst : s.table with
    | none => exact seen_oneColumn _ _ (hc _) hl
    | some t =>
      have := seen_table (R := R) (h.table t hst)
      exact hnl.append (by simpa [whenSome] using this)
  · exact (hnl.append (seen_title _ (ht _ _) _ _ _ _ p1)).append (seen_twoColumns (hc _) hl)
  · exact hnl.append (seen_title _ (ht _ _) _ _ _ _ p2)
  · exact .nil
  · exact hnl.append (seen_title _ (ht _ _) _ _ _ _ p1)
  · exact (hnl.append (seen_title _ (ht _ _) _ _ _ _ p1)).append (seen_oneColumn _ _ (hc _) hl)

theorem seen_transition (t : Transition) : Seen R t.toXml [] := by
  cases t <;> exact .parts (by unfold Transition.toXml; parts_ok) (by krfl)

set_option maxRecDepth 8000 in
/-- What is found in the text of a slide. -/
theorem seen_slide {s : SlideText} (h : s.Safe) {ids : List Str} (hx : Seen R s.extra ids) :
    Scan s.xml ([c!"1"] ++ s.boxIds ++ ids) ∧ QuotesOk R s.xml := by
  have hd : Seen R [.lit xmlDecl] [] := .parts (by parts_ok) (by krfl)
  have hh : Seen R slideHeader [c!"1"] := .parts (by unfold slideHeader; parts_ok) (by krfl)
  have hf : Seen R slideFooter [] := .parts (by unfold slideFooter; parts_ok) (by krfl)
  have he : Seen R t!"</p:sld>" [] := .parts (by parts_ok) (by krfl)
  have := hd.append (((((hh.append (seen_shapes h)).append hx).append hf).append (seen_transition s.transition)).append he)
  have e : fmt ([.lit xmlDecl] ++ s.body) = s.xml := by rw [fmt_append]; exact congrArg (· ++ fmt s.body) (List.append_nil _)
  unfold SlideText.body at e
  refine ⟨?_, e ▸ this.quotes⟩
  have h1 := e ▸ this.scan
  simpa using h1

end PptRs
