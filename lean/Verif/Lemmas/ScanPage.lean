import Verif.Lemmas.ScanDraw
import Verif.Model.DebugCheck

/-!
# What the validator finds in a slide with drawings
-/

namespace PptRs

open PptRs.Validate PptRs.Spec PptRs.Draw PptRs.Full PptRs.Settings

variable {R : List Str}

theorem Seen.nl : Seen R t!"\n" [] := .parts (by parts_ok) (by krfl)

theorem seen_writeFrom {α : Type} {f : Nat → α → List Part} {g : Nat → Nat} : ∀ {l : List α} {i : Nat},
    (∀ j a, l[j]? = some a → Seen R (f (i + j) a) [dec (g (i + j))]) →
    Seen R (writeFrom f i l) ((List.range' i l.length).map fun j => dec (g j)) := by
  intro l
  induction l with
  | nil => intro i _; exact .nil
  | cons a l ih =>
    intro i h
    have h0 := h 0 a rfl
    have hr : Seen R (writeFrom f (i + 1) l) ((List.range' (i + 1) l.length).map fun j => dec (g j)) := by
      refine ih fun j b hj => ?_
      have := h (j + 1) b hj
      rwa [show i + 1 + j = i + (j + 1) by omega]
    have := (Seen.nl.append h0).append hr
    simpa [writeFrom, List.range'_succ] using this

theorem seen_shapeList {fontSize : Str → Nat → Nat → Nat} : ∀ {l : List Shape} {i : Nat} {ps : List Part},
    (∀ s ∈ l, s.Safe) → (∀ s ∈ l, ∀ k ∈ s.link, ∀ r ∈ k.rId, '>' ∉ r) → (∀ s ∈ l, ∀ r ∈ linkRefsOf s.link, r ∈ R) →
    shapesXml fontSize i l = some ps →
    Seen R ps ((shapeIdsFrom i (l.map fun s => (⟨s.id, s.link.map fun l => ⟨l.action, l.rId⟩⟩ : ShapeIn))).map dec) := by
  intro l
  induction l with
  | nil => intro i ps _ _ _ e; cases e; exact .nil
  | cons s l ih =>
    intro i ps h1 h2 h3 e
    rw [shapesXml] at e
    obtain ⟨x, hx, e⟩ := Option.bind_eq_some_iff.mp e
    obtain ⟨r, hr, rfl⟩ := Option.map_eq_some_iff.mp e
    have a := seen_shape (R := R) (h1 s (by simp)) (h2 s (by simp)) (h3 s (by simp)) hx
    have b := ih (i := i + 1) (fun t ht => h1 t (by simp [ht])) (fun t ht => h2 t (by simp [ht])) (fun t ht => h3 t (by simp [ht])) hr
    have := (Seen.nl.append a).append b
    simpa [shapeIdsFrom] using this

theorem seen_inkRef {rid : Str} (h : rid ∈ R) (hp : Plain rid) : Seen R (inkRefXml rid) [] := by
  unfold inkRefXml
  exact ⟨scan_parts (by parts_ok) (by krfl), quotes_lastRef 0 rfl (by parts_ok) (by krfl) (by krfl) (by krfl) h hp.2.2 (by krfl) (by krfl)⟩

theorem plain_ridOf (n : Nat) : Plain (c!"rId" ++ dec n) := by
  obtain ⟨a, b, c⟩ := plain_dec n
  exact ⟨by simp [a], by simp [b], by simp [c]⟩

/-- What is written on a slide without escaping has no markup; ids of links have no `>`; without a highlighter, code has no `rId`. -/
structure SheetOk (highlight : Option (Str → Str → List (List Segment))) (p : Sheet) : Prop where
  text : p.text.Safe
  shapes : ∀ s ∈ p.shapes, s.Safe
  links : ∀ s ∈ p.shapes, ∀ k ∈ s.link, ∀ r ∈ k.rId, '>' ∉ r
  connectors : ∀ c ∈ p.connectors, Plain c.line.color
  colors : ∀ f ∈ highlight, ∀ c l, ∀ line ∈ f c l, ∀ s ∈ line, Plain s.color
  code : highlight = none → ∀ b ∈ p.codeBlocks, ∀ u v, b.code ≠ u ++ c!"rId" ++ v

/-- The references of the slide. -/
def Full.Sheet.refs (p : Sheet) : SlideXml :=
  slideXml p.slideIn (chartRids p.startRid p.charts.length) (if p.ink then some p.inkRid else none)

/-- All references of a slide. -/
def allRefs (x : SlideXml) : List Str := x.imageRefs ++ x.chartRefs ++ x.inkRef.toList ++ x.linkRefs

theorem linkRef_mem {p : Sheet} {s : Shape} (hs : s ∈ p.shapes) {r : Str} (hr : r ∈ linkRefsOf s.link) : r ∈ allRefs p.refs := by
  have : r ∈ p.refs.linkRefs := by
    simp only [Sheet.refs, slideXml, List.mem_filterMap]
    simp only [linkRefsOf, Option.mem_toList, Option.bind_eq_some_iff] at hr
    obtain ⟨l, hl, hr⟩ := hr
    refine ⟨⟨l.action, l.rId⟩, ⟨⟨s.id, s.link.map fun l => ⟨l.action, l.rId⟩⟩, List.mem_map.mpr ⟨s, hs, rfl⟩, ?_⟩, hr⟩
    simp [hl]
  simp only [allRefs, List.mem_append]
  exact .inr this

theorem range'_dec (a n : Nat) : (List.range' 0 n).map (fun j => dec (a + j)) = (consecutive a n).map dec := by
  unfold consecutive
  rw [List.map_map, ← List.range_eq_range']
  rfl

/-- What is found in the drawings of a slide. -/
theorem seen_sheet {fontSize : Str → Nat → Nat → Nat} {highlight : Option (Str → Str → List (List Segment))} {p : Sheet}
    (h : SheetOk highlight p) {x : List Part} (e : p.drawing.xml fontSize highlight (chartRids p.startRid p.charts.length) = some x) :
    Seen (allRefs p.refs) (x ++ whenSet p.ink (inkRefXml p.inkRid))
      ((shapeIdsFrom 0 p.slideIn.shapes ++ consecutive (20 + p.shapes.length) p.images.length ++
        consecutive (30 + p.shapes.length + p.images.length) p.codeBlocks.length ++
        consecutive (50 + p.shapes.length + p.images.length + p.codeBlocks.length) p.connectors.length ++
        consecutive (100 + p.shapes.length + p.images.length + p.codeBlocks.length + p.connectors.length) p.charts.length).map dec) := by
  unfold Drawing.xml at e
  obtain ⟨sh, hsh, rfl⟩ := Option.map_eq_some_iff.mp e
  have s1 := seen_shapeList (R := allRefs p.refs) h.shapes h.links (fun s hs r hr => linkRef_mem hs hr) hsh
  have s2 : Seen (allRefs p.refs) (writeFrom (fun i q => pictureXml q (20 + p.shapes.length + i) (2 + (if p.notes.isSome then 1 else 0) + i)) 0
      (p.images.map (·.1))) ((consecutive (20 + p.shapes.length) p.images.length).map dec) := by
    rw [← range'_dec]
    have := seen_writeFrom (R := allRefs p.refs) (f := fun i q => pictureXml q (20 + p.shapes.length + i) (2 + (if p.notes.isSome then 1 else 0) + i))
      (g := fun j => 20 + p.shapes.length + j) (l := p.images.map (·.1)) (i := 0) ?_
    · simpa using this
    · intro j a hj
      refine seen_picture a ?_
      have hlt : j < p.images.length := by
        have := (List.getElem?_eq_some_iff.mp hj).1
        simpa using this
      have : c!"rId" ++ dec (2 + (if p.notes.isSome then 1 else 0) + (0 + j)) ∈ p.refs.imageRefs := by
        simp only [Sheet.refs, slideXml, Sheet.slideIn, List.mem_map, consecutive, List.mem_range, List.length_map]
        refine ⟨2 + p.notes.isSome.toNat + j, ⟨j, hlt, rfl⟩, ?_⟩
        cases p.notes <;> simp
      simp only [allRefs, List.mem_append]
      exact .inl (.inl (.inl this))
  have s3 : Seen (allRefs p.refs) (writeFrom (fun i b => codeBlockXml highlight (30 + p.shapes.length + p.images.length + i) b) 0 p.codeBlocks)
      ((consecutive (30 + p.shapes.length + p.images.length) p.codeBlocks.length).map dec) := by
    rw [← range'_dec]
    refine seen_writeFrom (g := fun j => 30 + p.shapes.length + p.images.length + j) fun j a hj => ?_
    exact seen_codeBlock h.colors _ fun hn => h.code hn a (List.mem_of_getElem? hj)
  have s4 : Seen (allRefs p.refs) (writeFrom (fun i c => connectorXml c (50 + p.shapes.length + p.images.length + p.codeBlocks.length + i)) 0 p.connectors)
      ((consecutive (50 + p.shapes.length + p.images.length + p.codeBlocks.length) p.connectors.length).map dec) := by
    rw [← range'_dec]
    refine seen_writeFrom (g := fun j => 50 + p.shapes.length + p.images.length + p.codeBlocks.length + j) fun j a hj => ?_
    exact seen_connector (h.connectors a (List.mem_of_getElem? hj)) _
  have hlen : (chartRids p.startRid p.charts.length).length = p.charts.length := by simp [chartRids, consecutive]
  have s5 : Seen (allRefs p.refs) (writeFrom (fun i (c : ChartBox × Str) => chartRefXml c.1 c.2 (100 + p.shapes.length + p.images.length + p.codeBlocks.length + p.connectors.length + i)) 0
      (p.charts.zip (chartRids p.startRid p.charts.length)))
      ((consecutive (100 + p.shapes.length + p.images.length + p.codeBlocks.length + p.connectors.length) p.charts.length).map dec) := by
    rw [← range'_dec]
    have := seen_writeFrom (R := allRefs p.refs) (f := fun i (c : ChartBox × Str) => chartRefXml c.1 c.2 (100 + p.shapes.length + p.images.length + p.codeBlocks.length + p.connectors.length + i))
      (g := fun j => 100 + p.shapes.length + p.images.length + p.codeBlocks.length + p.connectors.length + j)
      (l := p.charts.zip (chartRids p.startRid p.charts.length)) (i := 0) ?_
    · rwa [List.length_zip, hlen, Nat.min_self] at this
    · intro j a hj
      have hm : a.2 ∈ chartRids p.startRid p.charts.length := (List.of_mem_zip (List.mem_of_getElem? hj)).2
      refine seen_chart a.1 ?_ ?_ _
      · have : a.2 ∈ p.refs.chartRefs := by
          simp only [Sheet.refs, slideXml, Sheet.slideIn]
          rwa [List.take_of_length_le (by omega)]
        simp only [allRefs, List.mem_append]
        exact .inl (.inl (.inr this))
      · obtain ⟨n, _, e⟩ := List.mem_map.mp hm
        rw [← e]
        exact plain_ridOf n
  have s6 : Seen (allRefs p.refs) (whenSet p.ink (inkRefXml p.inkRid)) [] := by
    cases hi : p.ink with
    | false => exact .nil
    | true =>
      refine seen_inkRef ?_ (plain_ridOf _)
      have : p.inkRid ∈ p.refs.inkRef := by simp [Sheet.refs, slideXml, Sheet.slideIn, hi]
      simp only [allRefs, List.mem_append]
      exact .inl (.inr (by simpa using this))
  have := ((((s1.append s2).append s3).append s4).append s5).append s6
  simp only [List.append_nil] at this
  simp only [Sheet.drawing, List.length_map, List.map_append]
  exact this

theorem boxIds_dec {s : SlideText} {q : SlideIn} (h1 : q.layout = s.layout) (h2 : q.bullets = s.effective.length) (h3 : q.hasTable = s.table.isSome) :
    [c!"1"] ++ s.boxIds = (placeholderIds q).map dec := by
  have d1 : dec 1 = c!"1" := rfl
  have d2 : dec 2 = c!"2" := rfl
  have d3 : dec 3 = c!"3" := rfl
  have d4 : dec 4 = c!"4" := rfl
  have hz : (s.effective ≠ []) = (0 < s.effective.length) := by simp [List.length_pos_iff]
  unfold SlideText.boxIds placeholderIds
  rw [h1, h2, h3]
  simp only [hz, gt_iff_lt]
  generalize s.effective.length = n
  by_cases hn : 0 < n <;> by_cases hm : (n + 1) / 2 < n <;> cases s.layout <;> cases s.table.isSome <;> simp [hn, hm, d1, d2, d3, d4]

/-- The text of a slide has the ids and references of the model. -/
theorem sheet_text {fontSize : Str → Nat → Nat → Nat} {highlight : Option (Str → Str → List (List Segment))} {p : Sheet}
    (h : SheetOk highlight p) {t : Str} (e : p.xml fontSize highlight = some t) :
    (∀ id ∈ extractRelReferenceIds t, id ∈ allRefs p.refs) ∧ extractAttrValues t c!"p:cNvPr" c!"id" = p.refs.drawingIds.map dec := by
  unfold Sheet.xml at e
  obtain ⟨x, hx, rfl⟩ := Option.map_eq_some_iff.mp e
  have hs : SlideText.Safe { p.text with extra := x ++ whenSet p.ink (inkRefXml p.inkRid) } :=
    ⟨h.text.1, h.text.2, h.text.3, h.text.4, h.text.5⟩
  obtain ⟨h1, h2⟩ := seen_slide hs (seen_sheet h hx)
  refine ⟨refs_of_quotes h2, (extractAttrValues_of_scan h1).trans ?_⟩
  have hb : [c!"1"] ++ SlideText.boxIds { p.text with extra := x ++ whenSet p.ink (inkRefXml p.inkRid) } = (placeholderIds p.slideIn).map dec := boxIds_dec rfl rfl rfl
  have hlen : (chartRids p.startRid p.charts.length).length = p.charts.length := by simp [chartRids, consecutive]
  rw [hb, ← List.map_append]
  simp only [Sheet.refs, slideXml, drawingIds, hlen]
  simp [Sheet.slideIn]

end PptRs
