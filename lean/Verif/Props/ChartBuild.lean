import Verif.Model.ChartBuild
import Verif.Props.Charts

/-!
# How charts are built (C170)
-/

namespace PptRs.Props

open PptRs PptRs.Spec PptRs.Draw PptRs.ChartBuild

/-- What was asked for last, or the value from before. -/
def Spec.lastAsked {α : Type} (f : Op → Option α) (before : α) (ops : List Op) : α := ((ops.filterMap f).getLast?).getD before

theorem lastAsked_nil {α : Type} (f : Op → Option α) (before : α) : Spec.lastAsked f before [] = before := rfl

theorem lastAsked_cons {α : Type} (f : Op → Option α) (before : α) (op : Op) (ops : List Op) :
    Spec.lastAsked f before (op :: ops) = Spec.lastAsked f ((f op).getD before) ops := by
  unfold Spec.lastAsked
  rw [List.filterMap_cons]
  cases f op with
  | none => rfl
  | some a =>
    simp only [Option.getD_some]
    rw [List.getLast?_cons]
    rfl

/-- The place of a call of `position`. -/
def Spec.placeOf : Op → Option (Nat × Nat)
  | .position x y => some (x, y)
  | _ => none

/-- The size of a call of `size`. -/
def Spec.extentOf : Op → Option (Nat × Nat)
  | .size w h => some (w, h)
  | _ => none

/-- The categories of a call of `categories`. -/
def Spec.labelsOf : Op → Option (List Str)
  | .categories l => some l
  | _ => none

/-- The series of a call of `add_series`. -/
def Spec.seriesOf : Op → Option ChartSeries
  | .addSeries s => some s
  | _ => none

theorem chartOps_from (ops : List Op) (b : Builder) :
    (ops.foldl Builder.apply b).build =
      (⟨b.title, b.type, Spec.lastAsked Spec.labelsOf b.categories ops, b.series ++ ops.filterMap Spec.seriesOf⟩,
       ⟨(Spec.lastAsked Spec.placeOf (b.placement.x, b.placement.y) ops).1, (Spec.lastAsked Spec.placeOf (b.placement.x, b.placement.y) ops).2,
        (Spec.lastAsked Spec.extentOf (b.placement.width, b.placement.height) ops).1,
        (Spec.lastAsked Spec.extentOf (b.placement.width, b.placement.height) ops).2⟩) := by
  induction ops generalizing b with
  | nil => simp [Builder.build, lastAsked_nil]
  | cons op ops ih =>
    rw [List.foldl_cons, ih]
    simp only [lastAsked_cons]
    cases op <;> simp [Builder.apply, setPosition, setSize, Spec.placeOf, Spec.extentOf, Spec.labelsOf, Spec.seriesOf, List.filterMap_cons]

/-- **C170.** Whatever methods of the builder are called in whatever order: the chart has the title and the type given, the categories,
the place and the size asked for last, and all series in their order; by default it is at the corner of the slide. -/
theorem C170_built (title : Str) (type : ChartType) (ops : List Op) :
    ((ops.foldl Builder.apply (.new title type)).build).1 =
      ⟨title, type, Spec.lastAsked Spec.labelsOf [] ops, ops.filterMap Spec.seriesOf⟩ ∧
    (((ops.foldl Builder.apply (.new title type)).build).2.x, ((ops.foldl Builder.apply (.new title type)).build).2.y) =
      Spec.lastAsked Spec.placeOf (0, 0) ops ∧
    (((ops.foldl Builder.apply (.new title type)).build).2.width, ((ops.foldl Builder.apply (.new title type)).build).2.height) =
      Spec.lastAsked Spec.extentOf (5000000, 3750000) ops := by
  rw [chartOps_from]
  exact ⟨rfl, rfl, rfl⟩

/-- **C170.** The quick functions make charts of the four types they are named after. -/
theorem C170_quick (title : Str) : (quickCharts title).map (fun b => (b.title, b.type, b.placement)) =
    [(title, .bar, ⟨0, 0, 5000000, 3750000⟩), (title, .line, ⟨0, 0, 5000000, 3750000⟩), (title, .pie, ⟨0, 0, 5000000, 3750000⟩),
     (title, .area, ⟨0, 0, 5000000, 3750000⟩)] := rfl

/-- **C170.** No two types of charts have the same name. -/
theorem C170_names (a b : ChartType) (h : typeName a = typeName b) : a = b := by
  cases a <;> cases b <;> first | rfl | exact absurd h (by decide)

/-- The elements drawn in the plot area of a chart, besides its layout. -/
def Spec.drawnElements (doc : List Node) : List Str :=
  (elemsL c!"c:plotArea" doc).flatMap fun p => ((kidsOf p).map nameOf).filter fun n => n ≠ [] ∧ n ≠ c!"c:layout"

theorem drawn_body (title : Str) (ks : List Node) (h : elemsL c!"c:plotArea" ks = []) :
    Spec.drawnElements (chartBodyNodes title ks) = (ks.map nameOf).filter fun n => n ≠ [] ∧ n ≠ c!"c:layout" := by
  simp [Spec.drawnElements, chartBodyNodes, elemsL, elems, E, nl, elemsL_append, elemsL_addText, kidsOf_elem, nameOf_elem, nameOf_text, h]

theorem noPlot_series (i : Nat) (l : List ChartSeries) : elemsL c!"c:plotArea" (seriesFromNodes i l) = [] := by
  refine elemsL_flatMap_nil _ _ (fun p : ChartSeries × Nat => ?_) _
  simp [seriesDataNodes, elemsL, elems, E, nl, elemsL_append, elemsL_addText, none_chartPoints0]

theorem noPlot_axis (cats : List Str) (p : Str) : elemsL c!"c:plotArea" (categoryAxisNodes cats p) = [] := by
  simp [categoryAxisNodes, elemsL, elems, E, nl, elemsL_append, elemsL_addText, none_chartCategories]

theorem noPlot_value (p : Str) : elemsL c!"c:plotArea" (valueAxisNodes p) = [] := by
  simp [valueAxisNodes, elemsL, elems, E, nl, elemsL_append, elemsL_addText]

theorem noPlot_pie (cats : List Str) (o : Option ChartSeries) : elemsL c!"c:plotArea" (o.toList.flatMap (pieSeriesNodes cats)) = [] := by
  refine elemsL_flatMap_nil _ _ (fun p : ChartSeries => ?_) _
  simp [pieSeriesNodes, elemsL, elems, E, nl, elemsL_append, elemsL_addText, none_chartPoints, none_chartCategories]

theorem noPlot_doughnut (cats : List Str) (o : Option ChartSeries) : elemsL c!"c:plotArea" (o.toList.flatMap (doughnutSeriesNodes cats)) = [] := by
  refine elemsL_flatMap_nil _ _ (fun p : ChartSeries => ?_) _
  simp [doughnutSeriesNodes, elemsL, elems, E, nl, elemsL_append, elemsL_addText, none_chartPoints, none_chartCategories]

theorem noPlot_scatter (l : List (ChartSeries × Nat)) : elemsL c!"c:plotArea" (l.flatMap fun p => scatterSeriesNodes p.2 p.1) = [] := by
  refine elemsL_flatMap_nil _ _ (fun p : ChartSeries × Nat => ?_) _
  simp [scatterSeriesNodes, elemsL, elems, E, nl, elemsL_append, elemsL_addText, none_chartPoints, none_chartPositions]

theorem noPlot_bubble (l : List (ChartSeries × Nat)) : elemsL c!"c:plotArea" (l.flatMap fun p => bubbleSeriesNodes p.2 p.1) = [] := by
  refine elemsL_flatMap_nil _ _ (fun p : ChartSeries × Nat => ?_) _
  simp [bubbleSeriesNodes, elemsL, elems, E, nl, elemsL_append, elemsL_addText, none_chartPoints, none_chartPositions]

/-- No chart is drawn within another. -/
theorem no_plotArea (c : Chart) : elemsL c!"c:plotArea" (plotAreaNodes c) = [] := by
  obtain ⟨title, type, categories, series⟩ := c
  cases type
  case combo =>
    simp only [plotAreaNodes]
    by_cases h1 : 1 < series.length <;>
      simp [h1, comboBarsNodes, comboLinesNodes, elemsL, elems, E, nl, elemsL_append, noPlot_series, noPlot_axis, noPlot_value]
  all_goals
    simp [plotAreaNodes, barGroupNodes, lineGroupNodes, pieGroupNodes, doughnutGroupNodes, areaGroupNodes, scatterGroupNodes, bubbleGroupNodes,
      radarGroupNodes, stockGroupNodes, elemsL, elems, E, nl, elemsL_append, noPlot_series, noPlot_axis, noPlot_value, noPlot_pie,
      noPlot_doughnut, noPlot_scatter, noPlot_bubble]

/-- **C170.** The plot area of a chart part has one element, the one its type names; a combination of two or more series has the
lines beside it. -/
theorem C170_element (c : Chart) (h : c.NumbersOk) :
    ∃ doc, document (generateChartPartXml c) = some doc ∧
      Spec.drawnElements doc = xmlElement c.type :: (if c.type = .combo ∧ 1 < c.series.length then [c!"c:lineChart"] else []) := by
  refine ⟨_, document_chart h, ?_⟩
  rw [drawn_body _ _ (no_plotArea c)]
  obtain ⟨title, type, categories, series⟩ := c
  cases type
  case combo =>
    simp only [plotAreaNodes]
    by_cases h1 : 1 < series.length <;> simp [h1, comboBarsNodes, comboLinesNodes, nameOf_elem, E, xmlElement]
  all_goals
    simp [plotAreaNodes, barGroupNodes, lineGroupNodes, pieGroupNodes, doughnutGroupNodes, areaGroupNodes, scatterGroupNodes, bubbleGroupNodes,
      radarGroupNodes, stockGroupNodes, nameOf_elem, E, xmlElement]

/-- **C170 does not hold in full.** What the type of a chart says about itself is not what is written: `bar_direction` is `col` for
upright bars, and `grouping` is `stacked` and `percentStacked` for stacked ones, but every bar chart is written with lying bars, side by
side; `grouping` of line charts is `standard` or `stacked`, but they are written with `lineMarkers`. -/
theorem C170_described_violated (c : Chart) (h : c.NumbersOk) :
    (c.type = .barStacked → barDirection c.type = some c!"col" ∧ c.type.grouping = some c!"stacked" ∧
      ∃ doc, document (generateChartPartXml c) = some doc ∧ groupProperty c!"c:barChart" c!"c:barDir" doc = [some c!"bar"] ∧
        groupProperty c!"c:barChart" c!"c:grouping" doc = [some c!"clustered"]) ∧
    (c.type = .lineStacked → c.type.grouping = some c!"stacked" ∧
      ∃ doc, document (generateChartPartXml c) = some doc ∧ groupProperty c!"c:lineChart" c!"c:grouping" doc = [some c!"lineMarkers"]) := by
  constructor
  · intro e
    exact ⟨by rw [e]; rfl, by rw [e]; rfl, C83_bars_violated c h (.inr (.inr (.inl e)))⟩
  · intro e
    exact ⟨by rw [e]; rfl, C83_lines_violated c h (.inr (.inr e))⟩

/-- **C170 does not hold in full.** `has_markers` says which charts show their points, but nothing reads it: line charts with and without
markers are the same part, and so are side-by-side and stacked bars, and the stock charts of three and of four values. -/
theorem C170_same_violated (title : Str) (categories : List Str) (series : List ChartSeries) :
    hasMarkers .line ≠ hasMarkers .lineMarkers ∧
    generateChartPartXml ⟨title, .line, categories, series⟩ = generateChartPartXml ⟨title, .lineMarkers, categories, series⟩ ∧
    generateChartPartXml ⟨title, .bar, categories, series⟩ = generateChartPartXml ⟨title, .barStacked100, categories, series⟩ ∧
    generateChartPartXml ⟨title, .stockHLC, categories, series⟩ = generateChartPartXml ⟨title, .stockOHLC, categories, series⟩ :=
  ⟨by decide, rfl, rfl, rfl⟩

/-- **C170.** Names of types tell what the types say about themselves: smooth lines, bars that lie, stacked values, stacked per cents, and
markers of line charts. -/
theorem C170_told (t : ChartType) :
    (isSmooth t = true ↔ containsStr c!"Smooth" (typeName t) = true) ∧
    (t.scatterStyle = some c!"smoothMarker" ↔ isSmooth t = true) ∧
    (barDirection t = some c!"bar" ↔ containsStr c!"Horizontal" (typeName t) = true) ∧
    (t.grouping = some c!"stacked" ↔ endsWith c!"Stacked" (typeName t) = true) ∧
    (t.grouping = some c!"percentStacked" ↔ endsWith c!"Stacked100" (typeName t) = true) ∧
    (xmlElement t = c!"c:lineChart" → (hasMarkers t = true ↔ containsStr c!"Markers" (typeName t) = true)) := by
  cases t <;> decide +kernel

/-- **C170 does not hold in full.** `has_markers` is false for the smooth scatter chart and for the radar chart, whose styles, `smoothMarker`
and `marker`, show markers. -/
theorem C170_markers_violated :
    (ChartType.scatterSmooth.scatterStyle = some c!"smoothMarker" ∧ hasMarkers .scatterSmooth = false) ∧
    ChartType.radar.radarStyle = some c!"marker" ∧ hasMarkers .radar = false := by
  decide +kernel

/-- **C170.** Radar charts carry the style of their type. -/
theorem C170_styles (c : Chart) (h : c.NumbersOk) :
    ∀ s, c.type.radarStyle = some s → ∃ doc, document (generateChartPartXml c) = some doc ∧
      groupProperty c!"c:radarChart" c!"c:radarStyle" doc = [some s] := by
  intro s hs
  have hk : c.type = .radar ∨ c.type = .radarFilled := by
    cases ht : c.type <;> rw [ht] at hs <;> simp [ChartType.radarStyle] at hs ⊢
  obtain ⟨doc, h1, h2⟩ := C83_radar c h hk
  refine ⟨doc, h1, ?_⟩
  rw [h2]
  rcases hk with k | k <;> rw [k] at hs ⊢ <;> cases hs <;> rfl

example : (((Builder.new c!"T" .pie).apply (.addSeries ⟨c!"a", [c!"1"]⟩)).apply (.position 5 6)).build =
    (⟨c!"T", .pie, [], [⟨c!"a", [c!"1"]⟩]⟩, ⟨5, 6, 5000000, 3750000⟩) := rfl

example : Spec.lastAsked Spec.placeOf (0, 0) [.position 1 2, .size 3 4, .position 5 6] = (5, 6) := rfl

end PptRs.Props
