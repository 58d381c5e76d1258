import Verif.Spec.Charts
import Verif.Lemmas.Charts
import Verif.Props.Parts

/-!
# C83: charts
-/

namespace PptRs.Props

open PptRs PptRs.Spec

set_option linter.unusedSimpArgs false

theorem attrOf_elem (k n : Str) (as : List (Str × Str)) (ks : List Node) :
    attrOf k (.elem n as ks) = as.lookup k := rfl

theorem nameOf_elem (n : Str) (as : List (Str × Str)) (ks : List Node) : nameOf (.elem n as ks) = n := rfl

theorem nameOf_text (t : Str) : nameOf (.text t) = [] := rfl

theorem runsL_addText (t : Str) : runsL (addText [] t) = [] := by
  cases t <;> simp [addText, runsL, runs]

/-- A point. -/
def ptNode (i : Nat) (v : Str) : Node :=
  E c!"c:pt" [(c!"idx", dec i)] [nl, E c!"c:v" [] (addText [] v), nl]

theorem read_ptNode (i : Nat) (v : Str) :
    (attrOf c!"idx" (ptNode i v), (textsOf c!"c:v" [ptNode i v]).flatten) = (some (dec i), v) := by
  simp [ptNode, attrOf, textsOf, E, nl, elemsL, elems, kidsOf_elem, textOf_addText]

theorem elemsL_flatMap_map {α : Type} (n : Str) (f : α → List Node) (g : α → List Node)
    (h : ∀ a, elemsL n (f a) = g a) (l : List α) : elemsL n (l.flatMap f) = l.flatMap g := by
  induction l with
  | nil => rfl
  | cons a l ih => simp [elemsL_append, h, ih]

theorem pts_chartPoint (i : Nat) (v : Str) : elemsL c!"c:pt" (chartPointNodes i v) = [ptNode i v] := by
  simp [chartPointNodes, elemsL, elems, ptNode, E, nl]

theorem pts_chartCategory (i : Nat) (v : Str) : elemsL c!"c:pt" (chartCategoryNodes i v) = [ptNode i v] := by
  simp [chartCategoryNodes, elemsL, elems, ptNode, E, nl]

theorem pts_chartPoints0 (vs : List Str) :
    elemsL c!"c:pt" (chartPoints0Nodes vs) = vs.map fun v => ptNode 0 v := by
  rw [chartPoints0Nodes, elemsL_flatMap_map _ _ (fun v => [ptNode 0 v]) (fun v => pts_chartPoint 0 v)]
  exact List.flatMap_pure_eq_map _ _

theorem pts_chartPoints (vs : List Str) :
    elemsL c!"c:pt" (chartPointsNodes vs) = vs.zipIdx.map fun p => ptNode p.2 p.1 := by
  rw [chartPointsNodes, elemsL_flatMap_map _ _ (fun p => [ptNode p.2 p.1]) (fun p => pts_chartPoint p.2 p.1)]
  exact List.flatMap_pure_eq_map _ _

theorem pts_chartCategories (vs : List Str) :
    elemsL c!"c:pt" (chartCategoriesNodes vs) = vs.zipIdx.map fun p => ptNode p.2 p.1 := by
  rw [chartCategoriesNodes,
    elemsL_flatMap_map _ _ (fun p => [ptNode p.2 p.1]) (fun p => pts_chartCategory p.2 p.1)]
  exact List.flatMap_pure_eq_map _ _

theorem elemsL_flatMap_nil {α : Type} (n : Str) (f : α → List Node) (h : ∀ a, elemsL n (f a) = [])
    (l : List α) : elemsL n (l.flatMap f) = [] := by
  rw [elemsL_flatMap_map n f (fun _ => []) h]; simp

theorem none_chartPoint (n : Str) (i : Nat) (v : Str) (h1 : n ≠ c!"c:pt") (h2 : n ≠ c!"c:v") :
    elemsL n (chartPointNodes i v) = [] := by
  simp [chartPointNodes, elemsL, elems, E, nl, h1.symm, h2.symm, elemsL_addText]

theorem none_chartCategory (n : Str) (i : Nat) (v : Str) (h1 : n ≠ c!"c:pt") (h2 : n ≠ c!"c:v") :
    elemsL n (chartCategoryNodes i v) = [] := by
  simp [chartCategoryNodes, elemsL, elems, E, nl, h1.symm, h2.symm, elemsL_addText]

theorem none_chartPoints0 (n : Str) (vs : List Str) (h1 : n ≠ c!"c:pt") (h2 : n ≠ c!"c:v") :
    elemsL n (chartPoints0Nodes vs) = [] :=
  elemsL_flatMap_nil n _ (fun v => none_chartPoint n 0 v h1 h2) vs

theorem none_chartPoints (n : Str) (vs : List Str) (h1 : n ≠ c!"c:pt") (h2 : n ≠ c!"c:v") :
    elemsL n (chartPointsNodes vs) = [] :=
  elemsL_flatMap_nil n _ (fun p : Str × Nat => none_chartPoint n p.2 p.1 h1 h2) _

theorem none_chartPositions (n : Str) (vs : List Str) (h1 : n ≠ c!"c:pt") (h2 : n ≠ c!"c:v") :
    elemsL n (chartPositionsNodes vs) = [] :=
  elemsL_flatMap_nil n _ (fun p : Str × Nat => none_chartPoint n p.2 _ h1 h2) _

theorem none_chartCategories (n : Str) (vs : List Str) (h1 : n ≠ c!"c:pt") (h2 : n ≠ c!"c:v") :
    elemsL n (chartCategoriesNodes vs) = [] :=
  elemsL_flatMap_nil n _ (fun p : Str × Nat => none_chartCategory n p.2 p.1 h1 h2) _

/-- The element of a series. -/
def seriesDataSer (i : Nat) (s : ChartSeries) : Node := (seriesDataNodes i s).getD 1 nl

theorem seriesData_ser (i : Nat) (s : ChartSeries) : elemsL c!"c:ser" (seriesDataNodes i s) = [seriesDataSer i s] := rfl

theorem seriesData_read (i : Nat) (s : ChartSeries) : readSeries (seriesDataSer i s) = ⟨some (dec i), [], [], s.values.map fun v => (some c!"0", v)⟩ := by
  simp [seriesDataSer, seriesDataNodes, readSeries, childElems, kidsOf_elem, nameOf, E, nl, pointsIn, elems, elemsL,
    elemsL_append, elemsL_addText, runs, runsL, none_chartPoints0, none_chartPoints, none_chartPositions,
    none_chartCategories, pts_chartPoints0, pts_chartPoints, pts_chartCategories, Function.comp_def,
    ptNode, attrOf_elem, indexed, textsOf, textOf_addText, runsL_addText]
  try exact fun _ _ => by decide

theorem seriesData_loose (i : Nat) (s : ChartSeries) : looseName (seriesDataSer i s) = [s.name] := by
  simp [seriesDataSer, seriesDataNodes, looseName, kidsOf_elem, nameOf, E, nl, pointsIn, elems, elemsL,
    elemsL_append, elemsL_addText, runs, runsL, none_chartPoints0, none_chartPoints, none_chartPositions,
    none_chartCategories, textsOf, textOf_addText, runsL_addText]

/-- The element of a series. -/
def pieSeriesSer (cats : List Str) (s : ChartSeries) : Node := (pieSeriesNodes cats s).getD 1 nl

theorem pieSeries_ser (cats : List Str) (s : ChartSeries) : elemsL c!"c:ser" (pieSeriesNodes cats s) = [pieSeriesSer cats s] := rfl

theorem pieSeries_read (cats : List Str) (s : ChartSeries) : readSeries (pieSeriesSer cats s) = ⟨some c!"0", [], indexed cats, indexed s.values⟩ := by
  simp [pieSeriesSer, pieSeriesNodes, readSeries, childElems, kidsOf_elem, nameOf, E, nl, pointsIn, elems, elemsL,
    elemsL_append, elemsL_addText, runs, runsL, none_chartPoints0, none_chartPoints, none_chartPositions,
    none_chartCategories, pts_chartPoints0, pts_chartPoints, pts_chartCategories, Function.comp_def,
    ptNode, attrOf_elem, indexed, textsOf, textOf_addText, runsL_addText]
  try exact fun _ _ => by decide

theorem pieSeries_loose (cats : List Str) (s : ChartSeries) : looseName (pieSeriesSer cats s) = [s.name] := by
  simp [pieSeriesSer, pieSeriesNodes, looseName, kidsOf_elem, nameOf, E, nl, pointsIn, elems, elemsL,
    elemsL_append, elemsL_addText, runs, runsL, none_chartPoints0, none_chartPoints, none_chartPositions,
    none_chartCategories, textsOf, textOf_addText, runsL_addText]

/-- The element of a series. -/
def doughnutSeriesSer (cats : List Str) (s : ChartSeries) : Node := (doughnutSeriesNodes cats s).getD 1 nl

theorem doughnutSeries_ser (cats : List Str) (s : ChartSeries) : elemsL c!"c:ser" (doughnutSeriesNodes cats s) = [doughnutSeriesSer cats s] := rfl

theorem doughnutSeries_read (cats : List Str) (s : ChartSeries) : readSeries (doughnutSeriesSer cats s) = ⟨some c!"0", [s.name], indexed cats, indexed s.values⟩ := by
  simp [doughnutSeriesSer, doughnutSeriesNodes, readSeries, childElems, kidsOf_elem, nameOf, E, nl, pointsIn, elems, elemsL,
    elemsL_append, elemsL_addText, runs, runsL, none_chartPoints0, none_chartPoints, none_chartPositions,
    none_chartCategories, pts_chartPoints0, pts_chartPoints, pts_chartCategories, Function.comp_def,
    ptNode, attrOf_elem, indexed, textsOf, textOf_addText, runsL_addText]
  try exact fun _ _ => by decide

theorem doughnutSeries_loose (cats : List Str) (s : ChartSeries) : looseName (doughnutSeriesSer cats s) = [s.name] := by
  simp [doughnutSeriesSer, doughnutSeriesNodes, looseName, kidsOf_elem, nameOf, E, nl, pointsIn, elems, elemsL,
    elemsL_append, elemsL_addText, runs, runsL, none_chartPoints0, none_chartPoints, none_chartPositions,
    none_chartCategories, textsOf, textOf_addText, runsL_addText]

/-- The element of a series. -/
def scatterSeriesSer (i : Nat) (s : ChartSeries) : Node := (scatterSeriesNodes i s).getD 1 nl

theorem scatterSeries_ser (i : Nat) (s : ChartSeries) : elemsL c!"c:ser" (scatterSeriesNodes i s) = [scatterSeriesSer i s] := rfl

theorem scatterSeries_read (i : Nat) (s : ChartSeries) : readSeries (scatterSeriesSer i s) = ⟨some (dec i), [s.name], [], indexed s.values⟩ := by
  simp [scatterSeriesSer, scatterSeriesNodes, readSeries, childElems, kidsOf_elem, nameOf, E, nl, pointsIn, elems, elemsL,
    elemsL_append, elemsL_addText, runs, runsL, none_chartPoints0, none_chartPoints, none_chartPositions,
    none_chartCategories, pts_chartPoints0, pts_chartPoints, pts_chartCategories, Function.comp_def,
    ptNode, attrOf_elem, indexed, textsOf, textOf_addText, runsL_addText]
  try exact fun _ _ => by decide

theorem scatterSeries_loose (i : Nat) (s : ChartSeries) : looseName (scatterSeriesSer i s) = [s.name] := by
  simp [scatterSeriesSer, scatterSeriesNodes, looseName, kidsOf_elem, nameOf, E, nl, pointsIn, elems, elemsL,
    elemsL_append, elemsL_addText, runs, runsL, none_chartPoints0, none_chartPoints, none_chartPositions,
    none_chartCategories, textsOf, textOf_addText, runsL_addText]

/-- The element of a series. -/
def bubbleSeriesSer (i : Nat) (s : ChartSeries) : Node := (bubbleSeriesNodes i s).getD 1 nl

theorem bubbleSeries_ser (i : Nat) (s : ChartSeries) : elemsL c!"c:ser" (bubbleSeriesNodes i s) = [bubbleSeriesSer i s] := rfl

theorem bubbleSeries_read (i : Nat) (s : ChartSeries) : readSeries (bubbleSeriesSer i s) = ⟨some (dec i), [s.name], [], indexed s.values⟩ := by
  simp [bubbleSeriesSer, bubbleSeriesNodes, readSeries, childElems, kidsOf_elem, nameOf, E, nl, pointsIn, elems, elemsL,
    elemsL_append, elemsL_addText, runs, runsL, none_chartPoints0, none_chartPoints, none_chartPositions,
    none_chartCategories, pts_chartPoints0, pts_chartPoints, pts_chartCategories, Function.comp_def,
    ptNode, attrOf_elem, indexed, textsOf, textOf_addText, runsL_addText]
  try exact fun _ _ => by decide

theorem bubbleSeries_loose (i : Nat) (s : ChartSeries) : looseName (bubbleSeriesSer i s) = [s.name] := by
  simp [bubbleSeriesSer, bubbleSeriesNodes, looseName, kidsOf_elem, nameOf, E, nl, pointsIn, elems, elemsL,
    elemsL_append, elemsL_addText, runs, runsL, none_chartPoints0, none_chartPoints, none_chartPositions,
    none_chartCategories, textsOf, textOf_addText, runsL_addText]

/-- The chart types whose series are written by the shared function `generate_series_data`. -/
def sharedSeries : ChartType → Bool
  | .pie | .doughnut | .scatter | .scatterLines | .scatterSmooth | .bubble => false
  | _ => true

/-- The series that the chart type can show: a pie or a doughnut shows one. -/
def shownSeries (c : Chart) : List ChartSeries :=
  match c.type with
  | .pie | .doughnut => c.series.take 1
  | _ => c.series

theorem elemsL_seriesFrom (first : Nat) (l : List ChartSeries) :
    elemsL c!"c:ser" (seriesFromNodes first l) = (l.zipIdx first).map fun p => seriesDataSer p.2 p.1 := by
  rw [seriesFromNodes, elemsL_flatMap_map _ _ (fun p => [seriesDataSer p.2 p.1])
    (fun p => seriesData_ser p.2 p.1)]
  exact List.flatMap_pure_eq_map _ _

theorem none_categoryAxis (n : Str) (cats : List Str) (p : Str)
    (h : n ∈ [c!"c:ser", c!"c:chart", c!"c:valAx"]) : elemsL n (categoryAxisNodes cats p) = [] := by
  simp only [List.mem_cons, List.not_mem_nil, or_false] at h
  rcases h with rfl | rfl | rfl <;>
    simp [categoryAxisNodes, elemsL, elems, E, nl, elemsL_append, elemsL_addText, none_chartCategories]

theorem none_valueAxis (n : Str) (p : Str)
    (h : n ∈ [c!"c:ser", c!"c:chart", c!"c:catAx"]) : elemsL n (valueAxisNodes p) = [] := by
  simp only [List.mem_cons, List.not_mem_nil, or_false] at h
  rcases h with rfl | rfl | rfl <;> simp [valueAxisNodes, elemsL, elems, E, nl]

theorem none_series (n : Str) (i : Nat) (s : ChartSeries)
    (h : n ∈ [c!"c:catAx", c!"c:chart", c!"c:valAx"]) : elemsL n (seriesDataNodes i s) = [] := by
  simp only [List.mem_cons, List.not_mem_nil, or_false] at h
  rcases h with rfl | rfl | rfl <;>
    simp [seriesDataNodes, elemsL, elems, E, nl, elemsL_append, elemsL_addText, none_chartPoints0]

theorem none_seriesFrom (n : Str) (i : Nat) (l : List ChartSeries)
    (h : n ∈ [c!"c:catAx", c!"c:chart", c!"c:valAx"]) : elemsL n (seriesFromNodes i l) = [] :=
  elemsL_flatMap_nil n _ (fun p : ChartSeries × Nat => none_series n p.2 p.1 h) _

theorem elemsL_barGroup (ks : List Node) (n : Str) (h : n ∈ [c!"c:ser", c!"c:catAx", c!"c:valAx"]) :
    elemsL n (barGroupNodes ks) = elemsL n ks := by
  simp only [List.mem_cons, List.not_mem_nil, or_false] at h
  rcases h with rfl | rfl | rfl <;> simp [barGroupNodes, elemsL, elems, E, nl, elemsL_append]

theorem elemsL_lineGroup (ks : List Node) (n : Str) (h : n ∈ [c!"c:ser", c!"c:catAx", c!"c:valAx"]) :
    elemsL n (lineGroupNodes ks) = elemsL n ks := by
  simp only [List.mem_cons, List.not_mem_nil, or_false] at h
  rcases h with rfl | rfl | rfl <;> simp [lineGroupNodes, elemsL, elems, E, nl, elemsL_append, elemsL_addText]

theorem elemsL_pieGroup (ks : List Node) (n : Str) (h : n ∈ [c!"c:ser", c!"c:catAx", c!"c:valAx"]) :
    elemsL n (pieGroupNodes ks) = elemsL n ks := by
  simp only [List.mem_cons, List.not_mem_nil, or_false] at h
  rcases h with rfl | rfl | rfl <;> simp [pieGroupNodes, elemsL, elems, E, nl, elemsL_append, elemsL_addText]

theorem elemsL_doughnutGroup (ks : List Node) (n : Str) (h : n ∈ [c!"c:ser", c!"c:catAx", c!"c:valAx"]) :
    elemsL n (doughnutGroupNodes ks) = elemsL n ks := by
  simp only [List.mem_cons, List.not_mem_nil, or_false] at h
  rcases h with rfl | rfl | rfl <;> simp [doughnutGroupNodes, elemsL, elems, E, nl, elemsL_append, elemsL_addText]

theorem elemsL_areaGroup (t : Str) (ks : List Node) (n : Str) (h : n ∈ [c!"c:ser", c!"c:catAx", c!"c:valAx"]) :
    elemsL n (areaGroupNodes t ks) = elemsL n ks := by
  simp only [List.mem_cons, List.not_mem_nil, or_false] at h
  rcases h with rfl | rfl | rfl <;> simp [areaGroupNodes, elemsL, elems, E, nl, elemsL_append, elemsL_addText]

theorem elemsL_scatterGroup (t : Str) (ks : List Node) (n : Str) (h : n ∈ [c!"c:ser", c!"c:catAx", c!"c:valAx"]) :
    elemsL n (scatterGroupNodes t ks) = elemsL n ks := by
  simp only [List.mem_cons, List.not_mem_nil, or_false] at h
  rcases h with rfl | rfl | rfl <;> simp [scatterGroupNodes, elemsL, elems, E, nl, elemsL_append, elemsL_addText]

theorem elemsL_bubbleGroup (ks : List Node) (n : Str) (h : n ∈ [c!"c:ser", c!"c:catAx", c!"c:valAx"]) :
    elemsL n (bubbleGroupNodes ks) = elemsL n ks := by
  simp only [List.mem_cons, List.not_mem_nil, or_false] at h
  rcases h with rfl | rfl | rfl <;> simp [bubbleGroupNodes, elemsL, elems, E, nl, elemsL_append, elemsL_addText]

theorem elemsL_radarGroup (t : Str) (ks : List Node) (n : Str) (h : n ∈ [c!"c:ser", c!"c:catAx", c!"c:valAx"]) :
    elemsL n (radarGroupNodes t ks) = elemsL n ks := by
  simp only [List.mem_cons, List.not_mem_nil, or_false] at h
  rcases h with rfl | rfl | rfl <;> simp [radarGroupNodes, elemsL, elems, E, nl, elemsL_append, elemsL_addText]

theorem elemsL_stockGroup (ks : List Node) (n : Str) (h : n ∈ [c!"c:ser", c!"c:catAx", c!"c:valAx"]) :
    elemsL n (stockGroupNodes ks) = elemsL n ks := by
  simp only [List.mem_cons, List.not_mem_nil, or_false] at h
  rcases h with rfl | rfl | rfl <;> simp [stockGroupNodes, elemsL, elems, E, nl, elemsL_append, elemsL_addText]

theorem elemsL_comboBars (ks : List Node) (n : Str) (h : n ∈ [c!"c:ser", c!"c:catAx", c!"c:valAx"]) :
    elemsL n (comboBarsNodes ks) = elemsL n ks := by
  simp only [List.mem_cons, List.not_mem_nil, or_false] at h
  rcases h with rfl | rfl | rfl <;> simp [comboBarsNodes, elemsL, elems, E, nl, elemsL_append, elemsL_addText]

theorem elemsL_comboLines (ks : List Node) (n : Str) (h : n ∈ [c!"c:ser", c!"c:catAx", c!"c:valAx"]) :
    elemsL n (comboLinesNodes ks) = elemsL n ks := by
  simp only [List.mem_cons, List.not_mem_nil, or_false] at h
  rcases h with rfl | rfl | rfl <;> simp [comboLinesNodes, elemsL, elems, E, nl, elemsL_append, elemsL_addText]

theorem elemsL_chartBody (t : Str) (ks : List Node) (n : Str) (h : n ∈ [c!"c:ser", c!"c:catAx", c!"c:valAx"]) :
    elemsL n (chartBodyNodes t ks) = elemsL n ks := by
  simp only [List.mem_cons, List.not_mem_nil, or_false] at h
  rcases h with rfl | rfl | rfl <;> simp [chartBodyNodes, elemsL, elems, E, nl, elemsL_append, elemsL_addText]

/-- The series elements of a chart. -/
theorem sers_shared (c : Chart) (h : sharedSeries c.type = true) :
    elemsL c!"c:ser" (plotAreaNodes c) = c.series.zipIdx.map fun p => seriesDataSer p.2 p.1 := by
  obtain ⟨title, type, cats, series⟩ := c
  have ax : ∀ ks p q, elemsL c!"c:ser" (ks ++ categoryAxisNodes cats p ++ valueAxisNodes q) =
      elemsL c!"c:ser" ks := by
    intro ks p q
    simp [elemsL_append, none_categoryAxis, none_valueAxis]
  cases type <;> simp only [sharedSeries, Bool.false_eq_true] at h
  case combo =>
    simp only [plotAreaNodes]
    rw [elemsL_append, elemsL_comboBars _ _ (by simp), ax, elemsL_seriesFrom]
    by_cases h1 : 1 < series.length
    · rw [if_pos h1, elemsL_comboLines _ _ (by simp), elemsL_seriesFrom]
      have hm : max (series.length / 2) 1 = series.length / 2 := by omega
      have hl : (series.take (series.length / 2)).length = series.length / 2 := by
        rw [List.length_take]; omega
      conv => rhs; rw [← List.take_append_drop (series.length / 2) series, List.zipIdx_append]
      rw [hm, List.map_append, hl, Nat.zero_add]
    · rw [if_neg h1]
      have hm : max (series.length / 2) 1 = 1 := by omega
      rw [hm, List.take_of_length_le (by omega)]
      simp [elemsL]
  all_goals
    simp only [plotAreaNodes]
    first
    | rw [elemsL_barGroup _ _ (by simp), ax, elemsL_seriesFrom]
    | rw [elemsL_lineGroup _ _ (by simp), ax, elemsL_seriesFrom]
    | rw [elemsL_areaGroup _ _ _ (by simp), ax, elemsL_seriesFrom]
    | rw [elemsL_radarGroup _ _ _ (by simp), ax, elemsL_seriesFrom]
    | rw [elemsL_stockGroup _ _ (by simp), ax, elemsL_seriesFrom]

theorem elemsL_head (n : Str) (f : ChartSeries → List Node) (g : ChartSeries → Node)
    (h : ∀ s, elemsL n (f s) = [g s]) (l : List ChartSeries) :
    elemsL n (l.head?.toList.flatMap f) = (l.take 1).map g := by
  cases l <;> simp [elemsL, h]

theorem sers_pie (c : Chart) (h : c.type = .pie) :
    elemsL c!"c:ser" (plotAreaNodes c) = (c.series.take 1).map (pieSeriesSer c.categories) := by
  simp only [plotAreaNodes, h]
  rw [elemsL_pieGroup _ _ (by simp), elemsL_head _ _ _ (pieSeries_ser c.categories)]

theorem sers_doughnut (c : Chart) (h : c.type = .doughnut) :
    elemsL c!"c:ser" (plotAreaNodes c) = (c.series.take 1).map (doughnutSeriesSer c.categories) := by
  simp only [plotAreaNodes, h]
  rw [elemsL_doughnutGroup _ _ (by simp), elemsL_head _ _ _ (doughnutSeries_ser c.categories)]

theorem sers_scatter (c : Chart) (h : c.type = .scatter ∨ c.type = .scatterLines ∨ c.type = .scatterSmooth) :
    elemsL c!"c:ser" (plotAreaNodes c) = c.series.zipIdx.map fun p => scatterSeriesSer p.2 p.1 := by
  have e : elemsL c!"c:ser" (c.series.zipIdx.flatMap fun p => scatterSeriesNodes p.2 p.1) =
      c.series.zipIdx.map fun p => scatterSeriesSer p.2 p.1 := by
    rw [elemsL_flatMap_map _ _ (fun p => [scatterSeriesSer p.2 p.1]) (fun p => scatterSeries_ser p.2 p.1)]
    exact List.flatMap_pure_eq_map _ _
  rcases h with h | h | h <;> simp only [plotAreaNodes, h] <;>
    rw [elemsL_scatterGroup _ _ _ (by simp), elemsL_append, elemsL_append, e,
      none_valueAxis _ _ (by simp), none_valueAxis _ _ (by simp)] <;> simp

theorem sers_bubble (c : Chart) (h : c.type = .bubble) :
    elemsL c!"c:ser" (plotAreaNodes c) = c.series.zipIdx.map fun p => bubbleSeriesSer p.2 p.1 := by
  have e : elemsL c!"c:ser" (c.series.zipIdx.flatMap fun p => bubbleSeriesNodes p.2 p.1) =
      c.series.zipIdx.map fun p => bubbleSeriesSer p.2 p.1 := by
    rw [elemsL_flatMap_map _ _ (fun p => [bubbleSeriesSer p.2 p.1]) (fun p => bubbleSeries_ser p.2 p.1)]
    exact List.flatMap_pure_eq_map _ _
  simp only [plotAreaNodes, h]
  rw [elemsL_bubbleGroup _ _ (by simp), elemsL_append, elemsL_append, e,
      none_valueAxis _ _ (by simp), none_valueAxis _ _ (by simp)]
  simp

theorem kind_cases (t : ChartType) : sharedSeries t = true ∨ t = .pie ∨ t = .doughnut ∨
    (t = .scatter ∨ t = .scatterLines ∨ t = .scatterSmooth) ∨ t = .bubble := by
  cases t <;> simp [sharedSeries]

/-- **C83**: a chart part is well-formed and its title is the title given, whatever the texts and
whatever the type of chart. -/
theorem C83_title (c : Chart) (h : c.NumbersOk) :
    ∃ doc, document (generateChartPartXml c) = some doc ∧ chartTitle doc = [c.title] := by
  refine ⟨_, document_chart h, ?_⟩
  simp [chartTitle, chartBodyNodes, elemsL, elems, childElems, kidsOf_elem, nameOf, E, nl, runs, runsL,
    textOf_addText]

/-- **C83**, what holds for all types: the series are written in order, each with its position, its
name and its values; the name can be found by a reader that does not expect it where the standard
puts it. (Missing: the indices of the values, the place of the names, the categories; see the theorems
below.) -/
theorem C83_series_partial (c : Chart) (h : c.NumbersOk) :
    ∃ doc, document (generateChartPartXml c) = some doc ∧
      looseNames doc = (shownSeries c).map (fun s => [s.name]) ∧
      valueTexts doc = (shownSeries c).map (·.values) ∧
      (chartSeriesOf doc).map (·.index) = (List.range (shownSeries c).length).map fun i => some (dec i) := by
  refine ⟨_, document_chart h, ?_⟩
  have ix : ∀ (f : Nat → ChartSeries → Node) (l : List ChartSeries) (k : Nat),
      (∀ i s, (readSeries (f i s)).index = some (dec i)) →
      ((l.zipIdx k).map fun p => (readSeries (f p.2 p.1)).index) =
        (List.range' k l.length).map fun i => some (dec i) := by
    intro f l
    induction l with
    | nil => intros; rfl
    | cons a l ih => intro k hf; simp only [List.zipIdx_cons, List.map_cons, List.length_cons, List.range'_succ, hf, ← ih (k + 1) hf]
  have nm : ∀ {β : Type} (f : Nat → ChartSeries → β) (g : ChartSeries → β) (l : List ChartSeries) (k : Nat),
      (∀ i s, f i s = g s) → ((l.zipIdx k).map fun p => f p.2 p.1) = l.map g := by
    intro β f g l
    induction l with
    | nil => intros; rfl
    | cons a l ih =>
      intro k hf
      rw [List.zipIdx_cons, List.map_cons, List.map_cons, ih (k + 1) hf, hf]
  have iv : ∀ vs : List Str, (indexed vs).map (·.2) = vs := by
    intro vs; simp [indexed, Function.comp_def]
  have e : ∀ ks, elemsL c!"c:ser" (chartBodyNodes c.title ks) = elemsL c!"c:ser" ks :=
    fun ks => elemsL_chartBody _ _ _ (by simp)
  simp only [looseNames, valueTexts, chartSeriesOf, e, List.map_map, Function.comp_def]
  rcases kind_cases c.type with k | k | k | k | k
  · have hs : shownSeries c = c.series := by
      unfold shownSeries; revert k; cases c.type <;> simp [sharedSeries]
    rw [sers_shared c k, hs]
    simp only [List.map_map, Function.comp_def]
    exact ⟨nm _ _ _ _ fun i s => seriesData_loose i s,
      nm (fun i s => (readSeries (seriesDataSer i s)).values.map (·.2)) _ _ _
        fun i s => by rw [seriesData_read]; simp [Function.comp_def],
      by rw [List.range_eq_range']; exact ix _ _ _ fun i s => by rw [seriesData_read]⟩
  · have hs : shownSeries c = c.series.take 1 := by unfold shownSeries; rw [k]
    rw [sers_pie c k, hs]
    cases c.series <;> simp [pieSeries_loose, pieSeries_read, iv]; decide
  · have hs : shownSeries c = c.series.take 1 := by unfold shownSeries; rw [k]
    rw [sers_doughnut c k, hs]
    cases c.series <;> simp [doughnutSeries_loose, doughnutSeries_read, iv]; decide
  · have hs : shownSeries c = c.series := by
      unfold shownSeries; rcases k with k | k | k <;> rw [k]
    rw [sers_scatter c k, hs]
    simp only [List.map_map, Function.comp_def]
    exact ⟨nm _ _ _ _ fun i s => scatterSeries_loose i s,
      nm (fun i s => (readSeries (scatterSeriesSer i s)).values.map (·.2)) _ _ _
        fun i s => by rw [scatterSeries_read, iv],
      by rw [List.range_eq_range']; exact ix _ _ _ fun i s => by rw [scatterSeries_read]⟩
  · have hs : shownSeries c = c.series := by unfold shownSeries; rw [k]
    rw [sers_bubble c k, hs]
    simp only [List.map_map, Function.comp_def]
    exact ⟨nm _ _ _ _ fun i s => bubbleSeries_loose i s,
      nm (fun i s => (readSeries (bubbleSeriesSer i s)).values.map (·.2)) _ _ _
        fun i s => by rw [bubbleSeries_read, iv],
      by rw [List.range_eq_range']; exact ix _ _ _ fun i s => by rw [bubbleSeries_read]⟩

/-- **C83**: a doughnut chart is written as the standard wants it: name, categories and values, each
with its index. -/
theorem C83_doughnut (c : Chart) (h : c.NumbersOk) (hk : c.type = .doughnut) :
    ∃ doc, document (generateChartPartXml c) = some doc ∧
      chartSeriesOf doc = (c.series.take 1).map fun s =>
        ⟨some c!"0", [s.name], indexed c.categories, indexed s.values⟩ := by
  refine ⟨_, document_chart h, ?_⟩
  rw [chartSeriesOf, elemsL_chartBody _ _ _ (by simp), sers_doughnut c hk, List.map_map]
  exact List.map_congr_left fun s _ => doughnutSeries_read _ _

/-- **C83**: so is a pie chart, except for the name of its series. -/
theorem C83_pie_partial (c : Chart) (h : c.NumbersOk) (hk : c.type = .pie) :
    ∃ doc, document (generateChartPartXml c) = some doc ∧
      chartSeriesOf doc = (c.series.take 1).map fun s =>
        ⟨some c!"0", [], indexed c.categories, indexed s.values⟩ := by
  refine ⟨_, document_chart h, ?_⟩
  rw [chartSeriesOf, elemsL_chartBody _ _ _ (by simp), sers_pie c hk, List.map_map]
  exact List.map_congr_left fun s _ => pieSeries_read _ _

/-- **C83**: and scatter and bubble charts, which have no categories. -/
theorem C83_scatter (c : Chart) (h : c.NumbersOk)
    (hk : c.type = .scatter ∨ c.type = .scatterLines ∨ c.type = .scatterSmooth ∨ c.type = .bubble) :
    ∃ doc, document (generateChartPartXml c) = some doc ∧
      chartSeriesOf doc = c.series.zipIdx.map fun p =>
        ⟨some (dec p.2), [p.1.name], [], indexed p.1.values⟩ := by
  refine ⟨_, document_chart h, ?_⟩
  rw [chartSeriesOf, elemsL_chartBody _ _ _ (by simp)]
  rcases (by tauto : (c.type = .scatter ∨ c.type = .scatterLines ∨ c.type = .scatterSmooth) ∨
      c.type = .bubble) with k | k
  · rw [sers_scatter c k, List.map_map]
    exact List.map_congr_left fun s _ => scatterSeries_read _ _
  · rw [sers_bubble c k, List.map_map]
    exact List.map_congr_left fun s _ => bubbleSeries_read _ _

/-- What a reader gets from all other charts. -/
theorem shared_read (c : Chart) (h : c.NumbersOk) (hk : sharedSeries c.type = true) :
    ∃ doc, document (generateChartPartXml c) = some doc ∧
      chartSeriesOf doc = c.series.zipIdx.map fun p =>
        ⟨some (dec p.2), [], [], p.1.values.map fun v => (some c!"0", v)⟩ := by
  refine ⟨_, document_chart h, ?_⟩
  rw [chartSeriesOf, elemsL_chartBody _ _ _ (by simp), sers_shared c hk, List.map_map]
  exact List.map_congr_left fun s _ => seriesData_read _ _

/-- **C83** fails for bar, line, area, radar, stock and combination charts: all values of a series
have index 0, so that a series with two or more values is not read as these values. -/
theorem C83_values_violated (c : Chart) (h : c.NumbersOk) (hk : sharedSeries c.type = true)
    (i : Nat) (s : ChartSeries) (hs : c.series[i]? = some s) (h2 : 2 ≤ s.values.length) :
    ∃ doc r, document (generateChartPartXml c) = some doc ∧ (chartSeriesOf doc)[i]? = some r ∧
      ¬(r.values.map (·.1)).Nodup ∧ r.values ≠ indexed s.values := by
  obtain ⟨doc, h1, e⟩ := shared_read c h hk
  refine ⟨doc, ⟨some (dec i), [], [], s.values.map fun v => (some c!"0", v)⟩, h1, by rw [e]; simp [hs], ?_⟩
  match hv : s.values, h2 with
  | a :: b :: l, _ =>
    simp only [List.map_cons, List.nodup_cons, List.mem_cons, true_or, not_true, false_and, not_false_eq_true,
      true_and, ne_eq]
    intro he
    simp only [indexed, List.zipIdx_cons, List.map_cons, List.cons.injEq, Prod.mk.injEq, Option.some.injEq] at he
    exact absurd he.2.1.1 (by decide)

/-- **C83** fails for the same charts: a reader finds neither names nor categories. -/
theorem C83_names_violated (c : Chart) (h : c.NumbersOk) (hk : sharedSeries c.type = true) :
    ∃ doc, document (generateChartPartXml c) = some doc ∧
      ∀ r ∈ chartSeriesOf doc, r.name = [] ∧ r.categories = [] := by
  obtain ⟨doc, h1, e⟩ := shared_read c h hk
  refine ⟨doc, h1, fun r hr => ?_⟩
  rw [e] at hr
  obtain ⟨p, -, rfl⟩ := List.mem_map.mp hr
  exact ⟨rfl, rfl⟩

/-- **C83**: the categories of these charts can be found in the category axis, in order and with their
indices. -/
theorem C83_categories_partial (c : Chart) (h : c.NumbersOk) (hk : sharedSeries c.type = true) :
    ∃ doc, document (generateChartPartXml c) = some doc ∧ axisCategories doc = indexed c.categories := by
  refine ⟨_, document_chart h, ?_⟩
  obtain ⟨title, type, cats, series⟩ := c
  have cx : ∀ p, (elemsL c!"c:catAx" (categoryAxisNodes cats p)).flatMap pointsIn = indexed cats := by
    intro p
    simp [categoryAxisNodes, elemsL, elems, E, nl, pointsIn, elemsL_append, elemsL_addText,
      pts_chartCategories, indexed, Function.comp_def, ptNode, attrOf_elem, textsOf, kidsOf_elem, textOf_addText]
  have ax : ∀ i l p q, (elemsL c!"c:catAx" (seriesFromNodes i l ++ categoryAxisNodes cats p ++
      valueAxisNodes q)).flatMap pointsIn = indexed cats := by
    intro i l p q
    rw [elemsL_append, elemsL_append, none_valueAxis _ _ (by simp), none_seriesFrom _ _ _ (by simp)]
    simp [cx]
  rw [axisCategories, elemsL_chartBody _ _ _ (by simp)]
  cases type <;> simp only [sharedSeries, Bool.false_eq_true] at hk
  case combo =>
    simp only [plotAreaNodes]
    rw [elemsL_append, List.flatMap_append, elemsL_comboBars _ _ (by simp), ax]
    by_cases h1 : 1 < series.length
    · rw [if_pos h1, elemsL_comboLines _ _ (by simp), none_seriesFrom _ _ _ (by simp)]; simp
    · rw [if_neg h1]; simp [elemsL]
  all_goals
    simp only [plotAreaNodes]
    first
    | rw [elemsL_barGroup _ _ (by simp), ax]
    | rw [elemsL_lineGroup _ _ (by simp), ax]
    | rw [elemsL_areaGroup _ _ _ (by simp), ax]
    | rw [elemsL_radarGroup _ _ _ (by simp), ax]
    | rw [elemsL_stockGroup _ _ (by simp), ax]

/-! ### Directions, groupings and axes -/

theorem none_seriesFrom2 (n : Str) (i : Nat) (l : List ChartSeries)
    (h : n ∈ [c!"c:barChart", c!"c:lineChart", c!"c:barDir", c!"c:grouping"]) :
    elemsL n (seriesFromNodes i l) = [] := by
  refine elemsL_flatMap_nil n _ (fun p : ChartSeries × Nat => ?_) _
  simp only [List.mem_cons, List.not_mem_nil, or_false] at h
  rcases h with rfl | rfl | rfl | rfl <;>
    simp [seriesDataNodes, elemsL, elems, E, nl, elemsL_append, elemsL_addText, none_chartPoints0]

/-- The children of an element that is neither a bar direction nor a grouping are not one. -/
theorem filter_name (name : Str) (ks : List Node) (h : ∀ k ∈ ks, nameOf k ≠ name) :
    ks.filter (fun k => nameOf k = name) = [] := by
  rw [List.filter_eq_nil_iff]
  simpa using h

theorem names_seriesFrom (i : Nat) (l : List ChartSeries) :
    ∀ k ∈ seriesFromNodes i l, nameOf k ∈ [[], c!"c:ser"] := by
  intro k hk
  obtain ⟨p, -, hp⟩ := List.mem_flatMap.mp hk
  simp only [seriesDataNodes, List.mem_cons, List.not_mem_nil, or_false] at hp
  rcases hp with rfl | rfl <;> simp [nameOf, nl, E]

theorem names_axes (cats : List Str) (p q : Str) :
    ∀ k ∈ categoryAxisNodes cats p ++ valueAxisNodes q, nameOf k ∈ [[], c!"c:catAx", c!"c:valAx"] := by
  intro k hk
  simp only [categoryAxisNodes, valueAxisNodes, List.cons_append, List.nil_append, List.mem_cons,
    List.not_mem_nil, or_false] at hk
  rcases hk with rfl | rfl | rfl | rfl <;> simp [nameOf, nl, E]

theorem inner_filter (name : Str) (i : Nat) (l : List ChartSeries) (cats : List Str) (p q : Str)
    (h : name ∈ [c!"c:barDir", c!"c:grouping", c!"c:radarStyle"]) :
    (seriesFromNodes i l ++ categoryAxisNodes cats p ++ valueAxisNodes q).filter
      (fun k => nameOf k = name) = [] := by
  apply filter_name
  intro k hk e
  have : nameOf k ∈ [[], c!"c:ser", c!"c:catAx", c!"c:valAx"] := by
    rw [List.append_assoc] at hk
    rcases List.mem_append.mp hk with hk | hk
    · have := names_seriesFrom _ _ k hk
      simp only [List.mem_cons, List.not_mem_nil, or_false] at this ⊢
      tauto
    · have := names_axes _ _ _ k hk
      simp only [List.mem_cons, List.not_mem_nil, or_false] at this ⊢
      tauto
  rw [e] at this
  simp only [List.mem_cons, List.not_mem_nil, or_false] at h this
  rcases h with rfl | rfl | rfl <;> rcases this with h | h | h | h <;> exact absurd h (by decide)

/-- **C83** fails for all bar charts except horizontal and clustered ones: the bars are written as
horizontal and clustered whatever the type. -/
theorem C83_bars_violated (c : Chart) (h : c.NumbersOk)
    (hk : c.type = .bar ∨ c.type = .barHorizontal ∨ c.type = .barStacked ∨ c.type = .barStacked100) :
    ∃ doc, document (generateChartPartXml c) = some doc ∧
      groupProperty c!"c:barChart" c!"c:barDir" doc = [some c!"bar"] ∧
      groupProperty c!"c:barChart" c!"c:grouping" doc = [some c!"clustered"] := by
  refine ⟨_, document_chart h, ?_⟩
  have e : plotAreaNodes c = barGroupNodes (seriesFromNodes 0 c.series ++
      categoryAxisNodes c.categories c!"l" ++ valueAxisNodes c!"b") := by
    rcases hk with k | k | k | k <;> simp only [plotAreaNodes, k]
  have f1 := inner_filter c!"c:barDir" 0 c.series c.categories c!"l" c!"b" (by simp)
  have f2 := inner_filter c!"c:grouping" 0 c.series c.categories c!"l" c!"b" (by simp)
  rw [e]
  generalize seriesFromNodes 0 c.series ++ categoryAxisNodes c.categories c!"l" ++ valueAxisNodes c!"b" = ks at f1 f2
  constructor <;>
    simp [groupProperty, chartBodyNodes, barGroupNodes, elemsL, elems, E, nl, elemsL_append, elemsL_addText,
      childElems, kidsOf_elem, nameOf_elem, nameOf_text, attrOf_elem, f1, f2]

/-- **C83** fails for all line charts: the grouping is written as `lineMarkers`, which the standard does
not know, whatever the type. -/
theorem C83_lines_violated (c : Chart) (h : c.NumbersOk)
    (hk : c.type = .line ∨ c.type = .lineMarkers ∨ c.type = .lineStacked) :
    ∃ doc, document (generateChartPartXml c) = some doc ∧
      groupProperty c!"c:lineChart" c!"c:grouping" doc = [some c!"lineMarkers"] := by
  refine ⟨_, document_chart h, ?_⟩
  have e : plotAreaNodes c = lineGroupNodes (seriesFromNodes 0 c.series ++
      categoryAxisNodes c.categories c!"b" ++ valueAxisNodes c!"l") := by
    rcases hk with k | k | k <;> simp only [plotAreaNodes, k]
  have f2 := inner_filter c!"c:grouping" 0 c.series c.categories c!"b" c!"l" (by simp)
  rw [e]
  generalize seriesFromNodes 0 c.series ++ categoryAxisNodes c.categories c!"b" ++ valueAxisNodes c!"l" = ks at f2
  simp [groupProperty, chartBodyNodes, lineGroupNodes, elemsL, elems, E, nl, elemsL_append, elemsL_addText,
      childElems, kidsOf_elem, nameOf_elem, nameOf_text, attrOf_elem, f2]

/-- The grouping of area charts is the one asked for. -/
theorem C83_areas (c : Chart) (h : c.NumbersOk)
    (hk : c.type = .area ∨ c.type = .areaStacked ∨ c.type = .areaStacked100) :
    ∃ doc, document (generateChartPartXml c) = some doc ∧
      groupProperty c!"c:areaChart" c!"c:grouping" doc = [some (match c.type with
        | .areaStacked => c!"stacked"
        | .areaStacked100 => c!"percentStacked"
        | _ => c!"standard")] := by
  refine ⟨_, document_chart h, ?_⟩
  have e : plotAreaNodes c = areaGroupNodes (c.type.grouping.getD c!"standard") (seriesFromNodes 0 c.series ++
      categoryAxisNodes c.categories c!"b" ++ valueAxisNodes c!"l") := by
    rcases hk with k | k | k <;> simp only [plotAreaNodes, k]
  have f2 := inner_filter c!"c:grouping" 0 c.series c.categories c!"b" c!"l" (by simp)
  rw [e]
  generalize seriesFromNodes 0 c.series ++ categoryAxisNodes c.categories c!"b" ++ valueAxisNodes c!"l" = ks at f2
  have g : ∀ t, groupProperty c!"c:areaChart" c!"c:grouping" (chartBodyNodes c.title (areaGroupNodes t ks)) =
      [some t] := by
    intro t
    simp [groupProperty, chartBodyNodes, areaGroupNodes, elemsL, elems, E, nl, elemsL_append, elemsL_addText,
      childElems, kidsOf_elem, nameOf_elem, nameOf_text, attrOf_elem, f2]
  rw [g]
  rcases hk with k | k | k <;> rw [k] <;> rfl

/-- The style of radar charts is the one asked for. -/
theorem C83_radar (c : Chart) (h : c.NumbersOk) (hk : c.type = .radar ∨ c.type = .radarFilled) :
    ∃ doc, document (generateChartPartXml c) = some doc ∧
      groupProperty c!"c:radarChart" c!"c:radarStyle" doc =
        [some (if c.type = .radarFilled then c!"filled" else c!"marker")] := by
  refine ⟨_, document_chart h, ?_⟩
  have e : plotAreaNodes c = radarGroupNodes (c.type.radarStyle.getD c!"marker") (seriesFromNodes 0 c.series ++
      categoryAxisNodes c.categories c!"b" ++ valueAxisNodes c!"l") := by
    rcases hk with k | k <;> simp only [plotAreaNodes, k]
  have f2 := inner_filter c!"c:radarStyle" 0 c.series c.categories c!"b" c!"l" (by simp)
  rw [e]
  generalize seriesFromNodes 0 c.series ++ categoryAxisNodes c.categories c!"b" ++ valueAxisNodes c!"l" = ks at f2
  have g : ∀ t, groupProperty c!"c:radarChart" c!"c:radarStyle" (chartBodyNodes c.title (radarGroupNodes t ks)) =
      [some t] := by
    intro t
    simp [groupProperty, chartBodyNodes, radarGroupNodes, elemsL, elems, E, nl, elemsL_append, elemsL_addText,
      childElems, kidsOf_elem, nameOf_elem, nameOf_text, attrOf_elem, f2]
  rw [g]
  rcases hk with k | k <;> rw [k] <;> rfl

theorem scatter_filter (l : List (ChartSeries × Nat)) (p q : Str) :
    ((l.flatMap fun p => scatterSeriesNodes p.2 p.1) ++ valueAxisNodes p ++ valueAxisNodes q).filter
      (fun k => nameOf k = c!"c:scatterStyle") = [] := by
  apply filter_name
  intro k hk e
  have v : ∀ p, ∀ k ∈ valueAxisNodes p, nameOf k ∈ [[], c!"c:valAx"] := by
    intro p k hk
    simp only [valueAxisNodes, List.mem_cons, List.not_mem_nil, or_false] at hk
    rcases hk with rfl | rfl <;> simp [nl, E, nameOf]
  have : nameOf k ∈ [[], c!"c:ser", c!"c:valAx"] := by
    rcases List.mem_append.mp hk with hk | hk
    · rcases List.mem_append.mp hk with hk | hk
      · obtain ⟨a, _, ha⟩ := List.mem_flatMap.mp hk
        simp only [scatterSeriesNodes, List.mem_cons, List.not_mem_nil, or_false] at ha
        rcases ha with rfl | rfl <;> simp [nl, E, nameOf]
      · have := v _ k hk
        simp only [List.mem_cons, List.not_mem_nil, or_false] at this ⊢
        tauto
    · have := v _ k hk
      simp only [List.mem_cons, List.not_mem_nil, or_false] at this ⊢
      tauto
  rw [e] at this
  revert this
  decide

/-- The style of scatter charts is the one asked for. -/
theorem C83_scatter_style (c : Chart) (h : c.NumbersOk)
    (hk : c.type = .scatter ∨ c.type = .scatterLines ∨ c.type = .scatterSmooth) :
    ∃ doc, document (generateChartPartXml c) = some doc ∧
      groupProperty c!"c:scatterChart" c!"c:scatterStyle" doc = [some (match c.type with
        | .scatterLines => c!"lineMarker"
        | .scatterSmooth => c!"smoothMarker"
        | _ => c!"marker")] := by
  refine ⟨_, document_chart h, ?_⟩
  have e : plotAreaNodes c = scatterGroupNodes (c.type.scatterStyle.getD c!"lineMarker")
      ((c.series.zipIdx.flatMap fun p => scatterSeriesNodes p.2 p.1) ++ valueAxisNodes c!"b" ++ valueAxisNodes c!"l") := by
    rcases hk with k | k | k <;> simp only [plotAreaNodes, k]
  have f2 := scatter_filter c.series.zipIdx c!"b" c!"l"
  rw [e]
  generalize (c.series.zipIdx.flatMap fun p => scatterSeriesNodes p.2 p.1) ++ valueAxisNodes c!"b" ++ valueAxisNodes c!"l" = ks at f2
  have g : ∀ t, groupProperty c!"c:scatterChart" c!"c:scatterStyle" (chartBodyNodes c.title (scatterGroupNodes t ks)) =
      [some t] := by
    intro t
    simp [groupProperty, chartBodyNodes, scatterGroupNodes, elemsL, elems, E, nl, elemsL_append, elemsL_addText,
      childElems, kidsOf_elem, nameOf_elem, nameOf_text, attrOf_elem, f2]
  rw [g]
  rcases hk with k | k | k <;> rw [k] <;> rfl

/-- **C83** fails for scatter and bubble charts: both axes have the same identifier. -/
theorem C83_axes_violated (c : Chart) (h : c.NumbersOk)
    (hk : c.type = .scatter ∨ c.type = .scatterLines ∨ c.type = .scatterSmooth ∨ c.type = .bubble) :
    ∃ doc, document (generateChartPartXml c) = some doc ∧ axisIds doc = [some c!"2", some c!"2"] := by
  refine ⟨_, document_chart h, ?_⟩
  have s1 : ∀ n ∈ [c!"c:catAx", c!"c:valAx"],
      elemsL n (c.series.zipIdx.flatMap fun p => scatterSeriesNodes p.2 p.1) = [] := by
    intro n hn
    refine elemsL_flatMap_nil n _ (fun p : ChartSeries × Nat => ?_) _
    simp only [List.mem_cons, List.not_mem_nil, or_false] at hn
    rcases hn with rfl | rfl <;> simp [scatterSeriesNodes, elemsL, elems, E, nl, elemsL_append,
      elemsL_addText, none_chartPoints, none_chartPositions]
  have s2 : ∀ n ∈ [c!"c:catAx", c!"c:valAx"],
      elemsL n (c.series.zipIdx.flatMap fun p => bubbleSeriesNodes p.2 p.1) = [] := by
    intro n hn
    refine elemsL_flatMap_nil n _ (fun p : ChartSeries × Nat => ?_) _
    simp only [List.mem_cons, List.not_mem_nil, or_false] at hn
    rcases hn with rfl | rfl <;> simp [bubbleSeriesNodes, elemsL, elems, E, nl, elemsL_append,
      elemsL_addText, none_chartPoints, none_chartPositions]
  have v : ∀ p, (elemsL c!"c:valAx" (valueAxisNodes p)).flatMap
      (fun a => (childElems c!"c:axId" a).map (attrOf c!"val")) = [some c!"2"] := by
    intro p
    simp [valueAxisNodes, elemsL, elems, E, nl, childElems, kidsOf_elem, nameOf, attrOf_elem]
  have w : ∀ p, elemsL c!"c:catAx" (valueAxisNodes p) = [] := fun p => none_valueAxis _ _ (by simp)
  rw [axisIds, elemsL_chartBody _ _ _ (by simp), elemsL_chartBody _ _ _ (by simp)]
  rcases hk with k | k | k | k <;> simp only [plotAreaNodes, k]
  case inr.inr.inr =>
    rw [elemsL_bubbleGroup _ _ (by simp), elemsL_bubbleGroup _ _ (by simp)]
    simp [elemsL_append, s2, w, v]
  all_goals
    rw [elemsL_scatterGroup _ _ _ (by simp), elemsL_scatterGroup _ _ _ (by simp)]
    simp [elemsL_append, s1, w, v]

/-- A chart with markup characters in its texts. -/
def sampleChart (t : ChartType) : Chart :=
  ⟨c!"R & D", t, [c!"<a>", c!"b"], [⟨c!"x & y", [c!"1", c!"-2.5"]⟩, ⟨c!"z", [c!"3"]⟩]⟩

example (t : ChartType) : (sampleChart t).NumbersOk := by
  intro s hs v hv
  simp only [sampleChart, List.mem_cons, List.not_mem_nil, or_false] at hs
  rcases hs with rfl | rfl <;> simp only [List.mem_cons, List.not_mem_nil, or_false] at hv <;>
    rcases hv with rfl | rfl <;> exact plain_of (by decide)

example : (document (generateChartPartXml (sampleChart .doughnut))).map chartSeriesOf =
    some [⟨some c!"0", [c!"x & y"], [(some c!"0", c!"<a>"), (some c!"1", c!"b")],
      [(some c!"0", c!"1"), (some c!"1", c!"-2.5")]⟩] := by krfl

end PptRs.Props
