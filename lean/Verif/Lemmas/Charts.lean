import Verif.Model.Charts
import Verif.Lemmas.Parts

/-!
# The documents written for charts
-/

namespace PptRs

open PptRs.Spec

/-- A point of a series. -/
def chartPointNodes (idx : Nat) (value : Str) : List Node :=
  [nl, E c!"c:pt" [(c!"idx", (dec (idx)))] [nl, E c!"c:v" [] ((addText [] value)), nl]]

theorem readsNodes_chartPoint (idx : Nat) (value : Str) (h : Plain value) :
    ReadsNodes (chartPoint idx value) (chartPointNodes idx value) := by
  unfold chartPoint chartPointNodes
  exact Splits.readsNodes (Splits.lit (by all_ok)) (by krfl)

/-- A category. -/
def chartCategoryNodes (idx : Nat) (cat : Str) : List Node :=
  [nl, E c!"c:pt" [(c!"idx", (dec (idx)))] [nl, E c!"c:v" [] ((addText [] cat)), nl]]

theorem readsNodes_chartCategory (idx : Nat) (cat : Str) :
    ReadsNodes (chartCategory idx cat) (chartCategoryNodes idx cat) := by
  unfold chartCategory chartCategoryNodes
  exact Splits.readsNodes (Splits.lit (by all_ok)) (by krfl)

/-- The points with their positions. -/
def chartPointsNodes (values : List Str) : List Node :=
  values.zipIdx.flatMap fun p => chartPointNodes p.2 p.1

theorem readsNodes_chartPoints {values : List Str} (h : ∀ v ∈ values, Plain v) :
    ReadsNodes (chartPoints values) (chartPointsNodes values) :=
  readsNodes_flatMap fun p hp => readsNodes_chartPoint _ _ (h _ (List.fst_mem_of_mem_zipIdx hp))

/-- The points, all with index 0. -/
def chartPoints0Nodes (values : List Str) : List Node := values.flatMap fun v => chartPointNodes 0 v

theorem readsNodes_chartPoints0 {values : List Str} (h : ∀ v ∈ values, Plain v) :
    ReadsNodes (chartPoints0 values) (chartPoints0Nodes values) :=
  readsNodes_flatMap fun v hv => readsNodes_chartPoint _ _ (h v hv)

/-- The positions. -/
def chartPositionsNodes (values : List Str) : List Node :=
  values.zipIdx.flatMap fun p => chartPointNodes p.2 (dec (p.2 + 1))

theorem readsNodes_chartPositions (values : List Str) :
    ReadsNodes (chartPositions values) (chartPositionsNodes values) :=
  readsNodes_flatMap fun _ _ => readsNodes_chartPoint _ _ (plain_dec _)

/-- The categories. -/
def chartCategoriesNodes (cats : List Str) : List Node :=
  cats.zipIdx.flatMap fun p => chartCategoryNodes p.2 p.1

theorem readsNodes_chartCategories (cats : List Str) :
    ReadsNodes (chartCategories cats) (chartCategoriesNodes cats) :=
  readsNodes_flatMap fun _ _ => readsNodes_chartCategory _ _

/-- A series of a bar, line, area, radar, stock or combo chart. -/
def seriesDataNodes (idx : Nat) (s : ChartSeries) : List Node :=
  [nl, E c!"c:ser" [] ([nl, E c!"c:idx" [(c!"val", (dec (idx)))] [], nl, E c!"c:order" [(c!"val",
  (dec (idx)))] [], nl, E c!"c:title" [] [nl, E c!"c:tx" [] [nl, E c!"c:rich" [] [nl, E
  c!"a:bodyPr" [] [], nl, E c!"a:lstStyle" [] [], nl, E c!"a:p" [] [nl, E c!"a:r" [] [nl, E
  c!"a:rPr" [(c!"lang", c!"en-US"), (c!"sz", c!"1000")] [], nl, E c!"a:t" [] ((addText [] s.name)),
  nl], nl], nl], nl], nl], nl, E c!"c:dLbls" [] [nl, E c!"c:showVal" [(c!"val", c!"0")] [], nl],
  nl, E c!"c:val" [] ([nl, E c!"c:numRef" [] ([nl, E c!"c:f" [] ((addText [] (c!"Sheet1!$B$" ++ dec
  ((2 + idx)) ++ c!":" ++ c!"$" ++ c!"B" ++ c!"$" ++ dec ((2 + idx + s.values.length))))), nl, E
  c!"c:numCache" [] ([nl, E c!"c:formatCode" [] [.text c!"General"]] ++ chartPoints0Nodes s.values
  ++ [nl]), nl]), nl]), nl])]

theorem readsNodes_seriesData (idx : Nat) (s : ChartSeries) (h : ∀ v ∈ s.values, Plain v) :
    ReadsNodes (seriesData idx s) (seriesDataNodes idx s) := by
  unfold seriesData seriesDataNodes
  exact Splits.readsNodes (((Splits.lit (by all_ok)).append
    (.nodes (readsNodes_chartPoints0 h))).append
    (.lit (by all_ok))) (by krfl)

/-- The category axis. -/
def categoryAxisNodes (cats : List Str) (pos : Str) : List Node :=
  [nl, E c!"c:catAx" [] ([nl, E c!"c:axId" [(c!"val", c!"1")] [], nl, E c!"c:scaling" [] [nl, E
  c!"c:orientation" [(c!"val", c!"minMax")] [], nl], nl, E c!"c:delete" [(c!"val", c!"0")] [], nl,
  E c!"c:axPos" [(c!"val", pos)] [], nl, E c!"c:majorGridlines" [] [], nl, E c!"c:numFmt"
  [(c!"formatCode", c!"General"), (c!"sourceLinked", c!"1")] [], nl, E c!"c:tickLblPos" [(c!"val",
  c!"low")] [], nl, E c!"c:crossAx" [(c!"val", c!"2")] [], nl, E c!"c:crosses" [(c!"val",
  c!"autoZero")] [], nl, E c!"c:strRef" [] ([nl, E c!"c:f" [] ((addText [] (c!"Sheet1!$A$2:$A$" ++
  dec ((1 + cats.length))))), nl, E c!"c:strCache" [] ([nl, E c!"c:ptCount" [(c!"val", (dec
  (cats.length)))] []] ++ chartCategoriesNodes cats ++ [nl]), nl]), nl])]

theorem readsNodes_categoryAxis (cats : List Str) (pos : Str) (h : Plain pos) :
    ReadsNodes (categoryAxis cats pos) (categoryAxisNodes cats pos) := by
  unfold categoryAxis categoryAxisNodes
  exact Splits.readsNodes (((Splits.lit (by all_ok)).append
    (.nodes (readsNodes_chartCategories cats))).append
    (.lit (by all_ok))) (by krfl)

/-- A value axis. -/
def valueAxisNodes (pos : Str) : List Node :=
  [nl, E c!"c:valAx" [] [nl, E c!"c:axId" [(c!"val", c!"2")] [], nl, E c!"c:scaling" [] [nl, E
  c!"c:orientation" [(c!"val", c!"minMax")] [], nl], nl, E c!"c:delete" [(c!"val", c!"0")] [], nl,
  E c!"c:axPos" [(c!"val", pos)] [], nl, E c!"c:majorGridlines" [] [], nl, E c!"c:numFmt"
  [(c!"formatCode", c!"General"), (c!"sourceLinked", c!"1")] [], nl, E c!"c:tickLblPos" [(c!"val",
  c!"low")] [], nl, E c!"c:crossAx" [(c!"val", c!"1")] [], nl, E c!"c:crosses" [(c!"val",
  c!"autoZero")] [], nl]]

theorem readsNodes_valueAxis (pos : Str) (h : Plain pos) :
    ReadsNodes (valueAxis pos) (valueAxisNodes pos) := by
  unfold valueAxis valueAxisNodes
  exact Splits.readsNodes (Splits.lit (by all_ok)) (by krfl)

/-- The series of a pie chart. -/
def pieSeriesNodes (cats : List Str) (s : ChartSeries) : List Node :=
  [nl, E c!"c:ser" [] ([nl, E c!"c:idx" [(c!"val", c!"0")] [], nl, E c!"c:order" [(c!"val", c!"0")]
  [], nl, E c!"c:title" [] [nl, E c!"c:tx" [] [nl, E c!"c:rich" [] [nl, E c!"a:bodyPr" [] [], nl, E
  c!"a:lstStyle" [] [], nl, E c!"a:p" [] [nl, E c!"a:r" [] [nl, E c!"a:rPr" [(c!"lang", c!"en-US"),
  (c!"sz", c!"1000")] [], nl, E c!"a:t" [] ((addText [] s.name)), nl], nl], nl], nl], nl], nl, E
  c!"c:dLbls" [] [nl, E c!"c:showCatName" [(c!"val", c!"1")] [], nl, E c!"c:showPercent" [(c!"val",
  c!"1")] [], nl], nl, E c!"c:val" [] ([nl, E c!"c:numRef" [] ([nl, E c!"c:f" [] ((addText []
  (c!"Sheet1!$B$2:$B$" ++ dec ((1 + s.values.length))))), nl, E c!"c:numCache" [] ([nl, E
  c!"c:formatCode" [] [.text c!"General"]] ++ chartPointsNodes s.values ++ [nl]), nl]), nl]), nl, E
  c!"c:cat" [] ([nl, E c!"c:strRef" [] ([nl, E c!"c:f" [] ((addText [] (c!"Sheet1!$A$2:$A$" ++ dec
  ((1 + cats.length))))), nl, E c!"c:strCache" [] ([nl, E c!"c:ptCount" [(c!"val", (dec
  (cats.length)))] []] ++ chartCategoriesNodes cats ++ [nl]), nl]), nl]), nl])]

theorem readsNodes_pieSeries (cats : List Str) (s : ChartSeries) (h : ∀ v ∈ s.values, Plain v) :
    ReadsNodes (pieSeries cats s) (pieSeriesNodes cats s) := by
  unfold pieSeries pieSeriesNodes
  exact Splits.readsNodes (((((Splits.lit (by all_ok)).append
    (.nodes (readsNodes_chartPoints h))).append
    (.lit (by all_ok))).append
    (.nodes (readsNodes_chartCategories cats))).append
    (.lit (by all_ok))) (by krfl)

/-- The series of a doughnut chart. -/
def doughnutSeriesNodes (cats : List Str) (s : ChartSeries) : List Node :=
  [nl, E c!"c:ser" [] ([nl, E c!"c:idx" [(c!"val", c!"0")] [], nl, E c!"c:order" [(c!"val", c!"0")]
  [], nl, E c!"c:tx" [] [nl, E c!"c:strRef" [] [nl, E c!"c:f" [] [.text c!"Sheet1!$B$1"], nl, E
  c!"c:strCache" [] [nl, E c!"c:ptCount" [(c!"val", c!"1")] [], nl, E c!"c:pt" [(c!"idx", c!"0")]
  [E c!"c:v" [] ((addText [] s.name))], nl], nl], nl], nl, E c!"c:dLbls" [] [nl, E
  c!"c:showCatName" [(c!"val", c!"1")] [], nl, E c!"c:showPercent" [(c!"val", c!"1")] [], nl], nl,
  E c!"c:val" [] ([nl, E c!"c:numRef" [] ([nl, E c!"c:f" [] ((addText [] (c!"Sheet1!$B$2:$B$" ++
  dec ((1 + s.values.length))))), nl, E c!"c:numCache" [] ([nl, E c!"c:formatCode" [] [.text
  c!"General"]] ++ chartPointsNodes s.values ++ [nl]), nl]), nl]), nl, E c!"c:cat" [] ([nl, E
  c!"c:strRef" [] ([nl, E c!"c:f" [] ((addText [] (c!"Sheet1!$A$2:$A$" ++ dec ((1 +
  cats.length))))), nl, E c!"c:strCache" [] ([nl, E c!"c:ptCount" [(c!"val", (dec (cats.length)))]
  []] ++ chartCategoriesNodes cats ++ [nl]), nl]), nl]), nl])]

theorem readsNodes_doughnutSeries (cats : List Str) (s : ChartSeries) (h : ∀ v ∈ s.values, Plain v) :
    ReadsNodes (doughnutSeries cats s) (doughnutSeriesNodes cats s) := by
  unfold doughnutSeries doughnutSeriesNodes
  exact Splits.readsNodes (((((Splits.lit (by all_ok)).append
    (.nodes (readsNodes_chartPoints h))).append
    (.lit (by all_ok))).append
    (.nodes (readsNodes_chartCategories cats))).append
    (.lit (by all_ok))) (by krfl)

/-- A series of a scatter chart. -/
def scatterSeriesNodes (idx : Nat) (s : ChartSeries) : List Node :=
  [nl, E c!"c:ser" [] ([nl, E c!"c:idx" [(c!"val", (dec (idx)))] [], nl, E c!"c:order" [(c!"val",
  (dec (idx)))] [], nl, E c!"c:tx" [] [nl, E c!"c:strRef" [] [nl, E c!"c:f" [] [.text
  c!"Sheet1!$B$1"], nl, E c!"c:strCache" [] [nl, E c!"c:ptCount" [(c!"val", c!"1")] [], nl, E
  c!"c:pt" [(c!"idx", c!"0")] [E c!"c:v" [] ((addText [] s.name))], nl], nl], nl], nl, E c!"c:xVal"
  [] ([nl, E c!"c:numRef" [] ([nl, E c!"c:f" [] ((addText [] (c!"Sheet1!$A$2:$A$" ++ dec ((1 +
  s.values.length))))), nl, E c!"c:numCache" [] ([nl, E c!"c:formatCode" [] [.text c!"General"]] ++
  chartPositionsNodes s.values ++ [nl]), nl]), nl]), nl, E c!"c:yVal" [] ([nl, E c!"c:numRef" []
  ([nl, E c!"c:f" [] ((addText [] (c!"Sheet1!$B$2:$B$" ++ dec ((1 + s.values.length))))), nl, E
  c!"c:numCache" [] ([nl, E c!"c:formatCode" [] [.text c!"General"]] ++ chartPointsNodes s.values
  ++ [nl]), nl]), nl]), nl])]

theorem readsNodes_scatterSeries (idx : Nat) (s : ChartSeries) (h : ∀ v ∈ s.values, Plain v) :
    ReadsNodes (scatterSeries idx s) (scatterSeriesNodes idx s) := by
  unfold scatterSeries scatterSeriesNodes
  exact Splits.readsNodes (((((Splits.lit (by all_ok)).append
    (.nodes (readsNodes_chartPositions s.values))).append
    (.lit (by all_ok))).append
    (.nodes (readsNodes_chartPoints h))).append
    (.lit (by all_ok))) (by krfl)

/-- A series of a bubble chart. -/
def bubbleSeriesNodes (idx : Nat) (s : ChartSeries) : List Node :=
  [nl, E c!"c:ser" [] ([nl, E c!"c:idx" [(c!"val", (dec (idx)))] [], nl, E c!"c:order" [(c!"val",
  (dec (idx)))] [], nl, E c!"c:tx" [] [nl, E c!"c:strRef" [] [nl, E c!"c:f" [] [.text
  c!"Sheet1!$B$1"], nl, E c!"c:strCache" [] [nl, E c!"c:ptCount" [(c!"val", c!"1")] [], nl, E
  c!"c:pt" [(c!"idx", c!"0")] [E c!"c:v" [] ((addText [] s.name))], nl], nl], nl], nl, E c!"c:xVal"
  [] ([nl, E c!"c:numRef" [] ([nl, E c!"c:f" [] ((addText [] (c!"Sheet1!$A$2:$A$" ++ dec ((1 +
  s.values.length))))), nl, E c!"c:numCache" [] ([nl, E c!"c:formatCode" [] [.text c!"General"]] ++
  chartPositionsNodes s.values ++ [nl]), nl]), nl]), nl, E c!"c:yVal" [] ([nl, E c!"c:numRef" []
  ([nl, E c!"c:f" [] ((addText [] (c!"Sheet1!$B$2:$B$" ++ dec ((1 + s.values.length))))), nl, E
  c!"c:numCache" [] ([nl, E c!"c:formatCode" [] [.text c!"General"]] ++ chartPointsNodes s.values
  ++ [nl]), nl]), nl]), nl, E c!"c:bubbleSize" [] ([nl, E c!"c:numRef" [] ([nl, E c!"c:f" []
  ((addText [] (c!"Sheet1!$C$2:$C$" ++ dec ((1 + s.values.length))))), nl, E c!"c:numCache" []
  ([nl, E c!"c:formatCode" [] [.text c!"General"]] ++ chartPointsNodes (s.values.map absText) ++
  [nl]), nl]), nl]), nl])]

theorem readsNodes_bubbleSeries (idx : Nat) (s : ChartSeries) (h : ∀ v ∈ s.values, Plain v) 
    (h2 : ∀ v ∈ s.values.map absText, Plain v) :
    ReadsNodes (bubbleSeries idx s) (bubbleSeriesNodes idx s) := by
  unfold bubbleSeries bubbleSeriesNodes
  exact Splits.readsNodes (((((((Splits.lit (by all_ok)).append
    (.nodes (readsNodes_chartPositions s.values))).append
    (.lit (by all_ok))).append
    (.nodes (readsNodes_chartPoints h))).append
    (.lit (by all_ok))).append
    (.nodes (readsNodes_chartPoints h2))).append
    (.lit (by all_ok))) (by krfl)

/-- The bars of a bar chart. -/
def barGroupNodes (ks : List Node) : List Node :=
  [E c!"c:barChart" [] ([nl, E c!"c:barDir" [(c!"val", c!"bar")] [], nl, E c!"c:grouping"
  [(c!"val", c!"clustered")] []] ++ ks)]

theorem readsNodes_barGroup {inner : List Part} {ks : List Node} (h : ReadsNodes inner ks) :
    ReadsNodes (barGroup inner) (barGroupNodes ks) := by
  unfold barGroup barGroupNodes
  exact Splits.readsNodes (((Splits.lit (by all_ok)).append
    (.nodes h)).append
    (.lit (by all_ok))) (by krfl)

/-- The lines of a line chart. -/
def lineGroupNodes (ks : List Node) : List Node :=
  [E c!"c:lineChart" [] ([nl, E c!"c:grouping" [(c!"val", c!"lineMarkers")] []] ++ ks)]

theorem readsNodes_lineGroup {inner : List Part} {ks : List Node} (h : ReadsNodes inner ks) :
    ReadsNodes (lineGroup inner) (lineGroupNodes ks) := by
  unfold lineGroup lineGroupNodes
  exact Splits.readsNodes (((Splits.lit (by all_ok)).append
    (.nodes h)).append
    (.lit (by all_ok))) (by krfl)

/-- A pie. -/
def pieGroupNodes (ks : List Node) : List Node :=
  [E c!"c:pieChart" [] ([nl, E c!"c:varyColors" [(c!"val", c!"1")] []] ++ ks)]

theorem readsNodes_pieGroup {inner : List Part} {ks : List Node} (h : ReadsNodes inner ks) :
    ReadsNodes (pieGroup inner) (pieGroupNodes ks) := by
  unfold pieGroup pieGroupNodes
  exact Splits.readsNodes (((Splits.lit (by all_ok)).append
    (.nodes h)).append
    (.lit (by all_ok))) (by krfl)

/-- A doughnut. -/
def doughnutGroupNodes (ks : List Node) : List Node :=
  [E c!"c:doughnutChart" [] ([nl, E c!"c:varyColors" [(c!"val", c!"1")] [], nl, E c!"c:holeSize"
  [(c!"val", c!"50")] []] ++ ks)]

theorem readsNodes_doughnutGroup {inner : List Part} {ks : List Node} (h : ReadsNodes inner ks) :
    ReadsNodes (doughnutGroup inner) (doughnutGroupNodes ks) := by
  unfold doughnutGroup doughnutGroupNodes
  exact Splits.readsNodes (((Splits.lit (by all_ok)).append
    (.nodes h)).append
    (.lit (by all_ok))) (by krfl)

/-- The areas of an area chart. -/
def areaGroupNodes (style : Str) (ks : List Node) : List Node :=
  [E c!"c:areaChart" [] ([nl, E c!"c:grouping" [(c!"val", style)] []] ++ ks)]

theorem readsNodes_areaGroup (style : Str) {inner : List Part} {ks : List Node} (hs : Plain style) (h : ReadsNodes inner ks) :
    ReadsNodes (areaGroup style inner) (areaGroupNodes style ks) := by
  unfold areaGroup areaGroupNodes
  exact Splits.readsNodes (((Splits.lit (by all_ok)).append
    (.nodes h)).append
    (.lit (by all_ok))) (by krfl)

/-- The points of a scatter chart. -/
def scatterGroupNodes (style : Str) (ks : List Node) : List Node :=
  [E c!"c:scatterChart" [] ([nl, E c!"c:scatterStyle" [(c!"val", style)] []] ++ ks)]

theorem readsNodes_scatterGroup (style : Str) {inner : List Part} {ks : List Node} (hs : Plain style) (h : ReadsNodes inner ks) :
    ReadsNodes (scatterGroup style inner) (scatterGroupNodes style ks) := by
  unfold scatterGroup scatterGroupNodes
  exact Splits.readsNodes (((Splits.lit (by all_ok)).append
    (.nodes h)).append
    (.lit (by all_ok))) (by krfl)

/-- The bubbles of a bubble chart. -/
def bubbleGroupNodes (ks : List Node) : List Node :=
  [E c!"c:bubbleChart" [] ([nl, E c!"c:varyColors" [(c!"val", c!"0")] [], nl, E c!"c:bubbleScale"
  [(c!"val", c!"100")] []] ++ ks)]

theorem readsNodes_bubbleGroup {inner : List Part} {ks : List Node} (h : ReadsNodes inner ks) :
    ReadsNodes (bubbleGroup inner) (bubbleGroupNodes ks) := by
  unfold bubbleGroup bubbleGroupNodes
  exact Splits.readsNodes (((Splits.lit (by all_ok)).append
    (.nodes h)).append
    (.lit (by all_ok))) (by krfl)

/-- The lines of a radar chart. -/
def radarGroupNodes (style : Str) (ks : List Node) : List Node :=
  [E c!"c:radarChart" [] ([nl, E c!"c:radarStyle" [(c!"val", style)] []] ++ ks)]

theorem readsNodes_radarGroup (style : Str) {inner : List Part} {ks : List Node} (hs : Plain style) (h : ReadsNodes inner ks) :
    ReadsNodes (radarGroup style inner) (radarGroupNodes style ks) := by
  unfold radarGroup radarGroupNodes
  exact Splits.readsNodes (((Splits.lit (by all_ok)).append
    (.nodes h)).append
    (.lit (by all_ok))) (by krfl)

/-- The lines of a stock chart. -/
def stockGroupNodes (ks : List Node) : List Node :=
  [E c!"c:stockChart" [] (ks)]

theorem readsNodes_stockGroup {inner : List Part} {ks : List Node} (h : ReadsNodes inner ks) :
    ReadsNodes (stockGroup inner) (stockGroupNodes ks) := by
  unfold stockGroup stockGroupNodes
  exact Splits.readsNodes (((Splits.lit (by all_ok)).append
    (.nodes h)).append
    (.lit (by all_ok))) (by krfl)

/-- The bars of a combination chart. -/
def comboBarsNodes (ks : List Node) : List Node :=
  [E c!"c:barChart" [] ([nl, E c!"c:barDir" [(c!"val", c!"col")] [], nl, E c!"c:grouping"
  [(c!"val", c!"clustered")] []] ++ ks)]

theorem readsNodes_comboBars {inner : List Part} {ks : List Node} (h : ReadsNodes inner ks) :
    ReadsNodes (comboBars inner) (comboBarsNodes ks) := by
  unfold comboBars comboBarsNodes
  exact Splits.readsNodes (((Splits.lit (by all_ok)).append
    (.nodes h)).append
    (.lit (by all_ok))) (by krfl)

/-- The lines of a combination chart. -/
def comboLinesNodes (ks : List Node) : List Node :=
  [E c!"c:lineChart" [] ([nl, E c!"c:grouping" [(c!"val", c!"standard")] []] ++ ks)]

theorem readsNodes_comboLines {inner : List Part} {ks : List Node} (h : ReadsNodes inner ks) :
    ReadsNodes (comboLines inner) (comboLinesNodes ks) := by
  unfold comboLines comboLinesNodes
  exact Splits.readsNodes (((Splits.lit (by all_ok)).append
    (.nodes h)).append
    (.lit (by all_ok))) (by krfl)

/-- A chart part without the XML declaration. -/
def chartBodyNodes (title : Str) (ks : List Node) : List Node :=
  [E c!"c:chartSpace" [(c!"xmlns:c", c!"http://schemas.openxmlformats.org/drawingml/2006/chart"),
  (c!"xmlns:a", c!"http://schemas.openxmlformats.org/drawingml/2006/main"), (c!"xmlns:r",
  c!"http://schemas.openxmlformats.org/officeDocument/2006/relationships")] ([nl, E c!"c:date1904"
  [(c!"val", c!"0")] [], nl, E c!"c:lang" [(c!"val", c!"en-US")] [], nl, E c!"c:roundedCorners"
  [(c!"val", c!"0")] [], nl, E c!"c:chart" [] ([nl, E c!"c:title" [] [nl, E c!"c:tx" [] [nl, E
  c!"c:rich" [] [nl, E c!"a:bodyPr" [] [], nl, E c!"a:lstStyle" [] [], nl, E c!"a:p" [] [nl, E
  c!"a:pPr" [] [nl, E c!"a:defRPr" [] [], nl], nl, E c!"a:r" [] [nl, E c!"a:rPr" [(c!"lang",
  c!"en-US"), (c!"sz", c!"1800"), (c!"b", c!"0"), (c!"i", c!"0"), (c!"u", c!"none"), (c!"strike",
  c!"noStrike")] [nl, E c!"a:solidFill" [] [nl, E c!"a:srgbClr" [(c!"val", c!"595959")] [], nl],
  nl, E c!"a:latin" [(c!"typeface", c!"Calibri")] [], nl], nl, E c!"a:t" [] ((addText [] title)),
  nl], nl], nl], nl], nl, E c!"c:layout" [] [], nl, E c!"c:overlay" [(c!"val", c!"0")] [], nl], nl,
  E c!"c:autoTitleDeleted" [(c!"val", c!"0")] [], nl, E c!"c:plotArea" [] ([nl, E c!"c:layout" []
  []] ++ ks), nl, E c!"c:legend" [] [nl, E c!"c:legendPos" [(c!"val", c!"r")] [], nl, E
  c!"c:layout" [] [], nl, E c!"c:overlay" [(c!"val", c!"0")] [], nl], nl, E c!"c:plotVisOnly"
  [(c!"val", c!"1")] [], nl, E c!"c:dispBlanksAs" [(c!"val", c!"gap")] [], nl, E
  c!"c:showDLblsOverMax" [(c!"val", c!"0")] [], nl]), nl, E c!"c:externalData" [(c!"r:id",
  c!"rId1")] [nl, E c!"c:autoUpdate" [(c!"val", c!"0")] [], nl], nl])]

theorem readsNodes_chartBody (title : Str) {inner : List Part} {ks : List Node} (h : ReadsNodes inner ks) :
    ReadsNodes (chartBody title inner) (chartBodyNodes title ks) := by
  unfold chartBody chartBodyNodes
  exact Splits.readsNodes (((Splits.lit (by all_ok)).append
    (.nodes h)).append
    (.lit (by all_ok))) (by krfl)

/-- All values of a chart are printed numbers: they contain no markup characters. -/
def Chart.NumbersOk (c : Chart) : Prop := ∀ s ∈ c.series, ∀ v ∈ s.values, Plain v

/-- The series. -/
def seriesFromNodes (first : Nat) (l : List ChartSeries) : List Node :=
  (l.zipIdx first).flatMap fun p => seriesDataNodes p.2 p.1

theorem readsNodes_seriesFrom {first : Nat} {l : List ChartSeries}
    (h : ∀ s ∈ l, ∀ v ∈ s.values, Plain v) : ReadsNodes (seriesFrom first l) (seriesFromNodes first l) :=
  readsNodes_flatMap fun _ hp => readsNodes_seriesData _ _ (h _ (List.fst_mem_of_mem_zipIdx hp))

/-- The plot area. -/
def plotAreaNodes (c : Chart) : List Node :=
  match c.type with
  | .bar | .barHorizontal | .barStacked | .barStacked100 =>
    barGroupNodes (seriesFromNodes 0 c.series ++ categoryAxisNodes c.categories c!"l" ++ valueAxisNodes c!"b")
  | .line | .lineMarkers | .lineStacked =>
    lineGroupNodes (seriesFromNodes 0 c.series ++ categoryAxisNodes c.categories c!"b" ++ valueAxisNodes c!"l")
  | .pie => pieGroupNodes (c.series.head?.toList.flatMap (pieSeriesNodes c.categories))
  | .doughnut => doughnutGroupNodes (c.series.head?.toList.flatMap (doughnutSeriesNodes c.categories))
  | .area | .areaStacked | .areaStacked100 =>
    areaGroupNodes (c.type.grouping.getD c!"standard")
      (seriesFromNodes 0 c.series ++ categoryAxisNodes c.categories c!"b" ++ valueAxisNodes c!"l")
  | .scatter | .scatterLines | .scatterSmooth =>
    scatterGroupNodes (c.type.scatterStyle.getD c!"lineMarker")
      ((c.series.zipIdx.flatMap fun p => scatterSeriesNodes p.2 p.1) ++ valueAxisNodes c!"b"
        ++ valueAxisNodes c!"l")
  | .bubble =>
    bubbleGroupNodes
      ((c.series.zipIdx.flatMap fun p => bubbleSeriesNodes p.2 p.1) ++ valueAxisNodes c!"b"
        ++ valueAxisNodes c!"l")
  | .radar | .radarFilled =>
    radarGroupNodes (c.type.radarStyle.getD c!"marker")
      (seriesFromNodes 0 c.series ++ categoryAxisNodes c.categories c!"b" ++ valueAxisNodes c!"l")
  | .stockHLC | .stockOHLC =>
    stockGroupNodes (seriesFromNodes 0 c.series ++ categoryAxisNodes c.categories c!"b" ++ valueAxisNodes c!"l")
  | .combo =>
    comboBarsNodes (seriesFromNodes 0 (c.series.take (max (c.series.length / 2) 1))
      ++ categoryAxisNodes c.categories c!"b" ++ valueAxisNodes c!"l")
    ++ (if 1 < c.series.length then
        comboLinesNodes (seriesFromNodes (c.series.length / 2)
          (c.series.drop (max (c.series.length / 2) 1)))
      else [])

theorem plain_absText {v : Str} (h : Plain v) : Plain (absText v) := by
  unfold absText
  split
  · obtain ⟨h1, h2, h3⟩ := h
    simp only [List.mem_cons, not_or] at h1 h2 h3
    exact ⟨h1.2, h2.2, h3.2⟩
  · exact h

theorem readsNodes_plotArea {c : Chart} (h : c.NumbersOk) : ReadsNodes (plotArea c) (plotAreaNodes c) := by
  obtain ⟨title, type, cats, series⟩ := c
  have ax : ∀ {ps ks} (p q : Str), Plain p → Plain q → ReadsNodes ps ks →
      ReadsNodes (ps ++ categoryAxis cats p ++ valueAxis q)
        (ks ++ categoryAxisNodes cats p ++ valueAxisNodes q) := fun p q hp hq hh =>
    ReadsNodes.append (ReadsNodes.append hh (readsNodes_categoryAxis _ _ hp)) (readsNodes_valueAxis _ hq)
  have pl : Plain c!"l" := plain_of (by decide)
  have pb : Plain c!"b" := plain_of (by decide)
  have hs := ax _ _ pb pl (readsNodes_seriesFrom (first := 0) h)
  have va : ∀ {ps ks}, ReadsNodes ps ks → ReadsNodes (ps ++ valueAxis c!"b" ++ valueAxis c!"l")
      (ks ++ valueAxisNodes c!"b" ++ valueAxisNodes c!"l") := fun hh =>
    ReadsNodes.append (ReadsNodes.append hh (readsNodes_valueAxis _ pb)) (readsNodes_valueAxis _ pl)
  have sc : ReadsNodes (series.zipIdx.flatMap fun p => scatterSeries p.2 p.1)
      (series.zipIdx.flatMap fun p => scatterSeriesNodes p.2 p.1) :=
    readsNodes_flatMap fun _ hp => readsNodes_scatterSeries _ _ (h _ (List.fst_mem_of_mem_zipIdx hp))
  have hd : ∀ s ∈ series.head?.toList, ∀ v ∈ s.values, Plain v := by
    intro s hs
    cases series with
    | nil => simp at hs
    | cons a l =>
      simp only [List.head?_cons, Option.toList_some, List.mem_singleton] at hs
      subst hs
      exact h _ (by simp)
  cases type
  case bar | barHorizontal | barStacked | barStacked100 =>
    exact readsNodes_barGroup (ax _ _ pl pb (readsNodes_seriesFrom h))
  case line | lineMarkers | lineStacked => exact readsNodes_lineGroup hs
  case pie => exact readsNodes_pieGroup (readsNodes_flatMap fun s hs => readsNodes_pieSeries _ _ (hd s hs))
  case doughnut =>
    exact readsNodes_doughnutGroup (readsNodes_flatMap fun s hs => readsNodes_doughnutSeries _ _ (hd s hs))
  case area | areaStacked | areaStacked100 => exact readsNodes_areaGroup _ (plain_of rfl) hs
  case scatter | scatterLines | scatterSmooth =>
    exact readsNodes_scatterGroup _ (plain_of rfl) (va sc)
  case bubble =>
    refine readsNodes_bubbleGroup (va (readsNodes_flatMap fun p hp => ?_))
    have := h _ (List.fst_mem_of_mem_zipIdx hp)
    refine readsNodes_bubbleSeries _ _ this fun v hv => ?_
    obtain ⟨w, hw, rfl⟩ := List.mem_map.mp hv
    exact plain_absText (this w hw)
  case radar | radarFilled => exact readsNodes_radarGroup _ (plain_of rfl) hs
  case stockHLC | stockOHLC => exact readsNodes_stockGroup hs
  case combo =>
    refine ReadsNodes.append (readsNodes_comboBars (ax _ _ pb pl (readsNodes_seriesFrom
      fun s hs => h s (List.mem_of_mem_take hs)))) ?_
    by_cases h1 : 1 < series.length
    · simp only [if_pos h1]
      exact readsNodes_comboLines (readsNodes_seriesFrom fun s hs => h s (List.mem_of_mem_drop hs))
    · simp only [if_neg h1]
      exact readsNodes_nil

/-- What is read from a chart part. -/
theorem document_chart {c : Chart} (h : c.NumbersOk) :
    document (generateChartPartXml c) = some (chartBodyNodes c.title (plotAreaNodes c)) :=
  document_decl (readsNodes_chartBody _ (readsNodes_plotArea h)) ⟨_, rfl⟩

end PptRs
