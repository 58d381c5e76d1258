import Verif.Model.Parts

/-!
# Charts

The XML of chart parts, src/generator/charts/xml.rs. Numbers (`f64`) are modelled by their printed text.
-/

namespace PptRs

/-- src/generator/charts/types.rs 6-48. -/
inductive ChartType
  | bar | barHorizontal | barStacked | barStacked100 | line | lineMarkers | lineStacked | pie | doughnut
  | area | areaStacked | areaStacked100 | scatter | scatterLines | scatterSmooth | bubble | radar
  | radarFilled | stockHLC | stockOHLC | combo
deriving DecidableEq, Repr

/-- src/generator/charts/data.rs 7-10. -/
structure ChartSeries where
  name : Str
  values : List Str
deriving DecidableEq, Repr

/-- src/generator/charts/data.rs 34-43, without position and size. -/
structure Chart where
  title : Str
  type : ChartType
  categories : List Str
  series : List ChartSeries
deriving DecidableEq, Repr

/-- src/generator/charts/types.rs 105-113. -/
def ChartType.grouping : ChartType → Option Str
  | .bar | .barHorizontal => some c!"clustered"
  | .barStacked | .lineStacked | .areaStacked => some c!"stacked"
  | .barStacked100 | .areaStacked100 => some c!"percentStacked"
  | .line | .lineMarkers | .area => some c!"standard"
  | _ => none

/-- src/generator/charts/types.rs 126-133. -/
def ChartType.scatterStyle : ChartType → Option Str
  | .scatter => some c!"marker"
  | .scatterLines => some c!"lineMarker"
  | .scatterSmooth => some c!"smoothMarker"
  | _ => none

/-- src/generator/charts/types.rs 136-142. -/
def ChartType.radarStyle : ChartType → Option Str
  | .radar => some c!"marker"
  | .radarFilled => some c!"filled"
  | _ => none

/-- A point of a series. src/generator/charts/xml.rs 147-149. -/
def chartPoint (idx : Nat) (value : Str) : List Part :=
  t!"\n<c:pt idx=\"{.num idx}\">\n<c:v>{.raw value}</c:v>\n</c:pt>"

/-- A category. src/generator/charts/xml.rs 190-195. -/
def chartCategory (idx : Nat) (cat : Str) : List Part :=
  t!"\n<c:pt idx=\"{.num idx}\">\n<c:v>{.esc cat}</c:v>\n</c:pt>"

/-- The points with their positions. src/generator/charts/xml.rs 309-317, 395-403, 519-527, 600-608. -/
def chartPoints (values : List Str) : List Part := values.zipIdx.flatMap fun p => chartPoint p.2 p.1

/-- The points of a series in the shared function: the index is always 0.
src/generator/charts/xml.rs 144-152. -/
def chartPoints0 (values : List Str) : List Part := values.flatMap fun v => chartPoint 0 v

/-- src/generator/charts/xml.rs 496-504: the positions, counted from 1, as values. -/
def chartPositions (values : List Str) : List Part :=
  values.zipIdx.flatMap fun p => chartPoint p.2 (dec (p.2 + 1))

/-- `f64::abs` on printed numbers. -/
def absText : Str → Str
  | '-' :: s => s
  | s => s

/-- src/generator/charts/xml.rs 188-196. -/
def chartCategories (cats : List Str) : List Part := cats.zipIdx.flatMap fun p => chartCategory p.2 p.1

/-- A series of a bar, line, area, radar, stock or combo chart. src/generator/charts/xml.rs 113-163. -/
def seriesData (idx : Nat) (s : ChartSeries) : List Part :=
  t!"\n<c:ser>\n<c:idx val=\"{.num idx}\"/>\n<c:order val=\"{.num idx}\"/>\n<c:title>\n<c:tx>\n<c:rich>\n<a:bodyPr/>\n<a:lstStyle/>\n<a:p>\n<a:r>\n<a:rPr lang=\"en-US\" sz=\"1000\"/>\n<a:t>{.esc s.name}</a:t>\n</a:r>\n</a:p>\n</c:rich>\n</c:tx>\n</c:title>\n<c:dLbls>\n<c:showVal val=\"0\"/>\n</c:dLbls>\n<c:val>\n<c:numRef>\n<c:f>Sheet1!$B${.num (2 + idx)}:$B${.num (2 + idx + s.values.length)}</c:f>\n<c:numCache>\n<c:formatCode>General</c:formatCode>" ++ chartPoints0 s.values ++ t!"\n</c:numCache>\n</c:numRef>\n</c:val>\n</c:ser>"

/-- The category axis. src/generator/charts/xml.rs 166-206. -/
def categoryAxis (cats : List Str) (pos : Str) : List Part :=
  t!"\n<c:catAx>\n<c:axId val=\"1\"/>\n<c:scaling>\n<c:orientation val=\"minMax\"/>\n</c:scaling>\n<c:delete val=\"0\"/>\n<c:axPos val=\"{.raw pos}\"/>\n<c:majorGridlines/>\n<c:numFmt formatCode=\"General\" sourceLinked=\"1\"/>\n<c:tickLblPos val=\"low\"/>\n<c:crossAx val=\"2\"/>\n<c:crosses val=\"autoZero\"/>\n<c:strRef>\n<c:f>Sheet1!$A$2:$A${.num (1 + cats.length)}</c:f>\n<c:strCache>\n<c:ptCount val=\"{.num cats.length}\"/>" ++ chartCategories cats ++ t!"\n</c:strCache>\n</c:strRef>\n</c:catAx>"

/-- A value axis. src/generator/charts/xml.rs 209-227. -/
def valueAxis (pos : Str) : List Part :=
  t!"\n<c:valAx>\n<c:axId val=\"2\"/>\n<c:scaling>\n<c:orientation val=\"minMax\"/>\n</c:scaling>\n<c:delete val=\"0\"/>\n<c:axPos val=\"{.raw pos}\"/>\n<c:majorGridlines/>\n<c:numFmt formatCode=\"General\" sourceLinked=\"1\"/>\n<c:tickLblPos val=\"low\"/>\n<c:crossAx val=\"1\"/>\n<c:crosses val=\"autoZero\"/>\n</c:valAx>"

/-- The series of a pie chart. src/generator/charts/xml.rs 277-349. -/
def pieSeries (cats : List Str) (s : ChartSeries) : List Part :=
  t!"\n<c:ser>\n<c:idx val=\"0\"/>\n<c:order val=\"0\"/>\n<c:title>\n<c:tx>\n<c:rich>\n<a:bodyPr/>\n<a:lstStyle/>\n<a:p>\n<a:r>\n<a:rPr lang=\"en-US\" sz=\"1000\"/>\n<a:t>{.esc s.name}</a:t>\n</a:r>\n</a:p>\n</c:rich>\n</c:tx>\n</c:title>\n<c:dLbls>\n<c:showCatName val=\"1\"/>\n<c:showPercent val=\"1\"/>\n</c:dLbls>\n<c:val>\n<c:numRef>\n<c:f>Sheet1!$B$2:$B${.num (1 + s.values.length)}</c:f>\n<c:numCache>\n<c:formatCode>General</c:formatCode>" ++ chartPoints s.values ++ t!"\n</c:numCache>\n</c:numRef>\n</c:val>\n<c:cat>\n<c:strRef>\n<c:f>Sheet1!$A$2:$A${.num (1 + cats.length)}</c:f>\n<c:strCache>\n<c:ptCount val=\"{.num cats.length}\"/>" ++ chartCategories cats ++ t!"\n</c:strCache>\n</c:strRef>\n</c:cat>\n</c:ser>"

/-- The series of a doughnut chart. src/generator/charts/xml.rs 368-435. -/
def doughnutSeries (cats : List Str) (s : ChartSeries) : List Part :=
  t!"\n<c:ser>\n<c:idx val=\"0\"/>\n<c:order val=\"0\"/>\n<c:tx>\n<c:strRef>\n<c:f>Sheet1!$B$1</c:f>\n<c:strCache>\n<c:ptCount val=\"1\"/>\n<c:pt idx=\"0\"><c:v>{.esc s.name}</c:v></c:pt>\n</c:strCache>\n</c:strRef>\n</c:tx>\n<c:dLbls>\n<c:showCatName val=\"1\"/>\n<c:showPercent val=\"1\"/>\n</c:dLbls>\n<c:val>\n<c:numRef>\n<c:f>Sheet1!$B$2:$B${.num (1 + s.values.length)}</c:f>\n<c:numCache>\n<c:formatCode>General</c:formatCode>" ++ chartPoints s.values ++ t!"\n</c:numCache>\n</c:numRef>\n</c:val>\n<c:cat>\n<c:strRef>\n<c:f>Sheet1!$A$2:$A${.num (1 + cats.length)}</c:f>\n<c:strCache>\n<c:ptCount val=\"{.num cats.length}\"/>" ++ chartCategories cats ++ t!"\n</c:strCache>\n</c:strRef>\n</c:cat>\n</c:ser>"

/-- A series of a scatter chart. src/generator/charts/xml.rs 473-535. -/
def scatterSeries (idx : Nat) (s : ChartSeries) : List Part :=
  t!"\n<c:ser>\n<c:idx val=\"{.num idx}\"/>\n<c:order val=\"{.num idx}\"/>\n<c:tx>\n<c:strRef>\n<c:f>Sheet1!$B$1</c:f>\n<c:strCache>\n<c:ptCount val=\"1\"/>\n<c:pt idx=\"0\"><c:v>{.esc s.name}</c:v></c:pt>\n</c:strCache>\n</c:strRef>\n</c:tx>\n<c:xVal>\n<c:numRef>\n<c:f>Sheet1!$A$2:$A${.num (1 + s.values.length)}</c:f>\n<c:numCache>\n<c:formatCode>General</c:formatCode>" ++ chartPositions s.values ++ t!"\n</c:numCache>\n</c:numRef>\n</c:xVal>\n<c:yVal>\n<c:numRef>\n<c:f>Sheet1!$B$2:$B${.num (1 + s.values.length)}</c:f>\n<c:numCache>\n<c:formatCode>General</c:formatCode>" ++ chartPoints s.values ++ t!"\n</c:numCache>\n</c:numRef>\n</c:yVal>\n</c:ser>"

/-- A series of a bubble chart. src/generator/charts/xml.rs 555-640. -/
def bubbleSeries (idx : Nat) (s : ChartSeries) : List Part :=
  t!"\n<c:ser>\n<c:idx val=\"{.num idx}\"/>\n<c:order val=\"{.num idx}\"/>\n<c:tx>\n<c:strRef>\n<c:f>Sheet1!$B$1</c:f>\n<c:strCache>\n<c:ptCount val=\"1\"/>\n<c:pt idx=\"0\"><c:v>{.esc s.name}</c:v></c:pt>\n</c:strCache>\n</c:strRef>\n</c:tx>\n<c:xVal>\n<c:numRef>\n<c:f>Sheet1!$A$2:$A${.num (1 + s.values.length)}</c:f>\n<c:numCache>\n<c:formatCode>General</c:formatCode>" ++ chartPositions s.values ++ t!"\n</c:numCache>\n</c:numRef>\n</c:xVal>\n<c:yVal>\n<c:numRef>\n<c:f>Sheet1!$B$2:$B${.num (1 + s.values.length)}</c:f>\n<c:numCache>\n<c:formatCode>General</c:formatCode>" ++ chartPoints s.values ++ t!"\n</c:numCache>\n</c:numRef>\n</c:yVal>\n<c:bubbleSize>\n<c:numRef>\n<c:f>Sheet1!$C$2:$C${.num (1 + s.values.length)}</c:f>\n<c:numCache>\n<c:formatCode>General</c:formatCode>" ++ chartPoints (s.values.map absText) ++ t!"\n</c:numCache>\n</c:numRef>\n</c:bubbleSize>\n</c:ser>"

/-- The bars of a bar chart. `inner` is what is inserted. src/generator/charts/xml.rs 233-243. -/
def barGroup (inner : List Part) : List Part :=
  t!"<c:barChart>\n<c:barDir val=\"bar\"/>\n<c:grouping val=\"clustered\"/>" ++ inner ++ t!"</c:barChart>"

/-- The lines of a line chart. `inner` is what is inserted. src/generator/charts/xml.rs 253-262. -/
def lineGroup (inner : List Part) : List Part :=
  t!"<c:lineChart>\n<c:grouping val=\"lineMarkers\"/>" ++ inner ++ t!"</c:lineChart>"

/-- A pie. `inner` is what is inserted. src/generator/charts/xml.rs 272-352. -/
def pieGroup (inner : List Part) : List Part :=
  t!"<c:pieChart>\n<c:varyColors val=\"1\"/>" ++ inner ++ t!"</c:pieChart>"

/-- A doughnut. `inner` is what is inserted. src/generator/charts/xml.rs 362-438. -/
def doughnutGroup (inner : List Part) : List Part :=
  t!"<c:doughnutChart>\n<c:varyColors val=\"1\"/>\n<c:holeSize val=\"50\"/>" ++ inner ++ t!"</c:doughnutChart>"

/-- The areas of an area chart. `inner` is what is inserted. src/generator/charts/xml.rs 449-458. -/
def areaGroup (style : Str) (inner : List Part) : List Part :=
  t!"<c:areaChart>\n<c:grouping val=\"{.raw style}\"/>" ++ inner ++ t!"</c:areaChart>"

/-- The points of a scatter chart. `inner` is what is inserted. src/generator/charts/xml.rs 469-540. -/
def scatterGroup (style : Str) (inner : List Part) : List Part :=
  t!"<c:scatterChart>\n<c:scatterStyle val=\"{.raw style}\"/>" ++ inner ++ t!"</c:scatterChart>"

/-- The bubbles of a bubble chart. `inner` is what is inserted. src/generator/charts/xml.rs 550-645. -/
def bubbleGroup (inner : List Part) : List Part :=
  t!"<c:bubbleChart>\n<c:varyColors val=\"0\"/>\n<c:bubbleScale val=\"100\"/>" ++ inner ++ t!"</c:bubbleChart>"

/-- The lines of a radar chart. `inner` is what is inserted. src/generator/charts/xml.rs 656-665. -/
def radarGroup (style : Str) (inner : List Part) : List Part :=
  t!"<c:radarChart>\n<c:radarStyle val=\"{.raw style}\"/>" ++ inner ++ t!"</c:radarChart>"

/-- The lines of a stock chart. `inner` is what is inserted. src/generator/charts/xml.rs 675-684. -/
def stockGroup (inner : List Part) : List Part :=
  t!"<c:stockChart>" ++ inner ++ t!"</c:stockChart>"

/-- The bars of a combination chart. `inner` is what is inserted. src/generator/charts/xml.rs 695-706. -/
def comboBars (inner : List Part) : List Part :=
  t!"<c:barChart>\n<c:barDir val=\"col\"/>\n<c:grouping val=\"clustered\"/>" ++ inner ++ t!"</c:barChart>"

/-- The lines of a combination chart. `inner` is what is inserted. src/generator/charts/xml.rs 710-717. -/
def comboLines (inner : List Part) : List Part :=
  t!"<c:lineChart>\n<c:grouping val=\"standard\"/>" ++ inner ++ t!"</c:lineChart>"

/-- A chart part without the XML declaration. `inner` is what is inserted. src/generator/charts/xml.rs 55-110. -/
def chartBody (title : Str) (inner : List Part) : List Part :=
  t!"<c:chartSpace xmlns:c=\"http://schemas.openxmlformats.org/drawingml/2006/chart\" xmlns:a=\"http://schemas.openxmlformats.org/drawingml/2006/main\" xmlns:r=\"http://schemas.openxmlformats.org/officeDocument/2006/relationships\">\n<c:date1904 val=\"0\"/>\n<c:lang val=\"en-US\"/>\n<c:roundedCorners val=\"0\"/>\n<c:chart>\n<c:title>\n<c:tx>\n<c:rich>\n<a:bodyPr/>\n<a:lstStyle/>\n<a:p>\n<a:pPr>\n<a:defRPr/>\n</a:pPr>\n<a:r>\n<a:rPr lang=\"en-US\" sz=\"1800\" b=\"0\" i=\"0\" u=\"none\" strike=\"noStrike\">\n<a:solidFill>\n<a:srgbClr val=\"595959\"/>\n</a:solidFill>\n<a:latin typeface=\"Calibri\"/>\n</a:rPr>\n<a:t>{.esc title}</a:t>\n</a:r>\n</a:p>\n</c:rich>\n</c:tx>\n<c:layout/>\n<c:overlay val=\"0\"/>\n</c:title>\n<c:autoTitleDeleted val=\"0\"/>\n<c:plotArea>\n<c:layout/>" ++ inner ++ t!"</c:plotArea>\n<c:legend>\n<c:legendPos val=\"r\"/>\n<c:layout/>\n<c:overlay val=\"0\"/>\n</c:legend>\n<c:plotVisOnly val=\"1\"/>\n<c:dispBlanksAs val=\"gap\"/>\n<c:showDLblsOverMax val=\"0\"/>\n</c:chart>\n<c:externalData r:id=\"rId1\">\n<c:autoUpdate val=\"0\"/>\n</c:externalData>\n</c:chartSpace>"

/-- The series with their positions, from a given number on. -/
def seriesFrom (first : Nat) (l : List ChartSeries) : List Part :=
  (l.zipIdx first).flatMap fun p => seriesData p.2 p.1

/-- The plot area of a chart, src/generator/charts/xml.rs 8-29 and the functions called there. -/
def plotArea (c : Chart) : List Part :=
  match c.type with
  | .bar | .barHorizontal | .barStacked | .barStacked100 =>
    barGroup (seriesFrom 0 c.series ++ categoryAxis c.categories c!"l" ++ valueAxis c!"b")
  | .line | .lineMarkers | .lineStacked =>
    lineGroup (seriesFrom 0 c.series ++ categoryAxis c.categories c!"b" ++ valueAxis c!"l")
  | .pie => pieGroup (c.series.head?.toList.flatMap (pieSeries c.categories))
  | .doughnut => doughnutGroup (c.series.head?.toList.flatMap (doughnutSeries c.categories))
  | .area | .areaStacked | .areaStacked100 =>
    areaGroup (c.type.grouping.getD c!"standard")
      (seriesFrom 0 c.series ++ categoryAxis c.categories c!"b" ++ valueAxis c!"l")
  | .scatter | .scatterLines | .scatterSmooth =>
    scatterGroup (c.type.scatterStyle.getD c!"lineMarker")
      ((c.series.zipIdx.flatMap fun p => scatterSeries p.2 p.1) ++ valueAxis c!"b" ++ valueAxis c!"l")
  | .bubble =>
    bubbleGroup
      ((c.series.zipIdx.flatMap fun p => bubbleSeries p.2 p.1) ++ valueAxis c!"b" ++ valueAxis c!"l")
  | .radar | .radarFilled =>
    radarGroup (c.type.radarStyle.getD c!"marker")
      (seriesFrom 0 c.series ++ categoryAxis c.categories c!"b" ++ valueAxis c!"l")
  | .stockHLC | .stockOHLC =>
    stockGroup (seriesFrom 0 c.series ++ categoryAxis c.categories c!"b" ++ valueAxis c!"l")
  | .combo =>
    comboBars (seriesFrom 0 (c.series.take (max (c.series.length / 2) 1))
      ++ categoryAxis c.categories c!"b" ++ valueAxis c!"l")
    ++ (if 1 < c.series.length then
        comboLines (seriesFrom (c.series.length / 2) (c.series.drop (max (c.series.length / 2) 1)))
      else [])

/-- src/generator/charts/xml.rs 8-29. -/
def generateChartPartXml (c : Chart) : Str := xmlDecl ++ fmt (chartBody c.title (plotArea c))

end PptRs
