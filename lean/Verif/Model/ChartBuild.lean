import Verif.Model.Charts
import Verif.Model.Drawing

/-!
# How charts are built

The builder of charts, src/generator/charts/builder.rs, src/core/placement.rs, src/helpers/mod.rs 270-308, and what a type of chart
says about itself, src/generator/charts/types.rs.
-/

namespace PptRs.ChartBuild

open PptRs PptRs.Draw

/-- `ElementPlacement`, src/core/placement.rs 4-10. -/
abbrev Placement := ChartBox

/-- `ElementPlacement::chart_defaults`, src/core/placement.rs 24-31. -/
def chartDefaults : Placement := ⟨0, 0, 5000000, 3750000⟩

/-- `set_position`, src/core/placement.rs 58-61. -/
def setPosition (p : Placement) (x y : Nat) : Placement := { p with x, y }

/-- `set_size`, src/core/placement.rs 64-67. -/
def setSize (p : Placement) (width height : Nat) : Placement := { p with width, height }

/-- `ChartBuilder`, src/generator/charts/builder.rs 8-14. -/
structure Builder where
  title : Str
  type : ChartType
  categories : List Str := []
  series : List ChartSeries := []
  placement : Placement := chartDefaults

/-- The methods of the builder, src/generator/charts/builder.rs 29-50. -/
inductive Op where
  | position (x y : Nat)
  | size (width height : Nat)
  | categories (l : List Str)
  | addSeries (s : ChartSeries)

/-- A call of a method, src/generator/charts/builder.rs 29-50. -/
def Builder.apply (b : Builder) : Op → Builder
  | .position x y => { b with placement := setPosition b.placement x y }
  | .size w h => { b with placement := setSize b.placement w h }
  | .categories l => { b with categories := l }
  | .addSeries s => { b with series := b.series ++ [s] }

/-- `ChartBuilder::new`, src/generator/charts/builder.rs 18-26. -/
def Builder.new (title : Str) (type : ChartType) : Builder := { title, type }

/-- `build`, src/generator/charts/builder.rs 53-64: the chart and its place. -/
def Builder.build (b : Builder) : Chart × ChartBox := (⟨b.title, b.type, b.categories, b.series⟩, b.placement)

/-- `bar_chart`, `line_chart`, `pie_chart` and `area_chart`, src/helpers/mod.rs 270-308. -/
def quickCharts (title : Str) : List Builder := [.new title .bar, .new title .line, .new title .pie, .new title .area]

/-- `as_str`, src/generator/charts/types.rs 52-76. -/
def typeName : ChartType → Str
  | .bar => c!"bar"
  | .barHorizontal => c!"barHorizontal"
  | .barStacked => c!"barStacked"
  | .barStacked100 => c!"barStacked100"
  | .line => c!"line"
  | .lineMarkers => c!"lineMarkers"
  | .lineStacked => c!"lineStacked"
  | .pie => c!"pie"
  | .doughnut => c!"doughnut"
  | .area => c!"area"
  | .areaStacked => c!"areaStacked"
  | .areaStacked100 => c!"areaStacked100"
  | .scatter => c!"scatter"
  | .scatterLines => c!"scatterLines"
  | .scatterSmooth => c!"scatterSmooth"
  | .bubble => c!"bubble"
  | .radar => c!"radar"
  | .radarFilled => c!"radarFilled"
  | .stockHLC => c!"stockHLC"
  | .stockOHLC => c!"stockOHLC"
  | .combo => c!"combo"

/-- `xml_element`, src/generator/charts/types.rs 79-93. -/
def xmlElement : ChartType → Str
  | .bar | .barStacked | .barStacked100 => c!"c:barChart"
  | .barHorizontal => c!"c:barChart"
  | .line | .lineMarkers | .lineStacked => c!"c:lineChart"
  | .pie => c!"c:pieChart"
  | .doughnut => c!"c:doughnutChart"
  | .area | .areaStacked | .areaStacked100 => c!"c:areaChart"
  | .scatter | .scatterLines | .scatterSmooth => c!"c:scatterChart"
  | .bubble => c!"c:bubbleChart"
  | .radar | .radarFilled => c!"c:radarChart"
  | .stockHLC | .stockOHLC => c!"c:stockChart"
  | .combo => c!"c:barChart"

/-- `bar_direction`, src/generator/charts/types.rs 96-102. -/
def barDirection : ChartType → Option Str
  | .bar | .barStacked | .barStacked100 => some c!"col"
  | .barHorizontal => some c!"bar"
  | _ => none

/-- `has_markers`, src/generator/charts/types.rs 116-118. -/
def hasMarkers : ChartType → Bool
  | .lineMarkers | .scatter | .scatterLines => true
  | _ => false

/-- `is_smooth`, src/generator/charts/types.rs 121-123. -/
def isSmooth : ChartType → Bool
  | .scatterSmooth => true
  | _ => false

end PptRs.ChartBuild
