import Verif.Spec.Parts
import Verif.Model.Charts

/-!
# Specification: reading a chart

ECMA-376 21.2: a chart has a title (`c:chart/c:title`) and series (`c:ser`); a series has an index
(`c:idx`), a name (`c:tx`), categories (`c:cat`) and values (`c:val`, in scatter and bubble charts `c:yVal`).
Categories and values are points (`c:pt`), which say by their `idx` attribute which category or value
they are.
-/

namespace PptRs.Spec

open PptRs

/-- The name of an element. -/
def nameOf : Node → Str
  | .text _ => []
  | .elem n _ _ => n

/-- The children of an element with a given name. -/
def childElems (name : Str) (k : Node) : List Node := (kidsOf k).filter fun c => nameOf c = name

/-- The title of a chart. -/
def chartTitle (doc : List Node) : List Str :=
  (elemsL c!"c:chart" doc).flatMap fun c => (childElems c!"c:title" c).flatMap runs

/-- The points in an element: the index of each and its content. -/
def pointsIn (k : Node) : List (Option Str × Str) :=
  (elems c!"c:pt" k).map fun p => (attrOf c!"idx" p, (textsOf c!"c:v" [p]).flatten)

/-- A series as it is read. -/
structure SeriesRead where
  index : Option Str
  name : List Str
  categories : List (Option Str × Str)
  values : List (Option Str × Str)
deriving DecidableEq

/-- Reading a series. -/
def readSeries (k : Node) : SeriesRead where
  index := (childElems c!"c:idx" k).head?.bind (attrOf c!"val")
  name := (childElems c!"c:tx" k).flatMap fun t => runs t ++ (pointsIn t).map (·.2)
  categories := (childElems c!"c:cat" k).flatMap pointsIn
  values := (childElems c!"c:val" k ++ childElems c!"c:yVal" k).flatMap pointsIn

/-- The series of a chart. -/
def chartSeriesOf (doc : List Node) : List SeriesRead := (elemsL c!"c:ser" doc).map readSeries

/-- The name of a series for a reader that looks for `c:tx` anywhere in it. -/
def looseName (k : Node) : List Str := (elems c!"c:tx" k).flatMap fun t => runs t ++ (pointsIn t).map (·.2)

/-- The names of all series for such a reader. -/
def looseNames (doc : List Node) : List (List Str) := (elemsL c!"c:ser" doc).map looseName

/-- The values of the series without their indices. -/
def valueTexts (doc : List Node) : List (List Str) := (chartSeriesOf doc).map fun s => s.values.map (·.2)

/-- The categories of the category axes, which is not where the standard looks for them. -/
def axisCategories (doc : List Node) : List (Option Str × Str) := (elemsL c!"c:catAx" doc).flatMap pointsIn

/-- The kinds of chart in a plot area, in order, with a property. -/
def groupProperty (group property : Str) (doc : List Node) : List (Option Str) :=
  (elemsL group doc).flatMap fun g => (childElems property g).map (attrOf c!"val")

/-- The identifiers of the axes. -/
def axisIds (doc : List Node) : List (Option Str) :=
  (elemsL c!"c:catAx" doc ++ elemsL c!"c:valAx" doc).flatMap fun a => (childElems c!"c:axId" a).map (attrOf c!"val")

/-- Points numbered from 0. -/
def indexed (l : List Str) : List (Option Str × Str) := l.zipIdx.map fun p => (some (dec p.2), p.1)

end PptRs.Spec
