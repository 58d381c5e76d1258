import Verif.Spec.Inline

/-!
# Reading a text body

ECMA-376 21.1.2: the properties of the body, the paragraphs with their properties, and the runs.
-/

namespace PptRs.Spec

open PptRs

/-- A run as it is shown. -/
structure RunShown where
  text : Str
  look : Option RunLook
  baseline : Option Str
  highlight : Option Str
deriving DecidableEq

/-- Reading an `a:r` element. -/
def runShown (k : Node) : RunShown :=
  let p := child c!"a:rPr" k
  ⟨(runRead k).1, (runRead k).2, p.bind (attrOf c!"baseline"),
    ((p.bind (child c!"a:highlight")).bind (child c!"a:srgbClr")).bind (attrOf c!"val")⟩

/-- A paragraph as it is shown. -/
structure ParaShown where
  align : Option Str
  level : Option Str
  bullet : Option Str
  before : Option Str
  after : Option Str
  line : Option Str
  runs : List RunShown
deriving DecidableEq

/-- A distance in hundredths of a point. -/
def spacing (n : Str) (k : Node) : Option Str :=
  ((child n k).bind (child c!"a:spcPts")).bind (attrOf c!"val")

/-- Reading an `a:p` element. -/
def paraShown (k : Node) : ParaShown :=
  let p := child c!"a:pPr" k
  ⟨p.bind (attrOf c!"algn"), p.bind (attrOf c!"lvl"), (p.bind (child c!"a:buChar")).bind (attrOf c!"char"),
    p.bind (spacing c!"a:spcBef"), p.bind (spacing c!"a:spcAft"), p.bind (spacing c!"a:lnSpc"),
    (path [c!"a:r"] k).map runShown⟩

/-- A text body as it is shown. -/
structure BodyShown where
  wrap : Option Str
  /-- left, right, top, bottom -/
  margins : List (Option Str)
  anchor : Option Str
  paras : List ParaShown
deriving DecidableEq

/-- Reading a `p:txBody` element. -/
def bodyShown (k : Node) : BodyShown :=
  let b := child c!"a:bodyPr" k
  ⟨b.bind (attrOf c!"wrap"), [c!"lIns", c!"rIns", c!"tIns", c!"bIns"].map (fun n => b.bind (attrOf n)),
    b.bind (attrOf c!"anchor"), (path [c!"a:p"] k).map paraShown⟩

end PptRs.Spec
