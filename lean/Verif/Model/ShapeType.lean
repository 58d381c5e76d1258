import Verif.Model.Str

/-!
# The kinds of shapes, `src/generator/shapes.rs`
-/

namespace PptRs.Draw

/-- `ShapeType`, src/generator/shapes.rs 7-150. -/
inductive ShapeType where
  | rectangle | roundedRectangle | ellipse | circle | triangle | rightTriangle | diamond
  | pentagon | hexagon | octagon | rightArrow | leftArrow | upArrow | downArrow | leftRightArrow
  | upDownArrow | bentArrow | uTurnArrow | star4 | star5 | star6 | star8 | ribbon | wave
  | wedgeRectCallout | wedgeEllipseCallout | cloudCallout | flowChartProcess | flowChartDecision
  | flowChartTerminator | flowChartDocument | flowChartPredefinedProcess
  | flowChartInternalStorage | flowChartData | flowChartInputOutput | flowChartManualInput
  | flowChartManualOperation | flowChartConnector | flowChartOffPageConnector
  | flowChartPunchedCard | flowChartPunchedTape | flowChartSummingJunction | flowChartOr
  | flowChartCollate | flowChartSort | flowChartExtract | flowChartMerge | flowChartOnlineStorage
  | flowChartDelay | flowChartMagneticTape | flowChartMagneticDisk | flowChartMagneticDrum
  | flowChartDisplay | flowChartPreparation | curvedRightArrow | curvedLeftArrow | curvedUpArrow
  | curvedDownArrow | curvedLeftRightArrow | curvedUpDownArrow | stripedRightArrow
  | notchedRightArrow | pentagonArrow | chevronArrow | rightArrowCallout | leftArrowCallout
  | upArrowCallout | downArrowCallout | leftRightArrowCallout | upDownArrowCallout | quadArrow
  | leftRightUpArrow | circularArrow | parallelogram | trapezoid | nonIsoscelesTrapezoid
  | isoscelesTrapezoid | cube | can | cone | cylinder | bevel | donut | noSmoking | blockArc
  | foldedCorner | smileyFace | arc | chord | pie | teardrop | plaque | musicNote | pictureFrame
  | star10 | star12 | star16 | star24 | star32 | seal | seal4 | seal8 | seal16 | seal32
  | actionButtonBlank | actionButtonHome | actionButtonHelp | actionButtonInformation
  | actionButtonForwardNext | actionButtonBackPrevious | actionButtonBeginning | actionButtonEnd
  | actionButtonReturn | actionButtonDocument | actionButtonSound | actionButtonMovie | heart
  | lightning | sun | moon | cloud | brace | bracket | plus | minus
deriving DecidableEq, Repr

/-- `ShapeType::preset_name`, src/generator/shapes.rs 154-289. -/
def ShapeType.presetName : ShapeType → Str
  | .rectangle => c!"rect"
  | .roundedRectangle => c!"roundRect"
  | .ellipse => c!"ellipse"
  | .circle => c!"ellipse"
  | .triangle => c!"triangle"
  | .rightTriangle => c!"rtTriangle"
  | .diamond => c!"diamond"
  | .pentagon => c!"pentagon"
  | .hexagon => c!"hexagon"
  | .octagon => c!"octagon"
  | .rightArrow => c!"rightArrow"
  | .leftArrow => c!"leftArrow"
  | .upArrow => c!"upArrow"
  | .downArrow => c!"downArrow"
  | .leftRightArrow => c!"leftRightArrow"
  | .upDownArrow => c!"upDownArrow"
  | .bentArrow => c!"bentArrow"
  | .uTurnArrow => c!"uturnArrow"
  | .star4 => c!"star4"
  | .star5 => c!"star5"
  | .star6 => c!"star6"
  | .star8 => c!"star8"
  | .ribbon => c!"ribbon2"
  | .wave => c!"wave"
  | .wedgeRectCallout => c!"wedgeRectCallout"
  | .wedgeEllipseCallout => c!"wedgeEllipseCallout"
  | .cloudCallout => c!"cloudCallout"
  | .flowChartProcess => c!"flowChartProcess"
  | .flowChartDecision => c!"flowChartDecision"
  | .flowChartTerminator => c!"flowChartTerminator"
  | .flowChartDocument => c!"flowChartDocument"
  | .flowChartPredefinedProcess => c!"flowChartPredefinedProcess"
  | .flowChartInternalStorage => c!"flowChartInternalStorage"
  | .flowChartData => c!"flowChartData"
  | .flowChartInputOutput => c!"flowChartInputOutput"
  | .flowChartManualInput => c!"flowChartManualInput"
  | .flowChartManualOperation => c!"flowChartManualOperation"
  | .flowChartConnector => c!"flowChartConnector"
  | .flowChartOffPageConnector => c!"flowChartOffPageConnector"
  | .flowChartPunchedCard => c!"flowChartPunchedCard"
  | .flowChartPunchedTape => c!"flowChartPunchedTape"
  | .flowChartSummingJunction => c!"flowChartSummingJunction"
  | .flowChartOr => c!"flowChartOr"
  | .flowChartCollate => c!"flowChartCollate"
  | .flowChartSort => c!"flowChartSort"
  | .flowChartExtract => c!"flowChartExtract"
  | .flowChartMerge => c!"flowChartMerge"
  | .flowChartOnlineStorage => c!"flowChartOnlineStorage"
  | .flowChartDelay => c!"flowChartDelay"
  | .flowChartMagneticTape => c!"flowChartMagneticTape"
  | .flowChartMagneticDisk => c!"flowChartMagneticDisk"
  | .flowChartMagneticDrum => c!"flowChartMagneticDrum"
  | .flowChartDisplay => c!"flowChartDisplay"
  | .flowChartPreparation => c!"flowChartPreparation"
  | .curvedRightArrow => c!"curvedRightArrow"
  | .curvedLeftArrow => c!"curvedLeftArrow"
  | .curvedUpArrow => c!"curvedUpArrow"
  | .curvedDownArrow => c!"curvedDownArrow"
  | .curvedLeftRightArrow => c!"curvedLeftRightArrow"
  | .curvedUpDownArrow => c!"curvedUpDownArrow"
  | .stripedRightArrow => c!"stripedRightArrow"
  | .notchedRightArrow => c!"notchedRightArrow"
  | .pentagonArrow => c!"pentArrow"
  | .chevronArrow => c!"chevron"
  | .rightArrowCallout => c!"rightArrowCallout"
  | .leftArrowCallout => c!"leftArrowCallout"
  | .upArrowCallout => c!"upArrowCallout"
  | .downArrowCallout => c!"downArrowCallout"
  | .leftRightArrowCallout => c!"leftRightArrowCallout"
  | .upDownArrowCallout => c!"upDownArrowCallout"
  | .quadArrow => c!"quadArrow"
  | .leftRightUpArrow => c!"leftRightUpArrow"
  | .circularArrow => c!"circularArrow"
  | .parallelogram => c!"parallelogram"
  | .trapezoid => c!"trapezoid"
  | .nonIsoscelesTrapezoid => c!"nonIsoscelesTrapezoid"
  | .isoscelesTrapezoid => c!"isoTrapezoid"
  | .cube => c!"cube"
  | .can => c!"can"
  | .cone => c!"cone"
  | .cylinder => c!"cylinder"
  | .bevel => c!"bevel"
  | .donut => c!"donut"
  | .noSmoking => c!"noSmoking"
  | .blockArc => c!"blockArc"
  | .foldedCorner => c!"foldedCorner"
  | .smileyFace => c!"smileyFace"
  | .arc => c!"arc"
  | .chord => c!"chord"
  | .pie => c!"pie"
  | .teardrop => c!"teardrop"
  | .plaque => c!"plaque"
  | .musicNote => c!"musicNote"
  | .pictureFrame => c!"frame"
  | .star10 => c!"star10"
  | .star12 => c!"star12"
  | .star16 => c!"star16"
  | .star24 => c!"star24"
  | .star32 => c!"star32"
  | .seal => c!"seal"
  | .seal4 => c!"seal4"
  | .seal8 => c!"seal8"
  | .seal16 => c!"seal16"
  | .seal32 => c!"seal32"
  | .actionButtonBlank => c!"actionButtonBlank"
  | .actionButtonHome => c!"actionButtonHome"
  | .actionButtonHelp => c!"actionButtonHelp"
  | .actionButtonInformation => c!"actionButtonInformation"
  | .actionButtonForwardNext => c!"actionButtonForwardNext"
  | .actionButtonBackPrevious => c!"actionButtonBackPrevious"
  | .actionButtonBeginning => c!"actionButtonBeginning"
  | .actionButtonEnd => c!"actionButtonEnd"
  | .actionButtonReturn => c!"actionButtonReturn"
  | .actionButtonDocument => c!"actionButtonDocument"
  | .actionButtonSound => c!"actionButtonSound"
  | .actionButtonMovie => c!"actionButtonMovie"
  | .heart => c!"heart"
  | .lightning => c!"lightningBolt"
  | .sun => c!"sun"
  | .moon => c!"moon"
  | .cloud => c!"cloud"
  | .brace => c!"leftBrace"
  | .bracket => c!"leftBracket"
  | .plus => c!"mathPlus"
  | .minus => c!"mathMinus"

/-- `ShapeType::display_name`, src/generator/shapes.rs 292-424. -/
def ShapeType.displayName : ShapeType → Str
  | .rectangle => c!"Rectangle"
  | .roundedRectangle => c!"Rounded Rectangle"
  | .ellipse => c!"Ellipse"
  | .circle => c!"Circle"
  | .triangle => c!"Triangle"
  | .rightTriangle => c!"Right Triangle"
  | .diamond => c!"Diamond"
  | .pentagon => c!"Pentagon"
  | .hexagon => c!"Hexagon"
  | .octagon => c!"Octagon"
  | .rightArrow => c!"Right Arrow"
  | .leftArrow => c!"Left Arrow"
  | .upArrow => c!"Up Arrow"
  | .downArrow => c!"Down Arrow"
  | .leftRightArrow => c!"Left-Right Arrow"
  | .upDownArrow => c!"Up-Down Arrow"
  | .bentArrow => c!"Bent Arrow"
  | .uTurnArrow => c!"U-Turn Arrow"
  | .star4 => c!"4-Point Star"
  | .star5 => c!"5-Point Star"
  | .star6 => c!"6-Point Star"
  | .star8 => c!"8-Point Star"
  | .ribbon => c!"Ribbon"
  | .wave => c!"Wave"
  | .wedgeRectCallout => c!"Rectangle Callout"
  | .wedgeEllipseCallout => c!"Oval Callout"
  | .cloudCallout => c!"Cloud Callout"
  | .flowChartProcess => c!"Process"
  | .flowChartDecision => c!"Decision"
  | .flowChartTerminator => c!"Terminator"
  | .flowChartDocument => c!"Document"
  | .flowChartPredefinedProcess => c!"Predefined Process"
  | .flowChartInternalStorage => c!"Internal Storage"
  | .flowChartData => c!"Data"
  | .flowChartInputOutput => c!"Input/Output"
  | .flowChartManualInput => c!"Manual Input"
  | .flowChartManualOperation => c!"Manual Operation"
  | .flowChartConnector => c!"Connector"
  | .flowChartOffPageConnector => c!"Off-page Connector"
  | .flowChartPunchedCard => c!"Punched Card"
  | .flowChartPunchedTape => c!"Punched Tape"
  | .flowChartSummingJunction => c!"Summing Junction"
  | .flowChartOr => c!"Or"
  | .flowChartCollate => c!"Collate"
  | .flowChartSort => c!"Sort"
  | .flowChartExtract => c!"Extract"
  | .flowChartMerge => c!"Merge"
  | .flowChartOnlineStorage => c!"Online Storage"
  | .flowChartDelay => c!"Delay"
  | .flowChartMagneticTape => c!"Magnetic Tape"
  | .flowChartMagneticDisk => c!"Magnetic Disk"
  | .flowChartMagneticDrum => c!"Magnetic Drum"
  | .flowChartDisplay => c!"Display"
  | .flowChartPreparation => c!"Preparation"
  | .curvedRightArrow => c!"Curved Right Arrow"
  | .curvedLeftArrow => c!"Curved Left Arrow"
  | .curvedUpArrow => c!"Curved Up Arrow"
  | .curvedDownArrow => c!"Curved Down Arrow"
  | .curvedLeftRightArrow => c!"Curved Left-Right Arrow"
  | .curvedUpDownArrow => c!"Curved Up-Down Arrow"
  | .stripedRightArrow => c!"Striped Right Arrow"
  | .notchedRightArrow => c!"Notched Right Arrow"
  | .pentagonArrow => c!"Pentagon Arrow"
  | .chevronArrow => c!"Chevron Arrow"
  | .rightArrowCallout => c!"Right Arrow Callout"
  | .leftArrowCallout => c!"Left Arrow Callout"
  | .upArrowCallout => c!"Up Arrow Callout"
  | .downArrowCallout => c!"Down Arrow Callout"
  | .leftRightArrowCallout => c!"Left-Right Arrow Callout"
  | .upDownArrowCallout => c!"Up-Down Arrow Callout"
  | .quadArrow => c!"Quad Arrow"
  | .leftRightUpArrow => c!"Left-Right-Up Arrow"
  | .circularArrow => c!"Circular Arrow"
  | .parallelogram => c!"Parallelogram"
  | .trapezoid => c!"Trapezoid"
  | .nonIsoscelesTrapezoid => c!"Non-Isosceles Trapezoid"
  | .isoscelesTrapezoid => c!"Isosceles Trapezoid"
  | .cube => c!"Cube"
  | .can => c!"Can"
  | .cone => c!"Cone"
  | .cylinder => c!"Cylinder"
  | .bevel => c!"Bevel"
  | .donut => c!"Donut"
  | .noSmoking => c!"No Smoking"
  | .blockArc => c!"Block Arc"
  | .foldedCorner => c!"Folded Corner"
  | .smileyFace => c!"Smiley Face"
  | .arc => c!"Arc"
  | .chord => c!"Chord"
  | .pie => c!"Pie"
  | .teardrop => c!"Teardrop"
  | .plaque => c!"Plaque"
  | .musicNote => c!"Music Note"
  | .pictureFrame => c!"Picture Frame"
  | .star10 => c!"10-Point Star"
  | .star12 => c!"12-Point Star"
  | .star16 => c!"16-Point Star"
  | .star24 => c!"24-Point Star"
  | .star32 => c!"32-Point Star"
  | .seal => c!"Seal"
  | .seal4 => c!"4-Point Seal"
  | .seal8 => c!"8-Point Seal"
  | .seal16 => c!"16-Point Seal"
  | .seal32 => c!"32-Point Seal"
  | .actionButtonBlank => c!"Action Button (Blank)"
  | .actionButtonHome => c!"Action Button (Home)"
  | .actionButtonHelp => c!"Action Button (Help)"
  | .actionButtonInformation => c!"Action Button (Information)"
  | .actionButtonForwardNext => c!"Action Button (Forward/Next)"
  | .actionButtonBackPrevious => c!"Action Button (Back/Previous)"
  | .actionButtonBeginning => c!"Action Button (Beginning)"
  | .actionButtonEnd => c!"Action Button (End)"
  | .actionButtonReturn => c!"Action Button (Return)"
  | .actionButtonDocument => c!"Action Button (Document)"
  | .actionButtonSound => c!"Action Button (Sound)"
  | .actionButtonMovie => c!"Action Button (Movie)"
  | .heart => c!"Heart"
  | .lightning => c!"Lightning Bolt"
  | .sun => c!"Sun"
  | .moon => c!"Moon"
  | .cloud => c!"Cloud"
  | .brace => c!"Brace"
  | .bracket => c!"Bracket"
  | .plus => c!"Plus"
  | .minus => c!"Minus"

/-- All kinds of shapes. -/
def ShapeType.all : List ShapeType :=
  [
    .rectangle, .roundedRectangle, .ellipse, .circle, .triangle, .rightTriangle, .diamond,
    .pentagon, .hexagon, .octagon, .rightArrow, .leftArrow, .upArrow, .downArrow, .leftRightArrow,
    .upDownArrow, .bentArrow, .uTurnArrow, .star4, .star5, .star6, .star8, .ribbon, .wave,
    .wedgeRectCallout, .wedgeEllipseCallout, .cloudCallout, .flowChartProcess, .flowChartDecision,
    .flowChartTerminator, .flowChartDocument, .flowChartPredefinedProcess,
    .flowChartInternalStorage, .flowChartData, .flowChartInputOutput, .flowChartManualInput,
    .flowChartManualOperation, .flowChartConnector, .flowChartOffPageConnector,
    .flowChartPunchedCard, .flowChartPunchedTape, .flowChartSummingJunction, .flowChartOr,
    .flowChartCollate, .flowChartSort, .flowChartExtract, .flowChartMerge,
    .flowChartOnlineStorage, .flowChartDelay, .flowChartMagneticTape, .flowChartMagneticDisk,
    .flowChartMagneticDrum, .flowChartDisplay, .flowChartPreparation, .curvedRightArrow,
    .curvedLeftArrow, .curvedUpArrow, .curvedDownArrow, .curvedLeftRightArrow, .curvedUpDownArrow,
    .stripedRightArrow, .notchedRightArrow, .pentagonArrow, .chevronArrow, .rightArrowCallout,
    .leftArrowCallout, .upArrowCallout, .downArrowCallout, .leftRightArrowCallout,
    .upDownArrowCallout, .quadArrow, .leftRightUpArrow, .circularArrow, .parallelogram,
    .trapezoid, .nonIsoscelesTrapezoid, .isoscelesTrapezoid, .cube, .can, .cone, .cylinder,
    .bevel, .donut, .noSmoking, .blockArc, .foldedCorner, .smileyFace, .arc, .chord, .pie,
    .teardrop, .plaque, .musicNote, .pictureFrame, .star10, .star12, .star16, .star24, .star32,
    .seal, .seal4, .seal8, .seal16, .seal32, .actionButtonBlank, .actionButtonHome,
    .actionButtonHelp, .actionButtonInformation, .actionButtonForwardNext,
    .actionButtonBackPrevious, .actionButtonBeginning, .actionButtonEnd, .actionButtonReturn,
    .actionButtonDocument, .actionButtonSound, .actionButtonMovie, .heart, .lightning, .sun,
    .moon, .cloud, .brace, .bracket, .plus, .minus]

end PptRs.Draw
