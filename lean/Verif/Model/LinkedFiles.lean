import Verif.Model.HtmlImport
import Verif.Model.MdImport
import Verif.Model.Image

/-!
# Files named by imported documents

Both importers open the pictures a document names. A disk is a function: the bytes of a file that exists and can be
read. The program is built without the `web2ppt` feature, so nothing is downloaded. `none` is a panic.
-/

namespace PptRs.Linked

open PptRs

/-- A picture built from the bytes of a file. -/
structure Picture where
  filename : Str
  format : Str
  x : Nat
  y : Nat
  width : Nat
  height : Nat
  data : Bytes
deriving DecidableEq, Repr

/-- Addresses on the network, src/import/html.rs 1020 and src/cli/markdown/parser.rs 549. -/
def isAddress (src : Str) : Bool := (stripPrefix? c!"http://" src).isSome || (stripPrefix? c!"https://" src).isSome

/-- The picture made of the bytes read: src/import/html.rs 1038-1042 and src/cli/markdown/parser.rs 568-572. -/
def picture (d : Bytes) : Option Picture :=
  (Image.auto d).map fun f =>
    { filename := f.1, format := f.2, x := 2000000, y := 2000000, width := 5000000, height := 3000000, data := d }

/-- `load_image`, src/import/html.rs 1015-1046 and src/cli/markdown/parser.rs 544-577. The outer `none` is a panic, the
inner one says that there is no picture. -/
def loadImage (disk : Str → Option Bytes) (src : Str) : Option (Option Picture) :=
  if isAddress src then some none
  else match disk src with
    | none => some none
    | some d => (picture d).map some

/-- What an importer gets if nothing panics. -/
def loaded (disk : Str → Option Bytes) (src : Str) : Option Picture := (loadImage disk src).getD none

/-! ### HTML -/

/-- The world of the HTML importer with a disk. -/
def env (uni : Char → Bool) (low : Str → Str) (disk : Str → Option Bytes) : HtmlEnv :=
  { uni := uni, low := low, load := fun s => (loaded disk s).map (·.data) }

/-- The file that an event makes the importer look for, src/import/html.rs 670-676 and 718-725. -/
def wanted (o : HtmlOptions) (st : HtmlState) : HtmlEvent → Option Str
  | .openTag name attrs =>
    let src := (attrValue? attrs c!"src").getD []
    if name = c!"img" ∧ o.includeImages = true ∧
      HtmlState.inSkip { st with stack := name :: st.stack } = false ∧ src ≠ [] then some src else none
  | _ => none

/-- The loop over the events with the panics of `load_image`, src/import/html.rs 635-648. -/
def runHtml (e : HtmlEnv) (disk : Str → Option Bytes) (o : HtmlOptions) : HtmlState → List HtmlEvent → Option HtmlState
  | st, [] => some st
  | st, ev :: es =>
    if (wanted o st ev).any fun s => (loadImage disk s).isNone then none
    else (st.step e o ev).bind fun st => runHtml e disk o st es

/-- `Html2Ppt::parse` with a disk, src/import/html.rs 1087-1090 and 634-663. -/
def importHtml (uni : Char → Bool) (low : Str → Str) (disk : Str → Option Bytes) (o : HtmlOptions) (html : Str) :
    Option (Except Unit (List HtmlSlide)) :=
  (runHtml (env uni low disk) disk o {} (tokenizeHtml (env uni low disk) html)).map (HtmlState.finish o)

/-! ### Markdown -/

open MdImport in
/-- The loop over the events with the panics of `load_image`, src/cli/markdown/parser.rs 93-95 and 267-271. -/
def runMd (disk : Str → Option Bytes) (diagramTitle : Str → Str) : List Ev → State → Option State
  | [], st => some st
  | e :: es, st =>
    if e = .imageEnd ∧ (st.pending.any fun p => (loadImage disk p.1).isNone) = true then none
    else (handle (fun s => (loaded disk s).isSome) diagramTitle st e).bind (runMd disk diagramTitle es)

open MdImport in
/-- `parse` with a disk, src/cli/markdown/parser.rs 85-104: the inner `none` is the error for a document without
slides. -/
def importMdFiles (disk : Str → Option Bytes) (diagramTitle : Str → Str) (es : List Ev) :
    Option (Option (List MdImport.Slide)) :=
  (runMd disk diagramTitle es {}).map fun st => if st.finalize.slides = [] then none else some st.finalize.slides

end PptRs.Linked
