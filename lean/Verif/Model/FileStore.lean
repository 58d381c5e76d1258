import Verif.Model.Handlers
import Verif.Model.Whole
import Verif.Model.WholeCompress

/-!
# Commands on files

Sequences of commands that create, merge, edit, copy and compress files: src/mcp/mod.rs, src/bin/pptcli.rs, src/api.rs,
src/oxml/editor.rs, src/opc/compress.rs. The commands are those of `Model/Handlers.lean`, here with the archives in the files.
A file is written as a whole (see C56).
-/

namespace PptRs.FileStore

open PptRs PptRs.Handlers PptRs.Whole

/-- The archives by their paths. -/
abbrev Files := Str → Option (List (Str × Bytes))

/-- A file is written. -/
def put {α : Type} (fs : Str → Option α) (path : Str) (a : α) : Str → Option α := fun p => if p = path then some a else fs p

/-- What the commands see: a presentation is loaded from the archive at its path, src/api.rs 31-34. -/
def world (can : Str → Bool) (fs : Files) : World where
  load path := (fs path).bind fun a => (opened a).map ofLoaded
  canWrite _ path := can path

/-- The archives a presentation is saved as, src/api.rs 87-113: at any time, with any settings but a template and fonts. Nothing is
said about presentations with shapes and charts. -/
def SavedAs (d : Pres) (a : List (Str × Bytes)) : Prop :=
  (∀ s ∈ d.slides, s.shapes = [] ∧ s.charts = []) →
    ∃ secs st desc other, st.template = none ∧ st.fonts = none ∧
      a = written secs d.title (d.slides.map fun s => { text := s.text }) st desc other

/-- The files after what a command wrote. -/
inductive Wrote : Files → List (Str × Format × Pres) → Files → Prop
  | nothing (fs : Files) : Wrote fs [] fs
  | file {fs fs' : Files} {path : Str} {d : Pres} {a : List (Str × Bytes)} {rest : List (Str × Format × Pres)} (saved : SavedAs d a)
      (later : Wrote (put fs path a) rest fs') : Wrote fs ((path, .pptx, d) :: rest) fs'

/-- Commands on files. -/
inductive Command where
  /-- The tool `create_presentation`. -/
  | create (title path : Str) (slides : List SlideArg)
  /-- A program that saves slides with text and tables under a path. -/
  | write (title path : Str) (pages : List PageIn)
  /-- The tool `merge_pptx`. -/
  | merge (inputs : List Str) (path : Str)
  /-- The command `merge`; without further files it loads a presentation and saves it again. -/
  | join (first : Str) (more : List Str) (path : Str)
  /-- A session of the editor. -/
  | edit (path : Str) (ops : List Editor.Op)
  /-- `compress_pptx`. -/
  | compress (o : CompressionOptions) (input output : Str)

/-- A program that saves slides, src/api.rs 87-113. -/
def save (w : World) (title path : Str) (pages : List PageIn) : Result :=
  saveAs w ⟨title, pages.map fun p => { text := p.text }⟩ path [] []

/-- What a command may do to the files. -/
inductive Step (can : Str → Bool) (fs : Files) : Command → Files → Prop
  | create {title path : Str} {slides : List SlideArg} {fs' : Files}
      (h : Wrote fs (Handlers.create (world can fs) title path slides).written fs') : Step can fs (.create title path slides) fs'
  | write {title path : Str} {pages : List PageIn} {fs' : Files} (h : Wrote fs (save (world can fs) title path pages).written fs') :
      Step can fs (.write title path pages) fs'
  | merge {inputs : List Str} {path : Str} {fs' : Files} (h : Wrote fs (Handlers.merge (world can fs) inputs path).written fs') :
      Step can fs (.merge inputs path) fs'
  | join {first : Str} {more : List Str} {path : Str} {fs' : Files}
      (h : Wrote fs (mergeCommand (world can fs) first more path).written fs') : Step can fs (.join first more path) fs'
  | edit {path : Str} {ops : List Editor.Op} {a b : List (Str × Bytes)} (h : fs path = some a) (w : can path = true) (e : Edited a [ops] b) :
      Step can fs (.edit path ops) (put fs path b)
  | noEdit {path : Str} {ops : List Editor.Op} (h : fs path = none ∨ can path = false) : Step can fs (.edit path ops) fs
  | compress {o : CompressionOptions} {input output : Str} {a b : List (Str × Bytes)} (h : fs input = some a) (w : can output = true)
      (c : Compressed o a b) : Step can fs (.compress o input output) (put fs output b)
  | noCompress {o : CompressionOptions} {input output : Str} (h : fs input = none ∨ can output = false) :
      Step can fs (.compress o input output) fs

/-- Commands one after the other. -/
inductive Run (can : Str → Bool) : Files → List Command → Files → Prop
  | done (fs : Files) : Run can fs [] fs
  | step {fs fs' fs'' : Files} {c : Command} {rest : List Command} (now : Step can fs c fs') (later : Run can fs' rest fs'') :
      Run can fs (c :: rest) fs''

end PptRs.FileStore
