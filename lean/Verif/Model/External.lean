import Verif.Model.Package
import Verif.Model.Sort
import Verif.Model.Repair

/-!
# Temporary files and external programs

src/api.rs and src/export/image_export.rs. Calls run concurrently and every operation of the system may fail.
-/

namespace PptRs.External

open PptRs

/-- The files of a machine. -/
abbrev Fs := Str → Option Bytes

/-- Writing or removing a file. -/
def Fs.set (fs : Fs) (path : Str) (v : Option Bytes) : Fs := fun p => if p = path then v else fs p

/-- A call that works through a temporary file: what it writes there (`none`: an error before that), the name of the
file, and whether an error between writing and removing it returns at once (`?`). -/
structure Job where
  data : Option Bytes
  temp : Str
  early : Bool

/-- How a call ended: nothing to write, the file could not be written, the work on it could not be started, or the work
was done on what was in the file. -/
inductive JobResult where
  | noData
  | notWritten
  | notStarted
  | finished (seen : Option Bytes)
deriving DecidableEq

/-- How far a call has come. -/
inductive JobState where
  | start
  | written
  | removing (r : JobResult)
  | done (r : JobResult)
deriving DecidableEq

/-- One step of a call. Writing a file is one step; that it fails after having created the file is a step of its own.
The work on the file may change all files that are not temporary ones. -/
inductive Job.Step (j : Job) (isTemp : Str → Prop) : Fs → JobState → Fs → JobState → Prop
  | noData {fs} : j.data = none → Step j isTemp fs .start fs (.done .noData)
  | write {fs d} : j.data = some d → Step j isTemp fs .start (fs.set j.temp (some d)) .written
  | writeFails {fs d} (left : Option Bytes) : j.data = some d → Step j isTemp fs .start (fs.set j.temp left) (.done .notWritten)
  | work {fs fs'} : (∀ p, isTemp p → fs' p = fs p) → Step j isTemp fs .written fs' (.removing (.finished (fs j.temp)))
  | notStarted {fs} : Step j isTemp fs .written fs (if j.early then .done .notStarted else .removing .notStarted)
  | remove {fs r} : Step j isTemp fs (.removing r) (fs.set j.temp none) (.done r)

/-- The files and the running calls. -/
structure Jobs where
  fs : Fs
  calls : List (Job × JobState)

/-- The temporary files of the calls. -/
def Jobs.isTemp (m : Jobs) (p : Str) : Prop := ∃ c ∈ m.calls, c.1.temp = p

/-- One of the calls makes a step. -/
inductive Jobs.Step : Jobs → Jobs → Prop
  | step {m : Jobs} (i : Nat) {j : Job} {st st' : JobState} {fs' : Fs} : m.calls[i]? = some (j, st) →
      j.Step m.isTemp m.fs st fs' st' → Jobs.Step m ⟨fs', m.calls.set i (j, st')⟩

/-- Any number of steps. -/
inductive Jobs.Runs : Jobs → Jobs → Prop
  | refl {m} : Runs m m
  | step {a b c} : Runs a b → Jobs.Step b c → Runs a c

/-- `Presentation::save_as_png`, src/api.rs 176-210: `data` is the PDF, `id` the generated identifier. -/
def pngJob (tempDir id : Str) (data : Option Bytes) : Job :=
  ⟨data, tempDir ++ c!"/ppt_rs_temp_" ++ id ++ c!".pdf", true⟩

/-- `Presentation::compress`, src/api.rs 397-414. -/
def compressJob (tempDir id : Str) (data : Option Bytes) : Job :=
  ⟨data, tempDir ++ c!"/compress_" ++ id ++ c!".pptx", false⟩

/-- `Presentation::analyze_size`, src/api.rs 419-431. -/
def analyzeJob (tempDir id : Str) (data : Option Bytes) : Job :=
  ⟨data, tempDir ++ c!"/analyze_" ++ id ++ c!".pptx", false⟩

/-- `export_to_images`, src/export/image_export.rs 146-166: the name of the file is always the same, and an error of
`create_dir_all` returns at once. -/
def imagesJob (tempDir : Str) (data : Option Bytes) : Job := ⟨data, tempDir ++ c!"/temp_export.pptx", true⟩

/-! ### Import of PDF files -/

/-- The key by which the pages are sorted, src/api.rs 262-273. -/
def pageKey (name : Str) : Nat :=
  match rsplitOnceChar? '-' name, rsplitOnceChar? '.' name with
  | some (a, _), some (b, _) =>
    if a.length < b.length then (parseU32? (b.drop (a.length + 1))).getD 0 else 0
  | _, _ => 0

/-- `path.extension()` of a file name. -/
def fileExt (name : Str) : Option Str :=
  match rsplitOnceChar? '.' name with
  | some (a, e) => if a = [] then none else some e
  | none => none

/-- `path.file_stem()` of the last component of a path. -/
def fileStem (name : Str) : Str :=
  match rsplitOnceChar? '.' name with
  | some (a, _) => if a = [] then name else a
  | none => name

/-- What the system does for `from_pdf`: is the file there, is the directory created, does `pdftoppm` start and succeed,
the names in the directory in any order (`none`: it cannot be read), and the loaded images. -/
structure PdfWorld (α : Type) where
  found : Bool
  made : Bool
  tool : Option Bool
  listing : Option (List Str)
  load : Str → Option α

/-- `Presentation::from_pdf`, src/api.rs 215-298, for the file name `name`: the title and the images of the slides, and
whether the temporary directory is left behind. -/
def fromPdf {α : Type} (w : PdfWorld α) (name : Str) : Option (Str × List α) × Bool :=
  if !w.found then (none, false)
  else if !w.made then (none, false)
  else
    match w.tool with
    | none => (none, true)
    | some false => (none, false)
    | some true =>
      match w.listing with
      | none => (none, true)
      | some names =>
        match ((sortByKey pageKey names).filter fun n => fileExt n = some c!"png").mapM w.load with
        | none => (none, true)
        | some images => (some (fileStem name, images), false)

end PptRs.External
