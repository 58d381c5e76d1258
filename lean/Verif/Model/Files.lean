import Verif.Model.Package

/-!
# Files: in-memory compression through temporary files, and saving
-/

namespace PptRs

/-- The two temporary files of `compress_pptx_in_memory`; their names are fixed
(src/opc/compress.rs 263-265), so all calls on a machine share them. -/
structure TempFiles where
  input : Option Bytes
  output : Option Bytes
deriving DecidableEq, Repr

/-- How far a call of `compress_pptx_in_memory` has come. Each file operation is one step (writing a file
is in fact several steps; taking it as one only removes schedules). -/
inductive CallState
  /-- before line 267 -/
  | start
  /-- before `Package::open`, line 208 -/
  | opening
  /-- the package has been read, before the size of the input is asked for, line 210 -/
  | sizing (read : Bytes)
  /-- before `package.save`, line 236 -/
  | saving (read : Bytes)
  /-- before the size of the output is asked for, line 238 -/
  | sizing2
  /-- before line 270 -/
  | reading
  /-- before line 273 -/
  | removing1 (result : Bytes)
  /-- before line 274 -/
  | removing2 (result : Bytes)
  /-- returned; `none` is an error -/
  | done (result : Option Bytes)
deriving DecidableEq, Repr

/-- One step of `compress_pptx_in_memory(data)`, src/opc/compress.rs 258-277 and 208-238. `comp` is the
compression of a file's content, `none` if the content is not a package. -/
def CallState.step (comp : Bytes → Option Bytes) (data : Bytes) (fs : TempFiles) : CallState → TempFiles × CallState
  | .start => ({ fs with input := some data }, .opening)
  | .opening =>
    match fs.input with
    | none => (fs, .done none)
    | some d => if (comp d).isSome then (fs, .sizing d) else (fs, .done none)
  | .sizing d => if fs.input.isSome then (fs, .saving d) else (fs, .done none)
  | .saving d => ({ fs with output := comp d }, .sizing2)
  | .sizing2 => if fs.output.isSome then (fs, .reading) else (fs, .done none)
  | .reading =>
    match fs.output with
    | none => (fs, .done none)
    | some r => (fs, .removing1 r)
  | .removing1 r => ({ fs with input := none }, .removing2 r)
  | .removing2 r => ({ fs with output := none }, .done (some r))
  | .done r => (fs, .done r)

/-- The machine: the temporary files and the running calls with their arguments. -/
structure Machine where
  files : TempFiles
  calls : List (Bytes × CallState)
deriving DecidableEq, Repr

/-- The call with number `i` makes a step. -/
def Machine.step (comp : Bytes → Option Bytes) (m : Machine) (i : Nat) : Machine :=
  match m.calls[i]? with
  | none => m
  | some (d, c) => ⟨(c.step comp d m.files).1, m.calls.set i (d, (c.step comp d m.files).2)⟩

/-- A run under a schedule. -/
def Machine.run (comp : Bytes → Option Bytes) (m : Machine) (schedule : List Nat) : Machine :=
  schedule.foldl (Machine.step comp) m

/-- An operation on the file that is saved to. -/
inductive FileOp
  /-- `File::create`: the file exists and is empty. -/
  | create
  /-- Bytes are written at a position. -/
  | write (pos : Nat) (data : Bytes)
deriving DecidableEq, Repr

/-- The effect of an operation on the content of the file; a gap before `pos` is filled with zeros. -/
def FileOp.apply (file : Option Bytes) : FileOp → Option Bytes
  | .create => some []
  | .write pos data => file.map fun b => b.take pos ++ List.replicate (pos - b.length) 0 ++ data ++ b.drop (pos + data.length)

/-- The operations of `std::fs::write(path, data)`, used by `Presentation::save` (src/api.rs 109-113):
create, then write the data in pieces. -/
def fsWriteOps (pieces : List Bytes) : List FileOp :=
  FileOp.create :: go 0 pieces
where
  /-- The pieces from a position on. -/
  go (pos : Nat) : List Bytes → List FileOp
  | [] => []
  | b :: rest => .write pos b :: go (pos + b.length) rest

/-- The operations of `Package::save` (src/opc/package.rs 49-53): create, then the writes of the archive
writer, which also goes back to complete headers. -/
def packageSaveOps (writes : List (Nat × Bytes)) : List FileOp :=
  FileOp.create :: writes.map fun w => .write w.1 w.2

/-- The file if the machine stops after `k` operations. -/
def fileAfter (ops : List FileOp) (k : Nat) (old : Option Bytes) : Option Bytes :=
  (ops.take k).foldl FileOp.apply old

end PptRs
