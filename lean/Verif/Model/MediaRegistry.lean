import Verif.Model.Str

/-!
# The registry of embedded images
-/

namespace PptRs

/-- src/generator/media_registry.rs 4-7: stored images as (bytes, extension). -/
structure MediaRegistry where
  entries : List (List UInt8 × Str)
deriving DecidableEq, Repr

namespace MediaRegistry

/-- `#[derive(Default)]`, src/generator/media_registry.rs 4. -/
def empty : MediaRegistry := ⟨[]⟩

/-- `iter().position(..)`. -/
def position (p : List UInt8 × Str → Bool) : List (List UInt8 × Str) → Option Nat
  | [] => none
  | e :: es => if p e then some 0 else (position p es).map (· + 1)

/-- src/generator/media_registry.rs 18-23. -/
def lookupNumber (r : MediaRegistry) (bytes : List UInt8) (ext : Str) : Option Nat :=
  (position (fun e => e.1 = bytes ∧ e.2 = ext) r.entries).map (· + 1)

/-- src/generator/media_registry.rs 10-16. -/
def imageNumber (r : MediaRegistry) (bytes : List UInt8) (ext : Str) : MediaRegistry × Nat :=
  match r.lookupNumber bytes ext with
  | some n => (r, n)
  | none => (⟨r.entries ++ [(bytes, ext)]⟩, (r.entries ++ [(bytes, ext)]).length)

/-- src/generator/media_registry.rs 25-27. -/
def files (r : MediaRegistry) : List (List UInt8 × Str) := r.entries

/-- src/generator/media_registry.rs 29-31. -/
def extensions (r : MediaRegistry) : List Str := r.entries.map (·.2)

end MediaRegistry

end PptRs
