import Verif.Model.Package

/-!
# Image type and size detection, `src/generator/images.rs`

Indexing outside the data panics: `none`.
-/

namespace PptRs.Image

/-- `&data[a..b]`. -/
def slice (d : Bytes) (a b : Nat) : Option Bytes := if a ≤ b ∧ b ≤ d.length then some ((d.take b).drop a) else none

/-- The format that `ImageBuilder::auto` finds, src/generator/images.rs 480-492: `a && b || c` groups as
`(a && b) || c`. -/
def autoFormat (d : Bytes) : Option Str :=
  if 4 ≤ d.length then
    (slice d 0 4).bind fun s4 =>
    if s4 = [0x89, 0x50, 0x4E, 0x47] then some c!"PNG"
    else (slice d 0 2).bind fun s2 =>
    if 2 ≤ d.length ∧ s2 = [0xFF, 0xD8] then some c!"JPEG"
    else
      (if 6 ≤ d.length then (slice d 0 6).map fun s => decide (s = [0x47, 0x49, 0x46, 0x38, 0x39, 0x61])
        else some false).bind fun gif89 =>
      if gif89 then some c!"GIF"
      else (slice d 0 6).map fun s => if s = [0x47, 0x49, 0x46, 0x38, 0x37, 0x61] then c!"GIF" else c!"PNG"
  else some c!"PNG"

/-- `format_and_ext` for the upper-case formats used here, src/generator/images.rs 9-16. -/
def extOf (format : Str) : Str :=
  if format = c!"JPEG" then c!"jpg"
  else if format = c!"PNG" then c!"png"
  else if format = c!"GIF" then c!"gif"
  else format

/-- The file name and the format of `ImageBuilder::auto`, src/generator/images.rs 476-495 and 441-451. -/
def auto (d : Bytes) : Option (Str × Str) := (autoFormat d).map fun f => (c!"image." ++ extOf f, f)

/-- `u16::from_be_bytes`. -/
def be16 (a b : UInt8) : Nat := a.toNat * 256 + b.toNat
/-- `u16::from_le_bytes`. -/
def le16 (a b : UInt8) : Nat := be16 b a
/-- `u32::from_be_bytes`. -/
def be32 (a b c d : UInt8) : Nat := be16 a b * 65536 + be16 c d
/-- `u32::from_le_bytes`. -/
def le32 (a b c d : UInt8) : Nat := be32 d c b a

/-- Two bytes from `i` on. -/
def two (f : UInt8 → UInt8 → Nat) (d : Bytes) (i : Nat) : Option Nat :=
  (d[i]?).bind fun a => (d[i + 1]?).map fun b => f a b

/-- Four bytes from `i` on. -/
def four (f : UInt8 → UInt8 → UInt8 → UInt8 → Nat) (d : Bytes) (i : Nat) : Option Nat :=
  (d[i]?).bind fun a => (d[i + 1]?).bind fun b => (d[i + 2]?).bind fun c => (d[i + 3]?).map fun e => f a b c e

/-- Width, height and format. -/
structure Size where
  width : Nat
  height : Nat
  format : Str
deriving DecidableEq

/-- The loop of `read_jpeg_dimensions`, src/generator/images.rs 777-795; the fuel is the number of bytes, each round
advances. The outer option is a panic, the inner one the result. -/
def jpegFrom (d : Bytes) : Nat → Nat → Option (Option Size)
  | 0, _ => some none
  | fuel + 1, i =>
    if i + 1 < d.length then
      (d[i]?).bind fun b =>
      if b ≠ 0xFF then jpegFrom d fuel (i + 1)
      else (d[i + 1]?).bind fun marker =>
        if (marker = 0xC0 ∨ marker = 0xC2) ∧ i + 2 + 7 < d.length then
          (two be16 d (i + 2 + 3)).bind fun h => (two be16 d (i + 2 + 5)).map fun w => some ⟨w, h, c!"JPEG"⟩
        else if 0xC0 ≤ marker.toNat ∧ marker ≠ 0xD9 ∧ marker ≠ 0xDA ∧ i + 2 + 1 < d.length then
          (two be16 d (i + 2)).bind fun len => jpegFrom d fuel (i + 2 + len)
        else jpegFrom d fuel (i + 2)
    else some none

/-- `read_jpeg_dimensions`, src/generator/images.rs 775-797. -/
def jpegSize (d : Bytes) : Option (Option Size) := jpegFrom d (d.length + 1) 2

/-- Width and height as `rw` and `rh` read them. -/
def sizeWith (format : Str) (rw rh : Option Nat) : Option (Option Size) :=
  rw.bind fun w => rh.map fun h => some ⟨w, h, format⟩

/-- The WebP part, src/generator/images.rs 752-771. -/
def webpSize (d : Bytes) : Option (Option Size) :=
  if 30 ≤ d.length then
    (slice d 0 4).bind fun riff => (slice d 8 12).bind fun webp =>
    if riff = [0x52, 0x49, 0x46, 0x46] ∧ webp = [0x57, 0x45, 0x42, 0x50] then
      (slice d 12 16).bind fun chunk =>
      if chunk = [0x56, 0x50, 0x38, 0x20] ∧ 30 ≤ d.length then
        sizeWith c!"WEBP" ((two le16 d 26).map (· % 16384)) ((two le16 d 28).map (· % 16384))
      else if chunk = [0x56, 0x50, 0x38, 0x4C] ∧ 25 ≤ d.length then
        (four le32 d 21).map fun bits => some ⟨bits % 16384 + 1, bits / 16384 % 16384 + 1, c!"WEBP"⟩
      else some none
    else some none
  else some none

/-- `read_image_dimensions`, src/generator/images.rs 725-772. -/
def size (d : Bytes) : Option (Option Size) :=
  if d.length < 10 then some none
  else if [0x89, 0x50, 0x4E, 0x47, 0x0D, 0x0A, 0x1A, 0x0A].isPrefixOf d ∧ 24 ≤ d.length then
    sizeWith c!"PNG" (four be32 d 16) (four be32 d 20)
  else if [0xFF, 0xD8].isPrefixOf d then jpegSize d
  else if [0x47, 0x49, 0x46, 0x38].isPrefixOf d ∧ 10 ≤ d.length then
    sizeWith c!"GIF" (two le16 d 6) (two le16 d 8)
  else if [0x42, 0x4D].isPrefixOf d ∧ 26 ≤ d.length then
    sizeWith c!"BMP" (four le32 d 18) (four le32 d 22)
  else webpSize d

/-- Width, height (914400 units per inch, 96 pixels per inch) and format of `Image::from_path`,
src/generator/images.rs 114-121: the outer option is a panic (of `size` or of the multiplications), the inner one an
error. -/
def fromBytes (d : Bytes) : Option (Option Size) :=
  (size d).bind fun
    | none => some none
    | some s =>
      if s.width * 9525 < 4294967296 ∧ s.height * 9525 < 4294967296 then
        some (some ⟨s.width * 9525, s.height * 9525, s.format⟩)
      else none

end PptRs.Image
