import Verif.Model.Image
import Mathlib.Data.List.Basic
import Mathlib.Tactic.Tauto

/-!
# C58: image type and size detection
-/

namespace PptRs.Props

open PptRs PptRs.Image

/-! ## Formats -/

theorem slice_zero {d : Bytes} {n : Nat} (h : n ≤ d.length) : slice d 0 n = some (d.take n) := by
  simp [slice, h]

theorem take_eq_iff {d p : Bytes} (h : p.length ≤ d.length) : d.take p.length = p ↔ p <+: d := by
  constructor
  · intro e
    exact ⟨d.drop p.length, by conv_rhs => rw [← List.take_append_drop p.length d, e]⟩
  · rintro ⟨r, rfl⟩
    simp

/-- The start of the signature of PNG files. -/
def isPng (d : Bytes) : Prop := [0x89, 0x50, 0x4E, 0x47] <+: d
/-- The signature of JPEG files. -/
def isJpeg (d : Bytes) : Prop := [0xFF, 0xD8] <+: d
/-- The two signatures of GIF files. -/
def isGif (d : Bytes) : Prop :=
  [0x47, 0x49, 0x46, 0x38, 0x39, 0x61] <+: d ∨ [0x47, 0x49, 0x46, 0x38, 0x37, 0x61] <+: d

theorem autoFormat_long {d : Bytes} (h : 6 ≤ d.length) :
    autoFormat d = some (if d.take 4 = [0x89, 0x50, 0x4E, 0x47] then c!"PNG" else if d.take 2 = [0xFF, 0xD8] then c!"JPEG"
      else if d.take 6 = [0x47, 0x49, 0x46, 0x38, 0x39, 0x61] ∨ d.take 6 = [0x47, 0x49, 0x46, 0x38, 0x37, 0x61] then c!"GIF"
      else c!"PNG") := by
  unfold autoFormat
  rw [if_pos (by omega), slice_zero (by omega), Option.bind_some, slice_zero (by omega), Option.bind_some, if_pos h,
    slice_zero h, Option.map_some, Option.bind_some]
  by_cases h1 : d.take 4 = [0x89, 0x50, 0x4E, 0x47]
  · rw [if_pos h1, if_pos h1]
  · rw [if_neg h1, if_neg h1]
    by_cases h2 : d.take 2 = [0xFF, 0xD8]
    · rw [if_pos ⟨by omega, h2⟩, if_pos h2]
    · rw [if_neg (fun x => h2 x.2), if_neg h2]
      by_cases h3 : d.take 6 = [0x47, 0x49, 0x46, 0x38, 0x39, 0x61]
      · simp [h3]
      · by_cases h4 : d.take 6 = [0x47, 0x49, 0x46, 0x38, 0x37, 0x61] <;> simp [h3, h4]

theorem autoFormat_short {d : Bytes} (h : d.length = 4 ∨ d.length = 5) :
    autoFormat d = if d.take 4 = [0x89, 0x50, 0x4E, 0x47] then some c!"PNG" else if d.take 2 = [0xFF, 0xD8] then some c!"JPEG"
      else none := by
  have h6 : slice d 0 6 = none := by
    simp [slice]
    omega
  unfold autoFormat
  rw [if_pos (by omega), slice_zero (by omega), Option.bind_some, slice_zero (by omega), Option.bind_some,
    if_neg (show ¬ 6 ≤ d.length by omega), Option.bind_some, h6]
  have h2 : 2 ≤ d.length := by omega
  simp only [h2, true_and, Bool.false_eq_true, if_false, Option.map_none]

/-- **C58** (partial: four or five bytes are excluded). Every other file gets a format: that of its signature, PNG if
there is none. -/
theorem C58_formats_partial (d : Bytes) (h : d.length < 4 ∨ 6 ≤ d.length) :
    ∃ f, autoFormat d = some f ∧ (isPng d → f = c!"PNG") ∧ (isJpeg d → 4 ≤ d.length → f = c!"JPEG") ∧
      (isGif d → f = c!"GIF") ∧ (¬ isJpeg d → ¬ isGif d → f = c!"PNG") := by
  have hpre : ∀ p : Bytes, p.length ≤ d.length → (d.take p.length = p ↔ p <+: d) := fun p hp => take_eq_iff hp
  have hlen : ∀ p : Bytes, p <+: d → p.length ≤ d.length := fun p hp => hp.length_le
  rcases h with h | h
  · refine ⟨c!"PNG", ?_, fun _ => rfl, ?_, ?_, fun _ _ => rfl⟩
    · unfold autoFormat
      rw [if_neg (by omega)]
    · intro _ h4
      omega
    · rintro (hg | hg)
      · have := hlen _ hg
        simp at this
        omega
      · have := hlen _ hg
        simp at this
        omega
  · have e1 := hpre [0x89, 0x50, 0x4E, 0x47] (by simp; omega)
    have e2 := hpre [0xFF, 0xD8] (by simp; omega)
    have e3 := hpre [0x47, 0x49, 0x46, 0x38, 0x39, 0x61] (by simpa using h)
    have e4 := hpre [0x47, 0x49, 0x46, 0x38, 0x37, 0x61] (by simpa using h)
    simp only [List.length_cons, List.length_nil, Nat.zero_add, Nat.reduceAdd] at e1 e2 e3 e4
    obtain ⟨a, t, rfl⟩ : ∃ a t, d = a :: t := by
      cases d with
      | nil => simp at h
      | cons a t => exact ⟨a, t, rfl⟩
    have first : ∀ (x : UInt8) (p : Bytes), x :: p <+: a :: t → a = x := by
      rintro x p ⟨r, hr⟩
      simp only [List.cons_append, List.cons.injEq] at hr
      exact hr.1.symm
    refine ⟨_, autoFormat_long h, ?_, ?_, ?_, ?_⟩
    · intro hp
      rw [if_pos (e1.mpr hp)]
    · intro hj _
      have := first _ _ hj
      subst this
      rw [if_neg (by simp), if_pos (e2.mpr hj)]
    · intro hg
      have ha : a = 0x47 := by
        rcases hg with hg | hg
        · exact first _ _ hg
        · exact first _ _ hg
      subst ha
      rw [if_neg (by simp), if_neg (by simp), if_pos]
      rcases hg with hg | hg
      · exact .inl (e3.mpr hg)
      · exact .inr (e4.mpr hg)
    · intro hj hg
      by_cases hp : [0x89, 0x50, 0x4E, 0x47] <+: a :: t
      · rw [if_pos (e1.mpr hp)]
      · rw [if_neg (fun x => hp (e1.mp x)), if_neg (fun x => hj (e2.mp x)),
          if_neg (fun x => hg (x.imp e3.mp e4.mp))]

example : autoFormat [0xFF, 0xD8, 0xFF, 0xE0, 0, 0] = some c!"JPEG" ∧ isJpeg [0xFF, 0xD8, 0xFF, 0xE0, 0, 0] :=
  ⟨rfl, ⟨[0xFF, 0xE0, 0, 0], rfl⟩⟩

/-- Every file of four or five bytes that is neither PNG nor JPEG crashes the detection, and no other file does. -/
theorem C58_short_violated (d : Bytes) :
    auto d = none ↔ (d.length = 4 ∨ d.length = 5) ∧ ¬ isPng d ∧ ¬ isJpeg d := by
  have hn : auto d = none ↔ autoFormat d = none := by simp [auto]
  rw [hn]
  by_cases h : d.length < 4 ∨ 6 ≤ d.length
  · obtain ⟨f, hf, _⟩ := C58_formats_partial d h
    rw [hf]
    constructor
    · intro h; cases h
    · intro h; omega
  · have e1 := take_eq_iff (d := d) (p := [0x89, 0x50, 0x4E, 0x47]) (by simp; omega)
    have e2 := take_eq_iff (d := d) (p := [0xFF, 0xD8]) (by simp; omega)
    simp only [List.length_cons, List.length_nil, Nat.zero_add, Nat.reduceAdd] at e1 e2
    unfold isPng isJpeg
    rw [autoFormat_short (by omega), ← e1, ← e2]
    by_cases h1 : d.take 4 = [0x89, 0x50, 0x4E, 0x47]
    · simp [h1]
    · by_cases h2 : d.take 2 = [0xFF, 0xD8]
      · simp [h1, h2]
      · simp only [h1, h2, if_false, not_false_eq_true, and_true, true_iff]
        omega

/-- The file name fits the format. -/
theorem C58_name_partial (d : Bytes) (n f : Str) (h : auto d = some (n, f)) :
    (n, f) = (c!"image.png", c!"PNG") ∨ (n, f) = (c!"image.jpg", c!"JPEG") ∨ (n, f) = (c!"image.gif", c!"GIF") := by
  unfold auto at h
  cases hf : autoFormat d with
  | none => rw [hf] at h; cases h
  | some g =>
    rw [hf, Option.map_some, Option.some.injEq] at h
    have : g = c!"PNG" ∨ g = c!"JPEG" ∨ g = c!"GIF" := by
      by_cases hl : d.length < 4 ∨ 6 ≤ d.length
      · rcases hl with hl | hl
        · unfold autoFormat at hf
          rw [if_neg (by omega), Option.some.injEq] at hf
          exact .inl hf.symm
        · rw [autoFormat_long hl, Option.some.injEq] at hf
          subst hf
          split_ifs <;> simp
      · rw [autoFormat_short (by omega)] at hf
        split_ifs at hf <;> simp_all
    rcases this with rfl | rfl | rfl
    · exact .inl h.symm
    · exact .inr (.inl h.symm)
    · exact .inr (.inr h.symm)

/-! ## Sizes -/

theorem two_isSome (f : UInt8 → UInt8 → Nat) {d : Bytes} {i : Nat} (h : i + 1 < d.length) : ∃ n, two f d i = some n := by
  unfold two
  rw [List.getElem?_eq_getElem (by omega), Option.bind_some, List.getElem?_eq_getElem h]
  exact ⟨_, rfl⟩

theorem four_isSome (f : UInt8 → UInt8 → UInt8 → UInt8 → Nat) {d : Bytes} {i : Nat} (h : i + 3 < d.length) :
    ∃ n, four f d i = some n := by
  unfold four
  rw [List.getElem?_eq_getElem (by omega), Option.bind_some, List.getElem?_eq_getElem (by omega), Option.bind_some,
    List.getElem?_eq_getElem (by omega), Option.bind_some, List.getElem?_eq_getElem h]
  exact ⟨_, rfl⟩

theorem jpegFrom_isSome (d : Bytes) (fuel i : Nat) : ∃ r, jpegFrom d fuel i = some r := by
  induction fuel generalizing i with
  | zero => exact ⟨_, rfl⟩
  | succ fuel ih =>
    unfold jpegFrom
    by_cases h : i + 1 < d.length
    · rw [if_pos h, List.getElem?_eq_getElem (by omega), Option.bind_some]
      by_cases hb : d[i] ≠ 0xFF
      · rw [if_pos hb]
        exact ih _
      · rw [if_neg hb, List.getElem?_eq_getElem h, Option.bind_some]
        split_ifs with h1 h2
        · obtain ⟨a, ha⟩ := two_isSome be16 (d := d) (i := i + 2 + 3) (by omega)
          obtain ⟨b, hb⟩ := two_isSome be16 (d := d) (i := i + 2 + 5) (by omega)
          rw [ha, hb]
          exact ⟨_, rfl⟩
        · obtain ⟨a, ha⟩ := two_isSome be16 (d := d) (i := i + 2) (by omega)
          rw [ha]
          exact ih _
        · exact ih _
    · rw [if_neg h]
      exact ⟨_, rfl⟩

theorem slice_isSome {d : Bytes} {a b : Nat} (h1 : a ≤ b) (h2 : b ≤ d.length) : ∃ r, slice d a b = some r :=
  ⟨_, if_pos ⟨h1, h2⟩⟩

theorem sizeWith_isSome {format : Str} {a b : Option Nat} (ha : ∃ n, a = some n) (hb : ∃ n, b = some n) :
    ∃ r, sizeWith format a b = some r := by
  obtain ⟨_, rfl⟩ := ha
  obtain ⟨_, rfl⟩ := hb
  exact ⟨_, rfl⟩

/-- **C58.** Reading the size never crashes, whatever the bytes are. -/
theorem C58_size_total (d : Bytes) : ∃ r, size d = some r := by
  unfold size
  split_ifs with h1 h2 h3 h4 h5
  · exact ⟨_, rfl⟩
  · exact sizeWith_isSome (four_isSome _ (by omega)) (four_isSome _ (by omega))
  · exact jpegFrom_isSome _ _ _
  · exact sizeWith_isSome (two_isSome _ (by omega)) (two_isSome _ (by omega))
  · exact sizeWith_isSome (four_isSome _ (by omega)) (four_isSome _ (by omega))
  · unfold webpSize
    split_ifs with h6
    · obtain ⟨a, ha⟩ := slice_isSome (d := d) (a := 0) (b := 4) (by omega) (by omega)
      obtain ⟨b, hb⟩ := slice_isSome (d := d) (a := 8) (b := 12) (by omega) (by omega)
      obtain ⟨c, hc⟩ := slice_isSome (d := d) (a := 12) (b := 16) (by omega) (by omega)
      obtain ⟨x, hx⟩ := two_isSome le16 (d := d) (i := 26) (by omega)
      obtain ⟨y, hy⟩ := two_isSome le16 (d := d) (i := 28) (by omega)
      obtain ⟨z, hz⟩ := four_isSome le32 (d := d) (i := 21) (by omega)
      rw [ha, Option.bind_some, hb, Option.bind_some, hc, Option.bind_some, hx, hy, hz]
      split_ifs <;> exact ⟨_, rfl⟩
    · exact ⟨_, rfl⟩

/-- A number as four bytes, most significant first. -/
def bytes4 (n : Nat) : Bytes :=
  [(n / 16777216).toUInt8, (n / 65536).toUInt8, (n / 256).toUInt8, n.toUInt8]

/-- A number as two bytes, most significant first. -/
def bytes2 (n : Nat) : Bytes := [(n / 256).toUInt8, n.toUInt8]

theorem toNat_toUInt8 (n : Nat) : n.toUInt8.toNat = n % 256 := by simp

theorem be16_bytes {n : Nat} (h : n < 65536) : be16 (n / 256).toUInt8 n.toUInt8 = n := by
  unfold be16
  rw [toNat_toUInt8, toNat_toUInt8]
  omega

theorem be32_bytes {n : Nat} (h : n < 4294967296) :
    be32 (n / 16777216).toUInt8 (n / 65536).toUInt8 (n / 256).toUInt8 n.toUInt8 = n := by
  unfold be32 be16
  simp only [toNat_toUInt8]
  omega

/-- **C58.** The size of a PNG file: the first chunk holds width and height as 32-bit numbers (PNG 11.2.2). -/
theorem C58_png_size (a b c d e f g h : UInt8) (w ht : Nat) (hw : w < 4294967296) (hh : ht < 4294967296) (rest : Bytes) :
    size ([0x89, 0x50, 0x4E, 0x47, 0x0D, 0x0A, 0x1A, 0x0A, a, b, c, d, e, f, g, h] ++ bytes4 w ++ bytes4 ht ++ rest) =
      some (some ⟨w, ht, c!"PNG"⟩) := by
  unfold size
  rw [if_neg (by simp [bytes4]), if_pos ⟨rfl, by simp [bytes4]⟩]
  show some (some (Size.mk (be32 _ _ _ _) (be32 _ _ _ _) c!"PNG")) = _
  rw [be32_bytes hw, be32_bytes hh]

/-- **C58.** The size of a GIF file: 16-bit numbers, least significant byte first (GIF 89a, section 18). -/
theorem C58_gif_size (v a : UInt8) (w ht : Nat) (hw : w < 65536) (hh : ht < 65536) (rest : Bytes) :
    size ([0x47, 0x49, 0x46, 0x38, v, a] ++ (bytes2 w).reverse ++ (bytes2 ht).reverse ++ rest) =
      some (some ⟨w, ht, c!"GIF"⟩) := by
  unfold size
  rw [if_neg (by simp [bytes2]), if_neg (by simp), if_neg (by simp), if_pos ⟨rfl, by simp [bytes2]⟩]
  show some (some (Size.mk (be16 _ _) (be16 _ _) c!"GIF")) = _
  rw [be16_bytes hw, be16_bytes hh]

/-- **C58.** The size of a lossy WebP file (RFC 6386, 9.1): 14 bits and two bits of scale each. -/
theorem C58_webp_size (a b : Bytes) (ha : a.length = 4) (hb : b.length = 10) (w h sw sh : Nat) (hw : w < 16384) (hh : h < 16384)
    (hsw : sw < 4) (hsh : sh < 4) (rest : Bytes) :
    size ([0x52, 0x49, 0x46, 0x46] ++ a ++ [0x57, 0x45, 0x42, 0x50, 0x56, 0x50, 0x38, 0x20] ++ b
      ++ (bytes2 (w + 16384 * sw)).reverse ++ (bytes2 (h + 16384 * sh)).reverse ++ rest) = some (some ⟨w, h, c!"WEBP"⟩) := by
  match a, ha, b, hb with
  | [a0, a1, a2, a3], _, [b0, b1, b2, b3, b4, b5, b6, b7, b8, b9], _ =>
    unfold size
    rw [if_neg (by simp [bytes2]), if_neg (by simp), if_neg (by simp), if_neg (by simp), if_neg (by simp)]
    unfold webpSize
    rw [if_pos (by simp [bytes2])]
    show some (some (Size.mk (be16 _ _ % 16384) (be16 _ _ % 16384) c!"WEBP")) = _
    rw [be16_bytes (by omega), be16_bytes (by omega)]
    congr 3 <;> omega

/-- **C58.** The size of a lossless WebP file (WebP lossless bitstream specification, section 3): 14 bits each for width
and height less one. -/
theorem C58_webp_lossless_size (a b : Bytes) (ha : a.length = 4) (hb : b.length = 5) (w h v : Nat) (hw : w < 16384)
    (hh : h < 16384) (hv : v < 16) (rest : Bytes) (hr : 5 ≤ rest.length) :
    size ([0x52, 0x49, 0x46, 0x46] ++ a ++ [0x57, 0x45, 0x42, 0x50, 0x56, 0x50, 0x38, 0x4C] ++ b
      ++ (bytes4 (w + 16384 * h + 268435456 * v)).reverse ++ rest) = some (some ⟨w + 1, h + 1, c!"WEBP"⟩) := by
  match a, ha, b, hb with
  | [a0, a1, a2, a3], _, [b0, b1, b2, b3, b4], _ =>
    unfold size
    rw [if_neg (by simp [bytes4]), if_neg (by simp), if_neg (by simp), if_neg (by simp), if_neg (by simp)]
    unfold webpSize
    rw [if_pos (by simp [bytes4]; omega)]
    show some (some (Size.mk (be32 _ _ _ _ % 16384 + 1) (be32 _ _ _ _ / 16384 % 16384 + 1) c!"WEBP")) = _
    rw [be32_bytes (by omega)]
    congr 3 <;> omega

/-- A segment of a JPEG file: marker, length and content. -/
structure Segment where
  marker : UInt8
  content : Bytes

/-- The bytes of a segment. -/
def Segment.bytes (s : Segment) : Bytes := [0xFF, s.marker] ++ bytes2 (s.content.length + 2) ++ s.content

/-- A segment before the frame header: it has a length, and is neither a frame header of the two kinds that are looked
for nor the start of the scan. -/
structure Segment.Ok (s : Segment) : Prop where
  length : s.content.length + 2 < 65536
  marker : 0xC0 ≤ s.marker.toNat
  other : s.marker ≠ 0xC0 ∧ s.marker ≠ 0xC2 ∧ s.marker ≠ 0xD9 ∧ s.marker ≠ 0xDA

theorem getElem_pre (p s : Bytes) (k : Nat) : (p ++ s)[p.length + k]? = s[k]? := by
  rw [List.getElem?_append_right (by omega)]
  congr 1
  omega

/-- The frame header. -/
def frame (marker precision : UInt8) (len w h : Nat) : Bytes :=
  [0xFF, marker] ++ bytes2 len ++ [precision] ++ bytes2 h ++ bytes2 w

theorem jpegFrom_frame (pre rest : Bytes) (m p : UInt8) (len w h fuel : Nat) (hm : m = 0xC0 ∨ m = 0xC2) (hw : w < 65536)
    (hh : h < 65536) (hr : rest ≠ []) :
    jpegFrom (pre ++ (frame m p len w h ++ rest)) (fuel + 1) pre.length = some (some ⟨w, h, c!"JPEG"⟩) := by
  have hl : (pre ++ (frame m p len w h ++ rest)).length = pre.length + (9 + rest.length) := by
    simp [frame, bytes2]; omega
  have hrl : 0 < rest.length := List.length_pos_iff.mpr hr
  unfold jpegFrom
  rw [hl, if_pos (by omega)]
  have e0 : (pre ++ (frame m p len w h ++ rest))[pre.length]? = some 0xFF := getElem_pre pre _ 0
  have e1 : (pre ++ (frame m p len w h ++ rest))[pre.length + 1]? = some m := getElem_pre pre _ 1
  rw [e0, Option.bind_some, if_neg (by simp), e1, Option.bind_some, if_pos ⟨hm, by omega⟩]
  have eh : two be16 (pre ++ (frame m p len w h ++ rest)) (pre.length + 2 + 3) = some h := by
    unfold two
    rw [show pre.length + 2 + 3 = pre.length + 5 from rfl, getElem_pre, show pre.length + 5 + 1 = pre.length + 6 from rfl,
      getElem_pre]
    show some (be16 _ _) = _
    rw [be16_bytes hh]
  have ew : two be16 (pre ++ (frame m p len w h ++ rest)) (pre.length + 2 + 5) = some w := by
    unfold two
    rw [show pre.length + 2 + 5 = pre.length + 7 from rfl, getElem_pre, show pre.length + 7 + 1 = pre.length + 8 from rfl,
      getElem_pre]
    show some (be16 _ _) = _
    rw [be16_bytes hw]
  rw [eh, Option.bind_some, ew]
  rfl

theorem jpegFrom_segment (pre rest : Bytes) (s : Segment) (hs : s.Ok) (fuel : Nat) :
    jpegFrom (pre ++ (s.bytes ++ rest)) (fuel + 1) pre.length =
      jpegFrom ((pre ++ s.bytes) ++ rest) fuel (pre ++ s.bytes).length := by
  have hl : (pre ++ (s.bytes ++ rest)).length = pre.length + (4 + s.content.length + rest.length) := by
    simp [Segment.bytes, bytes2]; omega
  conv_lhs => unfold jpegFrom
  rw [hl, if_pos (by omega)]
  have e0 : (pre ++ (s.bytes ++ rest))[pre.length]? = some 0xFF := getElem_pre pre _ 0
  have e1 : (pre ++ (s.bytes ++ rest))[pre.length + 1]? = some s.marker := getElem_pre pre _ 1
  obtain ⟨o1, o2, o3, o4⟩ := hs.other
  rw [e0, Option.bind_some, if_neg (by simp), e1, Option.bind_some, if_neg (by simp [o1, o2]),
    if_pos ⟨hs.marker, o3, o4, by omega⟩]
  have el : two be16 (pre ++ (s.bytes ++ rest)) (pre.length + 2) = some (s.content.length + 2) := by
    unfold two
    rw [getElem_pre, show pre.length + 2 + 1 = pre.length + 3 from rfl, getElem_pre]
    show some (be16 _ _) = _
    rw [be16_bytes hs.length]
  rw [el, Option.bind_some, List.append_assoc]
  congr 1
  simp [Segment.bytes, bytes2]
  omega

theorem jpegFrom_segments (ss : List Segment) (hs : ∀ s ∈ ss, s.Ok) (pre rest : Bytes) (m p : UInt8) (len w h fuel : Nat)
    (hm : m = 0xC0 ∨ m = 0xC2) (hw : w < 65536) (hh : h < 65536) (hr : rest ≠ []) :
    jpegFrom (pre ++ (ss.flatMap Segment.bytes ++ (frame m p len w h ++ rest))) (ss.length + (fuel + 1)) pre.length =
      some (some ⟨w, h, c!"JPEG"⟩) := by
  induction ss generalizing pre with
  | nil =>
    rw [List.length_nil, Nat.zero_add]
    exact jpegFrom_frame pre rest m p len w h fuel hm hw hh hr
  | cons s ss ih =>
    rw [List.flatMap_cons, List.append_assoc, List.length_cons,
      show ss.length + 1 + (fuel + 1) = (ss.length + (fuel + 1)) + 1 by omega, jpegFrom_segment _ _ _ (hs s (by simp))]
    exact ih (fun x hx => hs x (by simp [hx])) _

/-- **C58.** The size of a JPEG file (ITU-T T.81, B.2.2): after any segments, the frame header of a baseline or
progressive image gives height and width. -/
theorem C58_jpeg_size_partial (ss : List Segment) (hs : ∀ s ∈ ss, s.Ok) (m p : UInt8) (len w h : Nat)
    (hm : m = 0xC0 ∨ m = 0xC2) (hw : w < 65536) (hh : h < 65536) (rest : Bytes) (hr : rest ≠ []) :
    size ([0xFF, 0xD8] ++ ss.flatMap Segment.bytes ++ frame m p len w h ++ rest) = some (some ⟨w, h, c!"JPEG"⟩) := by
  have e : ([0xFF, 0xD8] ++ ss.flatMap Segment.bytes ++ frame m p len w h ++ rest : Bytes) =
      [0xFF, 0xD8] ++ (ss.flatMap Segment.bytes ++ (frame m p len w h ++ rest)) := by simp
  have hrl : 0 < rest.length := List.length_pos_iff.mpr hr
  have hseg : ss.length ≤ (ss.flatMap Segment.bytes).length := by
    clear hs e
    induction ss with
    | nil => simp
    | cons s ss ih =>
      simp only [List.flatMap_cons, List.length_append, List.length_cons]
      have : 1 ≤ s.bytes.length := by simp [Segment.bytes]
      omega
  rw [e]
  unfold size
  rw [if_neg (by simp [frame, bytes2]; omega), if_neg (by simp), if_pos (by rfl)]
  unfold jpegSize
  obtain ⟨k, hk⟩ : ∃ k, ([0xFF, 0xD8] ++ (ss.flatMap Segment.bytes ++ (frame m p len w h ++ rest)) : Bytes).length + 1 =
      ss.length + (k + 1) := by
    refine ⟨([0xFF, 0xD8] ++ (ss.flatMap Segment.bytes ++ (frame m p len w h ++ rest)) : Bytes).length - ss.length, ?_⟩
    simp only [List.length_append, List.length_cons, List.length_nil]
    omega
  rw [hk]
  exact jpegFrom_segments ss hs [0xFF, 0xD8] rest m p len w h k hm hw hh hr

example : (⟨0xE0, [1, 2, 3]⟩ : Segment).Ok := ⟨by decide, by decide, by decide⟩

/-- Images of the other sequential kinds (marker C1, for example), which are legal as well, are not recognised. -/
theorem C58_extended_violated : size ([0xFF, 0xD8] ++ frame 0xC1 8 17 640 480 ++ [3, 1, 2, 3, 4, 5, 6, 7, 8, 9, 0xFF, 0xD9]) =
    some none := by decide +kernel

/-- An image loaded from a file: pixels become units; a size that does not fit into 32 bits crashes. -/
theorem C58_from_file (d : Bytes) (s : Size) (h : size d = some (some s)) :
    (s.width ≤ 450915 ∧ s.height ≤ 450915 → fromBytes d = some (some ⟨s.width * 9525, s.height * 9525, s.format⟩)) ∧
    (450915 < s.width ∨ 450915 < s.height → fromBytes d = none) := by
  unfold fromBytes
  rw [h, Option.bind_some]
  constructor
  · intro hb
    simp only
    rw [if_pos (by omega)]
  · intro hb
    simp only
    rw [if_neg (by omega)]

/-- A bitmap whose lines are stored from top to bottom has a negative height (32-bit two's complement) and crashes the
program. -/
theorem C58_bitmap_violated (b : Bytes) (hb : b.length = 16) (w h : Nat) (hw : w < 4294967296) (h0 : 0 < h) (hh : h ≤ 2147483648)
    (rest : Bytes) :
    fromBytes ([0x42, 0x4D] ++ b ++ (bytes4 w).reverse ++ (bytes4 (4294967296 - h)).reverse ++ rest) = none := by
  have hs : size ([0x42, 0x4D] ++ b ++ (bytes4 w).reverse ++ (bytes4 (4294967296 - h)).reverse ++ rest) =
      some (some ⟨w, 4294967296 - h, c!"BMP"⟩) := by
    match b, hb with
    | [b0, b1, b2, b3, b4, b5, b6, b7, b8, b9, b10, b11, b12, b13, b14, b15], _ =>
      unfold size
      rw [if_neg (by simp [bytes4]), if_neg (by simp), if_neg (by simp), if_neg (by simp), if_pos ⟨rfl, by simp [bytes4]⟩]
      show some (some (Size.mk (be32 _ _ _ _) (be32 _ _ _ _) c!"BMP")) = _
      rw [be32_bytes hw, be32_bytes (by omega)]
  exact (C58_from_file _ _ hs).2 (.inr (by simp only; omega))

end PptRs.Props
