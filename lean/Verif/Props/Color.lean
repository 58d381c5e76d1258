import Verif.Model.Color
import Mathlib.Tactic.ByContra
import Mathlib.Tactic.Tauto
import Mathlib.Tactic.SplitIfs

/-!
# C21, C22: colours
-/

namespace PptRs.Spec

/-- The value of a hexadecimal digit, upper or lower case. -/
def HexValue (c : Char) (n : Nat) : Prop :=
  c ∈ (c!"0123456789abcdef")[n]? ∨ c ∈ (c!"0123456789ABCDEF")[n]?

/-- Two characters are the hexadecimal form of a byte. -/
def HexByte (s : Str) (b : UInt8) : Prop :=
  ∃ c d m n, s = [c, d] ∧ HexValue c m ∧ HexValue d n ∧ b.toNat = 16 * m + n

end PptRs.Spec

namespace PptRs.Props

open PptRs PptRs.Spec

theorem splitBytes_ascii {s t : Str} (h : ∀ c ∈ s, c.toNat < 128) : splitBytes s.length (s ++ t) = some (s, t) := by
  induction s with
  | nil => simp [splitBytes]
  | cons c s ih =>
    have e : utf8Size c = 1 := by simp [utf8Size, h c (by simp)]
    rw [List.length_cons, List.cons_append, splitBytes, if_pos (by omega), e, Nat.add_sub_cancel,
      ih fun x hx => h x (by simp [hx])]
    rfl

theorem utf8Len_ascii {s : Str} (h : ∀ c ∈ s, c.toNat < 128) : utf8Len s = s.length := by
  induction s with
  | nil => rfl
  | cons c s ih =>
    have e : utf8Size c = 1 := by simp [utf8Size, h c (by simp)]
    unfold utf8Len at ih ⊢
    rw [List.map_cons, List.sum_cons, e, ih fun x hx => h x (by simp [hx])]
    simp; omega

theorem byteSlice_ascii {s t u : Str} (hs : ∀ c ∈ s, c.toNat < 128) (ht : ∀ c ∈ t, c.toNat < 128) {a b : Nat}
    (ha : s.length = a) (hb : t.length = b - a) : byteSlice (s ++ t ++ u) a b = some t := by
  unfold byteSlice
  rw [List.append_assoc, ← ha, splitBytes_ascii hs, Option.bind_some, ha, ← hb]
  simp only
  rw [splitBytes_ascii ht]
  rfl

theorem hexValue_digit {c : Char} {n : Nat} (h : HexValue c n) :
    n < 16 ∧ hexDigit? c = some n ∧ c.toNat < 128 ∧ c ≠ '+' ∧ c ≠ '#' := by
  have hn : n < 16 := by
    by_contra hc
    unfold HexValue at h
    rw [List.getElem?_eq_none (by simpa using hc), List.getElem?_eq_none (by simpa using hc)] at h
    simp at h
  refine ⟨hn, ?_⟩
  unfold HexValue at h
  have k : ∀ n < 16, ∀ c, (c ∈ (c!"0123456789abcdef")[n]? ∨ c ∈ (c!"0123456789ABCDEF")[n]?) →
      hexDigit? c = some n ∧ c.toNat < 128 ∧ c ≠ '+' ∧ c ≠ '#' := by
    intro n hn c h
    have h2 : c = ((c!"0123456789abcdef")[n]?).getD ' ' ∨ c = ((c!"0123456789ABCDEF")[n]?).getD ' ' := by
      rcases h with h | h
      · left; rw [Option.mem_def] at h; rw [h]; rfl
      · right; rw [Option.mem_def] at h; rw [h]; rfl
    have k2 : ∀ n < 16, (hexDigit? (((c!"0123456789abcdef")[n]?).getD ' ') = some n ∧
        (((c!"0123456789abcdef")[n]?).getD ' ').toNat < 128 ∧ ((c!"0123456789abcdef")[n]?).getD ' ' ≠ '+' ∧
        ((c!"0123456789abcdef")[n]?).getD ' ' ≠ '#') ∧
        (hexDigit? (((c!"0123456789ABCDEF")[n]?).getD ' ') = some n ∧
        (((c!"0123456789ABCDEF")[n]?).getD ' ').toNat < 128 ∧ ((c!"0123456789ABCDEF")[n]?).getD ' ' ≠ '+' ∧
        ((c!"0123456789ABCDEF")[n]?).getD ' ' ≠ '#') := by decide +kernel
    rcases h2 with rfl | rfl
    · exact (k2 n hn).1
    · exact (k2 n hn).2
  exact k n hn c h

theorem parseHex_byte {s : Str} {b : UInt8} (h : HexByte s b) : parseHexU8 s = some b := by
  obtain ⟨c, d, m, n, rfl, hc, hd, hb⟩ := h
  obtain ⟨hm, h1, _, hp, _⟩ := hexValue_digit hc
  obtain ⟨hn, h2, _, _, _⟩ := hexValue_digit hd
  have e : dropPlus [c, d] = [c, d] := by
    unfold dropPlus
    split
    · rename_i h; exact absurd (List.cons.inj h).1 hp
    · rfl
  have e2 : hexDigits 0 [c, d] = some (m * 16 + n) := by
    simp [hexDigits, h1, h2]
  unfold parseHexU8
  simp only [e]
  rw [if_neg (by simp), e2, Option.bind_some, if_pos (by omega)]
  congr 1
  rw [show m * 16 + n = b.toNat by omega]
  exact UInt8.ofNat_toNat

theorem ascii_byte {s : Str} {b : UInt8} (h : HexByte s b) :
    (∀ c ∈ s, c.toNat < 128) ∧ s.length = 2 ∧ '#' ∉ s := by
  obtain ⟨c, d, m, n, rfl, hc, hd, hb⟩ := h
  have h1 := hexValue_digit hc
  have h2 := hexValue_digit hd
  refine ⟨?_, rfl, ?_⟩
  · intro x hx
    simp only [List.mem_cons, List.not_mem_nil, or_false] at hx
    rcases hx with rfl | rfl
    · exact h1.2.2.1
    · exact h2.2.2.1
  · simp only [List.mem_cons, List.not_mem_nil, or_false, not_or]
    exact ⟨h1.2.2.2.2.symm, h2.2.2.2.2.symm⟩

theorem trimStart_hashes (k : Nat) {s : Str} (h : '#' ∉ s) :
    trimStartChar '#' (List.replicate k '#' ++ s) = s := by
  induction k with
  | zero =>
    cases s with
    | nil => rfl
    | cons c s =>
      simp only [List.replicate_zero, List.nil_append, trimStartChar]
      rw [if_neg (fun e => h (by simp [e]))]
  | succ k ih => rw [List.replicate_succ, List.cons_append, trimStartChar, if_pos rfl, ih]

/-- Reading any text of the form `RRGGBB`, in upper, lower or mixed case, behind any number of `#`. -/
theorem fromHex_bytes {x y z : Str} {r g b : UInt8} (hx : HexByte x r) (hy : HexByte y g) (hz : HexByte z b)
    (k : Nat) :
    RgbColor.fromHex (List.replicate k '#' ++ (x ++ y ++ z)) = some (some ⟨r, g, b⟩) ∧
      ColorValue.fromHex (List.replicate k '#' ++ (x ++ y ++ z)) = some ⟨r, g, b, 255⟩ := by
  obtain ⟨ax, lx, nx⟩ := ascii_byte hx
  obtain ⟨ay, ly, ny⟩ := ascii_byte hy
  obtain ⟨az, lz, nz⟩ := ascii_byte hz
  have ha : ∀ c ∈ x ++ y ++ z, c.toNat < 128 := by
    intro c hc
    simp only [List.mem_append] at hc
    rcases hc with (hc | hc) | hc
    · exact ax c hc
    · exact ay c hc
    · exact az c hc
  have hl : utf8Len (x ++ y ++ z) = 6 := by rw [utf8Len_ascii ha]; simp [lx, ly, lz]
  have ht := trimStart_hashes k (s := x ++ y ++ z) (by simp [nx, ny, nz])
  have s1 : byteSlice (x ++ y ++ z) 0 2 = some x := by
    have := byteSlice_ascii (s := []) (t := x) (u := y ++ z) (a := 0) (b := 2) (by simp) ax rfl lx
    rwa [List.nil_append, ← List.append_assoc] at this
  have s2 : byteSlice (x ++ y ++ z) 2 4 = some y := byteSlice_ascii ax ay lx ly
  have s3 : byteSlice (x ++ y ++ z) 4 6 = some z := by
    have := byteSlice_ascii (s := x ++ y) (t := z) (u := []) (a := 4) (b := 6)
      (fun c hc => ha c (by simp only [List.mem_append] at hc ⊢; exact .inl hc)) az (by simp [lx, ly]) lz
    rwa [List.append_nil] at this
  constructor
  · unfold RgbColor.fromHex
    simp only [ht]
    rw [if_neg (not_not.mpr hl), s1, Option.bind_some, parseHex_byte hx]
    simp only
    rw [s2, Option.bind_some, parseHex_byte hy]
    simp only
    rw [s3, Option.bind_some, parseHex_byte hz]
  · unfold ColorValue.fromHex
    simp only [ht]
    rw [if_pos hl, s1, Option.bind_some, s2, Option.bind_some, s3, Option.bind_some, parseHex_byte hx,
      parseHex_byte hy, parseHex_byte hz]
    rfl

/-- **C21**: any six hexadecimal digits, in upper, lower or mixed case and behind any number of `#`,
are parsed as the colour they denote. -/
theorem C21_parse (x y z : Str) (r g b : UInt8) (hx : HexByte x r) (hy : HexByte y g) (hz : HexByte z b)
    (k : Nat) :
    RgbColor.fromHex (List.replicate k '#' ++ (x ++ y ++ z)) = some (some ⟨r, g, b⟩) ∧
      ColorValue.fromHex (List.replicate k '#' ++ (x ++ y ++ z)) = some ⟨r, g, b, 255⟩ :=
  fromHex_bytes hx hy hz k

theorem hexByte_hex2 (b : UInt8) : HexByte (hex2 b) b := by
  have k : ∀ n < 16, hexUpper n ∈ (c!"0123456789ABCDEF")[n]? := by decide +kernel
  have := b.toNat_lt
  exact ⟨_, _, b.toNat / 16, b.toNat % 16, rfl, .inr (k _ (by omega)), .inr (k _ (by omega)), by omega⟩

theorem hexByte_lower (b : UInt8) : HexByte ((hex2 b).map Char.toLower) b := by
  have k : ∀ n < 16, (hexUpper n).toLower ∈ (c!"0123456789abcdef")[n]? := by decide +kernel
  have := b.toNat_lt
  exact ⟨_, _, b.toNat / 16, b.toNat % 16, rfl, .inl (k _ (by omega)), .inl (k _ (by omega)), by omega⟩

/-- **C21**: formatting and parsing returns the colour, with or without `#`, in upper or lower case,
for both colour types. -/
theorem C21_roundtrip (r g b a : UInt8) (k : Nat) :
    RgbColor.fromHex (List.replicate k '#' ++ RgbColor.toHex ⟨r, g, b⟩) = some (some ⟨r, g, b⟩) ∧
    RgbColor.fromHex (List.replicate k '#' ++ (RgbColor.toHex ⟨r, g, b⟩).map Char.toLower) =
      some (some ⟨r, g, b⟩) ∧
    ColorValue.fromHex (List.replicate k '#' ++ ColorValue.toHex ⟨r, g, b, a⟩) = some ⟨r, g, b, 255⟩ ∧
    ColorValue.fromHex (List.replicate k '#' ++ (ColorValue.toHex ⟨r, g, b, a⟩).map Char.toLower) =
      some ⟨r, g, b, 255⟩ := by
  have h1 := fromHex_bytes (hexByte_hex2 r) (hexByte_hex2 g) (hexByte_hex2 b) k
  have h2 := fromHex_bytes (hexByte_lower r) (hexByte_lower g) (hexByte_lower b) k
  rw [← List.map_append, ← List.map_append] at h2
  exact ⟨h1.1, h2.1, h1.2, h2.2⟩

/-- **C21**: the form with opacity keeps all four values. -/
theorem C21_roundtrip_alpha (c : ColorValue) (k : Nat) :
    ColorValue.fromHex (List.replicate k '#' ++ c.toHexAlpha) = some c := by
  obtain ⟨r, g, b, a⟩ := c
  have hx := hexByte_hex2 r
  have hy := hexByte_hex2 g
  have hz := hexByte_hex2 b
  have hw := hexByte_hex2 a
  obtain ⟨ax, lx, nx⟩ := ascii_byte hx
  obtain ⟨ay, ly, ny⟩ := ascii_byte hy
  obtain ⟨az, lz, nz⟩ := ascii_byte hz
  obtain ⟨aw, lw, nw⟩ := ascii_byte hw
  show ColorValue.fromHex (_ ++ (hex2 r ++ hex2 g ++ hex2 b ++ hex2 a)) = _
  revert hx hy hz hw ax lx nx ay ly ny az lz nz aw lw nw
  generalize hex2 r = x
  generalize hex2 g = y
  generalize hex2 b = z
  generalize hex2 a = w
  intro hx hy hz hw ax lx nx ay ly ny az lz nz aw lw nw
  have ha : ∀ c ∈ x ++ y ++ z ++ w, c.toNat < 128 := by
    intro c hc
    simp only [List.mem_append] at hc
    rcases hc with ((hc | hc) | hc) | hc
    · exact ax c hc
    · exact ay c hc
    · exact az c hc
    · exact aw c hc
  have hl : utf8Len (x ++ y ++ z ++ w) = 8 := by rw [utf8Len_ascii ha]; simp [lx, ly, lz, lw]
  have ht := trimStart_hashes k (s := x ++ y ++ z ++ w) (by simp [nx, ny, nz, nw])
  have s1 : byteSlice (x ++ y ++ z ++ w) 0 2 = some x := by
    have := byteSlice_ascii (s := []) (t := x) (u := y ++ z ++ w) (a := 0) (b := 2) (by simp) ax rfl lx
    rwa [List.nil_append, ← List.append_assoc, ← List.append_assoc] at this
  have s2 : byteSlice (x ++ y ++ z ++ w) 2 4 = some y := by
    have := byteSlice_ascii (s := x) (t := y) (u := z ++ w) (a := 2) (b := 4) ax ay lx ly
    rwa [← List.append_assoc] at this
  have s3 : byteSlice (x ++ y ++ z ++ w) 4 6 = some z :=
    byteSlice_ascii (s := x ++ y) (fun c hc => ha c (by simp only [List.mem_append] at hc ⊢; tauto)) az
      (by simp [lx, ly]) lz
  have s4 : byteSlice (x ++ y ++ z ++ w) 6 8 = some w := by
    have := byteSlice_ascii (s := x ++ y ++ z) (t := w) (u := []) (a := 6) (b := 8)
      (fun c hc => ha c (by simp only [List.mem_append] at hc ⊢; tauto)) aw (by simp [lx, ly, lz]) lw
    rwa [List.append_nil] at this
  unfold ColorValue.fromHex
  simp only [ht]
  rw [if_neg (by omega), if_pos hl, s1, Option.bind_some, s2, Option.bind_some, s3, Option.bind_some, s4,
    Option.bind_some, parseHex_byte hx, parseHex_byte hy, parseHex_byte hz, parseHex_byte hw]
  rfl

example : RgbColor.toHex ⟨255, 9, 160⟩ = c!"FF09A0" ∧
    RgbColor.fromHex c!"#ff09a0" = some (some ⟨255, 9, 160⟩) ∧ HexByte c!"fF" 255 := by
  refine ⟨by decide, ?_, 'f', 'F', 15, 15, rfl, .inl (by simp), .inr (by simp), by decide⟩
  have h := (C21_roundtrip 255 9 160 0 1).2.1
  exact h

/-! ## C22 -/

/-- All characters are ASCII. -/
def AllAscii (s : Str) : Prop := ∀ c ∈ s, c.toNat < 128

theorem mem_trimStartChar {c d : Char} {s : Str} (h : c ∈ trimStartChar d s) : c ∈ s := by
  induction s with
  | nil => exact h
  | cons x s ih =>
    rw [trimStartChar] at h
    split at h
    · exact List.mem_cons_of_mem _ (ih h)
    · exact h

theorem byteSlice_some {s : Str} (h : AllAscii s) {a b : Nat} (hab : a ≤ b) (hb : b ≤ s.length) :
    (byteSlice s a b).isSome := by
  have e : s = s.take a ++ (s.drop a).take (b - a) ++ (s.drop a).drop (b - a) := by
    rw [List.append_assoc, List.take_append_drop, List.take_append_drop]
  rw [e, byteSlice_ascii]
  · rfl
  · exact fun c hc => h c (List.mem_of_mem_take hc)
  · exact fun c hc => h c (List.mem_of_mem_drop (List.mem_of_mem_take hc))
  · simp; omega
  · simp; omega

/-- **C22**, what does hold: parsing an ASCII text never crashes. (Missing: other texts.) -/
theorem C22_ascii_never_crashes_partial (s : Str) (h : AllAscii s) :
    (RgbColor.fromHex s).isSome ∧ (ColorValue.fromHex s).isSome := by
  have h2 : AllAscii (trimStartChar '#' s) := fun c hc => h c (mem_trimStartChar hc)
  have hl := utf8Len_ascii h2
  have k : ∀ {a b}, a ≤ b → b ≤ (trimStartChar '#' s).length →
      ∃ t, byteSlice (trimStartChar '#' s) a b = some t := fun h1 h3 =>
    Option.isSome_iff_exists.mp (byteSlice_some h2 h1 h3)
  constructor
  · unfold RgbColor.fromHex
    simp only
    split
    · rfl
    · rename_i h6
      obtain ⟨x, hx⟩ := k (a := 0) (b := 2) (by omega) (by omega)
      obtain ⟨y, hy⟩ := k (a := 2) (b := 4) (by omega) (by omega)
      obtain ⟨z, hz⟩ := k (a := 4) (b := 6) (by omega) (by omega)
      rw [hx, hy, hz]
      simp only [Option.bind_some]
      split
      · rfl
      · split
        · rfl
        · split <;> rfl
  · unfold ColorValue.fromHex
    simp only
    split
    · obtain ⟨x, hx⟩ := k (a := 0) (b := 2) (by omega) (by omega)
      obtain ⟨y, hy⟩ := k (a := 2) (b := 4) (by omega) (by omega)
      obtain ⟨z, hz⟩ := k (a := 4) (b := 6) (by omega) (by omega)
      rw [hx, hy, hz]
      rfl
    · split
      · obtain ⟨x, hx⟩ := k (a := 0) (b := 2) (by omega) (by omega)
        obtain ⟨y, hy⟩ := k (a := 2) (b := 4) (by omega) (by omega)
        obtain ⟨z, hz⟩ := k (a := 4) (b := 6) (by omega) (by omega)
        obtain ⟨w, hw⟩ := k (a := 6) (b := 8) (by omega) (by omega)
        rw [hx, hy, hz, hw]
        rfl
      · rfl

/-- A text of any other length in bytes never crashes either. -/
theorem C22_other_lengths_partial (s : Str) (h6 : utf8Len (trimStartChar '#' s) ≠ 6)
    (h8 : utf8Len (trimStartChar '#' s) ≠ 8) :
    RgbColor.fromHex s = some none ∧ ColorValue.fromHex s = some ⟨0, 0, 0, 255⟩ := by
  unfold RgbColor.fromHex ColorValue.fromHex
  simp only
  rw [if_pos h6, if_neg h6, if_neg h8]
  exact ⟨rfl, rfl⟩

/-- **C22** fails: every text of six bytes whose first character takes three or more bytes crashes both
parsers, for example the text of two euro signs. -/
theorem C22_crash_violated (c : Char) (s : Str) (hc : 0x800 ≤ c.toNat) (hl : utf8Len (c :: s) = 6) :
    RgbColor.fromHex (c :: s) = none ∧ ColorValue.fromHex (c :: s) = none := by
  have e : trimStartChar '#' (c :: s) = c :: s := by
    rw [trimStartChar, if_neg]
    rintro rfl
    revert hc; decide
  have hs : 3 ≤ utf8Size c := by unfold utf8Size; split_ifs <;> omega
  have hb : byteSlice (c :: s) 0 2 = none := by
    simp only [byteSlice, splitBytes, Option.bind_some]
    rw [if_neg (by omega)]
    rfl
  unfold RgbColor.fromHex ColorValue.fromHex
  simp only [e]
  rw [if_neg (not_not.mpr hl), if_pos hl, hb]
  exact ⟨rfl, rfl⟩

example : 0x800 ≤ '€'.toNat ∧ utf8Len c!"€€" = 6 := by decide

end PptRs.Props
