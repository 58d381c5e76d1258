import Verif.Model.Utf8

namespace PptRs

theorem toNat_toUInt8 {n : Nat} (h : n < 256) : n.toUInt8.toNat = n := by
  simp [Nat.toUInt8, UInt8.toNat_ofNat', Nat.mod_eq_of_lt h]

theorem cont?_of {n : Nat} (h : n < 64) : cont? (0x80 + n).toUInt8 = some n := by
  unfold cont?
  rw [toNat_toUInt8 (by omega), if_pos (by omega)]
  rw [Nat.add_sub_cancel_left]

theorem scalar?_of {lo : Nat} {c : Char} (h : lo ≤ c.toNat) : scalar? lo c.toNat = some c := by
  unfold scalar?
  have : c.toNat.isValidChar := c.valid
  rw [if_pos ⟨h, this⟩, Char.ofNat_toNat]

theorem char_lt (c : Char) : c.toNat < 0x110000 := by
  have : c.toNat.isValidChar := c.valid
  unfold Nat.isValidChar at this
  omega

/-- Decoding an encoded character. -/
theorem decodeChar?_encode (c : Char) (s : Bytes) :
    ∃ b r, encodeChar c = b :: r ∧ decodeChar? b (r ++ s) = some (c, r.length) := by
  have hlt := char_lt c
  unfold encodeChar
  simp only
  split
  · rename_i h
    refine ⟨_, _, rfl, ?_⟩
    unfold decodeChar?
    rw [toNat_toUInt8 (by omega), if_pos h, scalar?_of (by omega)]
    rfl
  · split
    · rename_i h1 h2
      refine ⟨_, _, rfl, ?_⟩
      unfold decodeChar?
      rw [toNat_toUInt8 (by omega), if_neg (by omega), if_pos (by omega)]
      simp only [List.cons_append, List.nil_append, List.getElem?_cons_zero, Option.bind_some]
      rw [cont?_of (by omega)]
      simp only [Option.bind_some]
      have : (0xC0 + c.toNat / 64 - 0xC0) * 64 + c.toNat % 64 = c.toNat := by omega
      rw [this, scalar?_of (by omega)]
      rfl
    · split
      · rename_i h1 h2 h3
        refine ⟨_, _, rfl, ?_⟩
        unfold decodeChar?
        rw [toNat_toUInt8 (by omega), if_neg (by omega), if_neg (by omega), if_pos (by omega)]
        simp only [List.cons_append, List.nil_append, List.getElem?_cons_zero, List.getElem?_cons_succ,
          Option.bind_some]
        rw [cont?_of (by omega), cont?_of (by omega)]
        simp only [Option.bind_some]
        have : (0xE0 + c.toNat / 4096 - 0xE0) * 4096 + c.toNat / 64 % 64 * 64 + c.toNat % 64
            = c.toNat := by omega
        rw [this, scalar?_of (by omega)]
        rfl
      · rename_i h1 h2 h3
        refine ⟨_, _, rfl, ?_⟩
        unfold decodeChar?
        rw [toNat_toUInt8 (by omega), if_neg (by omega), if_neg (by omega), if_neg (by omega),
          if_pos (by omega)]
        simp only [List.cons_append, List.nil_append, List.getElem?_cons_zero, List.getElem?_cons_succ,
          Option.bind_some]
        rw [cont?_of (by omega), cont?_of (by omega), cont?_of (by omega)]
        simp only [Option.bind_some]
        have : (0xF0 + c.toNat / 262144 - 0xF0) * 262144 + c.toNat / 4096 % 64 * 4096
            + c.toNat / 64 % 64 * 64 + c.toNat % 64 = c.toNat := by omega
        rw [this, scalar?_of (by omega)]
        rfl

theorem decodeLossyFuel_encode (s : Str) : ∀ fuel, (encode s).length ≤ fuel →
    decodeLossyFuel fuel (encode s) = s := by
  induction s with
  | nil => intro fuel _; cases fuel <;> rfl
  | cons c s ih =>
    intro fuel hf
    obtain ⟨b, r, e, h⟩ := decodeChar?_encode c (encode s)
    have e' : encode (c :: s) = b :: (r ++ encode s) := by
      simp [encode, e]
    rw [e'] at hf ⊢
    cases fuel with
    | zero => simp at hf
    | succ fuel =>
      unfold decodeLossyFuel
      rw [h]
      simp only [List.drop_left]
      rw [ih fuel (by simp at hf; omega)]

/-- Text survives encoding. -/
theorem decodeLossy_encode (s : Str) : decodeLossy (encode s) = s :=
  decodeLossyFuel_encode s _ (Nat.le_refl _)

end PptRs
