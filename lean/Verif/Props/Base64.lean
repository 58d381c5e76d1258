import Verif.Model.Base64
import Verif.Spec.Base64
import Mathlib.Data.Nat.Bitwise

/-!
# C20: base64
-/

namespace PptRs.Props

open PptRs PptRs.Spec

theorem ofNat_toNat' (x : UInt8) : UInt8.ofNat x.toNat = x := UInt8.ofNat_toNat

theorem shr2 (x : UInt8) : ((x >>> 2) &&& 0x3F).toNat = x.toNat / 4 := by
  have : ∀ n < 256, ((UInt8.ofNat n >>> 2) &&& 0x3F).toNat = n / 4 := by decide +kernel
  have := this x.toNat x.toNat_lt
  rwa [ofNat_toNat'] at this

theorem and3 (x : UInt8) : (((x &&& 0x03) <<< 4)).toNat = (x.toNat % 4) * 16 := by
  have : ∀ n < 256, ((UInt8.ofNat n &&& 0x03) <<< 4).toNat = (n % 4) * 16 := by decide +kernel
  have := this x.toNat x.toNat_lt
  rwa [ofNat_toNat'] at this

theorem shr4 (x : UInt8) : ((x >>> 4) &&& 0x0F).toNat = x.toNat / 16 := by
  have : ∀ n < 256, ((UInt8.ofNat n >>> 4) &&& 0x0F).toNat = n / 16 := by decide +kernel
  have := this x.toNat x.toNat_lt
  rwa [ofNat_toNat'] at this

theorem and15 (x : UInt8) : (((x &&& 0x0F) <<< 2)).toNat = (x.toNat % 16) * 4 := by
  have : ∀ n < 256, ((UInt8.ofNat n &&& 0x0F) <<< 2).toNat = (n % 16) * 4 := by decide +kernel
  have := this x.toNat x.toNat_lt
  rwa [ofNat_toNat'] at this

theorem shr6 (x : UInt8) : ((x >>> 6) &&& 0x03).toNat = x.toNat / 64 := by
  have : ∀ n < 256, ((UInt8.ofNat n >>> 6) &&& 0x03).toNat = n / 64 := by decide +kernel
  have := this x.toNat x.toNat_lt
  rwa [ofNat_toNat'] at this

theorem and63 (x : UInt8) : (x &&& 0x3F).toNat = x.toNat % 64 := by
  have : ∀ n < 256, (UInt8.ofNat n &&& 0x3F).toNat = n % 64 := by decide +kernel
  have := this x.toNat x.toNat_lt
  rwa [ofNat_toNat'] at this

theorem or_add {a b k : Nat} (h : b < 2 ^ k) : (a * 2 ^ k) ||| b = a * 2 ^ k + b := by
  have := Nat.shiftLeft_add_eq_or_of_lt h a
  rw [Nat.shiftLeft_eq] at this
  exact this.symm

theorem base64Char_eq {b : UInt8} (h : b.toNat < 64) : base64Char b = b64Digit b.toNat := by
  have : ∀ n < 64, (base64Alphabet[n]?).getD '?' = b64Digit n := by decide +kernel
  exact this _ h

theorem group_eq (x y z : UInt8) (len : Nat) : base64Group x y z len =
    [b64Digit (x.toNat / 4), b64Digit ((x.toNat % 4) * 16 + y.toNat / 16),
      if len > 1 then b64Digit ((y.toNat % 16) * 4 + z.toNat / 64) else '=',
      if len > 2 then b64Digit (z.toNat % 64) else '='] := by
  have hx := x.toNat_lt
  have hy := y.toNat_lt
  have hz := z.toNat_lt
  have h1 : (((x &&& 0x03) <<< 4) ||| ((y >>> 4) &&& 0x0F)).toNat = (x.toNat % 4) * 16 + y.toNat / 16 := by
    rw [UInt8.toNat_or, and3, shr4]
    exact or_add (k := 4) (by omega)
  have h2 : (((y &&& 0x0F) <<< 2) ||| ((z >>> 6) &&& 0x03)).toNat = (y.toNat % 16) * 4 + z.toNat / 64 := by
    rw [UInt8.toNat_or, and15, shr6]
    exact or_add (k := 2) (by omega)
  unfold base64Group
  simp only
  rw [base64Char_eq (by rw [shr2]; omega), base64Char_eq (by rw [h1]; omega),
    base64Char_eq (by rw [h2]; omega), base64Char_eq (by rw [and63]; omega), shr2, h1, h2, and63]

/-- **C20**, encoding: `base64_encode` computes base64, for every byte string. -/
theorem C20_encode_is_base64 (l : Bytes) : base64Encode l = base64 l := by
  fun_induction base64Encode l with
  | case1 => rfl
  | case2 x =>
    have := x.toNat_lt
    rw [group_eq]
    simp only [base64]
    rw [show x.toNat * 16 / 64 = x.toNat / 4 by omega,
      show x.toNat * 16 % 64 = x.toNat % 4 * 16 + UInt8.toNat 0 / 16 by simp; omega]
    rfl
  | case3 x y =>
    have := x.toNat_lt
    have := y.toNat_lt
    rw [group_eq]
    simp only [base64]
    rw [show (x.toNat * 256 + y.toNat) * 4 / 4096 = x.toNat / 4 by omega,
      show (x.toNat * 256 + y.toNat) * 4 / 64 % 64 = x.toNat % 4 * 16 + y.toNat / 16 by omega,
      show (x.toNat * 256 + y.toNat) * 4 % 64 = y.toNat % 16 * 4 + UInt8.toNat 0 / 64 by simp; omega]
    rfl
  | case4 x y z rest ih =>
    have := x.toNat_lt
    have := y.toNat_lt
    have := z.toNat_lt
    rw [group_eq, ih]
    simp only [base64]
    rw [show ((x.toNat * 256 + y.toNat) * 256 + z.toNat) / 262144 = x.toNat / 4 by omega,
      show ((x.toNat * 256 + y.toNat) * 256 + z.toNat) / 4096 % 64 = x.toNat % 4 * 16 + y.toNat / 16 by omega,
      show ((x.toNat * 256 + y.toNat) * 256 + z.toNat) / 64 % 64 = y.toNat % 16 * 4 + z.toNat / 64 by omega,
      show ((x.toNat * 256 + y.toNat) * 256 + z.toNat) % 64 = z.toNat % 64 by omega]
    rfl

/-! ### Decoding -/

theorem base64Value_digit {n : Nat} (h : n < 64) :
    base64Value (some (b64Digit n).toNat.toUInt8) = some (n.toUInt8, 0) := by
  have : ∀ n < 64, base64Value (some (b64Digit n).toNat.toUInt8) = some (n.toUInt8, 0) := by
    decide +kernel
  exact this n h

theorem toNat_small {n : Nat} (h : n < 64) : n.toUInt8.toNat = n := by
  simp [Nat.toUInt8]; omega

theorem shl2 {b : UInt8} (h : b.toNat < 64) : (b <<< 2).toNat = b.toNat * 4 := by
  have : ∀ n < 64, (UInt8.ofNat n <<< 2).toNat = n * 4 := by decide +kernel
  have := this _ h
  rwa [ofNat_toNat'] at this

theorem shl4 {b : UInt8} (h : b.toNat < 64) : (b <<< 4).toNat = b.toNat % 16 * 16 := by
  have : ∀ n < 64, (UInt8.ofNat n <<< 4).toNat = n % 16 * 16 := by decide +kernel
  have := this _ h
  rwa [ofNat_toNat'] at this

theorem shl6 {b : UInt8} (h : b.toNat < 64) : (b <<< 6).toNat = b.toNat % 4 * 64 := by
  have : ∀ n < 64, (UInt8.ofNat n <<< 6).toNat = n % 4 * 64 := by decide +kernel
  have := this _ h
  rwa [ofNat_toNat'] at this

theorem sshr4 {b : UInt8} (h : b.toNat < 64) : (b >>> 4).toNat = b.toNat / 16 := by
  have : ∀ n < 64, (UInt8.ofNat n >>> 4).toNat = n / 16 := by decide +kernel
  have := this _ h
  rwa [ofNat_toNat'] at this

theorem sshr2 {b : UInt8} (h : b.toNat < 64) : (b >>> 2).toNat = b.toNat / 4 := by
  have : ∀ n < 64, (UInt8.ofNat n >>> 2).toNat = n / 4 := by decide +kernel
  have := this _ h
  rwa [ofNat_toNat'] at this

/-- The three bytes of four digits. -/
theorem base64Bytes_eq {a b c d : Nat} (ha : a < 64) (hb : b < 64) (hc : c < 64) (hd : d < 64) (pad : Nat) :
    base64Bytes a.toUInt8 b.toUInt8 c.toUInt8 d.toUInt8 pad =
      [(a * 4 + b / 16).toUInt8] ++ (if pad < 2 then [(b % 16 * 16 + c / 4).toUInt8] else []) ++
        (if pad < 1 then [(c % 4 * 64 + d).toUInt8] else []) := by
  have ha' := toNat_small ha
  have hb' := toNat_small hb
  have hc' := toNat_small hc
  have hd' := toNat_small hd
  have k : ∀ {x : UInt8} {n : Nat}, x.toNat = n → x = n.toUInt8 := by
    intro x n h
    rw [← h]; exact (ofNat_toNat' x).symm
  have e1 : (a.toUInt8 <<< 2) ||| (b.toUInt8 >>> 4) = (a * 4 + b / 16).toUInt8 := by
    apply k
    rw [UInt8.toNat_or, shl2 (by omega), sshr4 (by omega), ha', hb']
    exact or_add (k := 2) (by omega)
  have e2 : (b.toUInt8 <<< 4) ||| (c.toUInt8 >>> 2) = (b % 16 * 16 + c / 4).toUInt8 := by
    apply k
    rw [UInt8.toNat_or, shl4 (by omega), sshr2 (by omega), hb', hc']
    exact or_add (k := 4) (by omega)
  have e3 : (c.toUInt8 <<< 6) ||| d.toUInt8 = (c % 4 * 64 + d).toUInt8 := by
    apply k
    rw [UInt8.toNat_or, shl6 (by omega), hc', hd']
    exact or_add (k := 6) (by omega)
  unfold base64Bytes
  rw [e1, e2, e3]

/-- The bytes of ASCII characters. -/
theorem encode_ascii {s : Str} (h : ∀ c ∈ s, c.toNat < 128) : encode s = s.map fun c => c.toNat.toUInt8 := by
  induction s with
  | nil => rfl
  | cons c s ih =>
    rw [encode, List.flatMap_cons, ← encode, ih fun x hx => h x (by simp [hx]), List.map_cons]
    simp [encodeChar, h c (by simp)]

theorem digit_ascii (n : Nat) : (b64Digit n).toNat < 128 ∧ isWs (b64Digit n) = false := by
  by_cases h : n < 64
  · have : ∀ n < 64, (b64Digit n).toNat < 128 ∧ isWs (b64Digit n) = false := by decide +kernel
    exact this n h
  · have e : b64Digit n = '/' := by
      unfold b64Digit
      rw [if_neg (by omega), if_neg (by omega), if_neg (by omega), if_neg (by omega)]
    rw [e]; decide

theorem base64_ascii (l : Bytes) : ∀ c ∈ base64 l, c.toNat < 128 ∧ isWs c = false := by
  fun_induction base64 l with
  | case1 => simp
  | case2 x n =>
    intro c hc
    simp only [List.mem_cons, List.not_mem_nil, or_false] at hc
    rcases hc with rfl | rfl | rfl | rfl
    all_goals first | exact digit_ascii _ | decide
  | case3 x y n =>
    intro c hc
    simp only [List.mem_cons, List.not_mem_nil, or_false] at hc
    rcases hc with rfl | rfl | rfl | rfl
    all_goals first | exact digit_ascii _ | decide
  | case4 x y z rest n ih =>
    intro c hc
    simp only [List.mem_append, List.mem_cons, List.not_mem_nil, or_false] at hc
    rcases hc with (rfl | rfl | rfl | rfl) | hc
    · exact digit_ascii _
    · exact digit_ascii _
    · exact digit_ascii _
    · exact digit_ascii _
    · exact ih c hc

theorem value_eq : base64Value (some ('='.toNat.toUInt8)) = some (0, 1) := by decide

theorem base64Loop_spec (l : Bytes) : base64Loop ((base64 l).map fun c => c.toNat.toUInt8) = some l := by
  have k : ∀ (x : UInt8) {n : Nat}, n = x.toNat → n.toUInt8 = x := by
    intro x n h
    rw [h]; exact ofNat_toNat' x
  fun_induction base64 l with
  | case1 => rfl
  | case2 x n =>
    have := x.toNat_lt
    simp only [List.map_cons, List.map_nil]
    show (base64Round _ _ _ _).bind (fun y => (base64Loop []).map (y ++ ·)) = _
    unfold base64Round
    rw [base64Value_digit (by omega), Option.bind_some, base64Value_digit (by omega), Option.bind_some, value_eq,
      Option.bind_some, Option.bind_some]
    simp only [Option.bind_some]
    rw [show (0 : UInt8) = (0 : Nat).toUInt8 from rfl, base64Bytes_eq (by omega) (by omega) (by omega) (by omega)]
    rw [show (n / 64 * 4 + n % 64 / 16).toUInt8 = x from k x (by omega)]
    rfl
  | case3 x y n =>
    have := x.toNat_lt
    have := y.toNat_lt
    simp only [List.map_cons, List.map_nil]
    show (base64Round _ _ _ _).bind (fun y => (base64Loop []).map (y ++ ·)) = _
    unfold base64Round
    rw [base64Value_digit (by omega), Option.bind_some, base64Value_digit (by omega), Option.bind_some,
      base64Value_digit (by omega), Option.bind_some, value_eq, Option.bind_some]
    simp only [Option.bind_some]
    rw [show (0 : UInt8) = (0 : Nat).toUInt8 from rfl, base64Bytes_eq (by omega) (by omega) (by omega) (by omega)]
    rw [show (n / 4096 * 4 + n / 64 % 64 / 16).toUInt8 = x from k x (by omega),
      show (n / 64 % 64 % 16 * 16 + n % 64 / 4).toUInt8 = y from k y (by omega)]
    rfl
  | case4 x y z rest n ih =>
    have := x.toNat_lt
    have := y.toNat_lt
    have := z.toNat_lt
    simp only [List.map_cons, List.map_nil, List.map_append, List.cons_append, List.nil_append]
    rw [base64Loop, ih]
    unfold base64Round
    rw [base64Value_digit (by omega), Option.bind_some, base64Value_digit (by omega), Option.bind_some,
      base64Value_digit (by omega), Option.bind_some, base64Value_digit (by omega), Option.bind_some]
    rw [base64Bytes_eq (by omega) (by omega) (by omega) (by omega)]
    rw [show (n / 262144 * 4 + n / 4096 % 64 / 16).toUInt8 = x from k x (by omega),
      show (n / 4096 % 64 % 16 * 16 + n / 64 % 64 / 4).toUInt8 = y from k y (by omega),
      show (n / 64 % 64 % 4 * 64 + n % 64).toUInt8 = z from k z (by omega)]
    rfl

/-! ### White space -/

theorem dropWhile_blank {a : Str} (ha : Blank a) (s : Str) : (a ++ s).dropWhile isWs = s.dropWhile isWs := by
  induction a with
  | nil => rfl
  | cons c a ih =>
    rw [List.cons_append, List.dropWhile_cons_of_pos (ha c (by simp)), ih fun x hx => ha x (by simp [hx])]

theorem dropWhile_notBlank {t : Str} (h : ¬ Blank t) (b : Str) :
    (t ++ b).dropWhile isWs = t.dropWhile isWs ++ b := by
  induction t with
  | nil => exact absurd (fun c hc => by simp at hc) h
  | cons c t ih =>
    by_cases hc : isWs c = true
    · rw [List.cons_append, List.dropWhile_cons_of_pos hc, List.dropWhile_cons_of_pos hc]
      exact ih fun ht => h fun x hx => (List.mem_cons.mp hx).elim (fun e => e ▸ hc) (ht x)
    · rw [List.cons_append, List.dropWhile_cons_of_neg hc, List.dropWhile_cons_of_neg hc]
      rfl

theorem trimEnd_blank {b : Str} (hb : Blank b) (s : Str) : trimEnd (s ++ b) = trimEnd s := by
  unfold trimEnd
  rw [List.reverse_append, dropWhile_blank fun c hc => hb c (by simpa using hc)]

theorem mem_trimEnd {c : Char} {s : Str} (h : c ∈ trimEnd s) : c ∈ s := by
  unfold trimEnd at h
  rw [List.mem_reverse] at h
  simpa using (List.dropWhile_sublist isWs).subset h

theorem mem_trim {a b t : Str} (ha : Blank a) (hb : Blank b) {c : Char} (h : c ∈ trim (a ++ t ++ b)) : c ∈ t := by
  unfold trim trimStart at h
  rw [List.append_assoc, dropWhile_blank ha] at h
  by_cases ht : Blank t
  · rw [dropWhile_blank ht] at h
    have e : b.dropWhile isWs = [] := by
      have := dropWhile_blank hb []
      rwa [List.append_nil] at this
    rw [e] at h
    simp [trimEnd] at h
  · rw [dropWhile_notBlank ht, trimEnd_blank hb] at h
    exact (List.dropWhile_sublist isWs).subset (mem_trimEnd h)

theorem filter_dropWhile (s : Str) :
    (s.dropWhile isWs).filter (fun c => !isWs c) = s.filter fun c => !isWs c := by
  induction s with
  | nil => rfl
  | cons c s ih =>
    by_cases hc : isWs c = true
    · rw [List.dropWhile_cons_of_pos hc, ih, List.filter_cons_of_neg (by simp [hc])]
    · rw [List.dropWhile_cons_of_neg hc]

theorem filter_trim (s : Str) : (trim s).filter (fun c => !isWs c) = s.filter fun c => !isWs c := by
  unfold trim trimEnd trimStart
  rw [List.filter_reverse, filter_dropWhile, List.filter_reverse, List.reverse_reverse, filter_dropWhile]

theorem wrapped_mem {s t : Str} (h : Wrapped s t) : ∀ c ∈ t, c ∈ s ∨ c = '\n' ∨ c = '\r' ∨ c = ' ' := by
  induction h with
  | nil => simp
  | keep c _ ih =>
    intro x hx
    rcases List.mem_cons.mp hx with rfl | hx
    · exact .inl (by simp)
    · exact (ih x hx).imp_left fun h => by simp [h]
  | wrap h _ ih =>
    intro x hx
    rcases List.mem_cons.mp hx with rfl | hx
    · exact .inr h
    · exact ih x hx

theorem filter_wrapped {s t : Str} (h : Wrapped s t) (hs : ∀ c ∈ s, isWs c = false) :
    t.filter (fun c => !isWs c) = s := by
  induction h with
  | nil => rfl
  | keep c _ ih =>
    rw [List.filter_cons_of_pos (by simp [hs c (by simp)]), ih fun x hx => hs x (by simp [hx])]
  | wrap h _ ih =>
    rw [List.filter_cons_of_neg, ih hs]
    rcases h with rfl | rfl | rfl <;> decide

theorem filter_blank {a : Str} (h : Blank a) : a.filter (fun c => !isWs c) = [] :=
  List.filter_eq_nil_iff.mpr fun c hc => by simp [h c hc]

theorem base64Clean_wrapped {s t a b : Str} (ha : Blank a) (hb : Blank b) (ht : Wrapped s t)
    (hs : ∀ c ∈ s, isWs c = false) : base64Clean (a ++ t ++ b) = s := by
  have e : base64Clean (a ++ t ++ b) = (trim (a ++ t ++ b)).filter fun c => !isWs c := by
    unfold base64Clean
    apply List.filter_congr
    intro c hc
    rcases wrapped_mem ht c (mem_trim ha hb hc) with h | rfl | rfl | rfl
    · have hw := hs c h
      rw [hw]
      simp only [Bool.not_false, Bool.not_eq_true', Bool.or_eq_false_iff, decide_eq_false_iff_not]
      refine ⟨⟨?_, ?_⟩, ?_⟩ <;> rintro rfl <;> revert hw <;> decide
    · decide
    · decide
    · decide
  rw [e, filter_trim, List.filter_append, List.filter_append, filter_blank ha, filter_blank hb,
    filter_wrapped ht hs]
  simp

/-- **C20**: decoding the base64 text of any byte string returns the bytes, also when blanks and line
breaks are put into the text and white space of any kind around it. -/
theorem C20_decode_encoded (l : Bytes) (t a b : Str) (ha : Blank a) (hb : Blank b)
    (ht : Wrapped (base64Encode l) t) : base64Decode (a ++ t ++ b) = some l := by
  rw [C20_encode_is_base64] at ht
  unfold base64Decode
  rw [base64Clean_wrapped ha hb ht fun c hc => (base64_ascii l c hc).2,
    encode_ascii fun c hc => (base64_ascii l c hc).1, base64Loop_spec]

/-- **C20**, the other direction for data that the library did not encode itself: base64 as defined by
the standard is decoded. -/
theorem C20_decode_base64 (l : Bytes) : base64Decode (base64 l) = some l := by
  have h : ∀ s : Str, Wrapped s s := fun s => by
    induction s with
    | nil => exact .nil
    | cons c s ih => exact .keep c ih
  have := C20_decode_encoded l (base64 l) [] [] (fun c hc => by simp at hc) (fun c hc => by simp at hc)
    (by rw [C20_encode_is_base64]; exact h _)
  simpa using this

example : base64Encode [0xFF, 0xD8, 0xFF, 0xE0] = c!"/9j/4A==" ∧
    base64Decode c!"\t /9j/\r\n4A == \n" = some [0xFF, 0xD8, 0xFF, 0xE0] := by decide +kernel

example : Wrapped (base64Encode [0xFF, 0xD8, 0xFF, 0xE0]) c!"/9j/\n4A==" :=
  .keep _ (.keep _ (.keep _ (.keep _ (.wrap (.inl rfl) (.keep _ (.keep _ (.keep _ (.keep _ .nil))))))))

theorem digit_not_pad (n : Nat) : b64Digit n ≠ '=' := by
  by_cases h : n < 64
  · have : ∀ n < 64, b64Digit n ≠ '=' := by decide +kernel
    exact this n h
  · have e : b64Digit n = '/' := by
      unfold b64Digit
      rw [if_neg (by omega), if_neg (by omega), if_neg (by omega), if_neg (by omega)]
    rw [e]; decide

/-- A padding character counts like the end of the text. -/
theorem base64Round_pad (a b c : UInt8) : base64Round a b c none = base64Round a b c (some '='.toNat.toUInt8) := by
  unfold base64Round
  rw [value_eq]
  rfl

theorem base64Round_pad2 (a b : UInt8) : base64Round a b none none =
    base64Round a b (some '='.toNat.toUInt8) (some '='.toNat.toUInt8) := by
  unfold base64Round
  rw [value_eq]
  rfl

theorem base64Loop_unpadded (l : Bytes) :
    base64Loop (((base64 l).filter (· ≠ '=')).map fun c => c.toNat.toUInt8) =
      base64Loop ((base64 l).map fun c => c.toNat.toUInt8) := by
  fun_induction base64 l with
  | case1 => rfl
  | case2 x n =>
    have e : [b64Digit (n / 64), b64Digit (n % 64), '=', '='].filter (· ≠ '=') =
        [b64Digit (n / 64), b64Digit (n % 64)] := by simp [List.filter, digit_not_pad]
    rw [e]
    simp only [List.map_cons, List.map_nil, base64Loop]
    rw [base64Round_pad2]
    simp
  | case3 x y n =>
    have e : [b64Digit (n / 4096), b64Digit (n / 64 % 64), b64Digit (n % 64), '='].filter (· ≠ '=') =
        [b64Digit (n / 4096), b64Digit (n / 64 % 64), b64Digit (n % 64)] := by simp [List.filter, digit_not_pad]
    rw [e]
    simp only [List.map_cons, List.map_nil, base64Loop]
    rw [base64Round_pad]
    simp
  | case4 x y z rest n ih =>
    have e : [b64Digit (n / 262144), b64Digit (n / 4096 % 64), b64Digit (n / 64 % 64), b64Digit (n % 64)].filter (· ≠ '=') =
        [b64Digit (n / 262144), b64Digit (n / 4096 % 64), b64Digit (n / 64 % 64), b64Digit (n % 64)] := by
      simp [List.filter, digit_not_pad]
    rw [List.filter_append, e]
    simp only [List.map_cons, List.map_nil, List.map_append, List.cons_append, List.nil_append, base64Loop, ih]

theorem base64Clean_solid {s : Str} (hs : ∀ c ∈ s, isWs c = false) : base64Clean s = s := by
  have h : Wrapped s s := by
    clear hs
    induction s with
    | nil => exact .nil
    | cons c s ih => exact .keep c ih
  have := base64Clean_wrapped (a := []) (b := []) (fun c hc => by simp at hc) (fun c hc => by simp at hc) h hs
  simpa using this

/-- **C20**: base64 without padding, as in data URLs, is decoded too. -/
theorem C20_unpadded (l : Bytes) : base64Decode ((base64 l).filter (· ≠ '=')) = some l := by
  have h : ∀ c ∈ (base64 l).filter (· ≠ '='), c.toNat < 128 ∧ isWs c = false :=
    fun c hc => base64_ascii l c (List.mem_filter.mp hc).1
  unfold base64Decode
  rw [base64Clean_solid fun c hc => (h c hc).2, encode_ascii fun c hc => (h c hc).1, base64Loop_unpadded, base64Loop_spec]

example : base64Decode c!"/9j/4A" = some [0xFF, 0xD8, 0xFF, 0xE0] := by decide +kernel

theorem base64Loop_reject {l : Bytes} {b : UInt8} (h : b ∈ l) (hb : base64Value (some b) = none) : base64Loop l = none := by
  have r1 : ∀ x y z, base64Round (some b) x y z = none := by intro x y z; simp [base64Round, hb]
  have r2 : ∀ x y z, base64Round x (some b) y z = none := by
    intro x y z
    unfold base64Round
    cases base64Value x <;> simp [hb]
  have r3 : ∀ x y z, base64Round x y (some b) z = none := by
    intro x y z
    unfold base64Round
    cases base64Value x with
    | none => rfl
    | some _ => cases base64Value y <;> simp [hb]
  have r4 : ∀ x y z, base64Round x y z (some b) = none := by
    intro x y z
    unfold base64Round
    cases base64Value x with
    | none => rfl
    | some _ =>
      cases base64Value y with
      | none => rfl
      | some _ => cases base64Value z <;> simp [hb]
  fun_induction base64Loop l with
  | case1 => simp at h
  | case2 a => simp at h; subst h; exact r1 _ _ _
  | case3 a c =>
    simp at h
    rcases h with rfl | rfl
    · exact r1 _ _ _
    · exact r2 _ _ _
  | case4 a c d =>
    simp at h
    rcases h with rfl | rfl | rfl
    · exact r1 _ _ _
    · exact r2 _ _ _
    · exact r3 _ _ _
  | case5 a c d e rest ih =>
    simp only [List.mem_cons] at h
    rcases h with rfl | rfl | rfl | rfl | h
    · rw [r1]; rfl
    · rw [r2]; rfl
    · rw [r3]; rfl
    · rw [r4]; rfl
    · rw [ih h]
      cases base64Round (some a) (some c) (some d) (some e) <;> rfl

theorem value_none_ascii {c : Char} (h : c.toNat < 128) (h1 : ∀ n < 64, c ≠ b64Digit n) (h2 : c ≠ '=') :
    base64Value (some c.toNat.toUInt8) = none := by
  have key : ∀ k < 128, (∀ n < 64, Char.ofNat k ≠ b64Digit n) → Char.ofNat k ≠ '=' →
      base64Value (some k.toUInt8) = none := by decide +kernel
  have e : Char.ofNat c.toNat = c := Char.ofNat_toNat c
  exact key c.toNat h (by rwa [e]) (by rwa [e])

/-- **C20**: a text with an ASCII character that belongs neither to the alphabet nor to the padding, and is not
white space, is refused. -/
theorem C20_rejects (s : Str) (c : Char) (hc : c ∈ s) (h : c.toNat < 128) (hw : isWs c = false)
    (h1 : ∀ n < 64, c ≠ b64Digit n) (h2 : c ≠ '=') : base64Decode s = none := by
  have hm : c ∈ base64Clean s := by
    unfold base64Clean
    rw [List.mem_filter]
    refine ⟨?_, ?_⟩
    · have : c ∈ (trim s).filter fun c => !isWs c := by
        rw [filter_trim]
        exact List.mem_filter.mpr ⟨hc, by simp [hw]⟩
      exact (List.mem_filter.mp this).1
    · simp only [Bool.not_eq_true', Bool.or_eq_false_iff, decide_eq_false_iff_not]
      refine ⟨⟨?_, ?_⟩, ?_⟩ <;> rintro rfl <;> revert hw <;> decide
  unfold base64Decode
  apply base64Loop_reject (b := c.toNat.toUInt8) _ (value_none_ascii h h1 h2)
  unfold encode
  rw [List.mem_flatMap]
  exact ⟨c, hm, by simp [encodeChar, h]⟩

example : base64Decode c!"/9j*4A==" = none := by decide +kernel

end PptRs.Props
