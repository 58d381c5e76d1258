import Verif.Model.Units
import Verif.Lemmas.Float
import Verif.Lemmas.Drawing
import Verif.Spec.Drawing

/-!
C131: lengths given in inches, centimetres, points or as a part of the slide.
-/

namespace PptRs.Props

open PptRs PptRs.Fl PptRs.Units PptRs.Draw PptRs.Spec

/-- `a` and `b` are numbers and `a` is at most `b`. -/
def AtMost (a b : Val) : Prop := a ≠ .nan ∧ b ≠ .nan ∧ lt b a = false

theorem scaled_fin (u : Nat) (q : Rat) : scaled u (.fin q) = toU maxU32 (mk b64 (q * u)) := rfl

theorem top_fits : 2 * maxU32 + 1 ≤ 2 ^ b64.digits := by decide

/-- A number of inches, centimetres, points (or of any other unit `u`) becomes a number of EMU that is
less than one EMU away from the exact product. -/
theorem C131_close (u : Nat) (q : Rat) (h0 : 0 ≤ q) (h : q * u ≤ maxU32) :
    |(scaled u (.fin q) : Rat) - q * u| < 1 := by
  rw [scaled_fin]
  exact toU_close good64 (mul_nonneg h0 (by positivity)) h top_fits

example : |(scaled perCm (.fin (5 / 4)) : Rat) - 5 / 4 * perCm| < 1 :=
  C131_close perCm (5 / 4) (by norm_num) (by norm_num [perCm, maxU32])

/-- If the exact product is a whole number of EMU, then the result is exact. -/
theorem C131_exact (u n : Nat) (q : Rat) (hn : n ≤ maxU32) (h : q * u = n) : scaled u (.fin q) = n := by
  rw [scaled_fin, h, mk_nat good64 (le_trans hn (by decide))]
  simp only [toU, Int.floor_natCast, Int.toNat_natCast]
  omega

example : scaled perInch (.fin (3 / 2)) = 1371600 := C131_exact perInch 1371600 _ (by decide) (by norm_num [perInch])

/-- What a caller writes as the decimal number `d` is first rounded to a floating point number. The
result is still within a millionth of an EMU of less than one EMU away; and where the exact product is a
whole number, the result is this number or one less, and this number if the literal was rounded up. -/
theorem C131_written_partial (u : Nat) (hu : 0 < u) (hu' : u ≤ 914400) (d : Rat) (h0 : 0 ≤ d)
    (h : d * u ≤ maxU32) :
    |(scaled u (mk b64 d) : Rat) - d * u| < 1 + 1 / 1000000 ∧
    (∀ n : Nat, d * u = n → (scaled u (mk b64 d) = n ∨ scaled u (mk b64 d) + 1 = n) ∧
      (d ≤ rnd b64 d → scaled u (mk b64 d) = n)) := by
  have hu1 : (1 : Rat) ≤ u := by exact_mod_cast hu
  have hu2 : (u : Rat) ≤ 914400 := by exact_mod_cast hu'
  have hm : (maxU32 : Rat) = 4294967295 := by norm_num [maxU32]
  have hd : d ≤ 4294967295 := by rw [hm] at h; nlinarith
  have hmk : mk b64 d = .fin (rnd b64 d) :=
    mk_of_small good64 h0 (hd.trans (by norm_num [b64]))
  have hr := rnd64_rel d
  rw [abs_of_nonneg h0] at hr
  have hx0 : 0 ≤ rnd b64 d * u := mul_nonneg (rnd_nonneg _ h0) (by positivity)
  have hxy : |rnd b64 d * u - d * u| ≤ 1 / 1000000 := by
    rw [← sub_mul, abs_mul, abs_of_nonneg (by linarith : (0 : Rat) ≤ u)]
    have : |rnd b64 d - d| * u ≤ (d / 2 ^ 53 + 1 / 2 ^ 100) * u :=
      mul_le_mul_of_nonneg_right hr (by linarith)
    have e : (d / 2 ^ 53 + 1 / 2 ^ 100) * u = (d * u) / 2 ^ 53 + u / 2 ^ 100 := by ring
    rw [e] at this
    have h1 : (d * u) / 2 ^ 53 ≤ 4294967295 / 2 ^ 53 := by
      rw [hm] at h; exact div_le_div_of_nonneg_right h (by positivity)
    have h2 : (u : Rat) / 2 ^ 100 ≤ 914400 / 2 ^ 100 := div_le_div_of_nonneg_right hu2 (by positivity)
    have h3 : (4294967295 : Rat) / 2 ^ 53 + 914400 / 2 ^ 100 ≤ 1 / 1000000 := by norm_num
    linarith
  rw [hmk, scaled_fin]
  refine ⟨toU_close_of good64 hx0 h top_fits (by norm_num) hxy, fun n hn => ?_⟩
  rw [hn] at hxy h
  have hnt : n ≤ maxU32 := by exact_mod_cast h
  have := toU_near good64 (top := maxU32) (n := n) hx0 hnt (by have := top_fits; omega) (by linarith)
  refine ⟨this.1, fun hle => this.2 ?_⟩
  rw [← hn]
  exact mul_le_mul_of_nonneg_right hle (by linarith)

example : |(scaled perCm (mk b64 (254 / 100)) : Rat) - 254 / 100 * perCm| < 1 + 1 / 1000000 ∧
    scaled perCm (mk b64 (254 / 100)) = 914400 :=
  ⟨(C131_written_partial perCm (by decide) (by decide) (254 / 100) (by norm_num) (by norm_num [perCm, maxU32])).1,
    by decide +kernel⟩

/-- A longer length never becomes a smaller number of EMU, infinities included. -/
theorem C131_monotone (u : Nat) (hu : 0 < u) (a b : Val) (h : AtMost a b) : scaled u a ≤ scaled u b := by
  obtain ⟨h1, h2, h3⟩ := h
  have hu0 : ¬ ((u : Rat) = 0) := by exact_mod_cast hu.ne'
  have hu1 : ¬ ((u : Rat) < 0) := not_lt.mpr (by positivity)
  cases a with
  | nan => exact absurd rfl h1
  | inf s =>
    cases b with
    | nan => exact absurd rfl h2
    | inf t =>
      cases s <;> cases t <;> simp [lt] at h3 <;> simp [scaled, mul, hu0, hu1, toU]
    | fin q =>
      cases s
      · simp [lt] at h3
      · simp [scaled, mul, hu0, hu1, toU]
  | fin p =>
    cases b with
    | nan => exact absurd rfl h2
    | inf t =>
      cases t
      · have := toU_top maxU32 (mul b64 (.fin p) (.fin u))
        simpa [scaled, mul, hu0, hu1, toU] using this
      · simp [lt] at h3
    | fin q =>
      rw [scaled_fin, scaled_fin]
      apply toU_mk_mono good64
      simp only [lt, decide_eq_false_iff_not, not_lt] at h3
      exact mul_le_mul_of_nonneg_right h3 (by positivity)

example : scaled perPt (.fin 7) ≤ scaled perPt (.inf false) :=
  C131_monotone perPt (by decide) _ _ ⟨by simp, by simp, rfl⟩

/-- What cannot be shown is cut off: a negative length and one that is not a number become zero, and one
that is too long becomes the largest number. -/
theorem C131_cut (u : Nat) (hu : 0 < u) :
    scaled u .nan = 0 ∧ scaled u (.inf true) = 0 ∧ scaled u (.inf false) = maxU32 ∧
    (∀ q : Rat, q ≤ 0 → scaled u (.fin q) = 0) ∧
    (∀ q : Rat, maxU32 ≤ q * u → scaled u (.fin q) = maxU32) := by
  have hu0 : ¬ ((u : Rat) = 0) := by exact_mod_cast hu.ne'
  have hu1 : ¬ ((u : Rat) < 0) := not_lt.mpr (by positivity)
  refine ⟨rfl, ?_, ?_, fun q hq => ?_, fun q hq => ?_⟩
  · simp [scaled, mul, hu0, hu1, toU]
  · simp [scaled, mul, hu0, hu1, toU]
  · have := C131_monotone u hu (.fin q) (.fin 0) ⟨by simp, by simp, by simpa [lt] using hq⟩
    have h0 := C131_exact u 0 0 (by decide) (by simp)
    omega
  · rw [scaled_fin]
    have lo : maxU32 ≤ toU maxU32 (mk b64 (q * u)) := toU_ge good64 le_rfl (by decide) hq
    have := toU_top maxU32 (mk b64 (q * u))
    omega

theorem clamp01_cases (r : Val) :
    clamp01 r = .nan ∨ ∃ c : Rat, clamp01 r = .fin c ∧ 0 ≤ c ∧ c ≤ 1 := by
  cases r with
  | nan => exact Or.inl rfl
  | inf s =>
    cases s
    · exact Or.inr ⟨1, rfl, by norm_num, by norm_num⟩
    · exact Or.inr ⟨0, rfl, by norm_num, by norm_num⟩
  | fin q =>
    right
    simp only [clamp01, lt, decide_eq_true_eq]
    split
    · exact ⟨0, rfl, by norm_num, by norm_num⟩
    · split
      · exact ⟨1, rfl, by norm_num, by norm_num⟩
      · exact ⟨q, rfl, by linarith, by linarith⟩

theorem ratio_fin (n : Nat) (hn : n ≤ maxU32) (c : Rat) (h0 : 0 ≤ c) (h1 : c ≤ 1) :
    (Dimension.ratio (.fin c)).toEmu n = toU maxU32 (mk b64 (c * n)) := by
  have hc : clamp01 (.fin c) = .fin c := by
    simp [clamp01, lt, not_lt.mpr h0, not_lt.mpr h1]
  have hk : mk b64 (n : Rat) = .fin n := mk_nat good64 (le_trans hn (by decide))
  simp only [Dimension.toEmu, hc, hk, mul]

/-- A part of the slide never reaches beyond the slide, whatever number is given; the parts 0 and 1 are
exact, and the parts between are less than one EMU away from the exact product. -/
theorem C131_ratio (n : Nat) (hn : n ≤ maxU32) :
    (∀ r : Val, (Dimension.ratio r).toEmu n ≤ n) ∧
    (∀ q : Rat, q ≤ 0 → (Dimension.ratio (.fin q)).toEmu n = 0) ∧
    (∀ q : Rat, 1 ≤ q → (Dimension.ratio (.fin q)).toEmu n = n) ∧
    (∀ q : Rat, 0 ≤ q → q ≤ 1 → |((Dimension.ratio (.fin q)).toEmu n : Rat) - q * n| < 1) := by
  have hn' : (n : Rat) ≤ maxU32 := by exact_mod_cast hn
  have hn0 : (0 : Rat) ≤ n := by positivity
  have hk : mk b64 (n : Rat) = .fin n := mk_nat good64 (le_trans hn (by decide))
  have exact0 : toU maxU32 (mk b64 (0 * (n : Rat))) = 0 := by
    rw [zero_mul]; exact (by decide +kernel : toU maxU32 (mk b64 0) = 0)
  have exact1 : toU maxU32 (mk b64 (1 * (n : Rat))) = n := by
    rw [one_mul, hk]; simp only [toU, Int.floor_natCast, Int.toNat_natCast]; omega
  refine ⟨fun r => ?_, fun q hq => ?_, fun q hq => ?_, fun q h0 h1 => ?_⟩
  · rcases clamp01_cases r with h | ⟨c, h, hc0, hc1⟩
    · simp [Dimension.toEmu, h, mul, toU]
    · simp only [Dimension.toEmu, h, hk, mul]
      exact toU_le good64 (by have := top_fits; omega) (by positivity) (by nlinarith)
  · have : clamp01 (.fin q) = .fin 0 := by
      rcases hq.lt_or_eq with h | h
      · simp [clamp01, lt, h]
      · subst h; rfl
    simp only [Dimension.toEmu, this, hk, mul, exact0]
  · have : clamp01 (.fin q) = .fin 1 := by
      have h0 : ¬ q < 0 := by linarith
      rcases hq.lt_or_eq with h | h
      · simp [clamp01, lt, h, h0]
      · subst h; rfl
    simp only [Dimension.toEmu, this, hk, mul, exact1]
  · rw [ratio_fin n hn q h0 h1]
    exact toU_close good64 (by positivity) (by nlinarith) top_fits

example : (Dimension.ratio .nan).toEmu slideWidth = 0 ∧ (Dimension.ratio (.inf false)).toEmu slideWidth = slideWidth ∧
    (Dimension.ratio (mk b64 (1 / 10))).toEmu slideWidth = 914400 := by decide +kernel

/-- A position or size given by a part of the slide refers to the width of the slide across and to its
height downwards; the other units do not depend on the slide. -/
theorem C131_axes (a b : Dimension) (w h : Nat) :
    flexWith a b w h = (a.toEmu w, b.toEmu h) ∧
    flex a b = flexWith a b slideWidth slideHeight ∧
    (∀ k x y width height, (fromDimensions k x y width height).kind = k ∧
      ((fromDimensions k x y width height).x, (fromDimensions k x y width height).y) = flex x y ∧
      ((fromDimensions k x y width height).width, (fromDimensions k x y width height).height) = flex width height) ∧
    (∀ s x y width height, withDimensions (shapeAt s x y) width height =
      { s with x := (flex x y).1, y := (flex x y).2, width := (flex width height).1, height := (flex width height).2 }) ∧
    (∀ d : Dimension, (∀ r, d ≠ .ratio r) → d.toEmu w = d.toEmu h) := by
  refine ⟨rfl, rfl, fun _ _ _ _ _ => ⟨rfl, rfl, rfl⟩, fun _ _ _ _ _ => rfl, fun d hd => ?_⟩
  cases d with
  | ratio r => exact absurd rfl (hd r)
  | _ => rfl

example : flex (.ratio (.fin 1)) (.ratio (.fin 1)) = (9144000, 6858000) := by decide +kernel

/-- From EMU to inches and back: the same number or one less. -/
theorem C131_back_partial (e : Nat) (he : e ≤ maxU32) :
    scaled perInch (emuToInches e) = e ∨ scaled perInch (emuToInches e) + 1 = e := by
  have he' : (e : Rat) ≤ 4294967295 := by exact_mod_cast he
  have he0 : (0 : Rat) ≤ e := by positivity
  have hk : mk b64 (e : Rat) = .fin e := mk_nat good64 (le_trans he (by decide))
  have hq : (0 : Rat) ≤ e / perInch := by positivity
  have hu : (perInch : Rat) = 914400 := by norm_num [perInch]
  have hq' : (e : Rat) / perInch ≤ 4294967295 := by rw [hu]; rw [div_le_iff₀ (by norm_num)]; linarith
  have hmk : mk b64 ((e : Rat) / perInch) = .fin (rnd b64 (e / perInch)) :=
    mk_of_small good64 hq (hq'.trans (by norm_num [b64]))
  have hi : emuToInches e = .fin (rnd b64 (e / perInch)) := by
    rw [emuToInches, hk]
    simp only [div]
    rw [if_neg (by rw [hu]; norm_num), hmk]
  rw [hi, scaled_fin]
  refine (toU_near good64 (top := maxU32) (n := e) ?_ he (by have := top_fits; omega) ?_).1
  · exact mul_nonneg (rnd_nonneg _ hq) (by positivity)
  · have hr := rnd64_rel ((e : Rat) / perInch)
    rw [abs_of_nonneg hq] at hr
    have e1 : rnd b64 ((e : Rat) / perInch) * perInch - e = (rnd b64 (e / perInch) - e / perInch) * perInch := by
      rw [hu]; ring
    rw [e1, abs_mul, abs_of_nonneg (by rw [hu]; norm_num : (0 : Rat) ≤ perInch)]
    have h2 := mul_le_mul_of_nonneg_right hr (by rw [hu]; norm_num : (0 : Rat) ≤ perInch)
    have e2 : ((e : Rat) / perInch / 2 ^ 53 + 1 / 2 ^ 100) * perInch = e / 2 ^ 53 + 914400 / 2 ^ 100 := by
      rw [hu]; ring
    rw [e2] at h2
    have h3 : (e : Rat) / 2 ^ 53 ≤ 4294967295 / 2 ^ 53 := div_le_div_of_nonneg_right he' (by positivity)
    have h4 : (4294967295 : Rat) / 2 ^ 53 + 914400 / 2 ^ 100 ≤ 1 / 2 := by norm_num
    linarith

/-- **C131 does not hold in full.** The conversions cut the product off instead of rounding it, so that
lengths with an exact number of EMU come out one EMU short when the decimal number is not a binary one:
4.1 inches become 3749039 EMU instead of 3749040, 0.35 cm become 125999 instead of 126000, 2.3 pt become
29209 instead of 29210, and 69 percent of the width of the slide become 6309359 instead of 6309360. The
conversion to inches and back loses an EMU as well: 61 EMU come back as 60. -/
theorem C131_short_violated :
    scaled perInch (mk b64 (41 / 10)) = 3749039 ∧ (41 / 10 : Rat) * perInch = 3749040 ∧
    scaled perCm (mk b64 (35 / 100)) = 125999 ∧ (35 / 100 : Rat) * perCm = 126000 ∧
    scaled perPt (mk b64 (23 / 10)) = 29209 ∧ (23 / 10 : Rat) * perPt = 29210 ∧
    (Dimension.percent (.fin 69)).toEmuX = 6309359 ∧ (69 / 100 : Rat) * slideWidth = 6309360 ∧
    scaled perInch (emuToInches 61) = 60 := by
  refine ⟨?_, ?_, ?_, ?_, ?_, ?_, ?_, ?_, ?_⟩ <;> decide +kernel

/-! ### Scaling pictures -/

theorem aspect_fin (w h : Nat) (hw : 0 < w) (hh : 0 < h) (hw' : w ≤ maxU32) (hh' : h ≤ maxU32) :
    ∃ r : Rat, aspect w h = .fin r ∧ |r - w / h| ≤ (w / h) / 2 ^ 52 ∧ 0 < r := by
  have hwp : (0 : Rat) < w := by exact_mod_cast hw
  have hhp : (0 : Rat) < h := by exact_mod_cast hh
  have hw1 : (1 : Rat) ≤ w := by exact_mod_cast hw
  have hh1 : (1 : Rat) ≤ h := by exact_mod_cast hh
  have hw2 : (w : Rat) ≤ 4294967295 := by exact_mod_cast hw'
  have hh2 : (h : Rat) ≤ 4294967295 := by exact_mod_cast hh'
  have hpos : (0 : Rat) < w / h := by positivity
  have hle : (w : Rat) / h ≤ 4294967295 := by rw [div_le_iff₀ hhp]; nlinarith
  have hge : 1 / 4294967295 ≤ (w : Rat) / h := by rw [div_le_div_iff₀ (by norm_num) hhp]; nlinarith
  have hr := rnd64_rel ((w : Rat) / h)
  rw [abs_of_pos hpos] at hr
  have herr : |rnd b64 ((w : Rat) / h) - w / h| ≤ (w / h) / 2 ^ 52 := by
    have : (1 : Rat) / 2 ^ 100 ≤ (1 / 4294967295) / 2 ^ 53 := by norm_num
    have h2 : (1 / 4294967295 : Rat) / 2 ^ 53 ≤ (w / h) / 2 ^ 53 := div_le_div_of_nonneg_right hge (by positivity)
    have h3 : (w : Rat) / h / 2 ^ 52 = w / h / 2 ^ 53 + w / h / 2 ^ 53 := by ring
    linarith
  refine ⟨rnd b64 (w / h), ?_, herr, ?_⟩
  · have e1 : mk b64 (w : Rat) = .fin w := mk_nat good64 (le_trans hw' (by decide))
    have e2 : mk b64 (h : Rat) = .fin h := mk_nat good64 (le_trans hh' (by decide))
    rw [aspect, e1, e2]
    simp only [div]
    rw [if_neg hhp.ne', mk_of_small good64 hpos.le (hle.trans (by norm_num [b64]))]
  · rw [abs_le] at herr
    have : (w : Rat) / h / 2 ^ 52 < w / h := by
      rw [div_lt_iff₀ (by positivity)]
      nlinarith [show (1 : Rat) < 2 ^ 52 by norm_num]
    linarith

theorem toU_whole {x y : Rat} (h0 : 0 ≤ x) (hy : y ≤ maxU32) (hxy : |x - y| ≤ 1 / 100000) :
    |(toU maxU32 (mk b64 x) : Rat) - y| < 1 + 1 / 100000 ∧
    ∀ n : Nat, y = n → toU maxU32 (mk b64 x) = n ∨ toU maxU32 (mk b64 x) + 1 = n := by
  refine ⟨toU_close_of good64 h0 hy top_fits (by norm_num) hxy, fun n hn => ?_⟩
  subst hn
  have : n ≤ maxU32 := by exact_mod_cast hy
  exact (toU_near good64 h0 this (by have := top_fits; omega) (by linarith)).1

/-- A picture that is scaled to a width or to a height keeps its shape: the other side is at most about
one EMU away from what the rule of three gives, and at most one less where this is a whole number. -/
theorem C131_scale_partial (w h n : Nat) (hw : 0 < w) (hh : 0 < h) (hw' : w ≤ maxU32) (hh' : h ≤ maxU32)
    (hn : n ≤ maxU32) :
    ((n : Rat) * h / w ≤ maxU32 →
      |(heightFor w h n : Rat) - n * h / w| < 1 + 1 / 100000 ∧
      ∀ m : Nat, (n : Rat) * h / w = m → heightFor w h n = m ∨ heightFor w h n + 1 = m) ∧
    ((n : Rat) * w / h ≤ maxU32 →
      |(widthFor w h n : Rat) - n * w / h| < 1 + 1 / 100000 ∧
      ∀ m : Nat, (n : Rat) * w / h = m → widthFor w h n = m ∨ widthFor w h n + 1 = m) := by
  obtain ⟨r, hr, herr, hr0⟩ := aspect_fin w h hw hh hw' hh'
  have hwp : (0 : Rat) < w := by exact_mod_cast hw
  have hhp : (0 : Rat) < h := by exact_mod_cast hh
  have hn0 : (0 : Rat) ≤ n := by positivity
  have en : mk b64 (n : Rat) = .fin n := mk_nat good64 (le_trans hn (by decide))
  have hpos : (0 : Rat) < w / h := by positivity
  have hm : (maxU32 : Rat) = 4294967295 := by norm_num [maxU32]
  constructor
  · intro hy
    have e : heightFor w h n = toU maxU32 (mk b64 (n / r)) := by
      rw [heightFor, hr, en]; simp only [div]; rw [if_neg hr0.ne']
    rw [e]
    refine toU_whole (by positivity) hy ?_
    -- the error is that of the ratio
    have e1 : (n : Rat) / r - n * h / w = (n * h / w) * ((w / h - r) / r) := by field_simp
    have hy0 : (0 : Rat) ≤ n * h / w := by positivity
    have hrr : (w : Rat) / h / 2 ≤ r := by
      rw [abs_le] at herr
      have : (w : Rat) / h / 2 ^ 52 ≤ w / h / 2 := div_le_div_of_nonneg_left hpos.le (by norm_num) (by norm_num)
      linarith
    have hq : |((w : Rat) / h - r) / r| ≤ 1 / 2 ^ 51 := by
      rw [abs_div, abs_of_pos hr0, abs_sub_comm, div_le_iff₀ hr0]
      have : (1 : Rat) / 2 ^ 51 * (w / h / 2) ≤ 1 / 2 ^ 51 * r := mul_le_mul_of_nonneg_left hrr (by positivity)
      have e3 : (1 : Rat) / 2 ^ 51 * (w / h / 2) = w / h / 2 ^ 52 := by ring
      linarith
    rw [e1, abs_mul, abs_of_nonneg hy0]
    rw [hm] at hy
    calc (n : Rat) * h / w * |((w : Rat) / h - r) / r| ≤ 4294967295 * (1 / 2 ^ 51) :=
          mul_le_mul hy hq (abs_nonneg _) (by norm_num)
      _ ≤ 1 / 100000 := by norm_num
  · intro hy
    have e : widthFor w h n = toU maxU32 (mk b64 (n * r)) := by
      rw [widthFor, hr, en]; simp only [mul]
    rw [e]
    have hy' : (n : Rat) * (w / h) = n * w / h := by ring
    refine toU_whole (by positivity) hy ?_
    have e1 : (n : Rat) * r - n * w / h = n * (r - w / h) := by ring
    rw [e1, abs_mul, abs_of_nonneg hn0]
    rw [hm] at hy
    calc (n : Rat) * |r - w / h| ≤ n * (w / h / 2 ^ 52) := mul_le_mul_of_nonneg_left herr hn0
      _ = n * w / h / 2 ^ 52 := by ring
      _ ≤ 4294967295 / 2 ^ 52 := div_le_div_of_nonneg_right hy (by positivity)
      _ ≤ 1 / 100000 := by norm_num

example : heightFor 1828800 914400 3657600 = 1828800 ∧ widthFor 1828800 914400 457200 = 914400 := by
  decide +kernel

/-- **C131 does not hold in full.** A picture without a height has no proportions: scaling it to a width
leaves the height zero, but scaling it to a height makes it as wide as a number can be (4294967295 EMU),
and a picture of no size at all gets the other side zero. -/
theorem C131_flat_violated (w n : Nat) (hw : 0 < w) (hw' : w ≤ maxU32) (hn : 0 < n) (hn' : n ≤ maxU32) :
    heightFor w 0 n = 0 ∧ widthFor w 0 n = maxU32 ∧ widthFor 0 0 n = 0 ∧ heightFor 0 0 n = 0 := by
  have e1 : mk b64 (w : Rat) = .fin w := mk_nat good64 (le_trans hw' (by decide))
  have e2 : mk b64 (n : Rat) = .fin n := mk_nat good64 (le_trans hn' (by decide))
  have e0 : mk b64 ((0 : Nat) : Rat) = .fin 0 := by decide +kernel
  have hw0 : ¬ ((w : Rat) = 0) := by exact_mod_cast hw.ne'
  have hn0 : ¬ ((n : Rat) = 0) := by exact_mod_cast hn.ne'
  have hw1 : ¬ ((w : Rat) < 0) := not_lt.mpr (by positivity)
  have hn1 : ¬ ((n : Rat) < 0) := not_lt.mpr (by positivity)
  have a1 : aspect w 0 = .inf false := by
    rw [aspect, e1, e0]; simp only [div, if_true, if_neg hw0, hw1, decide_false]
  have a0 : aspect 0 0 = .nan := by decide +kernel
  refine ⟨?_, ?_, ?_, ?_⟩
  · rw [heightFor, a1, e2]; rfl
  · rw [widthFor, a1, e2]; simp [mul, hn0, hn1, toU]
  · rw [widthFor, a0, e2]; rfl
  · rw [heightFor, a0, e2]; rfl

/-! ### Transforms -/

/-- Positions and sizes of elements: less than one EMU away from the exact product, and exact where this
is a whole number; whole degrees are exact. -/
theorem C131_signed (u : Nat) (q : Rat) (h : |q * u| ≤ 2 ^ 53) :
    |(signed u (.fin q) : Rat) - q * u| < 1 ∧ ∀ n : Int, q * u = n → signed u (.fin q) = n := by
  have hmk : mk b64 (q * u) = .fin (rnd b64 (q * u)) := mk_of_abs good64 h
  have hc := trunc_rnd_close good64 (F := b64) h
  have e : signed u (.fin q) = trunc (rnd b64 (q * u)) := by
    simp only [signed, mul, hmk, toI]
    have hb : |(trunc (rnd b64 (q * u)) : Rat)| < 2 ^ 53 + 1 := by
      rw [abs_lt] at hc ⊢
      rw [abs_le] at h
      constructor <;> linarith
    rw [abs_lt] at hb
    have h1 : -(2 ^ 53 + 1 : Int) < trunc (rnd b64 (q * u)) := by exact_mod_cast hb.1
    have h2 : trunc (rnd b64 (q * u)) < (2 ^ 53 + 1 : Int) := by exact_mod_cast hb.2
    simp only [maxI64]
    omega
  rw [e]
  refine ⟨hc, fun n hn => ?_⟩
  rw [hn] at h ⊢
  have : |n| ≤ 2 ^ b64.digits := by exact_mod_cast h
  rw [rnd_of_fits good64.digits (fits_int this (by decide)), trunc_int]

example : signed perInch (.fin (-5 / 2)) = -2286000 :=
  (C131_signed perInch (-5 / 2) (by norm_num [perInch, abs_div])).2 _ (by norm_num [perInch])

/-- A rotation by whole degrees. -/
theorem C131_rotation (t : Transform) (d : Int) (h : |d * 60000| ≤ maxI32) :
    (t.withRotation (.fin d)).rotation = d * 60000 := by
  have hb : |d * 60000| ≤ 2 ^ b64.digits := h.trans (by decide)
  have e : (d : Rat) * 60000 = ((d * 60000 : Int) : Rat) := by push_cast; ring
  have hmk : mk b64 ((d : Rat) * 60000) = .fin ((d * 60000 : Int) : Rat) := by
    rw [e, mk_of_abs good64 (by exact_mod_cast hb), rnd_of_fits good64.digits (fits_int hb (by decide))]
  simp only [Transform.withRotation, mul, hmk, toI, trunc_int]
  rw [abs_le] at h
  simp only [maxI32] at h ⊢
  omega

example (t : Transform) : (t.withRotation (.fin (45 : Int))).rotation = 2700000 := C131_rotation t 45 (by decide)

/-- The element of a transform. -/
def transformNode (t : Transform) : Node :=
  E c!"a:xfrm" (if t.rotation ≠ 0 then [(c!"rot", Draw.decInt t.rotation)] else [])
    [E c!"a:off" [(c!"x", Draw.decInt t.x), (c!"y", Draw.decInt t.y)] [],
     E c!"a:ext" [(c!"cx", Draw.decInt t.width), (c!"cy", Draw.decInt t.height)] []]

theorem transform_reads (t : Transform) : ReadsNodes t.xml [transformNode t] := by
  have hrot : ReadsAttrs t.rot (if t.rotation ≠ 0 then [(c!"rot", Draw.decInt t.rotation)] else []) := by
    unfold Transform.rot
    split
    · exact (Splits.lit (by parts_ok; exact plain_decInt _)).readsAttrs (fun top st n as => by krfl)
    · exact readsAttrs_nil
  unfold Transform.xml
  have h1 := plain_decInt t.x
  have h2 := plain_decInt t.y
  have h3 := plain_decInt t.width
  have h4 := plain_decInt t.height
  exact (((Splits.lit (by parts_ok)).append (Splits.attrs hrot)).append
    (Splits.lit (by parts_ok <;> assumption))).readsNodes (by krfl)

/-- The place of an element is read back from its transform, together with its rotation; no rotation is
written as no attribute. -/
theorem C131_transform (t : Transform) :
    ∃ k, ReadsNodes t.xml [k] ∧
      readPlace [] k = ⟨some (Draw.decInt t.x), some (Draw.decInt t.y), some (Draw.decInt t.width),
        some (Draw.decInt t.height)⟩ ∧
      attrOf c!"rot" k = if t.rotation = 0 then none else some (Draw.decInt t.rotation) := by
  refine ⟨transformNode t, transform_reads t, rfl, ?_⟩
  unfold transformNode
  by_cases h : t.rotation = 0 <;> simp [h] <;> rfl

end PptRs.Props
