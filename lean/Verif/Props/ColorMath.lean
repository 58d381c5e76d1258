import Verif.Model.ColorMath
import Verif.Lemmas.Float

/-!
C132: making a colour lighter, darker, transparent, gray, and mixing two colours.
-/

namespace PptRs.Props

open PptRs PptRs.Fl PptRs.ColorMath

/-- An amount as a part of one: what lies outside is cut off. -/
def partOf : Val → Rat
  | .nan => 0
  | .inf s => if s then 0 else 1
  | .fin q => max 0 (min q 1)

/-- The parts of a colour that are shown: red, green and blue. -/
def rgbParts (c : ColorValue) : List Nat := [c.r.toNat, c.g.toNat, c.b.toNat]

theorem partOf_range (a : Val) : 0 ≤ partOf a ∧ partOf a ≤ 1 := by
  cases a with
  | nan => exact ⟨le_rfl, by norm_num [partOf]⟩
  | inf s => cases s <;> norm_num [partOf]
  | fin q => exact ⟨le_max_left _ _, max_le (by norm_num) (min_le_right _ _)⟩

theorem clamp01_eq (a : Val) (h : a ≠ .nan) : clamp01 a = .fin (partOf a) := by
  cases a with
  | nan => exact absurd rfl h
  | inf s => cases s <;> rfl
  | fin q =>
    simp only [clamp01, lt, decide_eq_true_eq, partOf]
    split
    · rename_i h1
      rw [min_eq_left (by linarith), max_eq_left h1.le]
    · rename_i h1
      split
      · rename_i h2
        rw [min_eq_right h2.le, max_eq_right (by norm_num)]
      · rename_i h2
        rw [min_eq_left (by linarith), max_eq_right (by linarith)]

theorem ofU8_eq (x : UInt8) : ofU8 x = .fin x.toNat :=
  mk_nat good32 (by have := x.toNat_lt; have : 2 ^ b32.digits = 16777216 := by decide
                    omega)

theorem lit_nat (n : Nat) (h : n ≤ 255) : lit32 n = .fin n :=
  mk_nat good32 (by have : 2 ^ b32.digits = 16777216 := by decide
                    omega)

theorem u8_le (x : UInt8) : x.toNat ≤ 255 := by have := x.toNat_lt; omega

theorem asU8_toNat (v : Val) : (asU8 v).toNat = toU 255 v := by
  have := toU_top 255 v
  simp only [asU8, Nat.toUInt8, UInt8.toNat_ofNat']
  omega

theorem fits8 : 2 * 255 + 1 ≤ 2 ^ b32.digits := by decide

theorem rnd32_rel (q : Rat) : |rnd b32 q - q| ≤ |q| / 2 ^ 24 + 1 / 2 ^ 100 := by
  have h := rnd_rel b32 q
  have h1 : (2 : Rat) ^ b32.low / 2 ≤ 1 / 2 ^ 100 := by
    have : (2 : Rat) ^ b32.low ≤ 2 ^ (-100 : Int) := zpow_le_zpow_right₀ (by norm_num) (by decide)
    have e : (2 : Rat) ^ (-100 : Int) = 1 / 2 ^ 100 := by
      rw [zpow_neg, one_div]; norm_cast
    rw [e] at this
    have hp := two_pos b32.low
    linarith
  have h2 : |q| * (2 ^ b32.digits)⁻¹ = |q| / 2 ^ 24 := by rw [div_eq_mul_inv]; rfl
  rw [h2] at h
  linarith

/-- The error for a number that is not too large. -/
theorem rnd32_err {q b : Rat} (h0 : 0 ≤ q) (h : q ≤ b) : |rnd b32 q - q| ≤ b / 2 ^ 24 + 1 / 2 ^ 100 := by
  have := rnd32_rel q
  rw [abs_of_nonneg h0] at this
  have h1 : q / 2 ^ 24 ≤ b / 2 ^ 24 := div_le_div_of_nonneg_right h (by positivity)
  linarith

theorem mk32 {q : Rat} (h0 : 0 ≤ q) (h : q ≤ 1000) : mk b32 q = .fin (rnd b32 q) :=
  mk_of_small good32 h0 (h.trans (by norm_num [b32]))

theorem rnd32_le {q : Rat} {n : Nat} (hn : n ≤ 1000) (h : q ≤ n) : rnd b32 q ≤ n := by
  rw [← rnd_nat good32 (n := n) (by have : 2 ^ b32.digits = 16777216 := by decide
                                    omega)]
  exact rnd_mono b32 good32.digits h

/-! ### Lighter -/

theorem lighterPart_eq (q : Rat) (h0 : 0 ≤ q) (h1 : q ≤ 1) (x : UInt8) :
    (lighterPart (.fin q) x).toNat = toU 255 (mk b32 (x.toNat + rnd b32 ((255 - x.toNat : Nat) * q))) ∧
    0 ≤ rnd b32 ((255 - x.toNat : Nat) * q) ∧ rnd b32 ((255 - x.toNat : Nat) * q) ≤ (255 - x.toNat : Nat) := by
  have hx := u8_le x
  have h255 : lit32 255 = .fin (255 : Nat) := lit_nat 255 (by decide)
  have e1 : sub b32 (lit32 255) (ofU8 x) = .fin (255 - x.toNat : Nat) := by
    rw [h255, ofU8_eq]
    simp only [sub, neg, add]
    have : (((255 : Nat) : Rat) + -(x.toNat : Rat)) = ((255 - x.toNat : Nat) : Rat) := by
      rw [Nat.cast_sub hx]; ring
    rw [this, mk_nat good32 (by have : 2 ^ b32.digits = 16777216 := by decide
                                omega)]
  have hp0 : (0 : Rat) ≤ (255 - x.toNat : Nat) * q := by positivity
  have hp1 : ((255 - x.toNat : Nat) : Rat) * q ≤ (255 - x.toNat : Nat) := by
    have : (0 : Rat) ≤ (255 - x.toNat : Nat) := by positivity
    nlinarith
  have hc : ((255 - x.toNat : Nat) : Rat) ≤ 1000 := by
    have : (255 - x.toNat : Nat) ≤ 1000 := by omega
    exact_mod_cast this
  refine ⟨?_, rnd_nonneg _ hp0, rnd32_le (by omega) hp1⟩
  rw [lighterPart, asU8_toNat, e1, ofU8_eq]
  simp only [mul]
  rw [mk32 hp0 (hp1.trans hc)]
  rfl

/-- Every part of a lighter colour is at least what it was, is close to the exact amount of the way to
white, and a larger amount never gives a smaller part. The opacity stays. -/
theorem C132_lighter (c : ColorValue) (a : Val) (ha : a ≠ .nan) :
    (lighter c a).a = c.a ∧
    (∀ p ∈ (rgbParts c).zip (rgbParts (lighter c a)), p.1 ≤ p.2 ∧
      |(p.2 : Rat) - (p.1 + (255 - p.1) * partOf a)| < 1 + 1 / 1000) ∧
    (∀ b : Val, b ≠ .nan → partOf a ≤ partOf b →
      ∀ p ∈ (rgbParts (lighter c a)).zip (rgbParts (lighter c b)), p.1 ≤ p.2) := by
  obtain ⟨h0, h1⟩ := partOf_range a
  have part : ∀ x : UInt8, x.toNat ≤ (lighterPart (.fin (partOf a)) x).toNat ∧
      |((lighterPart (.fin (partOf a)) x).toNat : Rat) - (x.toNat + (255 - x.toNat) * partOf a)| < 1 + 1 / 1000 := by
    intro x
    have hx := u8_le x
    obtain ⟨e, l, u⟩ := lighterPart_eq (partOf a) h0 h1 x
    have hc : ((255 - x.toNat : Nat) : Rat) = 255 - x.toNat := by rw [Nat.cast_sub hx]; norm_num
    have hx0 : (0 : Rat) ≤ x.toNat := by positivity
    have hx1 : (x.toNat : Rat) ≤ 255 := by exact_mod_cast hx
    rw [e]
    constructor
    · exact toU_ge good32 hx (by have : 2 ^ b32.digits = 16777216 := by decide
                                 omega) (by linarith)
    · refine toU_close_of good32 (by linarith) ?_ fits8 (by norm_num) ?_
      · push_cast; nlinarith
      · have hp0 : (0 : Rat) ≤ (255 - x.toNat : Nat) * partOf a := by positivity
        have := rnd32_err hp0 (b := 255) (by rw [hc]; nlinarith)
        rw [hc] at this ⊢
        have e2 : (x.toNat : Rat) + rnd b32 ((255 - x.toNat) * partOf a) - (x.toNat + (255 - x.toNat) * partOf a)
          = rnd b32 ((255 - x.toNat) * partOf a) - (255 - x.toNat) * partOf a := by ring
        rw [e2]
        exact this.trans (by norm_num)
  have hl : lighter c a = ⟨lighterPart (.fin (partOf a)) c.r, lighterPart (.fin (partOf a)) c.g,
      lighterPart (.fin (partOf a)) c.b, c.a⟩ := by rw [lighter, clamp01_eq a ha]
  refine ⟨rfl, ?_, ?_⟩
  · rw [hl]
    intro p hp
    simp only [rgbParts, List.zip_cons_cons, List.zip_nil_right, List.mem_cons, List.not_mem_nil, or_false] at hp
    rcases hp with rfl | rfl | rfl <;> exact part _
  · intro b hb hab p hp
    obtain ⟨g0, g1⟩ := partOf_range b
    have hl' : lighter c b = ⟨lighterPart (.fin (partOf b)) c.r, lighterPart (.fin (partOf b)) c.g,
        lighterPart (.fin (partOf b)) c.b, c.a⟩ := by rw [lighter, clamp01_eq b hb]
    have mono : ∀ x : UInt8, (lighterPart (.fin (partOf a)) x).toNat ≤ (lighterPart (.fin (partOf b)) x).toNat := by
      intro x
      rw [(lighterPart_eq _ h0 h1 x).1, (lighterPart_eq _ g0 g1 x).1]
      apply toU_mk_mono good32
      have : rnd b32 ((255 - x.toNat : Nat) * partOf a) ≤ rnd b32 ((255 - x.toNat : Nat) * partOf b) :=
        rnd_mono b32 good32.digits (mul_le_mul_of_nonneg_left hab (by positivity))
      linarith
    rw [hl, hl'] at hp
    simp only [rgbParts, List.zip_cons_cons, List.zip_nil_right, List.mem_cons, List.not_mem_nil, or_false] at hp
    rcases hp with rfl | rfl | rfl <;> exact mono _

example : lighter ⟨200, 100, 0, 9⟩ (lit32 (1 / 2)) = ⟨227, 177, 127, 9⟩ := by decide +kernel

/-! ### Darker -/

theorem darkerPart_eq (q : Rat) (h0 : 0 ≤ q) (h1 : q ≤ 1) (x : UInt8) :
    (darkerPart (.fin q) x).toNat = toU 255 (mk b32 (x.toNat * rnd b32 (1 - q))) ∧
    0 ≤ rnd b32 (1 - q) ∧ rnd b32 (1 - q) ≤ 1 := by
  have h1' : lit32 1 = .fin (1 : Nat) := lit_nat 1 (by decide)
  refine ⟨?_, rnd_nonneg _ (by linarith), by have := rnd32_le (q := 1 - q) (n := 1) (by decide) (by push_cast; linarith); exact_mod_cast this⟩
  rw [darkerPart, asU8_toNat, ofU8_eq, h1']
  have e : sub b32 (.fin ((1 : Nat) : Rat)) (.fin q) = .fin (rnd b32 (1 - q)) := by
    simp only [sub, neg, add]
    rw [show (((1 : Nat) : Rat) + -q) = 1 - q by push_cast; ring, mk32 (by linarith) (by linarith)]
  rw [e]
  rfl

/-- Every part of a darker colour is at most what it was, is close to the exact amount of the way to
black, and a larger amount never gives a larger part. The opacity stays. -/
theorem C132_darker (c : ColorValue) (a : Val) (ha : a ≠ .nan) :
    (darker c a).a = c.a ∧
    (∀ p ∈ (rgbParts c).zip (rgbParts (darker c a)), p.2 ≤ p.1 ∧
      |(p.2 : Rat) - p.1 * (1 - partOf a)| < 1 + 1 / 1000) ∧
    (∀ b : Val, b ≠ .nan → partOf a ≤ partOf b →
      ∀ p ∈ (rgbParts (darker c a)).zip (rgbParts (darker c b)), p.2 ≤ p.1) := by
  obtain ⟨h0, h1⟩ := partOf_range a
  have part : ∀ x : UInt8, (darkerPart (.fin (partOf a)) x).toNat ≤ x.toNat ∧
      |((darkerPart (.fin (partOf a)) x).toNat : Rat) - x.toNat * (1 - partOf a)| < 1 + 1 / 1000 := by
    intro x
    have hx := u8_le x
    obtain ⟨e, l, u⟩ := darkerPart_eq (partOf a) h0 h1 x
    have hx0 : (0 : Rat) ≤ x.toNat := by positivity
    have hx1 : (x.toNat : Rat) ≤ 255 := by exact_mod_cast hx
    rw [e]
    constructor
    · exact toU_le good32 (by have : 2 ^ b32.digits = 16777216 := by decide
                              omega) (by positivity) (by nlinarith)
    · refine toU_close_of good32 (by positivity) ?_ fits8 (by norm_num) ?_
      · push_cast; nlinarith
      · have := rnd32_err (q := 1 - partOf a) (b := 1) (by linarith) (by linarith)
        rw [← mul_sub, abs_mul, abs_of_nonneg hx0]
        calc (x.toNat : Rat) * |rnd b32 (1 - partOf a) - (1 - partOf a)| ≤ 255 * (1 / 2 ^ 24 + 1 / 2 ^ 100) :=
              mul_le_mul hx1 this (abs_nonneg _) (by norm_num)
          _ ≤ 1 / 1000 := by norm_num
  have hl : darker c a = ⟨darkerPart (.fin (partOf a)) c.r, darkerPart (.fin (partOf a)) c.g,
      darkerPart (.fin (partOf a)) c.b, c.a⟩ := by rw [darker, clamp01_eq a ha]
  refine ⟨rfl, ?_, ?_⟩
  · rw [hl]
    intro p hp
    simp only [rgbParts, List.zip_cons_cons, List.zip_nil_right, List.mem_cons, List.not_mem_nil, or_false] at hp
    rcases hp with rfl | rfl | rfl <;> exact part _
  · intro b hb hab p hp
    obtain ⟨g0, g1⟩ := partOf_range b
    have hl' : darker c b = ⟨darkerPart (.fin (partOf b)) c.r, darkerPart (.fin (partOf b)) c.g,
        darkerPart (.fin (partOf b)) c.b, c.a⟩ := by rw [darker, clamp01_eq b hb]
    have mono : ∀ x : UInt8, (darkerPart (.fin (partOf b)) x).toNat ≤ (darkerPart (.fin (partOf a)) x).toNat := by
      intro x
      rw [(darkerPart_eq _ h0 h1 x).1, (darkerPart_eq _ g0 g1 x).1]
      apply toU_mk_mono good32
      have : rnd b32 (1 - partOf b) ≤ rnd b32 (1 - partOf a) := rnd_mono b32 good32.digits (by linarith)
      exact mul_le_mul_of_nonneg_left this (by positivity)
    rw [hl, hl'] at hp
    simp only [rgbParts, List.zip_cons_cons, List.zip_nil_right, List.mem_cons, List.not_mem_nil, or_false] at hp
    rcases hp with rfl | rfl | rfl <;> exact mono _

example : darker ⟨200, 100, 0, 9⟩ (lit32 (1 / 4)) = ⟨150, 75, 0, 9⟩ := by decide +kernel

/-! ### Opacity -/

/-- The opacity is close to the exact part of 255, none and all being exact, and the colour stays. -/
theorem C132_opacity (c : ColorValue) (a : Val) (ha : a ≠ .nan) :
    rgbParts (opacity c a) = rgbParts c ∧ |((opacity c a).a.toNat : Rat) - 255 * partOf a| < 1 ∧
    (partOf a = 1 → (opacity c a).a = 255) ∧ (partOf a = 0 → (opacity c a).a = 0) := by
  obtain ⟨h0, h1⟩ := partOf_range a
  have h255 : lit32 255 = .fin (255 : Nat) := lit_nat 255 (by decide)
  have e : (opacity c a).a = asU8 (mk b32 (partOf a * (255 : Nat))) := by
    simp only [opacity, clamp01_eq a ha, h255, mul]
  have en : (opacity c a).a.toNat = toU 255 (mk b32 (partOf a * (255 : Nat))) := by rw [e, asU8_toNat]
  refine ⟨rfl, ?_, ?_, ?_⟩
  · rw [en, mul_comm 255]
    have := toU_close good32 (top := 255) (x := partOf a * (255 : Nat)) (by positivity) (by push_cast; linarith) fits8
    push_cast at this ⊢
    exact this
  · intro h; rw [e, h]; decide +kernel
  · intro h; rw [e, h]; decide +kernel

/-- A transparency in percent: the opacity is the whole part of what is left of 255. -/
theorem C132_transparent (c : ColorValue) (p : UInt8) :
    rgbParts (transparent c p) = rgbParts c ∧
    (transparent c p).a.toNat = (100 - min p.toNat 100) * 255 / 100 := by
  refine ⟨rfl, ?_⟩
  have all : ∀ k : Fin 256, (transparent ⟨0, 0, 0, 0⟩ k.val.toUInt8).a.toNat
      = (100 - min k.val.toUInt8.toNat 100) * 255 / 100 := by decide +kernel
  have := all ⟨p.toNat, p.toNat_lt⟩
  have e : (transparent c p).a = (transparent ⟨0, 0, 0, 0⟩ p).a := rfl
  rw [e]
  simpa using this

example : (transparent ⟨1, 2, 3, 4⟩ 30).a = 178 := by decide +kernel

/-! ### Mixing -/

theorem mixPart_eq (q : Rat) (h0 : 0 ≤ q) (h1 : q ≤ 1) (x y : UInt8) :
    ∃ z : Rat, (mixPart (.fin q) x y).toNat = toU 255 (mk b32 z) ∧ 0 ≤ z ∧
      |z - (x.toNat * (1 - q) + y.toNat * q)| ≤ 1 / 1000 := by
  obtain ⟨_, l, u⟩ := darkerPart_eq q h0 h1 x
  have hx0 : (0 : Rat) ≤ x.toNat := by positivity
  have hx1 : (x.toNat : Rat) ≤ 255 := by exact_mod_cast u8_le x
  have hy0 : (0 : Rat) ≤ y.toNat := by positivity
  have hy1 : (y.toNat : Rat) ≤ 255 := by exact_mod_cast u8_le y
  set t := rnd b32 (1 - q) with ht
  have hxt0 : 0 ≤ (x.toNat : Rat) * t := by positivity
  have hxt1 : (x.toNat : Rat) * t ≤ 255 := by nlinarith
  have hyq0 : 0 ≤ (y.toNat : Rat) * q := by positivity
  have hyq1 : (y.toNat : Rat) * q ≤ 255 := by nlinarith
  refine ⟨rnd b32 (x.toNat * t) + rnd b32 (y.toNat * q), ?_, add_nonneg (rnd_nonneg _ hxt0) (rnd_nonneg _ hyq0), ?_⟩
  · have h1' : lit32 1 = .fin (1 : Nat) := lit_nat 1 (by decide)
    have e : sub b32 (.fin ((1 : Nat) : Rat)) (.fin q) = .fin t := by
      simp only [sub, neg, add]
      rw [show (((1 : Nat) : Rat) + -q) = 1 - q by push_cast; ring, mk32 (by linarith) (by linarith)]
    rw [mixPart, asU8_toNat, ofU8_eq, ofU8_eq, h1', e]
    simp only [mul]
    rw [mk32 hxt0 (by linarith), mk32 hyq0 (by linarith)]
    rfl
  · have e1 := rnd32_err hxt0 hxt1
    have e2 := rnd32_err hyq0 hyq1
    have e3 := rnd32_err (q := 1 - q) (b := 1) (by linarith) (by linarith)
    rw [← ht] at e3
    have e4 : |(x.toNat : Rat) * t - x.toNat * (1 - q)| ≤ 255 * (1 / 2 ^ 24 + 1 / 2 ^ 100) := by
      rw [← mul_sub, abs_mul, abs_of_nonneg hx0]
      exact mul_le_mul hx1 e3 (abs_nonneg _) (by norm_num)
    rw [abs_le] at e1 e2 e4 ⊢
    have n1 : (255 : Rat) / 2 ^ 24 + 1 / 2 ^ 100 ≤ 1 / 10000 := by norm_num
    have n2 : (255 : Rat) * (1 / 2 ^ 24 + 1 / 2 ^ 100) ≤ 1 / 10000 := by norm_num
    constructor <;> linarith [e1.1, e1.2, e2.1, e2.2, e4.1, e4.2]

/-- The four parts of a colour. -/
def allParts (c : ColorValue) : List Nat := [c.r.toNat, c.g.toNat, c.b.toNat, c.a.toNat]

/-- A mixture is, part by part and for the opacity as well, close to the exact weighted mean, at most the
larger of the two parts and at least one less than the smaller one. -/
theorem C132_mix_partial (c o : ColorValue) (a : Val) (ha : a ≠ .nan) :
    ∀ p ∈ (allParts (mix c o a)).zip ((allParts c).zip (allParts o)),
      |(p.1 : Rat) - (p.2.1 * (1 - partOf a) + p.2.2 * partOf a)| < 1 + 1 / 1000 ∧
      p.1 ≤ max p.2.1 p.2.2 ∧ min p.2.1 p.2.2 ≤ p.1 + 1 := by
  obtain ⟨h0, h1⟩ := partOf_range a
  have part : ∀ x y : UInt8,
      |((mixPart (.fin (partOf a)) x y).toNat : Rat) - (x.toNat * (1 - partOf a) + y.toNat * partOf a)| < 1 + 1 / 1000 ∧
      (mixPart (.fin (partOf a)) x y).toNat ≤ max x.toNat y.toNat ∧
      min x.toNat y.toNat ≤ (mixPart (.fin (partOf a)) x y).toNat + 1 := by
    intro x y
    have hx := u8_le x
    have hy := u8_le y
    obtain ⟨z, e, hz0, hz⟩ := mixPart_eq (partOf a) h0 h1 x y
    have hb : 2 ^ b32.digits = 16777216 := by decide
    have hmax : (x.toNat : Rat) * (1 - partOf a) + y.toNat * partOf a ≤ max x.toNat y.toNat := by
      have l1 : (x.toNat : Rat) ≤ max x.toNat y.toNat := by exact_mod_cast le_max_left _ _
      have l2 : (y.toNat : Rat) ≤ max x.toNat y.toNat := by exact_mod_cast le_max_right _ _
      nlinarith
    have hmin : (min x.toNat y.toNat : Nat) ≤ (x.toNat : Rat) * (1 - partOf a) + y.toNat * partOf a := by
      have l1 : ((min x.toNat y.toNat : Nat) : Rat) ≤ x.toNat := by exact_mod_cast min_le_left _ _
      have l2 : ((min x.toNat y.toNat : Nat) : Rat) ≤ y.toNat := by exact_mod_cast min_le_right _ _
      nlinarith
    have hm255 : ((max x.toNat y.toNat : Nat) : Rat) ≤ 255 := by
      have : max x.toNat y.toNat ≤ 255 := by omega
      exact_mod_cast this
    rw [e]
    refine ⟨toU_close_of good32 hz0 (hmax.trans (by exact_mod_cast hm255)) fits8 (by norm_num) hz, ?_, ?_⟩
    · rw [abs_le] at hz
      exact toU_le good32 (by omega) hz0 (by linarith [hz.1, hz.2])
    · rcases Nat.eq_zero_or_pos (min x.toNat y.toNat) with hm | hm
      · omega
      · have : min x.toNat y.toNat - 1 ≤ toU 255 (mk b32 z) := by
          refine toU_ge good32 (by omega) (by omega) ?_
          rw [Nat.cast_sub hm]
          rw [abs_le] at hz
          push_cast at hmin ⊢
          linarith
        omega
  have hl : mix c o a = ⟨mixPart (.fin (partOf a)) c.r o.r, mixPart (.fin (partOf a)) c.g o.g,
      mixPart (.fin (partOf a)) c.b o.b, mixPart (.fin (partOf a)) c.a o.a⟩ := by rw [mix, clamp01_eq a ha]
  rw [hl]
  intro p hp
  simp only [allParts, List.zip_cons_cons, List.zip_nil_right, List.mem_cons, List.not_mem_nil, or_false] at hp
  rcases hp with rfl | rfl | rfl | rfl <;> exact part _ _

example : mix ⟨255, 0, 0, 255⟩ ⟨0, 0, 255, 255⟩ (lit32 (1 / 2)) = ⟨127, 0, 127, 255⟩ := by decide +kernel

/-- **C132 does not hold in full.** The parts of a mixture are cut off instead of rounded, and the two
weights do not add up to one exactly: mixing white with itself at 0.48 gives FEFEFE with the opacity 254,
so that a mixture can be darker than both of its colours. -/
theorem C132_mix_violated :
    mix ⟨255, 255, 255, 255⟩ ⟨255, 255, 255, 255⟩ (lit32 (48 / 100)) = ⟨254, 254, 254, 254⟩ := by
  decide +kernel

/-- No and full amounts: the colour itself, white, black and the other colour. -/
theorem C132_ends (c o : ColorValue) (a b : Val) (ha : a ≠ .nan) (hb : b ≠ .nan) (h0 : partOf a = 0)
    (h1 : partOf b = 1) :
    lighter c a = c ∧ lighter c b = ⟨255, 255, 255, c.a⟩ ∧ darker c a = c ∧ darker c b = ⟨0, 0, 0, c.a⟩ ∧
    mix c o a = c ∧ mix c o b = o := by
  have l0 : ∀ n : Fin 256, lighterPart (.fin 0) n.val.toUInt8 = n.val.toUInt8 := by decide +kernel
  have l1 : ∀ n : Fin 256, lighterPart (.fin 1) n.val.toUInt8 = 255 := by decide +kernel
  have d0 : ∀ n : Fin 256, darkerPart (.fin 0) n.val.toUInt8 = n.val.toUInt8 := by decide +kernel
  have d1 : ∀ n : Fin 256, darkerPart (.fin 1) n.val.toUInt8 = 0 := by decide +kernel
  have up : ∀ {f : UInt8 → Prop}, (∀ n : Fin 256, f n.val.toUInt8) → ∀ x, f x := by
    intro f h x
    have := h ⟨x.toNat, x.toNat_lt⟩
    simpa using this
  have L0 := up (f := fun x => lighterPart (.fin 0) x = x) l0
  have L1 := up (f := fun x => lighterPart (.fin 1) x = 255) l1
  have D0 := up (f := fun x => darkerPart (.fin 0) x = x) d0
  have D1 := up (f := fun x => darkerPart (.fin 1) x = 0) d1
  have z0 : rnd b32 0 = 0 := rnd_zero _
  have z1 : rnd b32 1 = 1 := by have := rnd_nat good32 (n := 1) (by decide); exact_mod_cast this
  have h1' : lit32 1 = .fin 1 := by decide +kernel
  have m0 : mk b32 0 = .fin 0 := by decide +kernel
  have m1 : mk b32 1 = .fin 1 := by decide +kernel
  have hn : ∀ x : UInt8, mk b32 (x.toNat : Rat) = .fin x.toNat := fun x => ofU8_eq x
  have hback : ∀ x : UInt8, asU8 (.fin (x.toNat : Rat)) = x := by
    intro x
    apply UInt8.toNat_inj.mp
    rw [asU8_toNat]
    have := u8_le x
    simp only [toU, Int.floor_natCast, Int.toNat_natCast]
    omega
  have M0 : ∀ x y, mixPart (.fin 0) x y = x := by
    intro x y
    simp only [mixPart, ofU8_eq, h1', sub, neg, add, mul, neg_zero, add_zero, mul_zero, m0, m1, mul_one, hn, hback]
  have M1 : ∀ x y, mixPart (.fin 1) x y = y := by
    intro x y
    simp only [mixPart, ofU8_eq, h1', sub, neg, add, mul, add_neg_cancel, mul_zero, zero_add, m0, mul_one, hn, hback]
  rw [lighter, lighter, darker, darker, mix, mix, clamp01_eq a ha, clamp01_eq b hb, h0, h1]
  simp only [L0, L1, D0, D1, M0, M1, and_self]

/-! ### Gray -/

/-- The weighted mean in `grayscale`. -/
def meanOf (c : ColorValue) : Rat := (299 * c.r.toNat + 587 * c.g.toNat + 114 * c.b.toNat) / 1000

theorem lit_small {q : Rat} (h0 : 0 ≤ q) (h1 : q ≤ 1) :
    ∃ k, lit32 q = .fin k ∧ 0 ≤ k ∧ k ≤ 1 ∧ |k - q| ≤ 1 / 2 ^ 24 + 1 / 2 ^ 100 :=
  ⟨rnd b32 q, mk32 h0 (by linarith), rnd_nonneg _ h0,
    by have := rnd32_le (q := q) (n := 1) (by decide) (by push_cast; exact h1); exact_mod_cast this,
    rnd32_err h0 h1⟩

theorem weigh {k q : Rat} (h0 : 0 ≤ k) (h1 : k ≤ 1) (h : |k - q| ≤ 1 / 2 ^ 24 + 1 / 2 ^ 100) (x : UInt8) :
    mul b32 (.fin k) (ofU8 x) = .fin (rnd b32 (k * x.toNat)) ∧ 0 ≤ rnd b32 (k * x.toNat) ∧
    rnd b32 (k * x.toNat) ≤ 255 ∧ |rnd b32 (k * x.toNat) - q * x.toNat| ≤ 1 / 10000 := by
  have hx0 : (0 : Rat) ≤ x.toNat := by positivity
  have hx1 : (x.toNat : Rat) ≤ 255 := by exact_mod_cast u8_le x
  have hk0 : 0 ≤ k * (x.toNat : Rat) := by positivity
  have hk1 : k * (x.toNat : Rat) ≤ 255 := by nlinarith
  refine ⟨?_, rnd_nonneg _ hk0, ?_, ?_⟩
  · rw [ofU8_eq]; simp only [mul]; rw [mk32 hk0 (by linarith)]
  · have := rnd32_le (q := k * x.toNat) (n := 255) (by decide) (by push_cast; exact hk1); exact_mod_cast this
  · have e1 := rnd32_err hk0 hk1
    have e2 : |k * (x.toNat : Rat) - q * x.toNat| ≤ (1 / 2 ^ 24 + 1 / 2 ^ 100) * 255 := by
      rw [← sub_mul, abs_mul, abs_of_nonneg hx0]
      exact mul_le_mul h hx1 hx0 (by norm_num)
    rw [abs_le] at e1 e2 ⊢
    have n1 : (255 : Rat) / 2 ^ 24 + 1 / 2 ^ 100 + (1 / 2 ^ 24 + 1 / 2 ^ 100) * 255 ≤ 1 / 10000 := by norm_num
    constructor <;> linarith [e1.1, e1.2, e2.1, e2.2]

theorem grayOf_eq (c : ColorValue) :
    ∃ z : Rat, (grayOf c).toNat = toU 255 (mk b32 z) ∧ 0 ≤ z ∧ |z - meanOf c| ≤ 1 / 1000 := by
  obtain ⟨k1, e1, a1, b1, d1⟩ := lit_small (q := 299 / 1000) (by norm_num) (by norm_num)
  obtain ⟨k2, e2, a2, b2, d2⟩ := lit_small (q := 587 / 1000) (by norm_num) (by norm_num)
  obtain ⟨k3, e3, a3, b3, d3⟩ := lit_small (q := 114 / 1000) (by norm_num) (by norm_num)
  obtain ⟨m1, n1, o1, p1⟩ := weigh a1 b1 d1 c.r
  obtain ⟨m2, n2, o2, p2⟩ := weigh a2 b2 d2 c.g
  obtain ⟨m3, n3, o3, p3⟩ := weigh a3 b3 d3 c.b
  set x1 := rnd b32 (k1 * c.r.toNat)
  set x2 := rnd b32 (k2 * c.g.toNat)
  set x3 := rnd b32 (k3 * c.b.toNat)
  have s0 : 0 ≤ x1 + x2 := by linarith
  have s1 : x1 + x2 ≤ 510 := by linarith
  have se := rnd32_err s0 s1
  refine ⟨rnd b32 (x1 + x2) + x3, ?_, add_nonneg (rnd_nonneg _ s0) n3, ?_⟩
  · rw [grayOf, asU8_toNat, e1, e2, e3, m1, m2, m3]
    simp only [add]
    rw [mk32 s0 (by linarith)]
  · unfold meanOf
    rw [abs_le] at se p1 p2 p3 ⊢
    have : (510 : Rat) / 2 ^ 24 + 1 / 2 ^ 100 ≤ 1 / 10000 := by norm_num
    constructor <;> linarith [se.1, se.2, p1.1, p1.2, p2.1, p2.2, p3.1, p3.2]

/-- The gray of a colour is close to the weighted mean of its parts, which the eye sees as equally bright;
a gray becomes itself or the next darker one; the opacity stays. -/
theorem C132_gray_partial (c : ColorValue) :
    (grayscale c).a = c.a ∧ (grayscale c).r = (grayscale c).g ∧ (grayscale c).g = (grayscale c).b ∧
    |((grayscale c).r.toNat : Rat) - meanOf c| < 1 + 1 / 1000 ∧
    (c.r = c.g → c.g = c.b → grayscale c = c ∨ (grayscale c).r.toNat + 1 = c.r.toNat) := by
  obtain ⟨z, e, hz0, hz⟩ := grayOf_eq c
  have hr : (c.r.toNat : Rat) ≤ 255 := by exact_mod_cast u8_le c.r
  have hg : (c.g.toNat : Rat) ≤ 255 := by exact_mod_cast u8_le c.g
  have hb : (c.b.toNat : Rat) ≤ 255 := by exact_mod_cast u8_le c.b
  refine ⟨rfl, rfl, rfl, ?_, fun h1 h2 => ?_⟩
  · show |((grayOf c).toNat : Rat) - meanOf c| < _
    rw [e]
    refine toU_close_of good32 hz0 ?_ fits8 (by norm_num) hz
    unfold meanOf; push_cast; linarith
  · have hm : meanOf c = c.r.toNat := by unfold meanOf; rw [← h2, ← h1]; ring
    rw [hm] at hz
    have := (toU_near good32 (top := 255) (n := c.r.toNat) hz0 (u8_le _)
      (by have := u8_le c.r; have : 2 ^ b32.digits = 16777216 := by decide
          omega) (by linarith)).1
    rw [← e] at this
    rcases this with h | h
    · left
      have hh : grayOf c = c.r := UInt8.toNat_inj.mp h
      rw [grayscale, hh]
      cases c
      simp only at h1 h2 ⊢
      subst h1 h2
      rfl
    · exact Or.inr h

example : grayscale ⟨255, 0, 0, 7⟩ = ⟨76, 76, 76, 7⟩ ∧ grayscale ⟨255, 255, 255, 7⟩ = ⟨255, 255, 255, 7⟩ := by
  decide +kernel

/-- **C132 does not hold in full.** Converting a gray to gray changes it: of the 256 grays, 13 come out
one step darker, for example 252525 becomes 242424 and FDFDFD becomes FCFCFC. Converting again and again
does not stop at once either: 3D3D3D becomes 3C3C3C. -/
theorem C132_gray_violated :
    grayscale ⟨37, 37, 37, 255⟩ = ⟨36, 36, 36, 255⟩ ∧ grayscale ⟨253, 253, 253, 255⟩ = ⟨252, 252, 252, 255⟩ ∧
    grayscale ⟨61, 61, 61, 255⟩ = ⟨60, 60, 60, 255⟩ ∧
    ((List.range 256).filter fun n => grayOf ⟨n.toUInt8, n.toUInt8, n.toUInt8, 255⟩ ≠ n.toUInt8).length = 13 := by
  decide +kernel

/-- Inverting twice gives the colour back; inverting exchanges black and white and keeps the opacity. -/
theorem C132_invert (c : ColorValue) :
    invert (invert c) = c ∧ (invert c).a = c.a ∧
    ∀ p ∈ (rgbParts c).zip (rgbParts (invert c)), p.1 + p.2 = 255 := by
  have hs : ∀ x : UInt8, (255 - x).toNat = 255 - x.toNat := by
    intro x
    rw [UInt8.toNat_sub_of_le _ _ (UInt8.le_iff_toNat_le.mpr (u8_le x))]
    rfl
  have hi : ∀ x : UInt8, 255 - (255 - x) = x := by
    intro x
    apply UInt8.toNat_inj.mp
    rw [hs, hs]
    have := u8_le x
    omega
  refine ⟨?_, rfl, ?_⟩
  · cases c; simp only [invert, hi]
  · intro p hp
    simp only [rgbParts, invert, List.zip_cons_cons, List.zip_nil_right, List.mem_cons, List.not_mem_nil, or_false] at hp
    have h1 := u8_le c.r
    have h2 := u8_le c.g
    have h3 := u8_le c.b
    rcases hp with rfl | rfl | rfl <;> simp only [hs] <;> omega

/-- The colour that is drawn is the one that was computed, and writes as the same digits. -/
theorem C132_drawn_partial (c : ColorValue) : (toColor c).toHex = c.toHex := rfl

/-- **C132 does not hold in full.** The opacity of a colour is lost when the colour is given to a shape:
`to_color` keeps red, green and blue only, so that `red().opacity(0.5)` and `red().transparent(80)` are
drawn like `red()`. -/
theorem C132_alpha_violated (c : ColorValue) (a : Val) (p : UInt8) :
    toColor (opacity c a) = toColor c ∧ toColor (transparent c p) = toColor c := ⟨rfl, rfl⟩

/-- **C132 does not hold in full.** An amount that is not a number turns every colour black instead of
leaving it alone, and an opacity that is not a number makes it invisible. -/
theorem C132_nan_violated (c o : ColorValue) :
    lighter c .nan = ⟨0, 0, 0, c.a⟩ ∧ darker c .nan = ⟨0, 0, 0, c.a⟩ ∧ mix c o .nan = ⟨0, 0, 0, 0⟩ ∧
    (opacity c .nan).a = 0 := by
  have n1 : ∀ x, lighterPart .nan x = 0 := by
    intro x; simp only [lighterPart, ofU8_eq, show lit32 255 = .fin (255 : Nat) from lit_nat 255 (by decide), sub, neg, add]
    cases mk b32 (((255 : Nat) : Rat) + -(x.toNat : Rat)) <;> rfl
  have n2 : ∀ x, darkerPart .nan x = 0 := by
    intro x; simp only [darkerPart, ofU8_eq, show lit32 1 = .fin (1 : Nat) from lit_nat 1 (by decide), sub, neg, add, mul]; rfl
  have n3 : ∀ x y, mixPart .nan x y = 0 := by
    intro x y; simp only [mixPart, ofU8_eq, show lit32 1 = .fin (1 : Nat) from lit_nat 1 (by decide), sub, neg, add, mul]; rfl
  refine ⟨?_, ?_, ?_, rfl⟩
  · simp only [lighter, show clamp01 .nan = .nan from rfl, n1]
  · simp only [darker, show clamp01 .nan = .nan from rfl, n2]
  · simp only [mix, show clamp01 .nan = .nan from rfl, n3]

end PptRs.Props
