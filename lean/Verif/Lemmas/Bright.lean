import Verif.Model.Drawing
import Verif.Lemmas.Float

/-!
Bounds for computing in `f64`, and the brightness of a colour.
-/

namespace PptRs.Props

open PptRs PptRs.Fl PptRs.Draw

theorem rnd64_bounds {q : Rat} (h : 0 ≤ q) :
    q - (q / 2 ^ 53 + 1 / 2 ^ 100) ≤ rnd b64 q ∧ rnd b64 q ≤ q + (q / 2 ^ 53 + 1 / 2 ^ 100) := by
  have := rnd64_rel q
  rw [abs_of_nonneg h, abs_le] at this
  constructor <;> linarith [this.1, this.2]

theorem mk64 {q : Rat} (h0 : 0 ≤ q) (h : q ≤ 2 ^ 53) : mk b64 q = .fin (rnd b64 q) := mk_of_small good64 h0 h

theorem rnd64_le {q : Rat} {n : Nat} (hn : n ≤ 2 ^ 53) (h : q ≤ n) : rnd b64 q ≤ n := by
  rw [← rnd_nat good64 hn]
  exact rnd_mono b64 good64.digits h

theorem rnd64_ge {q : Rat} {n : Nat} (hn : n ≤ 2 ^ 53) (h : n ≤ q) : n ≤ rnd b64 q := by
  rw [← rnd_nat good64 hn]
  exact rnd_mono b64 good64.digits h

theorem weigh64 {q : Rat} (h0 : 0 ≤ q) (h1 : q ≤ 1) (x : UInt8) :
    ∃ z, mul b64 (mk b64 q) (mk b64 x.toNat) = .fin z ∧ 0 ≤ z ∧ z ≤ 300 ∧ |z - q * x.toNat| ≤ 1 / 10 ^ 10 := by
  have hx : x.toNat ≤ 255 := by have := x.toNat_lt; omega
  have hx0 : (0 : Rat) ≤ x.toNat := by positivity
  have hx1 : (x.toNat : Rat) ≤ 255 := by exact_mod_cast hx
  have e1 : mk b64 q = .fin (rnd b64 q) := mk64 h0 (h1.trans (by norm_num))
  have e2 : mk b64 (x.toNat : Rat) = .fin x.toNat := mk_nat good64 (hx.trans (by decide))
  have k0 := rnd_nonneg b64 h0
  have k1 : rnd b64 q ≤ 1 := by exact_mod_cast rnd64_le (n := 1) (by norm_num) (by push_cast; exact h1)
  have kb := rnd64_bounds h0
  set k := rnd b64 q
  have p0 : 0 ≤ k * (x.toNat : Rat) := by positivity
  have p1 : k * (x.toNat : Rat) ≤ 255 := by nlinarith
  have pb := rnd64_bounds p0
  refine ⟨rnd b64 (k * x.toNat), ?_, rnd_nonneg _ p0, ?_, ?_⟩
  · rw [e1, e2]; simp only [mul]; exact mk64 p0 (p1.trans (by norm_num))
  · exact_mod_cast rnd64_le (n := 300) (by norm_num) (by push_cast; linarith)
  · have hk : |k - q| ≤ 1 / 10 ^ 14 := by
      rw [abs_le]
      have : q / 2 ^ 53 + 1 / 2 ^ 100 ≤ 1 / 10 ^ 14 := by
        have : q / 2 ^ 53 ≤ 1 / 2 ^ 53 := div_le_div_of_nonneg_right h1 (by positivity)
        norm_num at this ⊢; linarith
      constructor <;> linarith [kb.1, kb.2]
    have e4 : |k * (x.toNat : Rat) - q * x.toNat| ≤ 1 / 10 ^ 14 * 255 := by
      rw [← sub_mul, abs_mul, abs_of_nonneg hx0]
      exact mul_le_mul hk hx1 hx0 (by norm_num)
    have e5 : k * (x.toNat : Rat) / 2 ^ 53 + 1 / 2 ^ 100 ≤ 1 / 10 ^ 11 := by
      have : k * (x.toNat : Rat) / 2 ^ 53 ≤ 255 / 2 ^ 53 := div_le_div_of_nonneg_right p1 (by positivity)
      norm_num at this ⊢; linarith
    rw [abs_le] at e4 ⊢
    constructor <;> linarith [pb.1, pb.2, e4.1, e4.2]

theorem darkFloat_spec (r g b : UInt8) :
    let y := 299 * r.toNat + 587 * g.toNat + 114 * b.toNat
    (y ≠ 128000 → darkFloat r g b = decide (y < 128000)) ∧
    (darkFloat r g b = true → y ≤ 128000) ∧ (darkFloat r g b = false → 128000 ≤ y) := by
  intro y
  have key : y ≠ 128000 → darkFloat r g b = decide (y < 128000) := by
    intro hy
    obtain ⟨z1, m1, n1, o1, p1⟩ := weigh64 (q := 299 / 1000) (by norm_num) (by norm_num) r
    obtain ⟨z2, m2, n2, o2, p2⟩ := weigh64 (q := 587 / 1000) (by norm_num) (by norm_num) g
    obtain ⟨z3, m3, n3, o3, p3⟩ := weigh64 (q := 114 / 1000) (by norm_num) (by norm_num) b
    have s0 : 0 ≤ z1 + z2 := by linarith
    have s1 : z1 + z2 ≤ 600 := by linarith
    have sb := rnd64_bounds s0
    have sn := rnd_nonneg b64 s0
    have su : rnd b64 (z1 + z2) ≤ 600 := by exact_mod_cast rnd64_le (n := 600) (by norm_num) (by push_cast; exact s1)
    have l128 : mk b64 128 = .fin 128 := by decide +kernel
    have t0 : 0 ≤ rnd b64 (z1 + z2) + z3 := by linarith
    have tb := rnd64_bounds t0
    have e : darkFloat r g b = decide (rnd b64 (rnd b64 (z1 + z2) + z3) < 128) := by
      rw [darkFloat, m1, m2, m3, l128]
      simp only [add]
      rw [mk64 s0 (s1.trans (by norm_num))]
      simp only
      rw [mk64 t0 (by linarith)]
      rfl
    have hyq : ((y : Nat) : Rat) / 1000 = 299 / 1000 * r.toNat + 587 / 1000 * g.toNat + 114 / 1000 * b.toNat := by
      simp only [y]; push_cast; ring
    rw [abs_le] at p1 p2 p3
    have q1 : (z1 + z2) / 2 ^ 53 + 1 / 2 ^ 100 ≤ 1 / 10 ^ 10 := by
      have : (z1 + z2) / 2 ^ 53 ≤ 600 / 2 ^ 53 := div_le_div_of_nonneg_right s1 (by positivity)
      norm_num at this ⊢; linarith
    have q2 : (rnd b64 (z1 + z2) + z3) / 2 ^ 53 + 1 / 2 ^ 100 ≤ 1 / 10 ^ 10 := by
      have : (rnd b64 (z1 + z2) + z3) / 2 ^ 53 ≤ 900 / 2 ^ 53 := div_le_div_of_nonneg_right (by linarith) (by positivity)
      norm_num at this ⊢; linarith
    rw [e]
    congr 1
    rw [eq_iff_iff]
    constructor
    · intro hlt
      have : ((y : Nat) : Rat) / 1000 < 128 + 1 / 10000 := by
        rw [hyq]; linarith [p1.1, p2.1, p3.1, sb.1, tb.1]
      have h2 : ((y : Nat) : Rat) < 128001 := by
        rw [div_lt_iff₀ (by norm_num)] at this; linarith
      have h3 : y < 128001 := by exact_mod_cast h2
      omega
    · intro hlt
      have h3 : y ≤ 127999 := by omega
      have h4 : ((y : Nat) : Rat) ≤ 127999 := by exact_mod_cast h3
      have : ((y : Nat) : Rat) / 1000 ≤ 127999 / 1000 := div_le_div_of_nonneg_right h4 (by norm_num)
      rw [hyq] at this
      linarith [p1.2, p2.2, p3.2, sb.2, tb.2]
  refine ⟨key, fun h => ?_, fun h => ?_⟩
  · by_cases hy : y = 128000
    · omega
    · rw [key hy] at h
      have := of_decide_eq_true h
      omega
  · by_cases hy : y = 128000
    · omega
    · rw [key hy] at h
      have := of_decide_eq_false h
      omega

end PptRs.Props
