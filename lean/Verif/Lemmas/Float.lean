import Verif.Model.Float
import Mathlib.Algebra.Order.Field.Basic
import Mathlib.Tactic.Linarith
import Mathlib.Tactic.Ring
import Mathlib.Tactic.FieldSimp
import Mathlib.Tactic.NormNum
import Mathlib.Tactic.Positivity
import Mathlib.Tactic.LinearCombination

/-!
Rounding is monotone, leaves the numbers of the format alone and errs by at most half a place.
-/

namespace PptRs.Fl

theorem two_pos (k : Int) : (0 : Rat) < 2 ^ k := zpow_pos (by norm_num) k

theorem nearest_err (q : Rat) : |(nearest q : Rat) - q| ≤ 1 / 2 := by
  have h1 := Int.floor_le q
  have h2 := Int.lt_floor_add_one q
  unfold nearest
  rw [abs_le]
  split
  · constructor <;> linarith
  · split
    · push_cast; constructor <;> linarith
    · split
      · constructor <;> linarith
      · push_cast; constructor <;> linarith

theorem nearest_int (n : Int) : nearest n = n := by simp [nearest]

theorem nearest_mono {a b : Rat} (h : a ≤ b) : nearest a ≤ nearest b := by
  have hf : ⌊a⌋ ≤ ⌊b⌋ := Int.floor_le_floor h
  rcases hf.lt_or_eq with hlt | heq
  · have up : nearest a ≤ ⌊a⌋ + 1 := by unfold nearest; split <;> [omega; (split <;> [omega; (split <;> omega)])]
    have dn : ⌊b⌋ ≤ nearest b := by unfold nearest; split <;> [omega; (split <;> [omega; (split <;> omega)])]
    omega
  · unfold nearest
    rw [heq]
    by_cases h1 : a - ⌊b⌋ < 1 / 2
    · rw [if_pos h1]
      split <;> [omega; (split <;> [omega; (split <;> omega)])]
    · have h1' : ¬ b - ⌊b⌋ < 1 / 2 := by intro hc; apply h1; linarith
      rw [if_neg h1, if_neg h1']
      by_cases h2 : 1 / 2 < a - ⌊b⌋
      · have h2' : 1 / 2 < b - ⌊b⌋ := by linarith
        rw [if_pos h2, if_pos h2']
      · rw [if_neg h2]
        split <;> split <;> omega

theorem nearest_neg (q : Rat) : nearest (-q) = -nearest q := by
  have h1 := Int.floor_le q
  have h2 := Int.lt_floor_add_one q
  by_cases hz : q = ⌊q⌋
  · rw [hz, ← Int.cast_neg, nearest_int, nearest_int]
  · have hlt : (⌊q⌋ : Rat) < q := lt_of_le_of_ne h1 (fun hc => hz hc.symm)
    have hfl : ⌊-q⌋ = -⌊q⌋ - 1 := by
      rw [Int.floor_eq_iff]; push_cast; constructor <;> linarith
    unfold nearest
    rw [hfl]
    push_cast
    by_cases h3 : q - ⌊q⌋ < 1 / 2
    · rw [if_pos h3, if_neg (by linarith), if_pos (by linarith)]; omega
    · by_cases h4 : 1 / 2 < q - ⌊q⌋
      · rw [if_neg h3, if_pos h4, if_pos (by linarith)]; omega
      · rw [if_neg h3, if_neg h4, if_neg (by linarith), if_neg (by linarith)]
        split <;> split <;> omega

theorem rnd_err (F : Fmt) (q : Rat) : |rnd F q - q| ≤ 2 ^ place F q / 2 := by
  have hp := two_pos (place F q)
  have h := nearest_err (q / 2 ^ place F q)
  have e : rnd F q - q = ((nearest (q / 2 ^ place F q) : Rat) - q / 2 ^ place F q) * 2 ^ place F q := by
    unfold rnd; field_simp
  rw [e, abs_mul, abs_of_pos hp]
  nlinarith

theorem place_neg (F : Fmt) (q : Rat) : place F (-q) = place F q := by simp [place]

theorem rnd_neg (F : Fmt) (q : Rat) : rnd F (-q) = -rnd F q := by
  unfold rnd
  rw [place_neg, neg_div, nearest_neg]
  push_cast; ring

theorem rnd_zero (F : Fmt) : rnd F 0 = 0 := by simp [rnd, nearest]

/-- The numbers of the format, apart from overflow. -/
def Fits (F : Fmt) (q : Rat) : Prop := ∃ n k : Int, q = n * 2 ^ k ∧ |n| ≤ 2 ^ F.digits ∧ F.low ≤ k

theorem place_le_of_lt (F : Fmt) {q : Rat} {e : Int} (hq : q ≠ 0) (h : |q| < 2 ^ (e + F.digits)) (he : F.low ≤ e) :
    place F q ≤ e := by
  unfold place
  refine max_le ?_ he
  have hpos : 0 < |q| := abs_pos.mpr hq
  have := (Int.lt_zpow_iff_log_lt (b := 2) (by norm_num) hpos).mp (by exact_mod_cast h)
  omega

theorem rnd_of_fits {F : Fmt} {q : Rat} (hd : 1 ≤ F.digits) (h : Fits F q) : rnd F q = q := by
  obtain ⟨n, k, rfl, hn, hk⟩ := h
  by_cases hz : n = 0
  · subst hz; simp [rnd_zero]
  have hq : (n : Rat) * 2 ^ k ≠ 0 := mul_ne_zero (by exact_mod_cast hz) (two_pos k).ne'
  -- either the number is a power of two at the top, or its place is at most `k`
  have key : ∃ m : Int, (n : Rat) * 2 ^ k = m * 2 ^ place F (n * 2 ^ k) := by
    by_cases htop : |n| = 2 ^ F.digits
    · -- |q| = 2 ^ (k + digits)
      have hpl : place F (n * 2 ^ k) ≤ k + 1 := by
        apply place_le_of_lt F hq
        · rw [abs_mul, abs_of_pos (two_pos k), ← Int.cast_abs, htop]
          push_cast
          rw [show k + 1 + (F.digits : Int) = ((F.digits : Int) + k) + 1 by ring, zpow_add_one₀ (by norm_num),
            zpow_add₀ (by norm_num), zpow_natCast]
          have := two_pos k
          have h2 : (0 : Rat) < 2 ^ F.digits := by positivity
          nlinarith [mul_pos h2 this]
        · omega
      obtain ⟨j, hj⟩ : ∃ j : Nat, k + 1 = place F (n * 2 ^ k) + j := ⟨(k + 1 - place F (n * 2 ^ k)).toNat, by omega⟩
      obtain ⟨c, hc⟩ : ∃ c : Int, n = 2 * c := by
        have : (2 : Int) ∣ |n| := by rw [htop]; exact dvd_pow_self 2 (by omega)
        exact ((dvd_abs 2 n).mp this)
      refine ⟨c * 2 ^ j, ?_⟩
      generalize hP : place F (n * 2 ^ k) = P at *
      have : (2 : Rat) ^ k * 2 = 2 ^ P * 2 ^ j := by
        rw [← zpow_natCast, ← zpow_add₀ (by norm_num), ← hj, zpow_add_one₀ (by norm_num)]
      rw [hc]; push_cast; linear_combination (c : Rat) * this
    · have hpl : place F (n * 2 ^ k) ≤ k := by
        apply place_le_of_lt F hq _ hk
        rw [abs_mul, abs_of_pos (two_pos k), ← Int.cast_abs, zpow_add₀ (by norm_num), zpow_natCast, mul_comm]
        have : |n| < 2 ^ F.digits := lt_of_le_of_ne hn htop
        have h3 : ((|n| : Int) : Rat) < 2 ^ F.digits := by exact_mod_cast this
        exact mul_lt_mul_of_pos_left h3 (two_pos k)
      obtain ⟨j, hj⟩ : ∃ j : Nat, k = place F (n * 2 ^ k) + j := ⟨(k - place F (n * 2 ^ k)).toNat, by omega⟩
      refine ⟨n * 2 ^ j, ?_⟩
      generalize hP : place F (n * 2 ^ k) = P at *
      have : (2 : Rat) ^ k = 2 ^ P * 2 ^ j := by
        rw [← zpow_natCast, ← zpow_add₀ (by norm_num), ← hj]
      push_cast; linear_combination (n : Rat) * this
  obtain ⟨m, hm⟩ := key
  unfold rnd
  generalize hP : place F (n * 2 ^ k) = P at *
  have hp := two_pos P
  have : (n : Rat) * 2 ^ k / 2 ^ P = m := by rw [hm]; field_simp
  rw [this, nearest_int, hm]

theorem place_mono (F : Fmt) {a b : Rat} (ha : 0 < a) (h : a ≤ b) : place F a ≤ place F b := by
  unfold place
  have : Int.log 2 |a| ≤ Int.log 2 |b| :=
    Int.log_mono_right (abs_pos.mpr ha.ne') (by rw [abs_of_pos ha, abs_of_pos (lt_of_lt_of_le ha h)]; exact h)
  omega

theorem rnd_mono_pos (F : Fmt) (hd : 1 ≤ F.digits) {a b : Rat} (ha : 0 < a) (h : a ≤ b) : rnd F a ≤ rnd F b := by
  have hb : 0 < b := lt_of_lt_of_le ha h
  rcases (place_mono F ha h).lt_or_eq with hlt | heq
  · -- a power of two lies between the two
    have hlog : place F b = Int.log 2 |b| - (F.digits - 1) := by
      unfold place at hlt ⊢; omega
    set e := Int.log 2 |b| with he
    have hbe : (2 : Rat) ^ e ≤ b := by
      have := Int.zpow_log_le_self (b := 2) (r := |b|) (by norm_num) (abs_pos.mpr hb.ne')
      rw [abs_of_pos hb] at this; rw [he, abs_of_pos hb]; exact_mod_cast this
    have hae : a < 2 ^ e := by
      have h1 := Int.lt_zpow_succ_log_self (b := 2) (by norm_num) |a|
      have h2 : Int.log 2 |a| + 1 ≤ e := by unfold place at hlt; omega
      rw [abs_of_pos ha] at h1 h2
      calc a < 2 ^ (Int.log 2 a + 1) := by exact_mod_cast h1
        _ ≤ 2 ^ e := zpow_le_zpow_right₀ (by norm_num) h2
    have hA : rnd F a ≤ 2 ^ e := by
      have hple : place F a ≤ e := by unfold place at hlt ⊢; omega
      obtain ⟨j, hj⟩ : ∃ j : Nat, e = place F a + j := ⟨(e - place F a).toNat, by omega⟩
      have hp := two_pos (place F a)
      have : nearest (a / 2 ^ place F a) ≤ 2 ^ j := by
        rw [← nearest_int (2 ^ j)]
        apply nearest_mono
        rw [div_le_iff₀ hp]
        push_cast
        rw [← zpow_natCast, ← zpow_add₀ (by norm_num), add_comm, ← hj]
        exact hae.le
      have h3 : (nearest (a / 2 ^ place F a) : Rat) ≤ 2 ^ j := by exact_mod_cast this
      calc rnd F a ≤ 2 ^ j * 2 ^ place F a := by unfold rnd; exact mul_le_mul_of_nonneg_right h3 hp.le
        _ = 2 ^ e := by rw [← zpow_natCast, ← zpow_add₀ (by norm_num), add_comm, ← hj]
    have hB : 2 ^ e ≤ rnd F b := by
      have hple : place F b ≤ e := by rw [hlog]; omega
      obtain ⟨j, hj⟩ : ∃ j : Nat, e = place F b + j := ⟨(e - place F b).toNat, by omega⟩
      have hp := two_pos (place F b)
      have : 2 ^ j ≤ nearest (b / 2 ^ place F b) := by
        rw [← nearest_int (2 ^ j)]
        apply nearest_mono
        rw [le_div_iff₀ hp]
        push_cast
        rw [← zpow_natCast, ← zpow_add₀ (by norm_num), add_comm, ← hj]
        exact hbe
      have h3 : (2 : Rat) ^ j ≤ nearest (b / 2 ^ place F b) := by exact_mod_cast this
      calc (2 : Rat) ^ e = 2 ^ j * 2 ^ place F b := by rw [← zpow_natCast, ← zpow_add₀ (by norm_num), add_comm, ← hj]
        _ ≤ rnd F b := by unfold rnd; exact mul_le_mul_of_nonneg_right h3 hp.le
    exact hA.trans hB
  · unfold rnd
    rw [heq]
    have hp := two_pos (place F b)
    have := nearest_mono (div_le_div_of_nonneg_right h hp.le)
    have h3 : (nearest (a / 2 ^ place F b) : Rat) ≤ nearest (b / 2 ^ place F b) := by exact_mod_cast this
    exact mul_le_mul_of_nonneg_right h3 hp.le

theorem rnd_nonneg (F : Fmt) {q : Rat} (h : 0 ≤ q) : 0 ≤ rnd F q := by
  have hp := two_pos (place F q)
  have : nearest 0 ≤ nearest (q / 2 ^ place F q) := nearest_mono (by positivity)
  have h0 : nearest 0 = 0 := nearest_int 0
  rw [h0] at this
  have h3 : (0 : Rat) ≤ nearest (q / 2 ^ place F q) := by exact_mod_cast this
  unfold rnd
  exact mul_nonneg h3 hp.le

/-- Rounding is monotone. -/
theorem rnd_mono (F : Fmt) (hd : 1 ≤ F.digits) {a b : Rat} (h : a ≤ b) : rnd F a ≤ rnd F b := by
  rcases lt_trichotomy a 0 with ha | ha | ha
  · rcases lt_or_ge b 0 with hb | hb
    · have := rnd_mono_pos F hd (a := -b) (b := -a) (by linarith) (by linarith)
      rw [rnd_neg, rnd_neg] at this; linarith
    · have h1 : 0 ≤ rnd F (-a) := rnd_nonneg F (by linarith)
      rw [rnd_neg] at h1
      have := rnd_nonneg F hb
      linarith
  · subst ha; rw [rnd_zero]; exact rnd_nonneg F h
  · exact rnd_mono_pos F hd ha h

theorem fits_nat {F : Fmt} {n : Nat} (h : n ≤ 2 ^ F.digits) (hl : F.low ≤ 0) : Fits F n :=
  ⟨n, 0, by simp, by simpa using (by exact_mod_cast h), hl⟩

/-- The relative error of rounding. -/
theorem rnd_rel (F : Fmt) (q : Rat) :
    |rnd F q - q| ≤ |q| * (2 ^ F.digits)⁻¹ + 2 ^ F.low / 2 := by
  by_cases hz : q = 0
  · subst hz; rw [rnd_zero]; have := two_pos F.low; simp; linarith
  have herr := rnd_err F q
  have hpos : 0 < |q| := abs_pos.mpr hz
  have hlow := two_pos F.low
  have hD : (0 : Rat) < 2 ^ F.digits := by positivity
  rcases le_total (Int.log 2 |q| - ((F.digits : Int) - 1)) F.low with h | h
  · have : place F q = F.low := by unfold place; exact max_eq_right h
    rw [this] at herr
    have : 0 ≤ |q| * (2 ^ F.digits)⁻¹ := by positivity
    linarith
  · have hp : place F q = Int.log 2 |q| - ((F.digits : Int) - 1) := by unfold place; exact max_eq_left h
    have h1 : (2 : Rat) ^ Int.log 2 |q| ≤ |q| := by
      exact_mod_cast Int.zpow_log_le_self (b := 2) (r := |q|) (by norm_num) hpos
    have h2 : (2 : Rat) ^ place F q / 2 = 2 ^ Int.log 2 |q| * (2 ^ F.digits)⁻¹ := by
      rw [hp, show Int.log 2 |q| - ((F.digits : Int) - 1) = Int.log 2 |q| + 1 - (F.digits : Int) by ring,
        zpow_sub₀ (by norm_num), zpow_add_one₀ (by norm_num), zpow_natCast]
      field_simp
    rw [h2] at herr
    have : (2 : Rat) ^ Int.log 2 |q| * (2 ^ F.digits)⁻¹ ≤ |q| * (2 ^ F.digits)⁻¹ :=
      mul_le_mul_of_nonneg_right h1 (by positivity)
    have : (0 : Rat) ≤ 2 ^ F.low / 2 := by positivity
    linarith

end PptRs.Fl

namespace PptRs.Fl

/-- What the lemmas below need of a format. -/
structure Good (F : Fmt) : Prop where
  digits : 1 ≤ F.digits
  low : F.low ≤ -1
  high : (F.digits : Int) < F.high

theorem good64 : Good b64 := ⟨by decide, by decide, by decide⟩

theorem good32 : Good b32 := ⟨by decide, by decide, by decide⟩

theorem small_lt_high {F : Fmt} (g : Good F) {q : Rat} (h : q ≤ 2 ^ F.digits) : q < 2 ^ F.high := by
  calc q ≤ 2 ^ F.digits := h
    _ = 2 ^ (F.digits : Int) := (zpow_natCast 2 F.digits).symm
    _ < 2 ^ F.high := zpow_lt_zpow_right₀ (by norm_num) g.high

theorem mk_of_small {F : Fmt} (g : Good F) {q : Rat} (h0 : 0 ≤ q) (h : q ≤ 2 ^ F.digits) :
    mk F q = .fin (rnd F q) := by
  have hr : rnd F q ≤ 2 ^ F.digits := by
    rw [← rnd_of_fits g.digits (q := 2 ^ F.digits) ⟨1, F.digits, by simp, by simp; exact one_le_pow₀ (by norm_num), by have := g.low; omega⟩]
    exact rnd_mono F g.digits h
  unfold mk
  rw [if_neg]
  rw [abs_of_nonneg (rnd_nonneg F h0), not_le]
  exact small_lt_high g hr

theorem rnd_nat {F : Fmt} (g : Good F) {n : Nat} (h : n ≤ 2 ^ F.digits) : rnd F n = n :=
  rnd_of_fits g.digits (fits_nat h (by have := g.low; omega))

theorem mk_nat {F : Fmt} (g : Good F) {n : Nat} (h : n ≤ 2 ^ F.digits) : mk F n = .fin n := by
  rw [mk_of_small g (by positivity) (by exact_mod_cast h), rnd_nat g h]

theorem fits_half {F : Fmt} (g : Good F) {n : Nat} (h : 2 * n + 1 ≤ 2 ^ F.digits) : Fits F (n + 1 / 2) := by
  refine ⟨2 * n + 1, -1, ?_, ?_, g.low⟩
  · push_cast; rw [zpow_neg_one]; ring
  · rw [abs_of_nonneg (by positivity)]; exact_mod_cast h

theorem toU_ge {F : Fmt} (g : Good F) {top n : Nat} {x : Rat} (ht : n ≤ top) (hn : n ≤ 2 ^ F.digits)
    (hx : n ≤ x) : n ≤ toU top (mk F x) := by
  have h0 : 0 ≤ x := le_trans (by positivity) hx
  unfold mk
  split
  · simp only [toU, decide_eq_true_eq, not_lt.mpr h0, if_false]; exact ht
  · have : (n : Rat) ≤ rnd F x := by rw [← rnd_nat g hn]; exact rnd_mono F g.digits hx
    have h1 : (n : Int) ≤ ⌊rnd F x⌋ := Int.le_floor.mpr (by exact_mod_cast this)
    simp only [toU]
    omega

theorem toU_le {F : Fmt} (g : Good F) {top n : Nat} {x : Rat} (hn : 2 * n + 1 ≤ 2 ^ F.digits)
    (h0 : 0 ≤ x) (hx : x ≤ n + 1 / 2) : toU top (mk F x) ≤ n := by
  have h2 : (2 * n + 1 : Rat) ≤ 2 ^ F.digits := by exact_mod_cast hn
  have hn0 : (0 : Rat) ≤ n := by positivity
  rw [mk_of_small g h0 (by linarith)]
  have : rnd F x ≤ n + 1 / 2 := by
    rw [← rnd_of_fits g.digits (fits_half g hn)]; exact rnd_mono F g.digits hx
  have h1 : ⌊rnd F x⌋ < (n : Int) + 1 := Int.floor_lt.mpr (by push_cast; linarith)
  simp only [toU]
  omega

/-- Towards zero is less than one away from the exact value. -/
theorem toU_close {F : Fmt} (g : Good F) {top : Nat} {x : Rat} (h0 : 0 ≤ x) (ht : x ≤ top)
    (hn : 2 * top + 1 ≤ 2 ^ F.digits) : |(toU top (mk F x) : Rat) - x| < 1 := by
  have hf0 : 0 ≤ ⌊x⌋ := Int.floor_nonneg.mpr h0
  have hc0 : 0 ≤ ⌈x⌉ := Int.ceil_nonneg h0
  have hct : ⌈x⌉ ≤ (top : Int) := Int.ceil_le.mpr (by exact_mod_cast ht)
  have hfc := Int.floor_le_ceil x
  have e1 : ((⌊x⌋.toNat : Nat) : Rat) = ⌊x⌋ := by exact_mod_cast Int.toNat_of_nonneg hf0
  have e2 : ((⌈x⌉.toNat : Nat) : Rat) = ⌈x⌉ := by exact_mod_cast Int.toNat_of_nonneg hc0
  have lo : ⌊x⌋.toNat ≤ toU top (mk F x) :=
    toU_ge g (by omega) (by omega) (by rw [e1]; exact Int.floor_le x)
  have hi : toU top (mk F x) ≤ ⌈x⌉.toNat :=
    toU_le g (by omega) h0 (by rw [e2]; have := Int.le_ceil x; linarith)
  have lo' : (⌊x⌋ : Rat) ≤ toU top (mk F x) := by rw [← e1]; exact_mod_cast lo
  have hi' : (toU top (mk F x) : Rat) ≤ ⌈x⌉ := by rw [← e2]; exact_mod_cast hi
  rw [abs_lt]
  have := Int.lt_floor_add_one x
  have := Int.ceil_lt_add_one x
  constructor <;> linarith

/-- Near a whole number, the result is this number or one less. -/
theorem toU_near {F : Fmt} (g : Good F) {top n : Nat} {x : Rat} (h0 : 0 ≤ x) (ht : n ≤ top)
    (hn : 2 * n + 1 ≤ 2 ^ F.digits) (hx : |x - n| ≤ 1 / 2) :
    (toU top (mk F x) = n ∨ toU top (mk F x) + 1 = n) ∧ (n ≤ x → toU top (mk F x) = n) := by
  rw [abs_le] at hx
  have hi : toU top (mk F x) ≤ n := toU_le g hn h0 (by linarith)
  constructor
  · rcases n with _ | m
    · omega
    · have lo : m ≤ toU top (mk F x) := toU_ge g (by omega) (by omega) (by push_cast at hx; linarith)
      omega
  · intro h
    have lo : n ≤ toU top (mk F x) := toU_ge g ht (by omega) h
    omega

theorem toU_mk_mono {F : Fmt} (g : Good F) {top : Nat} {x y : Rat} (h : x ≤ y) :
    toU top (mk F x) ≤ toU top (mk F y) := by
  have hm := rnd_mono F g.digits h
  have hh : (0 : Rat) < 2 ^ F.high := two_pos _
  unfold mk
  by_cases hx : 2 ^ F.high ≤ |rnd F x| <;> by_cases hy : 2 ^ F.high ≤ |rnd F y|
  · rw [if_pos hx, if_pos hy]
    simp only [toU, decide_eq_true_eq]
    split <;> split <;> first | omega | (exfalso; linarith)
  · rw [if_pos hx, if_neg hy]
    simp only [toU, decide_eq_true_eq]
    split
    · omega
    · exfalso
      have h0 : 0 ≤ rnd F x := rnd_nonneg F (by linarith)
      rw [abs_of_nonneg h0] at hx
      exact hy (hx.trans (hm.trans (le_abs_self _)))
  · rw [if_neg hx, if_pos hy]
    simp only [toU, decide_eq_true_eq]
    split
    · exfalso
      have h0 : 0 ≤ rnd F (-y) := rnd_nonneg F (by linarith)
      rw [rnd_neg] at h0
      rw [abs_of_nonpos (by linarith)] at hy
      apply hx
      rw [abs_of_nonpos (by linarith)]
      linarith
    · omega
  · rw [if_neg hx, if_neg hy]
    simp only [toU]
    have := Int.floor_le_floor hm
    omega

end PptRs.Fl

namespace PptRs.Fl

theorem toU_top (top : Nat) (v : Val) : toU top v ≤ top := by
  cases v with
  | nan => simp [toU]
  | inf s => cases s <;> simp [toU]
  | fin q => simp only [toU]; omega

theorem rnd64_rel (q : Rat) : |rnd b64 q - q| ≤ |q| / 2 ^ 53 + 1 / 2 ^ 100 := by
  have h := rnd_rel b64 q
  have h1 : (2 : Rat) ^ b64.low / 2 ≤ 1 / 2 ^ 100 := by
    have : (2 : Rat) ^ b64.low ≤ 2 ^ (-100 : Int) := zpow_le_zpow_right₀ (by norm_num) (by decide)
    have e : (2 : Rat) ^ (-100 : Int) = 1 / 2 ^ 100 := by
      rw [zpow_neg, one_div]; norm_cast
    rw [e] at this
    have hp := two_pos b64.low
    linarith
  have h2 : |q| * (2 ^ b64.digits)⁻¹ = |q| / 2 ^ 53 := by rw [div_eq_mul_inv]; rfl
  rw [h2] at h
  linarith

/-- The result for a value close to `y`. -/
theorem toU_close_of {F : Fmt} (g : Good F) {top : Nat} {x y e : Rat} (h0 : 0 ≤ x) (hy : y ≤ top)
    (hn : 2 * top + 1 ≤ 2 ^ F.digits) (he : e ≤ 1 / 2) (hxy : |x - y| ≤ e) :
    |(toU top (mk F x) : Rat) - y| < 1 + e := by
  have he0 : 0 ≤ e := le_trans (abs_nonneg _) hxy
  rw [abs_le] at hxy
  rcases le_total x top with hx | hx
  · have := toU_close g h0 hx hn
    rw [abs_lt] at this ⊢
    constructor <;> linarith
  · have lo : top ≤ toU top (mk F x) := toU_ge g le_rfl (by omega) hx
    have hi := toU_top top (mk F x)
    have : toU top (mk F x) = top := by omega
    rw [this, abs_lt]
    constructor <;> linarith

theorem fits_int {F : Fmt} {n : Int} (h : |n| ≤ 2 ^ F.digits) (hl : F.low ≤ 0) : Fits F n :=
  ⟨n, 0, by simp, h, hl⟩

theorem mk_of_abs {F : Fmt} (g : Good F) {q : Rat} (h : |q| ≤ 2 ^ F.digits) : mk F q = .fin (rnd F q) := by
  have hr : |rnd F q| ≤ 2 ^ F.digits := by
    have hp : rnd F (2 ^ F.digits) = 2 ^ F.digits :=
      rnd_of_fits g.digits ⟨1, F.digits, by simp, by simp; exact one_le_pow₀ (by norm_num), by have := g.low; omega⟩
    rw [abs_le] at h ⊢
    have h1 := rnd_mono F g.digits h.1
    have h2 := rnd_mono F g.digits h.2
    rw [rnd_neg] at h1
    rw [hp] at h1 h2
    exact ⟨h1, h2⟩
  unfold mk
  rw [if_neg (not_le.mpr (small_lt_high g hr))]

theorem floor_rnd_close {F : Fmt} (g : Good F) {x : Rat} (h0 : 0 ≤ x) (h : x ≤ 2 ^ F.digits) :
    |(⌊rnd F x⌋ : Rat) - x| < 1 := by
  have lo : ((⌊x⌋ : Int) : Rat) ≤ rnd F x := by
    have hb : |(⌊x⌋ : Int)| ≤ 2 ^ F.digits := by
      rw [abs_of_nonneg (Int.floor_nonneg.mpr h0)]
      have := (Int.floor_le x).trans h
      exact_mod_cast this
    rw [← rnd_of_fits g.digits (fits_int hb (by have := g.low; omega))]
    exact rnd_mono F g.digits (Int.floor_le x)
  have hi : rnd F x ≤ ((⌈x⌉ : Int) : Rat) := by
    have hb : |(⌈x⌉ : Int)| ≤ 2 ^ F.digits := by
      rw [abs_of_nonneg (Int.ceil_nonneg h0)]
      exact Int.ceil_le.mpr (by push_cast; exact h)
    rw [← rnd_of_fits g.digits (fits_int hb (by have := g.low; omega))]
    exact rnd_mono F g.digits (Int.le_ceil x)
  have h1 : ⌊x⌋ ≤ ⌊rnd F x⌋ := Int.le_floor.mpr lo
  have h2 := (Int.floor_le (rnd F x)).trans hi
  have h3 : (⌊x⌋ : Rat) ≤ ⌊rnd F x⌋ := by exact_mod_cast h1
  have := Int.lt_floor_add_one x
  have := Int.ceil_lt_add_one x
  rw [abs_lt]
  constructor <;> linarith

theorem trunc_rnd_close {F : Fmt} (g : Good F) {x : Rat} (h : |x| ≤ 2 ^ F.digits) :
    |(trunc (rnd F x) : Rat) - x| < 1 := by
  rcases le_total 0 x with hx | hx
  · have h0 := rnd_nonneg F hx
    rw [abs_of_nonneg hx] at h
    unfold trunc
    rw [if_neg (not_lt.mpr h0)]
    exact floor_rnd_close g hx h
  · have h0 := rnd_nonneg F (q := -x) (by linarith)
    rw [abs_of_nonpos hx] at h
    have := floor_rnd_close g (x := -x) (by linarith) h
    rw [rnd_neg] at h0 this
    unfold trunc
    split
    · push_cast
      rw [abs_lt] at this ⊢
      constructor <;> linarith
    · have hz : rnd F x = 0 := by linarith
      rw [hz] at this ⊢
      simp only [neg_zero, Int.floor_zero, Int.cast_zero] at this ⊢
      rw [abs_lt] at this ⊢
      constructor <;> linarith

theorem trunc_int (n : Int) : trunc n = n := by
  unfold trunc
  split
  · rw [← Int.cast_neg, Int.floor_intCast]; omega
  · exact Int.floor_intCast n

end PptRs.Fl
