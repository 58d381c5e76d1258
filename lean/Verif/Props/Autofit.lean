import Verif.Model.Autofit
import Verif.Lemmas.Bright
import Verif.Props.Drawing

/-!
C133: the size of the text in a shape follows the size of the shape, and its colour the fill.
-/

namespace PptRs.Props

open PptRs PptRs.Spec PptRs.Fl PptRs.Draw PptRs.Autofit

/-! ### The usable points of a side -/

/-- What `usable` computes. -/
def usableQ (emu : Nat) : Rat :=
  max (rnd b64 (rnd b64 (rnd b64 ((emu : Rat) / 914400) * 72) - rnd b64 (144 / 10))) 10

/-- The exact number of points that are left of a side of a shape. -/
def room (emu : Nat) : Rat := max ((emu : Rat) / 12700 - 144 / 10) 10

theorem lit64_nat (n : Nat) (h : n ≤ 2 ^ 53) : lit64 n = .fin n := mk_nat good64 h

theorem usable_steps (emu : Nat) (h : emu ≤ maxU32) :
    0 ≤ rnd b64 ((emu : Rat) / 914400) ∧ rnd b64 ((emu : Rat) / 914400) ≤ 4700 ∧
    0 ≤ rnd b64 (rnd b64 ((emu : Rat) / 914400) * 72) ∧ rnd b64 (rnd b64 ((emu : Rat) / 914400) * 72) ≤ 340000 ∧
    14 ≤ rnd b64 (144 / 10) ∧ rnd b64 (144 / 10) ≤ 15 := by
  have he : (emu : Rat) ≤ 4294967295 := by exact_mod_cast h
  have h0 : (0 : Rat) ≤ emu / 914400 := by positivity
  have h1 : (emu : Rat) / 914400 ≤ (4700 : Nat) := by rw [div_le_iff₀ (by norm_num)]; push_cast; linarith
  have a1 := rnd_nonneg b64 h0
  have a2 := rnd64_le (n := 4700) (by norm_num) h1
  have h2 : 0 ≤ rnd b64 ((emu : Rat) / 914400) * 72 := by positivity
  refine ⟨a1, by exact_mod_cast a2, rnd_nonneg _ h2, ?_, ?_, ?_⟩
  · have := rnd64_le (q := rnd b64 ((emu : Rat) / 914400) * 72) (n := 340000) (by norm_num) (by push_cast at a2 ⊢; linarith)
    exact_mod_cast this
  · exact_mod_cast rnd64_ge (q := 144 / 10) (n := 14) (by norm_num) (by norm_num)
  · exact_mod_cast rnd64_le (q := 144 / 10) (n := 15) (by norm_num) (by norm_num)

theorem usable_eq (emu : Nat) (h : emu ≤ maxU32) : usable emu = .fin (usableQ emu) := by
  obtain ⟨a1, a2, b1, b2, c1, c2⟩ := usable_steps emu h
  have l1 : lit64 914400 = .fin 914400 := by decide +kernel
  have l2 : lit64 72 = .fin 72 := by decide +kernel
  have l3 : lit64 (144 / 10) = .fin (rnd b64 (144 / 10)) := mk64 (by norm_num) (by norm_num)
  have l4 : lit64 10 = .fin 10 := by decide +kernel
  have he : (emu : Rat) ≤ 4294967295 := by exact_mod_cast h
  have e1 : div b64 (mk b64 emu) (.fin 914400) = .fin (rnd b64 ((emu : Rat) / 914400)) := by
    rw [mk_nat good64 (le_trans h (by decide))]
    simp only [div]
    rw [if_neg (by norm_num), mk64 (by positivity) (by rw [div_le_iff₀ (by norm_num)]; linarith)]
  have e2 : mul b64 (.fin (rnd b64 ((emu : Rat) / 914400))) (.fin 72) = .fin (rnd b64 (rnd b64 ((emu : Rat) / 914400) * 72)) := by
    simp only [mul]
    rw [mk64 (by positivity) (by linarith)]
  have e3 : sub b64 (.fin (rnd b64 (rnd b64 ((emu : Rat) / 914400) * 72))) (.fin (rnd b64 (144 / 10)))
      = .fin (rnd b64 (rnd b64 (rnd b64 ((emu : Rat) / 914400) * 72) - rnd b64 (144 / 10))) := by
    simp only [sub, neg, add, ← sub_eq_add_neg]
    refine mk_of_abs good64 ?_
    have : ((2 : Rat) ^ b64.digits) = 2 ^ 53 := rfl
    rw [this, abs_le]
    constructor <;> linarith
  rw [usable, l1, l2, l3, l4, e1, e2, e3]
  simp only [maxv, lt, usableQ, decide_eq_true_eq]
  split
  · rename_i hlt; rw [max_eq_right hlt.le]
  · rename_i hlt; rw [max_eq_left (not_lt.mp hlt)]

theorem usableQ_range (emu : Nat) (h : emu ≤ maxU32) : 10 ≤ usableQ emu ∧ usableQ emu ≤ 340000 := by
  obtain ⟨a1, a2, b1, b2, c1, c2⟩ := usable_steps emu h
  refine ⟨le_max_right _ _, max_le ?_ (by norm_num)⟩
  exact_mod_cast rnd64_le (q := rnd b64 (rnd b64 ((emu : Rat) / 914400) * 72) - rnd b64 (144 / 10)) (n := 340000)
    (by norm_num) (by push_cast; linarith)

theorem usableQ_mono {a b : Nat} (h : a ≤ b) : usableQ a ≤ usableQ b := by
  have hr : (a : Rat) / 914400 ≤ b / 914400 := div_le_div_of_nonneg_right (by exact_mod_cast h) (by norm_num)
  have m := fun {x y : Rat} (h : x ≤ y) => rnd_mono b64 good64.digits h
  have h1 := m hr
  have h2 := m (mul_le_mul_of_nonneg_right h1 (by norm_num : (0 : Rat) ≤ 72))
  exact max_le_max (m (by linarith)) le_rfl

/-- The computed room is the exact one up to a tiny part. -/
theorem usableQ_room (emu : Nat) (h : emu ≤ maxU32) : usableQ emu ≤ room emu * (1 + 1 / 10 ^ 12) := by
  obtain ⟨a1, a2, b1, b2, c1, c2⟩ := usable_steps emu h
  have hW0 : (0 : Rat) ≤ emu / 914400 := by positivity
  have hU : (10 : Rat) ≤ room emu := le_max_right _ _
  have hU2 : (emu : Rat) / 12700 - 144 / 10 ≤ room emu := le_max_left _ _
  have e : (emu : Rat) / 12700 = emu / 914400 * 72 := by ring
  rw [e] at hU2
  set W := (emu : Rat) / 914400 with hW
  have s1 := rnd64_bounds hW0
  set x := rnd b64 W
  have s2 := rnd64_bounds (q := x * 72) (by positivity)
  set y := rnd b64 (x * 72)
  have s3 := rnd64_bounds (q := 144 / 10) (by norm_num)
  set z := rnd b64 (144 / 10)
  refine max_le ?_ (by linarith)
  have n1 : (1 : Rat) / 2 ^ 100 ≤ 1 / 10 ^ 30 := by norm_num
  have n2 : ∀ q : Rat, 0 ≤ q → q / 2 ^ 53 ≤ q / 10 ^ 15 := fun q hq =>
    div_le_div_of_nonneg_left hq (by norm_num) (by norm_num)
  have m1 := n2 W hW0
  have m2 := n2 (x * 72) (by positivity)
  have m3 := n2 (144 / 10) (by norm_num)
  rcases le_total 0 (y - z) with hd | hd
  · show rnd b64 (y - z) ≤ _
    have s4 := rnd64_bounds hd
    have m4 := n2 (y - z) hd
    linarith [s1.2, s2.2, s3.1, s4.2]
  · show rnd b64 (y - z) ≤ _
    have : rnd b64 (y - z) ≤ 0 := by
      have := rnd_mono b64 good64.digits hd
      rwa [rnd_zero] at this
    linarith

/-! ### Counting lines and characters -/

theorem estimateLine_eq (k : Nat) (hk : k < 2 ^ 40) (L : Rat) (m : Nat) (h1 : (k : Rat) ≤ L) (h2 : L ≤ 2 * k)
    (hm : m ≤ 2 ^ 50) (l : Str) (hl : l.length ≤ 2 ^ 50) :
    ∃ (L' : Rat) (m' : Nat), estimateLine (.fin L, .fin m) l = (.fin L', .fin m') ∧
      ((k + 1 : Nat) : Rat) ≤ L' ∧ L' ≤ 2 * (k + 1 : Nat) ∧ m' ≤ 2 ^ 50 ∧ m ≤ m' ∧
      (l.all isWs = false → l.length ≤ m') := by
  have hk' : (k : Rat) < 1099511627776 := by exact_mod_cast hk
  have hk0 : (0 : Rat) ≤ k := by positivity
  have step : ∀ i : Rat, 1 ≤ i → i ≤ 2 → ∃ L', add b64 (.fin L) (.fin i) = .fin L' ∧
      ((k + 1 : Nat) : Rat) ≤ L' ∧ L' ≤ 2 * (k + 1 : Nat) := by
    intro i hi1 hi2
    refine ⟨rnd b64 (L + i), ?_, rnd64_ge (by omega) (by push_cast; linarith), ?_⟩
    · simp only [add]
      exact mk64 (by linarith) (by norm_num; linarith)
    · have := rnd64_le (q := L + i) (n := 2 * (k + 1)) (by omega) (by push_cast; linarith)
      exact_mod_cast this
  have i1 : lit64 1 = .fin 1 := by decide +kernel
  have i2 : lit64 (3 / 2) = .fin (3 / 2) := by decide +kernel
  obtain ⟨j, i3, hj1, hj2⟩ : ∃ j, lit64 (12 / 10) = .fin j ∧ 1 ≤ j ∧ j ≤ 2 :=
    ⟨_, mk64 (by norm_num) (by norm_num), by exact_mod_cast rnd64_ge (q := 12 / 10) (n := 1) (by norm_num) (by norm_num),
      by exact_mod_cast rnd64_le (q := 12 / 10) (n := 2) (by norm_num) (by norm_num)⟩
  have hcount : mk b64 (l.length : Rat) = .fin l.length := mk_nat good64 (le_trans hl (by decide))
  have hmax : maxv (.fin (m : Rat)) (.fin (l.length : Rat)) = .fin ((max m l.length : Nat) : Rat) := by
    simp only [maxv, lt, decide_eq_true_eq]
    split
    · rename_i h
      have : m < l.length := by exact_mod_cast h
      rw [max_eq_right this.le]
    · rename_i h
      have : l.length ≤ m := by
        have := not_lt.mp h
        exact_mod_cast this
      rw [max_eq_left this]
  unfold estimateLine
  by_cases he : l = []
  · rw [if_pos he, i1]
    obtain ⟨L', e, p1, p2⟩ := step 1 (by norm_num) (by norm_num)
    exact ⟨L', m, by rw [e], p1, p2, hm, le_rfl, fun hw => by rw [he] at hw; simp at hw⟩
  rw [if_neg he]
  by_cases hw : l.all isWs = true
  · rw [if_pos hw, i1]
    obtain ⟨L', e, p1, p2⟩ := step 1 (by norm_num) (by norm_num)
    exact ⟨L', m, by rw [e], p1, p2, hm, le_rfl, fun hw' => by rw [hw] at hw'; cases hw'⟩
  rw [if_neg hw]
  simp only [hcount, hmax, i1, i2, i3]
  have hcap : max m l.length ≤ 2 ^ 50 := max_le hm hl
  split
  · obtain ⟨L', e, p1, p2⟩ := step (3 / 2) (by norm_num) (by norm_num)
    exact ⟨L', _, by rw [e], p1, p2, hcap, le_max_left _ _, fun _ => le_max_right _ _⟩
  · split
    · obtain ⟨L', e, p1, p2⟩ := step j hj1 hj2
      exact ⟨L', _, by rw [e], p1, p2, hcap, le_max_left _ _, fun _ => le_max_right _ _⟩
    · obtain ⟨L', e, p1, p2⟩ := step 1 (by norm_num) (by norm_num)
      exact ⟨L', _, by rw [e], p1, p2, hcap, le_max_left _ _, fun _ => le_max_right _ _⟩

theorem estimate_fold (lines : List Str) : ∀ (k : Nat) (L : Rat) (m : Nat), k + lines.length ≤ 2 ^ 40 →
    (k : Rat) ≤ L → L ≤ 2 * k → m ≤ 2 ^ 50 → (∀ l ∈ lines, l.length ≤ 2 ^ 50) →
    ∃ (L' : Rat) (m' : Nat), lines.foldl estimateLine (.fin L, .fin m) = (.fin L', .fin m') ∧
      ((k + lines.length : Nat) : Rat) ≤ L' ∧ L' ≤ 2 * (k + lines.length : Nat) ∧ m' ≤ 2 ^ 50 ∧ m ≤ m' ∧
      ∀ l ∈ lines, l.all isWs = false → l.length ≤ m' := by
  induction lines with
  | nil =>
    intro k L m _ h1 h2 hm _
    exact ⟨L, m, rfl, h1, h2, hm, le_rfl, fun l hl => by cases hl⟩
  | cons l ls ih =>
    intro k L m hk h1 h2 hm hl
    rw [List.length_cons] at hk
    obtain ⟨L1, m1, e, p1, p2, p3, p4, p5⟩ := estimateLine_eq k (by omega) L m h1 h2 hm l (hl l (.head _))
    obtain ⟨L2, m2, e2, q1, q2, q3, q4, q5⟩ := ih (k + 1) L1 m1 (by omega) p1 p2 p3 fun x hx => hl x (.tail _ hx)
    have ek : k + (l :: ls).length = k + 1 + ls.length := by rw [List.length_cons]; omega
    refine ⟨L2, m2, by rw [List.foldl_cons, e, e2], by rw [ek]; exact q1, by rw [ek]; exact q2, q3, p4.trans q4, ?_⟩
    intro x hx hw
    rcases List.mem_cons.mp hx with rfl | hx
    · exact (p5 hw).trans q4
    · exact q5 x hx hw

/-- A text that is not beyond all measure. -/
structure Measured (t : Str) : Prop where
  lines : (strLines t).length ≤ 2 ^ 40
  chars : ∀ l ∈ strLines t, l.length ≤ 2 ^ 50

theorem estimate_eq (t : Str) (h : Measured t) :
    ∃ (L : Rat) (m : Nat), estimate (strLines t) = (.fin L, .fin m) ∧
      ((strLines t).length : Rat) ≤ L ∧ L ≤ 2 * (strLines t).length ∧ m ≤ 2 ^ 50 ∧
      ∀ l ∈ strLines t, l.all isWs = false → l.length ≤ m := by
  have z : lit64 0 = .fin ((0 : Nat) : Rat) := lit64_nat 0 (by decide)
  obtain ⟨L, m, e, p1, p2, p3, _, p5⟩ := estimate_fold (strLines t) 0 ((0 : Nat) : Rat) 0 (by simpa using h.lines)
    le_rfl (by simp) (by decide) h.chars
  simp only [Nat.zero_add] at p1 p2
  exact ⟨L, m, by rw [estimate, z, e], p1, p2, p3, p5⟩

/-! ### The size -/

/-- The size that fits the width. -/
def fitWidth (m width : Nat) : Rat := if m = 0 then 72 else rnd b64 (usableQ width / (m * (1 / 2)))

/-- The size that fits the height. -/
def fitHeight (L : Rat) (height : Nat) : Rat :=
  if 0 < L then rnd b64 (usableQ height / rnd b64 (L * rnd b64 (115 / 100))) else 72

theorem ratio_bounds : 1 ≤ rnd b64 (115 / 100) ∧ rnd b64 (115 / 100) ≤ 2 :=
  ⟨by exact_mod_cast rnd64_ge (q := 115 / 100) (n := 1) (by norm_num) (by norm_num),
    by exact_mod_cast rnd64_le (q := 115 / 100) (n := 2) (by norm_num) (by norm_num)⟩

theorem fitWidth_eq (m width : Nat) (hm : m ≤ 2 ^ 50) (hw : width ≤ maxU32) :
    fitting (usable width) (.fin m) (lit64 (1 / 2)) = .fin (fitWidth m width) ∧
    0 ≤ fitWidth m width ∧ fitWidth m width ≤ 1000000 := by
  obtain ⟨u1, u2⟩ := usableQ_range width hw
  have z : lit64 0 = .fin 0 := by decide +kernel
  have l72 : lit64 72 = .fin 72 := by decide +kernel
  have half : lit64 (1 / 2) = .fin (1 / 2) := by decide +kernel
  unfold fitting fitWidth
  rw [z, usable_eq width hw, half, l72]
  by_cases h : m = 0
  · subst h; simp [lt]; norm_num
  · have hp : (1 : Rat) ≤ m := by exact_mod_cast Nat.one_le_iff_ne_zero.mpr h
    have hm' : (m : Rat) ≤ 2 ^ 50 := by exact_mod_cast hm
    have hd : mul b64 (.fin (m : Rat)) (.fin (1 / 2)) = .fin (m * (1 / 2)) := by
      simp only [mul]
      have hf : Fits b64 ((m : Rat) * (1 / 2)) := by
        refine ⟨m, -1, ?_, ?_, by decide⟩
        · push_cast; rw [zpow_neg_one]; norm_num
        · rw [abs_of_nonneg (by positivity)]
          have : (m : Int) ≤ 2 ^ 50 := by exact_mod_cast hm
          exact this.trans (by decide)
      rw [mk64 (by positivity) (by linarith), rnd_of_fits good64.digits hf]
    have hq0 : 0 ≤ usableQ width / ((m : Rat) * (1 / 2)) := by positivity
    have hq1 : usableQ width / ((m : Rat) * (1 / 2)) ≤ (1000000 : Nat) := by
      rw [div_le_iff₀ (by positivity)]; push_cast; nlinarith
    have hlt : lt (.fin 0) (.fin (m : Rat)) = true := by
      simp only [lt, decide_eq_true_eq]; linarith
    rw [if_pos hlt, hd, if_neg h]
    simp only [div]
    rw [if_neg (by positivity), mk64 hq0 (hq1.trans (by norm_num))]
    exact ⟨rfl, rnd_nonneg _ hq0, by exact_mod_cast rnd64_le (by norm_num) hq1⟩

theorem fitHeight_eq (L : Rat) (height : Nat) (h0 : L = 0 ∨ 1 ≤ L) (h1 : L ≤ 2 ^ 42) (hh : height ≤ maxU32) :
    fitting (usable height) (.fin L) (lit64 (115 / 100)) = .fin (fitHeight L height) ∧
    0 ≤ fitHeight L height ∧ fitHeight L height ≤ 1000000 ∧
    (1 ≤ L → L * (115 / 100) * (1 - 1 / 10 ^ 12) ≤ rnd b64 (L * rnd b64 (115 / 100)) ∧
      1 ≤ rnd b64 (L * rnd b64 (115 / 100))) := by
  obtain ⟨u1, u2⟩ := usableQ_range height hh
  obtain ⟨r1, r2⟩ := ratio_bounds
  have z : lit64 0 = .fin 0 := by decide +kernel
  have l72 : lit64 72 = .fin 72 := by decide +kernel
  have lr : lit64 (115 / 100) = .fin (rnd b64 (115 / 100)) := mk64 (by norm_num) (by norm_num)
  unfold fitting fitHeight
  rw [z, usable_eq height hh, lr, l72]
  rcases h0 with h | h
  · subst h; simp [lt]; norm_num
  · have hpos : 0 < L := by linarith
    have hlt : lt (.fin 0) (.fin L) = true := by simp only [lt, decide_eq_true_eq]; exact hpos
    have p0 : 0 ≤ L * rnd b64 (115 / 100) := by nlinarith
    have p1 : 1 ≤ L * rnd b64 (115 / 100) := by nlinarith
    have p2 : L * rnd b64 (115 / 100) ≤ 2 ^ 53 := by
      have : L * rnd b64 (115 / 100) ≤ 2 ^ 42 * 2 := mul_le_mul h1 r2 (by linarith) (by norm_num)
      exact this.trans (by norm_num)
    have hd : mul b64 (.fin L) (.fin (rnd b64 (115 / 100))) = .fin (rnd b64 (L * rnd b64 (115 / 100))) := by
      simp only [mul]; exact mk64 p0 p2
    have d1 : 1 ≤ rnd b64 (L * rnd b64 (115 / 100)) := by
      exact_mod_cast rnd64_ge (n := 1) (by norm_num) (by push_cast; exact p1)
    have hq0 : 0 ≤ usableQ height / rnd b64 (L * rnd b64 (115 / 100)) := by positivity
    have hq1 : usableQ height / rnd b64 (L * rnd b64 (115 / 100)) ≤ (1000000 : Nat) := by
      rw [div_le_iff₀ (by linarith)]; push_cast; nlinarith
    rw [if_pos hlt, hd, if_pos hpos]
    simp only [div]
    rw [if_neg (by linarith), mk64 hq0 (hq1.trans (by norm_num))]
    refine ⟨rfl, rnd_nonneg _ hq0, by exact_mod_cast rnd64_le (by norm_num) hq1, fun _ => ⟨?_, d1⟩⟩
    have s1 := (rnd64_bounds (q := 115 / 100) (by norm_num)).1
    have s2 := (rnd64_bounds p0).1
    set r := rnd b64 (115 / 100)
    have n1 : (1 : Rat) / 2 ^ 100 ≤ 1 / 10 ^ 15 := by norm_num
    have n2 : (115 / 100 : Rat) / 2 ^ 53 ≤ 1 / 10 ^ 15 := by norm_num
    have n3 : L * r / 2 ^ 53 ≤ L * r / 10 ^ 15 := div_le_div_of_nonneg_left p0 (by norm_num) (by norm_num)
    have hr : 115 / 100 - 2 / 10 ^ 15 ≤ r := by linarith
    have hLr : L * (115 / 100 - 2 / 10 ^ 15) ≤ L * r := mul_le_mul_of_nonneg_left hr hpos.le
    have hLr2 : L * r ≤ L * 2 := mul_le_mul_of_nonneg_left r2 hpos.le
    linarith

theorem fontSize_eq (t : Str) (ht : Measured t) :
    ∃ (L : Rat) (m : Nat), ((strLines t).length : Rat) ≤ L ∧ (L = 0 ∨ 1 ≤ L) ∧ L ≤ 2 ^ 42 ∧ m ≤ 2 ^ 50 ∧
      (∀ l ∈ strLines t, l.all isWs = false → l.length ≤ m) ∧
      ∀ w h, w ≤ maxU32 → h ≤ maxU32 →
        fontSize t w h = max 600 (min ⌊rnd b64 (min (fitWidth m w) (fitHeight L h) * 100)⌋.toNat 7200) := by
  obtain ⟨L, m, e, p1, p2, p3, p5⟩ := estimate_eq t ht
  have hn : ((strLines t).length : Rat) ≤ 1099511627776 := by exact_mod_cast ht.lines
  have hL0 : L = 0 ∨ 1 ≤ L := by
    rcases Nat.eq_zero_or_pos (strLines t).length with h | h
    · rw [h] at p1 p2; left; push_cast at p1 p2; linarith
    · right
      have : (1 : Rat) ≤ (strLines t).length := by exact_mod_cast h
      linarith
  have hL1 : L ≤ 2 ^ 42 := by norm_num; linarith
  refine ⟨L, m, p1, hL0, hL1, p3, p5, fun w h hw hh => ?_⟩
  obtain ⟨ew, w0, w1⟩ := fitWidth_eq m w p3 hw
  obtain ⟨eh, h0, h1, _⟩ := fitHeight_eq L h hL0 hL1 hh
  have l100 : lit64 100 = .fin 100 := by decide +kernel
  have hmin : minv (.fin (fitWidth m w)) (.fin (fitHeight L h)) = .fin (min (fitWidth m w) (fitHeight L h)) := by
    simp only [minv, lt, decide_eq_true_eq]
    split
    · rename_i hl; rw [min_eq_right hl.le]
    · rename_i hl; rw [min_eq_left (not_lt.mp hl)]
  have q0 : 0 ≤ min (fitWidth m w) (fitHeight L h) * 100 := mul_nonneg (le_min w0 h0) (by norm_num)
  have q1 : min (fitWidth m w) (fitHeight L h) * 100 ≤ (100000000 : Nat) := by
    have : min (fitWidth m w) (fitHeight L h) ≤ 1000000 := (min_le_left _ _).trans w1
    push_cast; linarith
  have q2 := rnd64_le (n := 100000000) (by norm_num) q1
  rw [fontSize, e]
  simp only [ew, eh, hmin, l100, mul]
  rw [mk64 q0 (q1.trans (by norm_num))]
  simp only [toU]
  have : ⌊rnd b64 (min (fitWidth m w) (fitHeight L h) * 100)⌋ ≤ 100000000 := by
    have := Int.floor_le_floor q2
    rwa [Int.floor_natCast] at this
  have hm : maxU32 = 4294967295 := rfl
  omega

/-- The text of a shape is never smaller than 6 points nor larger than 72 points. -/
theorem C133_range (t : Str) (w h : Nat) : 600 ≤ fontSize t w h ∧ fontSize t w h ≤ 7200 := by
  simp only [fontSize]; omega

/-- A larger shape never gets smaller text. -/
theorem C133_monotone (t : Str) (ht : Measured t) (w w' h h' : Nat) (hw : w ≤ w') (hh : h ≤ h')
    (hw' : w' ≤ maxU32) (hh' : h' ≤ maxU32) : fontSize t w h ≤ fontSize t w' h' := by
  obtain ⟨L, m, _, hL0, hL1, _, _, e⟩ := fontSize_eq t ht
  rw [e w h (hw.trans hw') (hh.trans hh'), e w' h' hw' hh']
  have mw : fitWidth m w ≤ fitWidth m w' := by
    unfold fitWidth
    split
    · exact le_rfl
    · exact rnd_mono b64 good64.digits (div_le_div_of_nonneg_right (usableQ_mono hw) (by positivity))
  have mh : fitHeight L h ≤ fitHeight L h' := by
    unfold fitHeight
    split
    · rename_i hp
      have : 0 ≤ rnd b64 (L * rnd b64 (115 / 100)) :=
        rnd_nonneg _ (mul_nonneg hp.le (by have := ratio_bounds.1; linarith))
      exact rnd_mono b64 good64.digits (div_le_div_of_nonneg_right (usableQ_mono hh) this)
    · exact le_rfl
  have : min (fitWidth m w) (fitHeight L h) * 100 ≤ min (fitWidth m w') (fitHeight L h') * 100 :=
    mul_le_mul_of_nonneg_right (min_le_min mw mh) (by norm_num)
  have := Int.floor_le_floor (rnd_mono b64 good64.digits this)
  omega

/-- A size `s` (in hundredths of a point) that is not the smallest one lets the text fit, up to a tiny
part: every line that is not blank, a character being taken as half as wide as the size, into the width of
the shape, and all lines, a line being taken as 1.15 times as high as the size, into its height. (Partial:
the smallest size is given whether the text fits or not.) -/
theorem C133_fits_partial (t : Str) (ht : Measured t) (w h : Nat) (hw : w ≤ maxU32) (hh : h ≤ maxU32)
    (hs : 600 < fontSize t w h) :
    (∀ l ∈ strLines t, l.all isWs = false →
      (fontSize t w h : Rat) / 100 * (l.length / 2) ≤ room w * (1 + 1 / 10 ^ 9)) ∧
    (fontSize t w h : Rat) / 100 * (115 / 100) * (strLines t).length ≤ room h * (1 + 1 / 10 ^ 9) := by
  obtain ⟨L, m, hnL, hL0, hL1, hm, hlines, e⟩ := fontSize_eq t ht
  have hmq : (m : Rat) ≤ 1125899906842624 := by exact_mod_cast hm
  obtain ⟨_, w0, w1⟩ := fitWidth_eq m w hm hw
  obtain ⟨_, h0, h1, hden⟩ := fitHeight_eq L h hL0 hL1 hh
  obtain ⟨uw1, uw2⟩ := usableQ_range w hw
  obtain ⟨uh1, uh2⟩ := usableQ_range h hh
  have rw' := usableQ_room w hw
  have rh' := usableQ_room h hh
  have Rw : (10 : Rat) ≤ room w := le_max_right _ _
  have Rh : (10 : Rat) ≤ room h := le_max_right _ _
  have e' := e w h hw hh
  set M := min (fitWidth m w) (fitHeight L h) with hM
  have hM0 : 0 ≤ M := le_min w0 h0
  have hMw : M ≤ fitWidth m w := min_le_left _ _
  have hMh : M ≤ fitHeight L h := min_le_right _ _
  -- the size is at most what was computed
  have hsz : (fontSize t w h : Rat) ≤ rnd b64 (M * 100) := by
    rw [e'] at hs ⊢
    have hf0 : 0 ≤ ⌊rnd b64 (M * 100)⌋ := Int.floor_nonneg.mpr (rnd_nonneg _ (by positivity))
    have : (max 600 (min ⌊rnd b64 (M * 100)⌋.toNat 7200) : Nat) ≤ ⌊rnd b64 (M * 100)⌋.toNat := by omega
    have h2 : ((max 600 (min ⌊rnd b64 (M * 100)⌋.toNat 7200) : Nat) : Int) ≤ ⌊rnd b64 (M * 100)⌋ := by omega
    have h3 : ((max 600 (min ⌊rnd b64 (M * 100)⌋.toNat 7200) : Nat) : Rat) ≤ (⌊rnd b64 (M * 100)⌋ : Rat) := by
      exact_mod_cast h2
    exact h3.trans (Int.floor_le _)
  have hM100 := (rnd64_bounds (q := M * 100) (by positivity)).2
  have n0 : (1 : Rat) / 2 ^ 100 ≤ 1 / 10 ^ 30 := by norm_num
  have nd : ∀ q : Rat, 0 ≤ q → q / 2 ^ 53 ≤ q / 10 ^ 15 := fun q hq =>
    div_le_div_of_nonneg_left hq (by norm_num) (by norm_num)
  have k1 := nd (M * 100) (by positivity)
  have hs1 : (fontSize t w h : Rat) / 100 ≤ M * (1 + 1 / 10 ^ 15) + 1 / 10 ^ 30 := by
    rw [div_le_iff₀ (by norm_num)]; linarith
  have hs0 : (0 : Rat) ≤ (fontSize t w h : Rat) / 100 := by positivity
  constructor
  · intro l hl hw'
    have hlm := hlines l hl hw'
    have hlm' : (l.length : Rat) ≤ m := by exact_mod_cast hlm
    have hlne : l ≠ [] := by intro hc; subst hc; simp at hw'
    have hm1 : 1 ≤ m := le_trans (List.length_pos_iff.mpr hlne) hlm
    have hm1' : (1 : Rat) ≤ m := by exact_mod_cast hm1
    have hfw : fitWidth m w = rnd b64 (usableQ w / (m * (1 / 2))) := by unfold fitWidth; rw [if_neg (by omega)]
    have hq0 : 0 ≤ usableQ w / ((m : Rat) * (1 / 2)) := by positivity
    have hb := (rnd64_bounds hq0).2
    have k2 := nd _ hq0
    -- times half the number of characters
    have hmul : usableQ w / ((m : Rat) * (1 / 2)) * (m / 2) = usableQ w := by field_simp
    have hMm : M * (m / 2) ≤ usableQ w * (1 + 1 / 10 ^ 15) + 1 / 10 ^ 12 := by
      have : M ≤ usableQ w / ((m : Rat) * (1 / 2)) * (1 + 1 / 10 ^ 15) + 1 / 10 ^ 30 := by rw [hfw] at hMw; linarith
      have h5 := mul_le_mul_of_nonneg_right this (by positivity : (0 : Rat) ≤ m / 2)
      have h6 : (usableQ w / ((m : Rat) * (1 / 2)) * (1 + 1 / 10 ^ 15) + 1 / 10 ^ 30) * (m / 2)
          = usableQ w * (1 + 1 / 10 ^ 15) + m / 2 / 10 ^ 30 := by
        calc _ = (usableQ w / ((m : Rat) * (1 / 2)) * (m / 2)) * (1 + 1 / 10 ^ 15) + m / 2 / 10 ^ 30 := by ring
          _ = _ := by rw [hmul]
      rw [h6] at h5
      linarith
    calc (fontSize t w h : Rat) / 100 * (l.length / 2) ≤ (fontSize t w h : Rat) / 100 * (m / 2) :=
          mul_le_mul_of_nonneg_left (by linarith) hs0
      _ ≤ (M * (1 + 1 / 10 ^ 15) + 1 / 10 ^ 30) * (m / 2) := mul_le_mul_of_nonneg_right hs1 (by positivity)
      _ = (M * (m / 2)) * (1 + 1 / 10 ^ 15) + m / 2 / 10 ^ 30 := by ring
      _ ≤ room w * (1 + 1 / 10 ^ 9) := by linarith
  · rcases hL0 with hz | hL
    · have : ((strLines t).length : Rat) = 0 := by
        have h9 : (0 : Rat) ≤ (strLines t).length := by positivity
        linarith
      rw [this, mul_zero]
      linarith
    · obtain ⟨d1, d2⟩ := hden hL
      set D := rnd b64 (L * rnd b64 (115 / 100))
      have hfh : fitHeight L h = rnd b64 (usableQ h / D) := by unfold fitHeight; rw [if_pos (by linarith)]
      have hq0 : 0 ≤ usableQ h / D := div_nonneg (by linarith) (by linarith)
      have hb := (rnd64_bounds hq0).2
      have k2 := nd _ hq0
      have hmul : usableQ h / D * D = usableQ h := by
        have : D ≠ 0 := by linarith
        field_simp
      have hD : D ≤ 2 ^ 45 := by
        obtain ⟨r1, r2⟩ := ratio_bounds
        have h7 : L * rnd b64 (115 / 100) ≤ (2 ^ 45 : Nat) := by
          have : L * rnd b64 (115 / 100) ≤ 2 ^ 42 * 2 := mul_le_mul hL1 r2 (by linarith) (by norm_num)
          push_cast; norm_num at this ⊢; linarith
        exact_mod_cast rnd64_le (n := 2 ^ 45) (by norm_num) h7
      have hMD : M * D ≤ usableQ h * (1 + 1 / 10 ^ 15) + 1 / 10 ^ 12 := by
        have : M ≤ usableQ h / D * (1 + 1 / 10 ^ 15) + 1 / 10 ^ 30 := by rw [hfh] at hMh; linarith
        have h5 := mul_le_mul_of_nonneg_right this (by linarith : (0 : Rat) ≤ D)
        have h6 : (usableQ h / D * (1 + 1 / 10 ^ 15) + 1 / 10 ^ 30) * D
            = usableQ h * (1 + 1 / 10 ^ 15) + D / 10 ^ 30 := by
          calc _ = (usableQ h / D * D) * (1 + 1 / 10 ^ 15) + D / 10 ^ 30 := by ring
            _ = _ := by rw [hmul]
        rw [h6] at h5
        norm_num at hD
        linarith
      -- the exact height is at most the computed one
      have hLD : (115 / 100 : Rat) * (strLines t).length * (1 - 1 / 10 ^ 12) ≤ D := by
        have : (115 / 100 : Rat) * (strLines t).length ≤ L * (115 / 100) := by linarith
        have h8 := mul_le_mul_of_nonneg_right this (by norm_num : (0 : Rat) ≤ 1 - 1 / 10 ^ 12)
        exact h8.trans d1
      have hx : (fontSize t w h : Rat) / 100 * D ≤ room h * (1 + 1 / 10 ^ 11) := by
        calc (fontSize t w h : Rat) / 100 * D ≤ (M * (1 + 1 / 10 ^ 15) + 1 / 10 ^ 30) * D :=
              mul_le_mul_of_nonneg_right hs1 (by linarith)
          _ = (M * D) * (1 + 1 / 10 ^ 15) + D / 10 ^ 30 := by ring
          _ ≤ room h * (1 + 1 / 10 ^ 11) := by norm_num at hD; linarith
      have hy := (mul_le_mul_of_nonneg_left hLD hs0).trans hx
      have ez : (fontSize t w h : Rat) / 100 * (115 / 100 * (strLines t).length * (1 - 1 / 10 ^ 12))
          = (fontSize t w h : Rat) / 100 * (115 / 100) * (strLines t).length * (1 - 1 / 10 ^ 12) := by ring
      rw [ez] at hy
      have hbig : room h * (1 + 1 / 10 ^ 11) ≤ room h * (1 + 1 / 10 ^ 9) * (1 - 1 / 10 ^ 12) := by
        rw [mul_assoc]; exact mul_le_mul_of_nonneg_left (by norm_num) (by linarith)
      exact le_of_mul_le_mul_right (hy.trans hbig) (by norm_num)

example : Measured c!"Hello world" ∧ 600 < fontSize c!"Hello world" 2000000 1000000 :=
  ⟨⟨by decide, by decide⟩, by decide +kernel⟩

/-- **C133 does not hold in full.** Text that is too long for its shape is written in 6 points and flows
over: a word of 100 characters in a shape of one inch by one inch would need 300 points of width and has
57.6. -/
theorem C133_overflow_violated :
    fontSize (List.replicate 100 'x') 914400 914400 = 600 ∧ room 914400 = 576 / 10 ∧
    (600 : Rat) / 100 * ((List.replicate 100 'x').length / 2) = 300 := by
  refine ⟨by decide +kernel, by decide +kernel, by norm_num⟩

/-- The size is written with the text of the shape, in one run. (Partial: text that looks like code has a
fixed size.) -/
theorem C133_written_partial {s : Shape} {t : Str} (hs : s.Safe) (ht : s.text = some t) (hc : isCode t = false)
    {id : Nat} {ps : List Part} (e : shapeXml fontSize s id = some ps) :
    ∃ k, ReadsNodes ps [k] ∧
      pathAttr [c!"p:txBody", c!"a:p", c!"a:r", c!"a:rPr"] c!"sz" k = some (dec (fontSize t s.width s.height)) := by
  simp only [shapeXml, Option.bind_eq_some_iff, Option.map_eq_some_iff] at e
  obtain ⟨fill, hfl, text, htx, rot, hr, rfl⟩ := e
  obtain ⟨bd, hb1, hb2⟩ := readsTagged_text htx
  refine ⟨_, (readsTagged_shapeText s (readsTagged_cnvpr hs.link) (readsAttrs_rot hr) (soft_shapeFill hs hfl)
    (soft_line hs.line) hb1).nodes, ?_⟩
  cases hb2 with
  | none h => rw [h] at ht; cases ht
  | code h h2 => rw [h] at ht; cases ht; rw [hc] at h2; cases h2
  | @plain t' size color anchor align h h2 h3 h4 =>
    rw [h] at ht
    cases ht
    rw [← h3]
    unfold pathAttr
    rw [show shapeNode (cnvprNode s.link id) (rotAttrs s.rotation) s
      (s.fillNodes ++ s.line.toList.map lineNode) (plainBodyNode t size color anchor align)
      = shapeOf [(c!"id", dec id), (c!"name", c!"Shape " ++ dec id)] (linkKids s.link) _
        (rotAttrs s.rotation) s (s.fillNodes ++ s.line.toList.map lineNode) from rfl, path_text]
    krfl

/-! ### The colour -/

/-- The comparison of the brightness in floating point numbers agrees with the exact one, except when the
brightness is exactly in the middle. A fill that is taken as dark is at most half bright, and one that is
taken as light at least half bright, so that white or black text differs enough (C96). -/
theorem C133_contrast (r g b : UInt8) :
    let y := 299 * r.toNat + 587 * g.toNat + 114 * b.toNat
    (y ≠ 128000 → darkFloat r g b = decide (y < 128000)) ∧
    (darkFloat r g b = true → y ≤ 128000) ∧ (darkFloat r g b = false → 128000 ≤ y) := darkFloat_spec r g b

/-- **C133 does not hold in full.** In the middle of the brightness range the comparison depends on
rounding: the gray 808080 has exactly half of the brightness and is taken as dark (white text), and so is
08C848, while 04D21F, which has the same brightness, is taken as light (black text). -/
theorem C133_middle_violated :
    darkFloat 128 128 128 = true ∧ darkFloat 8 200 72 = true ∧ darkFloat 4 210 31 = false ∧
    299 * 128 + 587 * 128 + 114 * 128 = 128000 ∧ 299 * 8 + 587 * 200 + 114 * 72 = 128000 ∧
    299 * 4 + 587 * 210 + 114 * 31 = 128000 := by
  decide +kernel

end PptRs.Props
