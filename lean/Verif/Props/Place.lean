import Verif.Model.Place
import Mathlib.Data.List.Basic
import Mathlib.Tactic.Ring
import Mathlib.Tactic.Linarith

/-!
# C50: positions of shapes
-/

namespace PptRs.Props

open PptRs PptRs.Place

/-- Two shapes of the same size do not overlap. -/
def Apart (w h : Nat) (p q : Nat × Nat) : Prop :=
  p.1 + w ≤ q.1 ∨ q.1 + w ≤ p.1 ∨ p.2 + h ≤ q.2 ∨ q.2 + h ≤ p.2

/-- A shape lies on the slide (10 by 7.5 inches, 914400 units per inch). -/
def OnSlide (w h : Nat) (p : Nat × Nat) : Prop := p.1 + w ≤ 10 * 914400 ∧ 2 * (p.2 + h) ≤ 15 * 914400

theorem loop_some {α : Type} {f : Nat → Option α} {g : Nat → α} {l : List Nat} (h : ∀ i ∈ l, f i = some (g i)) :
    loop f l = some (l.map g) := by
  induction l with
  | nil => rfl
  | cons i l ih =>
    rw [loop, h i (by simp), Option.bind_some, ih fun j hj => h j (by simp [hj])]
    rfl

theorem place_eq {start step i : Nat} (hi : i < 4294967296) (h : start + i * step < 4294967296) :
    place start step i = some (start + i * step) := by
  unfold place mul32 add32 as32
  rw [Nat.mod_eq_of_lt hi, if_pos (by omega), Option.bind_some, if_pos h]

theorem flatten_get {α : Type} {n : Nat} (l : List (List α)) (h : ∀ r ∈ l, r.length = n) (r c : Nat) (hc : c < n) :
    l.flatten[r * n + c]? = l[r]?.bind fun row => row[c]? := by
  induction l generalizing r with
  | nil => simp
  | cons a l ih =>
    have ha := h a (by simp)
    rw [List.flatten_cons]
    cases r with
    | zero => simp [List.getElem?_append_left, ha, hc]
    | succ r =>
      rw [List.getElem?_append_right (by rw [ha, Nat.succ_mul]; omega), ha,
        show (r + 1) * n + c - n = r * n + c by rw [Nat.succ_mul]; omega, ih (fun x hx => h x (by simp [hx]))]
      simp

/-- **C50.** A grid that fits: row by row, the shapes are next to each other, centred, without overlap, on the slide. -/
theorem C50_grid (rows cols w h : Nat) (hr : 0 < rows) (hc : 0 < cols) (hw0 : 0 < w) (hh0 : 0 < h)
    (hw : w * cols ≤ 9144000) (hh : h * rows ≤ 6858000) :
    ∃ sx sy l, grid rows cols w h = some l ∧ l.length = rows * cols ∧
      (∀ r c, r < rows → c < cols → l[r * cols + c]? = some (sx + c * w, sy + r * h)) ∧
      (9144000 - w * cols = 2 * sx ∨ 9144000 - w * cols = 2 * sx + 1) ∧
      (6858000 - h * rows = 2 * sy ∨ 6858000 - h * rows = 2 * sy + 1) ∧
      l.Pairwise (Apart w h) ∧ ∀ p ∈ l, OnSlide w h p := by
  have hcols : cols ≤ 9144000 := le_trans (Nat.le_mul_of_pos_left _ hw0) hw
  have hrows : rows ≤ 6858000 := le_trans (Nat.le_mul_of_pos_left _ hh0) hh
  obtain ⟨sx, hsx⟩ : ∃ sx, sx = (9144000 - w * cols) / 2 := ⟨_, rfl⟩
  obtain ⟨sy, hsy⟩ : ∃ sy, sy = (6858000 - h * rows) / 2 := ⟨_, rfl⟩
  have hcell : ∀ c, c < cols → c * w + w ≤ w * cols := by
    intro c hc'
    have : (c + 1) * w ≤ cols * w := Nat.mul_le_mul_right _ hc'
    rw [Nat.mul_comm w cols]
    linarith
  have hrow : ∀ r, r < rows → r * h + h ≤ h * rows := by
    intro r hr'
    have : (r + 1) * h ≤ rows * h := Nat.mul_le_mul_right _ hr'
    rw [Nat.mul_comm h rows]
    linarith
  refine ⟨sx, sy, ((List.range rows).map fun r => (List.range cols).map fun c => (sx + c * w, sy + r * h)).flatten, ?_, ?_, ?_,
    by omega, by omega, ?_, ?_⟩
  · unfold grid mul32 as32
    rw [Nat.mod_eq_of_lt (by omega), Nat.mod_eq_of_lt (by omega), if_pos (by omega), Option.bind_some, if_pos (by omega),
      Option.bind_some]
    unfold centerX centerY sub32 slideWidth slideHeight
    rw [if_pos hw, if_pos hh, Option.map_some, Option.bind_some, Option.map_some, Option.bind_some, ← hsx, ← hsy]
    rw [loop_some (g := fun r => (List.range cols).map fun c => (sx + c * w, sy + r * h))]
    · rfl
    · intro r hr'
      rw [List.mem_range] at hr'
      refine loop_some fun c hc' => ?_
      rw [List.mem_range] at hc'
      have h1 := hcell c hc'
      have h2 := hrow r hr'
      rw [place_eq (by omega) (by omega), Option.bind_some, place_eq (by omega) (by omega)]
      rfl
  · simp [List.length_flatten, Function.comp_def]
  · intro r c hr' hc'
    rw [flatten_get (n := cols) _ (by
      intro x hx
      obtain ⟨r, _, rfl⟩ := List.mem_map.mp hx
      simp) r c hc']
    simp [List.getElem?_range, hr', hc']
  · refine List.pairwise_flatten.mpr ⟨?_, ?_⟩
    · intro x hx
      obtain ⟨r, _, rfl⟩ := List.mem_map.mp hx
      refine List.pairwise_map.mpr (List.pairwise_lt_range.imp fun {a b} hab => .inl ?_)
      have : (a + 1) * w ≤ b * w := Nat.mul_le_mul_right _ hab
      simp only
      linarith
    · refine List.pairwise_map.mpr (List.pairwise_lt_range.imp fun {a b} hab => ?_)
      intro p hp q hq
      obtain ⟨c, _, rfl⟩ := List.mem_map.mp hp
      obtain ⟨c', _, rfl⟩ := List.mem_map.mp hq
      refine .inr (.inr (.inl ?_))
      have : (a + 1) * h ≤ b * h := Nat.mul_le_mul_right _ hab
      simp only
      linarith
  · intro p hp
    simp only [List.mem_flatten, List.mem_map, List.mem_range] at hp
    obtain ⟨_, ⟨r, hr', rfl⟩, hp⟩ := hp
    simp only [List.mem_map, List.mem_range] at hp
    obtain ⟨c, hc', rfl⟩ := hp
    have h1 := hcell c hc'
    have h2 := hrow r hr'
    unfold OnSlide
    omega

example : grid 2 3 1000000 2000000 = some [(3072000, 1429000), (4072000, 1429000), (5072000, 1429000),
    (3072000, 3429000), (4072000, 3429000), (5072000, 3429000)] := by decide +kernel

theorem stackFrom_some {centre : Nat → Option Nat} {full count size spacing : Nat}
    (hce : ∀ t, t ≤ full → centre t = some ((full - t) / 2)) (hfull : full < 4294967296) (hn : 0 < count)
    (hs : 0 < size) (h : size * count + spacing * (count - 1) ≤ full) (hsp : size + spacing < 4294967296) :
    stackFrom centre count size spacing = some ((List.range count).map fun i =>
      (full - (size * count + spacing * (count - 1))) / 2 + i * (size + spacing)) := by
  have hcount : count ≤ full := le_trans (Nat.le_mul_of_pos_left _ hs) (by omega)
  unfold stackFrom mul32 sub32 add32 as32
  rw [Nat.mod_eq_of_lt (by omega), if_pos (by omega), Option.bind_some, if_pos (by omega), Option.bind_some,
    Nat.mod_eq_of_lt (by omega), if_pos (by omega), Option.bind_some, if_pos (by omega), Option.bind_some, hce _ h,
    Option.bind_some]
  refine loop_some fun i hi => ?_
  rw [List.mem_range] at hi
  rw [if_pos hsp, Option.bind_some]
  refine place_eq (by omega) ?_
  have h1 : i * (size + spacing) ≤ (count - 1) * (size + spacing) := Nat.mul_le_mul_right _ (by omega)
  have h2 : (count - 1) * (size + spacing) ≤ size * count + spacing * (count - 1) := by
    rw [Nat.mul_add, Nat.mul_comm (count - 1) size, Nat.mul_comm (count - 1) spacing]
    have : size * (count - 1) ≤ size * count := Nat.mul_le_mul_left _ (by omega)
    omega
  omega

/-- The places of a stack: the first starts where the stack is centred, each of the others `spacing` after the one
before, and the last ends as far from the edge as the first starts, up to one unit. -/
structure Stacked (full size spacing : Nat) (l : List Nat) (count : Nat) : Prop where
  length : l.length = count
  next : ∀ i a b, l[i]? = some a → l[i + 1]? = some b → b = a + size + spacing
  centred : ∀ a b, l.head? = some a → l.getLast? = some b → a + (b + size) = full ∨ a + (b + size) + 1 = full

theorem stacked_of_fits {full count size spacing : Nat} (hn : 0 < count)
    (h : size * count + spacing * (count - 1) ≤ full) :
    Stacked full size spacing ((List.range count).map fun i =>
      (full - (size * count + spacing * (count - 1))) / 2 + i * (size + spacing)) count := by
  obtain ⟨n, rfl⟩ : ∃ n, count = n + 1 := ⟨count - 1, by omega⟩
  refine ⟨by simp, ?_, ?_⟩
  · intro i a b ha hb
    rw [List.getElem?_map] at ha hb
    have hi : i + 1 < n + 1 := by
      by_contra hc
      rw [List.getElem?_eq_none (by simpa using hc)] at hb
      simp at hb
    rw [List.getElem?_range (by omega)] at ha
    rw [List.getElem?_range (by omega)] at hb
    simp only [Option.map_some, Option.some.injEq] at ha hb
    subst ha hb
    ring
  · intro a b ha hb
    have ha' : a = (full - (size * (n + 1) + spacing * n)) / 2 := by
      rw [List.range_succ_eq_map] at ha
      simp only [List.map_cons, List.head?_cons, Option.some.injEq] at ha
      simp at ha
      exact ha.symm
    have hb' : b = (full - (size * (n + 1) + spacing * n)) / 2 + n * (size + spacing) := by
      rw [List.range_succ, List.map_append] at hb
      simp at hb
      exact hb.symm
    have e : n * (size + spacing) + size = size * (n + 1) + spacing * n := by ring
    simp only [Nat.add_sub_cancel] at h
    omega

/-- **C50.** A horizontal stack that fits. -/
theorem C50_stack_horizontal (count w spacing y : Nat) (hn : 0 < count) (hw : 0 < w)
    (h : w * count + spacing * (count - 1) ≤ 9144000) (hs : spacing ≤ 9144000) :
    ∃ xs, stackHorizontal count w spacing y = some (xs.map fun x => (x, y)) ∧ Stacked 9144000 w spacing xs count := by
  have hw' : w ≤ 9144000 := le_trans (Nat.le_mul_of_pos_right _ hn) (by omega)
  refine ⟨_, ?_, stacked_of_fits hn h⟩
  unfold stackHorizontal
  rw [stackFrom_some (full := 9144000) _ (by omega) hn hw h (by omega)]
  · rfl
  · intro t ht
    unfold centerX sub32 slideWidth
    rw [if_pos ht]
    rfl

/-- **C50.** A vertical stack that fits. -/
theorem C50_stack_vertical (count h spacing x : Nat) (hn : 0 < count) (hh : 0 < h)
    (hf : h * count + spacing * (count - 1) ≤ 6858000) (hs : spacing ≤ 6858000) :
    ∃ ys, stackVertical count h spacing x = some (ys.map fun y => (x, y)) ∧ Stacked 6858000 h spacing ys count := by
  have hh' : h ≤ 6858000 := le_trans (Nat.le_mul_of_pos_right _ hn) (by omega)
  refine ⟨_, ?_, stacked_of_fits hn hf⟩
  unfold stackVertical
  rw [stackFrom_some (full := 6858000) _ (by omega) hn hh hf (by omega)]
  · rfl
  · intro t ht
    unfold centerY sub32 slideHeight
    rw [if_pos ht]
    rfl

example : stackHorizontal 3 1000 100 7 = some [(4570400, 7), (4571500, 7), (4572600, 7)] := by decide +kernel

/-- **C50.** Shapes distributed over the width: between the margins, the first at the left margin, at equal distances,
without overlap; what remains at the right is less than one unit per gap. -/
theorem C50_distribute (count w y : Nat) (hn : 2 ≤ count) (hw : 0 < w) (h : w * count ≤ 9144000 - 2 * 457200) :
    ∃ (xs : List Nat) (gap : Nat), distributeHorizontal count w y = some (xs.map fun x => (x, y)) ∧ xs.length = count ∧
      xs.head? = some 457200 ∧ (∀ i a b, xs[i]? = some a → xs[i + 1]? = some b → b = a + w + gap) ∧
      ∀ b, xs.getLast? = some b → b + w + 457200 ≤ 9144000 ∧ 9144000 < b + w + 457200 + (count - 1) := by
  have hcount : count ≤ 8229600 := le_trans (Nat.le_mul_of_pos_left _ hw) (by omega)
  have hw' : w ≤ 8229600 := le_trans (Nat.le_mul_of_pos_right _ (by omega)) h
  obtain ⟨n, rfl⟩ : ∃ n, count = n + 2 := ⟨count - 2, by omega⟩
  obtain ⟨gap, hgap⟩ : ∃ gap, gap = (8229600 - w * (n + 2)) / (n + 1) := ⟨_, rfl⟩
  have hdm := Nat.div_add_mod (8229600 - w * (n + 2)) (n + 1)
  have hml := Nat.mod_lt (8229600 - w * (n + 2)) (show 0 < n + 1 by omega)
  rw [← hgap] at hdm
  have hlast : (n + 1) * (w + gap) + w = w * (n + 2) + (n + 1) * gap := by ring
  have hgle : gap ≤ 8229600 := by
    have : gap ≤ (n + 1) * gap := Nat.le_mul_of_pos_left _ (by omega)
    omega
  refine ⟨(List.range (n + 2)).map fun i => 457200 + i * (w + gap), gap, ?_, by simp, ?_, ?_, ?_⟩
  · unfold distributeHorizontal mul32 sub32 add32 as32 slideWidth margin
    rw [if_neg (by omega), if_neg (by omega), Nat.mod_eq_of_lt (by omega), if_pos (by omega), Option.bind_some,
      if_pos (by omega), Option.bind_some, if_pos (by omega), Option.bind_some, if_neg (by omega), List.map_map]
    refine loop_some fun i hi => ?_
    rw [List.mem_range] at hi
    have e : (9144000 - 2 * 457200 - w * (n + 2)) / (n + 2 - 1) = gap := hgap.symm
    have h1 : i * (w + gap) ≤ (n + 1) * (w + gap) := Nat.mul_le_mul_right _ (by omega)
    rw [e, if_pos (by omega), Option.bind_some, place_eq (by omega) (by omega)]
    rfl
  · rw [List.range_succ_eq_map]
    simp
  · intro i a b ha hb
    rw [List.getElem?_map] at ha hb
    have hi : i + 1 < n + 2 := by
      by_contra hc
      rw [List.getElem?_eq_none (by simpa using hc)] at hb
      simp at hb
    rw [List.getElem?_range (by omega)] at ha
    rw [List.getElem?_range (by omega)] at hb
    simp only [Option.map_some, Option.some.injEq] at ha hb
    subst ha hb
    ring
  · intro b hb
    rw [List.range_succ, List.map_append] at hb
    simp at hb
    subst hb
    omega

example : distributeHorizontal 3 1000000 0 = some [(457200, 0), (4072000, 0), (7686800, 0)] := by decide +kernel

/-- **C50** for one shape: it is centred. -/
theorem C50_center (w h : Nat) (hw : w ≤ 9144000) (hh : h ≤ 6858000) :
    ∃ x y, center w h = some (x, y) ∧ OnSlide w h (x, y) ∧
      (x + (x + w) = 9144000 ∨ x + (x + w) + 1 = 9144000) ∧ (y + (y + h) = 6858000 ∨ y + (y + h) + 1 = 6858000) := by
  refine ⟨(9144000 - w) / 2, (6858000 - h) / 2, ?_, ?_, by omega, by omega⟩
  · unfold center centerX centerY sub32 slideWidth slideHeight
    rw [if_pos hw, if_pos hh]
    rfl
  · unfold OnSlide
    constructor <;> simp only <;> omega

/-- Shapes that do not fit crash the helpers instead of being placed. -/
theorem C50_too_large_violated (w h : Nat) (hw : 9144000 < w) : center w h = none ∧ distributeHorizontal 1 w h = none := by
  have : centerX w = none := by
    unfold centerX sub32 slideWidth
    rw [if_neg (by omega)]
    rfl
  unfold center distributeHorizontal
  rw [this]
  exact ⟨rfl, rfl⟩

/-- An empty stack crashes; an empty grid and an empty distribution do not. -/
theorem C50_empty_violated (w s y : Nat) :
    stackHorizontal 0 w s y = none ∧ stackVertical 0 w s y = none ∧ distributeHorizontal 0 w y = some [] ∧
    grid 0 0 w y = some [] := by
  refine ⟨?_, ?_, rfl, ?_⟩
  · unfold stackHorizontal stackFrom as32 mul32 sub32
    simp
  · unfold stackVertical stackFrom as32 mul32 sub32
    simp
  · unfold grid mul32 as32
    simp [centerX, centerY, sub32, loop]

end PptRs.Props
