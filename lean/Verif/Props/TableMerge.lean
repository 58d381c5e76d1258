import Verif.Model.TableMerge
import Mathlib.Algebra.BigOperators.Intervals
import Mathlib.Order.Interval.Finset.Nat
import Mathlib.Data.Nat.Cast.Basic

/-!
# C12, C13: merged table cells
-/

namespace PptRs.Props

open PptRs

/-- A merge request: row, column, row span, column span. -/
abbrev MergeReq := Nat × Nat × Nat × Nat

/-- The cells a request asks for. -/
def reqCells (q : MergeReq) (r c : Nat) : Prop :=
  q.1 ≤ r ∧ r < q.1 + q.2.2.1 ∧ q.2.1 ≤ c ∧ c < q.2.1 + q.2.2.2

/-- The request of an accepted region. -/
def regReq (m : MergeRegion) : MergeReq := (m.row, m.col, m.rowSpan, m.colSpan)

/-- Runs a sequence of requests on a new table. -/
def runMerges (rows cols : Nat) (reqs : List MergeReq) : TableMergeMap :=
  reqs.foldl (fun t q => (t.mergeCells q.1 q.2.1 q.2.2.1 q.2.2.2).1) (.new rows cols)

/-- Regions have cells, lie in the grid and share no cell. -/
structure MergeInv (t : TableMergeMap) : Prop where
  span : ∀ m ∈ t.regions, 0 < m.rowSpan ∧ 0 < m.colSpan
  inside : ∀ m ∈ t.regions, m.row + m.rowSpan ≤ t.rows ∧ m.col + m.colSpan ≤ t.cols
  disjoint : t.regions.Pairwise fun a b => ∀ r c, ¬ (reqCells (regReq a) r c ∧ reqCells (regReq b) r c)

theorem overlaps_iff (a b : MergeRegion) (ha : 0 < a.rowSpan ∧ 0 < a.colSpan)
    (hb : 0 < b.rowSpan ∧ 0 < b.colSpan) :
    a.overlaps b = true ↔ ∃ r c, reqCells (regReq a) r c ∧ reqCells (regReq b) r c := by
  simp only [MergeRegion.overlaps, Bool.and_eq_true, decide_eq_true_eq]
  simp only [MergeRegion.lastRow, MergeRegion.lastCol, reqCells, regReq]
  constructor
  · intro h
    exact ⟨max a.row b.row, max a.col b.col, by omega, by omega⟩
  · rintro ⟨r, c, h1, h2⟩
    omega

/-- The condition under which a request is accepted. -/
def Acceptable (t : TableMergeMap) (q : MergeReq) : Prop :=
  0 < q.2.2.1 ∧ 0 < q.2.2.2 ∧ q.1 + q.2.2.1 ≤ t.rows ∧ q.2.1 + q.2.2.2 ≤ t.cols ∧
    ∀ m ∈ t.regions, ∀ r c, ¬ (reqCells (regReq m) r c ∧ reqCells q r c)

theorem mergeCells_spec (t : TableMergeMap) (h : MergeInv t) (q : MergeReq) :
    (Acceptable t q ∧ t.mergeCells q.1 q.2.1 q.2.2.1 q.2.2.2 =
        ({ t with regions := t.regions ++ [⟨q.1, q.2.1, q.2.2.1, q.2.2.2⟩] }, true)) ∨
    (¬ Acceptable t q ∧ t.mergeCells q.1 q.2.1 q.2.2.1 q.2.2.2 = (t, false)) := by
  obtain ⟨row, col, rs, cs⟩ := q
  simp only [TableMergeMap.mergeCells, MergeRegion.new, Acceptable]
  by_cases h0 : rs = 0 ∨ cs = 0
  · rw [if_pos h0]; right
    exact ⟨by rintro ⟨_, _, _⟩; omega, rfl⟩
  · rw [if_neg h0]
    simp only [TableMergeMap.addMerge]
    have elr : (MergeRegion.mk row col rs cs).lastRow = row + rs - 1 := rfl
    have elc : (MergeRegion.mk row col rs cs).lastCol = col + cs - 1 := rfl
    by_cases h1 : (MergeRegion.mk row col rs cs).lastRow ≥ t.rows
    · rw [if_pos h1]; right; exact ⟨by rintro ⟨_, _, _, _⟩; omega, rfl⟩
    · rw [if_neg h1]
      by_cases h2 : (MergeRegion.mk row col rs cs).lastCol ≥ t.cols
      · rw [if_pos h2]; right; exact ⟨by rintro ⟨_, _, _, _, _⟩; omega, rfl⟩
      · rw [if_neg h2]
        by_cases h3 : t.regions.any (fun e => e.overlaps ⟨row, col, rs, cs⟩) = true
        · rw [if_pos h3]; right
          refine ⟨?_, rfl⟩
          rintro ⟨_, _, _, _, hd⟩
          obtain ⟨m, hm, ho⟩ := List.any_eq_true.mp h3
          obtain ⟨r, c, hrc⟩ := (overlaps_iff m ⟨row, col, rs, cs⟩ (h.span m hm)
            ⟨by simp only; omega, by simp only; omega⟩).mp ho
          exact hd m hm r c hrc
        · rw [if_neg h3]; left
          refine ⟨⟨by omega, by omega, by omega, by omega, ?_⟩, rfl⟩
          intro m hm r c hrc
          apply h3
          rw [List.any_eq_true]
          exact ⟨m, hm, (overlaps_iff m ⟨row, col, rs, cs⟩ (h.span m hm)
            ⟨by simp only; omega, by simp only; omega⟩).mpr ⟨r, c, hrc⟩⟩

theorem mergeInv_step (t : TableMergeMap) (h : MergeInv t) (q : MergeReq) :
    MergeInv (t.mergeCells q.1 q.2.1 q.2.2.1 q.2.2.2).1 := by
  rcases mergeCells_spec t h q with ⟨⟨h1, h2, h3, h4, h5⟩, e⟩ | ⟨_, e⟩
  · rw [e]
    constructor
    · intro m hm
      rcases List.mem_append.mp hm with hm | hm
      · exact h.span m hm
      · rw [List.mem_singleton] at hm; subst hm; exact ⟨h1, h2⟩
    · intro m hm
      rcases List.mem_append.mp hm with hm | hm
      · exact h.inside m hm
      · rw [List.mem_singleton] at hm; subst hm; exact ⟨h3, h4⟩
    · simp only
      rw [List.pairwise_append]
      refine ⟨h.disjoint, by simp, ?_⟩
      intro a ha b hb
      rw [List.mem_singleton] at hb; subst hb
      exact h5 a ha
  · rw [e]; exact h

theorem mergeInv_run (rows cols : Nat) (reqs : List MergeReq) :
    MergeInv (runMerges rows cols reqs) ∧ (runMerges rows cols reqs).rows = rows ∧
      (runMerges rows cols reqs).cols = cols := by
  unfold runMerges
  have : ∀ (reqs : List MergeReq) (t : TableMergeMap), MergeInv t →
      MergeInv (reqs.foldl (fun t q => (t.mergeCells q.1 q.2.1 q.2.2.1 q.2.2.2).1) t) ∧
      (reqs.foldl (fun t q => (t.mergeCells q.1 q.2.1 q.2.2.1 q.2.2.2).1) t).rows = t.rows ∧
      (reqs.foldl (fun t q => (t.mergeCells q.1 q.2.1 q.2.2.1 q.2.2.2).1) t).cols = t.cols := by
    intro reqs
    induction reqs with
    | nil => intro t h; exact ⟨h, rfl, rfl⟩
    | cons q reqs ih =>
      intro t h
      rw [List.foldl_cons]
      obtain ⟨i1, i2, i3⟩ := ih _ (mergeInv_step t h q)
      have hdim : (t.mergeCells q.1 q.2.1 q.2.2.1 q.2.2.2).1.rows = t.rows ∧
          (t.mergeCells q.1 q.2.1 q.2.2.1 q.2.2.2).1.cols = t.cols := by
        rcases mergeCells_spec t h q with ⟨_, e⟩ | ⟨_, e⟩ <;> rw [e] <;> simp
      exact ⟨i1, i2.trans hdim.1, i3.trans hdim.2⟩
  exact this reqs (.new rows cols) ⟨by simp [TableMergeMap.new], by simp [TableMergeMap.new],
    by simp [TableMergeMap.new]⟩

/-! ## C12 -/

/-- **C12**: after any sequence of requests the accepted regions are non-empty, lie inside the
table and no two of them share a cell. -/
theorem C12_regions_disjoint (rows cols : Nat) (reqs : List MergeReq) :
    (∀ m ∈ (runMerges rows cols reqs).regions, 0 < m.rowSpan ∧ 0 < m.colSpan ∧
      m.row + m.rowSpan ≤ rows ∧ m.col + m.colSpan ≤ cols) ∧
    (runMerges rows cols reqs).regions.Pairwise
      fun a b => ∀ r c, ¬ (reqCells (regReq a) r c ∧ reqCells (regReq b) r c) := by
  obtain ⟨h, hr, hc⟩ := mergeInv_run rows cols reqs
  refine ⟨fun m hm => ?_, h.disjoint⟩
  have h1 := h.span m hm
  have h2 := h.inside m hm
  rw [hr, hc] at h2
  exact ⟨h1.1, h1.2, h2⟩

/-- **C12**: in every reachable state a request is accepted exactly when it has a positive
span, stays in the table and shares no cell with an accepted region. -/
theorem C12_accept_iff (rows cols : Nat) (reqs : List MergeReq) (row col rs cs : Nat) :
    ((runMerges rows cols reqs).mergeCells row col rs cs).2 = true ↔
      0 < rs ∧ 0 < cs ∧ row + rs ≤ rows ∧ col + cs ≤ cols ∧
        ∀ m ∈ (runMerges rows cols reqs).regions, ∀ r c,
          ¬ (reqCells (regReq m) r c ∧ reqCells (row, col, rs, cs) r c) := by
  obtain ⟨h, hr, hc⟩ := mergeInv_run rows cols reqs
  have := mergeCells_spec _ h (row, col, rs, cs)
  simp only [Acceptable, hr, hc] at this
  rcases this with ⟨ha, e⟩ | ⟨ha, e⟩
  · rw [e]; simpa using ha
  · rw [e]; simpa using ha

/-- **C12**: a rejected request changes nothing; an accepted one adds exactly its region. -/
theorem C12_effect (rows cols : Nat) (reqs : List MergeReq) (row col rs cs : Nat) :
    ((runMerges rows cols reqs).mergeCells row col rs cs).1 =
      if ((runMerges rows cols reqs).mergeCells row col rs cs).2 = true then
        { runMerges rows cols reqs with
          regions := (runMerges rows cols reqs).regions ++ [⟨row, col, rs, cs⟩] }
      else runMerges rows cols reqs := by
  obtain ⟨h, _, _⟩ := mergeInv_run rows cols reqs
  have := mergeCells_spec _ h (row, col, rs, cs)
  simp only at this
  rcases this with ⟨_, e⟩ | ⟨_, e⟩ <;> rw [e] <;> simp

/-- Adjacent merges are accepted, an overlapping and an oversized one are not. -/
example : (runMerges 3 4 [(0, 0, 2, 2), (0, 2, 1, 2), (1, 1, 2, 1), (2, 0, 1, 5), (2, 0, 1, 4)]).regions =
    [⟨0, 0, 2, 2⟩, ⟨0, 2, 1, 2⟩, ⟨2, 0, 1, 4⟩] := by decide

/-! ## C13 -/

theorem contains_iff (m : MergeRegion) (h : 0 < m.rowSpan ∧ 0 < m.colSpan) (r c : Nat) :
    m.contains r c = true ↔ reqCells (regReq m) r c := by
  simp only [MergeRegion.contains, Bool.and_eq_true, decide_eq_true_eq]
  simp only [MergeRegion.lastRow, MergeRegion.lastCol, reqCells, regReq]
  omega

theorem stateIn_normal (r c : Nat) (l : List MergeRegion)
    (hs : ∀ m ∈ l, 0 < m.rowSpan ∧ 0 < m.colSpan) :
    (∀ m ∈ l, ¬ reqCells (regReq m) r c) → TableMergeMap.stateIn r c l = .normal := by
  induction l with
  | nil => intro _; rfl
  | cons m l ih =>
    intro h
    have hm := h m (by simp)
    have hc : m.contains r c = false := by
      rw [← Bool.not_eq_true, contains_iff m (hs m (by simp))]; exact hm
    have ha : m.isAnchor r c = false := by
      rw [← Bool.not_eq_true]
      intro ha
      simp only [MergeRegion.isAnchor, Bool.and_eq_true, beq_iff_eq] at ha
      apply hm
      have := hs m (by simp)
      simp only [reqCells, regReq]; omega
    simp only [TableMergeMap.stateIn, ha, hc, Bool.false_eq_true, if_false]
    exact ih (fun x hx => hs x (by simp [hx])) (fun x hx => h x (by simp [hx]))

/-- What the state of a covered cell is: the anchor at the top-left corner, else merged away. -/
def regionState (m : MergeRegion) (r c : Nat) : CellMergeState :=
  if r = m.row ∧ c = m.col then .anchor m.rowSpan m.colSpan
  else if r = m.row then .hMerge else .vMerge

theorem stateIn_region (r c : Nat) (l : List MergeRegion)
    (hs : ∀ m ∈ l, 0 < m.rowSpan ∧ 0 < m.colSpan)
    (hd : l.Pairwise fun a b => ∀ r c, ¬ (reqCells (regReq a) r c ∧ reqCells (regReq b) r c))
    (m : MergeRegion) (hm : m ∈ l) (hc : reqCells (regReq m) r c) :
    TableMergeMap.stateIn r c l = regionState m r c := by
  induction l with
  | nil => simp at hm
  | cons x l ih =>
    rw [List.pairwise_cons] at hd
    rcases List.mem_cons.mp hm with rfl | hm
    · have := (contains_iff m (hs m (by simp)) r c).mpr hc
      simp only [TableMergeMap.stateIn, this, regionState, MergeRegion.isAnchor, Bool.and_eq_true,
        beq_iff_eq, if_true]
    · have hx : ¬ reqCells (regReq x) r c := fun h => hd.1 m hm r c ⟨h, hc⟩
      have h1 : x.contains r c = false := by
        rw [← Bool.not_eq_true, contains_iff x (hs x (by simp))]; exact hx
      have h2 : x.isAnchor r c = false := by
        rw [← Bool.not_eq_true]
        intro ha
        simp only [MergeRegion.isAnchor, Bool.and_eq_true, beq_iff_eq] at ha
        apply hx
        have := hs x (by simp)
        simp only [reqCells, regReq]; omega
      simp only [TableMergeMap.stateIn, h1, h2, Bool.false_eq_true, if_false]
      exact ih (fun y hy => hs y (by simp [hy])) hd.2 hm

theorem cell_unique (r c : Nat) (l : List MergeRegion)
    (hd : l.Pairwise fun a b => ∀ r c, ¬ (reqCells (regReq a) r c ∧ reqCells (regReq b) r c))
    (a b : MergeRegion) (ha : a ∈ l) (hb : b ∈ l) (hac : reqCells (regReq a) r c)
    (hbc : reqCells (regReq b) r c) : a = b := by
  induction l with
  | nil => simp at ha
  | cons x l ih =>
    rw [List.pairwise_cons] at hd
    rcases List.mem_cons.mp ha with ha | ha <;> rcases List.mem_cons.mp hb with hb | hb
    · rw [ha, hb]
    · exact absurd ⟨ha ▸ hac, hbc⟩ (hd.1 b hb r c)
    · exact absurd ⟨hb ▸ hbc, hac⟩ (hd.1 a ha r c)
    · exact ih hd.2 ha hb

/-- **C13**: every cell is either normal and in no region, or in exactly one region, and then
it is that region's anchor or merged away into it. -/
theorem C13_cell_cases (rows cols : Nat) (reqs : List MergeReq) (r c : Nat) :
    ((runMerges rows cols reqs).cellState r c = .normal ∧
      ∀ m ∈ (runMerges rows cols reqs).regions, ¬ reqCells (regReq m) r c) ∨
    (∃ m ∈ (runMerges rows cols reqs).regions, reqCells (regReq m) r c ∧
      (∀ m' ∈ (runMerges rows cols reqs).regions, reqCells (regReq m') r c → m' = m) ∧
      (if r = m.row ∧ c = m.col then
        (runMerges rows cols reqs).cellState r c = .anchor m.rowSpan m.colSpan
      else ((runMerges rows cols reqs).cellState r c).isMergedAway = true)) := by
  obtain ⟨h, _, _⟩ := mergeInv_run rows cols reqs
  by_cases hex : ∃ m ∈ (runMerges rows cols reqs).regions, reqCells (regReq m) r c
  · right
    obtain ⟨m, hm, hc⟩ := hex
    refine ⟨m, hm, hc, ?_, ?_⟩
    · intro m' hm' hc'
      exact cell_unique r c _ h.disjoint m' m hm' hm hc' hc
    · unfold TableMergeMap.cellState
      rw [stateIn_region r c _ h.span h.disjoint m hm hc, regionState]
      split
      · rfl
      · split <;> rfl
  · left
    have hn : ∀ m ∈ (runMerges rows cols reqs).regions, ¬ reqCells (regReq m) r c :=
      fun m hm hc => hex ⟨m, hm, hc⟩
    exact ⟨stateIn_normal r c _ h.span hn, hn⟩

/-- The area a cell is drawn with. -/
def drawnArea : CellMergeState → Nat
  | .normal => 1
  | .anchor rs cs => rs * cs
  | .hMerge => 0
  | .vMerge => 0

open Finset in
theorem area_list (rows cols : Nat) (l : List MergeRegion)
    (hs : ∀ m ∈ l, 0 < m.rowSpan ∧ 0 < m.colSpan)
    (hi : ∀ m ∈ l, m.row + m.rowSpan ≤ rows ∧ m.col + m.colSpan ≤ cols)
    (hd : l.Pairwise fun a b => ∀ r c, ¬ (reqCells (regReq a) r c ∧ reqCells (regReq b) r c)) :
    ∑ p ∈ range rows ×ˢ range cols, drawnArea (TableMergeMap.stateIn p.1 p.2 l) = rows * cols := by
  induction l with
  | nil => simp [TableMergeMap.stateIn, drawnArea, Nat.cast_id]
  | cons m l ih =>
    rw [List.pairwise_cons] at hd
    have hm := hs m (by simp)
    have him := hi m (by simp)
    have ih' := ih (fun x hx => hs x (by simp [hx])) (fun x hx => hi x (by simp [hx])) hd.2
    let R := Ico m.row (m.row + m.rowSpan) ×ˢ Ico m.col (m.col + m.colSpan)
    have hR : R ⊆ range rows ×ˢ range cols := by
      intro p hp
      simp only [R, mem_product, mem_Ico, mem_range] at hp ⊢
      omega
    have memR : ∀ p : Nat × Nat, p ∈ R ↔ reqCells (regReq m) p.1 p.2 := by
      intro p
      simp only [R, mem_product, mem_Ico, reqCells, regReq]
      tauto
    rw [← sum_sdiff hR] at ih' ⊢
    rw [← ih']
    congr 1
    · apply sum_congr rfl
      intro p hp
      have hp2 : ¬ reqCells (regReq m) p.1 p.2 := by
        rw [← memR]; exact (mem_sdiff.mp hp).2
      have h1 : m.contains p.1 p.2 = false := by
        rw [← Bool.not_eq_true, contains_iff m hm]; exact hp2
      have h2 : m.isAnchor p.1 p.2 = false := by
        rw [← Bool.not_eq_true]
        intro ha
        simp only [MergeRegion.isAnchor, Bool.and_eq_true, beq_iff_eq] at ha
        apply hp2
        simp only [reqCells, regReq]; omega
      simp only [TableMergeMap.stateIn, h1, h2, Bool.false_eq_true, if_false]
    · have e1 : ∑ p ∈ R, drawnArea (TableMergeMap.stateIn p.1 p.2 l) = m.rowSpan * m.colSpan := by
        have : ∀ p ∈ R, drawnArea (TableMergeMap.stateIn p.1 p.2 l) = 1 := by
          intro p hp
          rw [stateIn_normal _ _ _ (fun x hx => hs x (by simp [hx]))]
          · rfl
          · intro x hx hc
            exact hd.1 x hx p.1 p.2 ⟨(memR p).mp hp, hc⟩
        rw [sum_congr rfl this]
        simp [R, Nat.cast_id]
      have e2 : ∑ p ∈ R, drawnArea (TableMergeMap.stateIn p.1 p.2 (m :: l)) =
          m.rowSpan * m.colSpan := by
        rw [sum_eq_single (m.row, m.col)]
        · simp [TableMergeMap.stateIn, MergeRegion.isAnchor, drawnArea]
        · intro p hp hne
          have hc := (contains_iff m hm p.1 p.2).mpr ((memR p).mp hp)
          have ha : m.isAnchor p.1 p.2 = false := by
            rw [← Bool.not_eq_true]
            intro ha
            simp only [MergeRegion.isAnchor, Bool.and_eq_true, beq_iff_eq] at ha
            exact hne (Prod.ext ha.1 ha.2)
          simp only [TableMergeMap.stateIn, ha, hc, Bool.false_eq_true, if_false, if_true]
          split <;> rfl
        · intro hn
          exact absurd ((memR (m.row, m.col)).mpr (by simp only [reqCells, regReq]; omega)) hn
      rw [e1, e2]

open Finset in
/-- **C13**: after any sequence of requests the drawn cells tile the table: their areas add up
to the area of the table. -/
theorem C13_areas_add_up (rows cols : Nat) (reqs : List MergeReq) :
    ∑ p ∈ range rows ×ˢ range cols, drawnArea ((runMerges rows cols reqs).cellState p.1 p.2) =
      rows * cols := by
  obtain ⟨h, hr, hc⟩ := mergeInv_run rows cols reqs
  apply area_list rows cols _ h.span _ h.disjoint
  intro m hm
  have := h.inside m hm
  rw [hr, hc] at this
  exact this

example : (runMerges 2 3 [(0, 0, 2, 2)]).cellState 0 0 = .anchor 2 2 ∧
    (runMerges 2 3 [(0, 0, 2, 2)]).cellState 0 1 = .hMerge ∧
    (runMerges 2 3 [(0, 0, 2, 2)]).cellState 1 1 = .vMerge ∧
    (runMerges 2 3 [(0, 0, 2, 2)]).cellState 1 2 = .normal := by decide

end PptRs.Props
