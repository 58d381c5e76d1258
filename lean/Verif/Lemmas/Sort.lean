import Verif.Model.Sort

namespace PptRs

variable {α : Type} (key : α → Nat)

theorem insertByKey_perm (x : α) (l : List α) : (insertByKey key x l).Perm (x :: l) := by
  induction l with
  | nil => exact List.Perm.refl _
  | cons y l ih =>
    simp only [insertByKey]
    split
    · exact List.Perm.refl _
    · exact (ih.cons y).trans (List.Perm.swap _ _ _)

theorem sortByKey_perm (l : List α) : (sortByKey key l).Perm l := by
  induction l with
  | nil => exact List.Perm.refl _
  | cons x l ih => exact (insertByKey_perm key x _).trans (ih.cons x)

theorem insertByKey_sorted (x : α) (l : List α) (h : l.Pairwise fun a b => key a ≤ key b) :
    (insertByKey key x l).Pairwise fun a b => key a ≤ key b := by
  induction l with
  | nil => simp [insertByKey]
  | cons y l ih =>
    rw [List.pairwise_cons] at h
    simp only [insertByKey]
    split
    · rename_i hxy
      rw [List.pairwise_cons]
      refine ⟨?_, List.pairwise_cons.mpr h⟩
      intro z hz
      rcases List.mem_cons.mp hz with rfl | hz
      · exact hxy
      · exact Nat.le_trans hxy (h.1 z hz)
    · rename_i hxy
      rw [List.pairwise_cons]
      refine ⟨?_, ih h.2⟩
      intro z hz
      rcases List.mem_cons.mp ((insertByKey_perm key x l).mem_iff.mp hz) with rfl | hz
      · omega
      · exact h.1 z hz

theorem sortByKey_sorted (l : List α) : (sortByKey key l).Pairwise fun a b => key a ≤ key b := by
  induction l with
  | nil => exact List.Pairwise.nil
  | cons x l ih => exact insertByKey_sorted key x _ ih

/-- A list that is already sorted is unchanged. -/
theorem sortByKey_of_sorted (l : List α) (h : l.Pairwise fun a b => key a ≤ key b) :
    sortByKey key l = l := by
  induction l with
  | nil => rfl
  | cons x l ih =>
    rw [List.pairwise_cons] at h
    rw [sortByKey, ih h.2]
    cases l with
    | nil => rfl
    | cons y l => simp [insertByKey, h.1 y (by simp)]

theorem insertByKey_filter (x : α) (l : List α) (k : Nat) :
    (insertByKey key x l).filter (fun a => key a = k) =
      (x :: l).filter (fun a => key a = k) := by
  induction l with
  | nil => rfl
  | cons y l ih =>
    simp only [insertByKey]
    split
    · rfl
    · rename_i hxy
      rw [List.filter_cons, ih]
      by_cases h1 : key x = k <;> by_cases h2 : key y = k <;> simp [h1, h2] <;> omega

/-- Stability: elements with the same key keep their order. -/
theorem sortByKey_stable (l : List α) (k : Nat) :
    (sortByKey key l).filter (fun a => key a = k) = l.filter (fun a => key a = k) := by
  induction l with
  | nil => rfl
  | cons x l ih =>
    rw [sortByKey, insertByKey_filter, List.filter_cons, List.filter_cons, ih]

end PptRs
