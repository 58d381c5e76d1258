import Verif.Model.AMap
import Mathlib.Data.List.Nodup
import Mathlib.Data.List.Perm.Basic

namespace PptRs.AMap

variable {κ ν : Type} [DecidableEq κ]

theorem get_nil (k : κ) : get ([] : AMap κ ν) k = none := rfl

theorem get_cons (e : κ × ν) (m : AMap κ ν) (k : κ) :
    get (e :: m) k = if e.1 = k then some e.2 else get m k := by
  by_cases h : e.1 = k <;> simp [get, h]

theorem has_eq (m : AMap κ ν) (k : κ) : m.has k = (m.get k).isSome := by
  induction m with
  | nil => rfl
  | cons e m ih =>
    rw [get_cons]
    by_cases h : e.1 = k
    · simp [has, h]
    · simp only [has, List.any_cons, h, decide_false, Bool.false_or, if_false] at *
      exact ih

theorem has_cons (e : κ × ν) (m : AMap κ ν) (k : κ) :
    has (e :: m) k = if e.1 = k then true else has m k := by
  by_cases h : e.1 = k <;> simp [has, h]

theorem has_iff_mem (m : AMap κ ν) (k : κ) : m.has k = true ↔ k ∈ m.keys := by
  simp [has, keys]

theorem get_isSome_iff (m : AMap κ ν) (k : κ) : (m.get k).isSome ↔ k ∈ m.keys := by
  rw [← has_eq, has_iff_mem]

theorem get_eq_none_iff (m : AMap κ ν) (k : κ) : m.get k = none ↔ k ∉ m.keys := by
  rw [← get_isSome_iff]; cases m.get k <;> simp

theorem get_append (m n : AMap κ ν) (k : κ) : get (m ++ n) k = (get m k).or (get n k) := by
  induction m with
  | nil => simp [get_nil]
  | cons e m ih =>
    rw [List.cons_append, get_cons, get_cons, ih]
    by_cases h : e.1 = k <;> simp [h]

theorem get_mapSet (m : AMap κ ν) (k : κ) (v : ν) (k' : κ) :
    get (m.map fun e => if e.1 = k then (k, v) else e) k' =
      if k' = k then (if m.has k then some v else none) else get m k' := by
  induction m with
  | nil => simp [get_nil, has]
  | cons e m ih =>
    rw [List.map_cons, get_cons, ih, get_cons]
    by_cases h : e.1 = k
    · by_cases hk : k' = k
      · subst hk; simp [h, has_cons]
      · have : ¬ k = k' := fun h => hk h.symm
        simp [h, hk, this]
    · by_cases hk : k' = k
      · subst hk; simp [h, has_cons]
      · simp [h, hk]

theorem get_insert (m : AMap κ ν) (k : κ) (v : ν) (k' : κ) :
    (m.insert k v).get k' = if k' = k then some v else m.get k' := by
  unfold insert
  by_cases h : m.has k = true
  · rw [if_pos h, get_mapSet, if_pos h]
  · rw [if_neg h, get_append, get_cons, get_nil]
    by_cases hk : k' = k
    · subst hk
      have : m.get k' = none := by
        rw [has_eq] at h; simpa using h
      simp [this]
    · have : ¬ k = k' := fun h => hk h.symm
      simp [hk, this]

theorem get_remove (m : AMap κ ν) (k k' : κ) :
    (m.remove k).get k' = if k' = k then none else m.get k' := by
  induction m with
  | nil => simp [remove, get_nil]
  | cons e m ih =>
    unfold remove at *
    rw [List.filter_cons, get_cons]
    by_cases h : e.1 = k
    · simp only [h, ne_eq, not_true, decide_false, Bool.false_eq_true, if_false, ih]
      by_cases hk : k' = k
      · simp [hk]
      · have : ¬ k = k' := fun h => hk h.symm
        simp [hk, this]
    · simp only [h, ne_eq, not_false_iff, decide_true, if_true, get_cons, ih]
      by_cases hk : k' = k
      · subst hk; simp [h]
      · simp [hk]

theorem keys_insert (m : AMap κ ν) (k : κ) (v : ν) :
    (m.insert k v).keys = if m.has k then m.keys else m.keys ++ [k] := by
  unfold insert keys
  split
  · rw [List.map_map]
    apply List.map_congr_left
    intro e _
    by_cases h : e.1 = k <;> simp [h]
  · simp

theorem Ok_nil : Ok ([] : AMap κ ν) := List.nodup_nil

theorem Ok.insert {m : AMap κ ν} (h : m.Ok) (k : κ) (v : ν) : (m.insert k v).Ok := by
  have e := keys_insert m k v
  unfold keys at e
  unfold Ok
  rw [e]
  split
  · exact h
  · rename_i hh
    rw [has_iff_mem] at hh
    rw [List.nodup_append]
    refine ⟨h, by simp, ?_⟩
    intro a ha b hb
    simp only [List.mem_singleton] at hb
    subst hb
    exact fun hab => hh (by rw [← hab]; exact ha)

theorem Ok.remove {m : AMap κ ν} (h : m.Ok) (k : κ) : (m.remove k).Ok := by
  unfold Ok at *
  exact h.sublist ((List.filter_sublist).map _)

theorem mem_iff_get {m : AMap κ ν} (h : m.Ok) (k : κ) (v : ν) : (k, v) ∈ m ↔ m.get k = some v := by
  induction m with
  | nil => simp [get_nil]
  | cons e m ih =>
    unfold Ok at h ih
    rw [List.map_cons, List.nodup_cons] at h
    rw [get_cons, List.mem_cons, ih h.2]
    by_cases hk : e.1 = k
    · subst hk
      have : AMap.get m e.1 = none := by
        rw [get_eq_none_iff]; exact h.1
      simp [this, Prod.ext_iff, eq_comm]
    · have : ¬ k = e.1 := fun h => hk h.symm
      simp [hk, Prod.ext_iff, this]

theorem get_perm {m n : AMap κ ν} (h : m.Ok) (p : m.Perm n) (k : κ) : m.get k = n.get k := by
  have hn : n.Ok := (p.map _).nodup_iff.mp h
  apply Option.ext
  intro v
  rw [← mem_iff_get h, ← mem_iff_get hn]
  exact p.mem_iff

end PptRs.AMap
