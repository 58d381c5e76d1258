import Verif.Model.Files
import Mathlib.Data.List.Basic

/-!
# C55, C56: concurrent compressions and interrupted saves
-/

namespace PptRs.Props

open PptRs

/-! ## C55 -/

/-- The whole of a call that is not interrupted. -/
theorem alone (comp : Bytes → Option Bytes) (d : Bytes) (m : Machine) (i : Nat)
    (h : m.calls[i]? = some (d, .start)) :
    (m.run comp (List.replicate 8 i)).calls = m.calls.set i (d, .done (comp d)) := by
  have hi : i < m.calls.length := by
    rcases Nat.lt_or_ge i m.calls.length with h' | h'
    · exact h'
    · rw [List.getElem?_eq_none h'] at h; cases h
  have stp : ∀ (n : Machine) (c : CallState), n.calls = m.calls.set i (d, c) →
      n.step comp i = ⟨(c.step comp d n.files).1, m.calls.set i (d, (c.step comp d n.files).2)⟩ := by
    intro n c hn
    unfold Machine.step
    have e : n.calls[i]? = some (d, c) := by rw [hn]; simp [hi]
    rw [e]
    simp only
    rw [hn, List.set_set]
  have fin : ∀ (k : Nat) (n : Machine) (r : Option Bytes), n.calls = m.calls.set i (d, .done r) →
      (n.run comp (List.replicate k i)).calls = m.calls.set i (d, .done r) := by
    intro k
    induction k with
    | zero => exact fun n r hn => hn
    | succ k ih =>
      intro n r hn
      unfold Machine.run
      rw [List.replicate_succ, List.foldl_cons, stp n _ hn]
      exact ih _ r rfl
  have e0 : m.calls = m.calls.set i (d, .start) := by
    apply List.ext_getElem?
    intro j
    rw [List.getElem?_set]
    split
    · rename_i hj; subst hj; rw [h]
    · rfl
  have rs : ∀ (k : Nat) (n : Machine), n.run comp (List.replicate (k + 1) i) =
      (n.step comp i).run comp (List.replicate k i) := fun k n => rfl
  rw [rs, stp m _ e0]
  simp only [CallState.step]
  cases hc : comp d with
  | none =>
    rw [rs, stp _ .opening rfl]
    simp only [CallState.step, hc, Option.isSome_none, Bool.false_eq_true, if_false]
    exact fin _ _ _ rfl
  | some r =>
    rw [rs, stp _ .opening rfl]
    simp only [CallState.step, hc, Option.isSome_some, if_true]
    rw [rs, stp _ (.sizing d) rfl]
    simp only [CallState.step, Option.isSome_some, if_true]
    rw [rs, stp _ (.saving d) rfl]
    simp only [CallState.step, hc]
    rw [rs, stp _ .sizing2 rfl]
    simp only [CallState.step, Option.isSome_some, if_true]
    rw [rs, stp _ .reading rfl]
    simp only [CallState.step]
    rw [rs, stp _ (.removing1 r) rfl]
    simp only [CallState.step]
    rw [rs, stp _ (.removing2 r) rfl]
    simp only [CallState.step]
    rfl

/-- **C55**: a call that succeeds without being interrupted leaves no temporary file behind, whatever was
there before. (Missing: calls that fail, see `C55_leak_violated`, and calls that overlap.) -/
theorem C55_cleanup_partial (comp : Bytes → Option Bytes) (d r : Bytes) (m : Machine) (i : Nat)
    (h : m.calls[i]? = some (d, .start)) (hr : comp d = some r) :
    (m.run comp (List.replicate 8 i)).files = ⟨none, none⟩ := by
  have hi : i < m.calls.length := by
    rcases Nat.lt_or_ge i m.calls.length with h' | h'
    · exact h'
    · rw [List.getElem?_eq_none h'] at h; cases h
  have he : m.calls[i] = (d, .start) := by rw [List.getElem?_eq_getElem hi] at h; exact Option.some.inj h
  simp [Machine.run, Machine.step, CallState.step, List.replicate, he, hi, hr]

/-- **C55**: a call that fails leaves its input behind. -/
theorem C55_leak_violated (comp : Bytes → Option Bytes) (d : Bytes) (m : Machine) (i : Nat)
    (h : m.calls[i]? = some (d, .start)) (hr : comp d = none) :
    (m.run comp (List.replicate 8 i)).files.input = some d := by
  have hi : i < m.calls.length := by
    rcases Nat.lt_or_ge i m.calls.length with h' | h'
    · exact h'
    · rw [List.getElem?_eq_none h'] at h; cases h
  have he : m.calls[i] = (d, .start) := by rw [List.getElem?_eq_getElem hi] at h; exact Option.some.inj h
  simp [Machine.run, Machine.step, CallState.step, List.replicate, he, hi, hr]

example : ((Machine.mk ⟨none, none⟩ [([1], .start)]).run (fun d => some (0 :: d)) (List.replicate 8 0)) =
    ⟨⟨none, none⟩, [([1], .done (some [0, 1]))]⟩ := by decide

/-- **C55**, what does hold: calls that run one after the other, in any order, return the compression of
their own input, whatever the temporary files contain before. (Missing: calls that overlap.) -/
theorem C55_one_after_another_partial (comp : Bytes → Option Bytes) (files : TempFiles) (data : List Bytes)
    (order : List Nat) (hn : order.Nodup) (i : Nat) (hi : i ∈ order) (d : Bytes) (hd : data[i]? = some d) :
    ((Machine.mk files (data.map fun d => (d, .start))).run comp (order.flatMap (List.replicate 8))).calls[i]? =
      some (d, .done (comp d)) := by
  have k : ∀ (order : List Nat) (m : Machine), order.Nodup →
      (∀ j ∈ order, ∀ c, m.calls[j]? = some c → c.2 = .start) →
      ∀ i d c, m.calls[i]? = some (d, c) →
        (m.run comp (order.flatMap (List.replicate 8))).calls[i]? =
          some (d, if i ∈ order then .done (comp d) else c) := by
    intro order
    induction order with
    | nil => intro m _ _ i d c h; simpa [Machine.run] using h
    | cons j order ih =>
      intro m hn hs i d c h
      have hn' := List.nodup_cons.mp hn
      have e : m.run comp ((j :: order).flatMap (List.replicate 8)) =
          (m.run comp (List.replicate 8 j)).run comp (order.flatMap (List.replicate 8)) := by
        unfold Machine.run
        rw [List.flatMap_cons, List.foldl_append]
      rw [e]
      have hcalls : (∃ dj, m.calls[j]? = some (dj, .start) ∧
          (m.run comp (List.replicate 8 j)).calls = m.calls.set j (dj, .done (comp dj))) ∨
          (m.calls[j]? = none ∧ (m.run comp (List.replicate 8 j)).calls = m.calls) := by
        cases hj : m.calls[j]? with
        | none =>
          right
          refine ⟨rfl, ?_⟩
          have : m.step comp j = m := by unfold Machine.step; rw [hj]
          unfold Machine.run
          have t : ∀ k, (List.replicate k j).foldl (Machine.step comp) m = m := by
            intro k
            induction k with
            | zero => rfl
            | succ k ih => rw [List.replicate_succ, List.foldl_cons, this, ih]
          rw [t]
        | some c =>
          left
          obtain ⟨dj, cj⟩ := c
          have := hs j List.mem_cons_self _ hj
          simp only at this
          subst this
          exact ⟨dj, rfl, alone comp dj m j hj⟩
      rcases hcalls with ⟨dj, hj, hc⟩ | ⟨hj, hc⟩
      · have hjl : j < m.calls.length := by
          rcases Nat.lt_or_ge j m.calls.length with h' | h'
          · exact h'
          · rw [List.getElem?_eq_none h'] at hj; cases hj
        by_cases hij : i = j
        · subst hij
          rw [h] at hj
          cases hj
          rw [ih _ hn'.2 ?_ i d (.done (comp d)) (by rw [hc]; simp [hjl])]
          · rw [if_neg hn'.1, if_pos List.mem_cons_self]
          · intro x hx c' hc'
            have hne : i ≠ x := by rintro rfl; exact hn'.1 hx
            rw [hc, List.getElem?_set_ne hne] at hc'
            exact hs x (List.mem_cons_of_mem _ hx) c' hc'
        · rw [ih _ hn'.2 ?_ i d c (by rw [hc, List.getElem?_set_ne (Ne.symm hij)]; exact h)]
          · simp only [List.mem_cons, hij, false_or]
          · intro x hx c' hc'
            have hne : j ≠ x := by rintro rfl; exact hn'.1 hx
            rw [hc, List.getElem?_set_ne hne] at hc'
            exact hs x (List.mem_cons_of_mem _ hx) c' hc'
      · have hij : i ≠ j := by rintro rfl; rw [h] at hj; cases hj
        rw [ih _ hn'.2 ?_ i d c (by rw [hc]; exact h)]
        · simp only [List.mem_cons, hij, false_or]
        · intro x hx c' hc'
          rw [hc] at hc'
          exact hs x (List.mem_cons_of_mem _ hx) c' hc'
  have := k order ⟨files, data.map fun d => (d, .start)⟩ hn ?_ i d .start (by simp [hd])
  · rw [this, if_pos hi]
  · intro j _ c hc
    simp only [List.getElem?_map] at hc
    obtain ⟨x, _, rfl⟩ := Option.map_eq_some_iff.mp hc
    rfl

/-- **C55** fails: for any two inputs there is a schedule of two calls in which the first call returns the
compression of the second call's input. -/
theorem C55_mixed_up_violated (comp : Bytes → Option Bytes) (files : TempFiles) (d1 d2 r2 : Bytes)
    (h2 : comp d2 = some r2) :
    ((Machine.mk files [(d1, .start), (d2, .start)]).run comp [0, 1, 0, 0, 0, 0, 0, 0, 0]).calls[0]? =
      some (d1, .done (some r2)) := by
  simp [Machine.run, Machine.step, CallState.step, h2]

/-- **C55** fails: for any two inputs there is a schedule in which the first call reports an error although
both inputs are packages. -/
theorem C55_spurious_error_violated (comp : Bytes → Option Bytes) (files : TempFiles) (d1 d2 r2 : Bytes)
    (h2 : comp d2 = some r2) :
    ((Machine.mk files [(d1, .start), (d2, .start)]).run comp [0, 1, 1, 1, 1, 1, 1, 1, 1, 0]).calls[0]? =
      some (d1, .done none) := by
  simp [Machine.run, Machine.step, CallState.step, h2]

example : ((Machine.mk ⟨none, none⟩ [([1], .start), ([2], .start)]).run (fun d => some (d ++ [0]))
    [1, 1, 1, 1, 1, 1, 1, 1, 0, 0, 0, 0, 0, 0, 0, 0]).calls =
    [([1], .done (some [1, 0])), ([2], .done (some [2, 0]))] := by decide

/-! ## C56 -/

theorem foldl_go (done : Bytes) (pieces : List Bytes) :
    (fsWriteOps.go done.length pieces).foldl FileOp.apply (some done) = some (done ++ pieces.flatten) := by
  induction pieces generalizing done with
  | nil => simp [fsWriteOps.go]
  | cons b rest ih =>
    rw [fsWriteOps.go, List.foldl_cons]
    have e : FileOp.apply (some done) (.write done.length b) = some (done ++ b) := by
      simp [FileOp.apply]
    rw [e, ← List.length_append, ih]
    simp

theorem take_go (k pos : Nat) (pieces : List Bytes) :
    (fsWriteOps.go pos pieces).take k = fsWriteOps.go pos (pieces.take k) := by
  induction pieces generalizing k pos with
  | nil => simp [fsWriteOps.go]
  | cons b rest ih =>
    cases k with
    | zero => rfl
    | succ k => rw [fsWriteOps.go, List.take_succ_cons, List.take_succ_cons, fsWriteOps.go, ih]

/-- **C56**, what does hold: whenever saving a presentation stops, the file is the old file or a beginning of
the new one; if it stops before the first operation it is the old file, if it runs to its end the new one.
(Missing: the old deck survives an interruption in between.) -/
theorem C56_old_or_beginning_partial (pieces : List Bytes) (old : Option Bytes) (k : Nat) :
    fileAfter (fsWriteOps pieces) 0 old = old ∧
    fileAfter (fsWriteOps pieces) (pieces.length + 1) old = some pieces.flatten ∧
    (fileAfter (fsWriteOps pieces) k old = old ∨
      ∃ b, fileAfter (fsWriteOps pieces) k old = some b ∧ b <+: pieces.flatten) := by
  have main : ∀ k, fileAfter (fsWriteOps pieces) (k + 1) old = some (pieces.take k).flatten := by
    intro k
    unfold fileAfter fsWriteOps
    rw [List.take_succ_cons, List.foldl_cons, take_go]
    exact foldl_go [] _
  refine ⟨rfl, ?_, ?_⟩
  · rw [main, List.take_length]
  · cases k with
    | zero => exact .inl rfl
    | succ k =>
      refine .inr ⟨_, main k, (pieces.drop k).flatten, ?_⟩
      rw [← List.flatten_append, List.take_append_drop]

/-- **C56** fails: whatever is saved over whatever deck, there is a moment at which the file is empty, both
when a presentation is saved and when a package is saved. -/
theorem C56_empty_file_violated (old new : Bytes) (ho : old ≠ []) (hn : new ≠ []) (pieces : List Bytes)
    (writes : List (Nat × Bytes)) :
    (fileAfter (fsWriteOps pieces) 1 (some old) ≠ some old ∧
      fileAfter (fsWriteOps pieces) 1 (some old) ≠ some new) ∧
    fileAfter (packageSaveOps writes) 1 (some old) ≠ some old ∧
    fileAfter (packageSaveOps writes) 1 (some old) ≠ some new := by
  have e1 : fileAfter (fsWriteOps pieces) 1 (some old) = some [] := rfl
  have e2 : fileAfter (packageSaveOps writes) 1 (some old) = some [] := rfl
  rw [e1, e2]
  exact ⟨⟨fun h => ho (Option.some.inj h).symm, fun h => hn (Option.some.inj h).symm⟩,
    fun h => ho (Option.some.inj h).symm, fun h => hn (Option.some.inj h).symm⟩

example : (List.range 4).map (fun k => fileAfter (fsWriteOps [[1, 2], [3]]) k (some [9])) =
    [some [9], some [], some [1, 2], some [1, 2, 3]] := by decide

end PptRs.Props
