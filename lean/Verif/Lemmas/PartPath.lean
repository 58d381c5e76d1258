import Verif.Lemmas.Builder

/-!
# Part names determine parts
-/

namespace PptRs

open PptRs.Spec

/-- A part name of the builder itself, not copied from a template. -/
def PartName.Own : PartName → Prop
  | .templatePart _ => False
  | _ => True

theorem dec_append_inj {m n : Nat} {a b : Str} {c : Char} (hc : c.isDigit = false)
    (h : dec m ++ c :: a = dec n ++ c :: b) : m = n ∧ a = b := by
  have h1 := splitChar_append_sep (b := a) (not_mem_dec (n := m) hc)
  have key : ∀ {x y a b : Str}, c ∉ x → c ∉ y → x ++ c :: a = y ++ c :: b → x = y ∧ a = b := by
    intro x
    induction x with
    | nil =>
      intro y a b _ hy h
      cases y with
      | nil => simpa using h
      | cons d y => simp at h; simp [h.1] at hy
    | cons e x ih =>
      intro y a b hx hy h
      cases y with
      | nil => simp at h; simp [h.1] at hx
      | cons d y =>
        simp at h hx hy
        obtain ⟨h1, h2⟩ := h
        obtain ⟨h3, h4⟩ := ih hx.2 hy.2 h2
        exact ⟨by rw [h1, h3], h4⟩
  obtain ⟨h2, h3⟩ := key (not_mem_dec hc) (not_mem_dec hc) h
  exact ⟨dec_inj h2, h3⟩

theorem dec_dot_inj {m n : Nat} {a b : Str} (h : dec m ++ '.' :: a = dec n ++ '.' :: b) :
    m = n ∧ a = b := dec_append_inj (by decide) h

set_option maxHeartbeats 4000000 in
theorem PartName.path_inj {p q : PartName} (hp : p.Own) (hq : q.Own) (h : p.path = q.path) :
    p = q := by
  cases p <;> cases q <;> simp [PartName.path, PartName.Own] at h hp hq ⊢
  all_goals first
    | exact (dec_dot_inj h).1
    | exact dec_dot_inj h
    | exact h
    | exact dec_inj h

end PptRs
