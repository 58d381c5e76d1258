import Verif.Model.Str

namespace PptRs

theorem dec_inj {m n : Nat} (h : dec m = dec n) : m = n := by
  have := congrArg (fun l => Nat.ofDigitChars 10 l 0) h
  simpa [dec] using this

theorem dec_ne_nil (n : Nat) : dec n ≠ [] := Nat.toDigits_ne_nil

theorem isDigit_of_mem_dec {n : Nat} {c : Char} (h : c ∈ dec n) : c.isDigit = true :=
  Nat.isDigit_of_mem_toDigits (by decide) (by decide) h

theorem not_mem_dec {n : Nat} {c : Char} (h : c.isDigit = false) : c ∉ dec n := by
  intro hc; have := isDigit_of_mem_dec hc; simp_all

theorem parseU32_dec {n : Nat} (h : n < 4294967296) : parseU32? (dec n) = some n := by
  have hne := dec_ne_nil n
  have hd : (dec n).all isDig = true := by
    simp only [List.all_eq_true]; intro c hc; exact isDigit_of_mem_dec hc
  have hbody : dropPlus (dec n) = dec n := by
    unfold dropPlus
    split
    · rename_i t heq
      exact absurd (heq ▸ List.mem_cons_self) (not_mem_dec (n := n) (c := '+') (by decide))
    · rfl
  unfold parseU32?
  simp only [hbody, hne, hd, if_true, if_false]
  have : Nat.ofDigitChars 10 (dec n) 0 = n := by simp [dec]
  simp [this, h]

@[simp] theorem stripPrefix?_append (p s : Str) : stripPrefix? p (p ++ s) = some s := by
  induction p with
  | nil => cases s <;> rfl
  | cons c p ih => simp [stripPrefix?, ih]

@[simp] theorem stripPrefix?_nil (s : Str) : stripPrefix? [] s = some s := by cases s <;> rfl

theorem stripPrefix?_eq_some {p s r : Str} : stripPrefix? p s = some r ↔ s = p ++ r := by
  induction p generalizing s with
  | nil => simp [eq_comm]
  | cons c p ih =>
    cases s with
    | nil => simp [stripPrefix?]
    | cons d s =>
      simp only [stripPrefix?]
      split
      · subst_vars; simp [ih]
      · simp; intro h; exact absurd h.symm ‹_›

theorem startsWith_iff {p s : Str} : startsWith p s = true ↔ ∃ r, s = p ++ r := by
  simp only [startsWith, List.isPrefixOf_iff_prefix, List.IsPrefix]
  exact ⟨fun ⟨r, h⟩ => ⟨r, h.symm⟩, fun ⟨r, h⟩ => ⟨r, h.symm⟩⟩

theorem stripPrefix?_isSome {p s : Str} : (stripPrefix? p s).isSome = startsWith p s := by
  rw [Bool.eq_iff_iff, startsWith_iff, Option.isSome_iff_exists]
  simp [stripPrefix?_eq_some]

/-- `splitOnce?` returns a decomposition around the pattern. -/
theorem splitOnce?_some {p s a b : Str} (h : splitOnce? p s = some (a, b)) :
    s = a ++ p ++ b := by
  induction s generalizing a b with
  | nil =>
    simp only [splitOnce?] at h
    split at h
    · subst_vars; simp at h; obtain ⟨rfl, rfl⟩ := h; rfl
    · simp at h
  | cons c cs ih =>
    simp only [splitOnce?] at h
    split at h
    · rename_i rest hr
      simp at h; obtain ⟨rfl, rfl⟩ := h
      exact stripPrefix?_eq_some.mp hr
    · simp only [Option.map_eq_some_iff, Prod.mk.injEq] at h
      obtain ⟨⟨a', b'⟩, h1, rfl, rfl⟩ := h
      simp [ih h1]

/-- `splitOnce?` succeeds whenever the pattern occurs. -/
theorem splitOnce?_isSome (p a b : Str) : (splitOnce? p (a ++ p ++ b)).isSome = true := by
  induction a with
  | nil =>
    cases hs : p ++ b with
    | nil =>
      obtain ⟨rfl, rfl⟩ : p = [] ∧ b = [] := by simpa using hs
      rfl
    | cons c cs =>
      have : stripPrefix? p (c :: cs) = some b := by rw [← hs]; simp
      simp only [List.nil_append, hs, splitOnce?, this, Option.isSome_some]
  | cons c a ih =>
    simp only [List.cons_append, splitOnce?]
    split
    · rfl
    · simpa using ih

theorem containsStr_iff {p s : Str} : containsStr p s = true ↔ ∃ a b, s = a ++ p ++ b := by
  constructor
  · intro h
    obtain ⟨⟨a, b⟩, h⟩ := Option.isSome_iff_exists.mp h
    exact ⟨a, b, splitOnce?_some h⟩
  · rintro ⟨a, b, rfl⟩
    exact splitOnce?_isSome p a b

theorem containsStr_iff_infix {p s : Str} : containsStr p s = true ↔ p <:+: s := by
  rw [containsStr_iff]
  exact ⟨fun ⟨a, b, h⟩ => ⟨a, b, h.symm⟩, fun ⟨a, b, h⟩ => ⟨a, b, h.symm⟩⟩

/-- If the first character of the pattern does not occur in `a`, the first occurrence of the
pattern in `a ++ pat ++ b` is the displayed one. -/
theorem splitOnce?_append_of_notMem {c : Char} {p a b : Str} (h : c ∉ a) :
    splitOnce? (c :: p) (a ++ (c :: p) ++ b) = some (a, b) := by
  induction a with
  | nil =>
    have : stripPrefix? (c :: p) (c :: (p ++ b)) = some b := by
      simpa using stripPrefix?_append (c :: p) b
    simp only [List.nil_append, List.cons_append, splitOnce?, this]
  | cons d a ih =>
    have hd : c ≠ d := by intro hh; simp_all
    have ha : c ∉ a := by simp_all
    simp only [List.cons_append, splitOnce?, stripPrefix?, hd, if_false]
    have := ih ha
    simp only [List.cons_append, List.append_assoc] at this
    simp [this]

theorem splitOnce?_none_of_notMem {c : Char} {p s : Str} (h : c ∉ s) :
    splitOnce? (c :: p) s = none := by
  induction s with
  | nil => simp [splitOnce?]
  | cons d s ih =>
    have hd : c ≠ d := by intro hh; simp_all
    have hs : c ∉ s := by simp_all
    simp [splitOnce?, stripPrefix?, hd, ih hs]

/-! ### `replaceChar` -/

@[simp] theorem replaceChar_nil (c : Char) (r : Str) : replaceChar c r [] = [] := rfl

theorem replaceChar_cons (c : Char) (r : Str) (d : Char) (s : Str) :
    replaceChar c r (d :: s) = (if d = c then r else [d]) ++ replaceChar c r s := by
  simp [replaceChar]

theorem replaceChar_append (c : Char) (r s t : Str) :
    replaceChar c r (s ++ t) = replaceChar c r s ++ replaceChar c r t := by
  simp [replaceChar]

theorem replaceChar_of_notMem {c : Char} {r s : Str} (h : c ∉ s) : replaceChar c r s = s := by
  induction s with
  | nil => rfl
  | cons d s ih =>
    have hd : d ≠ c := by intro hh; simp_all
    have hs : c ∉ s := by simp_all
    simp [replaceChar_cons, hd, ih hs]

theorem replaceChar_flatMap (c : Char) (r : Str) (f : Char → Str) (s : Str) :
    replaceChar c r (s.flatMap f) = s.flatMap fun d => replaceChar c r (f d) := by
  simp [replaceChar, List.flatMap_assoc]

/-! ### `splitChar` / `joinStr` -/

theorem splitChar_ne_nil (sep : Char) (s : Str) : splitChar sep s ≠ [] := by
  cases s with
  | nil => simp [splitChar]
  | cons c s =>
    simp only [splitChar]
    split
    · simp
    · split <;> simp

theorem joinStr_cons_of_ne_nil (sep x : Str) {xs : List Str} (h : xs ≠ []) :
    joinStr sep (x :: xs) = x ++ sep ++ joinStr sep xs := by
  cases xs with
  | nil => exact absurd rfl h
  | cons y ys => rfl

theorem joinStr_splitChar (sep : Char) (s : Str) : joinStr [sep] (splitChar sep s) = s := by
  induction s with
  | nil => rfl
  | cons c s ih =>
    simp only [splitChar]
    split
    · subst_vars
      rw [joinStr_cons_of_ne_nil _ _ (splitChar_ne_nil _ _), ih]; rfl
    · split
      · rename_i h; exact absurd h (splitChar_ne_nil _ _)
      · rename_i x xs h
        rw [h] at ih
        cases xs with
        | nil => simp [joinStr] at ih ⊢; exact ih
        | cons y ys => simp [joinStr] at ih ⊢; exact ih

theorem notMem_of_mem_splitChar {sep : Char} {s x : Str} (h : x ∈ splitChar sep s) :
    sep ∉ x := by
  induction s generalizing x with
  | nil => simp [splitChar] at h; simp [h]
  | cons c s ih =>
    simp only [splitChar] at h
    split at h
    · rcases List.mem_cons.mp h with rfl | h
      · simp
      · exact ih h
    · split at h
      · rename_i h'; exact absurd h' (splitChar_ne_nil _ _)
      · rename_i hc _ y ys hy
        rcases List.mem_cons.mp h with rfl | h
        · have := ih (x := y) (by simp [hy])
          simp [this, Ne.symm hc]
        · exact ih (by simp [hy, h])

theorem splitChar_of_notMem {sep : Char} {s : Str} (h : sep ∉ s) : splitChar sep s = [s] := by
  induction s with
  | nil => rfl
  | cons c s ih =>
    have hc : c ≠ sep := by intro hh; simp_all
    have hs : sep ∉ s := by simp_all
    simp [splitChar, hc, ih hs]

theorem splitChar_append_sep {sep : Char} {a b : Str} (h : sep ∉ a) :
    splitChar sep (a ++ sep :: b) = a :: splitChar sep b := by
  induction a with
  | nil => simp [splitChar]
  | cons c a ih =>
    have hc : c ≠ sep := by intro hh; simp_all
    have ha : sep ∉ a := by simp_all
    simp [splitChar, hc, ih ha]

theorem splitChar_joinStr {sep : Char} {xs : List Str} (hne : xs ≠ [])
    (h : ∀ x ∈ xs, sep ∉ x) : splitChar sep (joinStr [sep] xs) = xs := by
  induction xs with
  | nil => exact absurd rfl hne
  | cons x xs ih =>
    cases xs with
    | nil => simpa [joinStr] using splitChar_of_notMem (h x (by simp))
    | cons y ys =>
      have hx : sep ∉ x := h x (by simp)
      have hj : joinStr [sep] (x :: y :: ys) = x ++ sep :: joinStr [sep] (y :: ys) := by
        simp [joinStr]
      rw [hj, splitChar_append_sep hx, ih (by simp) (fun z hz => h z (by simp_all))]

end PptRs
