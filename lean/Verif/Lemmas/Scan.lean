import Verif.Model.Repair
import Verif.Lemmas.Str

/-!
# Searching for a pattern with a quotation mark in it
-/

namespace PptRs

theorem first_quote {q : Char} {a b x y : Str} (ha : q ∉ a) (hb : q ∉ b) (h : a ++ q :: x = b ++ q :: y) :
    a = b ∧ x = y := by
  induction a generalizing b with
  | nil =>
    cases b with
    | nil => simpa using h
    | cons d b =>
      simp only [List.nil_append, List.cons_append, List.cons.injEq] at h
      exact absurd (by simp [h.1]) hb
  | cons c a ih =>
    cases b with
    | nil =>
      simp only [List.nil_append, List.cons_append, List.cons.injEq] at h
      exact absurd (by simp [h.1]) ha
    | cons d b =>
      simp only [List.cons_append, List.cons.injEq] at h
      obtain ⟨h1, h2⟩ := ih (b := b) (fun e => ha (by simp [e])) (fun e => hb (by simp [e])) h.2
      exact ⟨by rw [h.1, h1], h2⟩

/-- The pattern does not begin in the text up to the quotation mark. -/
theorem splitOnce?_skip {q : Char} {p1 p2 s t : Str} (hp : q ∉ p1) (hs : q ∉ s) (h : ¬ (p1 <:+ s ∧ p2 <+: t)) :
    splitOnce? (p1 ++ q :: p2) (s ++ q :: t) =
      (splitOnce? (p1 ++ q :: p2) t).map fun r => (s ++ q :: r.1, r.2) := by
  have none : ∀ s' : Str, s' <:+ s → stripPrefix? (p1 ++ q :: p2) (s' ++ q :: t) = none := by
    intro s' hs'
    cases hm : stripPrefix? (p1 ++ q :: p2) (s' ++ q :: t) with
    | none => rfl
    | some r =>
      exfalso
      have e := stripPrefix?_eq_some.mp hm
      rw [List.append_assoc, List.cons_append] at e
      obtain ⟨e1, e2⟩ := first_quote (fun hx => hs (hs'.subset hx)) hp e
      exact h ⟨e1 ▸ hs', ⟨r, e2.symm⟩⟩
  have k : ∀ s' : Str, s' <:+ s → splitOnce? (p1 ++ q :: p2) (s' ++ q :: t) =
      (splitOnce? (p1 ++ q :: p2) t).map fun r => (s' ++ q :: r.1, r.2) := by
    intro s'
    induction s' with
    | nil =>
      intro hs'
      have := none [] hs'
      rw [List.nil_append] at this ⊢
      rw [splitOnce?, this]
      rfl
    | cons c s' ih =>
      intro hs'
      have h1 := none _ hs'
      rw [List.cons_append] at h1 ⊢
      rw [splitOnce?, h1]
      simp only
      rw [ih ((List.suffix_cons c s').trans hs'), Option.map_map]
      rfl
  exact k s (List.suffix_refl s)

/-- The first occurrence is the one whose quotation mark is the first. -/
theorem splitOnce?_hit {q : Char} {p1 p2 s t : Str} (hp : q ∉ p1) (hs : q ∉ s) :
    splitOnce? (p1 ++ q :: p2) (s ++ p1 ++ q :: (p2 ++ t)) = some (s, t) := by
  induction s with
  | nil =>
    have h1 : stripPrefix? (p1 ++ q :: p2) (p1 ++ q :: (p2 ++ t)) = some t :=
      stripPrefix?_eq_some.mpr (by simp)
    rw [List.nil_append]
    cases hx : p1 ++ q :: (p2 ++ t) with
    | nil => simp at hx
    | cons c cs =>
      rw [hx] at h1
      rw [splitOnce?, h1]
  | cons c s ih =>
    have hn : stripPrefix? (p1 ++ q :: p2) (c :: s ++ p1 ++ q :: (p2 ++ t)) = none := by
      cases hm : stripPrefix? (p1 ++ q :: p2) (c :: s ++ p1 ++ q :: (p2 ++ t)) with
      | none => rfl
      | some r =>
        exfalso
        have e := stripPrefix?_eq_some.mp hm
        have e' : (c :: s ++ p1) ++ q :: (p2 ++ t) = p1 ++ q :: (p2 ++ r) := by rw [e]; simp
        obtain ⟨e1, _⟩ := first_quote (a := c :: s ++ p1) (by
          intro hx
          rcases List.mem_append.mp hx with hx | hx
          · exact hs hx
          · exact hp hx) hp e'
        have := congrArg List.length e1
        simp at this
        omega
    rw [List.cons_append, List.cons_append] at hn ⊢
    rw [splitOnce?, hn]
    simp only
    rw [ih fun hx => hs (by simp [hx])]
    rfl

theorem splitOnce?_end {q : Char} {p1 p2 s : Str} (hs : q ∉ s) : splitOnce? (p1 ++ q :: p2) s = none := by
  rw [← Option.not_isSome_iff_eq_none]
  intro h
  obtain ⟨a, b, e⟩ := containsStr_iff.mp h
  exact hs (by rw [e]; simp)

theorem splitOnce?_quote {q : Char} {s t : Str} (hs : q ∉ s) : splitOnce? [q] (s ++ q :: t) = some (s, t) := by
  have := splitOnce?_hit (q := q) (p1 := []) (p2 := []) (s := s) (t := t) (by simp) hs
  simpa using this

theorem containsStr_skip {q : Char} {p1 p2 s t : Str} (hp : q ∉ p1) (hs : q ∉ s) (h : ¬ (p1 <:+ s ∧ p2 <+: t)) :
    containsStr (p1 ++ q :: p2) (s ++ q :: t) = containsStr (p1 ++ q :: p2) t := by
  unfold containsStr
  rw [splitOnce?_skip hp hs h, Option.isSome_map]

theorem containsStr_end {q : Char} {p1 p2 s : Str} (hs : q ∉ s) : containsStr (p1 ++ q :: p2) s = false := by
  unfold containsStr
  rw [splitOnce?_end hs]
  rfl

/-! ### `str::replace` -/

theorem replaceFuel_eq {pat rep : Str} (hp : pat ≠ []) (n m : Nat) (s : Str) (hn : s.length < n) (hm : s.length < m) :
    replaceFuel pat rep n s = replaceFuel pat rep m s := by
  induction n generalizing m s with
  | zero => omega
  | succ n ih =>
    cases m with
    | zero => omega
    | succ m =>
      simp only [replaceFuel]
      cases hsp : splitOnce? pat s with
      | none => rfl
      | some r =>
        obtain ⟨a, b⟩ := r
        have e := congrArg List.length (splitOnce?_some hsp)
        simp only [List.length_append] at e
        have := List.length_pos_iff.mpr hp
        simp only
        rw [ih m b (by omega) (by omega)]

theorem replaceStr_of_some {pat rep s a b : Str} (hp : pat ≠ []) (h : splitOnce? pat s = some (a, b)) :
    replaceStr pat rep s = a ++ rep ++ replaceStr pat rep b := by
  unfold replaceStr
  rw [replaceFuel, h]
  simp only
  have e := congrArg List.length (splitOnce?_some h)
  simp only [List.length_append] at e
  have := List.length_pos_iff.mpr hp
  rw [replaceFuel_eq hp s.length (b.length + 1) b (by omega) (by omega)]

theorem replaceStr_of_none {pat rep s : Str} (h : splitOnce? pat s = none) : replaceStr pat rep s = s := by
  unfold replaceStr
  rw [replaceFuel, h]

/-! ### The largest number behind a pattern -/

namespace Repair

theorem maxIdLoop_fuel {pat : Str} (hp : pat ≠ []) (n m : Nat) (s : Str) (k : Nat) (hn : s.length < n)
    (hm : s.length < m) : maxIdLoop pat n s k = maxIdLoop pat m s k := by
  induction n generalizing m s k with
  | zero => omega
  | succ n ih =>
    cases m with
    | zero => omega
    | succ m =>
      simp only [maxIdLoop]
      cases hsp : splitOnce? pat s with
      | none => rfl
      | some r =>
        obtain ⟨a, b⟩ := r
        simp only
        cases hq : splitOnce? c!"\"" b with
        | none => rfl
        | some r =>
          obtain ⟨num, rest⟩ := r
          simp only
          have e := congrArg List.length (splitOnce?_some hsp)
          have e2 := congrArg List.length (splitOnce?_some hq)
          simp only [List.length_append, List.length_cons, List.length_nil] at e e2
          have := List.length_pos_iff.mpr hp
          rw [ih m rest _ (by omega) (by omega)]

/-- The scan with enough fuel. -/
def maxId (pat s : Str) (k : Nat) : Nat := maxIdLoop pat (s.length + 1) s k

/-- The maximum after reading one more number. -/
def maxWith (k : Nat) (num : Str) : Nat := match parseU32? num with | some n => max k n | none => k

theorem maxId_none {pat s : Str} (h : splitOnce? pat s = none) (k : Nat) : maxId pat s k = k := by
  unfold maxId
  rw [maxIdLoop, h]

theorem maxId_some {pat s a num rest : Str} (hp : pat ≠ [])
    (h : splitOnce? pat s = some (a, num ++ '"' :: rest)) (hq : '"' ∉ num) (k : Nat) :
    maxId pat s k = maxId pat rest (maxWith k num) := by
  have e := congrArg List.length (splitOnce?_some h)
  simp only [List.length_append, List.length_cons] at e
  have := List.length_pos_iff.mpr hp
  unfold maxId
  rw [maxIdLoop, h]
  simp only
  rw [splitOnce?_quote hq]
  simp only
  rw [maxIdLoop_fuel hp s.length (rest.length + 1) rest _ (by omega) (by omega)]
  rfl

theorem maxId_skip {p1 p2 s t : Str} (hp : '"' ∉ p1) (hs : '"' ∉ s) (h : ¬ (p1 <:+ s ∧ p2 <+: t)) (k : Nat) :
    maxId (p1 ++ '"' :: p2) (s ++ '"' :: t) k = maxId (p1 ++ '"' :: p2) t k := by
  have hne : p1 ++ '"' :: p2 ≠ [] := by simp
  have hsk := splitOnce?_skip hp hs h
  cases hsp : splitOnce? (p1 ++ '"' :: p2) t with
  | none =>
    rw [hsp] at hsk
    rw [maxId_none hsp, maxId_none hsk]
  | some r =>
    obtain ⟨a, b⟩ := r
    rw [hsp] at hsk
    simp only [Option.map_some] at hsk
    cases hq : splitOnce? c!"\"" b with
    | none =>
      unfold maxId
      rw [maxIdLoop, maxIdLoop, hsp, hsk]
      simp only [hq]
    | some r =>
      obtain ⟨num, rest⟩ := r
      have hb := splitOnce?_some hq
      have hnum : '"' ∉ num := by
        intro hm
        obtain ⟨x, y, rfl, hx⟩ := List.eq_append_cons_of_mem hm
        have e1 : splitOnce? c!"\"" b = some (x, y ++ '"' :: rest) := by
          have := splitOnce?_quote (q := '"') (s := x) (t := y ++ '"' :: rest) hx
          rw [hb]
          simpa using this
        rw [hq] at e1
        simp only [Option.some.injEq, Prod.mk.injEq] at e1
        have := congrArg List.length e1.1
        simp at this
      have hb' : b = num ++ '"' :: rest := by simpa using hb
      rw [hb'] at hsp hsk
      rw [maxId_some hne hsp hnum, maxId_some hne hsk hnum]

theorem maxId_hit {p1 p2 s num t : Str} (hp : '"' ∉ p1) (hs : '"' ∉ s) (hn : '"' ∉ num) (k : Nat) :
    maxId (p1 ++ '"' :: p2) (s ++ p1 ++ '"' :: (p2 ++ (num ++ '"' :: t))) k =
      maxId (p1 ++ '"' :: p2) t (maxWith k num) :=
  maxId_some (by simp) (splitOnce?_hit hp hs) hn k

theorem maxId_end {p1 p2 s : Str} (hs : '"' ∉ s) (k : Nat) : maxId (p1 ++ '"' :: p2) s k = k :=
  maxId_none (splitOnce?_end hs) k

end Repair

end PptRs
