import Verif.Model.Rels
import Verif.Lemmas.Str
import Verif.Spec.Path

/-!
# Lemmas about relationship scanning and target resolution
-/

namespace PptRs

theorem cutAt_append {c : Char} {a b : Str} (h : c ∉ a) : cutAt c (a ++ c :: b) = (a, c :: b) := by
  induction a with
  | nil => simp [cutAt]
  | cons x a ih =>
    have hx : x ≠ c := by rintro rfl; simp at h
    have ha : c ∉ a := fun h' => h (List.mem_cons_of_mem _ h')
    simp [cutAt, hx, ih ha]

theorem cutAt_snd_length (c : Char) (s : Str) : (cutAt c s).2.length ≤ s.length := by
  induction s with
  | nil => simp [cutAt]
  | cons x s ih =>
    by_cases h : x = c
    · simp [cutAt, h]
    · simp only [cutAt, h, if_false, List.length_cons]; omega

theorem splitOnce?_length {p s a b : Str} (h : splitOnce? p s = some (a, b)) :
    s.length = a.length + p.length + b.length := by
  have := congrArg List.length (splitOnce?_some h)
  simpa [Nat.add_assoc] using this

/-- Fuel never runs out: any fuel of at least the length of the text gives the same result. -/
theorem parseRelsLoop_fuel (base : Str) (n m : Nat) (s : Str) (hn : s.length ≤ n)
    (hm : s.length ≤ m) : parseRelsLoop base n s = parseRelsLoop base m s := by
  induction n generalizing m s with
  | zero =>
    have : s = [] := List.length_eq_zero_iff.mp (by omega)
    subst this
    cases m with
    | zero => rfl
    | succ m => simp [parseRelsLoop, splitOnce?]
  | succ n ih =>
    cases m with
    | zero =>
      have : s = [] := List.length_eq_zero_iff.mp (by omega)
      subst this
      simp [parseRelsLoop, splitOnce?]
    | succ m =>
      simp only [parseRelsLoop]
      cases h1 : splitOnce? c!"Id=\"" s with
      | none => rfl
      | some x1 =>
        obtain ⟨a1, s1⟩ := x1
        have l1 := splitOnce?_length h1
        simp only [List.length_cons, List.length_nil] at l1
        simp only
        cases h2 : splitOnce? c!"\"" s1 with
        | none => rfl
        | some x2 =>
          obtain ⟨id, s2⟩ := x2
          have l2 := splitOnce?_length h2
          simp only [List.length_cons, List.length_nil] at l2
          simp only
          cases h3 : splitOnce? c!"Target=\"" ('"' :: s2) with
          | none =>
            simp only
            exact ih m _ (by simp only [List.length_cons]; omega)
              (by simp only [List.length_cons]; omega)
          | some x3 =>
            obtain ⟨a3, s3⟩ := x3
            have l3 := splitOnce?_length h3
            simp only [List.length_cons, List.length_nil] at l3
            simp only
            cases h4 : splitOnce? c!"\"" s3 with
            | none => rfl
            | some x4 =>
              obtain ⟨t, s4⟩ := x4
              have l4 := splitOnce?_length h4
              simp only [List.length_cons, List.length_nil] at l4
              have l5 := cutAt_snd_length '>' ('"' :: s4)
              simp only [List.length_cons] at l5
              simp only
              rw [ih m _ (by omega) (by omega)]

/-- An entry whose attributes cannot be confused with the surrounding text. -/
def RelEntry.Safe (r : RelEntry) : Prop := '"' ∉ r.id ∧ 'T' ∉ r.type ∧ '"' ∉ r.target

/-- What the scanner reports for an entry. -/
def RelEntry.scanned (base : Str) (r : RelEntry) : Relationship :=
  ⟨r.id, r.target, resolveRelTarget base r.target, if r.external then c!"External" else []⟩

theorem parseRelsLoop_cons (base : Str) (fuel : Nat) (pre rest : Str) (r : RelEntry)
    (hpre : 'I' ∉ pre) (h : r.Safe) :
    parseRelsLoop base (fuel + 1) (pre ++ ('\n' :: renderRel r) ++ rest) =
      r.scanned base :: parseRelsLoop base fuel ('>' :: rest) := by
  obtain ⟨hid, hty, htg⟩ := h
  have e1 : pre ++ ('\n' :: renderRel r) ++ rest =
      (pre ++ c!"\n<Relationship ") ++ c!"Id=\"" ++
        (r.id ++ c!"\"" ++ (c!" Type=\"" ++ r.type ++ c!"\" Target=\"" ++ r.target ++ c!"\"" ++
          (if r.external then c!" TargetMode=\"External\"" else []) ++ c!"/>" ++ rest)) := by
    simp [renderRel]
  rw [e1]
  have hI : 'I' ∉ pre ++ c!"\n<Relationship " := by
    rw [List.mem_append]; rintro (h | h)
    · exact hpre h
    · revert h; decide
  rw [parseRelsLoop, splitOnce?_append_of_notMem hI]
  simp only
  rw [splitOnce?_append_of_notMem hid]
  simp only
  have e2 : '"' :: (c!" Type=\"" ++ r.type ++ c!"\" Target=\"" ++ r.target ++ c!"\"" ++
          (if r.external then c!" TargetMode=\"External\"" else []) ++ c!"/>" ++ rest) =
      c!"\" Type=\"" ++ ((r.type ++ c!"\" ") ++ c!"Target=\"" ++ (r.target ++ c!"\"" ++
          ((if r.external then c!" TargetMode=\"External\"" else []) ++ c!"/>" ++ rest))) := by
    simp
  rw [e2]
  have hT : 'T' ∉ r.type ++ c!"\" " := by
    rw [List.mem_append]; rintro (h | h)
    · exact hty h
    · revert h; decide
  have h3 : ∀ x y : Str, splitOnce? c!"Target=\"" x = some (y, r.target ++ c!"\"" ++
          ((if r.external then c!" TargetMode=\"External\"" else []) ++ c!"/>" ++ rest)) →
      splitOnce? c!"Target=\"" (c!"\" Type=\"" ++ x) = some (c!"\" Type=\"" ++ y, r.target ++ c!"\"" ++
          ((if r.external then c!" TargetMode=\"External\"" else []) ++ c!"/>" ++ rest)) := by
    intro x y hx
    simp [splitOnce?, stripPrefix?, hx]
  rw [h3 _ _ (splitOnce?_append_of_notMem hT)]
  simp only
  rw [splitOnce?_append_of_notMem htg]
  simp only
  have e3 : '"' :: ((if r.external then c!" TargetMode=\"External\"" else []) ++ c!"/>" ++ rest) =
      ('"' :: (if r.external then c!" TargetMode=\"External\"" else []) ++ c!"/") ++ '>' :: rest := by
    simp
  rw [e3]
  cases hx : r.external with
  | false =>
    simp only [Bool.false_eq_true, if_false]
    rw [cutAt_append (by decide)]
    simp only [RelEntry.scanned, hx, Bool.false_eq_true, if_false]
    rw [if_neg (by decide)]
  | true =>
    simp only [if_true]
    rw [cutAt_append (by decide)]
    simp only [RelEntry.scanned, hx, if_true]
    rw [if_pos (by decide)]

theorem parseRelsLoop_list (base : Str) (l : List RelEntry) (h : ∀ r ∈ l, r.Safe) :
    ∀ (n : Nat) (pre : Str), 'I' ∉ pre →
      (pre ++ (l.flatMap fun r => '\n' :: renderRel r) ++ c!"\n</Relationships>").length ≤ n →
      parseRelsLoop base n
        (pre ++ (l.flatMap fun r => '\n' :: renderRel r) ++ c!"\n</Relationships>") =
      l.map (RelEntry.scanned base) := by
  induction l with
  | nil =>
    intro n pre hpre hn
    cases n with
    | zero => simp at hn
    | succ n =>
      have : 'I' ∉ pre ++ ([] : List RelEntry).flatMap (fun r => '\n' :: renderRel r) ++
          c!"\n</Relationships>" := by
        simp [hpre]
      rw [parseRelsLoop, splitOnce?_none_of_notMem this]
      rfl
  | cons r l ih =>
    intro n pre hpre hn
    have hr := h r (by simp)
    have hl : ∀ r ∈ l, r.Safe := fun x hx => h x (by simp [hx])
    cases n with
    | zero => simp at hn
    | succ n =>
      have e : pre ++ (r :: l).flatMap (fun r => '\n' :: renderRel r) ++ c!"\n</Relationships>" =
          pre ++ ('\n' :: renderRel r) ++
            (l.flatMap (fun r => '\n' :: renderRel r) ++ c!"\n</Relationships>") := by
        simp
      rw [e, parseRelsLoop_cons base n pre _ r hpre hr, List.map_cons]
      congr 1
      have e' : '>' :: (l.flatMap (fun r => '\n' :: renderRel r) ++ c!"\n</Relationships>") =
          c!">" ++ l.flatMap (fun r => '\n' :: renderRel r) ++ c!"\n</Relationships>" := by
        simp
      rw [e']
      apply ih hl _ _ (by decide)
      rw [e] at hn
      have : 2 ≤ (renderRel r).length := by simp [renderRel]
      simp only [List.length_append, List.length_cons, List.length_nil] at hn ⊢
      omega

theorem parseRelationships_render (base : Str) (l : List RelEntry) (h : ∀ r ∈ l, r.Safe) :
    parseRelationships (renderRels l) base = l.map (RelEntry.scanned base) :=
  parseRelsLoop_list base l h _ relsHeader (by decide) (Nat.le_refl _)

/-! ### Path resolution -/

open Spec

theorem walk_up (cwd r : List Str) : walk cwd (c!".." :: r) = walk cwd.tail r := by
  cases cwd <;> simp [walk]

theorem walk_dot (cwd r : List Str) : walk cwd (c!"." :: r) = walk cwd r := by
  cases cwd <;> simp [walk]

theorem walk_empty (cwd r : List Str) : walk cwd ([] :: r) = walk cwd r := by
  cases cwd <;> simp [walk]

theorem walk_name (cwd r : List Str) (n : Str) (h1 : n ≠ c!"..") (h2 : n ≠ c!".") (h3 : n ≠ []) :
    walk cwd (n :: r) = walk (n :: cwd) r := by
  rw [walk.eq_def]
  split <;> simp_all

theorem foldl_resolveStep (parts segs : List Str) :
    segs.foldl resolveStep parts = (walk parts.reverse segs).reverse := by
  induction segs generalizing parts with
  | nil => simp [walk]
  | cons s segs ih =>
    rw [List.foldl_cons, ih]
    unfold resolveStep
    by_cases h1 : s = c!".."
    · rw [if_pos h1, h1, walk_up, List.tail_reverse]
    · rw [if_neg h1]
      by_cases h2 : s = c!"."
      · rw [if_pos (Or.inl h2), h2, walk_dot]
      · by_cases h3 : s = []
        · rw [if_pos (Or.inr h3), h3, walk_empty]
        · rw [if_neg (by simp [h2, h3]), walk_name _ _ _ h1 h2 h3]
          simp

theorem foldl_resolveStep_clean (parts segs : List Str) (hp : ∀ s ∈ parts, CleanSeg s)
    (hs : ∀ s ∈ segs, '/' ∉ s) : ∀ s ∈ segs.foldl resolveStep parts, CleanSeg s := by
  induction segs generalizing parts with
  | nil => exact hp
  | cons s segs ih =>
    rw [List.foldl_cons]
    apply ih _ _ (fun x hx => hs x (by simp [hx]))
    unfold resolveStep
    by_cases h1 : s = c!".."
    · rw [if_pos h1]; exact fun x hx => hp x ((List.dropLast_sublist _).mem hx)
    · rw [if_neg h1]
      by_cases h2 : s = c!"." ∨ s = []
      · rw [if_pos h2]; exact hp
      · rw [if_neg h2]
        rw [not_or] at h2
        intro x hx
        rcases List.mem_append.mp hx with hx | hx
        · exact hp x hx
        · rw [List.mem_singleton] at hx
          subst hx
          exact ⟨h2.2, h2.1, h1, hs x (by simp)⟩

theorem foldl_resolveStep_ups (parts : List Str) (n : Nat) :
    (List.replicate n c!"..").foldl resolveStep parts = parts.take (parts.length - n) := by
  induction n generalizing parts with
  | zero => simp
  | succ n ih =>
    rw [List.replicate_succ, List.foldl_cons, ih]
    simp only [resolveStep, if_true, List.length_dropLast, List.dropLast_eq_take, List.take_take, List.length_take]
    congr 1
    omega

theorem foldl_resolveStep_names (parts segs : List Str) (h : ∀ s ∈ segs, CleanSeg s) :
    segs.foldl resolveStep parts = parts ++ segs := by
  induction segs generalizing parts with
  | nil => simp
  | cons s segs ih =>
    obtain ⟨h0, h1, h2, _⟩ := h s (by simp)
    rw [List.foldl_cons, ih _ (fun x hx => h x (by simp [hx]))]
    simp [resolveStep, h0, h1, h2]

theorem joinStr_eq_nil {segs : List Str} (h : ∀ s ∈ segs, s ≠ []) :
    joinStr c!"/" segs = [] ↔ segs = [] := by
  cases segs with
  | nil => simp [joinStr]
  | cons s segs =>
    have := h s (by simp)
    cases segs <;> simp [joinStr, this]

/-- Resolving against a folder given by its segments. -/
theorem resolveRelTarget_segs {base segs : List Str} (hb : ∀ s ∈ base, CleanSeg s)
    (hne : segs ≠ []) (hs : ∀ s ∈ segs, '/' ∉ s) (h0 : segs.head? ≠ some []) :
    resolveRelTarget (joinStr c!"/" base) (joinStr c!"/" segs) =
      joinStr c!"/" (segs.foldl resolveStep base) := by
  have hsl : startsWith c!"/" (joinStr c!"/" segs) = false := by
    cases segs with
    | nil => exact absurd rfl hne
    | cons s segs =>
      cases s with
      | nil => simp at h0
      | cons c s =>
        have hc : c ≠ '/' := by
          rintro rfl; exact hs _ List.mem_cons_self (by simp)
        cases segs <;> simp [joinStr, startsWith, List.isPrefixOf, Ne.symm hc]
  unfold resolveRelTarget
  rw [if_neg (by simp [hsl]), splitChar_joinStr hne hs]
  congr 2
  by_cases hbn : base = []
  · subst hbn; rfl
  · rw [if_neg, splitChar_joinStr hbn (fun s h => (hb s h).2.2.2)]
    rw [joinStr_eq_nil (fun s h => (hb s h).1)]
    exact hbn

theorem trimStartChar_head (c : Char) (s : Str) : (trimStartChar c s).head? ≠ some c := by
  induction s with
  | nil => simp [trimStartChar]
  | cons x s ih =>
    by_cases h : x = c
    · simpa [trimStartChar, h] using ih
    · simp [trimStartChar, h]

theorem rsplitOnceChar?_append {c : Char} {a b : Str} (h : c ∉ b) :
    rsplitOnceChar? c (a ++ c :: b) = some (a, b) := by
  have hb : rsplitOnceChar? c b = none := by
    induction b with
    | nil => rfl
    | cons x b ih =>
      have hx : x ≠ c := by rintro rfl; simp at h
      have hb : c ∉ b := fun h' => h (List.mem_cons_of_mem _ h')
      simp [rsplitOnceChar?, ih hb, hx]
  induction a with
  | nil => simp [rsplitOnceChar?, hb]
  | cons x a ih => simp [rsplitOnceChar?, ih]

theorem stripSuffix?_append (a p : Str) : stripSuffix? p (a ++ p) = some a := by
  simp only [stripSuffix?, List.reverse_append, Option.map_eq_some_iff]
  exact ⟨a.reverse, stripPrefix?_eq_some.mpr rfl, by simp⟩

end PptRs
