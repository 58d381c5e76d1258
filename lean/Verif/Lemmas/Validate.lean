import Verif.Model.PackageText
import Verif.Lemmas.Rels
import Verif.Lemmas.EditorXml
import Verif.Lemmas.PresText
import Mathlib.Tactic.Conv

/-!
# Lemmas on the validator's text searches
-/

namespace PptRs

open Validate

/-! ### Relationship parts -/

theorem parseRelsLoop_next (base : Str) (fuel : Nat) (pre rest : Str) (r : RelEntry)
    (hpre : 'I' ∉ pre) (h : r.Safe) :
    parseRelsLoop base (fuel + 1) (pre ++ renderRel r ++ rest) =
      r.scanned base :: parseRelsLoop base fuel ('>' :: rest) := by
  obtain ⟨hid, hty, htg⟩ := h
  have e1 : pre ++ renderRel r ++ rest =
      (pre ++ c!"<Relationship ") ++ c!"Id=\"" ++
        (r.id ++ c!"\"" ++ (c!" Type=\"" ++ r.type ++ c!"\" Target=\"" ++ r.target ++ c!"\"" ++
          (if r.external then c!" TargetMode=\"External\"" else []) ++ c!"/>" ++ rest)) := by
    simp [renderRel]
  have e2 : pre ++ ('\n' :: renderRel r) ++ rest =
      (pre ++ c!"\n<Relationship ") ++ c!"Id=\"" ++
        (r.id ++ c!"\"" ++ (c!" Type=\"" ++ r.type ++ c!"\" Target=\"" ++ r.target ++ c!"\"" ++
          (if r.external then c!" TargetMode=\"External\"" else []) ++ c!"/>" ++ rest)) := by
    simp [renderRel]
  have h1 : 'I' ∉ pre ++ c!"<Relationship " := by
    rw [List.mem_append]; rintro (h | h)
    · exact hpre h
    · revert h; decide
  have h2 : 'I' ∉ pre ++ c!"\n<Relationship " := by
    rw [List.mem_append]; rintro (h | h)
    · exact hpre h
    · revert h; decide
  have := parseRelsLoop_cons base fuel pre rest r hpre ⟨hid, hty, htg⟩
  rw [← this, e1, e2, parseRelsLoop, parseRelsLoop, splitOnce?_append_of_notMem h1,
    splitOnce?_append_of_notMem h2]

/-- Relationships with separators that do not look like an id. -/
theorem parseRelsLoop_seps (base : Str) (l : List (Str × RelEntry)) (fin : Str) (hfin : 'I' ∉ fin)
    (h : ∀ r ∈ l, 'I' ∉ r.1 ∧ r.2.Safe) :
    ∀ (n : Nat) (pre : Str), 'I' ∉ pre →
      (pre ++ (l.flatMap fun r => r.1 ++ renderRel r.2) ++ fin).length < n →
      parseRelsLoop base n (pre ++ (l.flatMap fun r => r.1 ++ renderRel r.2) ++ fin) =
      l.map fun r => r.2.scanned base := by
  induction l with
  | nil =>
    intro n pre hpre hn
    cases n with
    | zero => simp at hn
    | succ n =>
      have : 'I' ∉ pre ++ ([] : List (Str × RelEntry)).flatMap (fun r => r.1 ++ renderRel r.2) ++ fin := by
        simp [hpre, hfin]
      rw [parseRelsLoop, splitOnce?_none_of_notMem this]
      rfl
  | cons r l ih =>
    intro n pre hpre hn
    have hr := h r (by simp)
    cases n with
    | zero => simp at hn
    | succ n =>
      have e : pre ++ (r :: l).flatMap (fun r => r.1 ++ renderRel r.2) ++ fin =
          (pre ++ r.1) ++ renderRel r.2 ++ (l.flatMap (fun r => r.1 ++ renderRel r.2) ++ fin) := by
        simp
      rw [e, parseRelsLoop_next base n _ _ r.2 (by simp [hpre, hr.1]) hr.2, List.map_cons]
      congr 1
      have e' : '>' :: (l.flatMap (fun r => r.1 ++ renderRel r.2) ++ fin) =
          c!">" ++ l.flatMap (fun r => r.1 ++ renderRel r.2) ++ fin := by simp
      rw [e']
      apply ih (fun x hx => h x (by simp [hx])) _ _ (by decide)
      rw [e] at hn
      have : 2 ≤ (renderRel r.2).length := by simp [renderRel]
      simp only [List.length_append, List.length_cons, List.length_nil] at hn ⊢
      omega

theorem parseRelationships_with (base : Str) (main extra : List RelEntry) (h : ∀ r ∈ main ++ extra, r.Safe) :
    parseRelationships (renderRelsWith main extra) base = (main ++ extra).map (RelEntry.scanned base) := by
  have e : renderRelsWith main extra = relsHeader ++
      ((main.map fun r => (c!"\n", r)) ++
        (match extra with
          | [] => []
          | x :: xs => (c!"\n", x) :: xs.map fun r => (([] : Str), r))).flatMap
          (fun r => r.1 ++ renderRel r.2) ++
      (match extra with
        | [] => c!"\n</Relationships>"
        | _ :: _ => c!"</Relationships>") := by
    cases extra with
    | nil => simp [renderRelsWith, List.flatMap_map]
    | cons x xs => simp [renderRelsWith, List.flatMap_map]
  unfold parseRelationships
  rw [parseRelsLoop_fuel base _ (_ + 1) _ (Nat.le_refl _) (Nat.le_succ _)]
  rw [e, parseRelsLoop_seps _ _ _ _ _ _ _ (by decide) (Nat.lt_succ_self _)]
  · cases extra <;> simp [Function.comp_def]
  · cases extra <;> simp
  · intro r hr
    cases extra with
    | nil =>
      simp only [List.append_nil, List.mem_map] at hr
      obtain ⟨x, hx, rfl⟩ := hr
      exact ⟨by simp, h x (by simp [hx])⟩
    | cons y ys =>
      simp only [List.mem_append, List.mem_map, List.mem_cons] at hr
      rcases hr with ⟨x, hx, rfl⟩ | rfl | ⟨x, hx, rfl⟩
      · exact ⟨by simp, h x (by simp [hx])⟩
      · exact ⟨by simp, h _ (by simp)⟩
      · exact ⟨by simp, h x (by simp [hx])⟩

theorem parseRelationships_relsPartText (d : Deck) (st : BuildSettings) (l : List RelEntry) (p : PartName)
    (base : Str) (h : ∀ r ∈ l, r.Safe) :
    parseRelationships (relsPartText d st l p) base = l.map (RelEntry.scanned base) := by
  unfold relsPartText
  split
  · rw [parseRelationships_with _ _ _ (by simpa using h), List.take_append_drop]
  · simp only
    rw [parseRelationships_with _ _ _ (by simpa using h), List.take_append_drop]
  · exact parseRelationships_render base l h

/-! ### Attribute values -/

theorem attrIn_of {attr a v b : Str} (h1 : noStart (attr ++ c!"=\"") a = true) (h2 : '"' ∉ v)
    (hne : attr ≠ []) : attrIn attr (a ++ (attr ++ c!"=\"") ++ (v ++ '"' :: b)) = [v] := by
  cases attr with
  | nil => exact absurd rfl hne
  | cons c attr =>
    have := splitOnce?_of_noStart (c := c) (m := attr ++ c!"=\"") (s := a) (t := v ++ '"' :: b) h1
    unfold attrIn
    simp only [List.cons_append] at this ⊢
    rw [this]
    simp only
    rw [show splitOnce? c!"\"" (v ++ '"' :: b) = some (v, b) by
      simpa using splitOnce?_append_of_notMem (p := []) (b := b) h2]

theorem attrIn_none {attr s : Str} (h : containsStr (attr ++ c!"=\"") s = false) : attrIn attr s = [] := by
  unfold attrIn
  rw [containsStr, Option.isSome_eq_false_iff, Option.isNone_iff_eq_none] at h
  rw [h]

theorem cutElement_close {x rest : Str} (h : noStart c!"/>" x = true) :
    cutElement (x ++ c!"/>" ++ rest) = (x, c!"/>" ++ rest) := by
  unfold cutElement
  rw [splitOnce?_of_noStart (c := '/') (m := c!">") (t := rest) h]

theorem extractLoop_cons {element attr pre x rest : Str} (fuel : Nat)
    (h1 : noStart ('<' :: element) pre = true) (h2 : noStart c!"/>" ('<' :: element ++ x) = true) :
    extractLoop element attr (fuel + 1) (pre ++ ('<' :: element) ++ (x ++ c!"/>" ++ rest)) =
      attrIn attr ('<' :: element ++ x) ++ extractLoop element attr fuel (c!"/>" ++ rest) := by
  rw [extractLoop, splitOnce?_of_noStart h1]
  simp only
  have e : '<' :: element ++ (x ++ c!"/>" ++ rest) = ('<' :: element ++ x) ++ c!"/>" ++ rest := by simp
  rw [e, cutElement_close h2]

theorem extractLoop_none {element attr s : Str} (fuel : Nat) (h : containsStr ('<' :: element) s = false) :
    extractLoop element attr fuel s = [] := by
  cases fuel with
  | zero => rfl
  | succ n =>
    rw [containsStr, Option.isSome_eq_false_iff, Option.isNone_iff_eq_none] at h
    rw [extractLoop, h]

/-- A list of elements, each written as `<element … attr="v"…/>` after a text without the element. -/
theorem extractLoop_list {α : Type} {element attr : Str} {pre before value rest' : α → Str} (l : List α) (fin : Str)
    (hfin : containsStr ('<' :: element) fin = false)
    (h1 : ∀ a ∈ l, noStart ('<' :: element) (pre a) = true)
    (h2 : ∀ a ∈ l, noStart c!"/>" ('<' :: element ++ (before a ++ (attr ++ c!"=\"") ++ (value a ++ '"' :: rest' a))) = true)
    (h3 : ∀ a ∈ l, noStart (attr ++ c!"=\"") ('<' :: element ++ before a) = true)
    (h4 : ∀ a ∈ l, '"' ∉ value a) (hne : attr ≠ []) :
    ∀ (n : Nat) (start : Str), l.length < n → noStart ('<' :: element) start = true →
      containsStr ('<' :: element) (start ++ fin) = false →
      extractLoop element attr n (start ++ (l.flatMap fun a => pre a ++ ('<' :: element) ++
        (before a ++ (attr ++ c!"=\"") ++ (value a ++ '"' :: rest' a)) ++ c!"/>") ++ fin) = l.map value := by
  have hslash : noStart ('<' :: element) c!"/>" = true := noStart_of_notMem (by decide)
  have hsl : containsStr ('<' :: element) (c!"/>" ++ fin) = false := by
    have e : splitOnce? ('<' :: element) (c!"/>" ++ fin) = (splitOnce? ('<' :: element) fin).map
        fun r => ('/' :: '>' :: r.1, r.2) := by
      simp [splitOnce?, stripPrefix?, Option.map_map, Function.comp_def]
    unfold containsStr at hfin ⊢
    rw [e]
    simpa using hfin
  induction l with
  | nil =>
    intro n start _ _ hs
    simp only [List.flatMap_nil, List.append_nil, List.map_nil]
    exact extractLoop_none _ hs
  | cons a l ih =>
    intro n start hn hst hs
    cases n with
    | zero => simp at hn
    | succ n =>
      have e : start ++ ((a :: l).flatMap fun a => pre a ++ ('<' :: element) ++
          (before a ++ (attr ++ c!"=\"") ++ (value a ++ '"' :: rest' a)) ++ c!"/>") ++ fin =
          (start ++ pre a) ++ ('<' :: element) ++
          ((before a ++ (attr ++ c!"=\"") ++ (value a ++ '"' :: rest' a)) ++ c!"/>" ++
          ((l.flatMap fun a => pre a ++ ('<' :: element) ++
          (before a ++ (attr ++ c!"=\"") ++ (value a ++ '"' :: rest' a)) ++ c!"/>") ++ fin)) := by simp
      rw [e, extractLoop_cons n (noStart_append hst (h1 a (by simp))) (h2 a (by simp))]
      have e2 : '<' :: element ++ (before a ++ (attr ++ c!"=\"") ++ (value a ++ '"' :: rest' a)) =
          ('<' :: element ++ before a) ++ (attr ++ c!"=\"") ++ (value a ++ '"' :: rest' a) := by simp
      rw [e2, attrIn_of (h3 a (by simp)) (h4 a (by simp)) hne, List.map_cons, List.singleton_append]
      congr 1
      have := ih (fun a h => h1 a (by simp [h])) (fun a h => h2 a (by simp [h])) (fun a h => h3 a (by simp [h]))
        (fun a h => h4 a (by simp [h])) n c!"/>" (by simp at hn; omega) hslash hsl
      rw [← this]
      simp

/-! ### Counting -/

theorem countMatches_none {p s : Str} (n : Nat) (h : containsStr p s = false) : countMatches p n s = 0 := by
  cases n with
  | zero => rfl
  | succ n =>
    rw [containsStr, Option.isSome_eq_false_iff, Option.isNone_iff_eq_none] at h
    rw [countMatches, h]

theorem countMatches_list {α : Type} {c : Char} {m : Str} {pre post : α → Str} (l : List α) (fin : Str)
    (h1 : ∀ a ∈ l, noStart (c :: m) (pre a) = true) (h2 : ∀ a ∈ l, noStart (c :: m) (post a) = true) :
    ∀ (n : Nat) (start : Str), l.length < n → noStart (c :: m) start = true →
      (∀ start : Str, noStart (c :: m) start = true → containsStr (c :: m) (start ++ fin) = false) →
      countMatches (c :: m) n (start ++ (l.flatMap fun a => pre a ++ (c :: m) ++ post a) ++ fin) = l.length := by
  induction l with
  | nil =>
    intro n start _ hs hf
    simp only [List.flatMap_nil, List.append_nil, List.length_nil]
    exact countMatches_none n (hf start hs)
  | cons a l ih =>
    intro n start hn hs hf
    cases n with
    | zero => simp at hn
    | succ n =>
      have e : start ++ ((a :: l).flatMap fun a => pre a ++ (c :: m) ++ post a) ++ fin =
          (start ++ pre a) ++ (c :: m) ++ (post a ++ (l.flatMap fun a => pre a ++ (c :: m) ++ post a) ++ fin) := by
        simp
      rw [e, countMatches, splitOnce?_of_noStart (noStart_append hs (h1 a (by simp)))]
      simp only
      rw [ih (fun a h => h1 a (by simp [h])) (fun a h => h2 a (by simp [h])) n _ (by simp at hn; omega)
        (h2 a (by simp)) hf]
      simp

/-! ### Order -/

theorem joinStr_cons (sep x : Str) (l : List Str) : joinStr sep (x :: l) = x ++ l.flatMap fun y => sep ++ y := by
  induction l generalizing x with
  | nil => simp [joinStr]
  | cons y l ih => rw [joinStr, ih]; simp

theorem splitOnce?_le {p s x y a b : Str} (h : splitOnce? p s = some (x, y)) (e : s = a ++ p ++ b) :
    x.length ≤ a.length := by
  induction s generalizing x y a with
  | nil =>
    have hx := splitOnce?_some h
    have := congrArg List.length hx
    simp only [List.length_nil, List.length_append] at this
    omega
  | cons c s ih =>
    cases a with
    | nil =>
      have : stripPrefix? p (c :: s) = some b := by
        rw [e]; simp only [List.nil_append]
        exact stripPrefix?_append p b
      rw [splitOnce?, this] at h
      simp only [Option.some.injEq, Prod.mk.injEq] at h
      simp [← h.1]
    | cons d a =>
      rw [splitOnce?] at h
      cases hs : stripPrefix? p (c :: s) with
      | some r =>
        rw [hs] at h
        simp only [Option.some.injEq, Prod.mk.injEq] at h
        simp [← h.1]
      | none =>
        rw [hs] at h
        simp only [Option.map_eq_some_iff] at h
        obtain ⟨⟨x', y'⟩, h', e'⟩ := h
        simp only [Prod.mk.injEq] at e'
        rw [← e'.1]
        simp only [List.cons_append, List.cons.injEq] at e
        have := ih h' e.2
        simp only [List.length_cons]
        omega

theorem findAt_le {p a b : Str} (h : containsStr p a = true) : ∃ n, findAt p (a ++ b) = some n ∧ n + p.length ≤ a.length := by
  obtain ⟨x, y, rfl⟩ := containsStr_iff.mp h
  have hc : containsStr p (x ++ p ++ y ++ b) = true := containsStr_iff.mpr ⟨x, y ++ b, by simp⟩
  rw [containsStr, Option.isSome_iff_exists] at hc
  obtain ⟨⟨u, v⟩, hs⟩ := hc
  have := splitOnce?_le hs (a := x) (b := y ++ b) (by simp)
  exact ⟨u.length, by rw [findAt, hs]; rfl, by simp; omega⟩

theorem findAt_ge {c : Char} {m a b : Str} (h : noStart (c :: m) a = true) {n : Nat}
    (hn : findAt (c :: m) (a ++ b) = some n) : a.length ≤ n := by
  simp only [findAt, Option.map_eq_some_iff] at hn
  obtain ⟨⟨x, y⟩, hs, rfl⟩ := hn
  have e := splitOnce?_some hs
  by_contra hlt
  have hlt : x.length < a.length := by simpa using hlt
  obtain ⟨t, rfl, ht⟩ : ∃ t, a = x ++ t ∧ t ≠ [] := by
    refine ⟨a.drop x.length, ?_, by simp; omega⟩
    have : a.take x.length = x := by
      have := congrArg (List.take x.length) e
      rw [List.take_append_of_le_length (by omega)] at this
      simpa using this
    conv_lhs => rw [← List.take_append_drop x.length a, this]
  have hc : comparable (c :: m) t = true := by
    apply comparable_of_prefix (b := b)
    rw [List.append_assoc, List.append_assoc] at e
    have := List.append_cancel_left e
    rw [this]
    simp
  have : ∀ x : Str, noStart (c :: m) (x ++ t) = true → False := by
    intro x
    induction x with
    | nil =>
      intro h
      cases t with
      | nil => exact ht rfl
      | cons z t => simp [noStart, hc] at h
    | cons z x ih =>
      intro h
      simp only [List.cons_append, noStart, Bool.and_eq_true] at h
      exact ih h.2
  exact this x h

theorem after_false {p q : Str} {c : Char} {m a b : Str} (hq : q = c :: m) (h1 : containsStr p a = true)
    (h2 : noStart q a = true) : after (findAt p (a ++ b)) (findAt q (a ++ b)) = false := by
  subst hq
  obtain ⟨n, hn, hle⟩ := findAt_le (b := b) h1
  rw [hn]
  cases hm : findAt (c :: m) (a ++ b) with
  | none => rfl
  | some k =>
    have := findAt_ge h2 hm
    simp only [after, decide_eq_false_iff_not]
    omega

theorem findAt_none {p s : Str} (h : containsStr p s = false) : findAt p s = none := by
  rw [containsStr, Option.isSome_eq_false_iff, Option.isNone_iff_eq_none] at h
  simp [findAt, h]

/-- A text without a character of the mark that ends with another character. -/
theorem noStart_of_end {m1 m2 s : Str} {q e : Char} (h1 : q ∉ s) (h2 : e ∉ m1) (h3 : e ≠ q) :
    noStart (m1 ++ q :: m2) (s ++ [e]) = true := by
  have key : ∀ (m1 t : Str), q ∉ t → e ∉ m1 → comparable (m1 ++ q :: m2) (t ++ [e]) = false := by
    intro m1
    induction m1 with
    | nil =>
      intro t ht _
      cases t with
      | nil => simp [comparable, h3.symm]
      | cons x t =>
        have : q ≠ x := by rintro rfl; simp at ht
        simp [comparable, this]
    | cons y m1 ih =>
      intro t ht he
      cases t with
      | nil =>
        have : y ≠ e := by rintro rfl; simp at he
        simp [comparable, this]
      | cons x t =>
        simp only [List.cons_append, comparable]
        split
        · exact ih t (fun h => ht (by simp [h])) (fun h => he (by simp [h]))
        · rfl
  induction s with
  | nil =>
    have := key m1 [] (by simp) h2
    simp only [List.nil_append] at this ⊢
    simp [noStart, this]
  | cons c s ih =>
    have := key m1 (c :: s) h1 h2
    simp only [List.cons_append] at this ⊢
    rw [noStart, this, ih (fun h => h1 (by simp [h]))]
    rfl

end PptRs
