import Verif.Model.Repair
import Verif.Lemmas.AMap
import Verif.Lemmas.Str
import Verif.Lemmas.Utf8
import Verif.Lemmas.Template
import Mathlib.Tactic.ByContra
import Mathlib.Data.List.Perm.Basic

/-!
# C36, C37, C75, C76: repair of packages
-/

namespace PptRs.Spec

open PptRs

/-- The names of the predefined entities of XML. -/
def xmlEntities : List Str := [c!"amp", c!"lt", c!"gt", c!"quot", c!"apos"]

/-- Every ampersand of the text is followed by the name of a predefined entity and a semicolon, or by `#`. -/
def AmpsOk (s : Str) : Prop :=
  ∀ a b, s = a ++ '&' :: b → (∃ e ∈ xmlEntities, ∃ r, b = e ++ ';' :: r) ∨ ∃ r, b = '#' :: r

/-- The text between `&` and `;` of a reference of XML 1.0 (section 4.1), numeric references with at most
eight decimal or seven hexadecimal digits (the largest code point has seven and six). -/
def IsReference (e : Str) : Prop :=
  e ∈ xmlEntities ∨
  (∃ ds, e = '#' :: ds ∧ ds ≠ [] ∧ ds.length ≤ 8 ∧ ∀ c ∈ ds, c ∈ c!"0123456789") ∨
  ∃ ds, e = '#' :: 'x' :: ds ∧ ds ≠ [] ∧ ds.length ≤ 7 ∧ ∀ c ∈ ds, c ∈ c!"0123456789abcdefABCDEF"

/-- Every ampersand of the text starts a reference. -/
def AllReferences (s : Str) : Prop := ∀ a b, s = a ++ '&' :: b → ∃ e r, IsReference e ∧ b = e ++ ';' :: r

end PptRs.Spec

namespace PptRs.Props

open PptRs PptRs.Spec PptRs.Repair

/-! ## C36 -/

theorem repairStep_inv (uni : Char → Bool) (s : Package × RepairResult) (issue : RepairIssue) :
    ((repairStep uni s issue).2.repaired = s.2.repaired ++ [issue] ∧
        (repairStep uni s issue).2.unrepaired = s.2.unrepaired ∨
      (repairStep uni s issue).2.repaired = s.2.repaired ∧
        (repairStep uni s issue).2.unrepaired = s.2.unrepaired ++ [issue]) ∧
    (repairStep uni s issue).2.found = s.2.found := by
  unfold repairStep
  split
  · simp only
    split
    · exact ⟨.inl ⟨rfl, rfl⟩, rfl⟩
    · exact ⟨.inr ⟨rfl, rfl⟩, rfl⟩
  · exact ⟨.inr ⟨rfl, rfl⟩, rfl⟩

theorem repair_fold (uni : Char → Bool) (l : List RepairIssue) (s : Package × RepairResult) :
    ∃ a b : List RepairIssue, (l.foldl (repairStep uni) s).2.repaired = s.2.repaired ++ a ∧
      (l.foldl (repairStep uni) s).2.unrepaired = s.2.unrepaired ++ b ∧
      (l.foldl (repairStep uni) s).2.found = s.2.found ∧ a.Sublist l ∧ b.Sublist l ∧ (a ++ b).Perm l := by
  induction l generalizing s with
  | nil => exact ⟨[], [], by simp, by simp, rfl, by simp, by simp, by simp⟩
  | cons x l ih =>
    rw [List.foldl_cons]
    obtain ⟨a, b, h1, h2, h3, h4, h5, h6⟩ := ih (repairStep uni s x)
    obtain ⟨hor, hf⟩ := repairStep_inv uni s x
    rw [h1, h2, h3, hf]
    rcases hor with ⟨e1, e2⟩ | ⟨e1, e2⟩
    · exact ⟨x :: a, b, by simp [e1], by simp [e2], rfl, h4.cons_cons _, h5.cons _, h6.cons x⟩
    · refine ⟨a, x :: b, by simp [e1], by simp [e2], rfl, h4.cons _, h5.cons_cons _, ?_⟩
      exact (List.perm_middle).trans (h6.cons x)

/-- **C36**: a repair reports exactly the issues that validation found; every one of them is either
repaired or unrepaired, none twice, both in the order in which they were found. -/
theorem C36_accounted (uni : Char → Bool) (p : Package) :
    (repair uni p).2.found = validate p ∧
    ((repair uni p).2.repaired ++ (repair uni p).2.unrepaired).Perm (validate p) ∧
    (repair uni p).2.repaired.Sublist (validate p) ∧ (repair uni p).2.unrepaired.Sublist (validate p) := by
  unfold repair
  simp only
  split
  · rename_i h
    rw [h]
    simp
  · obtain ⟨a, b, h1, h2, h3, h4, h5, h6⟩ := repair_fold uni (validate p) (p, ⟨validate p, [], [], true⟩)
    simp only [List.nil_append] at h1 h2 h3
    rw [h1, h2, h3]
    exact ⟨rfl, h6, h4, h5⟩

/-- **C36**: the result calls the package valid exactly when validating the repaired package finds
nothing. -/
theorem C36_valid (uni : Char → Bool) (p : Package) :
    (repair uni p).2.isValid = true ↔ validate (repair uni p).1 = [] := by
  unfold repair
  simp only
  split
  · rename_i h
    simp [h]
  · simp

/-- **C36**: a package without issues is not touched. -/
theorem C36_untouched (uni : Char → Bool) (p : Package) (h : validate p = []) : (repair uni p).1 = p := by
  unfold repair
  rw [if_pos h]

/-- The repaired package of the checks below. -/
def samplePackage : Package := [(c!"ppt/slides/slide1.xml", encode c!"<p:sld/>")]

example : validate samplePackage ≠ [] := by decide +kernel

/-! ## C37 -/

/-- The characters that may stand between `&` and `;` for the scanner. -/
def entityChar (uni : Char → Bool) (c : Char) : Bool := c ≠ ';' && (isAlnum uni c || c = '#' || c = 'x')

theorem entityChar_amp (uni : Char → Bool) : entityChar uni '&' = false := by
  unfold entityChar isAlnum
  simp (decide := true)

/-- What the inner loop returns. -/
theorem entityLoop_spec (uni : Char → Bool) (s temp : Str) :
    ∃ u : Str, (entityLoop uni temp s).1 = temp ++ u ∧ (∀ c ∈ u, entityChar uni c = true) ∧
      ((∃ known, (entityLoop uni temp s).2.1 = known ∧ known = isKnownEntity ('&' :: (temp ++ u) ++ c!";") ∧
          s = u ++ ';' :: (entityLoop uni temp s).2.2) ∨
        ((entityLoop uni temp s).2.1 = false ∧ s = u ++ (entityLoop uni temp s).2.2)) := by
  induction s generalizing temp with
  | nil => exact ⟨[], by simp [entityLoop], by simp, .inr (by simp [entityLoop])⟩
  | cons c s ih =>
    unfold entityLoop
    by_cases hc : c = ';'
    · rw [if_pos hc]
      exact ⟨[], by simp, by simp, .inl ⟨_, rfl, by simp, by simp [hc]⟩⟩
    · rw [if_neg hc]
      by_cases ha : (isAlnum uni c || c = '#' || c = 'x') = true
      · rw [if_pos ha]
        have hec : entityChar uni c = true := by
          unfold entityChar
          rw [ha]
          simp [hc]
        by_cases hl : utf8Len ('&' :: temp ++ [c]) > 10
        · rw [if_pos hl]
          exact ⟨[c], rfl, by simpa using hec, .inr ⟨rfl, rfl⟩⟩
        · rw [if_neg hl]
          obtain ⟨u, h1, h2, h3⟩ := ih (temp ++ [c])
          refine ⟨c :: u, by rw [h1]; simp, ?_, ?_⟩
          · intro d hd
            rcases List.mem_cons.mp hd with rfl | hd
            · exact hec
            · exact h2 d hd
          · rcases h3 with ⟨k, hk1, hk2, hk3⟩ | ⟨h31, h32⟩
            · left
              refine ⟨k, hk1, ?_, ?_⟩
              · rw [hk2]; simp
              · conv_lhs => rw [hk3]
                simp
            · right
              refine ⟨h31, ?_⟩
              conv_lhs => rw [h32]
              simp
      · rw [if_neg ha]
        exact ⟨[], by simp, by simp, .inr ⟨rfl, rfl⟩⟩

theorem entityLoop_length (uni : Char → Bool) (s : Str) : (entityLoop uni [] s).2.2.length ≤ s.length := by
  obtain ⟨u, _, _, h⟩ := entityLoop_spec uni s []
  rcases h with ⟨_, _, _, h⟩ | ⟨_, h⟩ <;> · conv_rhs => rw [h]
                                            simp
                                            try omega

/-- The fuel suffices. -/
theorem ampLoop_fuel (uni : Char → Bool) (n m : Nat) (s : Str) (hn : s.length ≤ n) (hm : s.length ≤ m) :
    ampLoop uni n s = ampLoop uni m s := by
  induction n generalizing m s with
  | zero =>
    have : s = [] := List.length_eq_zero_iff.mp (by omega)
    subst this
    cases m <;> rfl
  | succ n ih =>
    cases s with
    | nil => cases m <;> rfl
    | cons c s =>
      cases m with
      | zero => simp at hm
      | succ m =>
        simp only [List.length_cons] at hn hm
        have hl := entityLoop_length uni s
        simp only [ampLoop]
        rw [ih m s (by omega) (by omega), ih m _ (by omega : (entityLoop uni [] s).2.2.length ≤ n) (by omega)]

theorem ampRepair_nil (uni : Char → Bool) : ampRepair uni [] = [] := rfl

theorem ampRepair_cons (uni : Char → Bool) (c : Char) (s : Str) :
    ampRepair uni (c :: s) =
      if c = '&' then
        if (entityLoop uni [] s).2.1 then
          '&' :: (entityLoop uni [] s).1 ++ c!";" ++ ampRepair uni (entityLoop uni [] s).2.2
        else c!"&amp;" ++ (entityLoop uni [] s).1 ++ ampRepair uni (entityLoop uni [] s).2.2
      else c :: ampRepair uni s := by
  have hl := entityLoop_length uni s
  unfold ampRepair
  simp only [List.length_cons, ampLoop]
  rw [ampLoop_fuel uni s.length _ (entityLoop uni [] s).2.2 hl (Nat.le_refl _)]

/-- Induction along the repair. -/
theorem ampRepair_induct (uni : Char → Bool) {P : Str → Prop} (h0 : P [])
    (h1 : ∀ c s, c ≠ '&' → P s → P (c :: s)) (h2 : ∀ s, P (entityLoop uni [] s).2.2 → P ('&' :: s)) (s : Str) : P s := by
  have k : ∀ n (s : Str), s.length ≤ n → P s := by
    intro n
    induction n with
    | zero => intro s hs; rw [List.length_eq_zero_iff.mp (Nat.le_zero.mp hs)]; exact h0
    | succ n ih =>
      intro s hs
      cases s with
      | nil => exact h0
      | cons c s =>
        simp only [List.length_cons] at hs
        by_cases hc : c = '&'
        · subst hc
          exact h2 s (ih _ (by have := entityLoop_length uni s; omega))
        · exact h1 c s hc (ih s (by omega))
  exact k s.length s (Nat.le_refl _)

/-- Every ampersand followed by one of the accepted texts, recursively. -/
def AmpsOkRec : Str → Prop
  | [] => True
  | c :: s => (c = '&' → (∃ e ∈ xmlEntities, ∃ r, s = e ++ ';' :: r) ∨ ∃ r, s = '#' :: r) ∧ AmpsOkRec s

theorem ampsOk_of_rec {s : Str} (h : AmpsOkRec s) : AmpsOk s := by
  intro a b e
  induction a generalizing s with
  | nil => subst e; exact h.1 rfl
  | cons c a ih => subst e; exact ih h.2 rfl

theorem ampsOkRec_append {a b : Str} (ha : '&' ∉ a) (hb : AmpsOkRec b) : AmpsOkRec (a ++ b) := by
  induction a with
  | nil => exact hb
  | cons c a ih =>
    exact ⟨fun h => absurd (by simp [h]) ha, ih fun h => ha (by simp [h])⟩

theorem known_cases {t : Str} (h : isKnownEntity ('&' :: t ++ c!";") = true) (hs : ∀ c ∈ t, c ≠ ';') :
    t ∈ xmlEntities ∨ ∃ r, t = '#' :: r := by
  have inj : ∀ u : Str, '&' :: t ++ c!";" = '&' :: u ++ c!";" → t = u := by
    intro u hu
    simpa using hu
  unfold isKnownEntity at h
  simp only [Bool.or_eq_true, decide_eq_true_eq] at h
  rcases h with ((((h | h) | h) | h) | h) | h
  · exact .inl (by rw [inj c!"amp" h]; decide)
  · exact .inl (by rw [inj c!"lt" h]; decide)
  · exact .inl (by rw [inj c!"gt" h]; decide)
  · exact .inl (by rw [inj c!"quot" h]; decide)
  · exact .inl (by rw [inj c!"apos" h]; decide)
  · obtain ⟨r, hr⟩ := startsWith_iff.mp h
    cases t with
    | nil => simp at hr
    | cons d t =>
      simp only [List.cons_append, List.nil_append, List.cons.injEq, true_and] at hr
      exact .inr ⟨t, by rw [hr.1]⟩

theorem amp_notMem {uni : Char → Bool} {u : Str} (h : ∀ c ∈ u, entityChar uni c = true) : '&' ∉ u := by
  intro hm
  have := h _ hm
  rw [entityChar_amp] at this
  cases this

/-- **C37** (part): after the ampersand repair every ampersand starts a predefined entity or a numeric
reference (`&#`). Missing: that what follows `&#` is a number, see `C37_bad_number_violated`. -/
theorem C37_escaped_partial (uni : Char → Bool) (xml : Str) : AmpsOk (ampRepair uni xml) := by
  apply ampsOk_of_rec
  induction xml using ampRepair_induct uni with
  | h0 => trivial
  | h1 c s hc ih =>
    rw [ampRepair_cons, if_neg hc]
    exact ⟨fun h => absurd h hc, ih⟩
  | h2 s ih =>
    rw [ampRepair_cons, if_pos rfl]
    obtain ⟨u, h1, h2, h3⟩ := entityLoop_spec uni s []
    rw [List.nil_append] at h1
    simp only [List.nil_append] at h3
    rw [h1]
    have hu := amp_notMem h2
    have hsemi : ∀ c ∈ u, c ≠ ';' := by
      intro c hc e
      have := h2 c hc
      subst e
      simp [entityChar] at this
    split
    · rename_i hk
      rcases h3 with ⟨k, hk1, hk2, _⟩ | ⟨h3, _⟩
      · rw [hk] at hk1
        subst hk1
        have := known_cases hk2.symm hsemi
        refine ⟨fun _ => ?_, ?_⟩
        · rcases this with hm | ⟨r, rfl⟩
          · exact .inl ⟨u, hm, ampRepair uni (entityLoop uni [] s).2.2, by simp⟩
          · exact .inr ⟨_, rfl⟩
        · show AmpsOkRec (u ++ c!";" ++ _)
          exact ampsOkRec_append (by simp [hu]) ih
      · rw [h3] at hk; cases hk
    · refine ⟨fun _ => .inl ⟨c!"amp", by decide, u ++ ampRepair uni (entityLoop uni [] s).2.2, by simp⟩, ?_⟩
      show AmpsOkRec (c!"amp;" ++ u ++ _)
      exact ampsOkRec_append (by simp [hu]) ih

theorem entityLoop_known (uni : Char → Bool) (u r temp : Str) (hu : ∀ c ∈ u, entityChar uni c = true)
    (hl : utf8Len ('&' :: temp ++ u) ≤ 10) :
    entityLoop uni temp (u ++ ';' :: r) = (temp ++ u, isKnownEntity ('&' :: (temp ++ u) ++ c!";"), r) := by
  induction u generalizing temp with
  | nil => simp [entityLoop]
  | cons c u ih =>
    have hc := hu c (by simp)
    unfold entityChar at hc
    rw [Bool.and_eq_true, decide_eq_true_eq] at hc
    rw [List.cons_append, entityLoop, if_neg hc.1, if_pos hc.2]
    have hlen : utf8Len ('&' :: temp ++ (c :: u)) = utf8Len ('&' :: temp ++ [c]) + utf8Len u := by
      simp [utf8Len, Nat.add_assoc]
    rw [if_neg (by omega), ih (temp ++ [c]) (fun d hd => hu d (by simp [hd]))
      (by rw [show '&' :: (temp ++ [c]) ++ u = '&' :: temp ++ (c :: u) by simp]; exact hl)]
    simp

theorem utf8Len_bound {s : Str} (h : ∀ c ∈ s, c.toNat < 128) : utf8Len s = s.length := by
  induction s with
  | nil => rfl
  | cons c s ih =>
    have := ih fun d hd => h d (by simp [hd])
    unfold utf8Len at this ⊢
    rw [List.map_cons, List.sum_cons, this]
    have hc := h c (by simp)
    unfold utf8Size
    rw [if_pos hc]
    simp [Nat.add_comm]

theorem reference_ok (uni : Char → Bool) {e : Str} (h : IsReference e) :
    (∀ c ∈ e, entityChar uni c = true) ∧ utf8Len ('&' :: e) ≤ 10 ∧ isKnownEntity ('&' :: e ++ c!";") = true := by
  have dig : ∀ c ∈ c!"#x0123456789abcdefABCDEF", entityChar uni c = true := by
    intro c hc
    unfold entityChar isAlnum
    revert c
    simp (decide := true)
  have asc : ∀ c ∈ c!"#x0123456789abcdefABCDEF", c.toNat < 128 := by decide
  have sub1 : ∀ c ∈ c!"0123456789", c ∈ c!"#x0123456789abcdefABCDEF" := by decide
  have sub2 : ∀ c ∈ c!"0123456789abcdefABCDEF", c ∈ c!"#x0123456789abcdefABCDEF" := by decide
  rcases h with h | ⟨ds, rfl, hne, hlen, hd⟩ | ⟨ds, rfl, hne, hlen, hd⟩
  · refine ⟨?_, ?_, ?_⟩
    · intro c hc
      unfold entityChar isAlnum
      revert c
      simp only [xmlEntities, List.mem_cons, List.not_mem_nil, or_false] at h
      rcases h with rfl | rfl | rfl | rfl | rfl <;> simp (decide := true)
    · revert h; revert e; decide
    · revert h; revert e; decide
  · have hm : ∀ c ∈ ('#' :: ds : Str), c ∈ c!"#x0123456789abcdefABCDEF" := by
      intro c hc
      rcases List.mem_cons.mp hc with rfl | hc
      · decide
      · exact sub1 c (hd c hc)
    refine ⟨fun c hc => dig c (hm c hc), ?_, ?_⟩
    · rw [utf8Len_bound]
      · simpa using hlen
      · intro c hc
        rcases List.mem_cons.mp hc with rfl | hc
        · decide
        · exact asc c (hm c hc)
    · unfold isKnownEntity
      simp [startsWith, List.isPrefixOf]
  · have hm : ∀ c ∈ ('#' :: 'x' :: ds : Str), c ∈ c!"#x0123456789abcdefABCDEF" := by
      intro c hc
      rcases List.mem_cons.mp hc with rfl | hc
      · decide
      · rcases List.mem_cons.mp hc with rfl | hc
        · decide
        · exact sub2 c (hd c hc)
    refine ⟨fun c hc => dig c (hm c hc), ?_, ?_⟩
    · rw [utf8Len_bound]
      · simpa using hlen
      · intro c hc
        rcases List.mem_cons.mp hc with rfl | hc
        · decide
        · exact asc c (hm c hc)
    · unfold isKnownEntity
      simp [startsWith, List.isPrefixOf]

/-- **C37**: text in which every ampersand already starts a reference is not changed. -/
theorem C37_unchanged (uni : Char → Bool) (xml : Str) (h : AllReferences xml) : ampRepair uni xml = xml := by
  induction xml using ampRepair_induct uni with
  | h0 => rfl
  | h1 c s hc ih =>
    rw [ampRepair_cons, if_neg hc, ih fun a b e => h (c :: a) b (by rw [e]; rfl)]
  | h2 s ih =>
    obtain ⟨e, r, he, rfl⟩ := h [] s rfl
    obtain ⟨h1, h2, h3⟩ := reference_ok uni he
    have hl := entityLoop_known uni e r [] h1 (by simpa using h2)
    rw [List.nil_append, h3] at hl
    rw [hl] at ih
    rw [ampRepair_cons, if_pos rfl, hl, if_pos rfl]
    simp only at ih ⊢
    rw [ih fun a b hab => h ('&' :: e ++ ';' :: a) b (by rw [hab]; simp)]
    simp

/-- **C37**: nothing but semicolons is lost: the characters of the text other than `;` are all there
afterwards, in order. -/
theorem C37_nothing_lost (uni : Char → Bool) (xml : Str) :
    (xml.filter (· ≠ ';')).Sublist (ampRepair uni xml) := by
  induction xml using ampRepair_induct uni with
  | h0 => simp
  | h1 c s hc ih =>
    rw [ampRepair_cons, if_neg hc, List.filter_cons]
    split
    · exact ih.cons_cons _
    · exact ih.cons _
  | h2 s ih =>
    obtain ⟨u, h1, h2, h3⟩ := entityLoop_spec uni s []
    rw [List.nil_append] at h1
    have hs : ∀ r, (('&' :: (u ++ r)).filter (· ≠ ';')).Sublist ('&' :: u ++ r.filter (· ≠ ';')) := by
      intro r
      rw [List.filter_cons_of_pos (by decide), List.filter_append, List.cons_append]
      exact (List.Sublist.append List.filter_sublist (List.Sublist.refl _)).cons_cons _
    have hin : ∀ r, (ampRepair uni (entityLoop uni [] s).2.2) = r →
        ∀ x : Str, (x.filter (· ≠ ';')).Sublist r → (('&' :: (u ++ x)).filter (· ≠ ';')).Sublist ('&' :: u ++ r) := by
      intro r _ x hx
      exact (hs x).trans (List.Sublist.append (List.Sublist.refl _) hx)
    have hfin : (('&' :: s).filter (· ≠ ';')).Sublist ('&' :: u ++ ampRepair uni (entityLoop uni [] s).2.2) := by
      rcases h3 with ⟨_, _, _, h3⟩ | ⟨_, h3⟩
      · conv_lhs => rw [h3]
        refine hin _ rfl _ ?_
        rw [List.filter_cons_of_neg (by decide)]
        exact ih
      · conv_lhs => rw [h3]
        exact hin _ rfl _ ih
    rw [ampRepair_cons, if_pos rfl, h1]
    split
    · refine hfin.trans ?_
      rw [List.append_assoc]
      exact List.Sublist.append (List.Sublist.refl _) (List.sublist_append_right _ _)
    · refine hfin.trans ?_
      rw [List.append_assoc]
      show ('&' :: (u ++ _)).Sublist ('&' :: (c!"amp;" ++ (u ++ _)))
      exact (List.sublist_append_right _ _).cons_cons _

/-- **C37**: in text without semicolons every ampersand is escaped and nothing else changes. -/
theorem C37_bare (uni : Char → Bool) (xml : Str) (h : ';' ∉ xml) :
    ampRepair uni xml = replaceChar '&' c!"&amp;" xml := by
  induction xml using ampRepair_induct uni with
  | h0 => rfl
  | h1 c s hc ih =>
    rw [ampRepair_cons, if_neg hc, replaceChar_cons, if_neg hc, ih fun hm => h (by simp [hm])]
    rfl
  | h2 s ih =>
    obtain ⟨u, h1, h2, h3⟩ := entityLoop_spec uni s []
    rw [List.nil_append] at h1
    rcases h3 with ⟨_, _, _, h3⟩ | ⟨h31, h32⟩
    · exact absurd (by rw [h3]; simp) h
    · rw [ampRepair_cons, if_pos rfl, h1, h31, replaceChar_cons, if_pos rfl]
      conv_rhs => rw [h32]
      rw [replaceChar_append, replaceChar_of_notMem (amp_notMem h2),
        ih fun hm => h (by rw [h32]; simp [hm])]
      simp

/-- **C37**: a part that does not begin with an XML declaration gets one in front of its repaired text. -/
theorem C37_declaration (uni : Char → Bool) (xml : Str) (h : ¬ c!"<?xml" <+: trim xml) :
    attemptXmlRepair uni xml =
      c!"<?xml version=\"1.0\" encoding=\"UTF-8\" standalone=\"yes\"?>\n" ++ ampRepair uni xml := by
  unfold attemptXmlRepair
  rw [if_neg (by intro hs; exact h (List.isPrefixOf_iff_prefix.mp hs))]
  have k : ∀ a : Str, '&' ∉ a → ampRepair uni (a ++ xml) = a ++ ampRepair uni xml := by
    intro a
    induction a with
    | nil => intro _; rfl
    | cons c a ih =>
      intro hn
      rw [List.cons_append, ampRepair_cons, if_neg (by intro e; exact hn (by simp [e])),
        ih fun hm => hn (by simp [hm])]
      rfl
  exact k _ (by decide)

theorem allReferences_text {a : Str} (h : '&' ∉ a) : AllReferences a := by
  intro x b e
  exact absurd (by rw [e]; simp) h

theorem allReferences_append {a e b : Str} (ha : '&' ∉ a) (he : IsReference e) (hn : '&' ∉ e) (hb : AllReferences b) :
    AllReferences (a ++ '&' :: (e ++ ';' :: b)) := by
  intro x y hxy
  rw [List.append_eq_append_iff] at hxy
  rcases hxy with ⟨z, rfl, hz⟩ | ⟨z, rfl, hz⟩
  · cases z with
    | nil => cases hz; exact ⟨e, b, he, rfl⟩
    | cons d z =>
      rw [List.cons_append, List.cons.injEq] at hz
      have h2 := hz.2
      rw [show e ++ ';' :: b = (e ++ c!";") ++ b by simp, List.append_eq_append_iff] at h2
      rcases h2 with ⟨w, hw, h3⟩ | ⟨w, hw, h3⟩
      · exact hb w y h3
      · cases w with
        | nil => exact hb [] y (by simpa using h3.symm)
        | cons q w =>
          rw [List.cons_append, List.cons.injEq] at h3
          have : '&' ∈ e ++ c!";" := by rw [hw, ← h3.1]; simp
          simp [hn] at this
  · cases z with
    | nil => simp only [List.nil_append] at hz; cases hz; exact ⟨e, b, he, rfl⟩
    | cons d z =>
      rw [List.cons_append, List.cons.injEq] at hz
      exact absurd (by rw [← hz.1]; simp) ha

example : AllReferences c!"a &amp; b &#169;" :=
  allReferences_append (a := c!"a ") (e := c!"amp") (b := c!" b &#169;") (by decide) (.inl (by decide)) (by decide)
    (allReferences_append (a := c!" b ") (e := c!"#169") (b := []) (by decide)
      (.inr (.inl ⟨c!"169", rfl, by decide, by decide, by decide⟩)) (by decide) (allReferences_text (by decide)))

/-- **C37** fails as stated: an entity that XML does not define is escaped, but its semicolon is lost; a
numeric reference that is not a number is kept; and a numeric reference with leading zeros is escaped. -/
theorem C37_bad_number_violated (uni : Char → Bool) :
    ampRepair uni c!"a&nbsp;b" = c!"a&amp;nbspb" ∧ ampRepair uni c!"&#zz;" = c!"&#zz;" ∧
    ampRepair uni c!"&#000000169;" = c!"&amp;#000000169;" := by
  refine ⟨rfl, rfl, rfl⟩

/-! ## C75 -/

theorem dropWhile_nil {s : Str} : s.dropWhile isWs = [] ↔ ∀ c ∈ s, isWs c = true := by
  induction s with
  | nil => simp
  | cons c s ih =>
    rw [List.dropWhile_cons]
    by_cases h : isWs c = true
    · simp [h, ih]
    · simp [h]

theorem trim_eq_nil {s : Str} : trim s = [] ↔ ∀ c ∈ s, isWs c = true := by
  unfold trim trimEnd trimStart
  rw [List.reverse_eq_nil_iff, dropWhile_nil]
  constructor
  · intro h
    have : s.dropWhile isWs = [] := by
      by_contra hne
      have h1 := List.head_dropWhile_not isWs hne
      have h2 := h _ (List.mem_reverse.mpr (List.head_mem hne))
      rw [h1] at h2
      cases h2
    exact dropWhile_nil.mp this
  · intro h c hc
    exact h c (List.dropWhile_sublist isWs |>.subset (List.mem_reverse.mp hc))

theorem wellFormed_iff (xml : Str) : validateWellFormedXml xml = false ↔ ∀ c ∈ xml, isWs c = true := by
  rw [← trim_eq_nil]
  unfold validateWellFormedXml
  simp only
  split <;> simp [*]

/-- **C75** (part): exactly the XML and relationship parts with nothing but blanks are reported as invalid
XML. Missing: every other kind of malformed text, see `C75_malformed_violated`. -/
theorem C75_reported_partial (p : Package) (path : Str) :
    RepairIssue.invalidXml path ∈ validate p ↔
      ∃ data, p.getPart path = some data ∧ (c!".xml" <:+ path ∨ c!".rels" <:+ path) ∧
        ∀ c ∈ decodeLossy data, isWs c = true := by
  have h1 : RepairIssue.invalidXml path ∈ validate p ↔ RepairIssue.invalidXml path ∈ checkXmlValidity p := by
    unfold validate
    simp only [List.mem_append]
    constructor
    · rintro ((((h | h) | h) | h) | h)
      · simp [checkRequiredParts] at h
      · exact h
      · exfalso
        have k : ∀ q, RepairIssue.invalidXml path ∉ checkRelsFile p q := by
          intro q hq
          unfold checkRelsFile at hq
          split at hq
          · simp at hq
          · obtain ⟨l, _, hl⟩ := List.mem_flatMap.mp hq
            unfold checkRelsLine at hl
            split at hl
            · split at hl
              · simp at hl
              · simp only at hl
                split at hl
                · simp at hl
                · split at hl <;> simp at hl
            · simp at hl
        unfold checkRelationships at h
        simp only [List.mem_append, List.mem_flatMap, k, or_self, and_false, exists_false] at h
      · simp [checkSlideReferences] at h
      · unfold checkContentTypes at h
        split at h <;> simp at h
    · exact fun h => .inl (.inl (.inl (.inr h)))
  rw [h1]
  unfold checkXmlValidity
  rw [List.mem_flatMap]
  constructor
  · rintro ⟨q, hq, h⟩
    rw [List.mem_filter, Bool.or_eq_true] at hq
    cases hs : p.getPartString q with
    | none => rw [hs] at h; simp at h
    | some xml =>
      rw [hs] at h
      simp only at h
      split at h
      · simp at h
      · rename_i hw
        simp only [List.mem_singleton, RepairIssue.invalidXml.injEq] at h
        subst h
        unfold Package.getPartString at hs
        obtain ⟨data, hd, rfl⟩ := Option.map_eq_some_iff.mp hs
        refine ⟨data, hd, ?_, (wellFormed_iff _).mp (by simpa using hw)⟩
        exact hq.2.imp List.isSuffixOf_iff_suffix.mp List.isSuffixOf_iff_suffix.mp
  · rintro ⟨data, hd, hx, hb⟩
    refine ⟨path, List.mem_filter.mpr ⟨?_, ?_⟩, ?_⟩
    · exact (AMap.get_isSome_iff p path).mp (by unfold Package.getPart at hd; rw [hd]; rfl)
    · rw [Bool.or_eq_true]
      exact hx.imp List.isSuffixOf_iff_suffix.mpr List.isSuffixOf_iff_suffix.mpr
    · have : p.getPartString path = some (decodeLossy data) := by
        unfold Package.getPartString
        rw [hd]; rfl
      rw [this]
      simp only
      rw [(wellFormed_iff _).mpr hb]
      simp

/-- **C75** fails as stated: unclosed and wrongly nested elements, bare ampersands and text that is not XML
at all pass validation. -/
theorem C75_malformed_violated :
    ∀ xml ∈ [c!"<a><b></a>", c!"<a", c!"x & y", c!"<a b=\"c>"], validateWellFormedXml xml = true := by
  decide

example : RepairIssue.invalidXml c!"ppt/a.xml" ∈ validate [(c!"ppt/a.xml", encode c!" \n")] := by decide +kernel

/-! ## C76 -/

/-- **C76** fails as stated: for the empty package the four required parts are created and counted as
repaired, nothing is left unrepaired, yet the result is not valid, since the created relationship parts
refer to parts that do not exist. -/
theorem C76_fully_repaired_violated (uni : Char → Bool) :
    (repair uni []).2.fullyRepaired = true ∧ (repair uni []).2.isValid = false ∧
    (repair uni []).2.repaired = requiredParts.map .missingPart ∧
    validate (repair uni []).1 ≠ [] := by
  have e : repair uni [] = repair (fun _ => false) [] := by krfl
  rw [e]
  decide +kernel

end PptRs.Props
