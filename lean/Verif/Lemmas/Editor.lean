import Verif.Spec.Editor
import Verif.Lemmas.Utf8
import Verif.Lemmas.AMap
import Verif.Lemmas.Str
import Verif.Lemmas.PartPath

/-!
# The package after editor calls
-/

namespace PptRs

open PptRs.Spec

namespace Editor

theorem getPart_addPart (p : Package) (a k : Str) (v : Bytes) :
    Package.getPart (p.addPart a v) k = if k = a then some v else p.getPart k :=
  AMap.get_insert p a v k

theorem getPart_removePart (p : Package) (a k : Str) :
    Package.getPart (p.removePart a).1 k = if k = a then none else p.getPart k :=
  AMap.get_remove p a k

theorem getPart_movePart (p : Package) (a b k : Str) (hab : a ≠ b) (hb : p.getPart b = none) :
    Package.getPart (movePart p a b) k =
      if k = b then p.getPart a else if k = a then none else p.getPart k := by
  have e2 : (p.removePart a).2 = p.getPart a := rfl
  unfold movePart
  rw [e2]
  cases h : p.getPart a with
  | none =>
    simp only
    rw [getPart_removePart]
    by_cases hk : k = a
    · subst hk; simp [hab]
    · by_cases hkb : k = b
      · subst hkb; simp [hk, hb]
      · simp [hk, hkb]
  | some v =>
    simp only
    rw [getPart_addPart, getPart_removePart]

/-- What `movePart` leaves alone, without knowing whether the target is there. -/
theorem getPart_movePart_other (p : Package) {a b k : Str} (ha : k ≠ a) (hb : k ≠ b) :
    Package.getPart (movePart p a b) k = p.getPart k := by
  unfold movePart
  cases (p.removePart a).2 with
  | none => simp only; rw [getPart_removePart, if_neg ha]
  | some v => simp only; rw [getPart_addPart, if_neg hb, getPart_removePart, if_neg ha]

theorem slidePath_inj {m n : Nat} : slidePath m = slidePath n ↔ m = n := by
  refine ⟨fun h => ?_, fun h => by rw [h]⟩
  unfold slidePath at h
  simp only [List.append_assoc, List.append_cancel_left_eq] at h
  exact (dec_dot_inj h).1

theorem slideRelsPath_inj {m n : Nat} : slideRelsPath m = slideRelsPath n ↔ m = n := by
  refine ⟨fun h => ?_, fun h => by rw [h]⟩
  unfold slideRelsPath at h
  simp only [List.append_assoc, List.append_cancel_left_eq] at h
  exact (dec_dot_inj h).1

theorem slidePath_ne_rels (m n : Nat) : slidePath m ≠ slideRelsPath n := by
  intro h
  have := congrArg (·[11]?) h
  simp [slidePath, slideRelsPath] at this

theorem slidePath_ne_temp (m : Nat) : slidePath m ≠ tempPath := by
  intro h
  have := congrArg (·[11]?) h
  simp [slidePath, tempPath] at this

theorem slidePath_ne_tempRels (m : Nat) : slidePath m ≠ tempRelsPath := by
  intro h
  have := congrArg (·[11]?) h
  simp [slidePath, tempRelsPath] at this

theorem slideRelsPath_ne_temp (m : Nat) : slideRelsPath m ≠ tempPath := by
  intro h
  have := congrArg (·[12]?) h
  simp [slideRelsPath, tempPath] at this

theorem slideRelsPath_ne_tempRels (m : Nat) : slideRelsPath m ≠ tempRelsPath := by
  intro h
  have := congrArg (·[17]?) h
  simp [slideRelsPath, tempRelsPath] at this

/-- A fixed part: none of the slide parts, relationship parts and temporary parts. -/
structure Fixed (k : Str) : Prop where
  slide : ∀ n, k ≠ slidePath n
  rels : ∀ n, k ≠ slideRelsPath n
  temp : k ≠ tempPath
  tempRels : k ≠ tempRelsPath

theorem fixed_pres : Fixed presPath := by
  refine ⟨fun n h => ?_, fun n h => ?_, by decide, by decide⟩
  all_goals
    have := congrArg (·[4]?) h
    simp [slidePath, slideRelsPath, presPath] at this

theorem fixed_presRels : Fixed presRelsPath := by
  refine ⟨fun n h => ?_, fun n h => ?_, by decide, by decide⟩
  all_goals
    have := congrArg (·[4]?) h
    simp [slidePath, slideRelsPath, presRelsPath] at this

theorem fixed_types : Fixed typesPath := by
  refine ⟨fun n h => ?_, fun n h => ?_, by decide, by decide⟩
  all_goals
    have := congrArg (·[0]?) h
    simp [slidePath, slideRelsPath, typesPath] at this

/-- A numbered family of parts. -/
structure Family where
  path : Nat → Str
  inj : ∀ m n, path m = path n ↔ m = n

/-- The slides. -/
def slideFam : Family := ⟨slidePath, fun _ _ => slidePath_inj⟩

/-- Their relationship parts. -/
def relsFam : Family := ⟨slideRelsPath, fun _ _ => slideRelsPath_inj⟩

/-- The part with a number. -/
def Family.at (F : Family) (p : Package) (n : Nat) : Option Bytes := p.getPart (F.path n)

/-- Renumbering moves the part with the old number if the new number is free. -/
def Family.Moves (F : Family) : Prop :=
  ∀ (p : Package) (a b : Nat), a ≠ b → F.at p b = none → ∀ n,
    F.at (renumber p a b) n = if n = b then F.at p a else if n = a then none else F.at p n

theorem slideFam_moves : slideFam.Moves := by
  intro p a b hab hb n
  show Package.getPart (renumber p a b) (slidePath n) = _
  unfold renumber
  rw [getPart_movePart_other _ (slidePath_ne_rels _ _) (slidePath_ne_rels _ _),
    getPart_movePart p (slidePath a) (slidePath b) _ (by simpa [slidePath_inj] using hab) hb]
  simp only [slidePath_inj]
  rfl

theorem relsFam_moves : relsFam.Moves := by
  intro p a b hab hb n
  show Package.getPart (renumber p a b) (slideRelsPath n) = _
  have e : ∀ k, Package.getPart (movePart p (slidePath a) (slidePath b)) (slideRelsPath k)
      = p.getPart (slideRelsPath k) := fun k =>
    getPart_movePart_other _ (slidePath_ne_rels _ _).symm (slidePath_ne_rels _ _).symm
  unfold renumber
  rw [getPart_movePart _ _ _ _ (by simpa [slideRelsPath_inj] using hab) (by rw [e]; exact hb), e, e]
  simp only [slideRelsPath_inj]
  rfl

theorem getPart_renumber_other (p : Package) (a b : Nat) {k : Str} (h1 : ∀ n, k ≠ slidePath n)
    (h2 : ∀ n, k ≠ slideRelsPath n) : Package.getPart (renumber p a b) k = p.getPart k := by
  unfold renumber
  rw [getPart_movePart_other _ (h2 _) (h2 _), getPart_movePart_other _ (h1 _) (h1 _)]

theorem shiftDown_succ (p : Package) (first k : Nat) :
    shiftDown p first (k + 1) = renumber (shiftDown p first k) (first + k + 1) (first + k) := by
  simp [shiftDown, List.range'_concat]

theorem shiftUp_succ (p : Package) (first k : Nat) :
    shiftUp p first (k + 1) = shiftUp (renumber p (first + k) (first + k + 1)) first k := by
  simp [shiftUp, List.range'_concat]

theorem Family.Moves.shiftDown {F : Family} (hF : F.Moves) (p : Package) (first k : Nat)
    (h : F.at p first = none) (n : Nat) :
    F.at (Editor.shiftDown p first k) n =
      if first ≤ n ∧ n < first + k then F.at p (n + 1)
      else if n = first + k then none else F.at p n := by
  induction k generalizing n with
  | zero =>
    have : Editor.shiftDown p first 0 = p := rfl
    rw [this]
    by_cases hn : n = first
    · subst hn; simp [h]
    · have : ¬ (first ≤ n ∧ n < first + 0) := by omega
      rw [if_neg this, if_neg (by omega)]
  | succ k ih =>
    rw [shiftDown_succ, hF _ _ _ (by omega) (by rw [ih]; simp)]
    simp only [ih]
    by_cases h1 : n = first + k
    · subst h1
      rw [if_pos rfl, if_neg (by omega), if_neg (by omega), if_pos (by omega)]
    · rw [if_neg h1]
      by_cases h2 : n = first + k + 1
      · rw [if_pos h2, if_neg (by omega), if_pos (by omega)]
      · rw [if_neg h2]
        by_cases h3 : first ≤ n ∧ n < first + k
        · rw [if_pos h3, if_pos (by omega)]
        · rw [if_neg h3, if_neg h1, if_neg (by omega), if_neg (by omega)]

theorem Family.Moves.shiftUp {F : Family} (hF : F.Moves) (p : Package) (first k : Nat)
    (h : F.at p (first + k) = none) (n : Nat) :
    F.at (Editor.shiftUp p first k) n =
      if n = first then none
      else if first < n ∧ n ≤ first + k then F.at p (n - 1) else F.at p n := by
  induction k generalizing p n with
  | zero =>
    have : Editor.shiftUp p first 0 = p := rfl
    rw [this]
    by_cases hn : n = first
    · subst hn; simpa using h
    · have : ¬ (first < n ∧ n ≤ first + 0) := by omega
      rw [if_neg hn, if_neg this]
  | succ k ih =>
    have hm := hF p (first + k) (first + k + 1) (by omega) h
    rw [shiftUp_succ, ih _ (by rw [hm]; simp), hm, hm]
    by_cases h1 : n = first
    · rw [if_pos h1, if_pos h1]
    · rw [if_neg h1, if_neg h1]
      by_cases h2 : first < n ∧ n ≤ first + k
      · rw [if_pos h2, if_neg (by omega), if_neg (by omega), if_pos (by omega)]
      · rw [if_neg h2]
        by_cases h3 : n = first + k + 1
        · rw [if_pos h3, if_pos (by omega), h3]; rfl
        · rw [if_neg h3, if_neg (by omega), if_neg (by omega)]

theorem getPart_shiftDown_other (p : Package) (first k : Nat) {x : Str} (h1 : ∀ n, x ≠ slidePath n)
    (h2 : ∀ n, x ≠ slideRelsPath n) : Package.getPart (shiftDown p first k) x = p.getPart x := by
  induction k with
  | zero => rfl
  | succ k ih => rw [shiftDown_succ, getPart_renumber_other _ _ _ h1 h2, ih]

theorem getPart_shiftUp_other (p : Package) (first k : Nat) {x : Str} (h1 : ∀ n, x ≠ slidePath n)
    (h2 : ∀ n, x ≠ slideRelsPath n) : Package.getPart (shiftUp p first k) x = p.getPart x := by
  induction k generalizing p with
  | zero => rfl
  | succ k ih => rw [shiftUp_succ, ih, getPart_renumber_other _ _ _ h1 h2]

theorem getPart_updatePart (p : Package) (a : Str) (f : Str → Str) {k : Str} (h : k ≠ a) :
    Package.getPart (updatePart p a f) k = p.getPart k := by
  unfold updatePart
  split
  · rw [getPart_addPart, if_neg h]
  · rfl

theorem getPart_rebuild (e : Editor) {k : Str} (h1 : k ≠ presPath) (h2 : k ≠ presRelsPath)
    (h3 : k ≠ typesPath) : Package.getPart (rebuild e).package k = e.package.getPart k := by
  show Package.getPart (Package.addPart _ _ _) k = _
  rw [getPart_addPart, if_neg h3]
  show Package.getPart (Package.addPart _ _ _) k = _
  rw [getPart_addPart, if_neg h2]
  show Package.getPart (Package.addPart _ _ _) k = _
  rw [getPart_addPart, if_neg h1]

theorem slideCount_rebuild (e : Editor) : (rebuild e).slideCount = e.slideCount := rfl

/-! ### Names -/

theorem isSlideName_slidePath (n : Nat) : IsSlideName (slidePath n) := by
  refine ⟨dec n, rfl, ?_⟩
  rintro ⟨a, b, h⟩
  have hm : '_' ∈ slidePath n := by rw [h]; simp
  unfold slidePath at hm
  simp only [List.mem_append] at hm
  rcases hm with (hm | hm) | hm
  · revert hm; decide
  · exact not_mem_dec (by decide) hm
  · revert hm; decide

theorem isSlideName_ne_rels {k : Str} (h : IsSlideName k) (n : Nat) : k ≠ slideRelsPath n := by
  rintro rfl
  obtain ⟨_, _, h⟩ := h
  exact h ⟨c!"ppt/slides/", c!"/slide" ++ dec n ++ c!".xml.rels", by simp [slideRelsPath]⟩

theorem isSlideName_ne_of_prefix {k x : Str} (h : IsSlideName k)
    (hx : (c!"ppt/slides/slide").isPrefixOf x = false) : k ≠ x := by
  rintro rfl
  obtain ⟨m, h, _⟩ := h
  rw [h] at hx
  simp at hx

theorem isSlideName_fixed {k : Str} (h : IsSlideName k) :
    k ≠ tempPath ∧ k ≠ tempRelsPath ∧ k ≠ presPath ∧ k ≠ presRelsPath ∧ k ≠ typesPath :=
  ⟨isSlideName_ne_of_prefix h (by decide), isSlideName_ne_of_prefix h (by decide), isSlideName_ne_of_prefix h (by decide),
    isSlideName_ne_of_prefix h (by decide), isSlideName_ne_of_prefix h (by decide)⟩

/-! ### The invariant -/

/-- The editor holds the slides of a list. -/
structure Inv (e : Editor) (l : List Slide) : Prop where
  are : SlidesAre e.package l
  temps : NoTemps e.package
  count : e.slideCount = l.length

theorem Inv.slide {e : Editor} {l : List Slide} (h : Inv e l) (i : Nat) :
    slideFam.at e.package (i + 1) = l[i]?.map (·.xml) := h.are.slides i

theorem Inv.rel {e : Editor} {l : List Slide} (h : Inv e l) (i : Nat) :
    relsFam.at e.package (i + 1) = l[i]?.bind (·.rels) := h.are.rels i

theorem Inv.slide_pos {e : Editor} {l : List Slide} (h : Inv e l) {n : Nat} (hn : 0 < n) :
    slideFam.at e.package n = l[n - 1]?.map (·.xml) := by
  obtain ⟨m, rfl⟩ : ∃ m, n = m + 1 := ⟨n - 1, by omega⟩
  exact h.slide m

theorem Inv.rel_pos {e : Editor} {l : List Slide} (h : Inv e l) {n : Nat} (hn : 0 < n) :
    relsFam.at e.package n = l[n - 1]?.bind (·.rels) := by
  obtain ⟨m, rfl⟩ : ∃ m, n = m + 1 := ⟨n - 1, by omega⟩
  exact h.rel m

theorem Inv.zero {e : Editor} {l : List Slide} (h : Inv e l) : slideFam.at e.package 0 = none := by
  by_contra hc
  obtain ⟨i, _, hi⟩ := h.are.only (slidePath 0) (isSlideName_slidePath 0)
    (Option.isSome_iff_ne_none.mpr hc)
  have : slidePath 0 = slidePath (i + 1) := hi
  rw [slidePath_inj] at this
  omega

theorem Inv.other {e : Editor} {l : List Slide} (h : Inv e l) {k : Str} (hk : IsSlideName k)
    (hn : ∀ n, k ≠ slidePath n) : Package.getPart e.package k = none := by
  by_contra hc
  obtain ⟨i, _, hi⟩ := h.are.only k hk (Option.isSome_iff_ne_none.mpr hc)
  exact hn (i + 1) hi

theorem Inv.mk' {e : Editor} {l : List Slide} (hc : e.slideCount = l.length)
    (hs : ∀ i, slideFam.at e.package (i + 1) = l[i]?.map (·.xml))
    (hr : ∀ i, relsFam.at e.package (i + 1) = l[i]?.bind (·.rels))
    (h0 : slideFam.at e.package 0 = none)
    (ho : ∀ k, IsSlideName k → (∀ n, k ≠ slidePath n) → Package.getPart e.package k = none)
    (ht : Package.getPart e.package tempPath = none)
    (ht' : Package.getPart e.package tempRelsPath = none) : Inv e l := by
  refine ⟨⟨hs, hr, ?_⟩, ⟨ht, ht'⟩, hc⟩
  intro path hp hsome
  by_cases hn : ∃ n, path = slidePath n
  · obtain ⟨n, rfl⟩ := hn
    cases n with
    | zero =>
      rw [show Package.getPart e.package (slidePath 0) = none from h0] at hsome
      simp at hsome
    | succ i =>
      refine ⟨i, ?_, rfl⟩
      rw [show Package.getPart e.package (slidePath (i + 1)) = l[i]?.map (·.xml) from hs i] at hsome
      rw [Option.isSome_map] at hsome
      exact (List.getElem?_eq_some_iff.mp (Option.isSome_iff_exists.mp hsome).choose_spec).1
  · rw [ho path hp (fun n e => hn ⟨n, e⟩)] at hsome
    simp at hsome

/-- Rebuilding changes no slide. -/
theorem at_rebuild (e : Editor) (n : Nat) :
    slideFam.at (rebuild e).package n = slideFam.at e.package n ∧
      relsFam.at (rebuild e).package n = relsFam.at e.package n :=
  ⟨getPart_rebuild e (fixed_pres.slide n).symm (fixed_presRels.slide n).symm (fixed_types.slide n).symm,
   getPart_rebuild e (fixed_pres.rels n).symm (fixed_presRels.rels n).symm (fixed_types.rels n).symm⟩

theorem Inv.rebuild {e : Editor} {l : List Slide} (h : Inv e l) : Inv (rebuild e) l := by
  refine Inv.mk' h.count (fun i => ?_) (fun i => ?_) ?_ (fun k hk hn => ?_) ?_ ?_
  · rw [(at_rebuild e _).1, h.slide]
  · rw [(at_rebuild e _).2, h.rel]
  · rw [(at_rebuild e _).1, h.zero]
  · obtain ⟨_, _, h1, h2, h3⟩ := isSlideName_fixed hk
    rw [getPart_rebuild e h1 h2 h3, h.other hk hn]
  · rw [getPart_rebuild e (by decide) (by decide) (by decide)]; exact h.temps.1
  · rw [getPart_rebuild e (by decide) (by decide) (by decide)]; exact h.temps.2

/-- Adding a slide part and its relationships. -/
theorem getPart_addBoth (p : Package) (n : Nat) (a b : Bytes) (k : Str) :
    Package.getPart (Package.addPart (p.addPart (slidePath n) a) (slideRelsPath n) b) k =
      if k = slideRelsPath n then some b else if k = slidePath n then some a else p.getPart k := by
  rw [getPart_addPart, getPart_addPart]

theorem at_addBoth (p : Package) (n : Nat) (a b : Bytes) (m : Nat) :
    slideFam.at (Package.addPart (p.addPart (slidePath n) a) (slideRelsPath n) b) m
      = (if m = n then some a else slideFam.at p m) ∧
    relsFam.at (Package.addPart (p.addPart (slidePath n) a) (slideRelsPath n) b) m
      = (if m = n then some b else relsFam.at p m) := by
  constructor
  · show Package.getPart _ (slidePath m) = _
    rw [getPart_addBoth, if_neg (slidePath_ne_rels _ _)]
    simp only [slidePath_inj]
    rfl
  · show Package.getPart _ (slideRelsPath m) = _
    rw [getPart_addBoth]
    simp only [slideRelsPath_inj, (slidePath_ne_rels _ _).symm, if_false]
    rfl

theorem getPart_addBoth_other (p : Package) (n : Nat) (a b : Bytes) {k : Str}
    (h1 : k ≠ slidePath n) (h2 : k ≠ slideRelsPath n) :
    Package.getPart (Package.addPart (p.addPart (slidePath n) a) (slideRelsPath n) b) k = p.getPart k := by
  rw [getPart_addBoth, if_neg h2, if_neg h1]

theorem Inv.add {e : Editor} {l : List Slide} (h : Inv e l) (c : SlideText) :
    Inv (e.addSlide c).1 (l ++ [.of c]) := by
  have key : ∀ k, k ≠ presPath → k ≠ presRelsPath → k ≠ typesPath →
      Package.getPart (e.addSlide c).1.package k = Package.getPart (Package.addPart
        (Package.addPart e.package (slidePath (e.slideCount + 1)) (encode c.xml))
        (slideRelsPath (e.slideCount + 1)) (encode newSlideRels)) k := by
    intro k h1 h2 h3
    show Package.getPart (updatePart (updatePart (updatePart _ _ _) _ _) _ _) k = _
    rw [getPart_updatePart _ _ _ h3, getPart_updatePart _ _ _ h2, getPart_updatePart _ _ _ h1]
  have ks : ∀ n, slideFam.at (e.addSlide c).1.package n =
      if n = e.slideCount + 1 then some (encode c.xml) else slideFam.at e.package n := fun n => by
    rw [← (at_addBoth _ _ _ _ _).1]
    exact key _ (fixed_pres.slide n).symm (fixed_presRels.slide n).symm (fixed_types.slide n).symm
  have kr : ∀ n, relsFam.at (e.addSlide c).1.package n =
      if n = e.slideCount + 1 then some (encode newSlideRels) else relsFam.at e.package n := fun n => by
    rw [← (at_addBoth _ _ _ _ _).2]
    exact key _ (fixed_pres.rels n).symm (fixed_presRels.rels n).symm (fixed_types.rels n).symm
  refine Inv.mk' ?_ (fun i => ?_) (fun i => ?_) ?_ (fun k hk hn => ?_) ?_ ?_
  · show e.slideCount + 1 = _
    simp [h.count]
  · rw [ks, h.slide, h.count, List.getElem?_append]
    by_cases hi : i < l.length
    · rw [if_neg (by omega), if_pos hi]
    · by_cases hi2 : i = l.length
      · subst hi2; simp [Slide.of]
      · rw [if_neg (by omega), if_neg hi, List.getElem?_eq_none (by omega),
          List.getElem?_eq_none (by simp; omega)]
  · rw [kr, h.rel, h.count, List.getElem?_append]
    by_cases hi : i < l.length
    · rw [if_neg (by omega), if_pos hi]
    · by_cases hi2 : i = l.length
      · subst hi2; simp [Slide.of]
      · rw [if_neg (by omega), if_neg hi, List.getElem?_eq_none (by omega),
          List.getElem?_eq_none (by simp; omega)]
  · rw [ks, if_neg (by omega), h.zero]
  · obtain ⟨_, _, h1, h2, h3⟩ := isSlideName_fixed hk
    rw [key k h1 h2 h3, getPart_addBoth_other _ _ _ _ (hn _) (isSlideName_ne_rels hk _), h.other hk hn]
  · rw [key _ (by decide) (by decide) (by decide), getPart_addBoth_other _ _ _ _
      (slidePath_ne_temp _).symm (slideRelsPath_ne_temp _).symm]
    exact h.temps.1
  · rw [key _ (by decide) (by decide) (by decide), getPart_addBoth_other _ _ _ _
      (slidePath_ne_tempRels _).symm (slideRelsPath_ne_tempRels _).symm]
    exact h.temps.2

theorem Inv.update {e : Editor} {l : List Slide} (h : Inv e l) {i : Nat} {s : Slide}
    (hi : l[i]? = some s) (c : SlideText) :
    Inv { e with package := e.package.addPart (slidePath (i + 1)) (encode c.xml) }
      (l.set i { s with xml := encode c.xml }) := by
  have hlt : i < l.length := (List.getElem?_eq_some_iff.mp hi).1
  refine Inv.mk' (by simp [h.count]) (fun j => ?_) (fun j => ?_) ?_ (fun k hk hn => ?_) ?_ ?_
  · show Package.getPart _ (slidePath (j + 1)) = _
    rw [getPart_addPart, List.getElem?_set]
    simp only [slidePath_inj]
    by_cases hj : i = j
    · subst hj; simp [hlt]
    · rw [if_neg (by omega), if_neg hj]; exact h.slide j
  · show Package.getPart _ (slideRelsPath (j + 1)) = _
    rw [getPart_addPart, if_neg (slidePath_ne_rels _ _).symm, List.getElem?_set]
    rw [show Package.getPart e.package (slideRelsPath (j + 1)) = _ from h.rel j]
    by_cases hj : i = j
    · subst hj; rw [hi, if_pos rfl, if_pos hlt]; rfl
    · rw [if_neg hj]
  · show Package.getPart _ (slidePath 0) = _
    rw [getPart_addPart, if_neg (by simp [slidePath_inj])]
    exact h.zero
  · rw [getPart_addPart, if_neg (hn _), h.other hk hn]
  · rw [getPart_addPart, if_neg (slidePath_ne_temp _).symm]; exact h.temps.1
  · rw [getPart_addPart, if_neg (slidePath_ne_tempRels _).symm]; exact h.temps.2

theorem Inv.remove {e : Editor} {l : List Slide} (h : Inv e l) {i : Nat} (hi : i < l.length) :
    Inv (e.removeSlide i).1 (l.take i ++ l.drop (i + 1)) := by
  have e1 : (e.removeSlide i).1 = Editor.rebuild ⟨shiftDown (Package.removePart
      (e.package.removePart (slidePath (i + 1))).1 (slideRelsPath (i + 1))).1 (i + 1)
      (e.slideCount - (i + 1)), e.slideCount - 1⟩ := by
    unfold removeSlide
    rw [if_neg (by rw [h.count]; omega)]
  rw [e1]
  apply Inv.rebuild
  generalize hq : (Package.removePart
      (e.package.removePart (slidePath (i + 1))).1 (slideRelsPath (i + 1))).1 = q
  have qs : ∀ n, slideFam.at q n = if n = i + 1 then none else slideFam.at e.package n := fun n => by
    show Package.getPart q (slidePath n) = _
    rw [← hq, getPart_removePart, if_neg (slidePath_ne_rels _ _), getPart_removePart]
    simp only [slidePath_inj]
    rfl
  have qr : ∀ n, relsFam.at q n = if n = i + 1 then none else relsFam.at e.package n := fun n => by
    show Package.getPart q (slideRelsPath n) = _
    rw [← hq, getPart_removePart, getPart_removePart, if_neg (slidePath_ne_rels _ _).symm]
    simp only [slideRelsPath_inj]
    rfl
  have qo : ∀ k, (∀ n, k ≠ slidePath n) → (∀ n, k ≠ slideRelsPath n) →
      Package.getPart q k = Package.getPart e.package k := fun k h1 h2 => by
    rw [← hq, getPart_removePart, if_neg (h2 _), getPart_removePart, if_neg (h1 _)]
  have hc := h.count
  have hl : ∀ j, (l.take i ++ l.drop (i + 1))[j]? = if j < i then l[j]? else l[j + 1]? := by
    intro j
    rw [List.getElem?_append]
    simp only [List.length_take, Nat.min_eq_left (Nat.le_of_lt hi)]
    by_cases hj : j < i
    · rw [if_pos hj, if_pos hj, List.getElem?_take, if_pos hj]
    · rw [if_neg hj, if_neg hj, List.getElem?_drop]
      congr 1
      omega
  refine Inv.mk' ?_ (fun j => ?_) (fun j => ?_) ?_ (fun k hk hn => ?_) ?_ ?_
  · simp [hc]; omega
  · rw [hl]
    show slideFam.at (shiftDown q (i + 1) (e.slideCount - (i + 1))) (j + 1) = _
    rw [slideFam_moves.shiftDown _ _ _ (by rw [qs]; simp)]
    by_cases hj : j < i
    · rw [if_neg (by omega), if_neg (by omega), if_pos hj, qs, if_neg (by omega), h.slide]
    · rw [if_neg hj]
      by_cases hj2 : j + 1 < l.length
      · rw [if_pos (by omega), qs, if_neg (by omega), h.slide]
      · rw [if_neg (by omega), List.getElem?_eq_none (by omega)]
        split
        · rfl
        · rw [qs, if_neg (by omega), h.slide, List.getElem?_eq_none (by omega)]
  · rw [hl]
    show relsFam.at (shiftDown q (i + 1) (e.slideCount - (i + 1))) (j + 1) = _
    rw [relsFam_moves.shiftDown _ _ _ (by rw [qr]; simp)]
    by_cases hj : j < i
    · rw [if_neg (by omega), if_neg (by omega), if_pos hj, qr, if_neg (by omega), h.rel]
    · rw [if_neg hj]
      by_cases hj2 : j + 1 < l.length
      · rw [if_pos (by omega), qr, if_neg (by omega), h.rel]
      · rw [if_neg (by omega), List.getElem?_eq_none (by omega)]
        split
        · rfl
        · rw [qr, if_neg (by omega), h.rel, List.getElem?_eq_none (by omega)]
  · show slideFam.at (shiftDown q (i + 1) (e.slideCount - (i + 1))) 0 = _
    rw [slideFam_moves.shiftDown _ _ _ (by rw [qs]; simp), if_neg (by omega), if_neg (by omega), qs,
      if_neg (by omega), h.zero]
  · show Package.getPart (shiftDown q _ _) k = _
    rw [getPart_shiftDown_other _ _ _ hn (isSlideName_ne_rels hk), qo k hn (isSlideName_ne_rels hk), h.other hk hn]
  · show Package.getPart (shiftDown q _ _) _ = _
    rw [getPart_shiftDown_other _ _ _ (fun n => (slidePath_ne_temp n).symm)
      (fun n => (slideRelsPath_ne_temp n).symm), qo _ (fun n => (slidePath_ne_temp n).symm)
      (fun n => (slideRelsPath_ne_temp n).symm)]
    exact h.temps.1
  · show Package.getPart (shiftDown q _ _) _ = _
    rw [getPart_shiftDown_other _ _ _ (fun n => (slidePath_ne_tempRels n).symm)
      (fun n => (slideRelsPath_ne_tempRels n).symm), qo _ (fun n => (slidePath_ne_tempRels n).symm)
      (fun n => (slideRelsPath_ne_tempRels n).symm)]
    exact h.temps.2

/-- Reading a list with an element put in. -/
theorem getElem?_put {α : Type} (l : List α) (i : Nat) (hi : i ≤ l.length) (x : α) (j : Nat) :
    (l.take i ++ [x] ++ l.drop i)[j]? = if j < i then l[j]? else if j = i then some x else l[j - 1]? := by
  rw [List.append_assoc, List.getElem?_append]
  simp only [List.length_take, Nat.min_eq_left hi]
  by_cases hj : j < i
  · rw [if_pos hj, if_pos hj, List.getElem?_take, if_pos hj]
  · rw [if_neg hj, if_neg hj]
    by_cases hj2 : j = i
    · subst hj2; simp
    · rw [if_neg hj2]
      obtain ⟨m, rfl⟩ : ∃ m, j = i + 1 + m := ⟨j - i - 1, by omega⟩
      have : i + 1 + m - i = m + 1 := by omega
      rw [this, List.cons_append, List.getElem?_cons_succ, List.nil_append, List.getElem?_drop]
      congr 1
      omega

/-- Making room and putting a slide in. -/
theorem Inv.put {e : Editor} {l : List Slide} (h : Inv e l) {i : Nat} (hi : i ≤ l.length) (a b : Bytes) :
    Inv ⟨Package.addPart (Package.addPart (shiftUp e.package (i + 1) (e.slideCount + 1 - (i + 1)))
      (slidePath (i + 1)) a) (slideRelsPath (i + 1)) b, e.slideCount + 1⟩
      (l.take i ++ [⟨a, some b⟩] ++ l.drop i) := by
  have hc := h.count
  have us := slideFam_moves.shiftUp e.package (i + 1) (e.slideCount + 1 - (i + 1)) (by
    rw [h.slide_pos (by omega), List.getElem?_eq_none (by omega)]; rfl)
  have ur := relsFam_moves.shiftUp e.package (i + 1) (e.slideCount + 1 - (i + 1)) (by
    rw [h.rel_pos (by omega), List.getElem?_eq_none (by omega)]; rfl)
  refine Inv.mk' ?_ (fun j => ?_) (fun j => ?_) ?_ (fun k hk hn => ?_) ?_ ?_
  · simp [hc]; omega
  · rw [getElem?_put _ _ hi, (at_addBoth _ _ _ _ _).1, us]
    by_cases hj : j < i
    · rw [if_neg (by omega), if_pos hj, if_neg (by omega), if_neg (by omega), h.slide]
    · rw [if_neg hj]
      by_cases hj2 : j = i
      · rw [if_pos (by omega), if_pos hj2]; rfl
      · rw [if_neg (by omega), if_neg hj2, if_neg (by omega)]
        by_cases hj3 : j ≤ l.length
        · rw [if_pos (by omega), h.slide_pos (by omega)]; rfl
        · rw [if_neg (by omega), h.slide, List.getElem?_eq_none (by omega),
            List.getElem?_eq_none (by omega)]
  · rw [getElem?_put _ _ hi, (at_addBoth _ _ _ _ _).2, ur]
    by_cases hj : j < i
    · rw [if_neg (by omega), if_pos hj, if_neg (by omega), if_neg (by omega), h.rel]
    · rw [if_neg hj]
      by_cases hj2 : j = i
      · rw [if_pos (by omega), if_pos hj2]; rfl
      · rw [if_neg (by omega), if_neg hj2, if_neg (by omega)]
        by_cases hj3 : j ≤ l.length
        · rw [if_pos (by omega), h.rel_pos (by omega)]; rfl
        · rw [if_neg (by omega), h.rel, List.getElem?_eq_none (by omega),
            List.getElem?_eq_none (by omega)]
  · rw [(at_addBoth _ _ _ _ _).1, us, if_neg (by omega), if_neg (by omega), if_neg (by omega), h.zero]
  · rw [getPart_addBoth_other _ _ _ _ (hn _) (isSlideName_ne_rels hk _), getPart_shiftUp_other _ _ _ hn (isSlideName_ne_rels hk),
      h.other hk hn]
  · rw [getPart_addBoth_other _ _ _ _ (slidePath_ne_temp _).symm (slideRelsPath_ne_temp _).symm,
      getPart_shiftUp_other _ _ _ (fun n => (slidePath_ne_temp n).symm)
      (fun n => (slideRelsPath_ne_temp n).symm)]
    exact h.temps.1
  · rw [getPart_addBoth_other _ _ _ _ (slidePath_ne_tempRels _).symm (slideRelsPath_ne_tempRels _).symm,
      getPart_shiftUp_other _ _ _ (fun n => (slidePath_ne_tempRels n).symm)
      (fun n => (slideRelsPath_ne_tempRels n).symm)]
    exact h.temps.2

/-- Reading a list with an element taken out. -/
theorem getElem?_cut {α : Type} (l : List α) (i : Nat) (hi : i < l.length) (j : Nat) :
    (l.take i ++ l.drop (i + 1))[j]? = if j < i then l[j]? else l[j + 1]? := by
  rw [List.getElem?_append]
  simp only [List.length_take, Nat.min_eq_left (Nat.le_of_lt hi)]
  by_cases hj : j < i
  · rw [if_pos hj, if_pos hj, List.getElem?_take, if_pos hj]
  · rw [if_neg hj, if_neg hj, List.getElem?_drop]
    congr 1
    omega

/-- Reading a list with an element moved. -/
theorem getElem?_moved {α : Type} (l : List α) (a b : Nat) (ha : a < l.length) (hb : b < l.length)
    (x : α) (j : Nat) :
    ((l.take a ++ l.drop (a + 1)).take b ++ [x] ++ (l.take a ++ l.drop (a + 1)).drop b)[j]? =
      if j < b then (if j < a then l[j]? else l[j + 1]?)
      else if j = b then some x else (if j - 1 < a then l[j - 1]? else l[j]?) := by
  rw [getElem?_put _ _ (by simp; omega), getElem?_cut _ _ ha, getElem?_cut _ _ ha]
  by_cases h1 : j < b
  · rw [if_pos h1, if_pos h1]
  · rw [if_neg h1, if_neg h1]
    by_cases h2 : j = b
    · rw [if_pos h2, if_pos h2]
    · rw [if_neg h2, if_neg h2, show j - 1 + 1 = j by omega]

theorem moved_self {α : Type} (l : List α) (a : Nat) (x : α) (hx : l[a]? = some x) :
    (l.take a ++ l.drop (a + 1)).take a ++ [x] ++ (l.take a ++ l.drop (a + 1)).drop a = l := by
  have ha : a < l.length := (List.getElem?_eq_some_iff.mp hx).1
  apply List.ext_getElem?
  intro j
  rw [getElem?_moved _ _ _ ha ha]
  by_cases h1 : j < a
  · rw [if_pos h1, if_pos h1]
  · rw [if_neg h1]
    by_cases h2 : j = a
    · rw [if_pos h2, h2, hx]
    · rw [if_neg h2, if_neg (by omega)]

/-- The families after a slide has been put aside, the slides between have been moved, and it has
been put back. -/
theorem at_reordered {F : Family} (hF : F.Moves) {p1 p2 p3 p : Package} {v : Option Bytes} {a b : Nat}
    (h1 : ∀ n, F.at p1 n = if n = a + 1 then none else F.at p n)
    (h2 : p2 = if a < b then Editor.shiftDown p1 (a + 1) (b - a) else Editor.shiftUp p1 (b + 1) (a - b))
    (hab : a ≠ b)
    (h3 : F.at p2 (b + 1) = none → ∀ n, F.at p3 n = if n = b + 1 then v else F.at p2 n) (j : Nat) :
    F.at p3 j =
      if j = b + 1 then v
      else if a < b then (if a + 1 ≤ j ∧ j < b + 1 then F.at p (j + 1) else F.at p j)
      else (if b + 1 < j ∧ j ≤ a + 1 then F.at p (j - 1) else F.at p j) := by
  by_cases hlt : a < b
  · rw [if_pos hlt] at h2
    have k := hF.shiftDown p1 (a + 1) (b - a) (by rw [h1, if_pos rfl])
    rw [← h2] at k
    rw [h3 (by rw [k, if_neg (by omega), if_pos (by omega)]) j]
    by_cases hj : j = b + 1
    · rw [if_pos hj, if_pos hj]
    · rw [if_neg hj, if_neg hj, if_pos hlt, k]
      by_cases hj2 : a + 1 ≤ j ∧ j < b + 1
      · rw [if_pos (by omega), if_pos hj2, h1, if_neg (by omega)]
      · rw [if_neg (by omega), if_neg hj2, if_neg (by omega), h1, if_neg (by omega)]
  · rw [if_neg hlt] at h2
    have k := hF.shiftUp p1 (b + 1) (a - b) (by rw [h1, if_pos (by omega)])
    rw [← h2] at k
    rw [h3 (by rw [k, if_pos rfl]) j]
    by_cases hj : j = b + 1
    · rw [if_pos hj, if_pos hj]
    · rw [if_neg hj, if_neg hj, if_neg hlt, k, if_neg hj]
      by_cases hj2 : b + 1 < j ∧ j ≤ a + 1
      · rw [if_pos (by omega), if_pos hj2, h1, if_neg (by omega)]
      · rw [if_neg (by omega), if_neg hj2, h1, if_neg (by omega)]

/-- The list side of `at_reordered`. -/
theorem list_reordered {α β : Type} (g : Option α → β) (l : List α) (f : Nat → β)
    (hf : ∀ i, f (i + 1) = g l[i]?) (a b : Nat) (ha : a < l.length) (hb : b < l.length) (x : α)
    (i : Nat) :
    (if i + 1 = b + 1 then g (some x)
      else if a < b then (if a + 1 ≤ i + 1 ∧ i + 1 < b + 1 then f (i + 1 + 1) else f (i + 1))
      else (if b + 1 < i + 1 ∧ i + 1 ≤ a + 1 then f (i + 1 - 1) else f (i + 1))) =
    g ((l.take a ++ l.drop (a + 1)).take b ++ [x] ++ (l.take a ++ l.drop (a + 1)).drop b)[i]? := by
  rw [getElem?_moved _ _ _ ha hb]
  by_cases h1 : i = b
  · rw [if_pos (by omega), if_neg (by omega), if_pos h1]
  · rw [if_neg (by omega)]
    by_cases h2 : i < b
    · rw [if_pos h2]
      by_cases h3 : i < a
      · rw [if_pos h3]
        split
        · rw [if_neg (by omega), hf]
        · rw [if_neg (by omega), hf]
      · rw [if_neg h3, if_pos (by omega), if_pos (by omega), hf]
    · rw [if_neg h2, if_neg h1]
      by_cases h3 : i - 1 < a
      · rw [if_pos h3, if_neg (by omega), if_pos (by omega)]
        obtain ⟨m, rfl⟩ : ∃ m, i = m + 1 := ⟨i - 1, by omega⟩
        rw [Nat.add_sub_cancel, hf, Nat.add_sub_cancel]
      · rw [if_neg h3]
        split
        · rw [if_neg (by omega), hf]
        · rw [if_neg (by omega), hf]

theorem Inv.reorder {e : Editor} {l : List Slide} (h : Inv e l) {a b : Nat} {x : Slide}
    (hx : l[a]? = some x) (hb : b < l.length) :
    Inv (e.reorderSlide a b).1
      ((l.take a ++ l.drop (a + 1)).take b ++ [x] ++ (l.take a ++ l.drop (a + 1)).drop b) := by
  have ha : a < l.length := (List.getElem?_eq_some_iff.mp hx).1
  have hc := h.count
  by_cases hab : a = b
  · subst hab
    have e1 : (e.reorderSlide a a).1 = e := by
      unfold reorderSlide
      rw [if_neg (by omega), if_pos rfl]
    rw [e1, moved_self l a x hx]
    exact h
  obtain ⟨p1, hp1⟩ : ∃ p1, p1 = movePart (movePart e.package (slidePath (a + 1)) tempPath)
    (slideRelsPath (a + 1)) tempRelsPath := ⟨_, rfl⟩
  obtain ⟨p2, hp2⟩ : ∃ p2, p2 = if a < b then Editor.shiftDown p1 (a + 1) (b - a)
    else Editor.shiftUp p1 (b + 1) (a - b) := ⟨_, rfl⟩
  obtain ⟨p3, hp3⟩ : ∃ p3, p3 = movePart (movePart p2 tempPath (slidePath (b + 1))) tempRelsPath
    (slideRelsPath (b + 1)) := ⟨_, rfl⟩
  have e1 : (e.reorderSlide a b).1 = Editor.rebuild { e with package := p3 } := by
    unfold reorderSlide
    rw [if_neg (by omega), if_neg hab, hp3, hp2, hp1]
  rw [e1]
  apply Inv.rebuild
  have t1 := h.temps.1
  have t2 := h.temps.2
  -- the package with the slide put aside
  have m1 : ∀ k, Package.getPart (movePart e.package (slidePath (a + 1)) tempPath) k =
      if k = tempPath then Package.getPart e.package (slidePath (a + 1))
      else if k = slidePath (a + 1) then none else Package.getPart e.package k :=
    fun k => getPart_movePart _ _ _ k (slidePath_ne_temp _) t1
  have m2 : ∀ k, Package.getPart p1 k =
      if k = tempRelsPath then Package.getPart e.package (slideRelsPath (a + 1))
      else if k = slideRelsPath (a + 1) then none else
        if k = tempPath then Package.getPart e.package (slidePath (a + 1))
        else if k = slidePath (a + 1) then none else Package.getPart e.package k := fun k => by
    rw [hp1, getPart_movePart _ _ _ k (slideRelsPath_ne_tempRels _) (by
      rw [m1, if_neg (by decide), if_neg (slidePath_ne_tempRels _).symm]; exact t2), m1, m1,
      if_neg (slideRelsPath_ne_temp _), if_neg (slidePath_ne_rels _ _).symm]
  have s1 : ∀ n, slideFam.at p1 n = if n = a + 1 then none else slideFam.at e.package n := fun n => by
    show Package.getPart p1 (slidePath n) = _
    rw [m2, if_neg (slidePath_ne_tempRels _), if_neg (slidePath_ne_rels _ _),
      if_neg (slidePath_ne_temp _)]
    simp only [slidePath_inj]
    rfl
  have r1 : ∀ n, relsFam.at p1 n = if n = a + 1 then none else relsFam.at e.package n := fun n => by
    show Package.getPart p1 (slideRelsPath n) = _
    rw [m2, if_neg (slideRelsPath_ne_tempRels _)]
    simp only [slideRelsPath_inj, if_neg (slideRelsPath_ne_temp _), if_neg (slidePath_ne_rels _ _).symm]
    rfl
  -- the package with the slides between moved
  have o2 : ∀ k, (∀ n, k ≠ slidePath n) → (∀ n, k ≠ slideRelsPath n) →
      Package.getPart p2 k = Package.getPart p1 k := fun k k1 k2 => by
    rw [hp2]
    split
    · exact getPart_shiftDown_other _ _ _ k1 k2
    · exact getPart_shiftUp_other _ _ _ k1 k2
  have c1 : Package.getPart p2 tempPath = some x.xml := by
    rw [o2 _ (fun n => (slidePath_ne_temp n).symm) (fun n => (slideRelsPath_ne_temp n).symm), m2,
      if_neg (by decide), if_neg (slideRelsPath_ne_temp _).symm, if_pos rfl]
    have := h.slide a
    rw [hx] at this
    exact this
  have c2 : Package.getPart p2 tempRelsPath = x.rels := by
    rw [o2 _ (fun n => (slidePath_ne_tempRels n).symm) (fun n => (slideRelsPath_ne_tempRels n).symm),
      m2, if_pos rfl]
    have := h.rel a
    rw [hx] at this
    exact this
  -- the package with the slide put back
  have s3 : slideFam.at p2 (b + 1) = none → ∀ n, slideFam.at p3 n =
      if n = b + 1 then some x.xml else slideFam.at p2 n := fun hn n => by
    show Package.getPart p3 (slidePath n) = _
    rw [hp3, getPart_movePart_other _ (slidePath_ne_tempRels _) (slidePath_ne_rels _ _),
      getPart_movePart _ _ _ _ (slidePath_ne_temp _).symm hn, c1, if_neg (slidePath_ne_temp _)]
    simp only [slidePath_inj]
    rfl
  have r3 : relsFam.at p2 (b + 1) = none → ∀ n, relsFam.at p3 n =
      if n = b + 1 then x.rels else relsFam.at p2 n := fun hn n => by
    show Package.getPart p3 (slideRelsPath n) = _
    rw [hp3, getPart_movePart _ _ _ _ (slideRelsPath_ne_tempRels _).symm (by
        rw [getPart_movePart_other _ (slideRelsPath_ne_temp _) (slidePath_ne_rels _ _).symm]
        exact hn), if_neg (slideRelsPath_ne_tempRels _),
      getPart_movePart_other _ (by decide) (slidePath_ne_tempRels _).symm, c2,
      getPart_movePart_other _ (slideRelsPath_ne_temp _) (slidePath_ne_rels _ _).symm]
    simp only [slideRelsPath_inj]
    rfl
  have zs := at_reordered slideFam_moves s1 hp2 hab s3
  have zr := at_reordered relsFam_moves r1 hp2 hab r3
  have o3 : ∀ k, (∀ n, k ≠ slidePath n) → (∀ n, k ≠ slideRelsPath n) → k ≠ tempPath →
      k ≠ tempRelsPath → Package.getPart p3 k = Package.getPart e.package k := fun k k1 k2 k3 k4 => by
    rw [hp3, getPart_movePart_other _ k4 (k2 _), getPart_movePart_other _ k3 (k1 _), o2 k k1 k2, m2,
      if_neg k4, if_neg (k2 _), if_neg k3, if_neg (k1 _)]
  have ns : slideFam.at p2 (b + 1) = none := by
    by_cases hlt : a < b
    · rw [hp2, if_pos hlt, slideFam_moves.shiftDown _ _ _ (by rw [s1, if_pos rfl]),
        if_neg (by omega), if_pos (by omega)]
    · rw [hp2, if_neg hlt, slideFam_moves.shiftUp _ _ _ (by rw [s1, if_pos (by omega)]), if_pos rfl]
  have nr : relsFam.at p2 (b + 1) = none := by
    by_cases hlt : a < b
    · rw [hp2, if_pos hlt, relsFam_moves.shiftDown _ _ _ (by rw [r1, if_pos rfl]),
        if_neg (by omega), if_pos (by omega)]
    · rw [hp2, if_neg hlt, relsFam_moves.shiftUp _ _ _ (by rw [r1, if_pos (by omega)]), if_pos rfl]
  refine Inv.mk' ?_ (fun i => ?_) (fun i => ?_) ?_ (fun k hk hn => ?_) ?_ ?_
  · simp [hc]; omega
  · show slideFam.at p3 (i + 1) = _
    rw [zs]
    exact list_reordered (fun s => s.map (·.xml)) l (slideFam.at e.package) h.slide a b ha hb x i
  · show relsFam.at p3 (i + 1) = _
    rw [zr]
    exact list_reordered (fun s => s.bind (·.rels)) l (relsFam.at e.package) h.rel a b ha hb x i
  · show slideFam.at p3 0 = _
    rw [zs, if_neg (by omega)]
    split
    · rw [if_neg (by omega), h.zero]
    · rw [if_neg (by omega), h.zero]
  · obtain ⟨k1, k2, _⟩ := isSlideName_fixed hk
    show Package.getPart p3 k = _
    rw [o3 k hn (isSlideName_ne_rels hk) k1 k2, h.other hk hn]
  · show Package.getPart p3 tempPath = _
    rw [hp3, getPart_movePart_other _ (by decide) (slideRelsPath_ne_temp _).symm,
      getPart_movePart _ _ _ _ (slidePath_ne_temp _).symm ns, if_neg (slidePath_ne_temp _).symm,
      if_pos rfl]
  · show Package.getPart p3 tempRelsPath = _
    rw [hp3, getPart_movePart _ _ _ _ (slideRelsPath_ne_tempRels _).symm (by
        rw [getPart_movePart_other _ (slideRelsPath_ne_temp _) (slidePath_ne_rels _ _).symm]
        exact nr), if_neg (slideRelsPath_ne_tempRels _).symm, if_pos rfl]

/-! ### The calls -/

theorem run_correct {e : Editor} {l : List Slide} (h : Inv e l) (op : Op) :
    Inv (op.run e).1 (editList l op).1 ∧ (op.run e).2 = (editList l op).2 := by
  have hc := h.count
  cases op with
  | add c => exact ⟨h.add c, by show some (e.slideCount + 1 - 1) = some l.length; rw [hc]; rfl⟩
  | insert i c =>
    show Inv (e.insertSlide i c).1 _ ∧ (e.insertSlide i c).2 = _
    unfold insertSlide
    by_cases hi : i ≤ l.length
    · have e2 : editList l (.insert i c) = (l.take i ++ [.of c] ++ l.drop i, some i) := if_pos hi
      rw [if_neg (by omega), e2]
      exact ⟨(h.put hi _ _).rebuild, rfl⟩
    · have e2 : editList l (.insert i c) = (l, none) := if_neg hi
      rw [if_pos (by omega), e2]
      exact ⟨h, rfl⟩
  | update i c =>
    show Inv (e.updateSlide i c).1 _ ∧ (e.updateSlide i c).2 = _
    unfold updateSlide
    cases hi : l[i]? with
    | none =>
      have e2 : editList l (.update i c) = (l, none) := by simp only [editList, hi]
      rw [if_pos (by rw [hc]; exact List.getElem?_eq_none_iff.mp hi), e2]
      exact ⟨h, rfl⟩
    | some s =>
      have e2 : editList l (.update i c) = (l.set i { s with xml := encode c.xml }, some 0) := by
        simp only [editList, hi]
      have := (List.getElem?_eq_some_iff.mp hi).1
      rw [if_neg (by omega), e2]
      exact ⟨h.update hi c, rfl⟩
  | remove i =>
    show Inv (e.removeSlide i).1 _ ∧ (e.removeSlide i).2 = _
    by_cases hi : i < l.length
    · have e2 : editList l (.remove i) = (l.take i ++ l.drop (i + 1), some 0) := if_pos hi
      rw [e2]
      refine ⟨h.remove hi, ?_⟩
      unfold removeSlide
      rw [if_neg (by omega)]
    · have e2 : editList l (.remove i) = (l, none) := if_neg hi
      unfold removeSlide
      rw [if_pos (by omega), e2]
      exact ⟨h, rfl⟩
  | duplicate i =>
    show Inv (e.duplicateSlide i).1 _ ∧ (e.duplicateSlide i).2 = _
    unfold duplicateSlide
    have k1 : Package.getPart e.package (slidePath (i + 1)) = l[i]?.map (·.xml) := h.slide i
    have k2 : Package.getPart e.package (slideRelsPath (i + 1)) = l[i]?.bind (·.rels) := h.rel i
    cases hi : l[i]? with
    | none =>
      have e2 : editList l (.duplicate i) = (l, none) := by simp only [editList, hi]
      rw [if_pos (by rw [hc]; exact List.getElem?_eq_none_iff.mp hi), e2]
      exact ⟨h, rfl⟩
    | some s =>
      have e2 : editList l (.duplicate i) = (l.take (i + 1) ++ [⟨s.xml, some (s.rels.getD [])⟩]
        ++ l.drop (i + 1), some (i + 1)) := by simp only [editList, hi]
      have := (List.getElem?_eq_some_iff.mp hi).1
      rw [hi] at k1 k2
      rw [if_neg (by omega), k1, k2, e2]
      exact ⟨(h.put (i := i + 1) (by omega) _ _).rebuild, rfl⟩
  | reorder a b =>
    show Inv (e.reorderSlide a b).1 _ ∧ (e.reorderSlide a b).2 = _
    cases ha : l[a]? with
    | none =>
      have := List.getElem?_eq_none_iff.mp ha
      have e2 : editList l (.reorder a b) = (l, none) := by simp only [editList, ha]
      unfold reorderSlide
      rw [e2, if_pos (by omega)]
      exact ⟨h, rfl⟩
    | some x =>
      have hlt := (List.getElem?_eq_some_iff.mp ha).1
      by_cases hb : b < l.length
      · have e2 : editList l (.reorder a b) = ((l.take a ++ l.drop (a + 1)).take b ++ [x]
            ++ (l.take a ++ l.drop (a + 1)).drop b, some 0) := by
          simp only [editList, ha, if_pos hb]
        rw [e2]
        refine ⟨h.reorder ha hb, ?_⟩
        unfold reorderSlide
        rw [if_neg (by omega)]
        split <;> rfl
      · have e2 : editList l (.reorder a b) = (l, none) := by simp only [editList, ha, if_neg hb]
        unfold reorderSlide
        rw [e2, if_pos (by omega)]
        exact ⟨h, rfl⟩

end Editor

end PptRs
