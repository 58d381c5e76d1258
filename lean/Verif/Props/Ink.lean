import Verif.Lemmas.Ink

/-!
# Ink annotations (C103)
-/

namespace PptRs.Props

open PptRs PptRs.Spec PptRs.Settings

/-- A reader that finds a stroke: the pen of the brush it refers to, and the coordinates of its points. -/
structure StrokeAgrees (r : StrokeRead) (s : Stroke) : Prop where
  color : r.color = some (c!"#" ++ s.color)
  width : r.width = some (dec s.width)
  tip : r.tip = some (if s.flat then c!"flat" else c!"ball")
  transparency : r.transparency = s.transparency.map dec
  none : s.points = [] → r.points = []
  points : s.points ≠ [] → splitChar ' ' r.points = s.points.flatMap fun p => [Draw.decInt p.1, Draw.decInt p.2]

theorem notMem_decInt {c : Char} (h : c ≠ '-') (hd : c.isDigit = false) (i : Int) : c ∉ Draw.decInt i := by
  intro hc
  rcases mem_decInt hc with hc | hc
  · exact h hc
  · rw [hd] at hc
    cases hc

theorem splitChar_pair {sep : Char} {a b : Str} (ha : sep ∉ a) (hb : sep ∉ b) (rest : Str) :
    splitChar sep (a ++ [sep] ++ b ++ sep :: rest) = a :: b :: splitChar sep rest := by
  rw [show a ++ [sep] ++ b ++ sep :: rest = a ++ sep :: (b ++ sep :: rest) by simp, splitChar_append_sep ha,
    splitChar_append_sep hb]

theorem splitChar_points (l : List (Int × Int)) (h : l ≠ []) :
    splitChar ' ' (joinStr c!" " (l.map fun p => Draw.decInt p.1 ++ c!" " ++ Draw.decInt p.2))
      = l.flatMap fun p => [Draw.decInt p.1, Draw.decInt p.2] := by
  have hn : ∀ i, ' ' ∉ Draw.decInt i := notMem_decInt (by decide) (by decide)
  induction l with
  | nil => exact absurd rfl h
  | cons p l ih =>
    cases l with
    | nil =>
      show splitChar ' ' (Draw.decInt p.1 ++ [' '] ++ Draw.decInt p.2) = [_, _]
      rw [List.append_assoc, List.singleton_append, splitChar_append_sep (hn _), splitChar_of_notMem (hn _)]
    | cons q l =>
      rw [List.flatMap_cons, ← ih (by simp)]
      rw [List.map_cons, List.map_cons, joinStr, ← List.map_cons (f := fun p : Int × Int => Draw.decInt p.1 ++ c!" " ++ Draw.decInt p.2), List.append_assoc _ c!" "]
      exact splitChar_pair (hn _) (hn _) _

/-- **C103.** A reader of an ink part that takes the `id` of a brush for its name finds the strokes in their order,
each with the colour, width, tip and transparency of its pen and the coordinates of its points. What is missing:
parts without strokes, colours with markup, and the deviations from InkML below. -/
theorem C103_partial {l : List Stroke} (hne : l ≠ []) (h : ∀ s ∈ l, Plain s.color) :
    ∃ k, document (inkPartXml l) = some [k] ∧ ∃ rs : List StrokeRead, readInk k = rs.map some ∧ List.Forall₂ StrokeAgrees rs l := by
  match l, hne with
  | s :: l, _ =>
    refine ⟨_, document_ink h, (s :: l).map strokeRead, by rw [readInk_ink, List.map_map]; rfl, ?_⟩
    have key : ∀ x : Stroke, StrokeAgrees (strokeRead x) x := by
      intro x
      refine ⟨rfl, rfl, rfl, rfl, fun e => ?_, fun e => splitChar_points x.points e⟩
      show joinStr c!" " (x.points.map _) = []
      rw [e]
      rfl
    generalize s :: l = l
    induction l with
    | nil => exact .nil
    | cons x l ih => exact .cons (key x) ih

/-- **C103 does not hold for a slide with ink annotations but no strokes**: the ink part is then written as an empty
file, which is not an XML document, and still referred to. -/
theorem C103_empty_violated : inkPartXml [] = [] ∧ document (inkPartXml []) = none := ⟨rfl, by decide⟩

/-- **C103 does not hold for strokes with more than one point**: InkML separates points by commas, but all numbers
are written with blanks, so a stroke is read as a single point with twice as many values as it has points. -/
theorem C103_points_violated (s : Stroke) (h : s.points ≠ []) :
    ∃ p, inkPoints (strokeRead s).points = [p] ∧ p.length = 2 * s.points.length := by
  have hc : ',' ∉ s.pointsText := by
    intro hc
    unfold Stroke.pointsText at hc
    rcases mem_joinStr hc with hc | ⟨x, hx, hc⟩
    · exact absurd hc (by decide)
    · obtain ⟨p, _, rfl⟩ := List.mem_map.mp hx
      simp only [List.mem_append, List.mem_cons, List.not_mem_nil, or_false] at hc
      rcases hc with (hc | hc) | hc
      · exact notMem_decInt (by decide) (by decide) _ hc
      · exact absurd hc (by decide)
      · exact notMem_decInt (by decide) (by decide) _ hc
  refine ⟨splitChar ' ' s.pointsText, ?_, ?_⟩
  · show (splitChar ',' s.pointsText).map _ = _
    rw [splitChar_of_notMem hc]
    rfl
  · unfold Stroke.pointsText
    rw [splitChar_points _ h]
    generalize s.points = l
    induction l with
    | nil => rfl
    | cons p l ih =>
      rw [List.flatMap_cons, List.length_append, ih, List.length_cons]
      simp only [List.length_cons, List.length_nil]
      omega

theorem nodesFrom_all {f : Nat → Stroke → List Node} {P : Node → Prop} (h : ∀ i s, ∀ k ∈ f i s, P k) (i : Nat) (l : List Stroke) :
    ∀ k ∈ nodesFrom f i l, P k := by
  induction l generalizing i with
  | nil => intro k hk; exact absurd hk (by simp [nodesFrom])
  | cons s l ih =>
    intro k hk
    rcases List.mem_append.mp hk with hk | hk
    · exact h i s k hk
    · exact ih (i + 1) k hk

/-- **C103 does not hold by the rules of InkML**: a reference is to an `xml:id`, but brushes are written with `id`, so
no brush has the name that strokes refer to. Every stroke also refers to a context, and there is none. -/
theorem C103_references_violated {l : List Stroke} (hne : l ≠ []) (h : ∀ s ∈ l, Plain s.color) :
    ∃ k, document (inkPartXml l) = some [k] ∧ (∀ b ∈ children c!"ink:brush" k, attrOf c!"xml:id" b = none) ∧
      (∀ t ∈ children c!"ink:trace" k, (attrOf c!"contextRef" t).isSome = true) ∧ children c!"ink:context" k = [] := by
  match l, hne with
  | s :: l, _ =>
    refine ⟨_, document_ink h, ?_, ?_, ?_⟩
    · rw [brushes_ink]
      refine nodesFrom_all (fun i s k hk => ?_) 0 _
      obtain rfl := List.mem_singleton.mp hk
      obtain ⟨_, _, _, _, t⟩ := s
      cases t <;> rfl
    · rw [traces_ink]
      refine nodesFrom_all (fun i s k hk => ?_) 0 _
      obtain rfl := List.mem_singleton.mp hk
      rfl
    · show named c!"ink:context" (_ ++ _) = []
      rw [named_append', named_nodesFrom (g := fun _ _ => []) (fun i s => rfl), nodesFrom_nil]
      show named c!"ink:context" (nodesFrom (fun i s => [traceNode i s]) 1 l) = _
      rw [named_nodesFrom (g := fun _ _ => []) (fun i s => rfl), nodesFrom_nil]

/-- **C103 does not hold for the slide**: the reference to the ink is a choice that requires the namespace `p14`, which
the slide does not declare, and it has no fallback. A reader that follows the rules of markup compatibility has
to reject the slide. -/
theorem C103_requires_violated : ∃ doc, document ({ title := c!"T", extra := inkRefXml c!"rId3" } : SlideText).xml = some doc ∧
    (elemsL c!"mc:Choice" doc).map (attrOf c!"Requires") = [some c!"p14"] ∧ hasAttrL c!"xmlns:p14" doc = false ∧
    elemsL c!"mc:Fallback" doc = [] := by
  have h : (match document ({ title := c!"T", extra := inkRefXml c!"rId3" } : SlideText).xml with
    | some doc => decide ((elemsL c!"mc:Choice" doc).map (attrOf c!"Requires") = [some c!"p14"] ∧ hasAttrL c!"xmlns:p14" doc = false ∧
      elemsL c!"mc:Fallback" doc = [])
    | none => false) = true := by decide +kernel
  generalize document _ = d at h
  match d, h with
  | some doc, h => exact ⟨doc, rfl, of_decide_eq_true h⟩

/-- The theorem applies to two strokes, one of them with negative coordinates. -/
example : ∃ k, document (inkPartXml [⟨[(1, 2), (3, -4)], c!"FF0000", 2, false, none⟩, ⟨[], c!"00FF00", 3, true, some 128⟩]) = some [k] ∧
    (readInk k).map (·.map (·.points)) = [some c!"1 2 3 -4", some []] := by
  refine ⟨_, document_ink ?_, ?_⟩
  · intro s hs
    simp only [List.mem_cons, List.not_mem_nil, or_false] at hs
    rcases hs with rfl | rfl <;> exact plain_of (by decide)
  · rw [readInk_ink]
    rfl

end PptRs.Props
