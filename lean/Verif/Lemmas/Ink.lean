import Verif.Lemmas.Settings
import Verif.Lemmas.Str

/-!
# Reading an ink part
-/

namespace PptRs.Settings

open PptRs PptRs.Spec

/-- `ps` is read as `ks`, from pending text `t` to pending text `t'`. -/
def ReadsFrom (ps : List Part) (t : Str) (ks : List Node) (t' : Str) : Prop :=
  ∀ n as k st, Reads (fmt ps) ⟨⟨n, as, k⟩, st, .text t⟩ ⟨⟨n, as, k ++ ks⟩, st, .text t'⟩

/-- A brush. -/
def brushNode (i : Nat) (s : Stroke) : Node :=
  E c!"ink:brush" ([(c!"id", c!"br" ++ dec i), (c!"color", '#' :: s.color), (c!"width", dec s.width),
    (c!"tip", if s.flat then c!"flat" else c!"ball")] ++ s.transparency.toList.flatMap fun t => [(c!"transparency", dec t)]) []

/-- A brush without the line break. -/
def brushParts (i : Nat) (s : Stroke) : List Part :=
  t!"<ink:brush id=\"br{.num i}\" color=\"#{.raw s.color}\" width=\"{.num s.width}\" tip=\"{.raw (if s.flat then c!"flat" else c!"ball")}\""
    ++ whenSome s.transparency (fun t => t!" transparency=\"{.num t}\"") ++ t!" />"

theorem readsTagged_brush {s : Stroke} (i : Nat) (h : Plain s.color) : ReadsTagged (brushParts i s) [brushNode i s] := by
  have ha : ReadsAttrs (whenSome s.transparency (fun t => t!" transparency=\"{.num t}\""))
      (s.transparency.toList.flatMap fun t => [(c!"transparency", dec t)]) :=
    Draw.readsAttrs_whenSome fun t _ => (Splits.lit (by parts_ok)).readsAttrs (fun top st n as => by krfl)
  have hf : Plain (if s.flat then c!"flat" else c!"ball") := by
    cases s.flat <;> exact plain_of (by decide)
  unfold brushParts brushNode
  generalize (if s.flat then c!"flat" else c!"ball") = tip at *
  exact ReadsNodes.tagged ((((Splits.lit (by parts_ok)).append (.attrs ha)).append (splitsAll rfl)).readsNodes (by krfl)) ⟨_, rfl⟩

theorem readsFrom_brush {s : Stroke} (i : Nat) (h : Plain s.color) (t : Str) :
    ReadsFrom (s.brush i) t (textNode t ++ [brushNode i s]) c!"\n" := by
  intro n as k st
  have e : fmt (s.brush i) = fmt (brushParts i s) ++ c!"\n" := by
    unfold Stroke.brush brushParts
    simp only [fmt_append]
    generalize fmt (whenSome _ _) = x
    simp [fmt, Part.render]
  rw [e]
  refine Reads.append (readsTagged_brush i h n as k st t) ?_
  rw [List.append_assoc]
  exact reads_lit (by krfl)

theorem mem_joinStr {sep : Str} {xs : List Str} {c : Char} (h : c ∈ joinStr sep xs) : c ∈ sep ∨ ∃ x ∈ xs, c ∈ x := by
  induction xs with
  | nil => exact absurd h (by simp [joinStr])
  | cons x xs ih =>
    cases xs with
    | nil => exact .inr ⟨x, by simp, h⟩
    | cons y ys =>
      rw [joinStr, List.mem_append, List.mem_append] at h
      rcases h with (h | h) | h
      · exact .inr ⟨x, by simp, h⟩
      · exact .inl h
      · rcases ih h with h | ⟨z, hz, h⟩
        · exact .inl h
        · exact .inr ⟨z, by simp_all, h⟩

theorem mem_decInt {i : Int} {c : Char} (h : c ∈ Draw.decInt i) : c = '-' ∨ c.isDigit = true := by
  cases i with
  | ofNat n => exact .inr (isDigit_of_mem_dec h)
  | negSucc n =>
    rcases List.mem_cons.mp h with h | h
    · exact .inl h
    · exact .inr (isDigit_of_mem_dec h)

/-- The points of a stroke stand for themselves. -/
theorem plain_points (s : Stroke) : Plain s.pointsText := by
  have key : ∀ c ∈ s.pointsText, c = ' ' ∨ c = '-' ∨ c.isDigit = true := by
    intro c hc
    unfold Stroke.pointsText at hc
    rcases mem_joinStr hc with hc | ⟨x, hx, hc⟩
    · simp at hc
      exact .inl hc
    · obtain ⟨p, _, rfl⟩ := List.mem_map.mp hx
      simp only [List.mem_append, List.mem_cons, List.not_mem_nil, or_false] at hc
      rcases hc with (hc | hc) | hc
      · exact .inr (mem_decInt hc)
      · exact .inl hc
      · exact .inr (mem_decInt hc)
  refine ⟨fun h => ?_, fun h => ?_, fun h => ?_⟩ <;>
    (rcases key _ h with h | h | h <;> exact absurd h (by decide))

/-- A trace. -/
def traceNode (i : Nat) (s : Stroke) : Node :=
  E c!"ink:trace" [(c!"contextRef", '#' :: dec i), (c!"brushRef", c!"#br" ++ dec i), (c!"id", dec i)] (addText [] s.pointsText)

theorem readsTagged_trace (i : Nat) (s : Stroke) : ReadsTagged (s.trace i) [traceNode i s] := by
  have h := plain_points s
  unfold Stroke.trace traceNode
  generalize s.pointsText = x at *
  exact ReadsNodes.tagged ((Splits.lit (by parts_ok)).readsNodes (by krfl)) ⟨_, rfl⟩

/-- Nodes for strokes numbered from `i`. -/
def nodesFrom (f : Nat → Stroke → List Node) : Nat → List Stroke → List Node
  | _, [] => []
  | i, s :: l => f i s ++ nodesFrom f (i + 1) l

theorem readsNodes_traces (i : Nat) (l : List Stroke) : ReadsNodes (eachFrom Stroke.trace i l) (nodesFrom (fun i s => [traceNode i s]) i l) := by
  induction l generalizing i with
  | nil => exact readsNodes_nil
  | cons s l ih => exact (readsTagged_trace i s).nodes.append (ih (i + 1))

theorem readsFrom_brushes {l : List Stroke} (h : ∀ s ∈ l, Plain s.color) (i : Nat) :
    ReadsFrom (eachFrom Stroke.brush i l) c!"\n" (nodesFrom (fun i s => [nl, brushNode i s]) i l) c!"\n" := by
  induction l generalizing i with
  | nil =>
    intro n as k st
    show Reads [] _ _
    rw [nodesFrom, List.append_nil]
    exact Reads.nil _
  | cons s l ih =>
    intro n as k st
    show Reads (fmt (s.brush i ++ eachFrom Stroke.brush (i + 1) l)) _ _
    rw [fmt_append]
    refine Reads.append (readsFrom_brush i (h s (by simp)) c!"\n" n as k st) ?_
    have := ih (fun x hx => h x (by simp [hx])) (i + 1) n as (k ++ (textNode c!"\n" ++ [brushNode i s])) st
    have e : k ++ nodesFrom (fun i s => [nl, brushNode i s]) i (s :: l) = k ++ (textNode c!"\n" ++ [brushNode i s])
        ++ nodesFrom (fun i s => [nl, brushNode i s]) (i + 1) l := by
      simp [nodesFrom, textNode, nl]
    rw [e]
    exact this

/-- The elements of an ink part. -/
def inkKids (s : Stroke) (l : List Stroke) : List Node :=
  brushNode 0 s :: (nodesFrom (fun i s => [nl, brushNode i s]) 1 l ++
    nl :: traceNode 0 s :: nodesFrom (fun i s => [traceNode i s]) 1 l)

theorem readsNodes_ink {s : Stroke} {l : List Stroke} (h : ∀ x ∈ s :: l, Plain x.color) :
    ReadsNodes (eachFrom Stroke.brush 0 (s :: l) ++ eachFrom Stroke.trace 0 (s :: l)) (inkKids s l) := by
  intro n as k st
  rw [fmt_append]
  show Reads (fmt (s.brush 0 ++ eachFrom Stroke.brush 1 l) ++ fmt (s.trace 0 ++ eachFrom Stroke.trace 1 l)) _ _
  rw [fmt_append, fmt_append, List.append_assoc]
  refine Reads.append (readsFrom_brush 0 (h s (by simp)) [] n as k st) ?_
  refine Reads.append (readsFrom_brushes (fun x hx => h x (by simp [hx])) 1 n as _ st) ?_
  refine Reads.append (readsTagged_trace 0 s n as _ st c!"\n") ?_
  have := readsNodes_traces 1 l n as (k ++ (textNode [] ++ [brushNode 0 s]) ++ nodesFrom (fun i s => [nl, brushNode i s]) 1 l
    ++ textNode c!"\n" ++ [traceNode 0 s]) st
  have e : k ++ inkKids s l = k ++ (textNode [] ++ [brushNode 0 s]) ++ nodesFrom (fun i s => [nl, brushNode i s]) 1 l
    ++ textNode c!"\n" ++ [traceNode 0 s] ++ nodesFrom (fun i s => [traceNode i s]) 1 l := by
    simp [inkKids, textNode, nl]
  rw [e]
  exact this

/-- An ink part. -/
def inkNode (s : Stroke) (l : List Stroke) : Node :=
  E c!"ink:ink" [(c!"xmlns:ink", c!"http://www.w3.org/2003/InkML")] (inkKids s l)

theorem document_ink {s : Stroke} {l : List Stroke} (h : ∀ x ∈ s :: l, Plain x.color) :
    document (inkPartXml (s :: l)) = some [inkNode s l] := by
  refine document_decl (ps := inkBody (s :: l)) ?_ ⟨_, rfl⟩
  unfold inkBody
  rw [List.append_assoc (t!"<ink:ink xmlns:ink=\"http://www.w3.org/2003/InkML\">" : List Part)]
  exact (((splitsAll rfl).append (.nodes (readsNodes_ink h))).append (splitsAll rfl)).readsNodes (by krfl)

/-! ### References -/

theorem named_append' (n : Str) (a b : List Node) : named n (a ++ b) = named n a ++ named n b := by
  induction a with
  | nil => rfl
  | cons k a ih =>
    cases k with
    | text t => exact ih
    | elem m as js =>
      show (if m = n then _ else _) = (if m = n then _ else _) ++ _
      split
      · show _ :: named n (a ++ b) = _ :: (named n a ++ named n b)
        rw [ih]
      · exact ih

theorem named_nodesFrom {n : Str} {f g : Nat → Stroke → List Node} (h : ∀ i s, named n (f i s) = g i s) (i : Nat)
    (l : List Stroke) : named n (nodesFrom f i l) = nodesFrom g i l := by
  induction l generalizing i with
  | nil => rfl
  | cons s l ih => rw [nodesFrom, nodesFrom, named_append', h, ih]

theorem nodesFrom_nil (i : Nat) (l : List Stroke) : nodesFrom (fun _ _ => []) i l = [] := by
  induction l generalizing i with
  | nil => rfl
  | cons s l ih => exact ih (i + 1)

theorem brushes_ink (s : Stroke) (l : List Stroke) :
    children c!"ink:brush" (inkNode s l) = nodesFrom (fun i s => [brushNode i s]) 0 (s :: l) := by
  show brushNode 0 s :: named c!"ink:brush" (_ ++ _) = brushNode 0 s :: _
  rw [named_append', named_nodesFrom (g := fun i s => [brushNode i s]) (fun i s => rfl)]
  show _ :: (_ ++ named c!"ink:brush" (nodesFrom (fun i s => [traceNode i s]) 1 l)) = _
  rw [named_nodesFrom (g := fun _ _ => []) (fun i s => rfl), nodesFrom_nil, List.append_nil]
  rfl

theorem traces_ink (s : Stroke) (l : List Stroke) :
    children c!"ink:trace" (inkNode s l) = nodesFrom (fun i s => [traceNode i s]) 0 (s :: l) := by
  show named c!"ink:trace" (_ ++ _) = _
  rw [named_append', named_nodesFrom (g := fun _ _ => []) (fun i s => rfl), nodesFrom_nil]
  show traceNode 0 s :: named c!"ink:trace" (nodesFrom (fun i s => [traceNode i s]) 1 l) = _
  rw [named_nodesFrom (g := fun i s => [traceNode i s]) (fun i s => rfl)]
  rfl

theorem find_brush (pre : List Stroke) (s : Stroke) (post : List Stroke) (j : Nat) :
    (nodesFrom (fun i s => [brushNode i s]) j (pre ++ s :: post)).find?
      (fun b => attrOf c!"id" b = some (c!"br" ++ dec (j + pre.length))) = some (brushNode (j + pre.length) s) := by
  induction pre generalizing j with
  | nil =>
    show ((brushNode j s) :: _).find? _ = _
    rw [List.find?_cons_of_pos]
    · rfl
    · show decide (some (c!"br" ++ dec j) = some (c!"br" ++ dec j)) = true
      simp
  | cons p pre ih =>
    show ((brushNode j p) :: nodesFrom _ (j + 1) (pre ++ s :: post)).find? _ = _
    rw [List.find?_cons_of_neg]
    · have := ih (j + 1)
      rw [show j + 1 + pre.length = j + (p :: pre).length by rw [List.length_cons]; omega] at this
      exact this
    · show ¬ (decide (some (c!"br" ++ dec j) = some (c!"br" ++ dec (j + (p :: pre).length))) = true)
      rw [decide_eq_true_eq]
      intro e
      have := dec_inj (List.append_cancel_left (Option.some.inj e))
      rw [List.length_cons] at this
      omega

/-- What a reader that follows the references finds for a stroke. -/
def strokeRead (s : Stroke) : StrokeRead :=
  ⟨some ('#' :: s.color), some (dec s.width), some (if s.flat then c!"flat" else c!"ball"), s.transparency.map dec, s.pointsText⟩

theorem readTrace_at (s0 : Stroke) (l0 pre post : List Stroke) (s : Stroke) (h : s0 :: l0 = pre ++ s :: post) :
    readTrace (inkNode s0 l0) (traceNode pre.length s) = some (strokeRead s) := by
  have hb : referred c!"ink:brush" (attrOf c!"brushRef" (traceNode pre.length s)) (inkNode s0 l0) = some (brushNode pre.length s) := by
    show (children c!"ink:brush" (inkNode s0 l0)).find? (fun b => attrOf c!"id" b = some (c!"br" ++ dec pre.length)) = _
    rw [brushes_ink, h]
    have := find_brush pre s post 0
    rw [Nat.zero_add] at this
    exact this
  unfold readTrace
  rw [hb]
  have ht : textOf (kidsOf (traceNode pre.length s)) = s.pointsText := by
    show textOf (addText [] s.pointsText) = _
    rw [addText_eq]
    unfold textNode
    split
    · rename_i h
      rw [h]
      rfl
    · simp [textOf]
  show some _ = some _
  rw [ht]
  unfold strokeRead
  obtain ⟨a, b, c, d, e⟩ := s
  cases e <;> rfl

theorem readInk_ink (s : Stroke) (l : List Stroke) : readInk (inkNode s l) = (s :: l).map fun x => some (strokeRead x) := by
  unfold readInk
  rw [traces_ink]
  have key : ∀ (post pre : List Stroke), s :: l = pre ++ post →
      (nodesFrom (fun i s => [traceNode i s]) pre.length post).map (readTrace (inkNode s l)) = post.map fun x => some (strokeRead x) := by
    intro post
    induction post with
    | nil => intro pre _; rfl
    | cons x post ih =>
      intro pre h
      show readTrace (inkNode s l) (traceNode pre.length x) :: (nodesFrom _ (pre.length + 1) post).map _ = _
      rw [readTrace_at s l pre post x h, List.map_cons]
      have := ih (pre ++ [x]) (by rw [h]; simp)
      rw [List.length_append] at this
      rw [← this]
      rfl
  exact key (s :: l) [] rfl

end PptRs.Settings
