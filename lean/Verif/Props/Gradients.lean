import Verif.Model.Gradients
import Verif.Spec.Inline
import Verif.Lemmas.Drawing
import Verif.Lemmas.Sort

/-!
# C127: gradient fills
-/

namespace PptRs.Props

open PptRs.Spec PptRs.Grad

/-! ### What a reader finds -/

/-- How the colours are spread: at an angle, or around the middle of a figure. -/
inductive Spread where
  | line (angle : Option Str)
  | around (figure : Option Str)
deriving DecidableEq

/-- A gradient: whether it turns with the shape, its stops (position, colour, opacity), and the spread. -/
structure GradRead where
  turns : Option Str
  stops : List (Option Str × Option Str × Option Str)
  spread : List Spread
deriving DecidableEq

/-- Reading an `a:gradFill` element (ECMA-376 20.1.8.33). -/
def gradRead (k : Node) : GradRead where
  turns := attrOf c!"rotWithShape" k
  stops := (path [c!"a:gsLst", c!"a:gs"] k).map fun s =>
    (attrOf c!"pos" s, pathAttr [c!"a:srgbClr"] c!"val" s, pathAttr [c!"a:srgbClr", c!"a:alpha"] c!"val" s)
  spread := ((path [c!"a:lin"] k).map fun l => .line (attrOf c!"ang" l))
    ++ (path [c!"a:path"] k).map fun l => .around (attrOf c!"path" l)

/-- The figures that exist (ST_PathShadeType, ECMA-376 20.1.10.42). -/
def pathShades : List Str := [c!"shape", c!"circle", c!"rect"]

/-- The degrees of a direction. -/
def degreesOf : Direction → Nat
  | .horizontal => 0
  | .vertical => 90
  | .diagonalDown => 45
  | .diagonalUp => 315
  | .custom d => d

/-- The gradient that is meant. -/
def gradExpected (g : Fill) : GradRead where
  turns := some (if g.rotate then c!"1" else c!"0")
  stops := g.stops.map fun s => (some (dec s.position), some s.color, s.transparency.map fun t => dec (100000 - t))
  spread := [match g.kind with
    | .linear => .line (some (dec (degreesOf g.direction * 60000)))
    | .radial => .around (some c!"circle")
    | .rectangular => .around (some c!"rect")
    | .path => .around (some c!"shape")]

/-! ### Nodes -/

/-- The element of a stop. -/
def gradStopNode (s : Stop) : Node :=
  E c!"a:gs" [(c!"pos", dec s.position)] [E c!"a:srgbClr" [(c!"val", s.color)]
    (s.transparency.toList.map fun t => E c!"a:alpha" [(c!"val", dec (100000 - t))] [])]

theorem readsNodes_stopText {s : Stop} {ps : List Part} (h : Grad.stopXml s = some ps) (hp : Plain s.color) :
    ReadsNodes ps [gradStopNode s] := by
  unfold Grad.stopXml at h
  unfold gradStopNode
  cases ht : s.transparency with
  | none =>
    rw [ht] at h
    obtain rfl := Option.some.inj h
    simp only [stopText, List.cons_append, List.nil_append]
    exact (Splits.lit (by parts_ok)).readsNodes (by krfl)
  | some t =>
    rw [ht] at h
    simp only [opacity] at h
    split at h
    · obtain rfl := Option.some.inj h
      simp only [stopText, List.cons_append, List.nil_append]
      exact (Splits.lit (by parts_ok)).readsNodes (by krfl)
    · cases h

theorem readsNodes_stops {l : List Stop} {pss : List (List Part)} (h : l.mapM Grad.stopXml = some pss)
    (hp : ∀ s ∈ l, Plain s.color) : ReadsNodes pss.flatten (l.map gradStopNode) := by
  induction l generalizing pss with
  | nil =>
    obtain rfl : [] = pss := by simpa using h
    exact readsNodes_nil
  | cons s l ih =>
    rw [List.mapM_cons] at h
    cases hs : Grad.stopXml s with
    | none => rw [hs] at h; cases h
    | some ps =>
      cases hl : l.mapM Grad.stopXml with
      | none => rw [hs, hl] at h; cases h
      | some qss =>
        rw [hs, hl] at h
        obtain rfl : ps :: qss = pss := Option.some.inj h
        exact (readsNodes_stopText hs (hp s (by simp))).append (ih hl fun x hx => hp x (by simp [hx]))

/-- The spread. -/
def shadeNode (g : Fill) : Node :=
  if g.kind = .linear then E c!"a:lin" [(c!"ang", dec (degreesOf g.direction * 60000)), (c!"scaled", c!"1")] []
  else E c!"a:path" [(c!"path", g.kind.xmlValue)]
    [E c!"a:fillToRect" [(c!"l", c!"50000"), (c!"t", c!"50000"), (c!"r", c!"50000"), (c!"b", c!"50000")] []]

theorem angle_eq {d : Direction} {a : Nat} (h : d.angle = some a) : a = degreesOf d * 60000 := by
  cases d with
  | custom n =>
    simp only [Direction.angle] at h
    split at h
    · exact (Option.some.inj h).symm
    · cases h
  | _ => exact (Option.some.inj h).symm

theorem plain_kind (k : Kind) : Plain k.xmlValue := by
  cases k <;> refine ⟨?_, ?_, ?_⟩ <;> decide

theorem readsTagged_shade {g : Fill} {ps : List Part} (h : shadeXml g = some ps) : ReadsTagged ps [shadeNode g] := by
  unfold shadeXml at h
  unfold shadeNode
  split at h
  · rename_i hk
    cases ha : g.direction.angle with
    | none => rw [ha] at h; cases h
    | some a =>
      rw [ha] at h
      obtain rfl := Option.some.inj h
      rw [if_pos hk, ← angle_eq ha]
      exact ((Splits.lit (by parts_ok)).readsNodes (by krfl)).tagged ⟨_, rfl⟩
  · rename_i hk
    obtain rfl := Option.some.inj h
    have hp := plain_kind g.kind
    rw [if_neg hk]
    exact ((Splits.lit (by parts_ok)).readsNodes (by krfl)).tagged ⟨_, rfl⟩

/-- The element of a gradient. -/
def gradNode (g : Fill) : Node :=
  E c!"a:gradFill" [(c!"rotWithShape", flag g.rotate)] [E c!"a:gsLst" [] (g.stops.map gradStopNode), shadeNode g]

theorem readsNodes_grad {g : Fill} {ps : List Part} (h : Grad.fillXml g = some ps)
    (hp : ∀ s ∈ g.stops, Plain s.color) : ReadsNodes ps [gradNode g] := by
  unfold Grad.fillXml at h
  cases hs : g.stops.mapM Grad.stopXml with
  | none => rw [hs] at h; cases h
  | some pss =>
    cases hd : shadeXml g with
    | none => rw [hs, hd] at h; cases h
    | some qs =>
      rw [hs, hd] at h
      obtain rfl := Option.some.inj h
      have hflag : Plain (flag g.rotate) := by cases g.rotate <;> refine ⟨?_, ?_, ?_⟩ <;> decide
      have h1 := readsNodes_stops hs hp
      have h2 := (readsTagged_shade hd).nodes
      unfold gradNode
      generalize flag g.rotate = F at hflag ⊢
      generalize g.stops.map gradStopNode = ks at h1 ⊢
      exact Splits.readsNodes (((((Splits.lit (by parts_ok)).append (.nodes h1)).append (.lit (by parts_ok))).append
        (.nodes h2)).append (.lit (by parts_ok))) (by krfl)

/-! ### The property -/

theorem path_stops (l : List Stop) : (named c!"a:gs" (l.map gradStopNode)) = l.map gradStopNode := by
  induction l with
  | nil => rfl
  | cons s l ih =>
    show gradStopNode s :: named c!"a:gs" (l.map gradStopNode) = _
    rw [ih]; rfl

theorem gradRead_node (g : Fill) (hk : g.kind ≠ .path) : gradRead (gradNode g) = gradExpected g := by
  have hs : path [c!"a:gsLst", c!"a:gs"] (gradNode g) = g.stops.map gradStopNode := by
    have : path [c!"a:gsLst", c!"a:gs"] (gradNode g)
        = (named c!"a:gs" (g.stops.map gradStopNode)).flatMap (path []) ++ [] := by
      unfold gradNode shadeNode
      split <;> rfl
    rw [this, path_stops, List.append_nil]
    exact List.flatMap_singleton' _
  unfold gradRead gradExpected
  congr 1
  · rw [hs, List.map_map]
    refine List.map_congr_left fun s _ => ?_
    obtain ⟨p, c, t⟩ := s
    cases t <;> rfl
  · unfold gradNode shadeNode
    cases hg : g.kind with
    | linear => rfl
    | radial => rfl
    | rectangular => rfl
    | path => exact absurd hg hk

/-- A gradient that is written can be read back: turning, stops with position, colour and opacity, and
the angle or the figure. Missing: the type `Path`, and colours with XML special characters. -/
theorem C127_read_partial {g : Fill} {ps : List Part} (h : Grad.fillXml g = some ps)
    (hp : ∀ s ∈ g.stops, Plain s.color) (hk : g.kind ≠ .path) :
    ∃ k, ReadsAs (fmt ps) [k] ∧ gradRead k = gradExpected g :=
  ⟨_, (readsNodes_grad h hp).readsAs, gradRead_node g hk⟩

/-- Stops that come from `GradientStop::new` and `with_transparency`. -/
def MadeStop (s : Stop) : Prop :=
  ∃ p c, s = .new p c ∨ ∃ t, s = (Stop.new p c).withTransparency t

theorem madeStop_bounds {s : Stop} (h : MadeStop s) : s.position ≤ 100000 ∧ ∀ t ∈ s.transparency, t ≤ 100000 := by
  obtain ⟨p, c, rfl | ⟨t, rfl⟩⟩ := h
  · exact ⟨Nat.min_le_right _ _, by simp [Stop.new]⟩
  · refine ⟨Nat.min_le_right _ _, ?_⟩
    simp only [Stop.withTransparency, Option.mem_def, Option.some.injEq]
    rintro _ rfl
    omega

/-- Stops made by the constructors, and an angle of fewer than 71583 degrees: the gradient is written
without a panic. -/
theorem C127_total_partial {g : Fill} (hs : ∀ s ∈ g.stops, MadeStop s) (hd : degreesOf g.direction < 71583) :
    (Grad.fillXml g).isSome = true := by
  have h1 : ∃ pss, g.stops.mapM Grad.stopXml = some pss := by
    generalize g.stops = l at hs
    induction l with
    | nil => exact ⟨[], rfl⟩
    | cons s l ih =>
      obtain ⟨pss, hl⟩ := ih fun x hx => hs x (by simp [hx])
      have hb := (madeStop_bounds (hs s (by simp))).2
      have : ∃ ps, Grad.stopXml s = some ps := by
        unfold Grad.stopXml
        cases ht : s.transparency with
        | none => exact ⟨_, rfl⟩
        | some t => exact ⟨_, by rw [opacity, if_pos (hb t ht)]; rfl⟩
      obtain ⟨ps, hps⟩ := this
      exact ⟨ps :: pss, by rw [List.mapM_cons, hps, hl]; rfl⟩
  have h2 : ∃ ps, shadeXml g = some ps := by
    unfold shadeXml
    split
    · cases hg : g.direction with
      | custom n =>
        have : n * 60000 < 4294967296 := by simp only [hg, degreesOf] at hd; omega
        exact ⟨_, by rw [Direction.angle, if_pos this]; rfl⟩
      | _ => exact ⟨_, rfl⟩
    · exact ⟨_, rfl⟩
  obtain ⟨pss, h1⟩ := h1
  obtain ⟨ps, h2⟩ := h2
  simp [Grad.fillXml, h1, h2]

theorem ordered_stop (s : Stop) : ordered (gradStopNode s) = true := by
  unfold gradStopNode
  cases s.transparency <;> rfl

theorem orderedL_stops (l : List Stop) : orderedL (l.map gradStopNode) = true := by
  induction l with
  | nil => rfl
  | cons s l ih => simp [orderedL, ordered_stop, ih]

theorem tags_stops (l : List Stop) : tags (l.map gradStopNode) = l.map fun _ => c!"a:gs" := by
  induction l with
  | nil => rfl
  | cons s l ih =>
    show c!"a:gs" :: tags (l.map gradStopNode) = _
    rw [ih]; rfl

theorem follows_stops (l : List Stop) (h : 2 ≤ l.length) :
    follows [rep 2 [c!"a:gs"]] (l.map fun _ => c!"a:gs") = true := by
  have h1 : ∀ l : List Stop, (l.map fun _ => c!"a:gs").takeWhile (fun x => [c!"a:gs"].contains x) = l.map fun _ => c!"a:gs" := by
    intro l
    induction l with
    | nil => rfl
    | cons s l ih => exact congrArg (c!"a:gs" :: ·) ih
  have h2 : ∀ l : List Stop, (l.map fun _ => c!"a:gs").dropWhile (fun x => [c!"a:gs"].contains x) = [] := by
    intro l
    induction l with
    | nil => rfl
    | cons s l ih => exact ih
  simp only [rep, follows, h1, h2, List.length_map]
  simp [h]

/-- Two stops or more, a type other than `Path` and an angle below 360 degrees: the element follows the
schema, its angle is one that exists, its figure is one that exists, and no position is above 100%. -/
theorem C127_schema_partial {g : Fill} (hn : 2 ≤ g.stops.length) (hs : ∀ s ∈ g.stops, MadeStop s)
    (hk : g.kind ≠ .path) (hd : degreesOf g.direction < 360) :
    ordered (gradNode g) = true
      ∧ (∀ s ∈ g.stops, s.position ≤ 100000)
      ∧ (g.kind = .linear → ∃ a, g.direction.angle = some a ∧ a < 21600000)
      ∧ (g.kind ≠ .linear → g.kind.xmlValue ∈ pathShades) := by
  refine ⟨?_, fun s h => (madeStop_bounds (hs s h)).1, fun _ => ?_, fun hl => ?_⟩
  · have h1 : ordered (E c!"a:gsLst" [] (g.stops.map gradStopNode)) = true := by
      show (follows [rep 2 [c!"a:gs"]] (tags (g.stops.map gradStopNode)) && orderedL (g.stops.map gradStopNode)) = true
      rw [tags_stops, follows_stops _ hn, orderedL_stops]; rfl
    have h2 : ordered (shadeNode g) = true := by unfold shadeNode; split <;> rfl
    have h3 : wellPlaced c!"a:gradFill" [E c!"a:gsLst" [] (g.stops.map gradStopNode), shadeNode g] = true := by
      unfold shadeNode; split <;> rfl
    show (wellPlaced c!"a:gradFill" _ && (ordered _ && (ordered _ && true))) = true
    rw [h1, h2, h3]; rfl
  · cases hg : g.direction with
    | custom n =>
      simp only [hg, degreesOf] at hd
      exact ⟨n * 60000, by rw [Direction.angle, if_pos (by omega)], by omega⟩
    | horizontal => exact ⟨_, rfl, by decide⟩
    | vertical => exact ⟨_, rfl, by decide⟩
    | diagonalDown => exact ⟨_, rfl, by decide⟩
    | diagonalUp => exact ⟨_, rfl, by decide⟩
  · cases hg : g.kind with
    | linear => exact absurd hg hl
    | path => exact absurd hg hk
    | radial => decide
    | rectangular => decide

/-- `sorted` puts the stops in ascending order, keeps all of them, and leaves stops at the same place in
their order. -/
theorem C127_sorted (g : Fill) :
    (g.sorted.stops).Perm g.stops ∧ g.sorted.stops.Pairwise (fun a b => a.position ≤ b.position)
      ∧ (∀ p, g.sorted.stops.filter (·.position = p) = g.stops.filter (·.position = p))
      ∧ { g.sorted with stops := g.stops } = g :=
  ⟨sortByKey_perm _ _, sortByKey_sorted _ _, fun p => sortByKey_stable _ _ p, rfl⟩

/-- The preset gradients are written, follow the schema, go from 0% to 100% in ascending order, and
have colours of six hexadecimal digits. -/
theorem C127_presets : ∀ g ∈ Grad.presets, (Grad.fillXml g).isSome = true ∧ ordered (gradNode g) = true
    ∧ g.stops.Pairwise (fun a b => a.position < b.position)
    ∧ (g.stops.head?.map (·.position)) = some 0 ∧ (g.stops.getLast?.map (·.position)) = some 100000
    ∧ ∀ s ∈ g.stops, s.color.length = 6 ∧ s.color.all (fun c => c ∈ c!"0123456789ABCDEF") = true := by
  decide +kernel

example : ∃ g : Fill, g = (Fill.radial.addStop (.new 200000 c!"#ff00ff")).addStop ((Stop.start c!"00ff00").withTransparency 30)
    ∧ (Grad.fillXml g).isSome = true ∧ g.stops.map (·.position) = [100000, 0]
    ∧ (gradExpected g).stops = [(some c!"100000", some c!"FF00FF", none), (some c!"0", some c!"00FF00", some c!"70000")] :=
  ⟨_, rfl, by decide +kernel⟩

/-- **C127 does not hold in full.** Gradient fills (`generate_gradient_fill_xml`): the type `Path` is
written as `path="path"`, which is not a value of ST_PathShadeType; an angle of 360 degrees or more is
written as it is although the largest one is below 21600000, and from 71583 degrees on the product
overflows `u32` (a panic, or a wrapped angle in release builds); a transparency above 100000 in the
public field underflows; a gradient with fewer than two stops is written and does not follow the schema;
and a colour is not escaped. -/
theorem C127_gradient_violated :
    Kind.path.xmlValue ∉ pathShades
    ∧ Direction.angle (.custom 400) = some 24000000
    ∧ Direction.angle (.custom 71583) = none
    ∧ (Grad.stopXml ⟨0, c!"FF0000", some 100001⟩).isNone = true
    ∧ (Grad.fillXml Fill.radial).isSome = true ∧ ordered (gradNode Fill.radial) = false
    ∧ ((Grad.fillXml (Fill.radial.addStop (.start c!"\""))).map fun ps => (Spec.parse (fmt ps)).isSome)
      = some false := by
  decide +kernel

end PptRs.Props
