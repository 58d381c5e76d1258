import Verif.Props.FlowSource

/-!
# C90: where the boxes of a flowchart stand
-/

namespace PptRs.Props

open PptRs PptRs.Flow

/-- Two shapes do not overlap. -/
def BoxApart (a b : Drawn) : Prop :=
  a.x + a.width ≤ b.x ∨ b.x + b.width ≤ a.x ∨ a.y + a.height ≤ b.y ∨ b.y + b.height ≤ a.y

/-- One shape lies inside another. -/
def BoxInside (a b : Drawn) : Prop :=
  b.x ≤ a.x ∧ a.x + a.width ≤ b.x + b.width ∧ b.y ≤ a.y ∧ a.y + a.height ≤ b.y + b.height

/-- The boxes of the nodes, told from frames, titles and labels by their size. -/
def boxes (ss : List Drawn) : List Drawn := ss.filter fun s => s.width = 1400000 ∧ s.height = 500000

/-- The frames of the subgraphs. -/
def frames (ss : List Drawn) : List Drawn := ss.filter fun s => s.id = none

theorem boxes_append (a b : List Drawn) : boxes (a ++ b) = boxes a ++ boxes b := List.filter_append ..

theorem frames_append (a b : List Drawn) : frames (a ++ b) = frames a ++ frames b := List.filter_append ..

theorem boxes_place (d : Drawing) (n : Node) (x y : Nat) :
    boxes (d.place n x y).shapes = boxes d.shapes ++ [nodeBox n (x, y) d.next] := by
  show boxes (d.shapes ++ [nodeShape n x y d.next]) = _
  rw [boxes_append, nodeShape_eq]
  rfl

theorem frames_place (d : Drawing) (n : Node) (x y : Nat) : frames (d.place n x y).shapes = frames d.shapes := by
  show frames (d.shapes ++ [nodeShape n x y d.next]) = _
  rw [frames_append]
  exact List.append_nil _

theorem boxes_frame (d : Drawing) (sg : Subgraph) (x y : Nat) : boxes (d.frame sg x y).shapes = boxes d.shapes := by
  show boxes (d.shapes ++ _) = _
  rw [boxes_append]
  have : boxes [⟨c!"RoundedRectangle", x, y, nodeWidth + 400000, sg.height, none, none⟩,
       ⟨c!"Rectangle", x + 50000, y + 50000, nodeWidth + 400000 - 100000, 250000, some d.next, some sg.name⟩] = [] := by
    simp [boxes, nodeWidth]
  rw [this, List.append_nil]

theorem frames_frame (d : Drawing) (sg : Subgraph) (x y : Nat) : frames (d.frame sg x y).shapes =
    frames d.shapes ++ [⟨c!"RoundedRectangle", x, y, 1800000, sg.nodes.length * 900000 + 650000, none, none⟩] := by
  have e1 : nodeWidth + 400000 = 1800000 := by unfold nodeWidth; rfl
  have e2 : sg.height = sg.nodes.length * 900000 + 650000 := by unfold Subgraph.height vSpacing; omega
  unfold Drawing.frame
  dsimp only
  rw [frames_append, e1, e2]
  rfl

/-- The boxes do not overlap, every frame and box ends left of `x`, or is the frame `g` at `x` or a box in it that ends above `y`; frames
do not overlap, and every box is inside a frame or apart from all of them. -/
structure Placed (d : Drawing) (x y : Nat) : Prop where
  boxes : (boxes d.shapes).Pairwise BoxApart
  frames : (frames d.shapes).Pairwise BoxApart
  free : ∀ b ∈ Props.boxes d.shapes, b.x + b.width ≤ x ∨ b.y + b.height ≤ y
  mixed : ∀ b ∈ Props.boxes d.shapes, ∀ g ∈ Props.frames d.shapes, BoxInside b g ∨ BoxApart b g

theorem pairwise_snoc {R : Drawn → Drawn → Prop} {l : List Drawn} {a : Drawn} (h : l.Pairwise R) (h' : ∀ b ∈ l, R b a) :
    (l ++ [a]).Pairwise R := by
  rw [List.pairwise_append]
  exact ⟨h, List.pairwise_singleton _ _, fun b hb c hc => by
    have : c = a := by simpa using hc
    subst this
    exact h' b hb⟩

theorem Placed.place {d : Drawing} {x y : Nat} (h : Placed d x y) (n : Node) (x' : Nat) (hx : x ≤ x')
    (hf : ∀ g ∈ Props.frames d.shapes, g.x + g.width ≤ x' ∨ BoxInside (nodeBox n (x', y) d.next) g) (y' : Nat) (hy : y + 500000 ≤ y') :
    Placed (d.place n x' y) x y' := by
  refine ⟨?_, ?_, ?_, ?_⟩
  · rw [boxes_place]
    refine pairwise_snoc h.boxes fun b hb => ?_
    rcases h.free b hb with h1 | h1
    · exact .inl (show b.x + b.width ≤ x' by omega)
    · exact .inr (.inr (.inl h1))
  · rw [frames_place]
    exact h.frames
  · rw [boxes_place]
    intro b hb
    rcases List.mem_append.mp hb with hb | hb
    · rcases h.free b hb with h1 | h1
      · exact .inl h1
      · exact .inr (by omega)
    · have : b = nodeBox n (x', y) d.next := by simpa using hb
      subst this
      exact .inr (show y + 500000 ≤ y' from hy)
  · rw [boxes_place, frames_place]
    intro b hb g hg
    rcases List.mem_append.mp hb with hb | hb
    · exact h.mixed b hb g hg
    · have : b = nodeBox n (x', y) d.next := by simpa using hb
      subst this
      rcases hf g hg with h1 | h1
      · exact .inr (.inr (.inl h1))
      · exact .inl h1

/-- Members of a subgraph. -/
theorem members_placed {all : List Node} {x total : Nat} (ids : List Str) (i : Nat) (d : Drawing)
    (h : Placed d x (2050000 + i * 900000)) (ht : i + ids.length = total)
    (hf : ∀ g ∈ Props.frames d.shapes, g.x + g.width ≤ x ∨ (g.x = x ∧ g.y = 1600000 ∧ g.width = 1800000 ∧ g.height = total * 900000 + 650000)) :
    Placed (placeMembers all x 1600000 i ids d) x (2050000 + total * 900000) ∧
      Props.frames (placeMembers all x 1600000 i ids d).shapes = Props.frames d.shapes ∧
      ∀ b ∈ Props.boxes (placeMembers all x 1600000 i ids d).shapes, b ∈ Props.boxes d.shapes ∨ b.x + b.width ≤ x + 1800000 := by
  induction ids generalizing i d with
  | nil =>
    have : i = total := by simpa using ht
    subst this
    exact ⟨h, rfl, fun b hb => .inl hb⟩
  | cons k ks ih =>
    simp only [List.length_cons] at ht
    unfold placeMembers
    cases all.find? (fun n => n.id = k) with
    | none =>
      have hle : 2050000 + i * 900000 ≤ 2050000 + (i + 1) * 900000 := by clear hf ih h; omega
      have hp : Placed d x (2050000 + (i + 1) * 900000) :=
        ⟨h.boxes, h.frames, fun b hb => (h.free b hb).imp id fun h1 => Nat.le_trans h1 hle, h.mixed⟩
      exact ih (i + 1) d hp (by omega) hf
    | some n =>
      have e : 1600000 + 250000 + 200000 + i * vSpacing = 2050000 + i * 900000 := by unfold vSpacing; omega
      dsimp only
      rw [e]
      have hp : Placed (d.place n (x + 200000) (2050000 + i * 900000)) x (2050000 + (i + 1) * 900000) := by
        refine h.place n (x + 200000) (by omega) (fun g hg => ?_) _ (by omega)
        rcases hf g hg with h1 | ⟨h1, h2, h3, h4⟩
        · exact .inl (by omega)
        · refine .inr ⟨?_, ?_, ?_, ?_⟩
          · show g.x ≤ x + 200000
            omega
          · show x + 200000 + 1400000 ≤ g.x + g.width
            omega
          · show g.y ≤ 2050000 + i * 900000
            omega
          · show 2050000 + i * 900000 + 500000 ≤ g.y + g.height
            omega
      obtain ⟨i1, i2, i3⟩ := ih (i + 1) _ hp (by omega) (by rw [frames_place]; exact hf)
      refine ⟨i1, by rw [i2, frames_place], fun b hb => ?_⟩
      rcases i3 b hb with h1 | h1
      · rw [boxes_place] at h1
        rcases List.mem_append.mp h1 with h1 | h1
        · exact .inl h1
        · have : b = nodeBox n (x + 200000, 2050000 + i * 900000) d.next := by simpa using h1
          subst this
          exact .inr (show x + 200000 + 1400000 ≤ _ by omega)
      · exact .inr h1

theorem subgraphs_placed {all : List Node} (sgs : List Subgraph) (x : Nat) (d : Drawing) (h : Placed d x 0)
    (hf : ∀ g ∈ Props.frames d.shapes, g.x + g.width ≤ x) :
    Placed (placeSubgraphs all sgs x d).1 (placeSubgraphs all sgs x d).2 0 ∧
      ∀ g ∈ Props.frames (placeSubgraphs all sgs x d).1.shapes, g.x + g.width ≤ (placeSubgraphs all sgs x d).2 := by
  induction sgs generalizing x d with
  | nil => exact ⟨h, hf⟩
  | cons sg sgs ih =>
    unfold placeSubgraphs
    have hfr : Placed (d.frame sg x 1600000) x (2050000 + 0 * 900000) := by
      refine ⟨by rw [boxes_frame]; exact h.boxes, ?_, ?_, ?_⟩
      · rw [frames_frame]
        exact pairwise_snoc h.frames fun g hg => .inl (hf g hg)
      · rw [boxes_frame]
        intro b hb
        rcases h.free b hb with h1 | h1
        · exact .inl h1
        · exact .inr (by omega)
      · rw [boxes_frame, frames_frame]
        intro b hb g hg
        rcases List.mem_append.mp hg with hg | hg
        · exact h.mixed b hb g hg
        · have e : g = ⟨c!"RoundedRectangle", x, 1600000, 1800000, sg.nodes.length * 900000 + 650000, none, none⟩ := by simpa using hg
          subst e
          rcases h.free b hb with h1 | h1
          · exact .inr (.inl h1)
          · exact .inr (.inr (.inr (.inl (show b.y + b.height ≤ 1600000 by omega))))
    have hfr2 : ∀ g ∈ Props.frames (d.frame sg x 1600000).shapes, g.x + g.width ≤ x ∨
        (g.x = x ∧ g.y = 1600000 ∧ g.width = 1800000 ∧ g.height = sg.nodes.length * 900000 + 650000) := by
      rw [frames_frame]
      intro g hg
      rcases List.mem_append.mp hg with hg | hg
      · exact .inl (hf g hg)
      · have e : g = ⟨c!"RoundedRectangle", x, 1600000, 1800000, sg.nodes.length * 900000 + 650000, none, none⟩ := by simpa using hg
        subst e
        exact .inr ⟨rfl, rfl, rfl, rfl⟩
    obtain ⟨i1, i2, i3⟩ := members_placed (all := all) sg.nodes 0 _ hfr (by simp) hfr2
    have e : x + (nodeWidth + 400000 + 600000) = x + 2400000 := by simp [nodeWidth]
    rw [e]
    refine ih (x + 2400000) _ ⟨i1.boxes, i1.frames, fun b hb => ?_, i1.mixed⟩ ?_
    · rcases i3 b hb with h1 | h1
      · rw [boxes_frame] at h1
        rcases h.free b h1 with h2 | h2
        · exact .inl (by omega)
        · exact .inr h2
      · exact .inl (by omega)
    · rw [i2]
      intro g hg
      rcases hfr2 g hg with h1 | ⟨h1, _, h3, _⟩ <;> omega

theorem orphans_placed {x : Nat} (ns : List Node) (y : Nat) (d : Drawing) (h : Placed d x y)
    (hf : ∀ g ∈ Props.frames d.shapes, g.x + g.width ≤ x) : ∃ y', Placed (placeOrphans x ns y d) x y' := by
  induction ns generalizing y d with
  | nil => exact ⟨y, h⟩
  | cons n ns ih =>
    unfold placeOrphans
    split
    · exact ih y d h hf
    · refine ih _ _ (h.place n x (Nat.le_refl x) (fun g hg => .inl (hf g hg)) (y + vSpacing) (by unfold vSpacing; omega)) ?_
      rw [frames_place]
      exact hf

/-- Two places of the grid do not overlap. -/
theorem grid_apart (hz : Bool) (count i j : Nat) (hij : i < j) (hj : j < count) (n m : Node) (a b : Nat) :
    BoxApart (nodeBox n (gridPosition hz count i) a) (nodeBox m (gridPosition hz count j) b) := by
  cases hz with
  | false =>
    refine .inr (.inr (.inl ?_))
    show 1800000 + i * vSpacing + 500000 ≤ 1800000 + j * vSpacing
    unfold vSpacing
    omega
  | true =>
    have hc : 0 < min count 5 := by omega
    generalize hcc : min count 5 = c at hc
    have e : ∀ k, gridPosition true count k = (1000000 + k % c * hSpacing, 1800000 + k / c * vSpacing) := by
      intro k
      simp [gridPosition, hcc]
    rw [e, e]
    have h1 := Nat.div_add_mod i c
    have h2 := Nat.div_add_mod j c
    rcases Nat.lt_or_ge (i / c) (j / c) with h | h
    · refine .inr (.inr (.inl ?_))
      show 1800000 + i / c * 900000 + 500000 ≤ 1800000 + j / c * 900000
      omega
    · have h3 : i / c = j / c := Nat.le_antisymm (Nat.div_le_div_right (Nat.le_of_lt hij)) h
      refine .inl ?_
      show 1000000 + i % c * 1800000 + 1400000 ≤ 1000000 + j % c * 1800000
      rw [h3] at h1
      have : i % c < j % c := by omega
      omega

theorem grid_placed (hz : Bool) (count : Nat) (ns : List Node) (i : Nat) (d : Drawing) (hi : i + ns.length = count)
    (hp : (boxes d.shapes).Pairwise BoxApart) (hb : ∀ b ∈ boxes d.shapes, ∃ j < i, ∃ n a, b = nodeBox n (gridPosition hz count j) a)
    (hf : frames d.shapes = []) :
    (boxes (placeGrid hz count i ns d).shapes).Pairwise BoxApart ∧ frames (placeGrid hz count i ns d).shapes = [] := by
  induction ns generalizing i d with
  | nil => exact ⟨hp, hf⟩
  | cons n ns ih =>
    simp only [List.length_cons] at hi
    unfold placeGrid
    refine ih (i + 1) _ (by omega) ?_ ?_ (by rw [frames_place]; exact hf)
    · rw [boxes_place]
      refine pairwise_snoc hp fun b hb' => ?_
      obtain ⟨j, hj, m, a, rfl⟩ := hb b hb'
      exact grid_apart hz count j i hj (by omega) m n a _
    · rw [boxes_place]
      intro b hb'
      rcases List.mem_append.mp hb' with hb' | hb'
      · obtain ⟨j, hj, m, a, rfl⟩ := hb b hb'
        exact ⟨j, by omega, m, a, rfl⟩
      · exact ⟨i, by omega, n, d.next, by simpa using hb'⟩

theorem connect_boxes (hz : Bool) (d : Drawing) (c : Connection) :
    boxes (d.connect hz c).shapes = boxes d.shapes ∧ frames (d.connect hz c).shapes = frames d.shapes := by
  unfold Drawing.connect
  split
  · rename_i u v _ _
    show boxes (d.label _ _ c.label).shapes = _ ∧ frames (d.label _ _ c.label).shapes = _
    unfold Drawing.label
    cases c.label with
    | none => exact ⟨rfl, rfl⟩
    | some l =>
      constructor
      · show boxes (d.shapes ++ _) = _
        rw [boxes_append]
        exact List.append_nil _
      · show frames (d.shapes ++ _) = _
        rw [frames_append]
        exact List.append_nil _
  · exact ⟨rfl, rfl⟩

theorem connects_boxes (hz : Bool) (cs : List Connection) (d : Drawing) : boxes (cs.foldl (Drawing.connect hz) d).shapes = boxes d.shapes ∧
    frames (cs.foldl (Drawing.connect hz) d).shapes = frames d.shapes := by
  induction cs generalizing d with
  | nil => exact ⟨rfl, rfl⟩
  | cons c cs ih =>
    obtain ⟨h1, h2⟩ := ih (d.connect hz c)
    obtain ⟨h3, h4⟩ := connect_boxes hz d c
    exact ⟨h1.trans h3, h2.trans h4⟩

/-- No two boxes of a flowchart overlap, no two frames do, and every box stands inside a frame or apart from it, whatever the flowchart. -/
theorem C90_apart (f : Flowchart) : (boxes (elements f).shapes).Pairwise BoxApart ∧ (frames (elements f).shapes).Pairwise BoxApart ∧
    ∀ b ∈ boxes (elements f).shapes, ∀ g ∈ frames (elements f).shapes, BoxInside b g ∨ BoxApart b g := by
  unfold elements
  split
  · simp [boxes, frames]
  · obtain ⟨h1, h2⟩ := connects_boxes f.direction.horizontal f.connections (layout f)
    show (boxes (f.connections.foldl _ (layout f)).shapes).Pairwise BoxApart ∧ (frames (f.connections.foldl _ (layout f)).shapes).Pairwise BoxApart ∧
      ∀ b ∈ boxes (f.connections.foldl _ (layout f)).shapes, ∀ g ∈ frames (f.connections.foldl _ (layout f)).shapes, _
    rw [h1, h2]
    unfold layout
    split
    · have h0 : Placed {} 500000 0 := ⟨by simp [boxes], by simp [frames], by simp [boxes], by simp [boxes]⟩
      obtain ⟨i1, i2⟩ := subgraphs_placed (all := f.nodes) f.subgraphs 500000 {} h0 (by simp [frames])
      have i1' : Placed (placeSubgraphs f.nodes f.subgraphs 500000 {}).1 (placeSubgraphs f.nodes f.subgraphs 500000 {}).2 1600000 := by
        refine ⟨i1.boxes, i1.frames, fun b hb => ?_, i1.mixed⟩
        rcases i1.free b hb with h | h
        · exact .inl h
        · exact .inr (by omega)
      obtain ⟨y, h⟩ := orphans_placed f.nodes 1600000 _ i1' i2
      exact ⟨h.boxes, h.frames, h.mixed⟩
    · obtain ⟨h3, h4⟩ := grid_placed f.direction.horizontal f.nodes.length f.nodes 0 {} (by simp) (by simp [boxes]) (by simp [boxes]) (by simp [frames])
      rw [h4]
      exact ⟨h3, by simp, by simp⟩

/-! ### On the slide -/

/-- Every shape lies in one of the rectangles of the bounds. -/
structure Bounded (d : Drawing) : Prop where
  out : ∀ s ∈ d.shapes, ∃ r ∈ d.bounds, r.1 ≤ s.x ∧ s.x + s.width ≤ r.1 + r.2.2.1 ∧ r.2.1 ≤ s.y ∧ s.y + s.height ≤ r.2.1 + r.2.2.2

theorem Bounded.extend {d d' : Drawing} (h : Bounded d) (ss : List Drawn) (r : Nat × Nat × Nat × Nat) (hs : d'.shapes = d.shapes ++ ss)
    (hb : d'.bounds = d.bounds ++ [r]) (hi : ∀ s ∈ ss, r.1 ≤ s.x ∧ s.x + s.width ≤ r.1 + r.2.2.1 ∧ r.2.1 ≤ s.y ∧
  s.y + s.height ≤ r.2.1 + r.2.2.2) : Bounded d' := by
  refine ⟨fun s hs' => ?_⟩
  rw [hs] at hs'
  rw [hb]
  rcases List.mem_append.mp hs' with h1 | h1
  · obtain ⟨r', h2, h3⟩ := h.out s h1
    exact ⟨r', List.mem_append_left _ h2, h3⟩
  · exact ⟨r, by simp, hi s h1⟩

theorem Bounded.place {d : Drawing} (h : Bounded d) (n : Node) (x y : Nat) : Bounded (d.place n x y) :=
  h.extend [nodeShape n x y d.next] (x, y, nodeWidth, nodeHeight) rfl rfl (by
    intro s hs
    have : s = nodeShape n x y d.next := by simpa using hs
    subst this
    exact ⟨Nat.le_refl _, Nat.le_refl _, Nat.le_refl _, Nat.le_refl _⟩)

theorem Bounded.frame {d : Drawing} (h : Bounded d) (sg : Subgraph) (x y : Nat) : Bounded (d.frame sg x y) :=
  h.extend _ (x, y, nodeWidth + 400000, sg.height) rfl rfl (by
    intro s hs
    have : 650000 ≤ sg.height := by unfold Subgraph.height; omega
    simp only [List.mem_cons, List.not_mem_nil, or_false] at hs
    rcases hs with rfl | rfl
    · exact ⟨Nat.le_refl _, Nat.le_refl _, Nat.le_refl _, Nat.le_refl _⟩
    · dsimp only
      unfold nodeWidth
      omega)

theorem Bounded.members {all : List Node} {x y : Nat} (ids : List Str) (i : Nat) {d : Drawing} (h : Bounded d) :
    Bounded (placeMembers all x y i ids d) := by
  induction ids generalizing i d with
  | nil => exact h
  | cons k ks ih =>
    unfold placeMembers
    cases all.find? (fun n => n.id = k) with
    | none => exact ih _ h
    | some n => exact ih _ (h.place ..)

theorem Bounded.subgraphs {all : List Node} (sgs : List Subgraph) (x : Nat) {d : Drawing} (h : Bounded d) :
    Bounded (placeSubgraphs all sgs x d).1 := by
  induction sgs generalizing x d with
  | nil => exact h
  | cons sg sgs ih =>
    unfold placeSubgraphs
    exact ih _ ((h.frame ..).members ..)

theorem Bounded.orphans {x : Nat} (ns : List Node) (y : Nat) {d : Drawing} (h : Bounded d) : Bounded (placeOrphans x ns y d) := by
  induction ns generalizing y d with
  | nil => exact h
  | cons n ns ih =>
    unfold placeOrphans
    split
    · exact ih _ h
    · exact ih _ (h.place ..)

theorem Bounded.grid {hz : Bool} {c : Nat} (ns : List Node) (i : Nat) {d : Drawing} (h : Bounded d) : Bounded (placeGrid hz c i ns d) := by
  induction ns generalizing i d with
  | nil => exact h
  | cons n ns ih =>
    unfold placeGrid
    exact ih _ (h.place ..)

theorem Bounded.connect {hz : Bool} {d : Drawing} (h : Bounded d) (c : Connection) : Bounded (d.connect hz c) := by
  unfold Drawing.connect
  split
  · rename_i u v _ _
    have : Bounded (d.label (wireEnds hz u v).1 (wireEnds hz u v).2 c.label) := by
      unfold Drawing.label
      cases c.label with
      | none => exact h
      | some l =>
        refine h.extend _ _ rfl rfl (fun s hs => ?_)
        rw [List.mem_singleton] at hs
        subst hs
        exact ⟨Nat.le_refl _, Nat.le_refl _, Nat.le_refl _, Nat.le_refl _⟩
    exact ⟨this.out⟩
  · exact h

theorem Bounded.connects {hz : Bool} (cs : List Connection) {d : Drawing} (h : Bounded d) : Bounded (cs.foldl (Drawing.connect hz) d) := by
  induction cs generalizing d with
  | nil => exact h
  | cons c cs ih => exact ih (h.connect c)

theorem Bounded.layout (f : Flowchart) : Bounded (layout f) := by
  have h0 : Bounded {} := ⟨by intro s hs; simp at hs⟩
  unfold Flow.layout
  split
  · exact (h0.subgraphs ..).orphans ..
  · exact h0.grid ..

theorem foldl_min_le {α : Type} (g : α → Nat) (l : List α) (m : Nat) : l.foldl (fun m q => min m (g q)) m ≤ m ∧
    ∀ q ∈ l, l.foldl (fun m q => min m (g q)) m ≤ g q := by
  induction l generalizing m with
  | nil => simp
  | cons a l ih =>
    obtain ⟨h1, h2⟩ := ih (min m (g a))
    simp only [List.foldl_cons]
    refine ⟨by omega, fun q hq => ?_⟩
    rcases List.mem_cons.mp hq with rfl | hq
    · omega
    · exact h2 q hq

theorem le_foldl_max' {α : Type} (g : α → Nat) (l : List α) (m : Nat) : m ≤ l.foldl (fun m q => max m (g q)) m ∧
    ∀ q ∈ l, g q ≤ l.foldl (fun m q => max m (g q)) m := by
  induction l generalizing m with
  | nil => simp
  | cons a l ih =>
    obtain ⟨h1, h2⟩ := ih (max m (g a))
    simp only [List.foldl_cons]
    refine ⟨by omega, fun q hq => ?_⟩
    rcases List.mem_cons.mp hq with rfl | hq
    · omega
    · exact h2 q hq

/-- The bounding box contains every rectangle. -/
theorem boundingBox_contains {rs : List (Nat × Nat × Nat × Nat)} {x y w h : Nat} (hb : boundingBox rs = some (x, y, w, h)) :
    ∀ r ∈ rs, x ≤ r.1 ∧ r.1 + r.2.2.1 ≤ x + w ∧ y ≤ r.2.1 ∧ r.2.1 + r.2.2.2 ≤ y + h := by
  cases rs with
  | nil => simp [boundingBox] at hb
  | cons p ps =>
    simp only [boundingBox, Option.some.injEq, Prod.mk.injEq] at hb
    obtain ⟨hx, hy, hw, hh⟩ := hb
    obtain ⟨a1, a2⟩ := foldl_min_le (fun q : Nat × Nat × Nat × Nat => q.1) ps (min 4294967295 p.1)
    obtain ⟨b1, b2⟩ := foldl_min_le (fun q : Nat × Nat × Nat × Nat => q.2.1) ps (min 4294967295 p.2.1)
    obtain ⟨c1, c2⟩ := le_foldl_max' (fun q : Nat × Nat × Nat × Nat => q.1 + q.2.2.1) ps (p.1 + p.2.2.1)
    obtain ⟨d1, d2⟩ := le_foldl_max' (fun q : Nat × Nat × Nat × Nat => q.2.1 + q.2.2.2) ps (p.2.1 + p.2.2.2)
    intro r hr
    rcases List.mem_cons.mp hr with rfl | hr
    · omega
    · have := a2 r hr
      have := b2 r hr
      have := c2 r hr
      have := d2 r hr
      omega

/-- A diagram that is not larger than the space below the title stands in the middle of it, with all its shapes, provided its drawing
starts left of and above that place. -/
theorem C90_centred_partial (f : Flowchart) (x y w h : Nat) (hb : (elements f).bounds = some (x, y, w, h)) (hw : w ≤ 9144000)
    (hh : h ≤ 5658000) (hx : x ≤ (9144000 - w) / 2) (hy : y ≤ 1200000 + (5658000 - h) / 2) :
    (x + (offset (elements f).bounds).1 = (9144000 - w) / 2 ∧ y + (offset (elements f).bounds).2 = 1200000 + (5658000 - h) / 2) ∧
    ∀ s ∈ (onSlide (elements f)).1, (9144000 - w) / 2 ≤ s.x ∧ s.x + s.width ≤ (9144000 - w) / 2 + w ∧ s.x + s.width ≤ 9144000 ∧
      1200000 + (5658000 - h) / 2 ≤ s.y ∧ s.y + s.height ≤ 1200000 + (5658000 - h) / 2 + h ∧ s.y + s.height ≤ 6858000 := by
  have ho : offset (elements f).bounds = ((9144000 - w) / 2 - x, 1200000 + (5658000 - h) / 2 - y) := by rw [hb]; rfl
  refine ⟨by rw [ho]; dsimp only; omega, ?_⟩
  intro s hs
  unfold onSlide at hs
  obtain ⟨s, hsm, rfl⟩ := List.mem_map.mp hs
  clear hs
  have hin : x ≤ s.x ∧ s.x + s.width ≤ x + w ∧ y ≤ s.y ∧ s.y + s.height ≤ y + h := by
    unfold elements at hb hsm
    split at hb
    · simp at hb
    · rename_i hne
      rw [if_neg hne] at hsm
      obtain ⟨r, h1, h2⟩ := ((Bounded.layout f).connects (hz := f.direction.horizontal) f.connections).out s hsm
      have := boundingBox_contains hb r h1
      omega
  rw [ho]
  unfold Drawn.move
  dsimp only
  omega

theorem fifth_place {n : Nat} (h : 5 ≤ n) : gridPosition true n 4 = (8200000, 1800000) := by
  have : min n 5 = 5 := by omega
  unfold gridPosition hSpacing vSpacing
  simp only [this, if_true]

theorem fifth_box (n : Node) (i : Nat) : (nodeShape n 8200000 1800000 i).x + (nodeShape n 8200000 1800000 i).width = 9600000 := by
  have : nodeWidth = 1400000 := rfl
  simp only [nodeShape, this]

/-- Every chart from left to right with at least five nodes sticks out of the slide, although five boxes and the gaps between them are
narrower than it: the diagram is never moved to the left. -/
theorem C90_wide_violated (f : Flowchart) (hd : f.direction = .leftToRight) (hs : f.subgraphs = []) (hn : 5 ≤ f.nodes.length) :
    ∃ s ∈ (onSlide (elements f)).1, 9144000 < s.x + s.width := by
  have key : ∀ (ns : List Node) (i : Nat) (d : Drawing), (∃ k n, ns[k]? = some n ∧ i + k = 4) →
      ∃ s ∈ (placeGrid true f.nodes.length i ns d).shapes, s.x + s.width = 9600000 := by
    intro ns
    induction ns with
    | nil => intro i d ⟨k, n, h, _⟩; simp at h
    | cons n ns ih =>
      intro i d ⟨k, m, h, hk⟩
      unfold placeGrid
      cases k with
      | zero =>
        have hi : i = 4 := by omega
        subst hi
        rw [fifth_place hn]
        have hpre : ∀ (ns : List Node) (i : Nat) (d : Drawing), d.shapes <+: (placeGrid true f.nodes.length i ns d).shapes := by
          intro ns
          induction ns with
          | nil => exact fun _ _ => List.prefix_refl _
          | cons n ns ih => exact fun i d => (place_prefix ..).trans (ih _ _)
        exact ⟨nodeShape n 8200000 1800000 d.next, (hpre ns _ _).subset (by simp [Drawing.place]), fifth_box n d.next⟩
      | succ k => exact ih (i + 1) _ ⟨k, m, by simpa using h, by omega⟩
  have hne : f.nodes ≠ [] := by
    intro h0
    rw [h0] at hn
    simp at hn
  obtain ⟨s, h1, h2⟩ := key f.nodes 0 {} ⟨4, f.nodes[4], by simp, rfl⟩
  have hm : s ∈ (elements f).shapes := by
    have hsh : (elements f).shapes = (f.connections.foldl (Drawing.connect f.direction.horizontal) (layout f)).shapes := by
      unfold elements
      rw [if_neg hne]
    rw [hsh]
    refine (connects_prefix _ f.connections (layout f)).subset ?_
    unfold layout
    rw [if_neg (by simp [hs]), hd]
    exact h1
  refine ⟨s.move (offset (elements f).bounds), List.mem_map_of_mem hm, ?_⟩
  show 9144000 < s.x + _ + s.width
  omega

/-- A column of six boxes fits but is not centred. -/
theorem C90_tall_violated (n1 n2 n3 n4 n5 n6 : Node) :
    (elements ⟨.topToBottom, [n1, n2, n3, n4, n5, n6], [], []⟩).bounds = some (1000000, 1800000, 1400000, 5000000) ∧
    (offset (elements ⟨.topToBottom, [n1, n2, n3, n4, n5, n6], [], []⟩).bounds).2 = 0 := by
  constructor <;>
  simp [elements, layout, placeGrid, Drawing.place, gridPosition, boundingBox, Direction.horizontal, nodeWidth, nodeHeight, vSpacing, offset]

example : (elements ⟨.leftToRight, [⟨c!"A", c!"a", .circle⟩, ⟨c!"B", c!"b", .diamond⟩], [⟨c!"A", c!"B", none, .arrow⟩], []⟩).bounds =
    some (1000000, 1800000, 3200000, 500000) := by decide

end PptRs.Props
