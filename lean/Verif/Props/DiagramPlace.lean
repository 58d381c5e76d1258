import Verif.Model.DiagramPlace
import Verif.Props.FlowPlace
import Verif.Model.MdImport
import Mathlib.Tactic.NormNum

/-!
# C167: diagrams of every kind stand on the slide
-/

namespace PptRs.Props
open PptRs PptRs.Mermaid

/-- On a slide of 9144000 by 6858000, below the title. -/
def OnPage (f : Fig) : Prop := f.x + f.width ≤ 9144000 ∧ 1200000 ≤ f.y ∧ f.y + f.height ≤ 6858000

/-! ## Placing -/

theorem foldl_min_ge {α : Type} (g : α → Nat) (b : Nat) (l : List α) :
    ∀ m, b ≤ m → (∀ a ∈ l, b ≤ g a) → b ≤ l.foldl (fun m q => min m (g q)) m := by
  induction l with
  | nil => intro m h _; exact h
  | cons a l ih =>
    intro m h hl
    exact ih _ (by have := hl a (List.mem_cons_self ..); simp only; omega) fun x hx => hl x (List.mem_cons_of_mem _ hx)

theorem foldl_max_within {α : Type} (g : α → Nat) (b : Nat) (l : List α) :
    ∀ m, m ≤ b → (∀ a ∈ l, g a ≤ b) → l.foldl (fun m q => max m (g q)) m ≤ b := by
  induction l with
  | nil => intro m h _; exact h
  | cons a l ih =>
    intro m h hl
    exact ih _ (by have := hl a (List.mem_cons_self ..); simp only; omega) fun x hx => hl x (List.mem_cons_of_mem _ hx)

/-- The bounding box is within every frame that holds the rectangles. -/
theorem boundingBox_within {rs : List (Nat × Nat × Nat × Nat)} {x y w h : Nat} (hb : Flow.boundingBox rs = some (x, y, w, h))
    {R T B : Nat} (hT : T ≤ 4294967295) (hr : ∀ r ∈ rs, r.1 + r.2.2.1 ≤ R ∧ T ≤ r.2.1 ∧ r.2.1 + r.2.2.2 ≤ B) :
    x + w ≤ R ∧ T ≤ y ∧ y + h ≤ B := by
  cases rs with
  | nil => simp [Flow.boundingBox] at hb
  | cons p ps =>
    have hc := boundingBox_contains hb p (List.mem_cons_self ..)
    have hp := hr p (List.mem_cons_self ..)
    simp only [Flow.boundingBox, Option.some.injEq, Prod.mk.injEq] at hb
    obtain ⟨hx, hy, hw, hh⟩ := hb
    have h1 := foldl_max_within (fun q : Nat × Nat × Nat × Nat => q.1 + q.2.2.1) R ps (p.1 + p.2.2.1) hp.1
      fun a ha => (hr a (List.mem_cons_of_mem _ ha)).1
    have h2 := foldl_max_within (fun q : Nat × Nat × Nat × Nat => q.2.1 + q.2.2.2) B ps (p.2.1 + p.2.2.2) hp.2.2
      fun a ha => (hr a (List.mem_cons_of_mem _ ha)).2.2
    have h3 := foldl_min_ge (fun q : Nat × Nat × Nat × Nat => q.2.1) T ps (min 4294967295 p.2.1) (by omega)
      fun a ha => (hr a (List.mem_cons_of_mem _ ha)).2.1
    rw [hx] at hw
    rw [hy] at hh h3
    refine ⟨?_, h3, ?_⟩ <;> omega

/-- **C167** (placing). All shapes and connectors of a diagram are moved by the same distance, to the right and downwards,
and are not changed otherwise; the bounding box ends up in the middle of the space below the title, unless it was
further right or further down. -/
theorem C167_moved (figs : List Fig) (links : List Link) :
    ∃ dx dy, placed (figs, links) =
        (figs.map (fun f => { f with x := f.x + dx, y := f.y + dy }),
          links.map fun l => { l with startX := l.startX + dx, startY := l.startY + dy, endX := l.endX + dx, endY := l.endY + dy }) ∧
      ∀ x y w h, Flow.boundingBox (figs.map fun f => (f.x, f.y, f.width, f.height)) = some (x, y, w, h) →
        (x ≤ (9144000 - w) / 2 → x + dx = (9144000 - w) / 2) ∧ ((9144000 - w) / 2 ≤ x → dx = 0) ∧
        (y ≤ 1200000 + (5658000 - h) / 2 → y + dy = 1200000 + (5658000 - h) / 2) ∧ (1200000 + (5658000 - h) / 2 ≤ y → dy = 0) := by
  refine ⟨(Flow.offset (figBounds figs)).1, (Flow.offset (figBounds figs)).2, rfl, ?_⟩
  intro x y w h hb
  have : Flow.offset (figBounds figs) = ((9144000 - w) / 2 - x, 1200000 + (5658000 - h) / 2 - y) := by
    unfold figBounds; rw [hb]; rfl
  rw [this]
  refine ⟨?_, ?_, ?_, ?_⟩ <;> intro _ <;> simp only <;> omega

/-- What was on the page stays on the page. -/
theorem placed_onPage {figs : List Fig} (links : List Link) (h : ∀ f ∈ figs, OnPage f) : ∀ f ∈ (placed (figs, links)).1, OnPage f := by
  intro f hf
  obtain ⟨g, hg, rfl⟩ := List.mem_map.1 hf
  cases hb : figBounds figs with
  | none =>
    have := h g hg
    simpa [OnPage, Fig.move, Flow.offset] using this
  | some b =>
    obtain ⟨x, y, w, hh⟩ := b
    have hc := boundingBox_contains hb (g.x, g.y, g.width, g.height) (List.mem_map.2 ⟨g, hg, rfl⟩)
    have hw := boundingBox_within (R := 9144000) (T := 1200000) (B := 6858000) hb (by omega) (by
      intro r hr
      obtain ⟨k, hk, rfl⟩ := List.mem_map.1 hr
      exact h k hk)
    have hgp := h g hg
    simp only [OnPage, Fig.move, Flow.offset] at hgp hc ⊢
    omega

/-- A shape beyond the right edge or the lower edge stays there. -/
theorem placed_beyond {figs : List Fig} (links : List Link) {f : Fig} (hf : f ∈ figs)
    (h : 9144000 < f.x + f.width ∨ 6858000 < f.y + f.height) :
    ∃ g ∈ (placed (figs, links)).1, 9144000 < g.x + g.width ∨ 6858000 < g.y + g.height := by
  refine ⟨_, List.mem_map.2 ⟨f, hf, rfl⟩, ?_⟩
  simp only [Fig.move]
  omega

/-! ## Sizes -/

/-- The diagrams that are small enough. -/
def SmallDiagram {V : Type} (w : World V) (code : Str) : Kind → Prop
  | .sequence => (Seq.parse code).participants.length ≤ 5 ∧ (Seq.parse code).messages.length ≤ 11
  | .pie => (pieParse w.value code).length ≤ 14
  | .gantt => ((ganttParse code).all.map fun s => 350000 + s.2.length * 280000).sum ≤ 4758000
  | .classDiagram => ∀ i c, (Classes.parse code).classes[i]? = some c →
      i / 3 * 2000000 + 350000 + (max c.2.1.length 1 + max c.2.2.length 1) * 250000 ≤ 5258000
  | .stateDiagram => (States.parse code).states.length ≤ 12
  | .erDiagram => ∀ i e, (w.order (Entities.parse w.alpha code).entities)[i]? = some e →
      i / 3 * 2500000 + 400000 + max e.2.length 1 * 280000 ≤ 5258000
  | .mindmap => ∀ r i n, (w.proj r i n).1 ≤ r ∧ (w.proj r i n).2 ≤ r
  | .timeline => (timelineParse code).all.length ≤ 5 ∧ ∀ e ∈ (timelineParse code).all, e.2.length ≤ 16
  | .journey => (journeyParse code).all.length ≤ 4 ∧ ∀ s ∈ (journeyParse code).all, s.2.length ≤ 11
  | .quadrant => ∀ p ∈ quadrantParse code, w.scaleX p.2.1 ≤ 6000000 ∧ w.scaleY p.2.2 ≤ 4000000
  | .gitGraph => (Git.parse code).branches.length ≤ 8 ∧ (Git.parse code).commits.length ≤ 9
  | .flowchart => True
  | .unknown => True

theorem findIdx_lt {α : Type} {p : α → Bool} {l : List α} {i : Nat} (h : l.findIdx? p = some i) : i < l.length := by
  rw [List.findIdx?_eq_some_iff_getElem] at h
  exact h.1

theorem mem_mapIdx_flatten {α β : Type} {f : Nat → α → List β} {l : List α} {b : β} (h : b ∈ (l.mapIdx f).flatten) :
    ∃ i a, l[i]? = some a ∧ i < l.length ∧ b ∈ f i a := by
  obtain ⟨s, hs, hb⟩ := List.mem_flatten.1 h
  obtain ⟨i, hi, rfl⟩ := List.mem_mapIdx.1 hs
  exact ⟨i, l[i], by simp [hi], hi, hb⟩

theorem sequence_onPage (s : Seq) (h1 : s.participants.length ≤ 5) (h2 : s.messages.length ≤ 11) : ∀ f ∈ s.figures, OnPage f := by
  intro f hf
  simp only [Seq.figures, List.mem_append] at hf
  rcases hf with hf | hf
  · obtain ⟨i, a, _, hi, hb⟩ := mem_mapIdx_flatten hf
    simp only [Seq.column, List.mem_cons, List.not_mem_nil, or_false] at hb
    rcases hb with rfl | rfl | rfl <;> simp only [OnPage, Seq.left] <;> omega
  · obtain ⟨i, m, _, hi, hb⟩ := mem_mapIdx_flatten hf
    simp only [Seq.arrow] at hb
    split at hb
    · rename_i a b ha hb'
      have ha := findIdx_lt ha
      have hb' := findIdx_lt hb'
      simp only [List.mem_cons, List.not_mem_nil, or_false] at hb
      rcases hb with rfl | rfl <;> unfold OnPage Seq.left <;> dsimp only <;> split_ifs <;> omega
    · cases hb

theorem pie_onPage {V : Type} (percent : List V → V → Str) (l : List (Str × V)) (h : l.length ≤ 14) :
    ∀ f ∈ pieFigures percent l, OnPage f := by
  intro f hf
  unfold pieFigures at hf
  split at hf
  · cases hf
  · simp only [List.mem_cons] at hf
    rcases hf with rfl | hf
    · (simp only [OnPage]; omega)
    · obtain ⟨i, a, _, hi, hb⟩ := mem_mapIdx_flatten hf
      simp only [List.mem_cons, List.not_mem_nil, or_false] at hb
      rcases hb with rfl | rfl <;> simp only [OnPage] <;> omega

theorem gantt_onPage (l : List (Str × List Str)) :
    ∀ n y, 2100000 ≤ y → y + (l.map fun s => 350000 + s.2.length * 280000).sum ≤ 6858000 → ∀ f ∈ ganttSections n y l, OnPage f := by
  induction l with
  | nil => intro n y _ _ f hf; cases hf
  | cons p l ih =>
    intro n y hy h f hf
    obtain ⟨name, tasks⟩ := p
    simp only [List.map_cons, List.sum_cons] at h
    simp only [ganttSections, List.mem_cons, List.mem_append] at hf
    rcases hf with rfl | hf | hf
    · simp only [OnPage]; omega
    · obtain ⟨i, a, _, hi, hb⟩ := mem_mapIdx_flatten hf
      simp only [ganttTask, List.mem_cons, List.not_mem_nil, or_false] at hb
      rcases hb with rfl | rfl <;> simp only [OnPage] <;> omega
    · exact ih (n + 1) _ (by omega) (by omega) f hf

theorem class_onPage (s : Classes)
    (h : ∀ i c, s.classes[i]? = some c → i / 3 * 2000000 + 350000 + (max c.2.1.length 1 + max c.2.2.length 1) * 250000 ≤ 5258000) :
    ∀ f ∈ s.figures, OnPage f := by
  intro f hf
  obtain ⟨i, c, hc, hi, hb⟩ := mem_mapIdx_flatten hf
  have hs := h i c hc
  have hm : i % 3 ≤ 2 := by omega
  simp only [classBoxes, gridCell, List.mem_cons, List.not_mem_nil, or_false] at hb
  rcases hb with rfl | rfl | rfl <;> simp only [OnPage] <;> omega

theorem state_onPage (s : States) (h : s.states.length ≤ 12) : ∀ f ∈ s.figures, OnPage f := by
  intro f hf
  simp only [States.figures, List.mem_append] at hf
  rcases hf with hf | hf
  · obtain ⟨i, hi, rfl⟩ := List.mem_mapIdx.1 hf
    have : i / 3 ≤ 3 := by omega
    have : i % 3 ≤ 2 := by omega
    simp only [OnPage, stateFig, statePlace, gridCell]
    omega
  · simp only [numbered] at hf
    obtain ⟨k, hk, rfl⟩ := List.mem_mapIdx.1 hf
    have hm := List.getElem_mem hk
    generalize ((s.transitions.filterMap (stateLink s.states)).filterMap (·.2))[k] = g at hm ⊢
    obtain ⟨r, hr, hg⟩ := List.mem_filterMap.1 hm
    obtain ⟨t, ht, e⟩ := List.mem_filterMap.1 hr
    unfold stateLink at e
    split at e
    · rename_i i j hi hj
      have hi := findIdx_lt hi
      have hj := findIdx_lt hj
      cases e
      simp only at hg
      split at hg
      · cases hg
      · cases hg
        have : i / 3 ≤ 3 := by omega
        have : i % 3 ≤ 2 := by omega
        have : j / 3 ≤ 3 := by omega
        have : j % 3 ≤ 2 := by omega
        simp only [OnPage, statePlace, gridCell]
        omega
    · cases e

theorem er_onPage (es : List (Str × List Str)) (rs : List (Str × Str × Str))
    (h : ∀ i e, es[i]? = some e → i / 3 * 2500000 + 400000 + max e.2.length 1 * 280000 ≤ 5258000) :
    ∀ f ∈ erFigures es rs, OnPage f := by
  have hrow : ∀ i, i < es.length → i / 3 ≤ 1 := by
    intro i hi
    have := h i es[i] (by simp [hi])
    omega
  intro f hf
  simp only [erFigures, List.mem_append] at hf
  rcases hf with hf | hf
  · obtain ⟨i, e, he, hi, hb⟩ := mem_mapIdx_flatten hf
    have hs := h i e he
    have hm : i % 3 ≤ 2 := by omega
    simp only [erBoxes, erPlace, gridCell, List.mem_cons, List.not_mem_nil, or_false] at hb
    rcases hb with rfl | rfl <;> simp only [OnPage] <;> omega
  · simp only [numbered] at hf
    obtain ⟨k, hk, rfl⟩ := List.mem_mapIdx.1 hf
    have hm := List.getElem_mem hk
    generalize ((rs.filterMap (erLink (es.map (·.1)))).filterMap (·.2))[k] = g at hm ⊢
    obtain ⟨r, hr, hg⟩ := List.mem_filterMap.1 hm
    obtain ⟨t, ht, e⟩ := List.mem_filterMap.1 hr
    unfold erLink at e
    split at e
    · rename_i i j hi hj
      have hi := hrow i (by simpa using findIdx_lt hi)
      have hj := hrow j (by simpa using findIdx_lt hj)
      cases e
      simp only at hg
      split at hg
      · cases hg
      · cases hg
        have : i % 3 ≤ 2 := by omega
        have : j % 3 ≤ 2 := by omega
        simp only [OnPage, erPlace, gridCell]
        omega
    · cases e

theorem timeline_onPage (s : Sections Str) (h1 : s.all.length ≤ 5) (h2 : ∀ e ∈ s.all, e.2.length ≤ 16) :
    ∀ f ∈ timelineFigures s, OnPage f := by
  intro f hf
  simp only [timelineFigures, List.mem_append, List.mem_singleton] at hf
  rcases hf with (hf | rfl) | hf
  · split at hf
    · cases hf
    · simp only [List.mem_singleton] at hf
      subst hf
      (simp only [OnPage]; omega)
  · simp only [OnPage]; omega
  · obtain ⟨i, e, he, hi, hb⟩ := mem_mapIdx_flatten hf
    have := h2 e (List.mem_of_getElem? he)
    simp only [timelineEvent, List.mem_cons, List.not_mem_nil, or_false] at hb
    rcases hb with rfl | rfl | rfl <;> simp only [OnPage] <;> omega

theorem journey_onPage (s : Sections (Str × Nat)) (h1 : s.all.length ≤ 4) (h2 : ∀ e ∈ s.all, e.2.length ≤ 11) :
    ∀ f ∈ journeyFigures s, OnPage f := by
  intro f hf
  simp only [journeyFigures] at hf
  split at hf
  · simp only [List.mem_singleton] at hf
    subst hf
    (simp only [OnPage]; omega)
  · obtain ⟨i, e, he, hi, hb⟩ := mem_mapIdx_flatten hf
    have h3 := h2 e (List.mem_of_getElem? he)
    simp only [journeySection, List.mem_cons] at hb
    rcases hb with rfl | hb
    · simp only [OnPage]; omega
    · obtain ⟨k, hk, rfl⟩ := List.mem_mapIdx.1 hb
      simp only [OnPage]; omega

theorem labeled_onPage (kind : Str) (x y w h : Nat) (fill text : Str) (hw : 100000 ≤ w) (hh : 100000 ≤ h) (hx : x + w ≤ 9144000)
    (hy : 1200000 ≤ y) (hb : y + h ≤ 6858000) : ∀ f ∈ labeled kind x y w h fill text, OnPage f := by
  intro f hf
  simp only [labeled, List.mem_cons, List.not_mem_nil, or_false] at hf
  rcases hf with rfl | rfl <;> simp only [OnPage] <;> omega

theorem mind_onPage (proj : Nat → Nat → Nat → Nat × Nat) (m : Mind) (h : ∀ r i n, (proj r i n).1 ≤ r ∧ (proj r i n).2 ≤ r) :
    ∀ f ∈ m.figures proj, OnPage f := by
  have hp : ∀ r i n, r ≤ 3200000 → (mindPlace proj r i n).1 + 1500000 ≤ 9144000 ∧ 1200000 ≤ (mindPlace proj r i n).2 ∧
      (mindPlace proj r i n).2 + 400000 ≤ 6858000 := by
    intro r i n hr
    have hh := h r i n
    unfold mindPlace
    generalize proj r i n = q at hh ⊢
    obtain ⟨a, b⟩ := q
    have h1 : a ≤ r := hh.1
    have h2 : b ≤ r := hh.2
    have e1 : 4000000 + a - 750000 + 1500000 ≤ 9144000 := by omega
    have e2 : 1200000 ≤ 3000000 + b - 200000 := by omega
    have e3 : 3000000 + b - 200000 + 400000 ≤ 6858000 := by omega
    exact ⟨e1, e2, e3⟩
  intro f hf
  simp only [Mind.figures, List.mem_append, List.mem_flatMap] at hf
  rcases hf with (hf | hf) | ⟨p, _, hf⟩
  · exact labeled_onPage _ _ _ _ _ _ _ (by omega) (by omega) (by omega) (by omega) (by omega) f hf
  · obtain ⟨i, e, he, hi, hb⟩ := mem_mapIdx_flatten hf
    have := hp 2000000 i m.branches.length (by omega)
    exact labeled_onPage _ _ _ _ _ _ _ (by omega) (by omega) this.1 this.2.1 this.2.2 f hb
  · have := hp 3200000 p.1 m.branches.length (by omega)
    split at hf
    · exact labeled_onPage _ _ _ _ _ _ _ (by omega) (by omega) this.1 this.2.1 this.2.2 f hf
    · cases hf

theorem quadrant_onPage (sx sy : Str → Nat) (l : List (Str × Str × Str)) (h : ∀ p ∈ l, sx p.2.1 ≤ 6000000 ∧ sy p.2.2 ≤ 4000000) :
    ∀ f ∈ quadrantFigures sx sy l, OnPage f := by
  intro f hf
  simp only [quadrantFigures, List.mem_append, List.mem_flatMap] at hf
  rcases hf with (hf | ⟨p, hp, hf⟩) | hf
  · simp only [List.mem_cons, List.not_mem_nil, or_false] at hf
    rcases hf with rfl | rfl | rfl | rfl <;> (simp [OnPage, quadrantBox])
  · have := h p hp
    simp only [quadrantDot, List.mem_cons, List.not_mem_nil, or_false] at hf
    rcases hf with rfl | rfl <;> simp only [OnPage] <;> omega
  · split at hf
    · simp only [List.mem_singleton] at hf
      subst hf
      (simp only [OnPage]; omega)
    · cases hf

theorem git_onPage (g : Git) (h1 : g.branches.length ≤ 8) (h2 : g.commits.length ≤ 9) : ∀ f ∈ g.figures, OnPage f := by
  intro f hf
  have hrow : ∀ b, g.row b ≤ 7 := by
    intro b
    unfold Git.row
    cases hb : g.branches.findIdx? (· = b) with
    | none => simp
    | some i => have := findIdx_lt hb; simp only [Option.getD_some]; omega
  simp only [Git.figures, List.mem_append] at hf
  rcases hf with (hf | hf) | hf
  · obtain ⟨i, b, hb, hi, hm⟩ := mem_mapIdx_flatten hf
    simp only [gitBranch, List.mem_cons, List.not_mem_nil, or_false] at hm
    rcases hm with rfl | rfl <;> simp only [OnPage] <;> omega
  · obtain ⟨i, c, hc, hi, hm⟩ := mem_mapIdx_flatten hf
    have := hrow c.2
    simp only [gitCommit, List.mem_cons, List.not_mem_nil, or_false] at hm
    rcases hm with rfl | rfl <;> simp only [OnPage] <;> omega
  · split at hf
    · simp only [List.mem_singleton] at hf
      subst hf
      (simp only [OnPage]; omega)
    · cases hf

/-- **C167** (partial: for diagrams that are small enough). Every shape of a diagram is on the slide and below the title:
for sequence diagrams of five participants and eleven messages, pies of fourteen slices, twelve states, five dates with
sixteen texts each, journeys of four sections with eleven tasks each, eight branches with nine commits, and for
every mind map; Gantt charts, class diagrams and ER diagrams may be as high as the space below the title. -/
theorem C167_on_page_partial {V : Type} (w : World V) (code : Str) (h : SmallDiagram w code (detectType w.low code)) :
    ∀ f ∈ (slideDiagram w code).1, f.x + f.width ≤ 9144000 ∧ 1200000 ≤ f.y ∧ f.y + f.height ≤ 6858000 := by
  have key : ∀ k, SmallDiagram w code k → ∀ f ∈ (diagram w code k).1, OnPage f := by
    intro k hk
    cases k with
    | flowchart => intro f hf; cases hf
    | sequence => exact sequence_onPage _ hk.1 hk.2
    | pie => exact pie_onPage _ _ hk
    | gantt =>
      intro f hf
      simp only [diagram, ganttFigures, List.mem_append] at hf
      rcases hf with hf | hf
      · split at hf
        · cases hf
        · simp only [List.mem_singleton] at hf
          subst hf
          (simp only [OnPage]; omega)
      · exact gantt_onPage _ 0 2100000 (by omega) (by simp only [SmallDiagram] at hk; omega) f hf
    | classDiagram => exact class_onPage _ hk
    | stateDiagram => exact state_onPage _ hk
    | erDiagram => exact er_onPage _ _ hk
    | mindmap => exact mind_onPage _ _ hk
    | timeline => exact timeline_onPage _ hk.1 hk.2
    | journey => exact journey_onPage _ hk.1 hk.2
    | quadrant => exact quadrant_onPage _ _ _ hk
    | gitGraph => exact git_onPage _ hk.1 hk.2
    | unknown =>
      intro f hf
      simp only [diagram, unknownFig, List.mem_singleton] at hf
      subst hf
      (simp only [OnPage]; omega)
  exact placed_onPage _ (key _ h)

/-- The world of the examples: no letters but those of ASCII, no numbers. -/
def plainWorld : World Unit where
  low := id
  alpha := Char.isAlpha
  value := fun _ => some ()
  percent := fun _ _ => c!"1"
  proj := fun _ _ _ => (0, 0)
  scaleX := fun _ => 3000000
  scaleY := fun _ => 2000000
  order := id

set_option maxRecDepth 8000 in
example : (slideDiagram plainWorld c!"sequenceDiagram\nA->>B: x").1.map (fun f => (f.x, f.y)) =
    [(2972000, 2129000), (3662000, 2529000), (2972000, 5529000), (4772000, 2129000), (5462000, 2529000), (4772000, 5529000),
     (3672000, 2729000), (3672000, 2549000)] := by decide +kernel

set_option maxRecDepth 8000 in
example : SmallDiagram plainWorld c!"gitGraph\ncommit\nbranch b\ncommit" (detectType id c!"gitGraph\ncommit\nbranch b\ncommit") := by
  have : detectType id c!"gitGraph\ncommit\nbranch b\ncommit" = .gitGraph := by decide +kernel
  rw [this]
  simp only [SmallDiagram]
  decide +kernel

/-! ## The slide of a diagram -/

/-- **C167** (titles). Each kind of diagram has a title of its own. -/
theorem C167_titles (a b : Kind) : kindTitle a = kindTitle b ↔ a = b := by
  constructor
  · intro h
    revert h
    cases a <;> cases b <;> first | (intro _; rfl) | (intro h; revert h; decide)
  · rintro rfl; rfl

/-- The word a kind of diagram begins with in the Mermaid language. -/
def Spec.kindWord : Kind → Str
  | .flowchart => c!"flowchart"
  | .sequence => c!"sequenceDiagram"
  | .pie => c!"pie"
  | .gantt => c!"gantt"
  | .classDiagram => c!"classDiagram"
  | .stateDiagram => c!"stateDiagram"
  | .erDiagram => c!"erDiagram"
  | .mindmap => c!"mindmap"
  | .timeline => c!"timeline"
  | .journey => c!"journey"
  | .quadrant => c!"quadrantChart"
  | .gitGraph => c!"gitGraph"
  | .unknown => c!"diagram"

/-- **C167** (titles). The title of a kind has the word that a diagram of this kind begins with, written as separate words, and a diagram
that begins with the word is of the kind. -/
theorem C167_words (k : Kind) :
    containsStr ((Spec.kindWord k).map Char.toLower) (((kindTitle k).filter (· ≠ ' ')).map Char.toLower) = true ∧
      detectType (List.map Char.toLower) (Spec.kindWord k) = k := by
  cases k <;> decide +kernel

open MdImport in
/-- **C167** (the slide). A Markdown text that is only a diagram becomes one slide with the title of its kind and nothing but
the drawing. -/
theorem C167_slide (load : Str → Bool) (low : Str → Str) (code : Str) (h : code ≠ []) :
    importMd load (fun c => kindTitle (detectType low c)) [.code (some c!"mermaid"), .text code, .codeEnd] =
      some (some [{ title := kindTitle (detectType low code), shapes := [.diagram code] }]) := by
  simp [importMd, run, handle, State.push, State.flushCode, State.onSlide, State.finalize, State.flushItems, h]

example : kindTitle (detectType id c!"gantt\ntitle x") = c!"Gantt Chart" := by decide +kernel

/-! ## Larger diagrams -/

/-- Some shape of the diagram is partly or wholly beside or below the slide. -/
def SticksOut (figs : List Fig) : Prop := ∃ f ∈ figs, 9144000 < f.x + f.width ∨ 6858000 < f.y + f.height

theorem sticksOut_of {V : Type} {w : World V} {code : Str} {k : Kind} (hk : detectType w.low code = k) {f : Fig}
    (hf : f ∈ (diagram w code k).1) (h : 9144000 < f.x + f.width ∨ 6858000 < f.y + f.height) : SticksOut (slideDiagram w code).1 := by
  unfold slideDiagram
  rw [hk]
  exact placed_beyond _ hf h

theorem mem_mapIdx_flatten' {α β : Type} {f : Nat → α → List β} {l : List α} {i : Nat} (h : i < l.length) {b : β} (hb : b ∈ f i l[i]) :
    b ∈ (l.mapIdx f).flatten :=
  List.mem_flatten.2 ⟨_, List.mem_mapIdx.2 ⟨i, h, rfl⟩, hb⟩

/-- **C167 does not hold in full.** Sequence diagrams of six or more participants, journeys of five
or more sections, timelines of six or more dates, git graphs of ten or more commits, pies of fifteen or more slices and
state diagrams of thirteen or more states stick out of the slide: distances are fixed, and nothing is made smaller. -/
theorem C167_large_violated {V : Type} (w : World V) (code : Str) :
    (detectType w.low code = .sequence → 6 ≤ (Seq.parse code).participants.length → SticksOut (slideDiagram w code).1) ∧
    (detectType w.low code = .journey → 5 ≤ (journeyParse code).all.length → SticksOut (slideDiagram w code).1) ∧
    (detectType w.low code = .timeline → 6 ≤ (timelineParse code).all.length → SticksOut (slideDiagram w code).1) ∧
    (detectType w.low code = .gitGraph → 10 ≤ (Git.parse code).commits.length → (Git.parse code).branches ≠ [] →
      SticksOut (slideDiagram w code).1) ∧
    (detectType w.low code = .pie → 15 ≤ (pieParse w.value code).length → SticksOut (slideDiagram w code).1) ∧
    (detectType w.low code = .stateDiagram → 13 ≤ (States.parse code).states.length → SticksOut (slideDiagram w code).1) := by
  refine ⟨fun hk h => ?_, fun hk h => ?_, fun hk h => ?_, fun hk h hb => ?_, fun hk h => ?_, fun hk h => ?_⟩
  · refine sticksOut_of hk (f := { kind := c!"rect", x := Seq.left 5, y := 1600000, width := 1400000, height := 400000, fill := some c!"E3F2FD", text := some (Seq.parse code).participants[5].2 }) ?_ (.inl (by simp only [Seq.left]; omega))
    simp only [diagram, Seq.figures, List.mem_append]
    exact .inl (mem_mapIdx_flatten' (i := 5) (by omega) (by simp [Seq.column]))
  · have hm : ({ kind := c!"rect", x := 500000 + 4 * 2200000, y := 1800000, width := 2000000, height := 350000, fill := some c!"7B1FA2", text := some (journeyParse code).all[4].1 } : Fig) ∈
        ((journeyParse code).all.mapIdx journeySection).flatten := mem_mapIdx_flatten' (i := 4) (by omega) (by simp [journeySection])
    refine sticksOut_of hk (f := { kind := c!"rect", x := 500000 + 4 * 2200000, y := 1800000, width := 2000000, height := 350000, fill := some c!"7B1FA2", text := some (journeyParse code).all[4].1 }) ?_ (.inl (by simp only; omega))
    simp only [diagram, journeyFigures]
    rw [if_neg (List.ne_nil_of_mem hm)]
    exact hm
  · refine sticksOut_of hk (f := { kind := c!"rect", x := 500000, y := 2500000, width := (timelineParse code).all.length * 1600000 + 500000, height := 30000, fill := some c!"5D4037" }) ?_ (.inl (by simp only; omega))
    simp only [diagram, timelineFigures, List.mem_append]
    exact .inl (.inr (List.mem_singleton.2 rfl))
  · have h0 : 0 < (Git.parse code).branches.length := List.length_pos_iff.2 hb
    refine sticksOut_of hk (f := { kind := c!"rect", x := 1000000, y := 2000000 + 0 * 600000 - 25000, width := max (Git.parse code).commits.length 1 * 800000 + 200000, height := 50000, fill := gitColors[0 % 5]? }) ?_ (.inl (by simp only; omega))
    simp only [diagram, Git.figures, List.mem_append]
    exact .inl (.inl (mem_mapIdx_flatten' (i := 0) h0 (by simp [gitBranch])))
  · have hne : (pieParse w.value code).isEmpty = false := by
      cases hp : pieParse w.value code with
      | nil => rw [hp] at h; simp at h
      | cons a l => rfl
    refine sticksOut_of hk (f := { kind := c!"rect", x := 5000000, y := 2000000 + 14 * 350000, width := 200000, height := 200000, fill := pieColors[14 % 8]? }) ?_ (.inr (by simp only; omega))
    simp only [diagram, pieFigures, hne, Bool.false_eq_true, if_false, List.mem_cons]
    exact .inr (mem_mapIdx_flatten' (i := 14) (by omega) (by simp))
  · refine sticksOut_of hk (f := stateFig 12 (States.parse code).states[12]) ?_ (.inr (by simp only [stateFig, statePlace, gridCell]; omega))
    simp only [diagram, States.figures, List.mem_append]
    exact .inl (List.mem_mapIdx.2 ⟨12, by omega, rfl⟩)

/-- **C167 does not hold in full.** Of a text of unknown kind, as a requirement diagram, only the first line is shown;
the drawing is the same whatever follows. -/
theorem C167_unknown_violated {V : Type} (w : World V) (first a b : Str) (hn : '\n' ∉ first)
    (hk : detectType w.low (first ++ '\n' :: a) = .unknown) : slideDiagram w (first ++ '\n' :: a) = slideDiagram w (first ++ '\n' :: b) := by
  have hs : ∀ r : Str, (splitChar '\n' (first ++ '\n' :: r)).headD [] = first := by
    intro r
    rw [splitChar_append_sep hn]
    rfl
  have hk' : detectType w.low (first ++ '\n' :: b) = .unknown := by
    rw [← hk]
    simp only [detectType, hs]
  unfold slideDiagram
  rw [hk, hk']
  simp only [diagram, unknownFig, hs]

end PptRs.Props
