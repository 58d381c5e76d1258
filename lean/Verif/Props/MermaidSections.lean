import Verif.Props.MermaidStates

/-!
# Mermaid: Gantt charts, journeys, timelines (C117)
-/

namespace PptRs.Props

open PptRs PptRs.Mermaid

/-! ### Sections -/

theorem sections_push {α : Type} {s : Sections α} (h : s.name ≠ []) (items : List α) :
    (items.foldl Sections.push s).all = s.done ++ [(s.name, s.items ++ items)] ∧ (items.foldl Sections.push s).name = s.name ∧
    (items.foldl Sections.push s).title = s.title := by
  induction items generalizing s with
  | nil => simp [Sections.all, h]
  | cons a items ih =>
    rw [List.foldl_cons]
    have := ih (s := s.push a) h
    simpa [Sections.push] using this

theorem sections_run {α : Type} {l : List (Str × List α)} (hl : ∀ p ∈ l, p.1 ≠ []) {s : Sections α} (h : s.name = [] → s.items = []) :
    (l.foldl (fun s p => p.2.foldl Sections.push (s.open p.1)) s).all = s.all ++ l ∧
    (l.foldl (fun s p => p.2.foldl Sections.push (s.open p.1)) s).title = s.title := by
  induction l generalizing s with
  | nil => simp
  | cons p l ih =>
    have hp := hl p (by simp)
    have ho : (s.open p.1).name = p.1 ∧ (s.open p.1).items = [] ∧ (s.open p.1).done = s.all ∧ (s.open p.1).title = s.title := by
      unfold Sections.open Sections.all
      split
      · rename_i e; exact ⟨rfl, h e, rfl, rfl⟩
      · exact ⟨rfl, rfl, rfl, rfl⟩
    obtain ⟨k1, k2, k3⟩ := sections_push (s := s.open p.1) (by rw [ho.1]; exact hp) p.2
    obtain ⟨i1, i2⟩ := ih (fun x hx => hl x (by simp [hx])) (s := p.2.foldl Sections.push (s.open p.1)) (by
      intro e; rw [k2, ho.1] at e; exact absurd e hp)
    rw [List.foldl_cons, i1, i2, k1, k3, ho.1, ho.2.1, ho.2.2.1, ho.2.2.2]
    simp

/-- A written line that begins with none of the given words. -/
def NoneOf (ws : List Str) (s : Str) : Prop := ∀ w ∈ ws, ¬ w <+: s

theorem NoneOf.strip {ws : List Str} {s : Str} (h : NoneOf ws s) {w : Str} (hw : w ∈ ws) : stripPrefix? w s = none ∧ startsWith w s = false := by
  have : startsWith w s = false := by
    rw [Bool.eq_false_iff, Ne, startsWith_iff]
    rintro ⟨r, hr⟩
    exact h w hw ⟨r, hr.symm⟩
  refine ⟨?_, this⟩
  rw [← Option.not_isSome_iff_eq_none, stripPrefix?_isSome, this]
  decide

/-- A word before a blank is not a prefix of a name unless it is one of its first word: what follows a colon does not matter. -/
theorem NoneOf.append {ws : List Str} {s : Str} (h : NoneOf ws s) (hw : ∀ w ∈ ws, ' ' ∉ w) (r : Str) : NoneOf ws (s ++ ' ' :: r) :=
  fun w hm hp => h w hm (prefix_word (hw w hm) hp)

/-! ### Gantt charts -/

/-- The words with which other lines begin. -/
def ganttWords : List Str := [c!"%%", c!"title", c!"section", c!"dateFormat", c!"axisFormat"]

/-- A Gantt chart: a title, settings, and sections with tasks, each with a name and its details (state, id, dates). -/
structure Gantt where
  title : Option Str
  settings : List Str
  sections : List (Str × List (Str × Str))

/-- The written lines after the first one. -/
def Gantt.lines (g : Gantt) : List Str :=
  (match g.title with | none => [] | some t => [c!"title " ++ t]) ++ g.settings ++
    g.sections.flatMap fun p => (c!"section " ++ p.1) :: p.2.map fun t => t.1 ++ c!" :" ++ t.2

/-- Well-formed charts. -/
structure Gantt.Ok (g : Gantt) : Prop where
  title : ∀ t, g.title = some t → LineText t
  settings : ∀ s ∈ g.settings, LineText s ∧ (c!"%%" <+: s ∨ c!"dateFormat" <+: s ∨ c!"axisFormat" <+: s)
  sections : ∀ p ∈ g.sections, LineText p.1 ∧ ∀ t ∈ p.2, LineText t.1 ∧ ':' ∉ t.1 ∧ NoneOf ganttWords t.1 ∧ LineText t.2

/-- The sections with the names of the tasks. -/
def Gantt.tasks (g : Gantt) : List (Str × List Str) := g.sections.map fun p => (p.1, p.2.map (·.1))

theorem gantt_task {s : Sections Str} {t : Str × Str} (h1 : LineText t.1) (h2 : ':' ∉ t.1) (h3 : NoneOf ganttWords t.1) :
    ganttLine s (t.1 ++ c!" :" ++ t.2) = s.push t.1 := by
  have e : t.1 ++ c!" :" ++ t.2 = t.1 ++ ' ' :: (':' :: t.2) := by simp
  have hn : NoneOf ganttWords (t.1 ++ c!" :" ++ t.2) := by rw [e]; exact h3.append (by decide) _
  unfold ganttLine
  rw [if_neg (by rw [(hn.strip (w := c!"%%") (by decide)).2]; simp), (hn.strip (w := c!"title") (by decide)).1, (hn.strip (w := c!"section") (by decide)).1,
    (hn.strip (w := c!"dateFormat") (by decide)).2, (hn.strip (w := c!"axisFormat") (by decide)).2]
  have hs : splitOnce? c!":" (t.1 ++ c!" :" ++ t.2) = some (t.1 ++ c!" ", t.2) := by
    have := split_hit (c := ':') (p := []) (s := t.1 ++ c!" ") (t := t.2) (by rw [List.mem_append, not_or]; exact ⟨h2, by decide⟩)
    simpa using this
  have hc : containsStr c!":" (t.1 ++ c!" :" ++ t.2) = true := by unfold containsStr; rw [hs]; rfl
  simp only [hc, hs]
  have := trim_pad (p := []) (q := c!" ") (by simp) (by decide) h1.2
  rw [List.nil_append] at this
  simp [this]

theorem gantt_tasks {s : Sections Str} {l : List (Str × Str)} (h : ∀ t ∈ l, LineText t.1 ∧ ':' ∉ t.1 ∧ NoneOf ganttWords t.1 ∧ LineText t.2) :
    (l.map fun t => t.1 ++ c!" :" ++ t.2).foldl ganttLine s = (l.map (·.1)).foldl Sections.push s := by
  induction l generalizing s with
  | nil => rfl
  | cons t l ih =>
    obtain ⟨h1, h2, h3, _⟩ := h t (by simp)
    rw [List.map_cons, List.foldl_cons, gantt_task h1 h2 h3, ih (fun x hx => h x (by simp [hx]))]
    rfl

theorem gantt_section {s : Sections Str} {n : Str} (h : LineText n) : ganttLine s (c!"section " ++ n) = s.open n := by
  unfold ganttLine
  have e1 : stripPrefix? c!"section" (c!"section " ++ n) = some (c!" " ++ n) := by rw [stripPrefix?_eq_some]; simp
  have e2 : stripPrefix? c!"title" (c!"section " ++ n) = none := by simp [stripPrefix?]
  rw [if_neg (by simp [startsWith]), e1, e2]
  simp only [trim_indent (p := c!" ") (by decide) h.2]

theorem gantt_settings {s : Sections Str} {l : List Str} (h : ∀ s ∈ l, LineText s ∧ (c!"%%" <+: s ∨ c!"dateFormat" <+: s ∨ c!"axisFormat" <+: s)) :
    l.foldl ganttLine s = s := by
  induction l generalizing s with
  | nil => rfl
  | cons x l ih =>
    obtain ⟨h1, h2⟩ := h x (by simp)
    have : ganttLine s x = s := by
      unfold ganttLine
      rcases h2 with ⟨r, rfl⟩ | ⟨r, rfl⟩ | ⟨r, rfl⟩
      · rw [if_pos]; simp [startsWith]
      · rw [if_neg (by simp [startsWith])]
        simp [stripPrefix?, startsWith]
      · rw [if_neg (by simp [startsWith])]
        simp [stripPrefix?, startsWith]
    rw [List.foldl_cons, this]
    exact ih (fun y hy => h y (by simp [hy]))

theorem Gantt.lineTexts {g : Gantt} (h : g.Ok) : ∀ x ∈ g.lines, LineText x := by
  intro x hx
  rcases List.mem_append.mp hx with hx | hx
  · rcases List.mem_append.mp hx with hx | hx
    · cases e : g.title with
      | none => rw [e] at hx; cases hx
      | some t =>
        rw [e] at hx
        rw [List.mem_singleton.mp hx]
        have ht := h.title t e
        refine ⟨by rw [List.mem_append, not_or]; exact ⟨by decide, ht.1⟩, ?_⟩
        have := (show Tight c!"title" by simp [Tight, isWs]).append c!" " ht.2
        simpa using this
    · exact (h.settings x hx).1
  · obtain ⟨p, hp, hx⟩ := List.mem_flatMap.mp hx
    obtain ⟨h1, h2⟩ := h.sections p hp
    rcases List.mem_cons.mp hx with rfl | hx
    · refine ⟨by rw [List.mem_append, not_or]; exact ⟨by decide, h1.1⟩, ?_⟩
      have := (show Tight c!"section" by simp [Tight, isWs]).append c!" " h1.2
      simpa using this
    · obtain ⟨t, ht, rfl⟩ := List.mem_map.mp hx
      obtain ⟨k1, _, _, k4⟩ := h2 t ht
      refine ⟨by simp only [List.mem_append, not_or]; exact ⟨⟨k1.1, by decide⟩, k4.1⟩, k1.2.append _ k4.2⟩

/-- A written Gantt chart is read as it is meant. -/
theorem C117_gantt_read {header : Str} {g : Gantt} {ts : List (Str × Str)} (hh : '\n' ∉ header)
    (hi : ∀ p ∈ ts, ∀ c ∈ p.1, isWs c = true ∧ c ≠ '\n') (h : g.Ok) (ht : ts.map (·.2) = g.lines) :
    (ganttParse (diagramText header ts)).all = g.tasks ∧ (ganttParse (diagramText header ts)).title = g.title.getD [] := by
  unfold ganttParse
  rw [body_diagramText hh, ht]
  · unfold Gantt.lines
    rw [List.foldl_append, List.foldl_append, gantt_settings h.settings]
    have e1 : (match g.title with | none => [] | some t => [c!"title " ++ t]).foldl ganttLine ({} : Sections Str) = { title := g.title.getD [] } := by
      cases e : g.title with
      | none => rfl
      | some t =>
        have e1 : stripPrefix? c!"title" (c!"title " ++ t) = some (c!" " ++ t) := by rw [stripPrefix?_eq_some]; simp
        have e2 : trim (c!" " ++ t) = t := trim_indent (by decide) (h.title t e).2
        show ganttLine _ (c!"title " ++ t) = _
        unfold ganttLine
        rw [if_neg (by simp [startsWith]), e1]
        simp only [e2, Option.getD_some]
    rw [e1]
    have e2 : ∀ (l : List (Str × List (Str × Str))) (s : Sections Str),
        (∀ p ∈ l, LineText p.1 ∧ ∀ t ∈ p.2, LineText t.1 ∧ ':' ∉ t.1 ∧ NoneOf ganttWords t.1 ∧ LineText t.2) →
        (l.flatMap fun p => (c!"section " ++ p.1) :: p.2.map fun t => t.1 ++ c!" :" ++ t.2).foldl ganttLine s =
          (l.map fun p => (p.1, p.2.map (·.1))).foldl (fun s p => p.2.foldl Sections.push (s.open p.1)) s := by
      intro l
      induction l with
      | nil => intro s _; rfl
      | cons p l ih =>
        intro s hs
        obtain ⟨k1, k2⟩ := hs p (by simp)
        rw [List.flatMap_cons, List.foldl_append, List.foldl_cons, gantt_section k1, gantt_tasks k2, ih _ (fun x hx => hs x (by simp [hx]))]
        rfl
    rw [e2 _ _ h.sections]
    have := sections_run (l := g.tasks) (s := { title := g.title.getD [] }) (by
      intro p hp
      obtain ⟨q, hq, rfl⟩ := List.mem_map.mp hp
      exact (h.sections q hq).1.2.2.2) (fun _ => rfl)
    exact this
  · intro p hp
    have := Gantt.lineTexts h p.2 (by rw [← ht]; exact List.mem_map_of_mem hp)
    exact ⟨hi p hp, this.1, this.2⟩

/-- The figures that are expected: a line for every section, and a line for every task with its name and a bar. -/
def ganttRows (title : Option Str) (l : List (Str × List Str)) : List (Str × Option Str) :=
  (title.toList.map fun t => (c!"rect", some t)) ++
    l.flatMap fun p => (c!"rect", some p.1) :: p.2.flatMap fun t => [(c!"rect", some t), (c!"roundRect", none)]

/-- One below the other, or in one row side by side. -/
def Below (f g : Fig) : Prop := f.y + f.height ≤ g.y ∨ (f.y = g.y ∧ f.height = g.height ∧ f.x + f.width ≤ g.x)

theorem ganttTasks_facts (n y k : Nat) (l : List Str) :
    let F := (l.mapIdx fun i t => ganttTask n (y + i * 280000) (i + k) t).flatten
    F.map (fun f => (f.kind, f.text)) = (l.flatMap fun t => [(c!"rect", some t), (c!"roundRect", none)]) ∧ F.Pairwise Below ∧
    ∀ f ∈ F, y ≤ f.y ∧ f.y + f.height ≤ y + l.length * 280000 := by
  induction l generalizing y k with
  | nil => simp
  | cons t l ih =>
    intro F
    obtain ⟨i1, i2, i3⟩ := ih (y + 280000) (k + 1)
    have hF : F = ganttTask n y k t ++ (l.mapIdx fun i t => ganttTask n (y + 280000 + i * 280000) (i + (k + 1)) t).flatten := by
      show (List.mapIdx _ _).flatten = _
      rw [List.mapIdx_cons, List.flatten_cons]
      simp only [Nat.zero_mul, Nat.add_zero, Nat.zero_add]
      congr 2
      apply List.ext_getElem?
      intro i
      simp only [List.getElem?_mapIdx]
      congr 2
      funext t
      have e1 : y + (i + 1) * 280000 = y + 280000 + i * 280000 := by omega
      have e2 : i + 1 + k = i + (k + 1) := by omega
      rw [e1, e2]
    rw [hF]
    have hb : ∀ f ∈ ganttTask n y k t, f.y = y ∧ f.height = 250000 := by
      intro f hf
      simp only [ganttTask, List.mem_cons, List.not_mem_nil, or_false] at hf
      rcases hf with rfl | rfl <;> exact ⟨rfl, rfl⟩
    refine ⟨?_, ?_, ?_⟩
    · rw [List.map_append, i1, List.flatMap_cons]
      rfl
    · rw [List.pairwise_append]
      refine ⟨?_, i2, ?_⟩
      · simp only [ganttTask, List.pairwise_cons, List.mem_singleton, forall_eq, List.Pairwise.nil, List.not_mem_nil, false_imp_iff, implies_true, and_true]
        right
        dsimp only
        refine ⟨rfl, rfl, by omega⟩
      · intro f hf g hg
        left
        have := hb f hf
        have := (i3 g hg).1
        omega
    · intro f hf
      rcases List.mem_append.mp hf with hf | hf
      · have := hb f hf
        rw [List.length_cons]
        omega
      · have := i3 f hf
        rw [List.length_cons]
        omega

theorem ganttSections_facts (n y : Nat) (l : List (Str × List Str)) :
    (ganttSections n y l).map (fun f => (f.kind, f.text)) =
      (l.flatMap fun p => (c!"rect", some p.1) :: p.2.flatMap fun t => [(c!"rect", some t), (c!"roundRect", none)]) ∧
    (ganttSections n y l).Pairwise Below ∧ ∀ f ∈ ganttSections n y l, y ≤ f.y := by
  induction l generalizing n y with
  | nil => simp [ganttSections]
  | cons p l ih =>
    obtain ⟨name, tasks⟩ := p
    obtain ⟨i1, i2, i3⟩ := ih (n + 1) (y + 350000 + tasks.length * 280000)
    obtain ⟨k1, k2, k3⟩ := ganttTasks_facts n (y + 350000) 0 tasks
    have e : ganttTasks n (y + 350000) tasks = (tasks.mapIdx fun i t => ganttTask n (y + 350000 + i * 280000) (i + 0) t).flatten := rfl
    simp only [ganttSections]
    rw [e]
    refine ⟨?_, ?_, ?_⟩
    · rw [List.map_cons, List.map_append, k1, i1, List.flatMap_cons]
      rfl
    · rw [List.pairwise_cons, List.pairwise_append]
      refine ⟨?_, k2, i2, ?_⟩
      · intro f hf
        left
        dsimp only
        rcases List.mem_append.mp hf with hf | hf
        · have := k3 f hf; omega
        · have := i3 f hf; omega
      · intro f hf g hg
        left
        have := k3 f hf
        have := i3 g hg
        omega
    · intro f hf
      rcases List.mem_cons.mp hf with rfl | hf
      · exact Nat.le_refl _
      · rcases List.mem_append.mp hf with hf | hf
        · have := k3 f hf; omega
        · have := i3 f hf; omega

/-- **C117**, Gantt charts (partial). The drawing of a chart has, and has nothing besides: the title, for every section its name, and for every task of the section its name and
a bar to the right of it, in the order of the text from top to bottom; nothing overlaps. What is missing: when tasks begin and how long they take, and the
texts below. -/
theorem C117_gantt_partial {header : Str} {g : Gantt} {ts : List (Str × Str)} (hh : '\n' ∉ header)
    (hi : ∀ p ∈ ts, ∀ c ∈ p.1, isWs c = true ∧ c ≠ '\n') (h : g.Ok) (ht : ts.map (·.2) = g.lines) :
    (ganttFigures (ganttParse (diagramText header ts))).map (fun f => (f.kind, f.text)) = ganttRows g.title g.tasks ∧
    (ganttFigures (ganttParse (diagramText header ts))).Pairwise Below := by
  obtain ⟨h1, h2⟩ := C117_gantt_read hh hi h ht
  unfold ganttFigures ganttRows
  rw [h1, h2]
  obtain ⟨k1, k2, k3⟩ := ganttSections_facts 0 2100000 g.tasks
  cases e : g.title with
  | none =>
    simp only [Option.getD_none, if_true, List.nil_append, Option.toList_none, List.map_nil]
    exact ⟨k1, k2⟩
  | some t =>
    have ht := (h.title t e).2.2.2
    simp only [Option.getD_some, if_neg ht]
    refine ⟨?_, ?_⟩
    · rw [List.map_append, k1]; rfl
    · rw [List.singleton_append, List.pairwise_cons]
      refine ⟨?_, k2⟩
      intro f hf
      left
      have := k3 f hf
      dsimp only
      omega

/-- Non-vacuity. -/
example : let g : Gantt := ⟨some c!"Plan", [c!"dateFormat YYYY-MM-DD"], [(c!"Design", [(c!"Draft", c!"a1, 2024-01-01, 30d"), (c!"Review", c!"after a1, 5d")]), (c!"Build", [])]⟩
    g.Ok ∧ g.lines = [c!"title Plan", c!"dateFormat YYYY-MM-DD", c!"section Design", c!"Draft :a1, 2024-01-01, 30d", c!"Review :after a1, 5d", c!"section Build"] ∧
    ganttRows g.title g.tasks = [(c!"rect", some c!"Plan"), (c!"rect", some c!"Design"), (c!"rect", some c!"Draft"), (c!"roundRect", none), (c!"rect", some c!"Review"),
      (c!"roundRect", none), (c!"rect", some c!"Build")] := by
  refine ⟨⟨?_, ?_, ?_⟩, by decide, by decide⟩
  · rintro t ⟨⟩; exact ⟨by decide, by simp [Tight, isWs]⟩
  · intro s hs
    rw [List.mem_singleton.mp hs]
    exact ⟨⟨by decide, by simp [Tight, isWs]⟩, by decide⟩
  · intro p hp
    simp only [List.mem_cons, List.not_mem_nil, or_false] at hp
    rcases hp with rfl | rfl
    · refine ⟨⟨by decide, by simp [Tight, isWs]⟩, ?_⟩
      intro t ht
      simp only [List.mem_cons, List.not_mem_nil, or_false] at ht
      rcases ht with rfl | rfl
      · exact ⟨⟨by decide, by simp [Tight, isWs]⟩, by decide, by unfold NoneOf; decide, ⟨by decide, by simp [Tight, isWs]⟩⟩
      · exact ⟨⟨by decide, by simp [Tight, isWs]⟩, by decide, by unfold NoneOf; decide, ⟨by decide, by simp [Tight, isWs]⟩⟩
    · exact ⟨⟨by decide, by simp [Tight, isWs]⟩, by simp⟩

/-- **C117 does not hold in full**: in a Gantt chart, dates and durations do not matter. Charts with the same names are drawn in the same way, every bar is as long as the
others and begins a little after the one above. -/
theorem C117_gantt_dates_violated {header : Str} {g g' : Gantt} {ts ts' : List (Str × Str)} (hh : '\n' ∉ header)
    (hi : ∀ p ∈ ts, ∀ c ∈ p.1, isWs c = true ∧ c ≠ '\n') (h : g.Ok) (ht : ts.map (·.2) = g.lines)
    (hi' : ∀ p ∈ ts', ∀ c ∈ p.1, isWs c = true ∧ c ≠ '\n') (h' : g'.Ok) (ht' : ts'.map (·.2) = g'.lines)
    (e1 : g.title = g'.title) (e2 : g.tasks = g'.tasks) :
    ganttFigures (ganttParse (diagramText header ts)) = ganttFigures (ganttParse (diagramText header ts')) := by
  obtain ⟨a1, a2⟩ := C117_gantt_read hh hi h ht
  obtain ⟨b1, b2⟩ := C117_gantt_read hh hi' h' ht'
  unfold ganttFigures
  rw [a1, a2, b1, b2, e1, e2]

/-- **C117 does not hold in full**: the tasks of a Gantt chart without sections are not drawn, and tasks before the first section are drawn in that section. -/
theorem C117_gantt_section_violated :
    ganttFigures (ganttParse c!"gantt\nDraft :a1, 30d\nReview :5d") = [] ∧
    (ganttParse c!"gantt\nDraft :a1, 30d\nsection Build\nCode :5d").all = [(c!"Build", [c!"Draft", c!"Code"])] := by decide

/-! ### Journeys -/

/-- A journey: sections with tasks, each with a score from 0 to 5 and the people who take part. -/
abbrev Journey := List (Str × List (Str × Nat × Option Str))

/-- The written line of a task. -/
def journeyTask (t : Str × Nat × Option Str) : Str :=
  t.1 ++ c!": " ++ dec t.2.1 ++ (match t.2.2 with | none => [] | some a => c!": " ++ a)

/-- The written lines. -/
def Journey.lines (g : Journey) : List Str := g.flatMap fun p => (c!"section " ++ p.1) :: p.2.map journeyTask

/-- Well-formed journeys. -/
def Journey.Ok (g : Journey) : Prop :=
  ∀ p ∈ g, LineText p.1 ∧ ∀ t ∈ p.2, LineText t.1 ∧ ':' ∉ t.1 ∧ NoneOf [c!"title", c!"section"] t.1 ∧ t.2.1 < 256 ∧ ∀ a, t.2.2 = some a → LineText a

/-- The sections with names and scores. -/
def Journey.tasks (g : Journey) : List (Str × List (Str × Nat)) := g.map fun p => (p.1, p.2.map fun t => (t.1, t.2.1))

theorem dec_notMem {n : Nat} {c : Char} (hc : c.isDigit = false) : c ∉ dec n := by
  intro h
  rw [isDigit_of_mem_dec h] at hc
  cases hc

theorem dec_tight (n : Nat) : Tight (dec n) := by
  have hd : ∀ c ∈ dec n, isWs c = false := fun c hc => isWs_word (.inl (by
    simp [Char.isAlphanum, isDigit_of_mem_dec hc]))
  exact ⟨fun c hc => hd c (List.mem_of_mem_head? hc), fun c hc => hd c (List.mem_of_mem_getLast? hc), dec_ne_nil n⟩

theorem NoneOf.append_colon {ws : List Str} {s : Str} (h : NoneOf ws s) (hw : ∀ w ∈ ws, ':' ∉ w) (r : Str) : NoneOf ws (s ++ ':' :: r) :=
  fun w hm hp => h w hm (prefix_word (hw w hm) hp)

theorem journey_task {s : Sections (Str × Nat)} {t : Str × Nat × Option Str} (h1 : LineText t.1) (h2 : ':' ∉ t.1) (h3 : NoneOf [c!"title", c!"section"] t.1)
    (h4 : t.2.1 < 256) : journeyLine s (journeyTask t) = s.push (t.1, t.2.1) := by
  have hn : NoneOf [c!"title", c!"section"] (journeyTask t) := by
    have := h3.append_colon (by decide) (c!" " ++ dec t.2.1 ++ (match t.2.2 with | none => [] | some a => c!": " ++ a))
    unfold journeyTask
    simpa using this
  have hd : ':' ∉ dec t.2.1 := dec_notMem rfl
  have hv : trim (c!" " ++ dec t.2.1) = dec t.2.1 := trim_indent (by decide) (dec_tight _)
  have hsc : journeyScore (dec t.2.1) = t.2.1 := by
    unfold journeyScore
    rw [parseU32_dec (by omega)]
    exact if_pos h4
  obtain ⟨r, hr⟩ : ∃ r, splitChar ':' (journeyTask t) = t.1 :: (c!" " ++ dec t.2.1) :: r := by
    unfold journeyTask
    cases e : t.2.2 with
    | none =>
      have e2 : t.1 ++ c!": " ++ dec t.2.1 ++ [] = t.1 ++ ':' :: (c!" " ++ dec t.2.1) := by simp
      simp only [e2]
      rw [splitChar_append_sep h2, splitChar_of_notMem (by rw [List.mem_append, not_or]; exact ⟨by decide, hd⟩)]
      exact ⟨[], rfl⟩
    | some a =>
      have e2 : t.1 ++ c!": " ++ dec t.2.1 ++ (c!": " ++ a) = t.1 ++ ':' :: ((c!" " ++ dec t.2.1) ++ ':' :: (c!" " ++ a)) := by simp
      simp only [e2]
      rw [splitChar_append_sep h2, splitChar_append_sep (by rw [List.mem_append, not_or]; exact ⟨by decide, hd⟩)]
      exact ⟨_, rfl⟩
  unfold journeyLine
  rw [if_neg (by
    rw [(hn.strip (w := c!"title") (by decide)).2]
    simp only [Bool.false_eq_true, or_false]
    unfold journeyTask
    simp), (hn.strip (w := c!"section") (by decide)).1, hr]
  simp only [hv, hsc, trim_tight h1.2]

/-- A written journey is read as it is meant. -/
theorem C117_journey_read {header : Str} {g : Journey} {ts : List (Str × Str)} (hh : '\n' ∉ header)
    (hi : ∀ p ∈ ts, ∀ c ∈ p.1, isWs c = true ∧ c ≠ '\n') (h : g.Ok) (ht : ts.map (·.2) = g.lines) :
    (journeyParse (diagramText header ts)).all = g.tasks := by
  unfold journeyParse
  rw [body_diagramText hh, ht]
  · have e1 : ∀ (l : List (Str × Nat × Option Str)) (s : Sections (Str × Nat)),
        (∀ t ∈ l, LineText t.1 ∧ ':' ∉ t.1 ∧ NoneOf [c!"title", c!"section"] t.1 ∧ t.2.1 < 256 ∧ ∀ a, t.2.2 = some a → LineText a) →
        (l.map journeyTask).foldl journeyLine s = (l.map fun t => (t.1, t.2.1)).foldl Sections.push s := by
      intro l
      induction l with
      | nil => intro s _; rfl
      | cons t l ih =>
        intro s hs
        obtain ⟨k1, k2, k3, k4, _⟩ := hs t (by simp)
        rw [List.map_cons, List.foldl_cons, journey_task k1 k2 k3 k4, ih _ (fun x hx => hs x (by simp [hx]))]
        rfl
    have e3 : ∀ (s : Sections (Str × Nat)) (n : Str), LineText n → journeyLine s (c!"section " ++ n) = s.open n := by
      intro s n hn
      unfold journeyLine
      have e1 : stripPrefix? c!"section" (c!"section " ++ n) = some (c!" " ++ n) := by rw [stripPrefix?_eq_some]; simp
      rw [if_neg (by simp [startsWith]), e1]
      simp only [trim_indent (p := c!" ") (by decide) hn.2]
    have e2 : ∀ (l : Journey) (s : Sections (Str × Nat)), l.Ok →
        l.lines.foldl journeyLine s = l.tasks.foldl (fun s p => p.2.foldl Sections.push (s.open p.1)) s := by
      intro l
      induction l with
      | nil => intro s _; rfl
      | cons p l ih =>
        intro s hs
        obtain ⟨k1, k2⟩ := hs p (by simp)
        have : Journey.lines (p :: l) = ((c!"section " ++ p.1) :: p.2.map journeyTask) ++ Journey.lines l := by simp [Journey.lines]
        rw [this, List.foldl_append, List.foldl_cons, e3 _ _ k1, e1 _ _ k2, ih _ (fun x hx => hs x (by simp [hx]))]
        rfl
    rw [e2 _ _ h]
    have := sections_run (l := g.tasks) (s := {}) (by
      intro p hp
      obtain ⟨q, hq, rfl⟩ := List.mem_map.mp hp
      exact (h q hq).1.2.2.2) (fun _ => rfl)
    simpa [Sections.all] using this.1
  · intro p hp
    have : p.2 ∈ g.lines := by rw [← ht]; exact List.mem_map_of_mem hp
    obtain ⟨q, hq, hx⟩ := List.mem_flatMap.mp this
    obtain ⟨h1, h2⟩ := h q hq
    refine ⟨hi p hp, ?_⟩
    rcases List.mem_cons.mp hx with e | hx
    · rw [e]
      refine ⟨by rw [List.mem_append, not_or]; exact ⟨by decide, h1.1⟩, ?_⟩
      have := (show Tight c!"section" by simp [Tight, isWs]).append c!" " h1.2
      simpa using this
    · obtain ⟨t, ht, e⟩ := List.mem_map.mp hx
      obtain ⟨k1, k2, k3, k4, k5⟩ := h2 t ht
      have hd : '\n' ∉ dec t.2.1 := dec_notMem rfl
      rw [← e]
      unfold journeyTask
      cases ea : t.2.2 with
      | none =>
        simp only [List.append_nil]
        exact ⟨by simp only [List.mem_append, not_or]; exact ⟨⟨k1.1, by decide⟩, hd⟩, k1.2.append _ (dec_tight _)⟩
      | some a =>
        have := k5 a ea
        have e2 : t.1 ++ c!": " ++ dec t.2.1 ++ (c!": " ++ a) = t.1 ++ (c!": " ++ dec t.2.1 ++ c!": ") ++ a := by simp
        simp only [e2]
        exact ⟨by simp only [List.mem_append, not_or]; exact ⟨⟨k1.1, ⟨by decide, hd⟩, by decide⟩, this.1⟩, k1.2.append _ this.2⟩

/-- The box of a task. -/
def journeyBox (n i : Nat) (t : Str × Nat) : Fig where
  kind := c!"roundRect"
  x := 550000 + n * 2200000
  y := 2200000 + i * 400000
  width := 1900000
  height := 350000
  fill := some (scoreColor t.2)
  text := some (t.1 ++ c!" (" ++ dec t.2 ++ c!")")

/-- **C117**, journeys (partial). The drawing of a journey with a section has, and has nothing besides, for every section a box with its name and below it in the same column the tasks
in their order, each with its score, and nothing overlaps. The colour of a task depends on the score only, scores from 1 to 5 having five different
colours. What is missing: the title and the people. -/
theorem C117_journey_partial {header : Str} {g : Journey} {ts : List (Str × Str)} (hh : '\n' ∉ header)
    (hi : ∀ p ∈ ts, ∀ c ∈ p.1, isWs c = true ∧ c ≠ '\n') (h : g.Ok) (ht : ts.map (·.2) = g.lines) (hg : g ≠ []) :
    let F := journeyFigures (journeyParse (diagramText header ts))
    F.map (·.text) = (g.tasks.flatMap fun p => some p.1 :: p.2.map fun t => some (t.1 ++ c!" (" ++ dec t.2 ++ c!")")) ∧ F.Pairwise FigsApart ∧
    (∃ color : Nat → Str, ((List.range 6).map color).Nodup ∧
      F.filterMap (fun f => if f.kind = c!"roundRect" then f.fill else none) = g.tasks.flatMap fun p => p.2.map fun t => color t.2) := by
  intro F
  have hr := C117_journey_read hh hi h ht
  have hF : F = (g.tasks.mapIdx journeySection).flatten := by
    show journeyFigures _ = _
    unfold journeyFigures
    rw [hr]
    refine if_neg ?_
    cases g with
    | nil => exact absurd rfl hg
    | cons p g => simp [Journey.tasks, journeySection]
  rw [hF]
  have key : ∀ (l : List (Str × List (Str × Nat))) (k : Nat),
      (l.mapIdx fun i p => journeySection (i + k) p).flatten.map (·.text) = (l.flatMap fun p => some p.1 :: p.2.map fun t => some (t.1 ++ c!" (" ++ dec t.2 ++ c!")")) ∧
      (l.mapIdx fun i p => journeySection (i + k) p).flatten.Pairwise FigsApart ∧
      (l.mapIdx fun i p => journeySection (i + k) p).flatten.filterMap (fun f => if f.kind = c!"roundRect" then f.fill else none) = (l.flatMap fun p => p.2.map fun t => scoreColor t.2) ∧
      ∀ f ∈ (l.mapIdx fun i p => journeySection (i + k) p).flatten, 500000 + k * 2200000 ≤ f.x := by
    intro l
    induction l with
    | nil => intro k; simp
    | cons p l ih =>
      intro k
      obtain ⟨i1, i2, i3, i4⟩ := ih (k + 1)
      have e : (fun i p => journeySection (i + 1 + k) p) = fun i p => journeySection (i + (k + 1)) p := by
        funext i p; rw [Nat.add_right_comm, Nat.add_assoc]
      rw [List.mapIdx_cons, List.flatten_cons, e]
      have hx : ∀ f ∈ journeySection (0 + k) p, 500000 + k * 2200000 ≤ f.x ∧ f.x + f.width ≤ 500000 + k * 2200000 + 2000000 := by
        intro f hf
        rw [Nat.zero_add] at hf
        rcases List.mem_cons.mp hf with rfl | hf
        · dsimp only; omega
        · rw [List.mem_mapIdx] at hf
          obtain ⟨i, _, rfl⟩ := hf
          dsimp only; omega
      have ht : ∀ (q : List (Str × Nat)) (d : Nat),
          (q.mapIdx fun i t => journeyBox (0 + k) (i + d) t).map (·.text) = (q.map fun t => some (t.1 ++ c!" (" ++ dec t.2 ++ c!")")) ∧
          (q.mapIdx fun i t => journeyBox (0 + k) (i + d) t).Pairwise FigsApart ∧
          (q.mapIdx fun i t => journeyBox (0 + k) (i + d) t).filterMap (fun f => if f.kind = c!"roundRect" then f.fill else none) = q.map (fun t => scoreColor t.2) ∧
          ∀ f ∈ q.mapIdx fun i t => journeyBox (0 + k) (i + d) t, 2200000 + d * 400000 ≤ f.y := by
        intro q
        induction q with
        | nil => intro d; simp
        | cons t q ihq =>
          intro d
          obtain ⟨q1, q2, q3, q4⟩ := ihq (d + 1)
          have e : (fun i t => journeyBox (0 + k) (i + 1 + d) t) = fun i t => journeyBox (0 + k) (i + (d + 1)) t := by
            funext i t; rw [Nat.add_right_comm, Nat.add_assoc]
          rw [List.mapIdx_cons, e]
          refine ⟨?_, ?_, ?_, ?_⟩
          · rw [List.map_cons, q1]; rfl
          · rw [List.pairwise_cons]
            refine ⟨?_, q2⟩
            intro f hf
            have := q4 f hf
            unfold FigsApart journeyBox
            dsimp only
            omega
          · rw [List.filterMap_cons_some (b := scoreColor t.2) (by simp [journeyBox]), q3]; rfl
          · intro f hf
            rcases List.mem_cons.mp hf with rfl | hf
            · unfold journeyBox; dsimp only; omega
            · exact Nat.le_trans (Nat.add_le_add_left (Nat.mul_le_mul_right _ (Nat.le_succ d)) _) (q4 f hf)
      obtain ⟨t1, t2, t3, t4⟩ := ht p.2 0
      refine ⟨?_, ?_, ?_, ?_⟩
      · rw [List.map_append, i1, List.flatMap_cons]
        congr 1
        show _ :: _ = _
        rw [← t1]; rfl
      · rw [List.pairwise_append]
        refine ⟨?_, i2, ?_⟩
        · show List.Pairwise FigsApart (_ :: _)
          rw [List.pairwise_cons]
          refine ⟨?_, t2⟩
          intro f hf
          have := t4 f hf
          unfold FigsApart
          dsimp only
          omega
        · intro f hf g hg
          have h1 := hx f hf
          have h2 := i4 g hg
          unfold FigsApart
          omega
      · rw [List.filterMap_append, i3, List.flatMap_cons]
        congr 1
      · intro f hf
        rcases List.mem_append.mp hf with hf | hf
        · exact (hx f hf).1
        · exact Nat.le_trans (Nat.add_le_add_left (Nat.mul_le_mul_right _ (Nat.le_succ k)) _) (i4 f hf)
  obtain ⟨k1, k2, k3, _⟩ := key g.tasks 0
  exact ⟨k1, k2, scoreColor, by decide, k3⟩

/-- Non-vacuity. -/
example : let g : Journey := [(c!"Go to work", [(c!"Make tea", 5, some c!"Me"), (c!"Go upstairs", 3, none)])]
    g.Ok ∧ g.lines = [c!"section Go to work", c!"Make tea: 5: Me", c!"Go upstairs: 3"] := by
  refine ⟨?_, by decide⟩
  intro p hp
  rw [List.mem_singleton.mp hp]
  refine ⟨⟨by decide, by simp [Tight, isWs]⟩, ?_⟩
  intro t ht
  simp only [List.mem_cons, List.not_mem_nil, or_false] at ht
  rcases ht with rfl | rfl
  · exact ⟨⟨by decide, by simp [Tight, isWs]⟩, by decide, by unfold NoneOf; decide, by decide, by rintro a ⟨⟩; exact ⟨by decide, by simp [Tight, isWs]⟩⟩
  · exact ⟨⟨by decide, by simp [Tight, isWs]⟩, by decide, by unfold NoneOf; decide, by decide, by simp⟩

/-- **C117 does not hold in full**: the title of a journey and the people of its tasks are not shown, and a journey without sections shows none of its tasks. -/
theorem C117_journey_violated :
    journeyFigures (journeyParse c!"journey\ntitle My day\nsection Work\nTea: 5: Me, Cat") = journeyFigures (journeyParse c!"journey\nsection Work\nTea: 5") ∧
    (journeyFigures (journeyParse c!"journey\nTea: 5: Me\nCoffee: 3: Me")).map (·.text) = [some c!"User Journey Diagram"] := by decide

/-! ### Timelines -/

/-- A timeline: a title and events, each with a date, the text after the colon and further lines. -/
structure Timeline where
  title : Option Str
  events : List (Str × Str × List Str)

/-- The written lines. -/
def Timeline.lines (g : Timeline) : List Str :=
  (match g.title with | none => [] | some t => [c!"title " ++ t]) ++ g.events.flatMap fun p => (p.1 ++ c!" : " ++ p.2.1) :: p.2.2

/-- Well-formed timelines. -/
structure Timeline.Ok (g : Timeline) : Prop where
  title : ∀ t, g.title = some t → LineText t
  events : ∀ p ∈ g.events, (LineText p.1 ∧ ':' ∉ p.1 ∧ NoneOf [c!"%%", c!"title"] p.1) ∧ LineText p.2.1 ∧
    ∀ x ∈ p.2.2, LineText x ∧ ':' ∉ x ∧ NoneOf [c!"%%", c!"title"] x

/-- The dates with the texts. -/
def Timeline.dated (g : Timeline) : List (Str × List Str) := g.events.map fun p => (p.1, p.2.1 :: p.2.2)

theorem timeline_event {s : Sections Str} {p : Str × Str × List Str} (h1 : LineText p.1) (h2 : ':' ∉ p.1) (h3 : NoneOf [c!"%%", c!"title"] p.1) (h4 : LineText p.2.1) :
    timelineLine s (p.1 ++ c!" : " ++ p.2.1) = (s.open p.1).push p.2.1 := by
  have e : p.1 ++ c!" : " ++ p.2.1 = p.1 ++ ' ' :: (c!": " ++ p.2.1) := by simp
  have hn : NoneOf [c!"%%", c!"title"] (p.1 ++ c!" : " ++ p.2.1) := by rw [e]; exact h3.append (by decide) _
  have hs : splitOnce? c!":" (p.1 ++ c!" : " ++ p.2.1) = some (p.1 ++ c!" ", c!" " ++ p.2.1) := by
    have := split_hit (c := ':') (p := []) (s := p.1 ++ c!" ") (t := c!" " ++ p.2.1) (by rw [List.mem_append, not_or]; exact ⟨h2, by decide⟩)
    simpa using this
  have t1 : trim (p.1 ++ c!" ") = p.1 := by
    have := trim_pad (p := []) (q := c!" ") (by simp) (by decide) h1.2
    simpa using this
  have t2 : trim (c!" " ++ p.2.1) = p.2.1 := trim_indent (by decide) h4.2
  unfold timelineLine
  rw [if_neg (by rw [(hn.strip (w := c!"%%") (by decide)).2]; simp), (hn.strip (w := c!"title") (by decide)).1, hs]
  simp only [t1, t2, if_neg h4.2.2.2]

theorem timeline_more {s : Sections Str} (hs : s.name ≠ []) {l : List Str} (h : ∀ x ∈ l, LineText x ∧ ':' ∉ x ∧ NoneOf [c!"%%", c!"title"] x) :
    l.foldl timelineLine s = l.foldl Sections.push s := by
  induction l generalizing s with
  | nil => rfl
  | cons x l ih =>
    obtain ⟨h1, h2, h3⟩ := h x (by simp)
    have : timelineLine s x = s.push x := by
      unfold timelineLine
      rw [if_neg (by rw [(h3.strip (w := c!"%%") (by decide)).2]; simpa using h1.2.2.2), (h3.strip (w := c!"title") (by decide)).1, split_none (c := ':') rfl h2]
      simp only [if_neg hs]
    rw [List.foldl_cons, List.foldl_cons, this]
    exact ih (s := s.push x) hs (fun y hy => h y (by simp [hy]))

/-- A written timeline is read as it is meant. -/
theorem C117_timeline_read {header : Str} {g : Timeline} {ts : List (Str × Str)} (hh : '\n' ∉ header)
    (hi : ∀ p ∈ ts, ∀ c ∈ p.1, isWs c = true ∧ c ≠ '\n') (h : g.Ok) (ht : ts.map (·.2) = g.lines) :
    (timelineParse (diagramText header ts)).all = g.dated ∧ (timelineParse (diagramText header ts)).title = g.title.getD [] := by
  unfold timelineParse
  rw [body_diagramText hh, ht]
  · unfold Timeline.lines
    rw [List.foldl_append]
    have e1 : (match g.title with | none => [] | some t => [c!"title " ++ t]).foldl timelineLine ({} : Sections Str) = { title := g.title.getD [] } := by
      cases e : g.title with
      | none => rfl
      | some t =>
        have e1 : stripPrefix? c!"title" (c!"title " ++ t) = some (c!" " ++ t) := by rw [stripPrefix?_eq_some]; simp
        have e2 : trim (c!" " ++ t) = t := trim_indent (by decide) (h.title t e).2
        show timelineLine _ (c!"title " ++ t) = _
        unfold timelineLine
        rw [if_neg (by simp [startsWith]), e1]
        simp only [e2, Option.getD_some]
    rw [e1]
    have e2 : ∀ (l : List (Str × Str × List Str)) (s : Sections Str),
        (∀ p ∈ l, (LineText p.1 ∧ ':' ∉ p.1 ∧ NoneOf [c!"%%", c!"title"] p.1) ∧ LineText p.2.1 ∧ ∀ x ∈ p.2.2, LineText x ∧ ':' ∉ x ∧ NoneOf [c!"%%", c!"title"] x) →
        (l.flatMap fun p => (p.1 ++ c!" : " ++ p.2.1) :: p.2.2).foldl timelineLine s =
          (l.map fun p => (p.1, p.2.1 :: p.2.2)).foldl (fun s p => p.2.foldl Sections.push (s.open p.1)) s := by
      intro l
      induction l with
      | nil => intro s _; rfl
      | cons p l ih =>
        intro s hs
        obtain ⟨⟨k1, k2, k3⟩, k4, k5⟩ := hs p (by simp)
        have hn : ((s.open p.1).push p.2.1).name ≠ [] := by
          unfold Sections.push Sections.open
          split <;> exact k1.2.2.2
        rw [List.flatMap_cons, List.foldl_append, List.foldl_cons, timeline_event k1 k2 k3 k4, timeline_more hn k5, ih _ (fun x hx => hs x (by simp [hx]))]
        rfl
    rw [e2 _ _ h.events]
    have := sections_run (l := g.dated) (s := { title := g.title.getD [] }) (by
      intro p hp
      obtain ⟨q, hq, rfl⟩ := List.mem_map.mp hp
      exact (h.events q hq).1.1.2.2.2) (fun _ => rfl)
    exact this
  · intro p hp
    have : p.2 ∈ g.lines := by rw [← ht]; exact List.mem_map_of_mem hp
    refine ⟨hi p hp, ?_⟩
    rcases List.mem_append.mp this with hx | hx
    · cases e : g.title with
      | none => rw [e] at hx; cases hx
      | some t =>
        rw [e] at hx
        rw [List.mem_singleton.mp hx]
        have ht := h.title t e
        refine ⟨by rw [List.mem_append, not_or]; exact ⟨by decide, ht.1⟩, ?_⟩
        have := (show Tight c!"title" by simp [Tight, isWs]).append c!" " ht.2
        simpa using this
    · obtain ⟨q, hq, hx⟩ := List.mem_flatMap.mp hx
      obtain ⟨⟨k1, k2, k3⟩, k4, k5⟩ := h.events q hq
      rcases List.mem_cons.mp hx with e | hx
      · rw [e]
        exact ⟨by simp only [List.mem_append, not_or]; exact ⟨⟨k1.1, by decide⟩, k4.1⟩, k1.2.append _ k4.2⟩
      · exact (k5 _ hx).1

/-- **C117**, timelines (partial). The drawing of a timeline has, and has nothing besides: the title, a line, and for every date in their order from left to right a mark on the line, centred above
the box with its texts and below the date, no two dates overlapping, the line reaching to the last one. What is missing: the texts below. -/
theorem C117_timeline_partial {header : Str} {g : Timeline} {ts : List (Str × Str)} (hh : '\n' ∉ header)
    (hi : ∀ p ∈ ts, ∀ c ∈ p.1, isWs c = true ∧ c ≠ '\n') (h : g.Ok) (ht : ts.map (·.2) = g.lines) :
    let F := timelineFigures (timelineParse (diagramText header ts))
    let k := g.title.toList.length
    F.length = k + 1 + 3 * g.dated.length ∧ (∀ t, g.title = some t → (F[0]?).bind (·.text) = some t) ∧
    ∃ line, F[k]? = some line ∧ line.text = none ∧
    ∀ (i : Nat) (p : Str × List Str), g.dated[i]? = some p → ∃ mark date box, F[k + 1 + 3 * i]? = some mark ∧ F[k + 1 + 3 * i + 1]? = some date ∧ F[k + 1 + 3 * i + 2]? = some box ∧
      mark.kind = c!"ellipse" ∧ mark.text = none ∧ date.text = some p.1 ∧ box.text = some (joinStr c!"\n" p.2) ∧
      Fig.middle mark = Fig.middle date ∧ Fig.middle mark = Fig.middle box ∧ date.y + date.height ≤ mark.y ∧ mark.y + mark.height ≤ box.y ∧
      mark.y ≤ line.y ∧ line.y + line.height ≤ mark.y + mark.height ∧ line.x ≤ date.x ∧ date.x + date.width ≤ line.x + line.width ∧
      ∀ (j : Nat) (q : Str × List Str), g.dated[j]? = some q → i < j → ∃ date' box', F[k + 1 + 3 * j + 1]? = some date' ∧ F[k + 1 + 3 * j + 2]? = some box' ∧
        date.x + date.width < date'.x ∧ box.x + box.width < box'.x := by
  obtain ⟨h1, h2⟩ := C117_timeline_read hh hi h ht
  intro F k
  let L : Fig := { kind := c!"rect", x := 500000, y := 2500000, width := g.dated.length * 1600000 + 500000, height := 30000, fill := some c!"5D4037" }
  obtain ⟨P, hP, hF, hP2⟩ : ∃ P : List Fig, P.length = k ∧ F = P ++ [L] ++ (g.dated.mapIdx timelineEvent).flatten ∧ ∀ t, g.title = some t → (P[0]?).bind (·.text) = some t := by
    refine ⟨_, ?_, by show timelineFigures _ = _; unfold timelineFigures; rw [h1, h2], ?_⟩
    · show _ = g.title.toList.length
      cases e : g.title with
      | none => rfl
      | some t => simp only [Option.getD_some, if_neg (h.title t e).2.2.2]; rfl
    · intro t e
      rw [e]
      simp only [Option.getD_some, if_neg (h.title t e).2.2.2]
      rfl
  have hlen : (P ++ [L]).length = k + 1 := by simp [hP]
  have get : ∀ (i : Nat) (p : Str × List Str) (r : Nat), g.dated[i]? = some p → r < 3 → F[k + 1 + 3 * i + r]? = (timelineEvent i p)[r]? := by
    intro i p r hp hr
    rw [hF, List.getElem?_append_right (by rw [hlen]; omega), hlen]
    have : k + 1 + 3 * i + r - (k + 1) = 3 * i + r := by omega
    rw [this, flatten_block (n := 3) timelineEvent (fun _ _ => rfl) _ _ _ hr, hp]
    rfl
  refine ⟨?_, ?_, L, ?_, rfl, ?_⟩
  · rw [hF, List.length_append, hlen, flatten_length (n := 3) timelineEvent (fun _ _ => rfl)]
  · intro t e
    have := hP2 t e
    have hk : 0 < P.length := by rw [hP]; show 0 < g.title.toList.length; rw [e]; simp
    rw [hF, List.append_assoc, List.getElem?_append_left hk]
    exact this
  · rw [hF, List.append_assoc, List.getElem?_append_right (by omega), hP]
    simp
  · intro i p hp
    have hl : i < g.dated.length := (List.getElem?_eq_some_iff.mp hp).1
    refine ⟨_, _, _, get i p 0 hp (by decide), get i p 1 hp (by decide), get i p 2 hp (by decide), rfl, rfl, rfl, rfl, ?_⟩
    simp only [Fig.middle, L]
    refine ⟨by omega, by omega, by omega, by omega, by omega, by omega, by omega, by omega, ?_⟩
    intro j q hq hij
    refine ⟨_, _, get j q 1 hq (by decide), get j q 2 hq (by decide), ?_⟩
    dsimp only
    omega

/-- Non-vacuity. -/
example : let g : Timeline := ⟨some c!"History", [(c!"2002", c!"LinkedIn", []), (c!"2004", c!"Facebook : Google", [c!"and others"])]⟩
    g.Ok ∧ g.lines = [c!"title History", c!"2002 : LinkedIn", c!"2004 : Facebook : Google", c!"and others"] := by
  refine ⟨⟨?_, ?_⟩, by decide⟩
  · rintro t ⟨⟩; exact ⟨by decide, by simp [Tight, isWs]⟩
  · intro p hp
    simp only [List.mem_cons, List.not_mem_nil, or_false] at hp
    rcases hp with rfl | rfl
    · exact ⟨⟨⟨by decide, by simp [Tight, isWs]⟩, by decide, by unfold NoneOf; decide⟩, ⟨by decide, by simp [Tight, isWs]⟩, by simp⟩
    · refine ⟨⟨⟨by decide, by simp [Tight, isWs]⟩, by decide, by unfold NoneOf; decide⟩, ⟨by decide, by simp [Tight, isWs]⟩, ?_⟩
      intro x hx
      rw [List.mem_singleton.mp hx]
      exact ⟨⟨by decide, by simp [Tight, isWs]⟩, by decide, by unfold NoneOf; decide⟩

/-- **C117 does not hold in full**: in a timeline, a further text for a date, written on a line of its own as `: Google`, is shown at the next date, and is lost at the end. The names of sections
are shown as texts of the date before, and several texts on one line, as `Facebook : Google`, are one text. -/
theorem C117_timeline_violated :
    (timelineParse c!"timeline\n2004 : Facebook\n: Google\n2005 : YouTube\n: Reddit").all = [(c!"2004", [c!"Facebook"]), (c!"2005", [c!"Google", c!"YouTube"])] ∧
    (timelineParse c!"timeline\n2004 : Facebook\nsection Later\n2005 : YouTube").all = [(c!"2004", [c!"Facebook", c!"section Later"]), (c!"2005", [c!"YouTube"])] ∧
    (timelineParse c!"timeline\n2004 : Facebook : Google").all = [(c!"2004", [c!"Facebook : Google"])] := by decide

end PptRs.Props
