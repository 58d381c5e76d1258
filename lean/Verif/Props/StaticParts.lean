import Verif.Model.StaticParts

/-!
# Presentations made in one process (C155)
-/

namespace PptRs.Spec

open PptRs.Themes

/-- The master, layouts and theme of a presentation, from its own settings alone. -/
def ownParts (print : Option PrintIn) (theme : Option Theme) : List (Str × Str) :=
  ([1, 2, 3, 4, 5, 6, 7].flatMap fun n =>
    [(c!"ppt/slideLayouts/slideLayout" ++ dec n ++ c!".xml", createSlideLayoutXml n),
     (c!"ppt/slideLayouts/_rels/slideLayout" ++ dec n ++ c!".xml.rels", renderRels layoutRels)]) ++
  [(c!"ppt/slideMasters/slideMaster1.xml", createSlideMasterXml txStyles print),
   (c!"ppt/slideMasters/_rels/slideMaster1.xml.rels", renderRels (masterRels 7)),
   (c!"ppt/theme/theme1.xml", createThemeXml theme)]

end PptRs.Spec

namespace PptRs.Props

open PptRs.Spec PptRs.Cache PptRs.Themes

/-- The text of an item for a presentation. -/
def textOf (print : Option PrintIn) (theme : Option Theme) (it : Item) : Str × Str := (it.path, it.made print theme)

theorem ownParts_eq (print : Option PrintIn) (theme : Option Theme) :
    ownParts print theme = items.map (textOf print theme) := rfl

theorem unaffected_master {print : Option PrintIn} (h : printAffects print = false) :
    createSlideMasterXml txStyles print = createSlideMasterXml txStyles none := by
  have e : slideMasterFooterShapes print = [] := by
    cases print with
    | none => rfl
    | some p =>
      obtain ⟨a, b, c, d⟩ := p
      cases a <;> cases b <;> cases c <;> cases d <;> first | rfl | exact absurd h (by simp [printAffects])
  rw [createSlideMasterXml, createSlideMasterXml, masterBody, masterBody, e]
  rfl

theorem mem_items {it : Item} (h : it ∈ items) : (∃ n, 1 ≤ n ∧ n ≤ 7 ∧ it = .layout n) ∨
    (∃ n, it = .layoutRels n) ∨ it = .master ∨ it = .masterRels ∨ it = .theme := by
  cases it with
  | layout n =>
    left
    simp [items, upTo, standardLayoutCount, List.range, List.range.loop] at h
    exact ⟨n, by omega, by omega, rfl⟩
  | layoutRels n => right; left; exact ⟨n, rfl⟩
  | master => simp
  | masterRels => simp
  | theme => simp

/-- The value of a variable has the text the presentation would have made for itself. -/
theorem taken_made {print : Option PrintIn} {theme : Option Theme} {it : Item} (hm : it ∈ items) {s : Which}
    (hs : source print it = some s) : it.taken (initial s) = some (it.made print theme) := by
  have hp : printAffects print = false := by
    cases h : printAffects print with
    | false => rfl
    | true => simp [source, h] at hs
  simp only [source, hp, Bool.false_eq_true, if_false] at hs
  rcases mem_items hm with ⟨n, h1, h7, rfl⟩ | ⟨n, rfl⟩ | rfl | rfl | rfl
  · obtain rfl : Which.layouts = s := by simpa [Item.cached] using hs
    have : n = 1 ∨ n = 2 ∨ n = 3 ∨ n = 4 ∨ n = 5 ∨ n = 6 ∨ n = 7 := by omega
    rcases this with rfl | rfl | rfl | rfl | rfl | rfl | rfl <;> rfl
  · cases hs
  · obtain rfl : Which.master = s := by simpa [Item.cached] using hs
    show some (createSlideMasterXml txStyles none) = some (createSlideMasterXml txStyles print)
    rw [unaffected_master hp]
  · obtain rfl : Which.masterRels = s := by simpa [Item.cached] using hs
    rfl
  · cases hs

/-- What holds at all times. -/
structure Sound (w : Process) : Prop where
  full : ∀ s value, w.statics s = .full value → value = initial s
  running : ∀ s i, w.statics s = .running i →
    ∃ t it rest, w.writers[i]? = some t ∧ t.rest = it :: rest ∧ source t.print it = some s
  own : ∀ t ∈ w.writers, t.out ++ t.rest.map (textOf t.print t.theme) = ownParts t.print t.theme
  todo : ∀ t ∈ w.writers, t.rest <:+ items

theorem sound_start : Sound .start := 
  ⟨fun _ _ h => (nomatch h), fun _ _ h => (nomatch h), fun _ h => (nomatch h), fun _ h => (nomatch h)⟩

theorem sound_begin {w : Process} (h : Sound w) (print : Option PrintIn) (theme : Option Theme) :
    Sound (w.begin print theme) := by
  refine ⟨h.full, ?_, ?_, ?_⟩
  · intro s i hi
    obtain ⟨t, it, rest, h1, h2, h3⟩ := h.running s i hi
    refine ⟨t, it, rest, ?_, h2, h3⟩
    obtain ⟨hlt, _⟩ := List.getElem?_eq_some_iff.1 h1
    show (w.writers ++ _)[i]? = some t
    rw [List.getElem?_append_left hlt, h1]
  · intro t ht
    rcases List.mem_append.1 ht with ht | ht
    · exact h.own t ht
    · obtain rfl := List.mem_singleton.1 ht
      exact (ownParts_eq print theme).symm
  · intro t ht
    rcases List.mem_append.1 ht with ht | ht
    · exact h.todo t ht
    · obtain rfl := List.mem_singleton.1 ht
      exact List.suffix_refl _

/-- An item that is not taken from a variable being computed is written. -/
theorem sound_write {w : Process} (h : Sound w) {i : Nat} {t : Writer} {it : Item} {rest : List Item}
    (hi : w.writers[i]? = some t) (ht : t.rest = it :: rest)
    (hs : ∀ s, source t.print it = some s → ∀ j, w.statics s ≠ .running j) :
    Sound (w.write i t it rest (it.made t.print t.theme)) := by
  obtain ⟨hlt, hget⟩ := List.getElem?_eq_some_iff.1 hi
  have hmem : t ∈ w.writers := hget ▸ List.getElem_mem hlt
  refine ⟨h.full, ?_, ?_, ?_⟩
  · intro s j hj
    obtain ⟨t', it', rest', h1, h2, h3⟩ := h.running s j hj
    by_cases hij : i = j
    · subst hij
      obtain rfl : t = t' := by rw [hi] at h1; exact Option.some.inj h1
      rw [ht] at h2
      obtain ⟨rfl, rfl⟩ := List.cons.inj h2
      exact absurd hj (hs s h3 i)
    · refine ⟨t', it', rest', ?_, h2, h3⟩
      show (w.writers.set i _)[j]? = some t'
      rw [List.getElem?_set_ne hij, h1]
  · intro u hu
    rcases List.mem_or_eq_of_mem_set hu with hu | rfl
    · exact h.own u hu
    · have := h.own t hmem
      rw [ht] at this
      simpa [textOf] using this
  · intro u hu
    rcases List.mem_or_eq_of_mem_set hu with hu | rfl
    · exact h.todo u hu
    · have := h.todo t hmem
      rw [ht] at this
      exact (List.suffix_cons it rest).trans this

theorem mem_of_get {l : List Writer} {i : Nat} {t : Writer} (h : l[i]? = some t) : t ∈ l := by
  obtain ⟨hlt, hget⟩ := List.getElem?_eq_some_iff.1 h
  exact hget ▸ List.getElem_mem hlt

theorem sound_item {w : Process} (h : Sound w) {t : Writer} (ht : t ∈ w.writers) {it : Item} {rest : List Item}
    (hr : t.rest = it :: rest) : it ∈ items := by
  have := h.todo t ht
  rw [hr] at this
  exact this.subset (by simp)

/-- All steps, with what they find. -/
theorem step_cases {i : Nat} {w : Process} (h : Sound w) :
    ((∀ t, w.writers[i]? = some t → t.rest = []) ∧ step i w = .finished) ∨
    ∃ t it rest, w.writers[i]? = some t ∧ t.rest = it :: rest ∧
      ((source t.print it = none ∧ step i w = .goes (w.write i t it rest (it.made t.print t.theme))) ∨
       ∃ s, source t.print it = some s ∧
        ((w.statics s = .empty ∧ step i w = .goes (w.put s (.running i))) ∨
         (w.statics s = .running i ∧ step i w = .goes (w.put s (.full (initial s)))) ∨
         (∃ j, j ≠ i ∧ w.statics s = .running j ∧ step i w = .waits) ∨
         (w.statics s = .full (initial s) ∧ step i w = .goes (w.write i t it rest (it.made t.print t.theme))))) := by
  cases ht : w.writers[i]? with
  | none => exact .inl ⟨fun t e => (nomatch e), by simp [step, ht]⟩
  | some t =>
    cases hr : t.rest with
    | nil => exact .inl ⟨fun u e => Option.some.inj e ▸ hr, by simp [step, ht, hr]⟩
    | cons it rest =>
      refine .inr ⟨t, it, rest, rfl, hr, ?_⟩
      cases hs : source t.print it with
      | none => exact .inl ⟨rfl, by simp [step, ht, hr, hs]⟩
      | some s =>
        refine .inr ⟨s, rfl, ?_⟩
        cases hv : w.statics s with
        | empty => exact .inl ⟨rfl, by simp [step, ht, hr, hs, hv]⟩
        | running j =>
          by_cases hj : j = i
          · subst hj
            exact .inr (.inl ⟨rfl, by simp [step, ht, hr, hs, hv]⟩)
          · exact .inr (.inr (.inl ⟨j, hj, rfl, by simp [step, ht, hr, hs, hv, hj]⟩))
        | full value =>
          obtain rfl := h.full s value hv
          have hm := sound_item h (mem_of_get ht) hr
          exact .inr (.inr (.inr ⟨rfl, by simp [step, ht, hr, hs, hv, taken_made (theme := t.theme) hm hs]⟩))

theorem put_same (w : Process) (s : Which) (v : Slot) : (w.put s v).statics s = v := by simp [Process.put]

theorem put_other (w : Process) {s s' : Which} (h : s' ≠ s) (v : Slot) : (w.put s v).statics s' = w.statics s' := by
  simp [Process.put, h]

theorem sound_step {w w' : Process} (h : Sound w) {i : Nat} (hs : step i w = .goes w') : Sound w' := by
  rcases step_cases (i := i) h with ⟨_, e⟩ | ⟨t, it, rest, ht, hr, ⟨hn, e⟩ | ⟨s, hc, ⟨hv, e⟩ | ⟨hv, e⟩ | ⟨j, _, _, e⟩ | ⟨hv, e⟩⟩⟩
    <;> rw [e] at hs
  · cases hs
  · obtain rfl := Move.goes.inj hs
    exact sound_write h ht hr (fun s hs' => by rw [hn] at hs'; cases hs')
  · obtain rfl := Move.goes.inj hs
    refine ⟨?_, ?_, h.own, h.todo⟩
    · intro s' value hf
      by_cases hss : s' = s
      · subst hss; rw [put_same] at hf; cases hf
      · rw [put_other w hss] at hf; exact h.full s' value hf
    · intro s' j hf
      by_cases hss : s' = s
      · subst hss; rw [put_same] at hf; cases hf; exact ⟨t, it, rest, ht, hr, hc⟩
      · rw [put_other w hss] at hf; exact h.running s' j hf
  · obtain rfl := Move.goes.inj hs
    refine ⟨?_, ?_, h.own, h.todo⟩
    · intro s' value hf
      by_cases hss : s' = s
      · subst hss; rw [put_same] at hf; cases hf; rfl
      · rw [put_other w hss] at hf; exact h.full s' value hf
    · intro s' j hf
      by_cases hss : s' = s
      · subst hss; rw [put_same] at hf; cases hf
      · rw [put_other w hss] at hf; exact h.running s' j hf
  · cases hs
  · obtain rfl := Move.goes.inj hs
    refine sound_write h ht hr (fun s' hs' j hj => ?_)
    rw [hc] at hs'
    obtain rfl := Option.some.inj hs'
    rw [hv] at hj
    cases hj

theorem sound_later {w w' : Process} (h : Sound w) (hl : Later w w') : Sound w' := by
  induction hl with
  | same => exact h
  | begun print theme _ ih => exact sound_begin ih print theme
  | moved i _ hs ih => exact sound_step ih hs

/-- **C155.** Whatever other presentations were made before or are being made by other threads, and in whichever order
the threads take their steps: what has been written of a presentation is a beginning of the parts made from its own
settings, and when it is finished it is these parts. -/
theorem C155_own {w : Process} (h : Later .start w) {t : Writer} (ht : t ∈ w.writers) :
    t.out <+: ownParts t.print t.theme ∧ (t.rest = [] → t.out = ownParts t.print t.theme) := by
  have hw := (sound_later sound_start h).own t ht
  refine ⟨⟨_, hw⟩, fun hr => ?_⟩
  rw [hr] at hw
  simpa using hw

/-- **C155.** Taking a part from the variables never panics. -/
theorem C155_no_panic {w : Process} (h : Later .start w) (i : Nat) : step i w ≠ .panics := by
  rcases step_cases (i := i) (sound_later sound_start h) with
    ⟨_, e⟩ | ⟨t, it, rest, ht, hr, ⟨hn, e⟩ | ⟨s, hc, ⟨hv, e⟩ | ⟨hv, e⟩ | ⟨j, _, _, e⟩ | ⟨hv, e⟩⟩⟩
    <;> rw [e] <;> intro hh <;> cases hh

/-- **C155.** The threads never all wait for each other: as long as a presentation is not finished, some thread can go
on. -/
theorem C155_progress {w : Process} (h : Later .start w) {t : Writer} (ht : t ∈ w.writers) (hr : t.rest ≠ []) :
    ∃ i w', step i w = .goes w' := by
  have hw := sound_later sound_start h
  obtain ⟨i, hlt, hget⟩ := List.mem_iff_getElem.1 ht
  have hi : w.writers[i]? = some t := by rw [List.getElem?_eq_getElem hlt, hget]
  rcases step_cases (i := i) hw with ⟨e', _⟩ | ⟨_, _, _, _, _, ⟨_, e⟩ | ⟨s, _, ⟨_, e⟩ | ⟨_, e⟩ | ⟨j, _, hv, _⟩ | ⟨_, e⟩⟩⟩
  · exact absurd (e' t hi) hr
  · exact ⟨i, _, e⟩
  · exact ⟨i, _, e⟩
  · exact ⟨i, _, e⟩
  · obtain ⟨t', it', rest', h1, h2, h3⟩ := hw.running s j hv
    exact ⟨j, w.put s (.full (initial s)), by simp [step, h1, h2, h3, hv]⟩
  · exact ⟨i, _, e⟩

/-- The steps a variable still costs. -/
def Slot.left : Slot → Nat
  | .empty => 2
  | .running _ => 1
  | .full _ => 0

/-- The steps that are left. -/
def left (w : Process) : Nat :=
  (w.writers.map fun t => t.rest.length).sum + (Slot.left (w.statics .masterRels) + Slot.left (w.statics .master) +
    Slot.left (w.statics .layouts))

theorem left_write {w : Process} {i : Nat} {t : Writer} {it : Item} {rest : List Item} {text : Str}
    (hi : w.writers[i]? = some t) (hr : t.rest = it :: rest) : left (w.write i t it rest text) + 1 = left w := by
  have key : ∀ (l : List Writer) (i : Nat) (u : Writer), l[i]? = some t → u.rest = rest →
      ((l.set i u).map fun t => t.rest.length).sum + 1 = (l.map fun t => t.rest.length).sum := by
    intro l
    induction l with
    | nil => intro i u h _; cases h
    | cons a l ih =>
      intro i u h hu
      cases i with
      | zero =>
        obtain rfl : a = t := by simpa using h
        simp [hu, hr]
        omega
      | succ i =>
        have := ih i u (by simpa using h) hu
        simp only [List.set_cons_succ, List.map_cons, List.sum_cons]
        omega
  have := key w.writers i { t with rest := rest, out := t.out ++ [(it.path, text)] } hi rfl
  simp only [left, Process.write]
  omega

theorem left_put {w : Process} {s : Which} {v : Slot} (h : Slot.left v + 1 = Slot.left (w.statics s)) :
    left (w.put s v) + 1 = left w := by
  cases s <;> simp [left, Process.put] at h ⊢ <;> omega

theorem left_step {w w' : Process} (h : Sound w) {i : Nat} (hs : step i w = .goes w') : left w' + 1 = left w := by
  rcases step_cases (i := i) h with ⟨_, e⟩ | ⟨t, it, rest, ht, hr, ⟨hn, e⟩ | ⟨s, hc, ⟨hv, e⟩ | ⟨hv, e⟩ | ⟨j, _, _, e⟩ | ⟨hv, e⟩⟩⟩
    <;> rw [e] at hs <;> cases hs
  · exact left_write ht hr
  · exact left_put (by rw [hv]; rfl)
  · exact left_put (by rw [hv]; rfl)
  · exact left_write ht hr

theorem moves_left {n : Nat} {w w' : Process} (h : Sound w) (hm : Moves n w w') : Sound w' ∧ n + left w' = left w := by
  induction hm with
  | none => exact ⟨h, by omega⟩
  | more i _ hs ih =>
    obtain ⟨h1, h2⟩ := ih h
    have := left_step h1 hs
    exact ⟨sound_step h1 hs, by omega⟩

theorem moves_later {w0 w w' : Process} {n : Nat} (h : Later w0 w) (hm : Moves n w w') : Later w0 w' := by
  induction hm with
  | none => exact h
  | more i _ e ih => exact .moved i (ih h) e

/-- **C155.** Every presentation that is begun is finished: the threads can take at most seventeen steps for each
presentation and two for each variable, and while they can take one, a presentation is unfinished. -/
theorem C155_finishes {w w' : Process} (h : Later .start w) {n : Nat} (hm : Moves n w w') :
    n ≤ 17 * w.writers.length + 6 ∧
    ((∀ i w'', step i w' ≠ .goes w'') → ∀ t ∈ w'.writers, t.out = ownParts t.print t.theme) := by
  have hw := sound_later sound_start h
  obtain ⟨hs, hn⟩ := moves_left hw hm
  constructor
  · have hlen : (w.writers.map fun t => t.rest.length).sum ≤ 17 * w.writers.length := by
      have h17 : ∀ t ∈ w.writers, t.rest.length ≤ 17 := fun t ht => (hw.todo t ht).length_le
      generalize w.writers = l at h17
      induction l with
      | nil => simp
      | cons a l ih =>
        have h1 := h17 a (by simp)
        have h2 := ih (fun t ht => h17 t (by simp [ht]))
        simp only [List.map_cons, List.sum_cons, List.length_cons]
        omega
    have hb : ∀ v : Slot, Slot.left v ≤ 2 := fun v => by cases v <;> simp [Slot.left]
    have h1 := hb (w.statics .masterRels)
    have h2 := hb (w.statics .master)
    have h3 := hb (w.statics .layouts)
    simp only [left] at hn
    omega
  · intro hstop t ht
    have hl := moves_later h hm
    by_cases hr : t.rest = []
    · exact (C155_own hl ht).2 hr
    · obtain ⟨i, w'', e⟩ := C155_progress hl ht hr
      exact absurd e (hstop i w'')

/-- **C155.** From every point the threads can finish all presentations. -/
theorem C155_can_finish {w : Process} (h : Later .start w) :
    ∃ n w', Moves n w w' ∧ w'.writers.length = w.writers.length ∧ ∀ t ∈ w'.writers, t.rest = [] := by
  have key : ∀ k (v : Process), left v = k → Later .start v → ∀ n, Moves n w v → v.writers.length = w.writers.length →
      ∃ n w', Moves n w w' ∧ w'.writers.length = w.writers.length ∧ ∀ t ∈ w'.writers, t.rest = [] := by
    intro k
    induction k with
    | zero =>
      intro v hk _ n hm hlen
      refine ⟨n, v, hm, hlen, fun t ht => ?_⟩
      have hz : (v.writers.map fun t => t.rest.length).sum = 0 := by simp only [left] at hk; omega
      have hle : ∀ l : List Writer, t ∈ l → t.rest.length ≤ (l.map fun t => t.rest.length).sum := by
        intro l
        induction l with
        | nil => intro h; cases h
        | cons a l ih =>
          intro h
          simp only [List.map_cons, List.sum_cons]
          rcases List.mem_cons.1 h with rfl | h
          · omega
          · have := ih h
            omega
      exact List.length_eq_zero_iff.1 (by have := hle _ ht; omega)
    | succ k ih =>
      intro v hk hv n hm hlen
      by_cases hd : ∀ t ∈ v.writers, t.rest = []
      · exact ⟨n, v, hm, hlen, hd⟩
      · obtain ⟨t, ht⟩ := Classical.not_forall.1 hd
        obtain ⟨hmem, hr⟩ := Classical.not_imp.1 ht
        obtain ⟨i, v', e⟩ := C155_progress hv hmem hr
        have hq := sound_later sound_start hv
        refine ih v' (by have := left_step hq e; omega) (.moved i hv e) (n + 1) (.more i hm e) ?_
        rw [← hlen]
        rcases step_cases (i := i) hq with
          ⟨_, e'⟩ | ⟨_, _, _, _, _, ⟨_, e'⟩ | ⟨s, _, ⟨_, e'⟩ | ⟨_, e'⟩ | ⟨_, _, _, e'⟩ | ⟨_, e'⟩⟩⟩
          <;> rw [e'] at e <;> cases e <;> simp [Process.write, Process.put]
  exact key _ w rfl h 0 (.none w) rfl

/-- **C155.** A variable is computed once: when it has a value, it keeps it. -/
theorem C155_once {w w' : Process} (h : Later .start w) (hl : Later w w') {s : Which} {value : List Str}
    (hv : w.statics s = .full value) : w'.statics s = .full value := by
  have hw := sound_later sound_start h
  clear h
  induction hl with
  | same => exact hv
  | begun print theme _ ih => exact ih
  | moved i hl' e ih =>
    have hq := sound_later hw hl'
    rcases step_cases (i := i) hq with ⟨_, e'⟩ | ⟨t, it, rest, ht, hr, ⟨hn, e'⟩ | ⟨s', hc, ⟨hv', e'⟩ | ⟨hv', e'⟩ | ⟨j, _, _, e'⟩ | ⟨hv', e'⟩⟩⟩
      <;> rw [e'] at e <;> cases e
    · exact ih
    · have : s ≠ s' := fun hh => by subst hh; rw [ih] at hv'; cases hv'
      rw [put_other _ this]; exact ih
    · have : s ≠ s' := fun hh => by subst hh; rw [ih] at hv'; cases hv'
      rw [put_other _ this]; exact ih
    · exact ih

/-- **C155.** The parts are those of the package of a presentation without a template, in their order. -/
theorem C155_places (print : Option PrintIn) (theme : Option Theme) (st : BuildSettings) (h : st.template = none) :
    (ownParts print theme).map Prod.fst = (themeAndLayoutParts st).map fun e => e.name.path := by
  rw [themeAndLayoutParts, h]
  rfl

/-- **C155.** The settings of a presentation are seen in its own master: a footer asked for is there, whatever was
made before without one. -/
theorem C155_footer {w : Process} (h : Later .start w) {t : Writer} (ht : t ∈ w.writers) (hr : t.rest = [])
    {p : PrintIn} (hp : t.print = some p) :
    (c!"ppt/slideMasters/slideMaster1.xml", createSlideMasterXml txStyles (some p)) ∈ t.out := by
  rw [(C155_own h ht).2 hr, hp]
  simp [ownParts]

/-- Two presentations are made at the same time, one with a footer. The second thread waits while the first one
computes the layouts, and both are finished in the end. -/
def busy : Process :=
  ((Process.start.begin none none).begin (some ⟨none, some c!"F", false, false⟩) none).begin none none

example : Later .start busy := .begun _ _ (.begun _ _ (.begun _ _ (.same _)))

example : ∃ w, step 0 busy = .goes w ∧ step 2 w = .waits ∧ ∃ w', step 1 w = .goes w' := ⟨_, rfl, rfl, _, rfl⟩

example : ∃ w, Later .start w ∧ w.writers.length = 3 ∧ ∀ t ∈ w.writers, t.rest = [] ∧ t.out = ownParts t.print t.theme := by
  have h : Later .start busy := .begun _ _ (.begun _ _ (.begun _ _ (.same _)))
  obtain ⟨n, w, hm, hl, hd⟩ := C155_can_finish h
  exact ⟨w, moves_later h hm, hl, fun t ht => ⟨hd t ht, (C155_own (moves_later h hm) ht).2 (hd t ht)⟩⟩

end PptRs.Props
