import Verif.Model.HtmlImport
import Verif.Spec.Html
import Verif.Props.Entities
import Mathlib.Tactic.SplitIfs

/-!
# C44: HTML import leaves out the hidden elements and nothing else
-/

namespace PptRs.Props
open PptRs PptRs.Spec

mutual
/-- The tags and texts of a page in order. -/
def Html.events : Html → List HtmlEvent
  | .text s => [.text s]
  | .void n a => [.openTag n a]
  | .elem n a kids => .openTag n a :: (eventsL kids ++ [.closeTag n])
def eventsL : List Html → List HtmlEvent
  | [] => []
  | h :: t => Html.events h ++ eventsL t
end

theorem eventsL_append (a b : List Html) : eventsL (a ++ b) = eventsL a ++ eventsL b := by
  induction a with
  | nil => rfl
  | cons h t ih => simp [eventsL, ih]

/-! ## The state machine -/

theorem run_cons (env : HtmlEnv) (o : HtmlOptions) (st : HtmlState) (e : HtmlEvent) (es : List HtmlEvent) :
    st.run env o (e :: es) = (st.step env o e).bind fun st => st.run env o es := rfl

theorem run_append (env : HtmlEnv) (o : HtmlOptions) (st : HtmlState) (a b : List HtmlEvent) :
    st.run env o (a ++ b) = (st.run env o a).bind fun st => st.run env o b := by
  induction a generalizing st with
  | nil => rfl
  | cons e es ih =>
    simp only [List.cons_append, run_cons]
    cases h : st.step env o e with
    | none => rfl
    | some st' => simp [ih]

theorem inSkip_stack {st : HtmlState} {k : List Str} : HtmlState.inSkip { st with stack := k } = k.any fun t => skipTags.contains t := rfl

mutual
theorem html_induct {P : Html → Prop} {Q : List Html → Prop} (ht : ∀ s, P (.text s)) (hv : ∀ n a, P (.void n a))
    (he : ∀ n a kids, Q kids → P (.elem n a kids)) (hn : Q []) (hc : ∀ h t, P h → Q t → Q (h :: t)) : ∀ h, P h
  | .text s => ht s
  | .void n a => hv n a
  | .elem n a kids => he n a kids (html_inductL ht hv he hn hc kids)
/-- Induction over pages. -/
theorem html_inductL {P : Html → Prop} {Q : List Html → Prop} (ht : ∀ s, P (.text s)) (hv : ∀ n a, P (.void n a))
    (he : ∀ n a kids, Q kids → P (.elem n a kids)) (hn : Q []) (hc : ∀ h t, P h → Q t → Q (h :: t)) : ∀ l, Q l
  | [] => hn
  | h :: t => hc h t (html_induct ht hv he hn hc h) (html_inductL ht hv he hn hc t)
end

theorem inSkip_append {st : HtmlState} (h : st.inSkip = true) (k : List Str) :
    HtmlState.inSkip { st with stack := k ++ st.stack } = true := by
  rw [inSkip_stack, List.any_append, show st.stack.any (fun t => skipTags.contains t) = true from h, Bool.or_true]

theorem inSkip_cons {st : HtmlState} (h : st.inSkip = true) (n : Str) :
    HtmlState.inSkip { st with stack := n :: st.stack } = true := inSkip_append h [n]

theorem open_inSkip (env : HtmlEnv) (o : HtmlOptions) {st : HtmlState} (n : Str) (a : List (Str × Str))
    (h : st.inSkip = true) : st.step env o (.openTag n a) = some { st with stack := n :: st.stack } := by
  simp only [HtmlState.step, HtmlState.openTag, inSkip_cons h n, if_true]

/-- Inside a hidden element a page only changes the stack: it leaves one entry for each element without closing
tag. -/
theorem run_hidden (env : HtmlEnv) (o : HtmlOptions) : ∀ (kids : List Html) (st : HtmlState), st.inSkip = true →
    ∃ junk, junk.length = voidsL kids ∧ st.run env o (eventsL kids) = some { st with stack := junk ++ st.stack } := by
  refine html_inductL (P := fun h => ∀ (st : HtmlState), st.inSkip = true → ∃ junk, junk.length = h.voids ∧
        st.run env o (Html.events h) = some { st with stack := junk ++ st.stack }) ?_ ?_ ?_ ?_ ?_
  · intro s st h
    exact ⟨[], rfl, by simp [Html.events, HtmlState.run, HtmlState.step, HtmlState.addText, h]⟩
  · intro n a st h
    exact ⟨[n], rfl, by simp [Html.events, run_cons, open_inSkip env o n a h, HtmlState.run]⟩
  · intro n a kids ih st h
    obtain ⟨junk, hl, hr⟩ := ih _ (inSkip_cons h n)
    have h2 : HtmlState.inSkip { st with stack := junk ++ n :: st.stack } = true := by
      have := inSkip_append h (junk ++ [n])
      simpa using this
    refine ⟨(junk ++ [n]).drop 1, by simp [Html.voids, hl], ?_⟩
    simp only [Html.events, run_cons, open_inSkip env o n a h, Option.bind_some, run_append, hr]
    simp only [HtmlState.step, HtmlState.closeTag, h2, if_true, Option.map_some, Option.bind_some, HtmlState.run]
    cases junk <;> simp
  · intro st h
    exact ⟨[], rfl, by simp [eventsL, HtmlState.run]⟩
  · intro h t ih1 ih2 st hs
    obtain ⟨j1, l1, r1⟩ := ih1 st hs
    obtain ⟨j2, l2, r2⟩ := ih2 _ (inSkip_append hs j1)
    refine ⟨j2 ++ j1, by simp [voidsL, l1, l2, Nat.add_comm], ?_⟩
    simp [eventsL, run_append, r1, r2]

/-! ### Outside hidden elements -/

theorem ite_ind {α : Type} {c : Prop} [Decidable c] {x y : α} {Q : α → Prop} (h1 : c → Q x) (h2 : ¬ c → Q y) :
    Q (if c then x else y) := by
  by_cases h : c
  · rw [if_pos h]; exact h1 h
  · rw [if_neg h]; exact h2 h

/-- What an opening tag can do. -/
theorem openBody_cases (env : HtmlEnv) (o : HtmlOptions) (st : HtmlState) (n : Str) (a : List (Str × Str))
    {P : HtmlState → Prop} (h1 : P ((st.flushText o).finalize o)) (h2 : P (st.flushText o))
    (h3 : P { st with inCode := true, code := [] }) (h4 : P { st with inTable := true, rows := [] })
    (h5 : P { st with inQuote := true, quote := [] }) (h6 : P { st with items := [] })
    (h7 : ∀ m, P (st.mark m)) (h8 : P (st.image env o a)) (h9 : P st) : P (st.openBody env o n a) := by
  unfold HtmlState.openBody
  refine ite_ind (fun _ => h1) fun _ => ite_ind (fun _ => h2) fun _ => ite_ind (fun _ => h3) fun _ =>
    ite_ind (fun _ => h4) fun _ => ite_ind (fun _ => h5) fun _ => ite_ind (fun _ => h6) fun _ =>
    ite_ind (fun _ => h7 _) fun _ => ite_ind (fun _ => h7 _) fun _ => ite_ind (fun _ => h8) fun _ =>
    ite_ind (fun _ => h7 _) fun _ => h9

/-- What a closing tag can do. -/
theorem closeBody_cases {o : HtmlOptions} {st st' : HtmlState} {n : Str} (h : st.closeBody o n = some st')
    {P : HtmlState → Prop} (h1 : P st.closeTitle) (h2 : n ∈ subHeadings → P st.closeSub) (h3 : P (st.flushText o))
    (h4 : P st.closeItem) (h5 : P (st.flushItems o)) (h6 : P (HtmlState.flushCode o { st with inCode := false }))
    (h7 : ∀ st', HtmlState.flushTable o { st with inTable := false } = some st' → P st')
    (h8 : P (HtmlState.flushQuote { st with inQuote := false })) (h9 : P st.closeCell) (h10 : P st.closeRow)
    (h11 : ∀ m, P (st.mark m)) (h12 : P st) : P st' := by
  revert h
  have hs : ∀ {x : HtmlState}, P x → some x = some st' → P st' := by
    intro x hx e
    simp only [Option.some.injEq] at e
    subst e; exact hx
  unfold HtmlState.closeBody
  have it : ∀ {c : Prop} [Decidable c] {x y : Option HtmlState}, (c → x = some st' → P st') →
      (¬ c → y = some st' → P st') → (if c then x else y) = some st' → P st' := by
    intro c _ x y h1 h2
    exact ite_ind (Q := fun x => x = some st' → P st') h1 h2
  refine it (fun _ => hs h1) fun _ => it (fun hn => hs (h2 hn)) fun _ => it (fun _ => hs h3) fun _ =>
    it (fun _ => hs h4) fun _ => it (fun _ => hs h5) fun _ => it (fun _ => hs h6) fun _ =>
    it (fun _ => h7 st') fun _ => it (fun _ => hs h8) fun _ => it (fun _ => hs h9) fun _ =>
    it (fun _ => hs h10) fun _ => it (fun _ => hs (h11 _)) fun _ => it (fun _ => hs (h11 _)) fun _ => hs h12

theorem addParagraph_stack (o : HtmlOptions) (st : HtmlState) (t : Str) : (st.addParagraph o t).stack = st.stack := by
  unfold HtmlState.addParagraph; split <;> rfl

theorem flushText_stack (o : HtmlOptions) (st : HtmlState) : (st.flushText o).stack = st.stack := by
  simp only [HtmlState.flushText]; split
  · rfl
  · simp [addParagraph_stack]

theorem flushItems_stack (o : HtmlOptions) (st : HtmlState) : (st.flushItems o).stack = st.stack := by
  simp only [HtmlState.flushItems]; split <;> rfl

theorem openBody_stack (env : HtmlEnv) (o : HtmlOptions) (st : HtmlState) (n : Str) (a : List (Str × Str)) :
    (st.openBody env o n a).stack = st.stack := by
  refine openBody_cases env o st n a (P := fun x => x.stack = st.stack) ?_ ?_ rfl rfl rfl rfl (fun _ => rfl) ?_ rfl
  · simp [HtmlState.finalize, flushText_stack, flushItems_stack]
  · exact flushText_stack o st
  · simp only [HtmlState.image]; split
    · rfl
    · split
      · rfl
      · exact addParagraph_stack o st _

theorem closeBody_stack (o : HtmlOptions) (st st' : HtmlState) (n : Str) (h : st.closeBody o n = some st') :
    st'.stack = st.stack := by
  refine closeBody_cases h (P := fun x => x.stack = st.stack) rfl (fun _ => ?_) ?_ rfl ?_ ?_ ?_ ?_ rfl ?_ (fun _ => rfl) rfl
  · simp only [HtmlState.closeSub]; split <;> rfl
  · exact flushText_stack o st
  · exact flushItems_stack o st
  · simp only [HtmlState.flushCode]; split <;> rfl
  · intro st' h
    simp only [HtmlState.flushTable] at h
    split at h
    · simp only [Option.some.injEq] at h
      subst h; rfl
    · simp only [Option.map_eq_some_iff] at h
      obtain ⟨t, _, rfl⟩ := h
      rfl
  · simp only [HtmlState.flushQuote]; split <;> rfl
  · simp only [HtmlState.closeRow]; split <;> rfl

theorem hidden_skip : skipTags = hiddenNames := rfl

/-- Tags that are not hidden never make a hidden element the surrounding one. -/
theorem step_visible (env : HtmlEnv) (o : HtmlOptions) (st st' : HtmlState) (e : HtmlEvent)
    (he : ∀ n a, e = .openTag n a → n ∉ hiddenNames) (hs : st.inSkip = false) (h : st.step env o e = some st') :
    st'.inSkip = false := by
  cases e with
  | openTag n a =>
    have h1 : HtmlState.inSkip { st with stack := n :: st.stack } = false := by
      have := he n a rfl
      rw [inSkip_stack, List.any_cons, show st.stack.any (fun t => skipTags.contains t) = false from hs, Bool.or_false,
        hidden_skip]
      simpa using this
    simp only [HtmlState.step, HtmlState.openTag, h1, Bool.false_eq_true, if_false] at h
    split at h
    · simp at h
    · simp only [Option.some.injEq] at h
      subst h
      rw [HtmlState.inSkip, openBody_stack]
      exact h1
  | closeTag n =>
    simp only [HtmlState.step, HtmlState.closeTag, hs, Bool.false_eq_true, if_false, Option.map_eq_some_iff] at h
    obtain ⟨st1, h1, rfl⟩ := h
    rw [inSkip_stack, closeBody_stack o _ _ _ h1]
    cases hk : st.stack with
    | nil => rfl
    | cons a k =>
      simp only [HtmlState.inSkip, hk, List.any_cons, Bool.or_eq_false_iff] at hs
      simpa using hs.2
  | text t =>
    simp only [HtmlState.step, HtmlState.addText, hs, Bool.false_eq_true, if_false, Option.some.injEq] at h
    subst h
    split_ifs <;> exact hs

theorem run_visible (env : HtmlEnv) (o : HtmlOptions) (es : List HtmlEvent)
    (he : ∀ n a, HtmlEvent.openTag n a ∈ es → n ∉ hiddenNames) (st st' : HtmlState) (hs : st.inSkip = false)
    (h : st.run env o es = some st') : st'.inSkip = false := by
  induction es generalizing st with
  | nil => simp only [HtmlState.run, Option.some.injEq] at h; subst h; exact hs
  | cons e es ih =>
    rw [run_cons] at h
    cases h1 : st.step env o e with
    | none => simp [h1] at h
    | some st1 =>
      rw [h1, Option.bind_some] at h
      exact ih (fun n a hm => he n a (by simp [hm])) st1
        (step_visible env o st st1 e (fun n a e' => he n a (by simp [e'])) hs h1) h

theorem visible_open : ∀ (doc : List Html) (n : Str) (a : List (Str × Str)),
    HtmlEvent.openTag n a ∈ eventsL (visibleL doc) → n ∉ hiddenNames := by
  refine html_inductL (P := fun h => ∀ (n : Str) (a : List (Str × Str)),
    HtmlEvent.openTag n a ∈ eventsL h.visible → n ∉ hiddenNames) ?_ ?_ ?_ ?_ ?_
  · intro s n a h
    simp [Html.visible, eventsL, Html.events] at h
  · intro m b n a h
    simp only [Html.visible] at h
    split at h
    · simp [eventsL] at h
    · rename_i hm
      simp only [eventsL, Html.events, List.append_nil, List.mem_singleton, HtmlEvent.openTag.injEq] at h
      rw [h.1]; exact hm
  · intro m b kids ih n a h
    simp only [Html.visible] at h
    split at h
    · simp [eventsL] at h
    · rename_i hm
      simp only [eventsL, Html.events, List.append_nil, List.mem_cons, List.mem_append, HtmlEvent.openTag.injEq] at h
      rcases h with h | h | h
      · rw [h.1]; exact hm
      · exact ih n a h
      · simp at h
  · intro n a h
    simp [visibleL, eventsL] at h
  · intro h t ih1 ih2 n a hm
    simp only [visibleL, eventsL_append, List.mem_append] at hm
    rcases hm with hm | hm
    · exact ih1 n a hm
    · exact ih2 n a hm

theorem hidden_open {st : HtmlState} {n : Str} (h : n ∈ hiddenNames) :
    HtmlState.inSkip { st with stack := n :: st.stack } = true := by
  rw [inSkip_stack, List.any_cons, hidden_skip, List.contains_iff_mem.mpr h, Bool.true_or]

theorem open_hidden (env : HtmlEnv) (o : HtmlOptions) (st : HtmlState) (n : Str) (a : List (Str × Str))
    (h : n ∈ hiddenNames) : st.step env o (.openTag n a) = some { st with stack := n :: st.stack } := by
  simp only [HtmlState.step, HtmlState.openTag, hidden_open h, if_true]

/-- A hidden element leaves the state as it was if it is closed properly. -/
theorem run_hidden_elem (env : HtmlEnv) (o : HtmlOptions) (st : HtmlState) (n : Str) (a : List (Str × Str))
    (kids : List Html) (h : n ∈ hiddenNames) (hv : voidsL kids = 0) :
    st.run env o (Html.events (.elem n a kids)) = some st := by
  obtain ⟨junk, hl, hr⟩ := run_hidden env o kids _ (hidden_open (st := st) h)
  rw [hv, List.length_eq_zero_iff] at hl
  subst hl
  simp only [Html.events, run_cons, open_hidden env o st n a h, Option.bind_some, run_append, hr, List.nil_append]
  simp only [HtmlState.step, HtmlState.closeTag, hidden_open h, if_true, Option.map_some, Option.bind_some,
    HtmlState.run, List.drop_succ_cons, List.drop_zero]

theorem run_visibleL (env : HtmlEnv) (o : HtmlOptions) : ∀ (doc : List Html), closedHiddenL doc = true →
    ∀ st : HtmlState, st.inSkip = false → st.run env o (eventsL doc) = st.run env o (eventsL (visibleL doc)) := by
  refine html_inductL (P := fun h => h.closedHidden = true → ∀ st : HtmlState, st.inSkip = false →
    st.run env o (Html.events h) = st.run env o (eventsL h.visible)) ?_ ?_ ?_ ?_ ?_
  · intro s _ st _
    simp [Html.visible, eventsL]
  · intro n a h st _
    simp only [Html.closedHidden, Bool.not_eq_true', List.contains_eq_mem, decide_eq_false_iff_not] at h
    simp [Html.visible, h, eventsL]
  · intro n a kids ih h st hs
    simp only [Html.closedHidden] at h
    by_cases hn : n ∈ hiddenNames
    · rw [if_pos (List.contains_iff_mem.mpr hn)] at h
      rw [run_hidden_elem env o st n a kids hn (by simpa using h)]
      simp [Html.visible, hn, eventsL, HtmlState.run]
    · rw [if_neg (by rw [List.contains_iff_mem]; exact hn)] at h
      simp only [Html.visible, hn, if_false, eventsL, Html.events, List.append_nil, run_cons]
      cases h1 : st.step env o (.openTag n a) with
      | none => rfl
      | some st1 =>
        have hs1 := step_visible env o st st1 (.openTag n a) (fun m b e => by
          simp only [HtmlEvent.openTag.injEq] at e
          rw [← e.1]; exact hn) hs h1
        simp only [Option.bind_some, run_append, ih h st1 hs1]
  · intro _ st _
    simp [visibleL]
  · intro h t ih1 ih2 hc st hs
    simp only [closedHiddenL, Bool.and_eq_true] at hc
    simp only [eventsL, visibleL, eventsL_append, run_append, ih1 hc.1 st hs]
    cases h1 : st.run env o (eventsL h.visible) with
    | none => rfl
    | some st1 =>
      have hs1 := run_visible env o _ (fun n a hm => visible_open [h] n a (by simpa [visibleL] using hm)) st st1 hs h1
      simp only [Option.bind_some, ih2 hc.2 st1 hs1]

/-- A page is imported as if its hidden elements were not there, and everything else is read, provided no hidden
element contains an element without closing tag. -/
theorem C44_hidden_partial (env : HtmlEnv) (o : HtmlOptions) (doc : List Html) (h : closedHiddenL doc = true) :
    parseEvents env o (eventsL doc) = parseEvents env o (eventsL (visibleL doc)) := by
  simp only [parseEvents, run_visibleL env o doc h {} rfl]

theorem finish_stack (o : HtmlOptions) (st : HtmlState) (k : List Str) :
    HtmlState.finish o { st with stack := k } = st.finish o := by
  obtain ⟨sl, cur, buf, _, _, _, _, items, _, _, _, _, _, title⟩ := st
  by_cases hb : trim buf = [] <;> by_cases hi : items = [] <;> cases cur <;>
    simp [HtmlState.finish, HtmlState.finalize, HtmlState.flushText, HtmlState.flushItems, HtmlState.addParagraph, hb, hi]

/-- After a hidden element that contains an element without closing tag (an image in a navigation bar, say) the rest
of the page is lost. -/
theorem C44_lost_violated (env : HtmlEnv) (o : HtmlOptions) (before kids after : List Html) (n : Str)
    (a : List (Str × Str)) (h : n ∈ hiddenNames) (hv : 0 < voidsL kids) :
    parseEvents env o (eventsL (before ++ .elem n a kids :: after)) = parseEvents env o (eventsL before) := by
  simp only [parseEvents, eventsL_append, eventsL, run_append]
  cases h1 : HtmlState.run env o {} (eventsL before) with
  | none => rfl
  | some st =>
    obtain ⟨junk, hl, hr⟩ := run_hidden env o kids _ (hidden_open (st := st) h)
    obtain ⟨j, junk, rfl⟩ : ∃ j junk', junk = j :: junk' := by
      cases junk with
      | nil => simp at hl; omega
      | cons j junk => exact ⟨j, junk, rfl⟩
    have h2 : HtmlState.inSkip { st with stack := j :: (junk ++ n :: st.stack) } = true := by
      have := inSkip_append (hidden_open (st := st) h) (j :: junk)
      simpa using this
    have h3 : HtmlState.inSkip { st with stack := junk ++ n :: st.stack } = true := by
      have := inSkip_append (hidden_open (st := st) h) junk
      simpa using this
    obtain ⟨junk2, _, hr2⟩ := run_hidden env o after _ h3
    simp only [Html.events, run_cons, open_hidden env o st n a h, Option.bind_some, run_append, hr, List.cons_append]
    simp only [HtmlState.step, HtmlState.closeTag, h2, if_true, Option.map_some, Option.bind_some, HtmlState.run,
      List.drop_succ_cons, List.drop_zero, hr2, finish_stack]

end PptRs.Props
