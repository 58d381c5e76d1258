import Verif.Props.HtmlTokens

/-!
# C45: limits of the HTML import, C22: style attributes
-/

namespace PptRs.Props
open PptRs PptRs.Spec

/-! ## C45 -/

/-- A property of slides that the importer's operations keep. `bound` counts the headings below the first level
closed so far. -/
structure Kept (o : HtmlOptions) (Q : Nat → HtmlSlide → Prop) : Prop where
  mono : ∀ n s, Q n s → Q (n + 1) s
  fresh : ∀ n t, Q n { title := t }
  first : ∀ n t x, Q n (HtmlSlide.push { title := t } x)
  para : ∀ n s x, Q n s → Q n (s.pushLimited o.maxBullets x)
  sub : ∀ n s x, Q n s → Q (n + 1) (s.push x)
  table : ∀ n s t, o.includeTables = true → Q n s → Q n { s with table := some t }
  code : ∀ n s x, o.includeCode = true → Q n s → Q n { s with code := s.code ++ [x] }
  notes : ∀ n s x, Q n s → Q n { s with notes := some x }
  images : ∀ n s x, o.includeImages = true → Q n s → Q n { s with images := s.images ++ [x] }

/-- Every slide of the state, finished or not. -/
def AllSlides (Q : HtmlSlide → Prop) (st : HtmlState) : Prop :=
  (∀ s ∈ st.slides, Q s) ∧ ∀ s, st.current = some s → Q s

theorem AllSlides.of_eq {Q : HtmlSlide → Prop} {st st' : HtmlState} (h : AllSlides Q st) (h1 : st'.slides = st.slides)
    (h2 : st'.current = st.current) : AllSlides Q st' := by
  unfold AllSlides
  rw [h1, h2]; exact h

theorem AllSlides.set {Q : HtmlSlide → Prop} {st st' : HtmlState} (h : AllSlides Q st) {s : HtmlSlide} (hs : Q s)
    (h1 : st'.slides = st.slides) (h2 : st'.current = some s) : AllSlides Q st' := by
  refine ⟨by rw [h1]; exact h.1, ?_⟩
  intro x hx
  rw [h2, Option.some.injEq] at hx
  rw [← hx]; exact hs

section
variable {o : HtmlOptions} {Q : Nat → HtmlSlide → Prop} (K : Kept o Q)
include K

theorem Kept.currentD {n : Nat} {st : HtmlState} (h : AllSlides (Q n) st) (t : Str) : Q n (st.current.getD { title := t }) := by
  cases hc : st.current with
  | none => exact K.fresh n t
  | some s => exact h.2 s hc

theorem Kept.addParagraph {n : Nat} {st : HtmlState} (h : AllSlides (Q n) st) (t : Str) :
    AllSlides (Q n) (st.addParagraph o t) := by
  unfold HtmlState.addParagraph
  split
  · rename_i s hc
    exact h.set (K.para n s t (h.2 s hc)) rfl rfl
  · exact h.set (K.first n _ t) rfl rfl

theorem Kept.flushText {n : Nat} {st : HtmlState} (h : AllSlides (Q n) st) : AllSlides (Q n) (st.flushText o) := by
  simp only [HtmlState.flushText]
  split
  · exact h.of_eq rfl rfl
  · exact K.addParagraph (st := { st with buffer := [] }) (h.of_eq rfl rfl) _

theorem Kept.items {n : Nat} (l : List Str) (s : HtmlSlide) (h : Q n s) : Q n (l.foldl (HtmlSlide.pushLimited o.maxBullets) s) := by
  induction l generalizing s with
  | nil => exact h
  | cons x l ih => exact ih _ (K.para n s x h)

theorem Kept.flushItems {n : Nat} {st : HtmlState} (h : AllSlides (Q n) st) : AllSlides (Q n) (st.flushItems o) := by
  simp only [HtmlState.flushItems]
  split
  · exact h
  · exact h.set (K.items _ _ (K.currentD h _)) rfl rfl

theorem Kept.finalize {n : Nat} {st : HtmlState} (h : AllSlides (Q n) st) : AllSlides (Q n) (st.finalize o) := by
  have h1 := K.flushItems (K.flushText h)
  refine ⟨?_, by simp [HtmlState.finalize]⟩
  intro s hs
  simp only [HtmlState.finalize, List.mem_append, Option.mem_toList] at hs
  rcases hs with hs | hs
  · exact h1.1 s hs
  · exact h1.2 s hs

theorem Kept.image {n : Nat} (env : HtmlEnv) {st : HtmlState} (h : AllSlides (Q n) st) (a : List (Str × Str)) :
    AllSlides (Q n) (st.image env o a) := by
  simp only [HtmlState.image]
  split
  · exact h
  · rename_i hi
    simp only [Bool.or_eq_true, not_or, Bool.not_eq_true', Bool.not_eq_false] at hi
    split
    · exact h.set (K.images n _ _ hi.1 (K.currentD h _)) rfl rfl
    · exact K.addParagraph h _

theorem Kept.step {n : Nat} (env : HtmlEnv) {st st' : HtmlState} (e : HtmlEvent) (h : AllSlides (Q n) st)
    (hs : st.step env o e = some st') :
    AllSlides (Q n) st' ∨ (∃ t, e = .closeTag t ∧ t ∈ subHeadings) ∧ AllSlides (Q (n + 1)) st' := by
  cases e with
  | openTag m a =>
    left
    simp only [HtmlState.step, HtmlState.openTag] at hs
    split at hs
    · simp only [Option.some.injEq] at hs
      subst hs
      exact h.of_eq rfl rfl
    · split at hs
      · simp at hs
      · simp only [Option.some.injEq] at hs
        subst hs
        have h' : AllSlides (Q n) { st with stack := m :: st.stack } := h.of_eq rfl rfl
        exact openBody_cases env o _ m a (K.finalize (K.flushText h')) (K.flushText h') (h.of_eq rfl rfl) (h.of_eq rfl rfl)
          (h.of_eq rfl rfl) (h.of_eq rfl rfl) (fun _ => h.of_eq rfl rfl) (K.image env h' a) h'
  | closeTag m =>
    simp only [HtmlState.step, HtmlState.closeTag, Option.map_eq_some_iff] at hs
    obtain ⟨st1, h1, rfl⟩ := hs
    split at h1
    · left
      simp only [Option.some.injEq] at h1
      subst h1
      exact h.of_eq rfl rfl
    · by_cases hm : m ∈ subHeadings
      · right
        refine ⟨⟨m, rfl, hm⟩, ?_⟩
        have e : st.closeBody o m = some st.closeSub := by
          unfold HtmlState.closeBody
          rw [if_neg, if_pos hm]
          rintro rfl
          revert hm; decide
        rw [e, Option.some.injEq] at h1
        subst h1
        have hm1 : AllSlides (Q (n + 1)) st := ⟨fun s hs => K.mono n s (h.1 s hs), fun s hs => K.mono n s (h.2 s hs)⟩
        simp only [HtmlState.closeSub]
        split
        · exact hm1.of_eq rfl rfl
        · exact hm1.set (K.sub n _ (c!"**" ++ trim st.buffer ++ c!"**")
            (K.currentD (st := { st with buffer := [] }) (h.of_eq rfl rfl) c!"Slide")) rfl rfl
      · left
        suffices AllSlides (Q n) st1 from this.of_eq rfl rfl
        refine closeBody_cases h1 (h.set (K.fresh n _) rfl rfl) (fun hm' => absurd hm' hm) (K.flushText h) (h.of_eq rfl rfl)
          (K.flushItems h) ?_ ?_ ?_ (h.of_eq rfl rfl) ?_ (fun _ => h.of_eq rfl rfl) h
        · simp only [HtmlState.flushCode]
          split
          · exact h.of_eq rfl rfl
          · rename_i hi
            simp only [Bool.or_eq_true, not_or, Bool.not_eq_true', Bool.not_eq_false] at hi
            exact h.set (K.code n _ (trim st.code) hi.1 (K.currentD (st := { st with inCode := false }) (h.of_eq rfl rfl) c!"Code")) rfl rfl
        · intro st2 h2
          simp only [HtmlState.flushTable] at h2
          split at h2
          · simp only [Option.some.injEq] at h2
            subst h2
            exact h.of_eq rfl rfl
          · rename_i hi
            simp only [Bool.or_eq_true, not_or, Bool.not_eq_true', Bool.not_eq_false] at hi
            simp only [Option.map_eq_some_iff] at h2
            obtain ⟨t, _, rfl⟩ := h2
            exact h.set (K.table n _ t hi.1 (K.currentD (st := { st with inTable := false }) (h.of_eq rfl rfl) c!"Data Table")) rfl rfl
        · simp only [HtmlState.flushQuote]
          split
          · exact h.of_eq rfl rfl
          · refine ⟨h.1, ?_⟩
            intro s hs
            simp only [Option.map_eq_some_iff] at hs
            obtain ⟨s0, h0, rfl⟩ := hs
            exact K.notes n s0 _ (h.2 s0 h0)
        · simp only [HtmlState.closeRow]
          split
          · exact h
          · exact h.of_eq rfl rfl
  | text t =>
    left
    simp only [HtmlState.step, Option.some.injEq] at hs
    subst hs
    simp only [HtmlState.addText]
    split_ifs <;> exact h.of_eq rfl rfl

end

/-- Number of closing tags of headings below the first level. -/
def subCloses (es : List HtmlEvent) : Nat :=
  es.countP fun e => [HtmlEvent.closeTag c!"h2", .closeTag c!"h3", .closeTag c!"h4", .closeTag c!"h5", .closeTag c!"h6"].contains e

theorem Kept.run {o : HtmlOptions} {Q : Nat → HtmlSlide → Prop} (K : Kept o Q) (env : HtmlEnv) (es : List HtmlEvent) :
    ∀ {n : Nat} {st st' : HtmlState}, AllSlides (Q n) st → st.run env o es = some st' →
      AllSlides (Q (n + subCloses es)) st' := by
  induction es with
  | nil =>
    intro n st st' h hr
    simp only [HtmlState.run, Option.some.injEq] at hr
    subst hr
    simpa [subCloses] using h
  | cons e es ih =>
    intro n st st' h hr
    rw [run_cons] at hr
    cases h1 : st.step env o e with
    | none => simp [h1] at hr
    | some st1 =>
      rw [h1, Option.bind_some] at hr
      have up : ∀ k, AllSlides (Q (n + k)) st1 → AllSlides (Q (n + k + 1)) st1 := fun k hk =>
        ⟨fun s hs => K.mono _ s (hk.1 s hs), fun s hs => K.mono _ s (hk.2 s hs)⟩
      have key : AllSlides (Q (n + subCloses [e])) st1 := by
        rcases K.step env e h h1 with h2 | ⟨⟨t, rfl, ht⟩, h2⟩
        · by_cases hc : subCloses [e] = 0
          · rw [hc]; exact h2
          · have : subCloses [e] = 1 := by
              simp only [subCloses, List.countP_cons, List.countP_nil] at hc ⊢
              split at hc <;> simp_all
            rw [this]
            exact up 0 h2
        · have : subCloses [.closeTag t] = 1 := by
            simp only [subHeadings, List.mem_cons, List.not_mem_nil, or_false] at ht
            rcases ht with rfl | rfl | rfl | rfl | rfl <;> rfl
          rw [this]; exact h2
      have := ih key hr
      have e1 : subCloses (e :: es) = subCloses [e] + subCloses es := by
        simp only [subCloses, List.countP_cons, List.countP_nil]
        omega
      rw [e1, ← Nat.add_assoc]
      exact this

theorem Kept.parse {o : HtmlOptions} {Q : Nat → HtmlSlide → Prop} (K : Kept o Q) (env : HtmlEnv) (es : List HtmlEvent)
    (slides : List HtmlSlide) (h : parseEvents env o es = some (.ok slides)) : ∀ s ∈ slides, Q (subCloses es) s := by
  simp only [parseEvents, Option.map_eq_some_iff] at h
  obtain ⟨st, hr, hf⟩ := h
  have h0 : AllSlides (Q 0) {} := ⟨by simp, by simp⟩
  have h1 := K.finalize (K.run env es h0 hr)
  simp only [HtmlState.finish] at hf
  split at hf
  · simp at hf
  · simp only [Except.ok.injEq] at hf
    subst hf
    intro s hs
    have := h1.1 s (List.mem_of_mem_take hs)
    simpa using this

theorem push_len (s : HtmlSlide) (x : Str) : (s.push x).content.length = s.content.length + 1 := by simp [HtmlSlide.push]

/-- Every bullet is listed in the content and the other way round. -/
theorem C45_bullets_match (env : HtmlEnv) (o : HtmlOptions) (es : List HtmlEvent) (slides : List HtmlSlide)
    (h : parseEvents env o es = some (.ok slides)) : ∀ s ∈ slides, s.bullets = s.content := by
  refine Kept.parse (o := o) (Q := fun _ s => s.bullets = s.content) ?_ env es slides h
  have hp : ∀ (s : HtmlSlide) x, s.bullets = s.content → (s.push x).bullets = (s.push x).content := by
    intro s x h; simp [HtmlSlide.push, h]
  exact {
    mono := fun _ _ h => h
    fresh := fun _ _ => rfl
    first := fun _ _ _ => rfl
    para := fun _ s x h => by
      unfold HtmlSlide.pushLimited
      split
      · exact hp s x h
      · exact h
    sub := fun _ s x h => hp s x h
    table := fun _ _ _ _ h => h
    code := fun _ _ _ _ h => h
    notes := fun _ _ _ h => h
    images := fun _ _ _ _ h => h }

/-- A slide has at most the permitted number of bullets, not counting headings below the first level; at least one
is always permitted. -/
theorem C45_bullets_partial (env : HtmlEnv) (o : HtmlOptions) (es : List HtmlEvent) (slides : List HtmlSlide)
    (h : parseEvents env o es = some (.ok slides)) :
    ∀ s ∈ slides, s.content.length ≤ max 1 o.maxBullets + subCloses es := by
  refine Kept.parse (o := o) (Q := fun n s => s.content.length ≤ max 1 o.maxBullets + n) ?_ env es slides h
  exact {
    mono := fun n s h => by omega
    fresh := fun _ _ => by simp
    first := fun n _ _ => by
      rw [push_len]
      simp only [List.length_nil]
      omega
    para := fun n s x h => by
      unfold HtmlSlide.pushLimited
      split
      · rw [push_len]; omega
      · exact h
    sub := fun n s x h => by rw [push_len]; omega
    table := fun _ _ _ _ h => h
    code := fun _ _ _ _ h => h
    notes := fun _ _ _ h => h
    images := fun _ _ _ _ h => h }

/-- Content of the kinds that are switched off is not imported. -/
theorem C45_switches (env : HtmlEnv) (o : HtmlOptions) (es : List HtmlEvent) (slides : List HtmlSlide)
    (h : parseEvents env o es = some (.ok slides)) :
    ∀ s ∈ slides, (o.includeTables = false → s.table = none) ∧ (o.includeCode = false → s.code = []) ∧
      (o.includeImages = false → s.images = []) := by
  refine Kept.parse (o := o) (Q := fun _ s => (o.includeTables = false → s.table = none) ∧
    (o.includeCode = false → s.code = []) ∧ (o.includeImages = false → s.images = [])) ?_ env es slides h
  exact {
    mono := fun _ _ h => h
    fresh := fun _ _ => ⟨fun _ => rfl, fun _ => rfl, fun _ => rfl⟩
    first := fun _ _ _ => ⟨fun _ => rfl, fun _ => rfl, fun _ => rfl⟩
    para := fun n s x h => by
      unfold HtmlSlide.pushLimited
      split
      · exact h
      · exact h
    sub := fun n s x h => h
    table := fun _ _ _ hi h => ⟨fun hf => by rw [hi] at hf; simp at hf, h.2⟩
    code := fun _ _ _ hi h => ⟨h.1, fun hf => by rw [hi] at hf; simp at hf, h.2.2⟩
    notes := fun _ _ _ h => h
    images := fun _ _ _ hi h => ⟨h.1, h.2.1, fun hf => by rw [hi] at hf; simp at hf⟩ }

theorem run_maxSlides (env : HtmlEnv) (o : HtmlOptions) (m : Nat) (es : List HtmlEvent) (st : HtmlState) :
    st.run env { o with maxSlides := m } es = st.run env o es := by
  induction es generalizing st with
  | nil => rfl
  | cons e es ih =>
    rw [run_cons, run_cons]
    have : st.step env { o with maxSlides := m } e = st.step env o e := by
      cases e <;> rfl
    rw [this]
    cases st.step env o e with
    | none => rfl
    | some st1 => exact ih st1

/-- The slides imported are the first ones of the page, as many as the limit permits. -/
theorem C45_slides (env : HtmlEnv) (o : HtmlOptions) (es : List HtmlEvent) :
    (∀ m, parseEvents env { o with maxSlides := m } es = none) ∨
    (∀ m, parseEvents env { o with maxSlides := m } es = some (.error ())) ∨
    ∃ all, all ≠ [] ∧ ∀ m, parseEvents env { o with maxSlides := m } es = some (.ok (all.take m)) := by
  cases hr : HtmlState.run env o {} es with
  | none => left; intro m; simp [parseEvents, run_maxSlides, hr]
  | some st =>
    right
    have hz : ∀ m, HtmlState.finalize { o with maxSlides := m } st = st.finalize o := fun m => rfl
    by_cases hs : (st.finalize o).slides = []
    · left; intro m
      simp [parseEvents, run_maxSlides, hr, HtmlState.finish, hz, hs]
    · right
      exact ⟨_, hs, fun m => by simp [parseEvents, run_maxSlides, hr, HtmlState.finish, hz, hs]⟩

end PptRs.Props
