import Verif.Model.Templates
import Verif.Props.SlideText

/-!
# C121: templates show what they are given
-/

namespace PptRs.Props

open PptRs PptRs.Spec PptRs.Templates

/-- The texts of a presentation: the title of each slide and the lines below it. -/
abbrev Outline := List (Str × List Str)

/-- A slide is a document with the title and the lines, and nothing else. -/
def ShowsLines (s : SlideText) (o : Str × List Str) : Prop :=
  ∃ doc, document s.xml = some doc ∧ boxes doc = (some c!"Title", [o.1]) :: (if o.2 = [] then [] else [(some c!"Content", o.2)])

/-- Slide by slide. -/
inductive ShowsOutline : List SlideText → Outline → Prop where
  | nil : ShowsOutline [] []
  | cons {s : SlideText} {l : List SlideText} {x : Str × List Str} {o : Outline} : ShowsLines s x → ShowsOutline l o → ShowsOutline (s :: l) (x :: o)

theorem shows_append {a b : List SlideText} {o p : Outline} (h : ShowsOutline a o) (g : ShowsOutline b p) : ShowsOutline (a ++ b) (o ++ p) := by
  induction h with
  | nil => exact g
  | cons x _ ih => exact .cons x ih

theorem bulletSlide_eq (t : Str) (l : List Str) : bulletSlide t l = { SlideText.new t with content := l, bullets := l.map fun x => { text := x } } := by
  have : ∀ s : SlideText, s.bulletStyle = .bullet →
      l.foldl SlideText.addBullet s = { s with content := s.content ++ l, bullets := s.bullets ++ l.map fun x => { text := x } } := by
    induction l with
    | nil => intro s _; simp
    | cons x l ih =>
      intro s hs
      rw [List.foldl_cons, ih _ (by simpa [SlideText.addBullet] using hs)]
      simp [SlideText.addBullet, hs]
  rw [bulletSlide, this _ rfl]
  rfl

theorem plainStyle : BulletStyle.bullet.Safe := fun c h => by cases h

theorem shows_bullets (t : Str) (l : List Str) : ShowsLines (bulletSlide t l) (t, l) := by
  rw [bulletSlide_eq]
  have hs : SlideText.Safe { SlideText.new t with content := l, bullets := l.map fun x => { text := x } } := by
    constructor
    · intro c h; simp [SlideText.new] at h
    · intro c h; simp [SlideText.new] at h
    · exact plainStyle
    · intro b hb
      obtain ⟨x, _, rfl⟩ := List.mem_map.mp hb
      exact ⟨plainStyle, by simp⟩
    · intro c h; simp [SlideText.new] at h
  have hx : ReadsAs (fmt (SlideText.new t).extra) [] := by
    intro top st
    simp [SlideText.new, fmt, steps]
  obtain ⟨doc, h1, h2⟩ := C66_slide_text_reads_back_partial hs hx
  refine ⟨doc, h1, ?_⟩
  rw [h2]
  cases l <;> simp [SlideText.expected, SlideText.new, SlideText.texts, boxes, boxNodesL, Function.comp_def]

theorem shows_centered (s : SlideText) (h : s.Safe) (hl : s.layout = .centeredTitle) (hx : s.extra = []) : ShowsLines s (s.title, []) := by
  have hx' : ReadsAs (fmt s.extra) [] := by
    rw [hx]
    intro top st
    simp [fmt, steps]
  obtain ⟨doc, h1, h2⟩ := C66_slide_text_reads_back_partial h hx'
  refine ⟨doc, h1, ?_⟩
  rw [h2]
  simp [SlideText.expected, hl, boxes, boxNodesL]

theorem shows_title (t a : Str) : ShowsLines (titleSlide t a) (t, []) := by
  refine shows_centered _ ⟨?_, ?_, plainStyle, ?_, ?_⟩ rfl rfl
  · intro c h; simp [titleSlide, SlideText.new, SlideText.addBullet] at h
  · intro c h; simp [titleSlide, SlideText.new, SlideText.addBullet] at h
  · intro b hb
    simp [titleSlide, SlideText.new, SlideText.addBullet] at hb
    subst hb
    exact ⟨plainStyle, by simp⟩
  · intro c h; simp [titleSlide, SlideText.new, SlideText.addBullet] at h

theorem shows_map (l : List (Str × List Str)) : ShowsOutline (l.map fun m => bulletSlide m.1 m.2) l := by
  induction l with
  | nil => exact .nil
  | cons m l ih => exact .cons (shows_bullets _ _) ih

/-! ### What should be shown -/

/-- A section that may be missing. -/
def section? (t : Str) (l : List Str) : Outline := if l = [] then [] else [(t, l)]

/-- A business proposal. -/
def proposalOutline (title author : Str) (c : Proposal) : Outline :=
  [(title, [author]), (c!"Agenda", [c!"Executive Summary", c!"Problem Statement", c!"Proposed Solution", c!"Timeline & Budget", c!"Next Steps"]),
   (c!"Executive Summary", c.summary), (c!"Problem Statement", c.problem), (c!"Proposed Solution", c.solution),
   (c!"Timeline", c.timeline.map fun p => p.1 ++ c!": " ++ p.2), (c!"Budget", c.budget.map fun p => p.1 ++ c!": " ++ p.2),
   (c!"Next Steps", c.next), (c!"Questions?", [c!"Discussion and Q&A"])]

/-- Material for a training. -/
def trainingOutline (title author : Str) (c : Training) : Outline :=
  (title, [author]) :: (c!"Learning Objectives", c.objectives) :: c.modules ++
    [(c!"Exercises", c.exercises), (c!"Summary", c.summary), (c!"Questions?", [])]

/-- A status report. -/
def statusOutline (title date : Str) (c : Status) : Outline :=
  [(title, [date]), (c!"Executive Summary", c.summary), (c!"Completed ✓", c.completed), (c!"In Progress", c.inProgress)]
  ++ section? c!"Blocked / Risks" c.blocked ++ [(c!"Next Week", c.nextWeek)]
  ++ section? c!"Key Metrics" (c.metrics.map fun p => p.1 ++ c!": " ++ p.2)

/-- A technical documentation. -/
def technicalOutline (title version : Str) (c : Technical) : Outline :=
  (title, [c!"Version " ++ version]) :: (c!"Overview", c.overview) :: (c!"Architecture", c.architecture) :: c.components
  ++ section? c!"API Reference" (c.api.map fun p => p.1 ++ c!" - " ++ p.2) ++ [(c!"Best Practices", c.practices)]

/-- **C121**, where it holds: all slides of a proposal show their title and their lines, except that below the two centred titles nothing is shown. -/
theorem C121_proposal_partial (title author : Str) (c : Proposal) :
    ShowsOutline (businessProposal title author c) ((title, []) :: (proposalOutline title author c).tail.dropLast ++ [(c!"Questions?", [])]) := by
  refine .cons (shows_title _ _) (.cons ?_ (.cons ?_ (.cons ?_ (.cons ?_ (.cons ?_ (.cons ?_ (.cons ?_ (.cons (shows_title _ _) .nil))))))))
  all_goals exact shows_bullets _ _

theorem shows_section (t : Str) (l : List Str) : ShowsOutline (if l = [] then [] else [bulletSlide t l]) (section? t l) := by
  unfold section?
  split
  · exact .nil
  · exact .cons (shows_bullets _ _) .nil

/-- **C121**, where it holds: all slides of training material after the first show their title and their lines, one slide per module. -/
theorem C121_training_partial (title author : Str) (c : Training) :
    ShowsOutline (trainingMaterial title author c) ((title, []) :: (trainingOutline title author c).tail) := by
  refine .cons (shows_title _ _) (.cons (shows_bullets _ _) (shows_append (shows_map _) ?_))
  refine .cons (shows_bullets _ _) (.cons (shows_bullets _ _) (.cons ?_ .nil))
  refine shows_centered _ ⟨?_, ?_, plainStyle, ?_, ?_⟩ rfl rfl
  all_goals intro c h; simp [SlideText.new] at h

/-- **C121**, where it holds: all slides of a status report after the first show their title and their lines. -/
theorem C121_status_partial (title date : Str) (c : Status) :
    ShowsOutline (statusReport title date c) ((title, []) :: (statusOutline title date c).tail) := by
  have e : (if c.metrics = [] then [] else [bulletSlide c!"Key Metrics" (c.metrics.map pair)])
      = if (c.metrics.map pair) = [] then [] else [bulletSlide c!"Key Metrics" (c.metrics.map pair)] := by simp
  unfold statusReport
  rw [e]
  refine shows_append (a := _) (o := ((title, []) :: [(c!"Executive Summary", c.summary), (c!"Completed ✓", c.completed), (c!"In Progress", c.inProgress)])
    ++ section? c!"Blocked / Risks" c.blocked ++ [(c!"Next Week", c.nextWeek)]) ?_ (shows_section c!"Key Metrics" (c.metrics.map pair))
  refine shows_append (shows_append ?_ (shows_section _ _)) (.cons (shows_bullets _ _) .nil)
  exact .cons (shows_title _ _) (.cons (shows_bullets _ _) (.cons (shows_bullets _ _) (.cons (shows_bullets _ _) .nil)))

/-- **C121**, where it holds: all slides of a technical documentation after the first show their title and their lines, one slide per component. -/
theorem C121_technical_partial (title version : Str) (c : Technical) :
    ShowsOutline (technicalDoc title version c) ((title, []) :: (technicalOutline title version c).tail) := by
  have e : (if c.api = [] then [] else [bulletSlide c!"API Reference" (c.api.map fun p => p.1 ++ c!" - " ++ p.2)])
      = if (c.api.map fun p => p.1 ++ c!" - " ++ p.2) = [] then [] else [bulletSlide c!"API Reference" (c.api.map fun p => p.1 ++ c!" - " ++ p.2)] := by simp
  unfold technicalDoc
  rw [e]
  refine shows_append (o := ((title, []) :: (c!"Overview", c.overview) :: (c!"Architecture", c.architecture) :: c.components)
    ++ section? c!"API Reference" (c.api.map fun p => p.1 ++ c!" - " ++ p.2)) ?_ (.cons (shows_bullets _ _) .nil)
  refine shows_append ?_ (shows_section _ _)
  exact .cons (shows_title _ _) (.cons (shows_bullets _ _) (.cons (shows_bullets _ _) (shows_map _)))

/-- **C121**: the simple template shows all it is given. -/
theorem C121_simple (o : Outline) : ShowsOutline (simple o) o := shows_map o

/-- The documents of the slides. -/
def slideTexts (l : List SlideText) : List (Option (List (Option Str × List Str))) := l.map fun s => (document s.xml).map boxes

theorem slideTexts_eq {l : List SlideText} {o : Outline} (h : ShowsOutline l o) :
    slideTexts l = o.map fun s => some ((some c!"Title", [s.1]) :: (if s.2 = [] then [] else [(some c!"Content", s.2)])) := by
  induction h with
  | nil => rfl
  | cons a _ ih =>
    obtain ⟨doc, h1, h2⟩ := a
    unfold slideTexts at ih ⊢
    rw [List.map_cons, List.map_cons, ih, h1, Option.map_some, h2]

/-- **C121 does not hold in full.** The author of a proposal or of training material, the date of a status report and the version of a technical
documentation are not shown on any slide: they are bullets of a slide with a centred title, and that layout writes no bullets. The same holds for
the line "Discussion and Q&A" at the end of a proposal. -/
theorem C121_second_line_violated (title a b : Str) (p : Proposal) (t : Training) (s : Status) (d : Technical) :
    slideTexts (businessProposal title a p) = slideTexts (businessProposal title b p)
    ∧ slideTexts (trainingMaterial title a t) = slideTexts (trainingMaterial title b t)
    ∧ slideTexts (statusReport title a s) = slideTexts (statusReport title b s)
    ∧ slideTexts (technicalDoc title a d) = slideTexts (technicalDoc title b d)
    ∧ (slideTexts (businessProposal title a p)).getLast? = some (some [(some c!"Title", [c!"Questions?"])]) := by
  have h := fun a => slideTexts_eq (C121_proposal_partial title a p)
  refine ⟨(h a).trans (h b).symm, ?_, ?_, ?_, by rw [h]; rfl⟩
  · exact (slideTexts_eq (C121_training_partial title a t)).trans (slideTexts_eq (C121_training_partial title b t)).symm
  · exact (slideTexts_eq (C121_status_partial title a s)).trans (slideTexts_eq (C121_status_partial title b s)).symm
  · exact (slideTexts_eq (C121_technical_partial title a d)).trans (slideTexts_eq (C121_technical_partial title b d)).symm

example : slideTexts (statusReport c!"S" c!"May" ⟨[c!"ok"], [], [c!"a<b"], [], [c!"n"], [(c!"m", c!"1")]⟩)
    = [some [(some c!"Title", [c!"S"])], some [(some c!"Title", [c!"Executive Summary"]), (some c!"Content", [c!"ok"])],
       some [(some c!"Title", [c!"Completed ✓"])], some [(some c!"Title", [c!"In Progress"]), (some c!"Content", [c!"a<b"])],
       some [(some c!"Title", [c!"Next Week"]), (some c!"Content", [c!"n"])],
       some [(some c!"Title", [c!"Key Metrics"]), (some c!"Content", [c!"m: 1"])]] :=
  slideTexts_eq (C121_status_partial _ _ _)

end PptRs.Props
