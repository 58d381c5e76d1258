import Verif.Model.SlideText

/-!
# Templates: src/templates.rs

Each template gives the slides that are passed to `create_pptx_with_content`.
-/

namespace PptRs.Templates

open PptRs

/-- A slide with bullets, as in src/templates.rs 157-161 and at many other places. -/
def bulletSlide (title : Str) (l : List Str) : SlideText := l.foldl SlideText.addBullet (SlideText.new title)

/-- A slide with a bullet and a centred title, src/templates.rs 141-143. -/
def titleSlide (title line : Str) : SlideText := { (SlideText.new title).addBullet line with layout := .centeredTitle }

/-- `format!("{}: {}", a, b)`. -/
def pair (p : Str × Str) : Str := p.1 ++ c!": " ++ p.2

/-- `ProposalContent`, src/templates.rs 32-39. -/
structure Proposal where
  summary : List Str
  problem : List Str
  solution : List Str
  timeline : List (Str × Str)
  budget : List (Str × Str)
  next : List Str

/-- `TrainingContent`, src/templates.rs 56-61. -/
structure Training where
  objectives : List Str
  modules : List (Str × List Str)
  exercises : List Str
  summary : List Str

/-- `StatusContent`, src/templates.rs 76-83. -/
structure Status where
  summary : List Str
  completed : List Str
  inProgress : List Str
  blocked : List Str
  nextWeek : List Str
  metrics : List (Str × Str)

/-- `TechnicalContent`, src/templates.rs 100-106. -/
structure Technical where
  overview : List Str
  architecture : List Str
  components : List (Str × List Str)
  api : List (Str × Str)
  practices : List Str

/-- `business_proposal`, src/templates.rs 132-206. -/
def businessProposal (title author : Str) (c : Proposal) : List SlideText :=
  [titleSlide title author,
   bulletSlide c!"Agenda" [c!"Executive Summary", c!"Problem Statement", c!"Proposed Solution", c!"Timeline & Budget", c!"Next Steps"],
   bulletSlide c!"Executive Summary" c.summary,
   bulletSlide c!"Problem Statement" c.problem,
   bulletSlide c!"Proposed Solution" c.solution,
   bulletSlide c!"Timeline" (c.timeline.map pair),
   bulletSlide c!"Budget" (c.budget.map pair),
   bulletSlide c!"Next Steps" c.next,
   titleSlide c!"Questions?" c!"Discussion and Q&A"]

/-- `training_material`, src/templates.rs 217-268. -/
def trainingMaterial (title author : Str) (c : Training) : List SlideText :=
  [titleSlide title author, bulletSlide c!"Learning Objectives" c.objectives]
  ++ c.modules.map (fun m => bulletSlide m.1 m.2)
  ++ [bulletSlide c!"Exercises" c.exercises, bulletSlide c!"Summary" c.summary,
      { SlideText.new c!"Questions?" with layout := .centeredTitle }]

/-- `status_report`, src/templates.rs 280-341. -/
def statusReport (title date : Str) (c : Status) : List SlideText :=
  [titleSlide title date, bulletSlide c!"Executive Summary" c.summary, bulletSlide c!"Completed ✓" c.completed,
   bulletSlide c!"In Progress" c.inProgress]
  ++ (if c.blocked = [] then [] else [bulletSlide c!"Blocked / Risks" c.blocked])
  ++ [bulletSlide c!"Next Week" c.nextWeek]
  ++ (if c.metrics = [] then [] else [bulletSlide c!"Key Metrics" (c.metrics.map pair)])

/-- `technical_doc`, src/templates.rs 352-406. -/
def technicalDoc (title version : Str) (c : Technical) : List SlideText :=
  [titleSlide title (c!"Version " ++ version), bulletSlide c!"Overview" c.overview, bulletSlide c!"Architecture" c.architecture]
  ++ c.components.map (fun m => bulletSlide m.1 m.2)
  ++ (if c.api = [] then [] else [bulletSlide c!"API Reference" (c.api.map fun p => p.1 ++ c!" - " ++ p.2)])
  ++ [bulletSlide c!"Best Practices" c.practices]

/-- `simple`, src/templates.rs 409-419. -/
def simple (slides : List (Str × List Str)) : List SlideText := slides.map fun s => bulletSlide s.1 s.2

end PptRs.Templates
