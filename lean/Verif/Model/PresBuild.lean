import Verif.Model.Settings

/-!
# Building presentations

src/api.rs and src/generator/slide_content/presentation_settings.rs. Slides `σ` and themes `Θ` are parameters, and so is the generator.
-/

namespace PptRs.PresBuild

open PptRs PptRs.Settings

/-- `PresentationSettings`, src/generator/slide_content/presentation_settings.rs 14-27. -/
structure PresSettings (Θ : Type) where
  theme : Option Θ := none
  slideShow : Option SlideShow := none
  print : Option PrintSettings := none
  fonts : Option (List FontIn) := none
  signature : Option Signature := none
  template : Option Str := none

/-- The methods of `PresentationSettings`, src/generator/slide_content/presentation_settings.rs 34-62. -/
inductive SettingsCall (Θ : Type) where
  | theme (t : Θ)
  | slideShow (s : SlideShow)
  | print (p : PrintSettings)
  | fonts (l : List FontIn)
  | signature (s : Signature)
  | template (p : Str)

variable {Θ σ : Type}

/-- What they do, src/generator/slide_content/presentation_settings.rs 34-62. -/
def PresSettings.set (s : PresSettings Θ) : SettingsCall Θ → PresSettings Θ
  | .theme t => { s with theme := some t }
  | .slideShow x => { s with slideShow := some x }
  | .print p => { s with print := some p }
  | .fonts l => { s with fonts := some l }
  | .signature x => { s with signature := some x }
  | .template p => { s with template := some p }

/-- `has_settings`, src/generator/slide_content/presentation_settings.rs 65-72. -/
def PresSettings.any (s : PresSettings Θ) : Bool :=
  s.theme.isSome || s.slideShow.isSome || s.print.isSome || s.fonts.isSome || s.signature.isSome || s.template.isSome

/-- `Presentation`, src/api.rs 14-18, and `new`, src/api.rs 22-28. -/
structure Pres (Θ σ : Type) where
  title : Str := []
  slides : List σ := []
  settings : Option (PresSettings Θ) := none

/-- The methods of `Presentation`, src/api.rs 40-55 and 73-84. -/
inductive PresCall (Θ σ : Type) where
  | title (s : Str)
  | slide (s : σ)
  | presentation (p : Pres Θ σ)
  | theme (t : Θ)
  | settings (s : PresSettings Θ)

/-- What they do, src/api.rs 40-55 and 73-84. -/
def Pres.apply (p : Pres Θ σ) : PresCall Θ σ → Pres Θ σ
  | .title s => { p with title := s }
  | .slide s => { p with slides := p.slides ++ [s] }
  | .presentation q => { p with slides := p.slides ++ q.slides }
  | .theme t => { p with settings := some { p.settings.getD {} with theme := some t } }
  | .settings s => { p with settings := some s }

/-- `with_title`, src/api.rs 31-37. -/
def Pres.withTitle (s : Str) : Pres Θ σ := { title := s }

/-- `build`, src/api.rs 87-95; `gen` is `create_pptx_with_settings`. -/
def Pres.build (gen : Str → List σ → Option (PresSettings Θ) → Option Bytes) (p : Pres Θ σ) : Option Bytes :=
  if p.slides.isEmpty then none else gen p.title p.slides p.settings

/-- `into_bytes`, src/api.rs 98-106. -/
def Pres.intoBytes (gen : Str → List σ → Option (PresSettings Θ) → Option Bytes) (p : Pres Θ σ) : Option Bytes :=
  if p.slides.isEmpty then none else gen p.title p.slides p.settings

/-- `save`, src/api.rs 109-113: whether it succeeded, and the files; `writes` says whether the system writes the file, and `broken` what it
leaves of it otherwise. -/
def Pres.save (gen : Str → List σ → Option (PresSettings Θ) → Option Bytes) (writes : Str → Bool) (broken : Str → Option Bytes)
    (files : Str → Option Bytes) (path : Str) (p : Pres Θ σ) : Bool × (Str → Option Bytes) :=
  match p.build gen with
  | none => (false, files)
  | some b => if writes path then (true, fun q => if q = path then some b else files q)
    else (false, fun q => if q = path then broken path else files q)

end PptRs.PresBuild
