import Verif.Model.Builder
import Verif.Model.Quick

/-!
# Slides that are asked for one by one

`create_pptx_lazy_to_writer` is given an object that is asked for its number of slides, for each
slide and for the features of each slide. Nothing forces the answers to fit together: the object
may answer "no slide" below its own count, and `slide_features` can be overridden.

Simplification: the object gives the same answer whenever it is asked the same question (the trait
takes `&self`; an object with interior mutability could change its mind between two passes).
-/

namespace PptRs.Lazy

open PptRs

/-- src/generator/builder.rs 284-310: `LazySlideSource`. -/
structure Source where
  count : Nat
  generate : Nat → Option SlideIn
  features : Nat → Option (Bool × Nat)

/-- src/generator/builder.rs 292-295: the features of a source that does not override
`slide_features`. -/
def defaultFeatures (generate : Nat → Option SlideIn) (i : Nat) : Option (Bool × Nat) :=
  (generate i).map fun s => (s.notes.isSome, s.charts)

/-- src/generator/builder.rs 298-302, and the same expression in 818-823, 878-884, 915-922 and
947-951. -/
def Source.notesAt (s : Source) (i : Nat) : Bool := ((s.features i).map (·.1)).getD false

/-- src/generator/builder.rs 305-309, 411-414. -/
def Source.chartsAt (s : Source) (i : Nat) : Nat := ((s.features i).map (·.2)).getD 0

/-- The indices a pass goes through. -/
def Source.indices (s : Source) : List Nat := List.range s.count

/-- src/generator/builder.rs 818-823. -/
def Source.hasNotes (s : Source) : Bool := s.indices.any s.notesAt

/-- src/generator/builder.rs 878-885, 915-922. -/
def Source.notesCount (s : Source) : Nat := (s.indices.filter s.notesAt).length

/-- src/generator/builder.rs 924-931. -/
def Source.inkCount (s : Source) : Nat :=
  (s.indices.filter fun i => ((s.generate i).map (·.ink)).getD false).length

/-- src/generator/builder.rs 61-73. -/
def Source.registry (s : Source) : MediaRegistry :=
  s.indices.foldl (fun r i => match s.generate i with
    | some slide => slide.images.foldl registerImage r
    | none => r) .empty

/-- src/generator/builder.rs 405-421: the first chart number of each slide, counting on from
`total`, for the given indices. -/
def Source.startsFrom (s : Source) : Nat → List Nat → List Nat
  | _, [] => []
  | total, i :: is => (total + 1) :: s.startsFrom (total + s.chartsAt i) is

/-- src/generator/builder.rs 405-421: `total_charts`. -/
def Source.totalCharts (s : Source) : Nat := s.indices.foldl (fun t i => t + s.chartsAt i) 0

/-- src/generator/builder.rs 906-1003. -/
def Source.contentTypes (s : Source) (st : BuildSettings) : ContentTypes :=
  let exts := s.registry.extensions
  let ct : ContentTypes :=
    { defaults := (contentTypesOpening exts s.totalCharts).defaults
      overrides := (contentTypesOpening exts s.totalCharts).overrides ++
        (upTo s.count).map (fun i => overrideOf (.slide i) .slide) ++
        notesOverrides s.notesCount ++ handoutOverrides st.handout ++
        chartOverrides s.totalCharts ++ contentTypesFooter ++ layoutOverrides
      closed := (contentTypesOpening exts s.totalCharts).closed }
  let ct := if st.signature then appendSignatureTypes ct else ct
  let ct := if (st.fonts.getD []).isEmpty then ct else appendFontTypes ct
  { appendInkTypes ct s.inkCount with closed := true }

/-- src/generator/builder.rs 1027-1122: the loop over the chart numbers, from index `i` on, after
`n` notes parts and `k` ink parts. An index without a slide is passed over. -/
def Source.packagesFrom (s : Source) (st : BuildSettings) (r : MediaRegistry) :
    Nat → Nat → Nat → List Nat → List Entry
  | _, _, _, [] => []
  | i, n, k, start :: starts =>
    match s.generate i with
    | none => s.packagesFrom st r (i + 1) n k starts
    | some slide =>
      slideEntries i n k
        (slideContentRelStart slide.notes.isSome (slideImageRelTargets slide r).length) slide ++
      [slideRelsEntry st r i n k start slide] ++
      (consecutive start slide.charts).flatMap chartParts ++
      s.packagesFrom st r (i + 1) (n + slide.notes.isSome.toNat) (k + slide.ink.toNat) starts

/-- src/generator/builder.rs 1125-1145: the loop over the indices, `n` notes parts so far. -/
def Source.notesRelsFrom (s : Source) : Nat → List Nat → List Entry
  | _, [] => []
  | n, i :: is =>
    if s.notesAt i then
      ⟨.notesRels (n + 1), .rels (notesRels (i + 1))⟩ :: s.notesRelsFrom (n + 1) is
    else s.notesRelsFrom n is

/-- src/generator/builder.rs 810-903: all archive entries in writing order. -/
def Source.build (s : Source) (st : BuildSettings) : List Entry :=
  let fonts := prepareFonts st s.count s.hasNotes
  [⟨.contentTypes, .contentTypes (s.contentTypes st)⟩,
   ⟨.rootRels, .rels (rootRels st.signature)⟩,
   ⟨.presRels, .rels (presentationRelsWithFonts s.count s.hasNotes st.handout (fonts.getD []))⟩,
   ⟨.presentation,
     .presentation (presentationXml s.count s.hasNotes st.handout (fonts.getD []))⟩] ++
  standardParts ++
  (if st.handout then handoutParts else []) ++
  s.packagesFrom st s.registry 0 0 0 (s.startsFrom 0 s.indices) ++
  (if s.hasNotes then s.notesRelsFrom 0 s.indices ++ notesMasterParts else []) ++
  themeAndLayoutParts st ++
  [⟨.core, .other⟩, ⟨.app, .other⟩] ++
  writeImagesFrom 0 s.registry.files ++
  fontParts (fonts.getD []) ++
  (if st.signature then signatureParts else [])

/-- src/generator/builder.rs 485-501. -/
def Source.titles (s : Source) : List Str :=
  s.indices.map fun i => match s.generate i with
    | some slide => if slide.title.all isWs then c!"Slide " ++ dec (i + 1) else slide.title
    | none => c!"Slide " ++ dec (i + 1)

end PptRs.Lazy
