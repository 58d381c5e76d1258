import Verif.Model.PartStates
import Verif.Props.CoreProps
import Verif.Props.Reader
import Verif.Props.Parts

/-!
# Parts that change (C139, C140)
-/

namespace PptRs.Props

open PptRs PptRs.Spec PptRs.Reader

/-! ### Slides -/

/-- How a slide part comes to be. -/
inductive SlideStart where
  | new
  | content (c : SlideText)
  | text (x : Str)

/-- The part; `none` if the text cannot be read. -/
def SlideStart.part (n : Nat) : SlideStart → Option SlidePart
  | .new => some (.new n)
  | .content c => some (.fromContent n c)
  | .text x => SlidePart.parse x n

/-- **C139.** A slide part that was made in any way and given any number of contents is written as the last of them, or as
it was made; it keeps its number and its places in the package. -/
theorem C139_latest (n : Nat) (st : SlideStart) (p : SlidePart) (h : st.part n = some p) (cs : List SlideText) :
    (cs.foldl SlidePart.setContent p).toXml = (match cs.getLast?, st with
      | some c, _ => c.xml
      | none, .content c => c.xml
      | none, .text x => x
      | none, .new => (SlidePart.new n).toXml) ∧
    (cs.foldl SlidePart.setContent p).path = c!"ppt/slides/slide" ++ dec n ++ c!".xml" ∧
    (cs.foldl SlidePart.setContent p).relsPath = c!"ppt/slides/_rels/slide" ++ dec n ++ c!".xml.rels" := by
  have hn : p.number = n := by
    cases st with
    | new => cases h; rfl
    | content c => cases h; rfl
    | text x =>
      obtain ⟨r, _, rfl⟩ := Option.map_eq_some_iff.mp h
      rfl
  have hnum : ∀ (cs : List SlideText) (p : SlidePart), (cs.foldl SlidePart.setContent p).number = p.number := by
    intro cs
    induction cs with
    | nil => intro p; rfl
    | cons c cs ih => intro p; exact ih _
  refine ⟨?_, by rw [SlidePart.path, hnum, hn], by rw [SlidePart.relsPath, hnum, hn]⟩
  rcases List.eq_nil_or_concat cs with rfl | ⟨cs, c, rfl⟩
  · cases st with
    | new => cases h; rfl
    | content c => cases h; rfl
    | text x =>
      obtain ⟨r, _, rfl⟩ := Option.map_eq_some_iff.mp h
      rfl
  · rw [List.concat_eq_append, List.foldl_append, List.getLast?_concat]
    rfl

/-- **C139.** A loaded slide has the title and the texts that are read from its text. -/
theorem C139_loaded (x : Str) (n : Nat) (p : SlidePart) (h : SlidePart.parse x n = some p) :
    ∃ r, parseSlide x = some r ∧ p.title = r.title ∧ p.bodyText = r.bodyText := by
  obtain ⟨r, hr, rfl⟩ := Option.map_eq_some_iff.mp h
  exact ⟨r, hr, rfl, rfl⟩

/-- **C139** (partial, as C86: no markup in colours, fonts and bullet characters, numbers that fit, no blank texts and no
further objects). Writing a slide and loading it again gives its title and its bullets. -/
theorem C139_reload_partial {s : SlideText} (h : s.Safe) (hn : SmallNumbers s) (hx : s.extra = [])
    (hl : showsBullets s = true) (ht : ¬ BlankText s.title) (hb : ∀ t ∈ s.texts, ¬ BlankText t) (n : Nat) :
    ∃ p, SlidePart.parse (SlidePart.fromContent n s).toXml n = some p ∧ p.title = some s.title ∧ p.bodyText = s.texts ∧
      p.toXml = (SlidePart.fromContent n s).toXml := by
  obtain ⟨r, hr, h1, h2⟩ := C86_title_and_bullets_partial h hn hx hl ht hb
  exact ⟨{ number := n, parsed := some r, kept := some s.xml },
    by rw [SlidePart.parse, show (SlidePart.fromContent n s).toXml = s.xml from rfl, hr]; rfl, h1, h2, rfl⟩

/-- **C139.** A new slide part is an empty slide. -/
theorem C139_new (n : Nat) : parseSlide (SlidePart.new n).toXml = some {} := by
  show parseSlide (xmlDecl ++ fmt SlidePart.emptyBody) = _
  decide +kernel

/-- **C139 does not hold for the title and texts of a changed slide**: `set_content` drops the loaded text but not what was
read from it, so `title` and `body_text` still tell the old title and texts. -/
theorem C139_stale_violated (p : SlidePart) (c : SlideText) : (p.setContent c).toXml = c.xml ∧
    (p.setContent c).title = p.title ∧ (p.setContent c).bodyText = p.bodyText := ⟨rfl, rfl, rfl⟩

/-- **C139 does not hold for slides made from content**: `title` and `body_text` tell nothing. -/
theorem C139_content_title_violated (n : Nat) (c : SlideText) : (SlidePart.fromContent n c).title = none ∧
    (SlidePart.fromContent n c).bodyText = [] := ⟨rfl, rfl⟩

/-- **C139 does not hold for the number of a slide loaded with `from_xml`**, which is always 1, so that two loaded slides are
written to the same place. -/
theorem C139_number_violated (x y : Str) (p q : SlidePart) (hp : SlidePart.fromXml x = some p) (hq : SlidePart.fromXml y = some q) :
    p.path = c!"ppt/slides/slide1.xml" ∧ q.path = p.path := by
  obtain ⟨_, _, rfl⟩ := Option.map_eq_some_iff.mp hp
  obtain ⟨_, _, rfl⟩ := Option.map_eq_some_iff.mp hq
  exact ⟨show c!"ppt/slides/slide" ++ dec 1 ++ c!".xml" = _ by decide, rfl⟩

/-- **C139 does not hold for the relationships**: whatever the layout of its content, a slide part refers to the first
layout and to nothing else. -/
theorem C139_layout_violated (p : SlidePart) : ∃ r, p.createRelationships = some r ∧
    r.rels = [⟨c!"rId1", .slideLayout, c!"../slideLayouts/slideLayout1.xml"⟩] := ⟨_, rfl, by decide⟩

/-- Two contents, the second is written. -/
example : ∃ p, (SlideStart.text (SlidePart.new 4).toXml).part 4 = some p ∧
    ((p.setContent (.new c!"A")).setContent (.new c!"B")).toXml = (SlideText.new c!"B").xml :=
  ⟨{ number := 4, parsed := some {}, kept := some (SlidePart.new 4).toXml }, by
    rw [SlideStart.part, SlidePart.parse, C139_new]; rfl, rfl⟩

/-- **C139** for charts: the last chart is written, or the loaded text; without either there is nothing to write. -/
theorem C139_chart (n : Nat) (x : Str) (cs : List Chart) :
    (cs.foldl ChartPart.setChart (.new n)).toXml = cs.getLast?.map generateChartPartXml ∧
    (cs.foldl ChartPart.setChart (.fromXml x)).toXml = some ((cs.getLast?.map generateChartPartXml).getD x) ∧
    (∀ c, (cs.foldl ChartPart.setChart (.fromChart n c)).toXml = some (generateChartPartXml ((c :: cs).getLast (by simp)))) ∧
    (cs.foldl ChartPart.setChart (.new n)).path = c!"ppt/charts/chart" ++ dec n ++ c!".xml" ∧
    (cs.foldl ChartPart.setChart (.new n)).relTarget = c!"../charts/chart" ++ dec n ++ c!".xml" := by
  have hnum : ∀ (cs : List Chart) (p : ChartPart), (cs.foldl ChartPart.setChart p).number = p.number := by
    intro cs
    induction cs with
    | nil => intro p; rfl
    | cons c cs ih => intro p; exact ih _
  rcases List.eq_nil_or_concat cs with rfl | ⟨l, c, rfl⟩
  · exact ⟨rfl, rfl, fun _ => rfl, rfl, rfl⟩
  · rw [List.concat_eq_append]
    refine ⟨?_, ?_, ?_, ?_, ?_⟩
    · rw [List.foldl_append, List.getLast?_concat]; rfl
    · rw [List.foldl_append, List.getLast?_concat]; rfl
    · intro d
      rw [List.foldl_append]
      simp only [List.foldl_cons, List.foldl_nil]
      rw [List.getLast_cons (by simp), List.getLast_concat]
      rfl
    · rw [ChartPart.path, hnum]; rfl
    · rw [ChartPart.relTarget, hnum]; rfl

/-! ### Document properties -/

/-- The last value that was set, or the one before. -/
def lastSet (f : CoreOp → Option Str) (old : Option Str) (ops : List CoreOp) : Option Str :=
  (ops.filterMap f).getLast?.or old

def setsTitle : CoreOp → Option Str | .title s => some s | _ => none
def setsSubject : CoreOp → Option Str | .subject s => some s | _ => none
def setsCreator : CoreOp → Option Str | .creator s => some s | _ => none
def setsKeywords : CoreOp → Option Str | .keywords s => some s | _ => none
def setsDescription : CoreOp → Option Str | .description s => some s | _ => none
def setsModified : CoreOp → Option Str | .touch n => some (currentTimestamp n) | _ => none

/-- The number of `touch` calls. -/
def touchCount (ops : List CoreOp) : Nat := (ops.filterMap setsModified).length

theorem lastSet_cons (f : CoreOp → Option Str) (old : Option Str) (o : CoreOp) (ops : List CoreOp) :
    lastSet f old (o :: ops) = lastSet f ((f o).or old) ops := by
  unfold lastSet
  rw [List.filterMap_cons]
  cases f o with
  | none => rfl
  | some v =>
    generalize ops.filterMap f = l
    cases hl : l.getLast? with
    | none =>
      rw [List.getLast?_eq_none_iff] at hl
      subst hl
      rfl
    | some w =>
      rw [List.getLast?_cons, hl]
      rfl

/-- **C140.** Every property is the last that was set, the revision counts the calls of `touch`, the date of the change is
that of the last of them, and author and date of the making stay. The only failure is a revision that does not fit. -/
theorem C140_last (ops : List CoreOp) (p : CoreProps) (hr : ∀ r ∈ p.revision, r + touchCount ops < 4294967296) :
    p.runAll ops = some { p with
      title := lastSet setsTitle p.title ops
      subject := lastSet setsSubject p.subject ops
      creator := lastSet setsCreator p.creator ops
      keywords := lastSet setsKeywords p.keywords ops
      description := lastSet setsDescription p.description ops
      modified := lastSet setsModified p.modified ops
      revision := p.revision.map (· + touchCount ops) } := by
  induction ops generalizing p with
  | nil =>
    obtain ⟨_, _, _, _, _, _, r, _, _⟩ := p
    cases r <;> rfl
  | cons o ops ih =>
    simp only [lastSet_cons]
    unfold CoreProps.runAll at ih ⊢
    rw [List.foldlM_cons]
    have ht : ∀ k, touchCount (.touch k :: ops) = touchCount ops + 1 := fun k => rfl
    cases o with
    | touch k =>
      rw [ht] at hr ⊢
      cases hp : p.revision with
      | none =>
        simp only [CoreProps.run, hp]
        show List.foldlM CoreProps.run _ ops = _
        rw [ih _ (by simp)]
        simp [setsTitle, setsSubject, setsCreator, setsKeywords, setsDescription, setsModified]
      | some r =>
        have hr' := hr r (by rw [hp]; rfl)
        simp only [CoreProps.run, hp]
        rw [if_pos (by omega)]
        show List.foldlM CoreProps.run _ ops = _
        rw [ih _ (by simp; omega)]
        simp [setsTitle, setsSubject, setsCreator, setsKeywords, setsDescription, setsModified]
        omega
    | title s =>
      show List.foldlM CoreProps.run _ ops = _
      rw [ih { p with title := some s } hr]
      rfl
    | subject s =>
      show List.foldlM CoreProps.run _ ops = _
      rw [ih { p with subject := some s } hr]
      rfl
    | creator s =>
      show List.foldlM CoreProps.run _ ops = _
      rw [ih { p with creator := some s } hr]
      rfl
    | keywords s =>
      show List.foldlM CoreProps.run _ ops = _
      rw [ih { p with keywords := some s } hr]
      rfl
    | description s =>
      show List.foldlM CoreProps.run _ ops = _
      rw [ih { p with description := some s } hr]
      rfl

theorem plain_now (n : Nat) : Plain (currentTimestamp n) := plain_stamp _

theorem stamp_not_blank (n : Nat) : ¬ BlankText (currentTimestamp n) := by
  intro h
  have := h 'T' (by unfold currentTimestamp Stamp.text; simp)
  revert this
  decide

attribute [local irreducible] currentTimestamp

/-- **C140** (partial: texts of white space are lost, as in C87). New properties that are changed in any way, with fewer than
2^32 - 1 calls of `touch`, are written and read back with the last of every property. -/
theorem C140_saved_partial (secs : Nat) (ops : List CoreOp) (ht : touchCount ops < 4294967295)
    (hb : ∀ f ∈ [setsTitle, setsSubject, setsCreator, setsKeywords, setsDescription], ∀ t ∈ ops.filterMap f, ¬ BlankText t) :
    ∃ p, (CoreProps.new secs).runAll ops = some p ∧ CoreProps.fromXml p.toXml = some {
      title := lastSet setsTitle none ops
      subject := lastSet setsSubject none ops
      creator := lastSet setsCreator (some c!"pptx-rs") ops
      keywords := lastSet setsKeywords none ops
      description := lastSet setsDescription none ops
      lastModifiedBy := some c!"pptx-rs"
      revision := some (1 + touchCount ops)
      created := some (currentTimestamp secs)
      modified := lastSet setsModified (some (currentTimestamp secs)) ops } := by
  refine ⟨_, C140_last ops _ ?_, ?_⟩
  · intro r hr
    cases hr
    omega
  · have hmod : ∀ t ∈ lastSet setsModified (some (currentTimestamp secs)) ops, ∃ k, t = currentTimestamp k := by
      intro t h
      unfold lastSet at h
      cases hl : (ops.filterMap setsModified).getLast? with
      | none =>
        rw [hl] at h
        cases h
        exact ⟨_, rfl⟩
      | some w =>
        rw [hl] at h
        cases h
        obtain ⟨o, _, ho⟩ := List.mem_filterMap.mp (List.mem_of_getLast? hl)
        cases o <;> cases ho
        exact ⟨_, rfl⟩
    have hlast : ∀ f ∈ [setsTitle, setsSubject, setsCreator, setsKeywords, setsDescription], ∀ old : Option Str,
        (∀ t ∈ old, ¬ BlankText t) → ∀ t ∈ lastSet f old ops, ¬ BlankText t := by
      intro f hf old ho t h
      unfold lastSet at h
      cases hl : (ops.filterMap f).getLast? with
      | none =>
        rw [hl] at h
        exact ho t h
      | some w =>
        rw [hl] at h
        cases h
        exact hb f hf _ (List.mem_of_getLast? hl)
    refine C87_round_trip_partial _ ⟨?_, ?_⟩ ?_ ?_
    · intro t h
      cases h
      exact plain_now _
    · intro t h
      obtain ⟨k, rfl⟩ := hmod t h
      exact plain_now _
    · intro r hr
      cases hr
      show 1 + touchCount ops < _
      omega
    · intro o ho t hto
      simp only [List.mem_cons, List.not_mem_nil, or_false] at ho
      have hp : ¬ BlankText c!"pptx-rs" := by decide
      rcases ho with rfl | rfl | rfl | rfl | rfl | rfl | rfl | rfl
      · exact hlast setsTitle (by simp) _ (by simp [CoreProps.new]) t hto
      · exact hlast setsSubject (by simp) _ (by simp [CoreProps.new]) t hto
      · refine hlast setsCreator (by simp) _ ?_ t hto
        intro u hu
        cases hu
        exact hp
      · exact hlast setsKeywords (by simp) _ (by simp [CoreProps.new]) t hto
      · exact hlast setsDescription (by simp) _ (by simp [CoreProps.new]) t hto
      · cases hto
        exact hp
      · cases hto
        exact stamp_not_blank _
      · obtain ⟨k, rfl⟩ := hmod t hto
        exact stamp_not_blank _

/-- **C140 does not hold for a loaded part with the greatest revision**: `touch` panics in a debug build (and counts from 0 in
a release build). -/
theorem C140_revision_violated (secs : Nat) :
    ∃ p, CoreProps.fromXml ({ revision := some 4294967295 } : CoreProps).toXml = some p ∧ p.run (.touch secs) = none :=
  ⟨_, C87_round_trip_partial _ ⟨by simp, by simp⟩ (by simp) (by simp), rfl⟩

/-- Two titles and two revisions. -/
example : ((CoreProps.new 0).runAll [.title c!"A", .touch 60, .title c!"B", .touch 3600]).map (fun p => (p.title, p.revision, p.created, p.modified))
    = some (some c!"B", some 3, some c!"1970-01-01T00:00:00Z", some c!"1970-01-01T01:00:00Z") := by decide +kernel

end PptRs.Props
