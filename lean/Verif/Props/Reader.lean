import Verif.Lemmas.ReaderOrder
import Verif.Props.XmlElement

/-!
# Reading presentations: C52 and C86
-/

namespace PptRs.Props

open PptRs PptRs.Spec PptRs.Reader

/-! ## C86: slides -/

/-- The additional shapes of a slide are neither text boxes nor tables. -/
def NoBoxes (X : List Node) : Prop :=
  ∀ n as ks, Node.elem n as ks ∈ X → afterColon n ≠ c!"sp" ∧ afterColon n ≠ c!"graphicFrame"

theorem namedIn_noBoxes {X : List Node} (h : NoBoxes X) :
    namedIn c!"sp" X = [] ∧ namedIn c!"graphicFrame" X = [] := by
  induction X with
  | nil => exact ⟨rfl, rfl⟩
  | cons k X ih =>
    obtain ⟨h1, h2⟩ := ih fun n as ks hm => h n as ks (by simp [hm])
    have e : ∀ n, namedIn n (k :: X) = (built k).filter (fun c => c.localName = n) ++ namedIn n X := by
      intro n
      simp [namedIn, builtIn]
    rw [e, e, h1, h2]
    cases k with
    | text t => exact ⟨rfl, rfl⟩
    | elem n as ks =>
      obtain ⟨g1, g2⟩ := h n as ks (by simp)
      simp [built, localName_eq, XmlElement.tag, g1, g2]

/-- **C86** (partial: no markup in colours, fonts and bullet characters; numbers that fit into 32 bits; no further text
boxes). Reading a written slide gives the boxes with their places, the title, the bullets with their level and format and
the table; only texts that are white space are lost. -/
theorem C86_slide_reads_back_partial {s : SlideText} {X : List Node} (h : s.Safe) (hn : SmallNumbers s)
    (hx : ReadsAs (fmt s.extra) X) (hX : NoBoxes X) : parseSlide s.xml = some (seenSlide s) := by
  obtain ⟨x1, x2⟩ := namedIn_noBoxes hX
  rw [parseSlide_node h hx, x1, x2, List.append_nil, List.append_nil, fold_shapes hn, tables_shapes hn]
  rfl

/-- The title and the bullets as they were given, if none of them is blank. -/
theorem C86_title_and_bullets_partial {s : SlideText} (h : s.Safe) (hn : SmallNumbers s) (hx : s.extra = [])
    (hl : showsBullets s = true) (ht : ¬ BlankText s.title) (hb : ∀ t ∈ s.texts, ¬ BlankText t) :
    ∃ r, parseSlide s.xml = some r ∧ r.title = some s.title ∧ r.bodyText = s.texts := by
  have hx' : ReadsAs (fmt s.extra) [] := by
    rw [hx]
    intro top st
    simp [fmt, steps]
  refine ⟨_, C86_slide_reads_back_partial h hn hx' (by intro n as ks hm; simp at hm), ?_, ?_⟩
  · have : s.layout ≠ .blank := by
      intro e
      simp [showsBullets, e] at hl
    simp [seenSlide, this, visible, ht]
  · simp only [seenSlide, hl, if_true]
    rw [List.filter_eq_self]
    intro t htm
    simpa using hb t htm

example : ∃ s : SlideText, s.Safe ∧ SmallNumbers s ∧ s.extra = [] ∧ showsBullets s = true ∧ ¬ BlankText s.title ∧
    (∀ t ∈ s.texts, ¬ BlankText t) ∧ s.texts = [c!"a & b", c!"<c>"] := by
  refine ⟨((SlideText.new c!"Plan").addBullet c!"a & b").addBullet c!"<c>",
    ⟨by simp [SlideText.new, SlideText.addBullet], by simp [SlideText.new, SlideText.addBullet],
      by simp [SlideText.new, SlideText.addBullet, BulletStyle.Safe], ?_, by simp [SlideText.new, SlideText.addBullet]⟩,
    ⟨by simp [SlideText.new, SlideText.addBullet], by simp [SlideText.new, SlideText.addBullet],
      by simp [SlideText.new, SlideText.addBullet], by simp [SlideText.new, SlideText.addBullet],
      by simp [SlideText.new, SlideText.addBullet]⟩, rfl, rfl, by decide, by decide, rfl⟩
  intro b hb
  have : b.style = .bullet ∧ b.format = none := by
    simp [SlideText.new, SlideText.addBullet] at hb
    rcases hb with rfl | rfl <;> exact ⟨rfl, rfl⟩
  exact ⟨by simp [this.1, BulletStyle.Safe], by simp [this.2]⟩

/-- A title of white space is read as the empty title. -/
theorem C86_blank_title_violated {s : SlideText} {X : List Node} (h : s.Safe) (hn : SmallNumbers s)
    (hx : ReadsAs (fmt s.extra) X) (hX : NoBoxes X) (hl : s.layout ≠ .blank) (ht : BlankText s.title) :
    (parseSlide s.xml).map (·.title) = some (some []) := by
  rw [C86_slide_reads_back_partial h hn hx hX]
  simp [seenSlide, hl, visible, ht]

/-- `all_text` lists the title and the bullets twice. -/
theorem C86_all_text_violated {s : SlideText} (h : s.Safe) (hn : SmallNumbers s) (hx : s.extra = [])
    (hl : s.layout = .titleOnly) (ht : ¬ BlankText s.title) :
    (parseSlide s.xml).map (·.allText) = some [s.title, s.title] := by
  have hx' : ReadsAs (fmt s.extra) [] := by
    rw [hx]
    intro top st
    simp [fmt, steps]
  have hne : s.title ≠ [] := by intro e; exact ht (by simp [e, BlankText])
  rw [C86_slide_reads_back_partial h hn hx' (by intro n as ks hm; simp at hm)]
  have h2 : (seenTitleBox s 44 s.titleBold 457200 274638 8230200 1143000).text = s.title := by
    have := text_title s 44 s.titleBold 457200 274638 8230200 1143000
    rw [visible, if_neg ht] at this
    exact this
  simp only [Option.map_some, ParsedSlide.allText, seenSlide, seenShapes, showsBullets, hl]
  simp [visible, ht, h2, hne]

/-! ## C52: the order of the slides -/

example (n : Nat) (a b : Bool) : ∃ p : Package,
    p.getPart c!"ppt/_rels/presentation.xml.rels" = some (encode (renderRels (presentationRels n a b))) :=
  ⟨Package.addPart [] c!"ppt/_rels/presentation.xml.rels" (encode (renderRels (presentationRels n a b))), rfl⟩

/-- **C52.** A generated presentation is read in the order of its slides. -/
theorem C52_generated_order (p : Package) (n : Nat) (notes handout : Bool) (h0 : 0 < n) (hn : n + 1 < 4294967296)
    (h : p.getPart c!"ppt/_rels/presentation.xml.rels" = some (encode (renderRels (presentationRels n notes handout)))) :
    slidePaths p = (List.range n).map fun i => c!"ppt/slides/slide" ++ dec (i + 1) ++ c!".xml" := by
  have h1 : Package.getPartString p c!"ppt/_rels/presentation.xml.rels" = some (renderRels (presentationRels n notes handout)) := by
    unfold Package.getPartString
    rw [h, Option.map_some, decodeLossy_encode]
  have h2 := relSlides_text (relsText_renderRels (plain_presentationRels n notes handout))
    (entries_presentationRels n notes handout) hn
  have h3 : listedSlides p = (upTo n).map Editor.slidePath := by
    unfold listedSlides
    rw [h1, Option.bind_some, h2]
    rfl
  unfold slidePaths
  rw [h3, if_neg]
  · simp [upTo, Editor.slidePath]
  · have : upTo n ≠ [] := by
      unfold upTo
      simp; omega
    simpa using this

/-- The editor's package names its slides in its relationships. -/
def Listed (e : Editor) : Prop :=
  ∃ x l, Package.getPartString e.package Editor.presRelsPath = some x ∧ RelsText x l ∧
    l.filterMap slideEntry = slideRefs e.slideCount

theorem listed_same {e e' : Editor} (h : Listed e) (h1 : e'.slideCount = e.slideCount)
    (h2 : Package.getPartString e'.package Editor.presRelsPath = Package.getPartString e.package Editor.presRelsPath) :
    Listed e' := by
  obtain ⟨x, l, a, b, c⟩ := h
  exact ⟨x, l, h2.trans a, b, by rw [h1]; exact c⟩

theorem listed_rebuild (e : Editor) : Listed (Editor.rebuild e) :=
  ⟨_, _, (rebuild_texts e).2.1, relsText_renderRels (plain_presentationRels _ _ _), entries_presentationRels _ _ _⟩

theorem listed_run {e : Editor} (h : Listed e) (op : Editor.Op) : Listed (op.run e).1 := by
  have hrej : (op.run e).2 = none → Listed (op.run e).1 := by
    intro hr
    have hp := C17_rejected_changes_nothing e op hr
    rw [hp]
    exact h
  have hstr : Structural op → Listed (op.run e).1 := by
    intro hs
    cases hr : (op.run e).2 with
    | none => exact hrej hr
    | some k =>
      obtain ⟨e', he⟩ := structural_rebuild (e := e) hs (by rw [hr]; rfl)
      rw [he]
      exact listed_rebuild e'
  cases op with
  | add c =>
    obtain ⟨x, l, h1, h2, h3⟩ := h
    refine ⟨Editor.addToPresentationRels x (e.slideCount + 1), _, ?_, relsText_add h2 (e.slideCount + 1), ?_⟩
    · show Package.getPartString (e.addSlide c).1.package _ = _
      rw [(getPartString_addSlide e c).1, h1]
      rfl
    · rw [List.filterMap_append, h3]
      show _ = slideRefs (e.slideCount + 1)
      simp [slideRefs, upTo, List.range_succ, entry_slide]
  | update i c =>
    show Listed (e.updateSlide i c).1
    unfold Editor.updateSlide
    split
    · exact h
    · refine listed_same h rfl ?_
      unfold Package.getPartString
      rw [Editor.getPart_addPart, if_neg (Editor.fixed_presRels.slide _)]
  | insert i c => exact hstr trivial
  | remove i => exact hstr trivial
  | duplicate i => exact hstr trivial
  | reorder a b =>
    by_cases hab : a = b
    · subst hab
      show Listed (e.reorderSlide a a).1
      unfold Editor.reorderSlide
      split
      · exact h
      · simpa using h
    · exact hstr hab

theorem listed_runAll {e : Editor} (h : Listed e) (ops : List Editor.Op) : Listed (Editor.runAll e ops).2 := by
  induction ops generalizing e with
  | nil => exact h
  | cons op ops ih => exact ih (listed_run h op)

theorem sortStrs_nil : sortStrs [] = [] := rfl

theorem slidePaths_inv {e : Editor} {l : List Slide} (h : Editor.Inv e l) (hl : Listed e) (hn : l.length + 1 < 4294967296) :
    slidePaths e.package = (List.range l.length).map fun i => c!"ppt/slides/slide" ++ dec (i + 1) ++ c!".xml" := by
  obtain ⟨x, rl, h1, h2, h3⟩ := hl
  rw [h.count] at h3
  have h4 : listedSlides e.package = (upTo l.length).map Editor.slidePath := by
    unfold listedSlides
    rw [show Package.getPartString e.package c!"ppt/_rels/presentation.xml.rels" = some x from h1, Option.bind_some,
      relSlides_text h2 h3 hn]
    rfl
  unfold slidePaths
  rw [h4]
  cases l with
  | nil =>
    have : (e.package.partPaths.filter isSlideFile) = [] := by
      rw [List.filter_eq_nil_iff]
      intro k hk hs
      have hs' : Editor.isSlidePart k = true := hs
      obtain ⟨i, hi, _⟩ := h.are.only k (isSlidePart_iff.mp hs') (by
        have := AMap.get_isSome_iff (m := e.package) (k := k)
        rw [show e.package.getPart k = AMap.get e.package k from rfl, this]
        exact hk)
      simp at hi
    rw [this]
    rfl
  | cons s l =>
    rw [if_neg (by simp [upTo])]
    simp [upTo, Editor.slidePath]

/-- **C52.** After any sequence of calls of the editor, reading the package shows the edited list of slides: as many as
there should be, each at its place with its content. -/
theorem C52_order_after_edits (p : Package) (l : List Slide) (notes handout : Bool) (hp : AMap.Ok p) (h : SlidesAre p l)
    (ht : NoTemps p)
    (hr : p.getPart c!"ppt/_rels/presentation.xml.rels" =
      some (encode (renderRels (presentationRels l.length notes handout))))
    (ops : List Editor.Op) (hn : (editAll l ops).2.length + 1 < 4294967296) :
    (slidePaths (Editor.runAll (Editor.ofPackage p) ops).2.package).length = (editAll l ops).2.length ∧
    ∀ i, getSlide (Editor.runAll (Editor.ofPackage p) ops).2.package i =
      (editAll l ops).2[i]?.bind fun s => parseSlide (decodeLossy s.xml) := by
  have hinv : Editor.Inv (Editor.ofPackage p) l := ⟨h, ht, countSlides_eq hp h⟩
  have hlist : Listed (Editor.ofPackage p) := by
    refine ⟨_, _, ?_, relsText_renderRels (plain_presentationRels l.length notes handout), ?_⟩
    · show Package.getPartString p _ = _
      unfold Package.getPartString
      rw [show p.getPart Editor.presRelsPath = _ from hr, Option.map_some, decodeLossy_encode]
    · rw [hinv.count]
      exact entries_presentationRels _ _ _
  have h1 := (runAll_correct hinv ops).2
  have h2 := slidePaths_inv h1 (listed_runAll hlist ops) hn
  refine ⟨by rw [h2]; simp, fun i => ?_⟩
  unfold getSlide
  rw [h2, List.getElem?_map]
  by_cases hi : i < (editAll l ops).2.length
  · rw [List.getElem?_range hi, Option.map_some, Option.bind_some]
    have := h1.are.slides i
    unfold Package.getPartString
    rw [this]
    cases (editAll l ops).2[i]? <;> rfl
  · rw [List.getElem?_eq_none (by simpa using hi), List.getElem?_eq_none (by simpa using hi)]
    rfl

/-- **C52** with **C86**: slides that were added are read with their title, bullets and tables. -/
theorem C52_edited_deck_partial (p : Package) (l : List Slide) (notes handout : Bool) (hp : AMap.Ok p) (h : SlidesAre p l)
    (ht : NoTemps p)
    (hr : p.getPart c!"ppt/_rels/presentation.xml.rels" =
      some (encode (renderRels (presentationRels l.length notes handout))))
    (ops : List Editor.Op) (hn : (editAll l ops).2.length + 1 < 4294967296) (i : Nat) (s : SlideText) (rels : Option Bytes)
    (hi : (editAll l ops).2[i]? = some ⟨encode s.xml, rels⟩) (hs : s.Safe) (hsn : SmallNumbers s) (hx : s.extra = []) :
    getSlide (Editor.runAll (Editor.ofPackage p) ops).2.package i = some (seenSlide s) := by
  rw [(C52_order_after_edits p l notes handout hp h ht hr ops hn).2 i, hi, Option.bind_some, decodeLossy_encode]
  refine C86_slide_reads_back_partial (X := []) hs hsn ?_ (by intro n as ks hm; simp at hm)
  rw [hx]
  intro top st
  simp [fmt, steps]

/-- Without relationships (as for slides added to a new editor) the slides are read in the order of their names: the tenth
slide is the second. -/
theorem C52_new_editor_violated (c : SlideText) :
    (slidePaths (Editor.runAll Editor.new ((List.range 10).map fun _ => .add c)).2.package).take 3 =
      [c!"ppt/slides/slide1.xml", c!"ppt/slides/slide10.xml", c!"ppt/slides/slide2.xml"] := by
  krfl

end PptRs.Props
