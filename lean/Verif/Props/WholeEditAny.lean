import Verif.Props.WholeEdit
import Verif.Props.ImportShapes

/-!
# C145 for files with anything on their slides
-/

namespace PptRs.Spec

open PptRs.Editor

/-- What a call should do to a list in which `mk c` stands for a slide with the content `c`, and what it should return. -/
def editAny {α : Type} (mk : SlideText → α) (l : List α) : Op → List α × Option Nat
  | .add c => (l ++ [mk c], some l.length)
  | .insert i c => if i ≤ l.length then (l.take i ++ [mk c] ++ l.drop i, some i) else (l, none)
  | .update i c => if i < l.length then (l.set i (mk c), some 0) else (l, none)
  | .remove i => if i < l.length then (l.take i ++ l.drop (i + 1), some 0) else (l, none)
  | .duplicate i =>
    match l[i]? with
    | some s => (l.take (i + 1) ++ [s] ++ l.drop (i + 1), some (i + 1))
    | none => (l, none)
  | .reorder a b =>
    match l[a]? with
    | some s =>
      if b < l.length then
        let rest := l.take a ++ l.drop (a + 1)
        (rest.take b ++ [s] ++ rest.drop b, some 0)
      else (l, none)
    | none => (l, none)

/-- The list after a sequence of calls. -/
def editAnyAll {α : Type} (mk : SlideText → α) (l : List α) (ops : List Op) : List α :=
  ops.foldl (fun l op => (editAny mk l op).1) l

end PptRs.Spec

namespace PptRs.Props

open PptRs PptRs.Spec PptRs.Reader PptRs.Import PptRs.Draw PptRs.Whole PptRs.Editor

theorem editAny_map {α β : Type} (mk : SlideText → α) (f : α → β) (l : List α) (op : Op) :
    editAny (fun c => f (mk c)) (l.map f) op = ((editAny mk l op).1.map f, (editAny mk l op).2) := by
  cases op with
  | add c => simp [editAny]
  | insert i c => simp only [editAny, List.length_map]; split <;> simp [List.map_take, List.map_drop]
  | update i c => simp only [editAny, List.length_map]; split <;> simp [List.map_set]
  | remove i => simp only [editAny, List.length_map]; split <;> simp [List.map_take, List.map_drop]
  | duplicate i =>
    simp only [editAny, List.getElem?_map]
    cases l[i]? <;> simp [List.map_take, List.map_drop]
  | reorder a b =>
    simp only [editAny, List.getElem?_map, List.length_map]
    cases l[a]? with
    | none => simp
    | some s =>
      simp only [Option.map_some]
      split <;> simp [List.map_take, List.map_drop]

theorem editAnyAll_map {α β : Type} (mk : SlideText → α) (f : α → β) (l : List α) (ops : List Op) :
    editAnyAll (fun c => f (mk c)) (l.map f) ops = (editAnyAll mk l ops).map f := by
  induction ops generalizing l with
  | nil => rfl
  | cons op ops ih =>
    have h := ih (editAny mk l op).1
    have e : (editAny (fun c => f (mk c)) (l.map f) op).1 = (editAny mk l op).1.map f := by rw [editAny_map]
    unfold editAnyAll at *
    rw [List.foldl_cons, List.foldl_cons, e]
    exact h

theorem editContents_any (l : List SlideText) (op : Op) : editContents l op = editAny id l op := by
  cases op with
  | duplicate i => simp only [editContents, editAny]; cases l[i]? <;> rfl
  | reorder a b => simp only [editContents, editAny]; cases l[a]? <;> rfl
  | _ => rfl

/-- The texts of the slide parts after the calls. -/
abbrev editXmls (l : List Str) (ops : List Op) : List Str := editAnyAll SlideText.xml l ops

/-- The parts hold the texts. -/
def XmlsHeld (l : List Slide) (t : List Str) : Prop := l.map (·.xml) = t.map encode

theorem XmlsHeld.length {l : List Slide} {t : List Str} (h : XmlsHeld l t) : l.length = t.length := by
  have := congrArg List.length h
  simpa using this

theorem XmlsHeld.get {l : List Slide} {t : List Str} (h : XmlsHeld l t) (i : Nat) :
    l[i]?.map (·.xml) = t[i]?.map encode := by
  have := congrArg (·[i]?) h
  simpa using this

theorem XmlsHeld.edit {l : List Slide} {t : List Str} (h : XmlsHeld l t) (op : Op) :
    XmlsHeld (editList l op).1 (editAny SlideText.xml t op).1 ∧ (editList l op).2 = (editAny SlideText.xml t op).2 := by
  have hl := h.length
  unfold XmlsHeld at *
  cases op with
  | add c => simp [editList, editAny, hl, h, Slide.of]
  | insert i c =>
    simp only [editList, editAny, hl]
    split
    · simp [List.map_take, List.map_drop, h, Slide.of]
    · simp [h]
  | update i c =>
    simp only [editList, editAny]
    by_cases hi : i < t.length
    · rw [if_pos hi, List.getElem?_eq_getElem (by omega)]
      simp [List.map_set, h]
    · rw [if_neg hi, List.getElem?_eq_none (by omega)]
      simp [h]
  | remove i =>
    simp only [editList, editAny, hl]
    split
    · simp [List.map_take, List.map_drop, h]
    · simp [h]
  | duplicate i =>
    have hg := XmlsHeld.get h i
    simp only [editList, editAny]
    cases e : l[i]? with
    | none =>
      rw [e] at hg
      have : t[i]? = none := by cases e' : t[i]? with
        | none => rfl
        | some x => rw [e'] at hg; cases hg
      simp [this, h]
    | some s =>
      rw [e] at hg
      obtain ⟨x, hx, hs⟩ := Option.map_eq_some_iff.mp hg.symm
      simp only [hx]
      simp [List.map_take, List.map_drop, h, hs]
  | reorder a b =>
    have hg := XmlsHeld.get h a
    simp only [editList, editAny]
    cases e : l[a]? with
    | none =>
      rw [e] at hg
      have : t[a]? = none := by cases e' : t[a]? with
        | none => rfl
        | some x => rw [e'] at hg; cases hg
      simp [this, h]
    | some s =>
      rw [e] at hg
      obtain ⟨x, hx, hs⟩ := Option.map_eq_some_iff.mp hg.symm
      simp only [hx, hl]
      split
      · simp [List.map_take, List.map_drop, h, hs]
      · simp [h]

theorem XmlsHeld.editAll {l : List Slide} {t : List Str} (h : XmlsHeld l t) (ops : List Op) :
    XmlsHeld (Spec.editAll l ops).2 (editXmls t ops) := by
  induction ops generalizing l t with
  | nil => exact h
  | cons op ops ih => exact ih (h.edit op).1

/-! ### Files -/

/-- A file with the slide texts `t` and the document properties `core`. -/
structure XmlFile (a : List (Str × Bytes)) (t : List Str) (core : Bytes) : Prop where
  slides : ∃ l, XmlsHeld l t ∧ Editor.Inv (ofPackage (Package.openReader a)) l
  listed : Listed (ofPackage (Package.openReader a))
  core : (Package.openReader a).getPart c!"docProps/core.xml" = some core

theorem XmlFile.session {a : List (Str × Bytes)} {t : List Str} {core : Bytes} (h : XmlFile a t core) (ops : List Op)
    {entries : List (Str × Bytes)} (ho : (runAll (ofPackage (Package.openReader a)) ops).2.package.Perm entries) :
    XmlFile (Package.saveWriter entries) (editXmls t ops) core := by
  obtain ⟨l, hl, hi⟩ := h.slides
  have h1 := (runAll_correct hi ops).2
  have h2 := listed_runAll h.listed ops
  have hok := kept_ok.runAll (e := ofPackage (Package.openReader a)) ops (ok_openReader a)
  have hcore := (kept_part core_notTouched (some core)).runAll (e := ofPackage (Package.openReader a)) ops h.core
  have part := fun {path : Str} (hd : Package.isDirName path = false) => saved_part hok ho (path := path) hd
  have hare : SlidesAre (Package.openReader (Package.saveWriter entries)) (Spec.editAll l ops).2 := by
    refine ⟨fun i => ?_, fun i => ?_, fun path hp hs => ?_⟩
    · exact (part (slidePath_notDir (i + 1))).trans (h1.are.slides i)
    · exact (part (slideRelsPath_notDir (i + 1))).trans (h1.are.rels i)
    · rw [part (isSlideName_notDir hp)] at hs
      exact h1.are.only path hp hs
  have hcount := countSlides_eq (ok_openReader _) hare
  refine ⟨⟨_, hl.editAll ops, hare, ?_, hcount⟩, ?_, ?_⟩
  · exact ⟨(part (by decide)).trans h1.temps.1, (part (by decide)).trans h1.temps.2⟩
  · refine listed_same h2 ?_ ?_
    · exact hcount.trans h1.count.symm
    · unfold Package.getPartString
      exact congrArg (Option.map decodeLossy) (part (by decide))
  · exact (part (by decide)).trans hcore

theorem XmlFile.sessions {a b : List (Str × Bytes)} {t : List Str} {core : Bytes} {s : List (List Op)} (h : XmlFile a t core)
    (he : Edited a s b) : XmlFile b (editXmls t s.flatten) core := by
  induction he generalizing t with
  | done a => exact h
  | session entries ho _ ih =>
    have := ih (h.session _ ho)
    rw [List.flatten_cons]
    unfold editXmls editAnyAll at *
    rw [List.foldl_append]
    exact this

theorem mapM_of_map {α β γ : Type} (f : α → Option γ) (g : β → Option γ) (l : List α) (m : List β)
    (h : l.map f = m.map g) : l.mapM f = m.mapM g := by
  induction l generalizing m with
  | nil =>
    cases m with
    | nil => rfl
    | cons b m => cases h
  | cons a l ih =>
    cases m with
    | nil => cases h
    | cons b m =>
      obtain ⟨h1, h2⟩ := List.cons.inj h
      simp only [List.mapM_cons]
      rw [ih m h2]
      show (f a >>= _) = (g b >>= _)
      rw [show f a = g b from h1]

theorem XmlFile.opened {a : List (Str × Bytes)} {t : List Str} {core : Bytes} (h : XmlFile a t core)
    (hn : t.length + 1 < 4294967296) :
    Whole.opened a = (t.mapM parseSlide).map fun l =>
      { title := (coreInfo (Package.openReader a)).title.getD [], slides := l.map importSlide } := by
  obtain ⟨l, hl, hi⟩ := h.slides
  have hpaths := slidePaths_inv hi h.listed (by rw [hl.length]; exact hn)
  rw [hl.length] at hpaths
  have hpaths : slidePaths (Package.openReader a) = _ := hpaths
  have hlen : (slidePaths (Package.openReader a)).length = t.length := by rw [hpaths]; simp
  have hget : ∀ i (hi : i < t.length), Reader.getSlide (Package.openReader a) i = parseSlide t[i] := by
    intro i hi'
    unfold Reader.getSlide
    have e : (slidePaths (Package.openReader a))[i]? = some (c!"ppt/slides/slide" ++ dec (i + 1) ++ c!".xml") := by
      rw [hpaths]
      simp [hi']
    have hp : (Package.openReader a).getPart (c!"ppt/slides/slide" ++ dec (i + 1) ++ c!".xml") = some (encode t[i]) := by
      have := hi.are.slides i
      rw [hl.get i, List.getElem?_eq_getElem hi'] at this
      exact this
    rw [e, Option.bind_some, Package.getPartString, hp, Option.map_some, decodeLossy_encode, Option.bind_some]
  unfold Whole.opened importPptx
  rw [hlen, mapM_of_map (Reader.getSlide (Package.openReader a)) parseSlide _ t]
  apply List.ext_getElem?
  intro i
  by_cases hit : i < t.length
  · simp [hit, hget i hit]
  · rw [List.getElem?_eq_none (by simp; omega), List.getElem?_eq_none (by simp; omega)]

theorem mem_buildPackage_anySlide (d : Deck) (st : BuildSettings) {i : Nat} (hi : i < d.count) :
    ∃ x, (⟨.slide (i + 1), .slide x⟩ : Entry) ∈ buildPackage d st := by
  have h : ∃ x, (⟨.slide (i + 1), .slide x⟩ : Entry) ∈ writeSlides d := by
    cases d with
    | plain n => exact ⟨_, List.mem_map.mpr ⟨i + 1, List.mem_map.mpr ⟨i, List.mem_range.mpr hi, rfl⟩, rfl⟩⟩
    | custom l =>
      refine ⟨slideXml (l[i]'hi) (chartRids (slideContentRelStart (l[i]'hi).notes.isSome (l[i]'hi).images.length) (l[i]'hi).charts)
        (if (l[i]'hi).ink then some (c!"rId" ++ dec (slideContentRelStart (l[i]'hi).notes.isSome (l[i]'hi).images.length + (l[i]'hi).charts)) else none),
        mem_writeSlidesFrom.mpr ⟨i, l[i]'hi, List.getElem?_eq_getElem hi, ?_⟩⟩
      unfold slideEntries
      rw [Nat.zero_add i]
      exact List.mem_append_left _ (List.mem_append_right _ (List.mem_singleton.mpr rfl))
  obtain ⟨x, hx⟩ := h
  refine ⟨x, ?_⟩
  unfold buildPackage
  simp only [List.mem_append]
  simp [hx]

/-- The archive written for a deck; `texts` are the texts of the slides and the properties. -/
def archiveOf (d : Deck) (st : BuildSettings) (desc : Str → Str) (texts : PartTexts) (other : PartName → Bytes) : List (Str × Bytes) :=
  (buildPackage d st).map fun e => (e.name.path, entryBytes d st desc texts other e)

/-- The slides of the deck have the texts `xs`, the properties the text `core`. -/
structure DeckTexts (d : Deck) (texts : PartTexts) (xs : List Str) (core : Str) : Prop where
  length : xs.length = d.count
  slides : ∀ i (hi : i < xs.length), texts (.slide (i + 1)) = some xs[i]
  core : texts .core = some core

theorem XmlFile.written {d : Deck} {st : BuildSettings} {texts : PartTexts} {xs : List Str} {core : Str} (h : DeckTexts d texts xs core)
    (desc : Str → Str) (other : PartName → Bytes) (ht : st.template = none) (hf : st.fonts = none) :
    XmlFile (archiveOf d st desc texts other) xs (encode core) := by
  have hfn : ((st.fonts.getD []).map (·.fileName)).Nodup := by rw [hf]; simp
  have hc : d.count = xs.length := h.length.symm
  generalize hp : Package.openReader (archiveOf d st desc texts other) = p
  have part : ∀ e ∈ buildPackage d st, Package.isDirName e.name.path = false → ∀ t,
      entryText d st desc texts e = some t → p.getPart e.name.path = some (encode t) := by
    intro e he hd t hx
    have := written_entry ht hfn (entryBytes d st desc texts other) he hd
    rw [← hp]
    unfold archiveOf
    rw [this, entryBytes, hx]
  have inParts : ∀ {path : Str}, Package.isDirName path = false → (p.getPart path).isSome →
      ∃ q ∈ expectedParts d st, q.path = path := by
    intro path hd hs
    rw [← hp] at hs
    exact slide_written_name ht _ hd hs
  have own := expectedParts_own d st
  have hcore := part _ (mem_buildPackage_core d st) (by decide) _ h.core
  have hrel := part _ (mem_buildPackage_presRels d st hf) (show Package.isDirName PartName.presRels.path = false by decide) _ rfl
  have hslide : ∀ i (hi : i < xs.length), p.getPart (slidePath (i + 1)) = some (encode xs[i]) := by
    intro i hi
    obtain ⟨x, hx⟩ := mem_buildPackage_anySlide d st (hc ▸ hi)
    exact part _ hx (slide_notDir _) _ (h.slides i hi)
  have hr : relsPartText d st (presentationRels d.count (hasNotes d.slides) st.handout) .presRels =
      renderRels (presentationRels xs.length (hasNotes d.slides) st.handout) := by
    simp only [relsPartText, renderRelsWith, renderRels, hc, List.take_length, List.drop_length, List.flatMap_nil,
      List.append_nil]
    simp
  rw [hr] at hrel
  let sl : List Slide := (List.range xs.length).map fun i => ⟨encode (xs[i]?.getD []), p.getPart (slideRelsPath (i + 1))⟩
  have hlen : sl.length = xs.length := by simp [sl]
  have none_of : ∀ {path : Str}, Package.isDirName path = false → (∀ q ∈ expectedParts d st, q.path ≠ path) →
      p.getPart path = none := by
    intro path hd hq
    cases e : p.getPart path with
    | none => rfl
    | some b =>
      obtain ⟨q, h1, h2⟩ := inParts hd (by rw [e]; rfl)
      exact absurd h2 (hq q h1)
  have hare : SlidesAre p sl := by
    refine ⟨fun i => ?_, fun i => ?_, fun path hn hs => ?_⟩
    · by_cases hi : i < xs.length
      · refine (hslide i hi).trans ?_
        simp [sl, hi]
      · rw [List.getElem?_eq_none (by omega), Option.map_none]
        refine none_of (slidePath_notDir (i + 1)) fun q hq e => ?_
        have := PartName.path_inj (q := .slide (i + 1)) (own q hq) trivial e
        subst this
        have := mem_expected_slide.mp hq
        omega
    · show p.getPart (slideRelsPath (i + 1)) = _
      by_cases hi : i < xs.length
      · simp [sl, hi]
      · rw [List.getElem?_eq_none (by omega), Option.bind_none]
        refine none_of (slideRelsPath_notDir (i + 1)) fun q hq e => ?_
        have := PartName.path_inj (q := .slideRels (i + 1)) (own q hq) trivial e
        subst this
        have := mem_expected_slideRels.mp hq
        omega
    · obtain ⟨q, hq, e⟩ := inParts (isSlideName_notDir hn) hs
      obtain ⟨m, hm, -⟩ := hn
      obtain ⟨n, rfl⟩ := own_of_slideName (own q hq) (e.trans hm)
      have := mem_expected_slide.mp hq
      refine ⟨n - 1, by omega, ?_⟩
      rw [← e, show n - 1 + 1 = n by omega]
      rfl
  have hok : AMap.Ok p := hp ▸ ok_openReader _
  have hcount := countSlides_eq hok hare
  refine ⟨⟨sl, ?_, ?_⟩, ?_, ?_⟩
  · unfold XmlsHeld
    apply List.ext_getElem?
    intro i
    by_cases hi : i < xs.length
    · simp [sl, hi]
    · rw [List.getElem?_eq_none (by simp [sl]; omega), List.getElem?_eq_none (by simp; omega)]
  · rw [hp]
    refine ⟨hare, ⟨?_, ?_⟩, hcount⟩
    · exact none_of (by decide) fun q hq => (temp_notOwn (own q hq)).1
    · exact none_of (by decide) fun q hq => (temp_notOwn (own q hq)).2
  · rw [hp]
    refine ⟨_, _, ?_, relsText_renderRels (plain_presentationRels xs.length (hasNotes d.slides) st.handout), ?_⟩
    · show Package.getPartString p _ = _
      unfold Package.getPartString
      rw [show p.getPart presRelsPath = _ from hrel, Option.map_some, decodeLossy_encode]
    · have : (ofPackage p).slideCount = xs.length := hcount.trans hlen
      rw [this]
      exact entries_presentationRels _ _ _
  · rw [hp]
    exact hcore


/-- **C145.** Whatever is on the slides of a written file (text, tables, shapes, pictures, connectors, code, charts, ink, links,
notes) and whatever the sessions did: reading the file at the end is reading, one by one, the slide texts in the list that
results from making all the calls on the list of slide texts. -/
theorem C145_any {d : Deck} {st : BuildSettings} {texts : PartTexts} {xs : List Str} (secs : Nat) {title : Str}
    (h : DeckTexts d texts xs (createCorePropsXml secs title)) (desc : Str → Str) (other : PartName → Bytes)
    (ht : st.template = none) (hf : st.fonts = none) (h1 : '&' ∉ title) (h2 : '<' ∉ title) {sessions : List (List Op)}
    {file : List (Str × Bytes)} (he : Edited (archiveOf d st desc texts other) sessions file)
    (hn : (editAnyAll SlideText.xml xs sessions.flatten).length + 1 < 4294967296) :
    opened file = ((editAnyAll SlideText.xml xs sessions.flatten).mapM parseSlide).map fun l =>
      { title := visible title, slides := l.map importSlide } := by
  have hx := (XmlFile.written h desc other ht hf).sessions he
  rw [hx.opened hn, coreInfo_written h2 hx.core, openedTitle_plain h1 h2]

theorem XmlFile.results {a : List (Str × Bytes)} {t : List Str} {core : Bytes} (h : XmlFile a t core) (ops : List Op) (i : Nat) :
    (runAll (ofPackage (Package.openReader a)) ops).1[i]? =
      ops[i]?.map fun op => (editAny SlideText.xml (editXmls t (ops.take i)) op).2 := by
  obtain ⟨l, hl, hi⟩ := h.slides
  rw [(runAll_correct hi ops).1]
  clear h hi
  induction ops generalizing l t i with
  | nil => rfl
  | cons op ops ih =>
    cases i with
    | zero =>
      show some (editList l op).2 = _
      rw [(hl.edit op).2]
      rfl
    | succ i => exact ih i _ (hl.edit op).1

/-- **C145.** The calls return what they should, whatever is on the slides. -/
theorem C145_any_results {d : Deck} {st : BuildSettings} {texts : PartTexts} {xs : List Str} {core : Str}
    (h : DeckTexts d texts xs core) (desc : Str → Str) (other : PartName → Bytes) (ht : st.template = none) (hf : st.fonts = none)
    {sessions : List (List Op)} {file : List (Str × Bytes)} (he : Edited (archiveOf d st desc texts other) sessions file)
    (ops : List Op) (i : Nat) :
    (runAll (ofPackage (Package.openReader file)) ops).1[i]? =
      ops[i]?.map fun op => (editAny SlideText.xml (editAnyAll SlideText.xml xs (sessions.flatten ++ ops.take i)) op).2 := by
  have hx := (XmlFile.written h desc other ht hf).sessions he
  rw [hx.results ops i]
  simp only [editAnyAll, List.foldl_append]

/-- A slide with a drawing, whose charts have the relationship ids `rids`. -/
structure DrawnSlide where
  text : SlideText
  drawing : Drawing := {}
  rids : List Str := []

/-- The slide is read back. -/
structure DrawnSlide.Good (fontSize : Str → Nat → Nat → Nat) (highlight : Option (Str → Str → List (List Segment))) (s : DrawnSlide) :
    Prop where
  safe : s.text.Safe
  small : SmallNumbers s.text
  drawing : s.drawing.Safe highlight s.rids
  fits : s.drawing.Fits
  extra : s.drawing.xml fontSize highlight s.rids = some s.text.extra

/-- **C145** (partial: no markup in titles, colours, fonts, bullet characters and relationship ids; numbers that fit; no template
and fonts). A file with drawings, pictures and charts is edited in any number of sessions. Whoever opens it then sees the slides
that result from the calls: of every slide its texts and what loading keeps of its shapes and code blocks. -/
theorem C145_drawn_partial {fontSize : Str → Nat → Nat → Nat} {highlight : Option (Str → Str → List (List Segment))}
    {d : Deck} {st : BuildSettings} {texts : PartTexts} {l : List DrawnSlide} (secs : Nat) {title : Str}
    (h : DeckTexts d texts (l.map fun s => s.text.xml) (createCorePropsXml secs title)) (desc : Str → Str)
    (other : PartName → Bytes) (ht : st.template = none) (hf : st.fonts = none) (h1 : '&' ∉ title) (h2 : '<' ∉ title)
    {sessions : List (List Op)} {file : List (Str × Bytes)} (he : Edited (archiveOf d st desc texts other) sessions file)
    (hn : (editAnyAll (fun c => ⟨c, {}, []⟩) l sessions.flatten).length + 1 < 4294967296)
    (hs : ∀ s ∈ editAnyAll (fun c => ⟨c, {}, []⟩) l sessions.flatten, DrawnSlide.Good fontSize highlight s) :
    opened file = some { title := visible title, slides := (editAnyAll (fun c => ⟨c, {}, []⟩) l sessions.flatten).map fun s =>
      { expectedSlide s.text with shapes := s.drawing.loaded highlight } } := by
  have e : editAnyAll SlideText.xml (l.map fun s => s.text.xml) sessions.flatten =
      (editAnyAll (fun c => ⟨c, {}, []⟩) l sessions.flatten).map fun s : DrawnSlide => s.text.xml :=
    editAnyAll_map (fun c => (⟨c, {}, []⟩ : DrawnSlide)) (fun s => s.text.xml) l sessions.flatten
  rw [C145_any secs h desc other ht hf h1 h2 he (by rw [e]; simpa using hn), e]
  clear e hn he h
  generalize editAnyAll (fun c => (⟨c, {}, []⟩ : DrawnSlide)) l sessions.flatten = m at hs
  have key : ∃ ps, (m.map fun s => s.text.xml).mapM parseSlide = some ps ∧ ps.map importSlide = m.map fun s =>
      { expectedSlide s.text with shapes := s.drawing.loaded highlight } := by
    induction m with
    | nil => exact ⟨[], rfl, rfl⟩
    | cons s m ih =>
      obtain ⟨ps, i1, i2⟩ := ih (fun x hx => hs x (by simp [hx]))
      have hg := hs s (by simp)
      obtain ⟨p, p1, p2⟩ := Option.map_eq_some_iff.mp (C146_slide_partial hg.safe hg.small hg.drawing hg.fits hg.extra)
      refine ⟨p :: ps, ?_, ?_⟩
      · simp only [List.map_cons, List.mapM_cons, p1, i1]
        rfl
      · rw [List.map_cons, p2, i2]
        rfl
  obtain ⟨ps, k1, k2⟩ := key
  rw [k1, Option.map_some, k2]

/-- A figure and a chart. -/
def chartDrawing : Drawing where
  shapes := [{ kind := .ellipse, x := 1, y := 2, width := 3, height := 4 }]
  charts := [{ x := 1, y := 2, width := 3, height := 4 }]

/-- A file with a figure and a chart on its only slide; the slide is duplicated and a call is refused. Both slides show the
figure. -/
example : ∃ (d : Deck) (texts : PartTexts) (file : List (Str × Bytes)), (∃ s ∈ d.slides, s.charts = 1) ∧
    Edited (archiveOf d .none id texts fun _ => []) [[.duplicate 0, .remove 5]] file ∧
    (opened file).map (fun p => (p.title, p.slides.map fun s => (s.text.title, s.shapes.map (·.kind)))) =
      some (c!"Talk", [(c!"Figure", [.ellipse]), (c!"Figure", [.ellipse])]) := by
  have hx : (chartDrawing.xml (fun _ _ _ => 1800) none [c!"rId2"]).isSome = true := by decide +kernel
  obtain ⟨x, hx⟩ := Option.isSome_iff_exists.mp hx
  have hr := addBullets_readable c!"Figure" [] none .titleAndContent (by simp)
  let s : DrawnSlide := ⟨{ SlideText.new c!"Figure" with extra := x }, chartDrawing, [c!"rId2"]⟩
  let d : Deck := .custom [⟨c!"Figure", .titleAndContent, 0, false, [⟨none, none⟩], [], none, 0, 0, 1, false⟩]
  let texts : PartTexts := fun
    | .slide _ => some s.text.xml
    | .core => some (createCorePropsXml 0 c!"Talk")
    | _ => none
  have hg : DrawnSlide.Good (fun _ _ _ => 1800) none s := by
    refine ⟨⟨hr.1.1, hr.1.2, hr.1.3, hr.1.4, hr.1.5⟩, ⟨hr.2.1.1, hr.2.1.2, hr.2.1.3, hr.2.1.4, hr.2.1.5⟩, ⟨?_, by simp [s, chartDrawing], ?_, by simp [s, chartDrawing]⟩,
      show chartDrawing.Fits from ⟨by decide, by decide⟩, hx⟩
    · intro y hy
      simp only [s, chartDrawing, List.mem_singleton] at hy
      subst hy
      exact ⟨by simp, by simp, by simp, by simp⟩
    · intro r hr
      simp only [s, List.mem_singleton] at hr
      subst hr
      exact ⟨by decide, by decide, by decide⟩
  obtain ⟨file, he⟩ := edited_exists (archiveOf d .none id texts fun _ => []) [[.duplicate 0, .remove 5]]
  refine ⟨d, texts, file, ⟨_, List.mem_singleton.mpr rfl, rfl⟩, he, ?_⟩
  have hd : DeckTexts d texts ([s].map fun s => s.text.xml) (createCorePropsXml 0 c!"Talk") := by
    refine ⟨rfl, fun i hi => ?_, rfl⟩
    obtain rfl : i = 0 := by simpa using hi
    rfl
  have hl : editAnyAll (fun c => (⟨c, {}, []⟩ : DrawnSlide)) [s] [[Op.duplicate 0, .remove 5]].flatten = [s, s] := rfl
  rw [C145_drawn_partial (l := [s]) 0 hd id (fun _ => []) rfl rfl (by decide) (by decide) he (by rw [hl]; simp)
    (by rw [hl]; intro y hy; simp only [List.mem_cons, List.not_mem_nil, or_false, or_self] at hy; exact hy ▸ hg), hl]
  rfl

end PptRs.Props
