import Verif.Lemmas.ImportShapes
import Verif.Props.Whole
import Verif.Props.RepairLines
import Verif.Lemmas.Validate

/-!
# C146: loading what was drawn
-/

namespace PptRs.Props

open PptRs PptRs.Spec PptRs.Reader PptRs.Import PptRs.Draw PptRs.Whole

theorem import_drawn {s : SlideText} {ps : List ParsedShape} (hf : ∀ p ∈ ps, p.isTitle = false ∧ p.isBody = false) :
    importSlide { seenSlide s with shapes := (seenSlide s).shapes ++ ps } = { expectedSlide s with shapes := ps.map importShape } := by
  have h := import_seen s
  rw [← h]
  unfold importSlide
  simp only
  congr 1
  rw [show (seenSlide s).shapes = seenShapes s from rfl, List.filter_append, boxes_only, List.nil_append, List.filter_eq_self.mpr]
  intro p hp
  simp [hf p hp]

/-- **C146** (partial: no markup in colours, fonts, bullet characters and relationship ids; numbers that fit; writing does not
stop). Loading a slide with a drawing gives the title, the bullets and the table as without the drawing, and for every shape, in
order, a shape of the same kind (if it is one of those that are known) at the same place with the same text; then a rectangle
with the text for every code block. -/
theorem C146_slide_partial {fontSize : Str → Nat → Nat → Nat} {highlight : Option (Str → Str → List (List Segment))} {s : SlideText}
    {d : Drawing} {rids : List Str} (hs : s.Safe) (hn : SmallNumbers s) (hd : d.Safe highlight rids) (hf : d.Fits)
    (e : d.xml fontSize highlight rids = some s.extra) :
    (parseSlide s.xml).map importSlide = some { expectedSlide s with shapes := d.loaded highlight } := by
  obtain ⟨X, h1, h2, ps, h3, h4, h5⟩ := adds_drawing hd hf e
  rw [parseSlide_node hs h1.readsAs, List.foldl_append, h3, fold_shapes hn, List.filterMap_append, tables_shapes hn, h2,
    List.append_nil, Option.map_some, ← h5, ← import_drawn h4]
  rfl

/-- What a user expects of a shape after loading. -/
def SameShape (s t : Shape) : Prop :=
  t.kind = s.kind ∧ t.x = s.x ∧ t.y = s.y ∧ t.width = s.width ∧ t.height = s.height ∧ t.text = s.text

/-- **C146.** A shape of one of the known kinds whose text is neither white space nor looks like code comes back with its kind,
its place and its text. -/
theorem C146_same {s : Shape} (hk : s.kind ∈ knownKinds) (ht : ∀ t ∈ s.text, ¬ BlankText t ∧ isCode t = false) :
    SameShape s (loadedShape s) := by
  have : ∀ k ∈ knownKinds, knownKind k = k := by decide
  refine ⟨this _ hk, rfl, rfl, rfl, rfl, ?_⟩
  unfold loadedShape
  cases h : s.text with
  | none => rfl
  | some t =>
    obtain ⟨h1, h2⟩ := ht t h
    simp [h2, seenLines, h1, loadedLines, joinStr]

/-- **C146 does not hold in full.** Pictures, connectors and charts are not loaded: whatever they are, the slide is loaded as
if they had not been there, so saving it again loses them. -/
theorem C146_lost_violated {fontSize : Str → Nat → Nat → Nat} {highlight : Option (Str → Str → List (List Segment))}
    {s s' : SlideText} {d : Drawing} {rids : List Str} (hs : s.Safe) (hn : SmallNumbers s) (hd : d.Safe highlight rids)
    (hf : d.Fits) (e : d.xml fontSize highlight rids = some s.extra) (hs' : s' = { s with extra := s'.extra })
    (e' : Drawing.xml fontSize highlight { shapes := d.shapes, codeBlocks := d.codeBlocks } [] = some s'.extra) :
    (parseSlide s.xml).map importSlide = (parseSlide s'.xml).map importSlide := by
  have h1 : s'.Safe := by rw [hs']; exact ⟨hs.1, hs.2, hs.3, hs.4, hs.5⟩
  have h2 : SmallNumbers s' := by rw [hs']; exact ⟨hn.1, hn.2, hn.3, hn.4, hn.5⟩
  have h3 : Drawing.Safe { shapes := d.shapes, codeBlocks := d.codeBlocks } highlight [] :=
    ⟨hd.shapes, by simp, by simp, hd.code⟩
  rw [C146_slide_partial hs hn hd hf e, C146_slide_partial h1 h2 h3 ⟨hf.shapes, hf.code⟩ e']
  have : expectedSlide s' = expectedSlide s := by rw [hs']; rfl
  rw [this]
  rfl

/-- **C146 does not hold in full.** The fill, the gradient, the line, the rotation and the link of every shape are lost. -/
theorem C146_looks_violated {fontSize : Str → Nat → Nat → Nat} {highlight : Option (Str → Str → List (List Segment))} {s : SlideText}
    {d : Drawing} {rids : List Str} (hs : s.Safe) (hn : SmallNumbers s) (hd : d.Safe highlight rids) (hf : d.Fits)
    (e : d.xml fontSize highlight rids = some s.extra) {p : LoadedSlide} (hp : (parseSlide s.xml).map importSlide = some p) :
    ∀ t ∈ p.shapes, t.fill = none ∧ t.gradient = none ∧ t.rotation = none ∧ t.line = none ∧ t.link = none := by
  rw [C146_slide_partial hs hn hd hf e, Option.some.injEq] at hp
  subst hp
  intro t ht
  rcases List.mem_append.mp ht with h | h
  · obtain ⟨x, _, rfl⟩ := List.mem_map.mp h
    exact ⟨rfl, rfl, rfl, rfl, rfl⟩
  · obtain ⟨x, _, rfl⟩ := List.mem_map.mp h
    exact ⟨rfl, rfl, rfl, rfl, rfl⟩

/-- **C146 does not hold in full.** No other kind of shape than those eleven is loaded as what it is: it becomes a rectangle (a
circle an ellipse). -/
theorem C146_kinds_violated {fontSize : Str → Nat → Nat → Nat} {highlight : Option (Str → Str → List (List Segment))} {s : SlideText}
    {x : Shape} (hs : s.Safe) (hn : SmallNumbers s) (hx : x.Safe) (hh : SafeHighlight highlight)
    (hf : Drawing.Fits { shapes := [x] }) (e : Drawing.xml fontSize highlight { shapes := [x] } [] = some s.extra)
    (hk : x.kind ∉ knownKinds) :
    (parseSlide s.xml).map (fun p => (importSlide p).shapes.map (·.kind)) = some [knownKind x.kind] ∧ knownKind x.kind ≠ x.kind := by
  have hd : Drawing.Safe { shapes := [x] } highlight [] := ⟨by simpa using hx, by simp, by simp, hh⟩
  refine ⟨?_, ?_⟩
  · have h := C146_slide_partial hs hn hd hf e
    cases hp : parseSlide s.xml with
    | none => rw [hp] at h; cases h
    | some p =>
      rw [hp, Option.map_some, Option.some.injEq] at h
      rw [Option.map_some, h]
      rfl
  · have : ∀ k ∈ ShapeType.all, k ∉ knownKinds → knownKind k ≠ k := by decide +kernel
    exact this _ (by cases x.kind <;> decide) hk

/-- What is loaded for a slide with nothing but code blocks. -/
theorem code_texts {fontSize : Str → Nat → Nat → Nat} {highlight : Option (Str → Str → List (List Segment))} {s : SlideText}
    {b : CodeBlock} (hs : s.Safe) (hn : SmallNumbers s) (hh : SafeHighlight highlight) (hf : Drawing.Fits { codeBlocks := [b] })
    (e : Drawing.xml fontSize highlight { codeBlocks := [b] } [] = some s.extra) :
    (parseSlide s.xml).map (fun p => (importSlide p).shapes.map (·.text)) = some [(loadedCode highlight b).text] := by
  have hd : Drawing.Safe { codeBlocks := [b] } highlight [] := ⟨by simp, by simp, by simp, hh⟩
  have h := C146_slide_partial hs hn hd hf e
  cases hp : parseSlide s.xml with
  | none => rw [hp] at h; cases h
  | some p =>
    rw [hp, Option.map_some, Option.some.injEq] at h
    rw [Option.map_some, h]
    rfl

/-- **C146 does not hold in full.** Without highlighting (a feature of the library that can be switched off) the code of a code
block is lost when the slide is loaded, because it is not written in a paragraph. -/
theorem C146_bare_code_violated {fontSize : Str → Nat → Nat → Nat} {s : SlideText} {b : CodeBlock} (hs : s.Safe) (hn : SmallNumbers s)
    (hf : Drawing.Fits { codeBlocks := [b] }) (e : Drawing.xml fontSize none { codeBlocks := [b] } [] = some s.extra) :
    (parseSlide s.xml).map (fun p => (importSlide p).shapes.map (·.text)) = some [none] :=
  code_texts hs hn (fun f hf => by cases hf) hf e

/-- `let x` with its colours. -/
def letX : List Segment :=
  [{ text := c!"let", color := c!"859900" }, { text := c!" ", color := c!"839496" }, { text := c!"x", color := c!"268BD2" }]

/-- **C146 does not hold in full.** With highlighting all white space between the words of code is lost when the slide is loaded,
because it is written as runs of its own: `let x` becomes `letx`. -/
theorem C146_code_violated {fontSize : Str → Nat → Nat → Nat} {s : SlideText} {b : CodeBlock} (hs : s.Safe) (hn : SmallNumbers s)
    (hf : Drawing.Fits { codeBlocks := [b] }) (e : Drawing.xml fontSize (some fun _ _ => [letX]) { codeBlocks := [b] } [] = some s.extra) :
    (parseSlide s.xml).map (fun p => (importSlide p).shapes.map (·.text)) = some [some c!"letx"] := by
  rw [code_texts hs hn ?_ hf e]
  · have : seenLine letX = c!"letx" := by decide +kernel
    simp [loadedCode, seenCode, this, loadedLines, joinStr]
  · intro f hf c l line hl x hx
    simp only [Option.mem_some_iff] at hf
    subst hf
    rw [List.mem_singleton] at hl
    subst hl
    simp only [letX, List.mem_cons, List.not_mem_nil, or_false] at hx
    rcases hx with rfl | rfl | rfl <;> exact ⟨by decide, by decide, by decide⟩

/-- **C146 does not hold in full.** Of a text that begins with a bracket and has a bracket at the end of a line, which is taken
for code, the blank lines are lost. -/
theorem C146_blank_lines_violated {fontSize : Str → Nat → Nat → Nat} {highlight : Option (Str → Str → List (List Segment))}
    {s : SlideText} {x : Shape} (hs : s.Safe) (hn : SmallNumbers s) (hx : x.Safe) (hh : SafeHighlight highlight)
    (hf : Drawing.Fits { shapes := [x] }) (e : Drawing.xml fontSize highlight { shapes := [x] } [] = some s.extra)
    (ht : x.text = some c!"[sh]\nls\n\nps") :
    (parseSlide s.xml).map (fun p => (importSlide p).shapes.map (·.text)) = some [some c!"[sh]\nls\nps"] := by
  have hd : Drawing.Safe { shapes := [x] } highlight [] := ⟨by simpa using hx, by simp, by simp, hh⟩
  have h := C146_slide_partial hs hn hd hf e
  have e1 : loadedLines (seenLines (if isCode c!"[sh]\nls\n\nps" then strLines c!"[sh]\nls\n\nps" else [c!"[sh]\nls\n\nps"])) =
      some c!"[sh]\nls\nps" := by decide +kernel
  have e2 : (loadedShape x).text = some c!"[sh]\nls\nps" := by
    unfold loadedShape
    rw [ht]
    exact e1
  cases hp : parseSlide s.xml with
  | none => rw [hp] at h; cases h
  | some p =>
    rw [hp, Option.map_some, Option.some.injEq] at h
    rw [Option.map_some, h]
    show some [(loadedShape x).text] = _
    rw [e2]

/-! ### Again -/

theorem seenLines_idem (l : List Str) : seenLines (seenLines l) = seenLines l := by
  simp [seenLines, List.filter_filter]

theorem mem_joined {x : Str} {l : List Str} (sep : Str) (h : x ∈ l) {c : Char} (hc : c ∈ x) : c ∈ joinStr sep l := by
  cases l with
  | nil => cases h
  | cons a l =>
    rw [joinStr_cons, List.mem_append]
    rcases List.mem_cons.mp h with rfl | h
    · exact .inl hc
    · exact .inr (List.mem_flatMap.mpr ⟨x, h, by simp [hc]⟩)

theorem mem_strLines {t x : Str} (h : x ∈ strLines t) : '\n' ∉ x ∧ ∀ c ∈ x, c ∈ t := by
  have hs : ∀ y ∈ splitChar '\n' t, '\n' ∉ y ∧ ∀ c ∈ y, c ∈ t := fun y hy =>
    ⟨notMem_of_mem_splitChar hy, fun c hc => by
      have := mem_joined ['\n'] hy hc
      rwa [joinStr_splitChar] at this⟩
  have hc : ∀ y c, c ∈ stripCr y → c ∈ y := by
    intro y c hc
    unfold stripCr at hc
    split at hc
    · exact List.dropLast_subset _ hc
    · exact hc
  unfold strLines at h
  rcases List.mem_append.mp h with h | h
  · obtain ⟨y, hy, rfl⟩ := List.mem_map.mp h
    obtain ⟨h1, h2⟩ := hs y (List.dropLast_subset _ hy)
    exact ⟨fun hm => h1 (hc _ _ hm), fun c hm => h2 c (hc _ _ hm)⟩
  · split at h
    · cases h
    · rename_i l hl
      split at h
      · cases h
      · rw [List.mem_singleton] at h
        subst h
        exact hs _ (List.mem_of_getLast? hl)

/-- Lines that are written and loaded again. -/
theorem loadedLines_again {l : List Str} (h : ∀ x ∈ l, '\n' ∉ x ∧ '\r' ∉ x ∧ ¬ BlankText x) :
    ((loadedLines l).bind fun t => loadedLines (seenLines (if isCode t then strLines t else [t]))) = loadedLines l := by
  unfold loadedLines
  by_cases hl : l = []
  · rw [if_pos hl]; rfl
  · rw [if_neg hl, Option.bind_some]
    have hb : ¬ BlankText (joinStr c!"\n" l) := by
      intro hb
      obtain ⟨x, hx⟩ := List.exists_mem_of_ne_nil l hl
      exact (h x hx).2.2 fun c hc => hb c (mem_joined _ hx hc)
    by_cases hc : isCode (joinStr c!"\n" l) = true
    · have hlast : l.getLast hl ≠ [] := blank_ne (h _ (List.getLast_mem hl)).2.2
      have := strLines_joinStr hl (fun x hx => (h x hx).1) (fun x hx e => (h x hx).2.1 (List.mem_of_getLast? e)) hlast
      rw [if_pos hc, this]
      have e : seenLines l = l := List.filter_eq_self.mpr fun x hx => by simpa using (h x hx).2.2
      rw [e, if_neg hl]
    · rw [if_neg hc]
      have e : seenLines [joinStr c!"\n" l] = [joinStr c!"\n" l] := by simp [seenLines, hb]
      rw [e, if_neg (by simp)]
      rfl

/-- **C146.** What is loaded of a shape stays: written and loaded again it is the same (texts without carriage returns). -/
theorem C146_stable_partial {s : Shape} (h : ∀ t ∈ s.text, '\r' ∉ t) : loadedShape (loadedShape s) = loadedShape s := by
  have hk : ∀ k ∈ knownKinds, knownKind k = k := by decide
  have hk2 : knownKind s.kind ∈ knownKinds := by
    unfold knownKind
    cases e : knownKinds.find? fun x => x.presetName = s.kind.presetName with
    | none => decide
    | some k => exact List.mem_of_find?_eq_some e
  have ht : ((loadedShape s).text.bind fun t => loadedLines (seenLines (if isCode t then strLines t else [t]))) = (loadedShape s).text := by
    show ((s.text.bind fun t => loadedLines (seenLines (if isCode t then strLines t else [t]))).bind _) = (s.text.bind _)
    cases e : s.text with
    | none => rfl
    | some t =>
      rw [Option.bind_some]
      by_cases hc : isCode t = true
      · rw [if_pos hc]
        refine loadedLines_again fun x hx => ?_
        obtain ⟨h1, h2⟩ := List.mem_filter.mp hx
        obtain ⟨h3, h4⟩ := mem_strLines h1
        exact ⟨h3, fun hr => h t e (h4 _ hr), by simpa using h2⟩
      · rw [if_neg hc]
        by_cases hb : BlankText t
        · simp [seenLines, hb, loadedLines]
        · have : loadedLines (seenLines [t]) = some t := by simp [seenLines, hb, loadedLines, joinStr]
          rw [this, Option.bind_some, if_neg hc, this]
  show ({ kind := _, x := _, y := _, width := _, height := _, text := _ } : Shape) = _
  rw [ht]
  show ({ kind := knownKind (knownKind s.kind), x := _, y := _, width := _, height := _, text := _ } : Shape) = _
  rw [hk _ hk2]
  rfl

/-- The highlighter gives lines without line breaks. -/
def NoBreaks (highlight : Option (Str → Str → List (List Segment))) : Prop :=
  ∀ f ∈ highlight, ∀ c l, ∀ line ∈ f c l, ∀ s ∈ line, '\n' ∉ s.text ∧ '\r' ∉ s.text

/-- **C146.** What is loaded of a code block stays as well. -/
theorem C146_code_stable_partial {highlight : Option (Str → Str → List (List Segment))} (h : NoBreaks highlight) (b : CodeBlock) :
    loadedShape (loadedCode highlight b) = loadedCode highlight b := by
  have ht : ((loadedCode highlight b).text.bind fun t => loadedLines (seenLines (if isCode t then strLines t else [t]))) =
      (loadedCode highlight b).text := by
    refine loadedLines_again fun x hx => ?_
    unfold seenCode at hx
    cases highlight with
    | none => cases hx
    | some f =>
      obtain ⟨h1, h2⟩ := List.mem_filter.mp hx
      obtain ⟨line, hl, rfl⟩ := List.mem_map.mp h1
      have hm : ∀ c ∈ seenLine line, c ≠ '\n' ∧ c ≠ '\r' := by
        intro c hc
        obtain ⟨t, ht, hct⟩ := List.mem_flatten.mp hc
        obtain ⟨s, hs, rfl⟩ := List.mem_map.mp (List.mem_filter.mp ht).1
        obtain ⟨a1, a2⟩ := h f rfl _ _ line hl s hs
        exact ⟨fun e => a1 (e ▸ hct), fun e => a2 (e ▸ hct)⟩
      refine ⟨fun hc => (hm _ hc).1 rfl, fun hc => (hm _ hc).2 rfl, fun hb => ?_⟩
      have hne : seenLine line ≠ [] := by simpa using h2
      obtain ⟨t, ht⟩ := List.exists_mem_of_ne_nil _ (mt (seenLine_nil line).mpr hne)
      exact (by simpa using (List.mem_filter.mp ht).2 : ¬ BlankText t) fun c hc => hb c (List.mem_flatten.mpr ⟨t, ht, hc⟩)
  have hk : knownKind .rectangle = .rectangle := by decide
  show ({ kind := knownKind .rectangle, x := _, y := _, width := _, height := _, text := _ } : Shape) = _
  rw [ht, hk]
  rfl

/-! ### Files -/

/-- A page with a drawing that is read back. -/
structure DrawnPage (fontSize : Str → Nat → Nat → Nat) (highlight : Option (Str → Str → List (List Segment))) (p : PageIn) (d : Drawing) :
    Prop where
  safe : p.text.Safe
  small : SmallNumbers p.text
  drawing : d.Safe highlight []
  fits : d.Fits
  /-- pictures and charts need further parts -/
  plain : d.pictures = [] ∧ d.charts = []
  extra : d.xml fontSize highlight [] = some p.text.extra

theorem import_deck (p : Package) (l : List SlideText) (f : SlideText → LoadedSlide) (notes handout : Bool) (h0 : l ≠ []) (hn : l.length + 1 < 4294967296)
    (hr : p.getPart c!"ppt/_rels/presentation.xml.rels" = some (encode (renderRels (presentationRels l.length notes handout))))
    (hp : ∀ i (hi : i < l.length), p.getPart (c!"ppt/slides/slide" ++ dec (i + 1) ++ c!".xml") = some (encode l[i].xml))
    (hs : ∀ s ∈ l, (parseSlide s.xml).map importSlide = some (f s)) :
    importPptx p = some { title := (coreInfo p).title.getD [], slides := l.map f } := by
  have hpaths := C52_generated_order p l.length notes handout (List.length_pos_iff.mpr h0) hn hr
  have hex : ∀ s ∈ l, ∃ x, parseSlide s.xml = some x ∧ importSlide x = f s := fun s h => Option.map_eq_some_iff.mp (hs s h)
  let g : SlideText → ParsedSlide := fun s => (parseSlide s.xml).getD {}
  have hg : ∀ s ∈ l, parseSlide s.xml = some (g s) ∧ importSlide (g s) = f s := by
    intro s h
    obtain ⟨x, h1, h2⟩ := hex s h
    have : g s = x := by simp [g, h1]
    rw [this]
    exact ⟨h1, h2⟩
  have hlen : (slidePaths p).length = (l.map g).length := by rw [hpaths]; simp
  have hget : ∀ i (hi : i < (l.map g).length), getSlide p i = some (l.map g)[i] := by
    intro i hi
    have hi' : i < l.length := by simpa using hi
    unfold getSlide
    have e : (slidePaths p)[i]? = some (c!"ppt/slides/slide" ++ dec (i + 1) ++ c!".xml") := by
      rw [hpaths]
      simp [hi']
    rw [e, Option.bind_some, Package.getPartString, hp i hi', Option.map_some, decodeLossy_encode, Option.bind_some,
      (hg l[i] (List.getElem_mem hi')).1]
    simp
  unfold importPptx
  have e : (l.map g).map importSlide = l.map f := by
    rw [List.map_map]
    exact List.map_congr_left fun s h => (hg s h).2
  rw [hlen, mapM_range_some hget, Option.map_some, e]

theorem opened_pages (secs : Nat) {title : Str} {l : List PageIn} {st : BuildSettings} (desc : Str → Str) (f : SlideText → LoadedSlide)
    (other : PartName → Bytes) (ht : st.template = none) (hf : st.fonts = none) (h0 : l ≠ []) (hn : l.length + 1 < 4294967296)
    (hs : ∀ s ∈ l, (parseSlide s.text.xml).map importSlide = some (f s.text)) (hm : '<' ∉ title) :
    opened (written secs title l st desc other) = some { title := openedTitle title, slides := l.map fun s => f s.text } := by
  have hfn : ((st.fonts.getD []).map (·.fileName)).Nodup := by rw [hf]; simp
  have hc : (deckOf l).count = l.length := by simp [deckOf, Deck.count]
  unfold opened written
  generalize hp : Package.openReader _ = p
  have part : ∀ e ∈ buildPackage (deckOf l) st, Package.isDirName e.name.path = false → ∀ t,
      entryText (deckOf l) st desc (pageTexts secs title l) e = some t → p.getPart e.name.path = some (encode t) := by
    intro e he hd t hx
    have := written_entry ht hfn (entryBytes (deckOf l) st desc (pageTexts secs title l) other) he hd
    rw [hp] at this
    rw [this, entryBytes, hx]
  have hcore := part _ (mem_buildPackage_core (deckOf l) st) (by decide) _ rfl
  have hrel := part _ (mem_buildPackage_presRels (deckOf l) st hf) (show Package.isDirName PartName.presRels.path = false by decide) _ rfl
  have hslide : ∀ i (hi : i < (l.map PageIn.text).length),
      p.getPart (c!"ppt/slides/slide" ++ dec (i + 1) ++ c!".xml") = some (encode (l.map PageIn.text)[i].xml) := by
    intro i hi
    have hi' : i < l.length := by simpa using hi
    obtain ⟨x, hx⟩ := mem_buildPackage_slide st hi'
    exact part _ hx (slide_notDir _) _ (by simp [entryText, pageTexts, hi'])
  have hr : relsPartText (deckOf l) st (presentationRels (deckOf l).count (hasNotes (deckOf l).slides) st.handout) .presRels =
      renderRels (presentationRels (l.map PageIn.text).length (hasNotes (deckOf l).slides) st.handout) := by
    simp only [relsPartText, renderRelsWith, renderRels, hc, List.length_map, List.take_length, List.drop_length, List.flatMap_nil,
      List.append_nil]
    simp
  have := import_deck p (l.map PageIn.text) f (hasNotes (deckOf l).slides) st.handout (by simpa using h0) (by simpa using hn)
    (by rw [← hr]; exact hrel) hslide (by
      intro s hs'
      obtain ⟨x, hx, rfl⟩ := List.mem_map.mp hs'
      exact hs x hx)
  rw [this, coreInfo_written hm hcore, List.map_map]
  rfl

/-- **C146** (partial as for slides; no pictures, charts and links, whose parts are not spelled out). A file with drawings is
opened as the presentation it was written from: the title, and of each slide its texts and what loading keeps of its shapes and
code blocks. -/
theorem C146_file_partial {fontSize : Str → Nat → Nat → Nat} {highlight : Option (Str → Str → List (List Segment))} (secs : Nat)
    {title : Str} {l : List (PageIn × Drawing)} {st : BuildSettings} (desc : Str → Str) (other : PartName → Bytes)
    (ht : st.template = none) (hf : st.fonts = none) (h0 : l ≠ []) (hn : l.length + 1 < 4294967296)
    (hs : ∀ x ∈ l, DrawnPage fontSize highlight x.1 x.2) (h1 : '&' ∉ title) (h2 : '<' ∉ title) :
    opened (written secs title (l.map (·.1)) st desc other) = some { title := visible title, slides := l.map fun x =>
      { expectedSlide x.1.text with shapes := x.2.loaded highlight } } := by
  have hp : ∀ x ∈ l, (parseSlide x.1.text.xml).map importSlide = some { expectedSlide x.1.text with shapes := x.2.loaded highlight } :=
    fun x hx => C146_slide_partial (hs x hx).safe (hs x hx).small (hs x hx).drawing (hs x hx).fits (hs x hx).extra
  have e : ((l.map (·.1)).map fun s => ((parseSlide s.text.xml).map importSlide).getD { text := s.text }) =
      l.map fun x => { expectedSlide x.1.text with shapes := x.2.loaded highlight } := by
    rw [List.map_map]
    refine List.map_congr_left fun x hx => ?_
    simp only [Function.comp_apply, hp x hx, Option.getD_some]
  rw [opened_pages secs desc (fun s => ((parseSlide s.xml).map importSlide).getD { text := s }) other ht hf (by simpa using h0) (by simpa using hn)
    (by
      intro s hm
      obtain ⟨x, hx, rfl⟩ := List.mem_map.mp hm
      rw [hp x hx]
      rfl) h2, openedTitle_plain h1 h2, e]

/-- The page that is written for a loaded slide: its text and its shapes. -/
def IsPageOf (fontSize : Str → Nat → Nat → Nat) (highlight : Option (Str → Str → List (List Segment))) (s : LoadedSlide) (p : PageIn) : Prop :=
  p.text = { s.text with extra := p.text.extra } ∧ Drawing.xml fontSize highlight { shapes := s.shapes } [] = some p.text.extra

theorem shapesXml_loaded (fontSize : Str → Nat → Nat → Nat) (l : List Shape) (i : Nat)
    (h : ∀ s ∈ l, s.fill = none ∧ s.gradient = none ∧ s.rotation = none) : (shapesXml fontSize i l).isSome = true := by
  induction l generalizing i with
  | nil => rfl
  | cons s l ih =>
    obtain ⟨h1, h2, h3⟩ := h s (by simp)
    have hx : (shapeXml fontSize s (s.id.getD (i + 10))).isSome = true := by
      unfold shapeXml shapeFillXml
      rw [h1, h2, h3]
      cases ht : s.text with
      | none => rfl
      | some t =>
        simp only [textXml]
        by_cases hc : isCode t = true <;> simp [hc, textColor, rotAttr]
    obtain ⟨x, hx⟩ := Option.isSome_iff_exists.mp hx
    obtain ⟨r, hr⟩ := Option.isSome_iff_exists.mp (ih (i + 1) fun b hb => h b (by simp [hb]))
    simp [shapesXml, hx, hr]

theorem loaded_plain (highlight : Option (Str → Str → List (List Segment))) (d : Drawing) :
    ∀ s ∈ d.loaded highlight, s.fill = none ∧ s.gradient = none ∧ s.rotation = none ∧ s.line = none ∧ s.link = none := by
  intro s hs
  rcases List.mem_append.mp hs with h | h
  · obtain ⟨x, _, rfl⟩ := List.mem_map.mp h
    exact ⟨rfl, rfl, rfl, rfl, rfl⟩
  · obtain ⟨x, _, rfl⟩ := List.mem_map.mp h
    exact ⟨rfl, rfl, rfl, rfl, rfl⟩

/-- **C146.** Opening a file with drawings, saving it and opening it again gives what was opened first; saving does not stop. -/
theorem C146_again_partial {fontSize : Str → Nat → Nat → Nat} {highlight : Option (Str → Str → List (List Segment))} (secs secs' : Nat)
    {title : Str} {l : List (PageIn × Drawing)} {st st' : BuildSettings} (desc desc' : Str → Str) (other other' : PartName → Bytes)
    (ht : st.template = none) (hf : st.fonts = none) (ht' : st'.template = none) (hf' : st'.fonts = none) (h0 : l ≠ [])
    (hn : l.length + 1 < 4294967296) (hs : ∀ x ∈ l, DrawnPage fontSize highlight x.1 x.2) (h1 : '&' ∉ title) (h2 : '<' ∉ title)
    (hb : NoBreaks highlight) (hr : ∀ x ∈ l, ∀ s ∈ x.2.shapes, ∀ t ∈ s.text, '\r' ∉ t) {p : Loaded}
    (hp : opened (written secs title (l.map (·.1)) st desc other) = some p) :
    (∀ s ∈ p.slides, ∃ q, IsPageOf fontSize highlight s q) ∧
    ∀ pages, List.Forall₂ (IsPageOf fontSize highlight) p.slides pages →
      opened (written secs' p.title pages st' desc' other') = some p := by
  rw [C146_file_partial secs desc other ht hf h0 hn hs h1 h2, Option.some.injEq] at hp
  subst hp
  refine ⟨?_, ?_⟩
  · intro s hm
    obtain ⟨x, hx, rfl⟩ := List.mem_map.mp hm
    obtain ⟨y, hy⟩ := Option.isSome_iff_exists.mp (shapesXml_loaded fontSize (x.2.loaded highlight) 0
      fun s hs => ⟨(loaded_plain _ _ s hs).1, (loaded_plain _ _ s hs).2.1, (loaded_plain _ _ s hs).2.2.1⟩)
    have hd : ∃ z, Drawing.xml fontSize highlight { shapes := x.2.loaded highlight } [] = some z := by
      unfold Drawing.xml
      rw [hy]
      exact ⟨_, rfl⟩
    obtain ⟨z, hz⟩ := hd
    exact ⟨{ text := { (expectedSlide x.1.text).text with extra := z } }, rfl, hz⟩
  · intro pages hpages
    have hpair : ∃ m : List (PageIn × Drawing), pages = m.map (·.1) ∧ m.length = l.length ∧
        (∀ x ∈ m, DrawnPage fontSize highlight x.1 x.2) ∧
        (m.map fun x => ({ expectedSlide x.1.text with shapes := x.2.loaded highlight } : LoadedSlide)) =
          l.map fun x => { expectedSlide x.1.text with shapes := x.2.loaded highlight } := by
      clear h0 hn
      induction l generalizing pages with
      | nil =>
        cases hpages
        exact ⟨[], rfl, rfl, by simp, rfl⟩
      | cons x l ih =>
        rw [List.map_cons, List.forall₂_cons_left_iff] at hpages
        obtain ⟨q, rest, ⟨hq1, hq2⟩, hrest, rfl⟩ := hpages
        obtain ⟨m, rfl, hm1, hm2, hm3⟩ := ih (fun y hy => hs y (by simp [hy])) (fun y hy => hr y (by simp [hy])) rest hrest
        have hx := hs x (by simp)
        have hrx := hr x (by simp)
        have e : expectedSlide q.text = expectedSlide x.1.text := by
          rw [hq1]
          exact C111_stable_partial x.1.text
        have hsafe := expectedSlide_readable x.1.text
        have hst : Drawing.loaded highlight { shapes := x.2.loaded highlight } = x.2.loaded highlight := by
          simp only [Drawing.loaded, List.map_nil, List.append_nil, List.map_append, List.map_map]
          congr 1
          · exact List.map_congr_left fun s hs => C146_stable_partial (hrx s hs)
          · exact List.map_congr_left fun b _ => C146_code_stable_partial hb b
        refine ⟨(q, { shapes := x.2.loaded highlight }) :: m, rfl, by simp [hm1], ?_, ?_⟩
        · intro y hy
          rcases List.mem_cons.mp hy with rfl | hy
          · refine ⟨?_, ?_, ?_, ?_, ⟨rfl, rfl⟩, hq2⟩
            · show q.text.Safe
              rw [hq1]
              exact ⟨hsafe.1.1, hsafe.1.2, hsafe.1.3, hsafe.1.4, hsafe.1.5⟩
            · show SmallNumbers q.text
              rw [hq1]
              exact ⟨hsafe.2.1.1, hsafe.2.1.2, hsafe.2.1.3, hsafe.2.1.4, hsafe.2.1.5⟩
            · refine ⟨fun s hs => ?_, by simp, by simp, hx.drawing.code⟩
              obtain ⟨a1, a2, a3, a4, a5⟩ := loaded_plain highlight x.2 s hs
              exact ⟨by simp [a1], by simp [a2], by simp [a4], by simp [a5]⟩
            · refine ⟨fun s hs => ?_, by simp⟩
              rcases List.mem_append.mp hs with h | h
              · obtain ⟨z, hz, rfl⟩ := List.mem_map.mp h
                exact hx.fits.shapes z hz
              · obtain ⟨z, hz, rfl⟩ := List.mem_map.mp h
                have := hx.fits.code z hz
                have b1 := this z.x (by simp)
                have b2 := this z.y (by simp)
                have b3 := this z.width (by simp)
                have b4 := this z.height (by simp)
                simp only [loadedCode]
                omega
          · exact hm2 y hy
        · rw [List.map_cons, List.map_cons, hm3, e, hst]
    obtain ⟨m, rfl, hm1, hm2, hm3⟩ := hpair
    have hv : ∀ c, c ∉ title → c ∉ visible title := by
      intro c hc
      unfold visible
      split
      · simp
      · exact hc
    rw [C146_file_partial secs' desc' other' ht' hf' (by intro e; subst e; exact h0 (List.length_eq_zero_iff.mp hm1.symm)) (by omega) hm2
      (hv _ h1) (hv _ h2), hm3, visible_visible]

/-! ### Examples -/

/-- A page with an ellipse and text, a heart, and a code block without highlighting. -/
def figureDrawing : Drawing where
  shapes := [{ kind := .ellipse, x := 1, y := 2, width := 3, height := 4, fill := some { color := c!"FF0000" }, text := some c!"a < b" },
    { kind := .heart, x := 5, y := 6, width := 7, height := 4294967295, rotation := some 45 }]
  codeBlocks := [{ code := c!"x = 1", language := c!"py", x := -5, y := 0, width := 10, height := 20 }]

/-- The page. -/
def figurePage : PageIn where
  text := { [c!"one"].foldl SlideText.addBullet (SlideText.new c!"Figure") with
    extra := (figureDrawing.xml (fun _ _ _ => 1800) none []).getD [] }

theorem figure_drawn : DrawnPage (fun _ _ _ => 1800) none figurePage figureDrawing := by
  have h := addBullets_readable c!"Figure" [c!"one"] none .titleAndContent (by simp)
  refine ⟨⟨h.1.1, h.1.2, h.1.3, h.1.4, h.1.5⟩, ⟨h.2.1.1, h.2.1.2, h.2.1.3, h.2.1.4, h.2.1.5⟩, ⟨?_, ?_, ?_, ?_⟩, ⟨?_, ?_⟩, ⟨rfl, rfl⟩, ?_⟩
  · intro s hs
    simp only [figureDrawing, List.mem_cons, List.not_mem_nil, or_false] at hs
    rcases hs with rfl | rfl
    · exact ⟨by intro f hf; cases hf; exact ⟨by decide, by decide, by decide⟩, by simp, by simp, by simp⟩
    · exact ⟨by simp, by simp, by simp, by simp⟩
  · simp [figureDrawing]
  · simp
  · simp
  · decide
  · decide
  · have : (figureDrawing.xml (fun _ _ _ => 1800) none []).isSome = true := by decide +kernel
    obtain ⟨x, hx⟩ := Option.isSome_iff_exists.mp this
    rw [hx]
    show some x = some ((figureDrawing.xml (fun _ _ _ => 1800) none []).getD [])
    rw [hx]
    rfl

example : (opened (written 0 c!"Talk" [figurePage] .none id fun _ => [])).map
      (fun p => p.slides.map fun s => (s.text.title, s.shapes.map fun x => (x.kind, x.x, x.y, x.width, x.height, x.text))) =
    some [(c!"Figure", [(.ellipse, 1, 2, 3, 4, some c!"a < b"), (.rectangle, 5, 6, 7, 4294967295, none), (.rectangle, 0, 0, 10, 20, none)])] := by
  have h := C146_file_partial 0 id (fun _ => []) (st := .none) (title := c!"Talk") (l := [(figurePage, figureDrawing)]) rfl rfl (by simp) (by decide)
    (by intro x hx; rw [List.mem_singleton] at hx; subst hx; exact figure_drawn) (by decide) (by decide)
  rw [List.map_cons, List.map_nil] at h
  rw [h]
  krfl

/-- The premises of `C146_again_partial` can be met. -/
example : ∃ p, opened (written 0 c!"Talk" [figurePage] .none id fun _ => []) = some p ∧
    ∃ pages, opened (written 5 p.title pages .none id fun _ => []) = some p := by
  have hd : ∀ x ∈ [(figurePage, figureDrawing)], DrawnPage (fun _ _ _ => 1800) none x.1 x.2 := by
    intro x hx; rw [List.mem_singleton] at hx; subst hx; exact figure_drawn
  have h := C146_file_partial 0 id (fun _ => []) (st := .none) (title := c!"Talk") (l := [(figurePage, figureDrawing)]) rfl rfl (by simp) (by decide)
    hd (by decide) (by decide)
  refine ⟨_, h, ?_⟩
  obtain ⟨h1, h2⟩ := C146_again_partial 0 5 id id (fun _ => []) (fun _ => []) rfl rfl (st' := .none) rfl rfl (by simp) (by decide) hd (by decide)
    (by decide) (by intro f hf; cases hf) (by decide) h
  obtain ⟨q, hq⟩ := h1 _ (by simp; rfl)
  exact ⟨[q], h2 _ (.cons hq .nil)⟩

example : SameShape { kind := .diamond, x := 1, y := 2, width := 3, height := 4, text := some c!"yes" }
    (loadedShape { kind := .diamond, x := 1, y := 2, width := 3, height := 4, text := some c!"yes" }) :=
  C146_same (by decide) (by decide)

theorem drawn_exists {fontSize : Str → Nat → Nat → Nat} {highlight : Option (Str → Str → List (List Segment))} {d : Drawing} {rids : List Str}
    (h : (d.xml fontSize highlight rids).isSome = true) :
    ∃ s : SlideText, s.Safe ∧ SmallNumbers s ∧ d.xml fontSize highlight rids = some s.extra := by
  obtain ⟨x, hx⟩ := Option.isSome_iff_exists.mp h
  have h := addBullets_readable c!"Figure" [] none .titleAndContent (by simp)
  exact ⟨{ SlideText.new c!"Figure" with extra := x }, ⟨h.1.1, h.1.2, h.1.3, h.1.4, h.1.5⟩, ⟨h.2.1.1, h.2.1.2, h.2.1.3, h.2.1.4, h.2.1.5⟩, hx⟩

/-- The premises of the theorems about single shapes and code blocks can be met. -/
example : ∃ s : SlideText, (parseSlide s.xml).map (fun p => (importSlide p).shapes.map (·.kind)) = some [.rectangle] := by
  obtain ⟨s, h1, h2, h3⟩ := drawn_exists (fontSize := fun _ _ _ => 1800) (highlight := none) (rids := [])
    (d := { shapes := [{ kind := .heart, x := 1, y := 2, width := 3, height := 4 }] }) (by decide +kernel)
  exact ⟨s, (C146_kinds_violated h1 h2 ⟨by simp, by simp, by simp, by simp⟩ (fun f hf => by cases hf) ⟨by decide, by decide⟩ h3 (by decide)).1⟩

example : ∃ s : SlideText, (parseSlide s.xml).map (fun p => (importSlide p).shapes.map (·.text)) = some [none] := by
  obtain ⟨s, h1, h2, h3⟩ := drawn_exists (fontSize := fun _ _ _ => 1800) (highlight := none) (rids := [])
    (d := { codeBlocks := [{ code := c!"x = 1", language := c!"py", x := 1, y := 0, width := 10, height := 20 }] }) (by decide +kernel)
  exact ⟨s, C146_bare_code_violated h1 h2 ⟨by decide, by decide⟩ h3⟩

example : ∃ s : SlideText, (parseSlide s.xml).map (fun p => (importSlide p).shapes.map (·.text)) = some [some c!"letx"] := by
  obtain ⟨s, h1, h2, h3⟩ := drawn_exists (fontSize := fun _ _ _ => 1800) (highlight := some fun _ _ => [letX]) (rids := [])
    (d := { codeBlocks := [{ code := c!"let x", language := c!"rust", x := 1, y := 0, width := 10, height := 20 }] }) (by decide +kernel)
  exact ⟨s, C146_code_violated h1 h2 ⟨by decide, by decide⟩ h3⟩

example : ∃ s : SlideText, (parseSlide s.xml).map (fun p => (importSlide p).shapes.map (·.text)) = some [some c!"[sh]\nls\nps"] := by
  obtain ⟨s, h1, h2, h3⟩ := drawn_exists (fontSize := fun _ _ _ => 1800) (highlight := none) (rids := [])
    (d := { shapes := [{ kind := .rectangle, x := 1, y := 2, width := 3, height := 4, text := some c!"[sh]\nls\n\nps" }] }) (by decide +kernel)
  exact ⟨s, C146_blank_lines_violated h1 h2 ⟨by simp, by simp, by simp, by simp⟩ (fun f hf => by cases hf) ⟨by decide, by decide⟩ h3 rfl⟩

/-- A slide with a picture is loaded like an empty one. -/
example : ∃ s s' : SlideText, s.extra ≠ s'.extra ∧ (parseSlide s.xml).map importSlide = (parseSlide s'.xml).map importSlide := by
  have hx : (Drawing.xml (fun _ _ _ => 1800) none { charts := [{ x := 1, y := 2, width := 3, height := 4 }] } [c!"rId5"]).isSome = true := by
    decide +kernel
  obtain ⟨s, h1, h2, h3⟩ := drawn_exists hx
  refine ⟨s, { s with extra := [] }, ?_, ?_⟩
  · intro he
    have hne : (Drawing.xml (fun _ _ _ => 1800) none { charts := [{ x := 1, y := 2, width := 3, height := 4 }] } [c!"rId5"]).map List.isEmpty = some false := by
      decide +kernel
    rw [he] at h3
    rw [h3] at hne
    cases hne
  · refine C146_lost_violated h1 h2 ⟨by simp, by simp, ?_, by simp⟩ ⟨by decide, by decide⟩ h3 rfl rfl
    intro r hr
    rw [List.mem_singleton] at hr
    subst hr
    exact ⟨by decide, by decide, by decide⟩

end PptRs.Props
