import Verif.Lemmas.Parts
import Verif.Spec.Parts
import Verif.Props.BuilderSlideRels
import Verif.Props.BuilderTargets

/-!
# Layouts, masters, notes and document properties
-/

namespace PptRs.Props

open PptRs PptRs.Spec

/-! ### Layouts -/

/-- **C80**: the part a layout number stands for is the layout that was asked for: its document has
the type and the placeholders of that layout. -/
theorem C80_layout (l : SlideLayout) :
    ∃ doc, document (createSlideLayoutXml l.layoutNumber) = some doc ∧
      layoutType doc = some (layoutMeaning l).1 ∧
      layoutPlaceholders doc = (layoutMeaning l).2.map fun p => (some p.1, p.2) := by
  have key : (document (createSlideLayoutXml l.layoutNumber)).map
      (fun doc => (layoutType doc, layoutPlaceholders doc)) =
      some (some (layoutMeaning l).1, (layoutMeaning l).2.map fun p => (some p.1, p.2)) := by
    cases l <;> krfl
  cases h : document (createSlideLayoutXml l.layoutNumber) with
  | none => rw [h] at key; simp at key
  | some doc =>
    rw [h] at key
    simp only [Option.map_some, Option.some.injEq, Prod.mk.injEq] at key
    exact ⟨doc, rfl, key.1, key.2⟩

/-- **C80**: in a deck without a template every slide leads to the part of its layout, and that part
is written. -/
theorem C80_slide (d : Deck) (st : BuildSettings) (hok : LinksOk d st) (j : Nat) (s : SlideIn)
    (l : List RelEntry) (hs : d.slides[j]? = some s)
    (h : ⟨.slideRels (j + 1), .rels l⟩ ∈ buildPackage d st) :
    ∃ r n doc, relById l c!"rId1" = some r ∧ r.type = relTypeBase ++ c!"slideLayout" ∧
      leadsTo (.slideRels (j + 1)) r = some (PartName.layout n).path ∧
      PartName.layout n ∈ names (buildPackage d st) ∧
      document (createSlideLayoutXml n) = some doc ∧
      layoutType doc = some (layoutMeaning s.layout).1 ∧
      layoutPlaceholders doc = (layoutMeaning s.layout).2.map fun p => (some p.1, p.2) := by
  obtain ⟨⟨r, h1, h2, h3⟩, -⟩ := C28_layout_and_notes d st j s l hs h
  obtain ⟨doc, e1, e2, e3⟩ := C80_layout s.layout
  refine ⟨r, s.layout.layoutNumber, doc, h1, h2, ?_, ?_, e1, e2, e3⟩
  · rw [h3]; simp [resolveLayout, hok.template]
  · rw [mem_names hok.template]
    have := layoutNumber_le s.layout
    simp [expectedParts, List.mem_range'_1]
    omega

/-- Two layouts lead to different parts. -/
theorem C80_distinct (a b : SlideLayout) (h : a ≠ b) : a.layoutNumber ≠ b.layoutNumber := by
  cases a <;> cases b <;> first | exact absurd rfl h | decide

example : (document (createSlideLayoutXml 3)).map layoutPlaceholders =
    some [(some c!"title", none), (some c!"body", some c!"1"), (some c!"body", some c!"2")] := by krfl

/-! ### Header and footer -/

/-- What should be on a master: a header and a footer with their texts, the date and the slide
number, as far as they are wanted. -/
def wantedPlaceholders (date number : Str) (p : PrintIn) : List (Option Str × List Str) :=
  p.header.toList.map (fun t => (some c!"hdr", [t])) ++
  p.footer.toList.map (fun t => (some c!"ftr", [t])) ++
  (if p.printDate then [(some c!"dt", [date])] else []) ++
  (if p.printPageNumbers then [(some c!"sldNum", [number])] else [])

theorem textOf_addText (t : Str) : textOf (addText [] t) = t := by
  cases t <;> simp [addText, textOf]

theorem placeholders_append (a b : List Node) :
    placeholders (a ++ b) = placeholders a ++ placeholders b := by
  simp [placeholders, elemsL_append]

/-- **C81**: the handout master has the header and the footer that were asked for, with exactly
their texts, whatever they contain. -/
theorem C81_handout (p : PrintIn) :
    ∃ doc, document (toHandoutMasterXml p) = some doc ∧
      placeholders doc = wantedPlaceholders [] c!"‹#›" p := by
  have e : document (toHandoutMasterXml p) = parse (fmt (handoutBody p)) := by krfl
  refine ⟨_, e.trans (parse_of_nodes (readsNodes_handout p)), ?_⟩
  have h : placeholders (handoutDoc p) = placeholders (handoutShapes p) := by
    have : elemsL c!"p:sp" (handoutDoc p) = ((elemsL c!"p:sp" (handoutShapes p) ++ []) ++ []) ++ [] := by
      krfl
    simp only [placeholders, this, List.append_nil]
  have h1 : ∀ t, placeholders [handoutHeaderNode t] = [(some c!"hdr", [t])] := by
    intro t
    have : placeholders [handoutHeaderNode t] = [(some c!"hdr", [textOf (addText [] t)])] := by krfl
    rw [this, textOf_addText]
  have h2 : ∀ t, placeholders [handoutFooterNode t] = [(some c!"ftr", [t])] := by
    intro t
    have : placeholders [handoutFooterNode t] = [(some c!"ftr", [textOf (addText [] t)])] := by krfl
    rw [this, textOf_addText]
  have h3 : placeholders [handoutDateNode] = [(some c!"dt", [[]])] := by krfl
  have h4 : placeholders [handoutNumberNode] = [(some c!"sldNum", [c!"‹#›"])] := by krfl
  have h0 : placeholders [] = [] := rfl
  have e1 : placeholders (p.header.toList.flatMap fun t => [handoutHeaderNode t]) =
      p.header.toList.map (fun t => (some c!"hdr", [t])) := by
    cases p.header with
    | none => rfl
    | some t => exact h1 t
  have e2 : placeholders (p.footer.toList.flatMap fun t => [handoutFooterNode t]) =
      p.footer.toList.map (fun t => (some c!"ftr", [t])) := by
    cases p.footer with
    | none => rfl
    | some t => exact h2 t
  have e3 : placeholders (if p.printDate then [handoutDateNode] else []) =
      if p.printDate then [(some c!"dt", [[]])] else [] := by
    cases p.printDate
    · rfl
    · exact h3
  have e4 : placeholders (if p.printPageNumbers then [handoutNumberNode] else []) =
      if p.printPageNumbers then [(some c!"sldNum", [c!"‹#›"])] else [] := by
    cases p.printPageNumbers
    · rfl
    · exact h4
  rw [h, handoutShapes, placeholders_append, placeholders_append, placeholders_append, e1, e2, e3, e4,
    wantedPlaceholders]

theorem masterShapes_start (p : PrintIn) : slideMasterFooterShapes (some p) = [] ∨
    ∃ r, fmt (slideMasterFooterShapes (some p)) = '<' :: r := by
  obtain ⟨hd, ft, pd, pn⟩ := p
  cases hd
  · cases ft
    · cases pd
      · cases pn
        · exact .inl rfl
        · exact .inr ⟨_, rfl⟩
      · exact .inr ⟨_, rfl⟩
    · exact .inr ⟨_, rfl⟩
  · exact .inr ⟨_, rfl⟩

theorem masterShapes_nil {p : PrintIn} (h : slideMasterFooterShapes (some p) = []) :
    masterShapes (some p) = [] := by
  obtain ⟨hd, ft, pd, pn⟩ := p
  cases hd
  · cases ft
    · cases pd
      · cases pn
        · rfl
        · exact absurd h (by intro h; cases h)
      · exact absurd h (by intro h; cases h)
    · exact absurd h (by intro h; cases h)
  · exact absurd h (by intro h; cases h)

/-- The text styles of the slide master: one piece of XML without shapes. -/
structure StylesOk (ps : List Part) (styles : List Node) : Prop where
  reads : ReadsTagged ps styles
  shapes : elemsL c!"p:sp" styles = []

/-- **C81**: the slide master has the footer with exactly its text, the date and the slide number.
Not shown: the text of the header, see `C81_header_violated`. -/
theorem C81_master_partial (ps : List Part) (styles : List Node) (hs : StylesOk ps styles)
    (p : PrintIn) :
    ∃ doc, document (createSlideMasterXml ps (some p)) = some doc ∧
      placeholders doc =
        p.header.toList.map (fun _ => (some c!"hdr", [])) ++
        wantedPlaceholders c!"6/1/2026" c!"‹#›" { p with header := none } := by
  have hd1 : ∀ ks, placeholders (masterDoc styles ks) = placeholders ks := by
    intro ks
    have e : elemsL c!"p:sp" (masterDoc styles ks) =
        ((elemsL c!"p:sp" ks ++ []) ++ elemsL c!"p:sp" (masterTailDoc masterIdNodes styles ++ [nl]))
          ++ [] := by krfl
    rw [elemsL_append] at e
    have e2 : elemsL c!"p:sp" (masterTailDoc masterIdNodes styles) = [] := by
      have : elemsL c!"p:sp" (masterTailDoc masterIdNodes styles) =
        elemsL c!"p:sp" (masterIdNodes ++ [nl]) ++ elemsL c!"p:sp" styles := by krfl
      have e0 : elemsL c!"p:sp" (masterIdNodes ++ [nl]) = [] := by krfl
      rw [this, hs.shapes, e0]; rfl
    have e3 : elemsL c!"p:sp" [nl] = [] := rfl
    simp only [placeholders, e, e2, e3, List.append_nil]
  have h0 : placeholders [placeholderNode 2 c!"Header Placeholder" c!"hdr" none 312420 213360 8519760
      365125] = [(some c!"hdr", [])] := by krfl
  have h2 : ∀ i t, placeholders [masterFooterNode i t] = [(some c!"ftr", [t])] := by
    intro i t
    have : placeholders [masterFooterNode i t] = [(some c!"ftr", [textOf (addText [] t)])] := by krfl
    rw [this, textOf_addText]
  have h3 : ∀ i, placeholders [masterDateNode i] = [(some c!"dt", [c!"6/1/2026"])] := by
    intro i; krfl
  have h4 : ∀ i, placeholders [masterNumberNode i] = [(some c!"sldNum", [c!"‹#›"])] := by
    intro i; krfl
  have key : placeholders (masterShapes (some p)) =
      p.header.toList.map (fun _ => (some c!"hdr", [])) ++
        wantedPlaceholders c!"6/1/2026" c!"‹#›" { p with header := none } := by
    simp only [masterShapes, placeholders_append, wantedPlaceholders, Option.toList_none, List.map_nil,
      List.nil_append, List.append_assoc]
    have e1 : placeholders (p.header.toList.flatMap fun _ =>
        [placeholderNode 2 c!"Header Placeholder" c!"hdr" none 312420 213360 8519760 365125]) =
        p.header.toList.map (fun _ => (some c!"hdr", [])) := by
      cases p.header with
      | none => rfl
      | some t => exact h0
    have e2 : ∀ i, placeholders (p.footer.toList.flatMap fun f => [masterFooterNode i f]) =
        p.footer.toList.map (fun t => (some c!"ftr", [t])) := by
      intro i
      cases p.footer with
      | none => rfl
      | some t => exact h2 i t
    have e3 : ∀ i, placeholders (if p.printDate then [masterDateNode i] else []) =
        if p.printDate then [(some c!"dt", [c!"6/1/2026"])] else [] := by
      intro i
      cases p.printDate
      · rfl
      · exact h3 i
    have e4 : ∀ i, placeholders (if p.printPageNumbers then [masterNumberNode i] else []) =
        if p.printPageNumbers then [(some c!"sldNum", [c!"‹#›"])] else [] := by
      intro i
      cases p.printPageNumbers
      · rfl
      · exact h4 i
    rw [e1, e2, e3, e4]
  rcases masterShapes_start p with hemp | hr
  · have hb : masterBody ps (some p) = masterBody ps none := by
      unfold masterBody
      rw [hemp]; rfl
    refine ⟨_, ?_, (hd1 [.text c!"\n\n"]).trans ?_⟩
    · rw [createSlideMasterXml, hb]
      exact document_decl (readsNodes_master_empty hs.reads) ⟨_, rfl⟩
    · rw [← key, masterShapes_nil hemp]; rfl
  · refine ⟨_, document_decl (readsNodes_master hs.reads ((readsNodes_masterShapes _).tagged hr))
      ⟨_, rfl⟩, (hd1 _).trans ?_⟩
    rw [← key, List.cons_append, ← List.singleton_append, placeholders_append, placeholders_append]
    have e : placeholders [nl] = [] := rfl
    rw [e, List.append_nil, List.nil_append]

/-- **C81**: the text of the header is not in the slide master: two headers give the same part. -/
theorem C81_header_violated (ps : List Part) (a b : Str) (p : PrintIn) :
    createSlideMasterXml ps (some { p with header := some a }) =
      createSlideMasterXml ps (some { p with header := some b }) := rfl

example : StylesOk t!"<p:txStyles/>" [E c!"p:txStyles" [] []] :=
  ⟨((Splits.lit (by all_ok)).readsNodes (by krfl)).tagged ⟨_, rfl⟩, rfl⟩

example : (document (toHandoutMasterXml ⟨some c!"R&D", some c!"<x>", true, false⟩)).map placeholders =
    some [(some c!"hdr", [c!"R&D"]), (some c!"ftr", [c!"<x>"]), (some c!"dt", [[]])] := by krfl

/-! ### Notes -/

theorem plain_append {a b : Str} (ha : Plain a) (hb : Plain b) : Plain (a ++ b) := by
  refine ⟨?_, ?_, ?_⟩ <;> simp only [List.mem_append, not_or]
  · exact ⟨ha.1, hb.1⟩
  · exact ⟨ha.2.1, hb.2.1⟩
  · exact ⟨ha.2.2, hb.2.2⟩

theorem plain_hexUpper {n : Nat} (h : n < 16) : Plain [hexUpper n] := by
  have : ∀ k : Fin 16, ([hexUpper k.val].all fun c => !(c == '&' || c == '<' || c == '"')) = true := by
    decide
  exact plain_of (this ⟨n, h⟩)

theorem plain_hexUpTo (f n : Nat) : Plain (hexUpTo f n) := by
  induction f generalizing n with
  | zero => exact ⟨by simp [hexUpTo], by simp [hexUpTo], by simp [hexUpTo]⟩
  | succ f ih =>
    unfold hexUpTo
    split
    · rename_i h; exact plain_hexUpper h
    · exact plain_append (ih _) (plain_hexUpper (Nat.mod_lt _ (by decide)))

theorem plain_zeroPad {w : Nat} {s : Str} (h : Plain s) : Plain (zeroPad w s) := by
  refine plain_append ⟨?_, ?_, ?_⟩ h <;> simp only [List.mem_replicate] <;> rintro ⟨-, h⟩ <;> cases h

theorem plain_fieldGuid (n : Nat) : Plain (fieldGuid n) :=
  plain_append (plain_append (plain_of (by decide)) (plain_zeroPad (plain_hexUpTo _ _)))
    (plain_of (by decide))

/-- **C82**: the notes page of a slide is well-formed and has exactly the text of the notes, whatever
it contains. -/
theorem C82_notes (n : Nat) (notes : Str) :
    ∃ doc, document (createNotesXml n notes) = some doc ∧
      placeholders doc = [(some c!"sldImg", []), (some c!"body", [notes]), (some c!"sldNum", [dec n])] := by
  refine ⟨_, document_decl (readsNodes_notes _ _ _ (plain_fieldGuid n)) ⟨_, rfl⟩, ?_⟩
  have : placeholders (notesDoc (fieldGuid n) n notes) =
      [(some c!"sldImg", []), (some c!"body", [textOf (addText [] notes)]),
       (some c!"sldNum", [textOf (addText [] (dec n))])] := by krfl
  rw [this, textOf_addText, textOf_addText]

/-- **C82**: the notes of a slide are in the part that its notes relationship leads to. -/
theorem C82_slide (d : Deck) (st : BuildSettings) (j : Nat) (s : SlideIn) (l : List RelEntry)
    (text : Str) (hs : d.slides[j]? = some s) (ht : s.notes = some text)
    (h : ⟨.slideRels (j + 1), .rels l⟩ ∈ buildPackage d st) :
    ∃ r m doc, relById l c!"rId2" = some r ∧
      leadsTo (.slideRels (j + 1)) r = some (PartName.notes m).path ∧
      ⟨.notes m, .notes (j + 1) text⟩ ∈ buildPackage d st ∧
      document (createNotesXml (j + 1) text) = some doc ∧
      (some c!"body", [text]) ∈ placeholders doc := by
  obtain ⟨-, h2⟩ := C28_layout_and_notes d st j s l hs h
  obtain ⟨r, m, e1, -, e3, e4⟩ := h2 text ht
  obtain ⟨doc, d1, d2⟩ := C82_notes (j + 1) text
  exact ⟨r, m, doc, e1, e3, e4, d1, by rw [d2]; simp⟩

example : (document (createNotesXml 300 c!"a < b\n& c")).map placeholders = some [(some c!"sldImg", []),
    (some c!"body", [c!"a < b\n& c"]), (some c!"sldNum", [c!"300"])] := by krfl

/-! ### Document properties -/

theorem plain_stamp (t : Stamp) : Plain t.text := by
  have z : ∀ w n, Plain (zeroPad w (dec n)) := fun w n => plain_zeroPad (plain_dec n)
  have c : ∀ x : Str, (x.all fun c => !(c == '&' || c == '<' || c == '"')) = true → Plain x :=
    fun x => plain_of
  exact plain_append (plain_append (plain_append (plain_append (plain_append (plain_append
    (plain_append (plain_append (plain_append (plain_append (plain_append (z _ _) (c _ (by decide)))
    (z _ _)) (c _ (by decide))) (z _ _)) (c _ (by decide))) (z _ _)) (c _ (by decide))) (z _ _))
    (c _ (by decide))) (z _ _)) (c _ (by decide))

theorem elemsL_addText (n t : Str) : elemsL n (addText [] t) = [] := by
  cases t <;> simp [addText, elemsL, elems]

theorem kidsOf_elem (n : Str) (as : List (Str × Str)) (ks : List Node) :
    kidsOf (.elem n as ks) = ks := rfl

theorem core_title (now title : Str) : textsOf c!"dc:title" (coreDoc now title) = [title] := by
  simp [textsOf, coreDoc, elemsL, elems, elemsL_addText, kidsOf_elem, textOf_addText, nl]

theorem core_created (now title : Str) : textsOf c!"dcterms:created" (coreDoc now title) = [now] := by
  simp [textsOf, coreDoc, elemsL, elems, elemsL_addText, kidsOf_elem, textOf_addText, nl]

/-- **C54**: the core properties contain the title, provided that it contains no `&`, `<` or `"`. -/
theorem C54_core_partial (secs : Nat) (title : Str) (h : Plain title) :
    ∃ doc, document (createCorePropsXml secs title) = some doc ∧
      textsOf c!"dc:title" doc = [title] ∧
      textsOf c!"dcterms:created" doc = [(stampOf secs).text] := by
  refine ⟨_, document_decl (readsNodes_core h (plain_stamp _)) ⟨_, rfl⟩, core_title _ _, core_created _ _⟩

theorem readText_length : ∀ (n : Nat) (s t : Str), s.length = n → readText s = some t →
    t.length ≤ s.length ∧ ('&' ∈ s → t.length < s.length) := by
  intro n
  induction n using Nat.strongRecOn with
  | ind n ih =>
    intro s t hn h
    subst hn
    rw [readText.eq_def] at h
    split at h
    · simp only [Option.some.injEq] at h; subst h; simp
    all_goals
      first
      | (simp only [Option.map_eq_some_iff] at h
         obtain ⟨x, hx, rfl⟩ := h
         have := (ih _ (by simp only [List.length_cons]; omega) _ _ rfl hx).1
         simp only [List.length_cons]
         exact ⟨by omega, fun _ => by omega⟩)
      | (split at h
         · cases h
         · rename_i hc
           simp only [not_or] at hc
           simp only [Option.map_eq_some_iff] at h
           obtain ⟨x, hx, rfl⟩ := h
           have := ih _ (by simp only [List.length_cons]; omega) _ _ rfl hx
           simp only [List.length_cons, List.mem_cons]
           refine ⟨by omega, fun hm => ?_⟩
           rcases hm with e | hm
           · exact absurd e.symm hc.1
           · have := this.2 hm; omega)

/-- The front of the core properties, up to the title. -/
def coreFront : List Part :=
  t!"<cp:coreProperties xmlns:cp=\"http://schemas.openxmlformats.org/package/2006/metadata/core-properties\" xmlns:dc=\"http://purl.org/dc/elements/1.1/\" xmlns:dcterms=\"http://purl.org/dc/terms/\" xmlns:dcmitype=\"http://purl.org/dc/dcmitype/\" xmlns:xsi=\"http://www.w3.org/2001/XMLSchema-instance\">\n<dc:title>"

/-- What follows the title. -/
def coreRest (now : Str) : List Part :=
  t!"</dc:title>\n<dc:creator>pptx-rs</dc:creator>\n<cp:lastModifiedBy>pptx-rs</cp:lastModifiedBy>\n<cp:revision>1</cp:revision>\n<dcterms:created xsi:type=\"dcterms:W3CDTF\">{.raw now}</dcterms:created>\n<dcterms:modified xsi:type=\"dcterms:W3CDTF\">{.raw now}</dcterms:modified>\n</cp:coreProperties>"

theorem coreBody_eq (now title : Str) :
    coreBody now title = coreFront ++ [.raw title] ++ coreRest now := by krfl

/-- The element that is open where the title is inserted. -/
def coreOpen : List Frame :=
  [⟨c!"cp:coreProperties", [(c!"xmlns:cp",
    c!"http://schemas.openxmlformats.org/package/2006/metadata/core-properties"), (c!"xmlns:dc",
    c!"http://purl.org/dc/elements/1.1/"), (c!"xmlns:dcterms", c!"http://purl.org/dc/terms/"),
    (c!"xmlns:dcmitype", c!"http://purl.org/dc/dcmitype/"), (c!"xmlns:xsi",
    c!"http://www.w3.org/2001/XMLSchema-instance")], [nl]⟩, ⟨[], [], []⟩]

theorem core_front_steps : steps ⟨⟨[], [], []⟩, [], .text []⟩ (fmt coreFront) =
    some ⟨⟨c!"dc:title", [], []⟩, coreOpen, .text []⟩ := by krfl

theorem core_rest_run (now t : Str) :
    symRun ⟨⟨c!"dc:title", [], []⟩, coreOpen, .text t⟩ ((coreRest now).map .part) =
      some ⟨⟨[], [], coreDoc now t⟩, [], .text []⟩ := by krfl

/-- What is read from the core properties, for a title without `<`: the part is unreadable if the
title is not valid character data, and otherwise the title is read with its entities resolved. -/
theorem core_read (now title : Str) (hn : Plain now) (h : '<' ∉ title) :
    document (xmlDecl ++ fmt (coreBody now title)) = (readText title).map (coreDoc now) := by
  have e : document (xmlDecl ++ fmt (coreBody now title)) = parse (fmt (coreBody now title)) := by krfl
  rw [e, coreBody_eq, fmt_append, fmt_append, parse, List.append_assoc, steps_append, core_front_steps]
  have hr : fmt [Part.raw title] = title := by simp [fmt, Part.render]
  rw [Option.bind_some, hr, steps_append, steps_text _ _ _ _ h, Option.bind_some, List.nil_append]
  cases ht : readText title with
  | none =>
    have hne : title ≠ [] := by rintro rfl; simp [readText] at ht
    have : ∃ r, fmt (coreRest now) = '<' :: r := ⟨_, rfl⟩
    obtain ⟨r, hr⟩ := this
    rw [hr]
    simp [steps, step, flush, hne, ht]
  | some t =>
    have ok : ∀ p ∈ (coreRest now).map Sym.part, p.Ok := (Splits.lit (by unfold coreRest; all_ok)).2
    obtain ⟨c, e1, e2, e3, e4⟩ := reads_run ok (core_rest_run now t)
      ⟨⟨c!"dc:title", [], []⟩, coreOpen, .text title⟩ ⟨rfl, rfl, .text ht⟩
    obtain ⟨Top, Stk, M⟩ := c
    simp only at e2 e3 e4
    subst e2 e3
    have hp : fmt (symParts ((coreRest now).map Sym.part)) = fmt (coreRest now) :=
      congrArg fmt (Splits.lit (by unfold coreRest; all_ok) : Splits (coreRest now) _).1.symm
    rw [← hp, e1]
    cases e4 with
    | text hr =>
      have := readText_eq_nil hr
      subst this
      rfl

/-- **C54** fails for every title with an ampersand: either the part cannot be read, or the title
read from it is another one. (Titles with `<` are not covered by this theorem.) -/
theorem C54_core_violated (secs : Nat) (title : Str) (h : '<' ∉ title) (ha : '&' ∈ title)
    (doc : List Node) (hd : document (createCorePropsXml secs title) = some doc) :
    textsOf c!"dc:title" doc ≠ [title] := by
  rw [createCorePropsXml, core_read _ _ (plain_stamp _) h, Option.map_eq_some_iff] at hd
  obtain ⟨t, ht, rfl⟩ := hd
  rw [core_title]
  intro e
  simp only [List.cons.injEq, and_true] at e
  subst e
  exact absurd ((readText_length _ _ _ rfl ht).2 ha) (by omega)

/-- A title with an ampersand makes the part unreadable. -/
theorem C54_unreadable_violated : document (createCorePropsXml 0 c!"Q & A") = none := by krfl

/-- A title with an element is read as another document. -/
theorem C54_markup_violated :
    (document (createCorePropsXml 0 c!"a <b/> c")).map (textsOf c!"dc:title") = some [c!"a  c"] := by krfl

theorem elemsL_titles (n : Str) (h : n ≠ c!"vt:lpstr") (l : List Str) : elemsL n (titleNodes l) = [] := by
  induction l with
  | nil => rfl
  | cons t l ih =>
    have h' : c!"vt:lpstr" ≠ n := fun e => h e.symm
    rw [titleNodes, List.flatMap_cons, elemsL_append]
    rw [titleNodes] at ih
    simp [ih, elemsL, elems, h', elemsL_addText]

theorem textsOf_titles (l : List Str) :
    (elemsL c!"vt:lpstr" (titleNodes l)).map (fun k => textOf (kidsOf k)) = l := by
  induction l with
  | nil => rfl
  | cons t l ih =>
    rw [titleNodes, List.flatMap_cons, elemsL_append]
    rw [titleNodes] at ih
    simp [ih, elemsL, elems, kidsOf_elem, textOf_addText]

/-- **C54**: the extended properties count the slides and the notes and list the titles of the
slides. -/
theorem C54_app (slides notes : Nat) (titles : List Str) :
    ∃ doc, document (createAppPropsXml slides notes titles) = some doc ∧
      textsOf c!"Slides" doc = [dec slides] ∧ textsOf c!"Notes" doc = [dec notes] ∧
      titlesOfParts doc = appTitles slides titles := by
  refine ⟨_, document_decl (readsNodes_app slides notes titles) ⟨_, rfl⟩, ?_, ?_, ?_⟩
  · simp [textsOf, appDoc, headingsDoc, elemsL, elems, elemsL_addText, kidsOf_elem,
      textOf_addText, nl, elemsL_titles]
  · simp [textsOf, appDoc, headingsDoc, elemsL, elems, elemsL_addText, kidsOf_elem,
      textOf_addText, nl, elemsL_titles]
  · simp [titlesOfParts, textsOf, appDoc, headingsDoc, elemsL, elems, elemsL_addText,
      kidsOf_elem, textOf_addText, nl, textsOf_titles]

theorem getElem?_collectSlideTitles (ts : List Str) (i : Nat) :
    (collectSlideTitles ts)[i]? =
      ts[i]?.map fun t => if trim t = [] then c!"Slide " ++ dec (i + 1) else t := by
  simp [collectSlideTitles]
  cases ts[i]? <;> rfl

/-- **C54**: the extended properties of a deck list one title for each slide, in order: the title of
the slide, or its number if the title is blank. -/
theorem C54_titles (ts : List Str) (notes : Nat) :
    ∃ doc, document (createAppPropsXml ts.length notes (collectSlideTitles ts)) = some doc ∧
      (titlesOfParts doc).length = ts.length ∧
      ∀ i t, ts[i]? = some t →
        (titlesOfParts doc)[i]? = some (if trim t = [] then c!"Slide " ++ dec (i + 1) else t) := by
  obtain ⟨doc, h1, -, -, h2⟩ := C54_app ts.length notes (collectSlideTitles ts)
  have hl : (collectSlideTitles ts).length = ts.length := by simp [collectSlideTitles]
  have e : appTitles ts.length (collectSlideTitles ts) = collectSlideTitles ts := by
    rw [appTitles, if_pos (by omega), List.take_of_length_le (by omega)]
  refine ⟨doc, h1, by rw [h2, e, hl], fun i t ht => ?_⟩
  rw [h2, e, getElem?_collectSlideTitles, ht]; rfl

example : (document (createAppPropsXml 2 0 (collectSlideTitles [c!"a & b", c!" "]))).map titlesOfParts =
    some [c!"a & b", c!"Slide 2"] := by krfl

/-! ### Timestamps -/

/-- **C53**: the time of day is right for every clock value. Not shown: the date, see
`C53_date_violated`. -/
theorem C53_time_partial (secs : Nat) :
    (stampOf secs).hours < 24 ∧ (stampOf secs).minutes < 60 ∧ (stampOf secs).seconds < 60 ∧
    (stampOf secs).hours * 3600 + (stampOf secs).minutes * 60 + (stampOf secs).seconds = secs % 86400 := by
  simp only [stampOf]
  omega

theorem daysToYear_ge (k : Nat) : 365 * (7 + k) + 2 ≤ daysToYear (7 + k) := by
  induction k with
  | zero => decide
  | succ k ih =>
    rw [← Nat.add_assoc, daysToYear]
    have : 365 ≤ yearDays (1970 + (7 + k)) := by unfold yearDays; split <;> omega
    omega

theorem daysToMonth_ge (y m : Nat) (h : m ≤ 11) : 30 * m ≤ daysToMonth y m + 1 := by
  have h1 : 28 ≤ monthDays y 2 := by simp [monthDays]; split <;> omega
  have e : ∀ k, daysToMonth y (k + 1) = daysToMonth y k + monthDays y (k + 1) := fun _ => rfl
  have hm : ∀ k, k + 1 ≠ 2 → 30 ≤ monthDays y (k + 1) ∧
      (¬(k + 1 = 4 ∨ k + 1 = 6 ∨ k + 1 = 9 ∨ k + 1 = 11) → 31 ≤ monthDays y (k + 1)) := by
    intro k hk
    unfold monthDays
    rw [if_neg hk]
    split <;> simp_all
  have h0 : daysToMonth y 0 = 0 := rfl
  have a1 := (hm 0 (by decide)).2 (by decide)
  have b1 := e 0
  have b2 := e 1
  have key : ∀ m, 2 ≤ m → m ≤ 11 → 30 * m ≤ daysToMonth y m + 1 := by
    intro m hm1
    induction m with
    | zero => omega
    | succ m ih =>
      intro hm2
      by_cases h2 : m = 1
      · subst h2; simp only [Nat.zero_add, Nat.reduceAdd] at *; omega
      · have := (hm m (by omega)).1
        have := ih (by omega) (by omega)
        have := e m
        omega
  rcases Nat.lt_or_ge m 2 with h2 | h2
  · rcases (by omega : m = 0 ∨ m = 1) with rfl | rfl
    · omega
    · simp only [Nat.zero_add, Nat.reduceAdd] at *; omega
  · exact key m h2 h

/-- **C53** fails for every clock value from the end of 1976 on: the timestamp is not a date of the
calendar, or denotes another instant. -/
theorem C53_date_violated (secs : Nat) (h : 365 * 7 * 86400 ≤ secs) :
    ¬((stampOf secs).Valid ∧ (stampOf secs).instant = secs) := by
  rintro ⟨⟨v1, v2, v3, -⟩, hi⟩
  have hd : 365 * 7 ≤ secs / 86400 := by omega
  have hy : 7 ≤ secs / 86400 / 365 := by omega
  simp only [stampOf] at v2 v3
  simp only [Stamp.instant, stampOf] at hi
  have g1 := daysToYear_ge (secs / 86400 / 365 - 7)
  rw [show 7 + (secs / 86400 / 365 - 7) = secs / 86400 / 365 by omega] at g1
  have g2 := daysToMonth_ge (1970 + secs / 86400 / 365) (secs / 86400 % 365 / 30) (by omega)
  rw [show 1970 + secs / 86400 / 365 - 1970 = secs / 86400 / 365 by omega,
    show 1 + secs / 86400 % 365 / 30 - 1 = secs / 86400 % 365 / 30 by omega,
    show 1 + secs / 86400 % 365 % 30 - 1 = secs / 86400 % 365 % 30 by omega] at hi
  omega

/-- There is a thirteenth month. -/
theorem C53_month_violated (secs : Nat) (h : 360 ≤ secs / 86400 % 365) : (stampOf secs).month = 13 := by
  simp only [stampOf]
  omega

example : (stampOf 0).Valid ∧ (stampOf 0).instant = 0 := by
  refine ⟨⟨by decide, by decide, by decide, by decide, by decide, by decide, by decide, by decide⟩, by decide⟩

example : (stampOf (360 * 86400)).text = c!"1970-13-01T00:00:00Z" := by decide

end PptRs.Props
