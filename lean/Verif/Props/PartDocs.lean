import Verif.Model.PartDocs
import Verif.Props.TablePart
import Verif.Lemmas.Parts
import Verif.Spec.Path
import Verif.Spec.Settings
import Verif.Lemmas.Rels
import Verif.Lemmas.BuilderEntries

/-!
# C123-C125: content types, the documents of parts, and their kinds
-/

namespace PptRs.Props

open PptRs.Spec PptRs.PartDocs
open PptRs.TablePart (joined)

local instance decPlainPart (s : Str) : Decidable (Plain s) := inferInstanceAs (Decidable (_ ∧ _ ∧ _))

/-! ### Lists with separators -/

theorem readsNodes_joined {α : Type} {sep : List Part} {w : Node} {f : α → List Part} {g : α → Node} {l : List α}
    (hl : l ≠ []) (hs : ∀ a ∈ l, ReadsNodes (sep ++ f a) [w, g a]) :
    ReadsNodes (sep ++ joined sep (l.map f)) (l.flatMap fun a => [w, g a]) := by
  refine readsNodes_congr (b := l.flatMap fun a => sep ++ f a) ?_ (readsNodes_flatMap hs)
  have := fmt_joined sep (l := l.map f) (by simpa using hl)
  rwa [List.flatMap_map] at this

/-! ## C123: content types -/

/-- The defaults that a reader finds. -/
def defaultsIn (doc : List Node) : List (Option Str × Option Str) :=
  (elemsL c!"Default" doc).map fun k => (attrOf c!"Extension" k, attrOf c!"ContentType" k)

/-- The overrides that a reader finds. -/
def overridesIn (doc : List Node) : List (Option Str × Option Str) :=
  (elemsL c!"Override" doc).map fun k => (attrOf c!"PartName" k, attrOf c!"ContentType" k)

/-- Names and types that stand for themselves. -/
def PlainTypes (p : TypesPart) : Prop := (∀ d ∈ p.defaults, Plain d.1 ∧ Plain d.2) ∧ ∀ d ∈ p.overrides, Plain d.1 ∧ Plain d.2

/-- The element of a default. -/
def defaultNode (d : Str × Str) : Node := E c!"Default" [(c!"Extension", d.1), (c!"ContentType", d.2)] []

/-- The element of an override. -/
def overrideNode (d : Str × Str) : Node := E c!"Override" [(c!"PartName", d.1), (c!"ContentType", d.2)] []

/-- The document of content types. -/
def typesDoc (p : TypesPart) : Node :=
  E c!"Types" [(c!"xmlns", c!"http://schemas.openxmlformats.org/package/2006/content-types")]
    (if p.overrides = [] then (p.defaults.flatMap fun d => [ws 2, defaultNode d]) ++ [.text c!"\n  \n"]
     else (p.defaults.flatMap fun d => [ws 2, defaultNode d]) ++ (p.overrides.flatMap fun d => [ws 2, overrideNode d]) ++ [ws 0])

theorem document_types {p : TypesPart} (h : PlainTypes p) (hd : p.defaults ≠ []) : document p.toXml = some [typesDoc p] := by
  have h1 : ReadsNodes (t!"\n  " ++ joined t!"\n  " (p.defaults.map defaultXml)) (p.defaults.flatMap fun d => [ws 2, defaultNode d]) :=
    readsNodes_joined hd fun d hx => Splits.readsNodes (Splits.lit (by
      unfold defaultXml
      simp only [List.cons_append, List.nil_append]
      parts_ok
      exact h.1 d hx)) (by krfl)
  unfold TypesPart.toXml typesDoc
  by_cases ho : p.overrides = []
  · rw [ho, if_pos rfl]
    refine document_decl ?_ ⟨_, by simp only [fmt_append]; rfl⟩
    exact ((((Splits.lit (by parts_ok)).append (.nodes h1)).append (.lit (by
      simp only [joined, List.map_nil, List.cons_append, List.nil_append]; parts_ok))).append (.lit (by parts_ok))).readsNodes (by krfl)
  · have h2 : ReadsNodes (t!"\n  " ++ joined t!"\n  " (p.overrides.map overrideXml)) (p.overrides.flatMap fun d => [ws 2, overrideNode d]) :=
      readsNodes_joined ho fun d hx => Splits.readsNodes (Splits.lit (by
        unfold overrideXml
        simp only [List.cons_append, List.nil_append]
        parts_ok
        exact h.2 d hx)) (by krfl)
    rw [if_neg ho]
    refine document_decl ?_ ⟨_, by simp only [fmt_append]; rfl⟩
    exact ((((Splits.lit (by parts_ok)).append (.nodes h1)).append (.nodes h2)).append (.lit (by parts_ok))).readsNodes (by krfl)

theorem elemsL_flatMap_ws' {α : Type} (n : Str) (k : Nat) (f : α → Node) (l : List α) (h : ∀ a, elems n (f a) = [f a]) :
    elemsL n (l.flatMap fun x => [ws k, f x]) = l.map f := by
  rw [elemsL_flatMap_ws]
  simp [h, ← List.map_eq_flatMap]

theorem elemsL_flatMap_ws0 {α : Type} (n : Str) (k : Nat) (f : α → Node) (l : List α) (h : ∀ a, elems n (f a) = []) :
    elemsL n (l.flatMap fun x => [ws k, f x]) = [] := by
  rw [elemsL_flatMap_ws]
  simp [h]

theorem typesDoc_reads (p : TypesPart) : defaultsIn [typesDoc p] = p.defaults.map (fun d => (some d.1, some d.2)) ∧
    overridesIn [typesDoc p] = p.overrides.map (fun d => (some d.1, some d.2)) := by
  have a1 : ∀ d, elems c!"Default" (defaultNode d) = [defaultNode d] := fun d => by simp [elems, defaultNode]
  have a2 : ∀ d, elems c!"Override" (defaultNode d) = [] := fun d => by simp [elems, elemsL, defaultNode]
  have a3 : ∀ d, elems c!"Default" (overrideNode d) = [] := fun d => by simp [elems, elemsL, overrideNode]
  have a4 : ∀ d, elems c!"Override" (overrideNode d) = [overrideNode d] := fun d => by simp [elems, overrideNode]
  have w : ∀ n k, elemsL n [ws k] = [] := fun n k => by simp [elemsL, elems, ws]
  have w' : ∀ n t, elemsL n [.text t] = [] := fun n t => by simp [elemsL, elems]
  have u : ∀ n, n ≠ c!"Types" → elemsL n [typesDoc p] = elemsL n (p.defaults.flatMap fun d => [ws 2, defaultNode d]) ++
      elemsL n (p.overrides.flatMap fun d => [ws 2, overrideNode d]) := by
    intro n hn
    unfold typesDoc
    rw [elemsL, elems, if_neg (Ne.symm hn), elemsL, List.append_nil]
    split
    · rename_i ho
      rw [ho, elemsL_append, w']
      rfl
    · rw [elemsL_append, elemsL_append, w, List.append_nil]
  unfold defaultsIn overridesIn
  rw [u _ (by decide), u _ (by decide), elemsL_flatMap_ws' _ 2 _ _ a1, elemsL_flatMap_ws0 _ 2 _ _ a3, elemsL_flatMap_ws0 _ 2 _ _ a2,
    elemsL_flatMap_ws' _ 2 _ _ a4, List.append_nil, List.nil_append, List.map_map, List.map_map]
  exact ⟨rfl, rfl⟩

/-- The default that a call adds. -/
def defaultOf : TypesOp → List (Str × Str)
  | .default e t => [(e, t)]
  | _ => []

/-- The part and type that a call names (ECMA-376 part 1, 15.2 and 13.3, part 2, 11.1). -/
def overrideBy : TypesOp → List (Str × Str)
  | .default _ _ => []
  | .override n t => [(n, t)]
  | .presentation => [(c!"/ppt/presentation.xml", CType.presentation.mime)]
  | .slide n => [(c!"/ppt/slides/slide" ++ dec n ++ c!".xml", CType.slide.mime)]
  | .slideLayout n => [(c!"/" ++ (LayoutPart.new n .blank).path, CType.slideLayout.mime)]
  | .slideMaster n => [(c!"/" ++ (⟨n, [], none⟩ : MasterPart).path, CType.slideMaster.mime)]
  | .theme n => [(c!"/" ++ (ThemePart.new n).path, CType.theme.mime)]
  | .notesSlide n => [(c!"/" ++ (⟨n, [], none⟩ : NotesPart).path, CType.notesSlide.mime)]
  | .chart n => [(c!"/ppt/charts/chart" ++ dec n ++ c!".xml", CType.chart.mime)]
  | .coreProperties => [(c!"/docProps/core.xml", CType.coreProperties.mime)]
  | .appProperties => [(c!"/docProps/app.xml", CType.extendedProperties.mime)]

theorem run_types (ops : List TypesOp) (p : TypesPart) :
    (ops.foldl TypesPart.run p).defaults = p.defaults ++ ops.flatMap defaultOf ∧
    (ops.foldl TypesPart.run p).overrides = p.overrides ++ ops.flatMap overrideBy := by
  induction ops generalizing p with
  | nil => simp
  | cons o ops ih =>
    rw [List.foldl_cons, (ih _).1, (ih _).2, List.flatMap_cons, List.flatMap_cons, ← List.append_assoc, ← List.append_assoc]
    cases o <;> exact ⟨by simp [TypesPart.run, TypesPart.override, defaultOf], by
      simp only [TypesPart.run, TypesPart.override, overrideBy, List.append_nil]; try rfl⟩

/-- The texts of a call stand for themselves. -/
def PlainOp : TypesOp → Prop
  | .default e t => Plain e ∧ Plain t
  | .override n t => Plain n ∧ Plain t
  | _ => True

theorem plain_partAppend {a b : Str} (h : Plain a) (g : Plain b) : Plain (a ++ b) :=
  ⟨by simp [h.1, g.1], by simp [h.2.1, g.2.1], by simp [h.2.2, g.2.2]⟩

theorem plain_numbered (a b : Str) (n : Nat) (ha : Plain a) (hb : Plain b) : Plain (a ++ dec n ++ b) :=
  plain_partAppend (plain_partAppend ha (plain_dec n)) hb

theorem plain_overrideBy {o : TypesOp} (h : PlainOp o) : ∀ d ∈ overrideBy o, Plain d.1 ∧ Plain d.2 := by
  intro d hd
  cases o <;> simp only [overrideBy, List.mem_cons, List.not_mem_nil, or_false] at hd
  case override => subst hd; exact h
  case slideLayout n => subst hd; exact ⟨plain_partAppend (a := c!"/") (by decide) (plain_numbered _ _ n (by decide) (by decide)), show Plain CType.slideLayout.mime by decide⟩
  case slideMaster n => subst hd; exact ⟨plain_partAppend (a := c!"/") (by decide) (plain_numbered _ _ n (by decide) (by decide)), show Plain CType.slideMaster.mime by decide⟩
  case theme n => subst hd; exact ⟨plain_partAppend (a := c!"/") (by decide) (plain_numbered _ _ n (by decide) (by decide)), show Plain CType.theme.mime by decide⟩
  case notesSlide n => subst hd; exact ⟨plain_partAppend (a := c!"/") (by decide) (plain_numbered _ _ n (by decide) (by decide)), show Plain CType.notesSlide.mime by decide⟩
  case slide n => subst hd; exact ⟨plain_numbered _ _ n (by decide) (by decide), show Plain CType.slide.mime by decide⟩
  case chart n => subst hd; exact ⟨plain_numbered _ _ n (by decide) (by decide), show Plain CType.chart.mime by decide⟩
  all_goals subst hd; exact ⟨by decide, by decide⟩

theorem types_ok {ops : List TypesOp} (h : ∀ o ∈ ops, PlainOp o) :
    document (ops.foldl TypesPart.run .new).toXml = some [typesDoc (ops.foldl TypesPart.run .new)] := by
  obtain ⟨e1, e2⟩ := run_types ops .new
  refine document_types ⟨?_, ?_⟩ ?_
  · rw [e1]
    intro d hd
    rcases List.mem_append.1 hd with hd | hd
    · have : ∀ d ∈ TypesPart.new.defaults, Plain d.1 ∧ Plain d.2 := by decide
      exact this d hd
    · obtain ⟨o, ho, hd⟩ := List.mem_flatMap.1 hd
      have g := h o ho
      cases o <;> simp only [defaultOf, List.mem_cons, List.not_mem_nil, or_false] at hd
      subst hd
      exact g
  · rw [e2]
    intro d hd
    rcases List.mem_append.1 hd with hd | hd
    · simp [TypesPart.new] at hd
    · obtain ⟨o, ho, hd⟩ := List.mem_flatMap.1 hd
      exact plain_overrideBy (h o ho) d hd
  · rw [e1]; simp [TypesPart.new]

/-- **C123**, where it holds (names and types contain no `&`, `<` or `"`): the part lists the standard defaults and those added,
and exactly the overrides that were added, each with the name and the type of the part it is for. -/
theorem C123_content_types_partial (ops : List TypesOp) (h : ∀ o ∈ ops, PlainOp o) :
    ∃ doc, document (ops.foldl TypesPart.run .new).toXml = some doc ∧
      defaultsIn doc = (TypesPart.new.defaults ++ ops.flatMap defaultOf).map (fun d => (some d.1, some d.2)) ∧
      overridesIn doc = (ops.flatMap overrideBy).map fun d => (some d.1, some d.2) := by
  refine ⟨_, types_ok h, ?_⟩
  obtain ⟨e1, e2⟩ := run_types ops .new
  obtain ⟨r1, r2⟩ := typesDoc_reads (ops.foldl TypesPart.run .new)
  rw [r1, r2, e1, e2]
  exact ⟨rfl, by simp [TypesPart.new]⟩

/-- The type of a part: the first override with its name (ECMA-376 part 2, 10.1.2.4). -/
def typeIn (doc : List Node) (name : Str) : Option (Option Str) := (overridesIn doc).lookup (some name)

/-- A call that names a kind of part. -/
def Named : TypesOp → Prop
  | .default _ _ => False
  | .override _ _ => False
  | _ => True

theorem named_distinct {a b : TypesOp} (ha : Named a) (hb : Named b) {x y : Str × Str} (hx : x ∈ overrideBy a) (hy : y ∈ overrideBy b)
    (e : x.1 = y.1) : x.2 = y.2 := by
  cases a <;> cases b <;> first | exact ha.elim | exact hb.elim | skip
  all_goals
    simp only [overrideBy, List.mem_cons, List.not_mem_nil, or_false] at hx hy
    subst hx hy
    first
      | rfl
      | (exfalso; simp [LayoutPart.path, MasterPart.path, ThemePart.path, NotesPart.path, LayoutPart.new, ThemePart.new] at e; done)

theorem lookup_first {l : List (Str × Str)} {x : Str × Str} (hx : x ∈ l) (h : ∀ y ∈ l, y.1 = x.1 → y.2 = x.2) :
    (l.map fun d => (some d.1, some d.2)).lookup (some x.1) = some (some x.2) := by
  induction l with
  | nil => simp at hx
  | cons y l ih =>
    rw [List.map_cons, List.lookup_cons]
    by_cases e : y.1 = x.1
    · simp [e, h y (by simp) e]
    · have : (some x.1 == some y.1) = false := by simpa using fun he => e he.symm
      rw [this]
      rcases List.mem_cons.1 hx with rfl | hx
      · exact absurd rfl e
      · exact ih hx fun z hz => h z (by simp [hz])

/-- **C123**: after any sequence of the calls for parts, a reader finds for each part that was added the content type of its kind. -/
theorem C123_type_of_part (ops : List TypesOp) (h : ∀ o ∈ ops, Named o) (o : TypesOp) (ho : o ∈ ops) (x : Str × Str) (hx : x ∈ overrideBy o) :
    ∃ doc, document (ops.foldl TypesPart.run .new).toXml = some doc ∧ typeIn doc x.1 = some (some x.2) := by
  have hp : ∀ o ∈ ops, PlainOp o := by
    intro o ho
    have := h o ho
    cases o <;> first | exact this.elim | trivial
  obtain ⟨doc, hd, _, hov⟩ := C123_content_types_partial ops hp
  refine ⟨doc, hd, ?_⟩
  unfold typeIn
  rw [hov]
  refine lookup_first (List.mem_flatMap.2 ⟨o, ho, hx⟩) ?_
  intro y hy e
  obtain ⟨b, hb, hy⟩ := List.mem_flatMap.1 hy
  exact named_distinct (h b hb) (h o ho) hy hx e

/-- Not vacuous. -/
example : (document ([TypesOp.slide 1, .slide 11, .slideLayout 1, .coreProperties].foldl TypesPart.run .new).toXml).map
    (fun doc => typeIn doc c!"/ppt/slides/slide11.xml") = some (some (some CType.slide.mime)) := by krfl

/-- **C123 does not hold in full.** Adding a default for an extension that already has one gives two entries for it, which the
packaging standard forbids; no package with such a part can be opened. -/
theorem C123_duplicate_violated (t : Str) (ht : Plain t) :
    ∃ doc, document ([TypesOp.default c!"png" t].foldl TypesPart.run .new).toXml = some doc ∧
      2 ≤ ((defaultsIn doc).map Prod.fst).count (some c!"png") := by
  obtain ⟨doc, h, hd, _⟩ := C123_content_types_partial [TypesOp.default c!"png" t] (by
    intro o ho
    simp only [List.mem_cons, List.not_mem_nil, or_false] at ho
    subst ho
    exact ⟨by decide, ht⟩)
  refine ⟨doc, h, ?_⟩
  rw [hd]
  exact Nat.le_of_eq (by krfl)

example : Plain c!"image/png" := by decide

/-- **C123 does not hold in full.** Names and types are not escaped: the name of a part with an ampersand, which part names
may contain, gives a part that is not XML. -/
theorem C123_escape_violated : document ([TypesOp.override c!"/ppt/media/a&b.png" c!"image/png"].foldl TypesPart.run .new).toXml = none := by krfl

/-- **C123 does not hold in full.** Content types that are read from XML are always the standard defaults, without overrides. -/
theorem C123_from_xml_violated (x : Str) : (TypesPart.fromXml x).overrides = [] := rfl

/-! ## C124: the documents -/

/-- The text of the first element with a name. -/
def fieldIn (doc : List Node) (n : Str) : Option Str := (elemsL n doc).head?.map fun k => textOf (kidsOf k)

/-- The text fields of application properties stand for themselves. -/
structure PlainApp (p : AppPart) : Prop where
  application : Plain p.application
  version : Plain p.appVersion
  company : ∀ x ∈ p.company, Plain x
  format : Plain p.presentationFormat

theorem plain_yesNo (b : Bool) : Plain (yesNo b) := by cases b <;> decide

/-- A field. -/
def field (n t : Str) : Node := E n [] (addText [] t)

/-- The application properties. -/
def appDoc (p : AppPart) : Node :=
  E c!"Properties" [(c!"xmlns", c!"http://schemas.openxmlformats.org/officeDocument/2006/extended-properties"),
      (c!"xmlns:vt", c!"http://schemas.openxmlformats.org/officeDocument/2006/docPropsVTypes")]
    ([ws 2, field c!"Application" p.application, ws 2, field c!"AppVersion" p.appVersion]
      ++ (match p.company with
        | none => [.text c!"\n  \n  "]
        | some x => [ws 2, field c!"Company" x, ws 2])
      ++ [field c!"PresentationFormat" p.presentationFormat, ws 2, field c!"Slides" (dec p.slides), ws 2,
        field c!"Paragraphs" (dec p.paragraphs), ws 2, field c!"Words" (dec p.words), ws 2, field c!"Notes" (dec p.notes), ws 2,
        field c!"HiddenSlides" (dec p.hiddenSlides), ws 2, field c!"MMClips" (dec p.mmClips), ws 2,
        field c!"ScaleCrop" (yesNo p.scaleCrop), ws 2, field c!"LinksUpToDate" (yesNo p.linksUpToDate), ws 2,
        field c!"SharedDoc" (yesNo p.sharedDoc), ws 2, field c!"HyperlinksChanged" (yesNo p.hyperlinksChanged), ws 0])

set_option maxRecDepth 8000 in
theorem document_app {p : AppPart} (h : PlainApp p) : document p.generate = some [appDoc p] := by
  obtain ⟨h1, h2, h3, h4⟩ := h
  have b1 := plain_yesNo p.scaleCrop
  have b2 := plain_yesNo p.linksUpToDate
  have b3 := plain_yesNo p.sharedDoc
  have b4 := plain_yesNo p.hyperlinksChanged
  unfold AppPart.generate appDoc
  refine document_decl ?_ ⟨_, by simp only [fmt_append]; rfl⟩
  cases hc : p.company with
  | none =>
    exact ((((Splits.lit (by parts_ok)).append (.lit (by simp [whenSome]))).append (.lit (by parts_ok))).append
      (.lit (by unfold AppPart.tail; parts_ok))).readsNodes (by krfl)
  | some x =>
    have h3 := h3 x hc
    exact ((((Splits.lit (by parts_ok)).append (.lit (by simp only [whenSome, List.flatMap_cons, List.flatMap_nil, Option.toList_some, List.append_nil]; parts_ok))).append (.lit (by parts_ok))).append
      (.lit (by unfold AppPart.tail; parts_ok))).readsNodes (by krfl)

theorem textOf_partText (t : Str) : textOf (addText [] t) = t := by rw [addText_eq]; exact textOf_textNode t

theorem elemsL_partText (n t : Str) : elemsL n (addText [] t) = [] := by
  rw [addText_eq, List.nil_append]
  unfold textNode
  split <;> simp [elemsL, elems]

theorem elems_field_eq (n t : Str) : elems n (field n t) = [field n t] := by simp [elems, field]

theorem elems_field_ne {n m : Str} (t : Str) (h : m ≠ n) : elems n (field m t) = [] := by
  unfold field
  rw [elems, if_neg h, elemsL_partText]

/-- **C124**, where it holds (the texts contain no `&`, `<` or `"`): the application properties are written as they were set. -/
theorem C124_app_partial (p : AppPart) (h : PlainApp p) (hk : p.kept = none) :
    ∃ doc, document p.toXml = some doc ∧
      fieldIn doc c!"Application" = some p.application ∧ fieldIn doc c!"AppVersion" = some p.appVersion ∧
      fieldIn doc c!"Company" = p.company ∧ fieldIn doc c!"PresentationFormat" = some p.presentationFormat ∧
      [c!"Slides", c!"Paragraphs", c!"Words", c!"Notes", c!"HiddenSlides", c!"MMClips"].map (fieldIn doc) =
        [p.slides, p.paragraphs, p.words, p.notes, p.hiddenSlides, p.mmClips].map (fun n => some (dec n)) ∧
      [c!"ScaleCrop", c!"LinksUpToDate", c!"SharedDoc", c!"HyperlinksChanged"].map (fieldIn doc) =
        [p.scaleCrop, p.linksUpToDate, p.sharedDoc, p.hyperlinksChanged].map fun b => some (if b then c!"true" else c!"false") := by
  refine ⟨[appDoc p], ?_, ?_⟩
  · unfold AppPart.toXml; rw [hk]; exact document_app h
  have key : ∀ n, n ≠ c!"Properties" → elemsL n [appDoc p] = [(c!"Application", p.application), (c!"AppVersion", p.appVersion)].flatMap (fun x => elems n (field x.1 x.2))
      ++ (p.company.toList.flatMap fun x => elems n (field c!"Company" x)) ++
      [(c!"PresentationFormat", p.presentationFormat), (c!"Slides", dec p.slides), (c!"Paragraphs", dec p.paragraphs), (c!"Words", dec p.words),
        (c!"Notes", dec p.notes), (c!"HiddenSlides", dec p.hiddenSlides), (c!"MMClips", dec p.mmClips), (c!"ScaleCrop", yesNo p.scaleCrop),
        (c!"LinksUpToDate", yesNo p.linksUpToDate), (c!"SharedDoc", yesNo p.sharedDoc), (c!"HyperlinksChanged", yesNo p.hyperlinksChanged)].flatMap
        (fun x => elems n (field x.1 x.2)) := by
    intro n hn
    unfold appDoc
    rw [elemsL, elems, if_neg (Ne.symm hn), elemsL, List.append_nil]
    cases p.company <;> simp [elemsL, elems, ws, elemsL_append]
  have key2 : ∀ n, n ≠ c!"Properties" → fieldIn [appDoc p] n = ((([(c!"Application", p.application), (c!"AppVersion", p.appVersion)]
      ++ (p.company.toList.map fun x => (c!"Company", x)) ++
      [(c!"PresentationFormat", p.presentationFormat), (c!"Slides", dec p.slides), (c!"Paragraphs", dec p.paragraphs), (c!"Words", dec p.words),
        (c!"Notes", dec p.notes), (c!"HiddenSlides", dec p.hiddenSlides), (c!"MMClips", dec p.mmClips), (c!"ScaleCrop", yesNo p.scaleCrop),
        (c!"LinksUpToDate", yesNo p.linksUpToDate), (c!"SharedDoc", yesNo p.sharedDoc), (c!"HyperlinksChanged", yesNo p.hyperlinksChanged)])).find?
          (fun x => x.1 = n)).map Prod.snd := by
    intro n hn
    have gen : ∀ l : List (Str × Str), ((l.flatMap fun x => elems n (field x.1 x.2)).head?.map fun k => textOf (kidsOf k)) =
        (l.find? fun x => x.1 = n).map Prod.snd := by
      intro l
      induction l with
      | nil => rfl
      | cons x l ih =>
        rw [List.flatMap_cons, List.find?_cons]
        by_cases e : x.1 = n
        · rw [show field x.1 x.2 = field n x.2 by rw [e], elems_field_eq]
          simp [e, field, kidsOf, textOf_partText]
        · rw [elems_field_ne _ e]
          simp [e, ih]
    rw [← gen]
    unfold fieldIn
    rw [key n hn, List.flatMap_append, List.flatMap_append, List.flatMap_map]
  have m : ∀ l : List Str, c!"Properties" ∉ l → l.map (fieldIn [appDoc p]) = l.map fun n => ((([(c!"Application", p.application), (c!"AppVersion", p.appVersion)]
      ++ (p.company.toList.map fun x => (c!"Company", x)) ++
      [(c!"PresentationFormat", p.presentationFormat), (c!"Slides", dec p.slides), (c!"Paragraphs", dec p.paragraphs), (c!"Words", dec p.words),
        (c!"Notes", dec p.notes), (c!"HiddenSlides", dec p.hiddenSlides), (c!"MMClips", dec p.mmClips), (c!"ScaleCrop", yesNo p.scaleCrop),
        (c!"LinksUpToDate", yesNo p.linksUpToDate), (c!"SharedDoc", yesNo p.sharedDoc), (c!"HyperlinksChanged", yesNo p.hyperlinksChanged)])).find?
          (fun x => x.1 = n)).map Prod.snd :=
    fun l hl => List.map_congr_left fun n hn => key2 n fun e => hl (e ▸ hn)
  rw [key2 _ (by decide), key2 _ (by decide), key2 _ (by decide), key2 _ (by decide), m _ (by decide), m _ (by decide)]
  cases p.company <;> exact ⟨by krfl, by krfl, by krfl, by krfl, by krfl, by krfl⟩

/-- **C124 does not hold in full.** The texts of the application properties are not escaped: a company with an ampersand in its
name gives a part that is not XML. -/
theorem C124_company_violated : document ({ company := some c!"A & B" } : AppPart).toXml = none := by krfl

/-- **C124 does not hold in full.** Properties that are set after the part was read from XML are not written: the text that was
read is written again. None of the fields holds what was read. -/
theorem C124_app_reread_violated (x c : Str) (n : Nat) :
    ({ AppPart.fromXml x with company := some c, slides := n } : AppPart).toXml = x ∧ (AppPart.fromXml x).slides = 0 := ⟨rfl, rfl⟩

/-! ### Notes -/

/-- The paragraph of a line. -/
def noteLineNode (l : Str) : Node :=
  E c!"a:p" [] [E c!"a:r" [] [E c!"a:rPr" [(c!"lang", c!"en-US")] [], E c!"a:t" [] (addText [] l)]]

/-- The paragraphs and the white space around them. -/
def noteKids (t : Str) : List Node :=
  if t = [] then [ws 10, E c!"a:p" [] [E c!"a:endParaRPr" [(c!"lang", c!"en-US")] []], ws 8]
  else match strLines t with
    | [] => [.text c!"\n          \n        "]
    | l :: r => [ws 10, noteLineNode l] ++ (r.flatMap fun x => [ws 14, noteLineNode x]) ++ [ws 8]

/-- The part. -/
def noteDoc (t : Str) : Node :=
  E c!"p:notes" [(c!"xmlns:a", c!"http://schemas.openxmlformats.org/drawingml/2006/main"),
      (c!"xmlns:r", c!"http://schemas.openxmlformats.org/officeDocument/2006/relationships"),
      (c!"xmlns:p", c!"http://schemas.openxmlformats.org/presentationml/2006/main")]
    [ws 2, E c!"p:cSld" [] [ws 4, E c!"p:spTree" [] [ws 6,
        E c!"p:nvGrpSpPr" [] [ws 8, E c!"p:cNvPr" [(c!"id", c!"1"), (c!"name", [])] [], ws 8, E c!"p:cNvGrpSpPr" [] [], ws 8, E c!"p:nvPr" [] [], ws 6], ws 6,
        E c!"p:grpSpPr" [] [ws 8, E c!"a:xfrm" [] [ws 10, E c!"a:off" [(c!"x", c!"0"), (c!"y", c!"0")] [], ws 10,
          E c!"a:ext" [(c!"cx", c!"0"), (c!"cy", c!"0")] [], ws 10, E c!"a:chOff" [(c!"x", c!"0"), (c!"y", c!"0")] [], ws 10,
          E c!"a:chExt" [(c!"cx", c!"0"), (c!"cy", c!"0")] [], ws 8], ws 6], ws 6,
        E c!"p:sp" [] [ws 8, E c!"p:nvSpPr" [] [ws 10, E c!"p:cNvPr" [(c!"id", c!"2"), (c!"name", c!"Slide Image Placeholder 1")] [], ws 10,
          E c!"p:cNvSpPr" [] [E c!"a:spLocks" [(c!"noGrp", c!"1"), (c!"noRot", c!"1"), (c!"noChangeAspect", c!"1")] []], ws 10,
          E c!"p:nvPr" [] [E c!"p:ph" [(c!"type", c!"sldImg")] []], ws 8], ws 8, E c!"p:spPr" [] [], ws 6], ws 6,
        E c!"p:sp" [] [ws 8, E c!"p:nvSpPr" [] [ws 10, E c!"p:cNvPr" [(c!"id", c!"3"), (c!"name", c!"Notes Placeholder 2")] [], ws 10,
          E c!"p:cNvSpPr" [] [E c!"a:spLocks" [(c!"noGrp", c!"1")] []], ws 10,
          E c!"p:nvPr" [] [E c!"p:ph" [(c!"type", c!"body"), (c!"idx", c!"1")] []], ws 8], ws 8, E c!"p:spPr" [] [], ws 8,
          E c!"p:txBody" [] ([ws 10, E c!"a:bodyPr" [] [], ws 10, E c!"a:lstStyle" [] []] ++ noteKids t), ws 6], ws 4], ws 2], ws 2,
      E c!"p:clrMapOvr" [] [E c!"a:masterClrMapping" [] []], ws 0]

theorem tagged_noteLine (l : Str) : ReadsTagged (noteLine l) [noteLineNode l] :=
  (Splits.readsNodes (Splits.lit (by unfold noteLine; parts_ok)) (by krfl)).tagged ⟨_, rfl⟩

theorem fmt_joined_cons (sep x : List Part) (l : List (List Part)) : fmt (joined sep (x :: l)) = fmt (x ++ l.flatMap fun y => sep ++ y) := by
  induction l generalizing x with
  | nil => simp [joined]
  | cons y l ih => simp [joined, fmt_append, ih y]

set_option maxRecDepth 8000 in
theorem document_notes (p : NotesPart) : document p.generate = some [noteDoc p.text] := by
  have hh : ∀ p ∈ notesHead, p.Ok := by unfold notesHead; parts_ok
  have ht : ∀ p ∈ notesTail, p.Ok := by unfold notesTail; parts_ok
  unfold NotesPart.generate noteDoc noteKids NotesPart.paragraphs
  split
  · refine document_decl ?_ ⟨_, by simp only [fmt_append]; rfl⟩
    exact (((((Splits.lit hh).append (.lit (by parts_ok))).append (.lit (by parts_ok))).append (.lit (by parts_ok))).append (.lit ht)).readsNodes (by krfl)
  · cases hl : strLines p.text with
    | nil =>
      refine document_decl ?_ ⟨_, by simp only [fmt_append]; rfl⟩
      exact (((((Splits.lit hh).append (.lit (by parts_ok))).append (.lit (by simp [joined]))).append (.lit (by parts_ok))).append (.lit ht)).readsNodes (by krfl)
    | cons l r =>
      have e : fmt (notesHead ++ t!"\n          " ++ joined t!"\n              " ((l :: r).map noteLine) ++ t!"\n        " ++ notesTail) =
          fmt (notesHead ++ t!"\n          " ++ (noteLine l ++ r.flatMap fun y => t!"\n              " ++ noteLine y) ++ t!"\n        " ++ notesTail) := by
        have := fmt_joined_cons t!"\n              " (noteLine l) (r.map noteLine)
        rw [List.flatMap_map] at this
        simp only [fmt_append, List.map_cons] at this ⊢
        rw [this]
      rw [e]
      refine document_decl ?_ ⟨_, by simp only [fmt_append]; rfl⟩
      exact (((((Splits.lit hh).append (.lit (by parts_ok))).append ((Splits.tagged (tagged_noteLine l)).append
        (.nodes (readsNodes_flatMap (g := fun x => [ws 14, noteLineNode x]) fun x _ =>
          Splits.readsNodes ((Splits.lit (by parts_ok)).append (.tagged (tagged_noteLine x))) (by krfl))))).append
        (.lit (by parts_ok))).append (.lit ht)).readsNodes (by krfl)

theorem runs_noteLine (l : Str) : runs (noteLineNode l) = [l] := by
  simp [noteLineNode, runs, runsL, textOf_partText]

theorem runsL_noteKids (t : Str) : runsL (noteKids t) = strLines t := by
  unfold noteKids
  split
  · rename_i h; rw [h]; rfl
  · cases strLines t with
    | nil => rfl
    | cons l r =>
      have : ∀ r : List Str, runsL (r.flatMap fun x => [ws 14, noteLineNode x]) = r := by
        intro r
        induction r with
        | nil => rfl
        | cons x r ih => rw [List.flatMap_cons, runsL_append, ih]; simp [runsL, runs, ws, runs_noteLine]
      simp only [runsL_append, this]
      simp [runsL, runs, ws, runs_noteLine]

/-- **C124**: a notes part is a document with a picture of the slide and a body with one paragraph for each line of the notes. -/
theorem C124_notes (p : NotesPart) (hk : p.kept = none) :
    ∃ doc, document p.toXml = some doc ∧
      boxes doc = [(some c!"Slide Image Placeholder 1", []), (some c!"Notes Placeholder 2", strLines p.text)] := by
  refine ⟨[noteDoc p.text], ?_, ?_⟩
  · unfold NotesPart.toXml; rw [hk]; exact document_notes p
  · unfold noteDoc
    simp only [boxes, boxNodesL, boxNodes, ws, List.cons_append, List.nil_append]
    simp [objectName, objectNameL, runs, runsL, runsL_noteKids]
    exact ⟨rfl, rfl⟩

/-- Not vacuous. -/
example : (document ((⟨3, c!"a < b\n\nc", none⟩ : NotesPart)).toXml).map boxes =
    some [(some c!"Slide Image Placeholder 1", []), (some c!"Notes Placeholder 2", [c!"a < b", [], c!"c"])] := by krfl

/-- Notes that are set after the part was read from XML are written. -/
theorem C124_notes_reread (x t : Str) : ((NotesPart.fromXml x).setText t).toXml = (⟨1, t, none⟩ : NotesPart).toXml := rfl

/-! ### Layouts -/

/-- The group properties of a tree without a name. -/
def treeHead : List Node := [ws 6,
  E c!"p:nvGrpSpPr" [] [ws 8, E c!"p:cNvPr" [(c!"id", c!"1"), (c!"name", [])] [], ws 8, E c!"p:cNvGrpSpPr" [] [], ws 8, E c!"p:nvPr" [] [], ws 6], ws 6,
  E c!"p:grpSpPr" [] [ws 8, E c!"a:xfrm" [] [ws 10, E c!"a:off" [(c!"x", c!"0"), (c!"y", c!"0")] [], ws 10,
    E c!"a:ext" [(c!"cx", c!"0"), (c!"cy", c!"0")] [], ws 10, E c!"a:chOff" [(c!"x", c!"0"), (c!"y", c!"0")] [], ws 10,
    E c!"a:chExt" [(c!"cx", c!"0"), (c!"cy", c!"0")] [], ws 8], ws 6], ws 4]

/-- The names that every part declares. -/
def nsAttrs : List (Str × Str) := [(c!"xmlns:a", c!"http://schemas.openxmlformats.org/drawingml/2006/main"),
  (c!"xmlns:r", c!"http://schemas.openxmlformats.org/officeDocument/2006/relationships"),
  (c!"xmlns:p", c!"http://schemas.openxmlformats.org/presentationml/2006/main")]

/-- The layout. -/
def layoutDoc (p : LayoutPart) : Node :=
  E c!"p:sldLayout" (nsAttrs ++ [(c!"type", p.type.typeValue), (c!"preserve", c!"1")])
    [ws 2, E c!"p:cSld" [(c!"name", p.name)] [ws 4, E c!"p:spTree" [] treeHead, ws 2], ws 2,
      E c!"p:clrMapOvr" [] [ws 4, E c!"a:masterClrMapping" [] [], ws 2], ws 0]

/-- The values of `ST_SlideLayoutType` (ECMA-376 19.7.15). -/
def layoutTypes : List Str := [c!"title", c!"tx", c!"twoColTx", c!"tbl", c!"txAndChart", c!"chartAndTx", c!"dgm", c!"chart", c!"txAndClipArt",
  c!"clipArtAndTx", c!"titleOnly", c!"blank", c!"txAndObj", c!"objAndTx", c!"objOnly", c!"obj", c!"txAndMedia", c!"mediaAndTx", c!"objOverTx",
  c!"txOverObj", c!"txAndTwoObj", c!"twoObjAndTx", c!"twoObjOverTx", c!"fourObj", c!"vertTx", c!"clipArtAndVertTx", c!"vertTitleAndTx",
  c!"vertTitleAndTxOverChart", c!"twoObj", c!"objAndTwoObj", c!"twoObjAndObj", c!"cust", c!"secHead", c!"twoTxTwoObj", c!"objTx", c!"picTx"]

theorem plain_typeValue (k : LayoutKind) : Plain k.typeValue := by cases k <;> decide

set_option maxRecDepth 8000 in
theorem document_layout {p : LayoutPart} (h : Plain p.name) : document p.generate = some [layoutDoc p] := by
  have ht := plain_typeValue p.type
  unfold LayoutPart.generate layoutDoc
  exact document_decl (Splits.readsNodes (Splits.lit (by parts_ok)) (by krfl)) ⟨_, rfl⟩

/-- **C124**, where it holds (the name contains no `&`, `<` or `"`): a layout part is a document with the type and the name of the layout,
and the type is one that the schema allows. Different layouts have different types. -/
theorem C124_layout_partial (p : LayoutPart) (h : Plain p.name) (hk : p.kept = none) :
    (∃ doc, document p.toXml = some doc ∧ (elemsL c!"p:sldLayout" doc).map (attrOf c!"type") = [some p.type.typeValue] ∧
      (elemsL c!"p:cSld" doc).map (attrOf c!"name") = [some p.name]) ∧
    p.type.typeValue ∈ layoutTypes ∧ ∀ k : LayoutKind, k.typeValue = p.type.typeValue → k = p.type := by
  refine ⟨⟨[layoutDoc p], ?_, ?_, ?_⟩, ?_, ?_⟩
  · unfold LayoutPart.toXml; rw [hk]; exact document_layout h
  · krfl
  · krfl
  · cases p.type <;> decide
  · intro k; cases p.type <;> cases k <;> decide

/-- **C124 does not hold in full.** A layout part has no placeholders, whatever its type: a layout for a title and contents has
nowhere to put either. -/
theorem C124_layout_placeholders_violated (n : Nat) (k : LayoutKind) :
    ∃ doc, document (LayoutPart.new n k).toXml = some doc ∧ elemsL c!"p:ph" doc = [] ∧ elemsL c!"p:sp" doc = [] :=
  ⟨_, document_layout (p := LayoutPart.new n k) (show Plain k.name by cases k <;> decide), by krfl, by krfl⟩

/-- **C124 does not hold in full.** The name of a layout is not escaped: a name with an ampersand gives a part that is not XML. -/
theorem C124_layout_name_violated : document (⟨1, .blank, c!"Q & A", none⟩ : LayoutPart).toXml = none := by krfl

/-! ### Masters -/

/-- The element of a layout in the list. -/
def layoutIdNode (l : List Str) (id : Str) : Node :=
  E c!"p:sldLayoutId" [(c!"id", dec (2147483649 + l.idxOf id)), (c!"r:id", id)] []

/-- The elements of the list. -/
def layoutIdKids : List Str → List Node
  | [] => [ws 4]
  | x :: r => [.text c!"\n    \n      ", layoutIdNode (x :: r) x] ++ (r.flatMap fun y => [ws 6, layoutIdNode (x :: r) y]) ++ [ws 2]

/-- The master. -/
def masterDoc (p : MasterPart) : Node :=
  E c!"p:sldMaster" nsAttrs [ws 2,
    E c!"p:cSld" [] [ws 4, E c!"p:bg" [] [ws 6, E c!"p:bgRef" [(c!"idx", c!"1001")] [ws 8, E c!"a:schemeClr" [(c!"val", c!"bg1")] [], ws 6], ws 4], ws 4,
      E c!"p:spTree" [] treeHead, ws 2], ws 2,
    E c!"p:clrMap" [(c!"bg1", c!"lt1"), (c!"tx1", c!"dk1"), (c!"bg2", c!"lt2"), (c!"tx2", c!"dk2"), (c!"accent1", c!"accent1"), (c!"accent2", c!"accent2"),
      (c!"accent3", c!"accent3"), (c!"accent4", c!"accent4"), (c!"accent5", c!"accent5"), (c!"accent6", c!"accent6"), (c!"hlink", c!"hlink"),
      (c!"folHlink", c!"folHlink")] [], ws 2,
    E c!"p:sldLayoutIdLst" [] (layoutIdKids p.layouts), ws 2,
    E c!"p:txStyles" [] [ws 4, E c!"p:titleStyle" [] [], ws 4, E c!"p:bodyStyle" [] [], ws 4, E c!"p:otherStyle" [] [], ws 2], ws 0]

theorem tagged_layoutId (l : List Str) {id : Str} (h : Plain id) : ReadsTagged (layoutIdXml l id) [layoutIdNode l id] :=
  (Splits.readsNodes (Splits.lit (by unfold layoutIdXml; parts_ok)) (by krfl)).tagged ⟨_, rfl⟩

theorem fmt_joined_map {α : Type} (sep : List Part) (f : α → List Part) (x : α) (l : List α) :
    fmt (joined sep ((x :: l).map f)) = fmt (f x ++ l.flatMap fun y => sep ++ f y) := by
  rw [List.map_cons, fmt_joined_cons, List.flatMap_map]

set_option maxRecDepth 8000 in
theorem document_master {p : MasterPart} (h : ∀ x ∈ p.layouts, Plain x) : document p.generate = some [masterDoc p] := by
  unfold MasterPart.generate masterDoc MasterPart.layoutList
  cases hl : p.layouts with
  | nil =>
    rw [if_pos rfl]
    refine document_decl ?_ ⟨_, by simp only [fmt_append]; rfl⟩
    exact (((Splits.lit (by parts_ok)).append (.lit (by simp))).append (.lit (by parts_ok))).readsNodes (by krfl)
  | cons x r =>
    rw [hl] at h
    rw [if_neg (by simp), fmt_append, fmt_append, fmt_append, fmt_append t!"\n      ", fmt_joined_map, ← fmt_append, ← fmt_append, ← fmt_append, ← fmt_append]
    refine document_decl ?_ ⟨_, by simp only [fmt_append]; rfl⟩
    exact (((Splits.lit (by parts_ok)).append (((Splits.lit (by parts_ok)).append ((Splits.tagged (tagged_layoutId _ (h x (by simp)))).append
      (.nodes (readsNodes_flatMap (g := fun y => [ws 6, layoutIdNode (x :: r) y]) fun y hy =>
        Splits.readsNodes ((Splits.lit (by parts_ok)).append (.tagged (tagged_layoutId _ (h y (List.mem_cons_of_mem _ hy))))) (by krfl))))).append
      (.lit (by parts_ok)))).append (.lit (by parts_ok))).readsNodes (by krfl)

/-- The layouts that a master lists: the number and the relationship of each. -/
def layoutIdsIn (doc : List Node) : List (Option Str × Option Str) :=
  (elemsL c!"p:sldLayoutId" doc).map fun k => (attrOf c!"id" k, attrOf c!"r:id" k)

theorem layoutIds_master (p : MasterPart) :
    layoutIdsIn [masterDoc p] = p.layouts.map fun x => (some (dec (2147483649 + p.layouts.idxOf x)), some x) := by
  have a : ∀ (l r : List Str), elemsL c!"p:sldLayoutId" (r.flatMap fun y => [ws 6, layoutIdNode l y]) = r.map (layoutIdNode l) := by
    intro l r
    induction r with
    | nil => rfl
    | cons y r ih => rw [List.flatMap_cons, elemsL_append, ih]; simp [elemsL, elems, ws, layoutIdNode, E]
  have b : elemsL c!"p:sldLayoutId" (layoutIdKids p.layouts) = p.layouts.map (layoutIdNode p.layouts) := by
    cases p.layouts with
    | nil => rfl
    | cons x r =>
      unfold layoutIdKids
      rw [elemsL_append, elemsL_append, a]
      simp [elemsL, elems, ws, layoutIdNode, E]
  unfold layoutIdsIn masterDoc
  have c : elemsL c!"p:sldLayoutId" [masterDoc p] = p.layouts.map (layoutIdNode p.layouts) := by
    rw [← b]
    unfold masterDoc
    simp [elemsL, elems, ws, treeHead, E]
  unfold masterDoc at c
  rw [c, List.map_map]
  rfl

/-- **C124**, where it holds (the ids contain no `&`, `<` or `"`, and no two are equal): a master part is a document that lists its layouts in
the order in which they were added, under different numbers from 2147483649 up. -/
theorem C124_master_partial (p : MasterPart) (h : ∀ x ∈ p.layouts, Plain x) (hd : p.layouts.Nodup) (hk : p.kept = none) :
    ∃ doc, document p.toXml = some doc ∧ (layoutIdsIn doc).map Prod.snd = p.layouts.map some ∧
      (layoutIdsIn doc).map Prod.fst = (List.range p.layouts.length).map fun i => some (dec (2147483649 + i)) := by
  refine ⟨[masterDoc p], ?_, ?_, ?_⟩
  · unfold MasterPart.toXml; rw [hk]; exact document_master h
  · rw [layoutIds_master, List.map_map]; rfl
  · rw [layoutIds_master, List.map_map]
    refine List.ext_getElem (by simp) fun i h1 h2 => ?_
    simp only [List.getElem_map, Function.comp, List.getElem_range]
    rw [hd.idxOf_getElem]

/-- Not vacuous. -/
example : (document ({ number := 1, layouts := [c!"rId1", c!"rId2"] } : MasterPart).toXml).map layoutIdsIn =
    some [(some c!"2147483649", some c!"rId1"), (some c!"2147483650", some c!"rId2")] := by krfl

/-- **C124 does not hold in full.** A layout that is added twice to a master is listed twice under the same number. -/
theorem C124_master_numbers_violated : (document ({ number := 1, layouts := [c!"rId1", c!"rId1"] } : MasterPart).toXml).map layoutIdsIn =
    some [(some c!"2147483649", some c!"rId1"), (some c!"2147483649", some c!"rId1")] := by krfl

/-! ### Themes -/

/-- The names of the colours of a theme, in the order of the schema (ECMA-376 20.1.6.2). -/
def colorOrder : List Str := [c!"dk1", c!"lt1", c!"dk2", c!"lt2", c!"accent1", c!"accent2", c!"accent3", c!"accent4", c!"accent5", c!"accent6",
  c!"hlink", c!"folHlink"]

/-- The element of a colour. -/
def partColorNode (c : Str × Str) : Node := E (c!"a:" ++ c.1) [(c!"val", c.1)] [E c!"a:srgbClr" [(c!"val", c.2)] []]

theorem tagged_colorXml {c : Str × Str} (h : c.1 ∈ colorOrder) (hp : Plain c.2) : ReadsTagged (colorXml c) [partColorNode c] := by
  obtain ⟨n, v⟩ := c
  simp only at h hp
  simp only [colorOrder, List.mem_cons, List.not_mem_nil, or_false] at h
  rcases h with rfl | rfl | rfl | rfl | rfl | rfl | rfl | rfl | rfl | rfl | rfl | rfl <;>
  exact (Splits.readsNodes (Splits.lit (by unfold colorXml; simp only [List.cons_append, List.nil_append]; parts_ok)) (by krfl)).tagged ⟨_, rfl⟩

/-- The styles, by themselves. -/
def formatNode : Node := ((parse (fmt formatScheme)).getD []).headD (.text [])

set_option maxRecDepth 8000 in
theorem tagged_formatScheme : ReadsTagged formatScheme [formatNode] :=
  (Splits.readsNodes (Splits.lit (by unfold formatScheme; parts_ok)) (by krfl)).tagged ⟨_, rfl⟩

/-- The colours and the white space around them. -/
def themeColorKids : List (Str × Str) → List Node
  | [] => [.text c!"\n      \n    "]
  | c :: r => [ws 6, partColorNode c] ++ (r.flatMap fun x => [ws 8, partColorNode x]) ++ [ws 4]

/-- The theme. -/
def themePartDoc (p : ThemePart) : Node :=
  E c!"a:theme" [(c!"xmlns:a", c!"http://schemas.openxmlformats.org/drawingml/2006/main"), (c!"name", p.name)]
    [ws 2, E c!"a:themeElements" [] [ws 4, E c!"a:clrScheme" [(c!"name", c!"Office")] (themeColorKids p.colors), ws 4,
      E c!"a:fontScheme" [(c!"name", c!"Office")] [ws 6,
        E c!"a:majorFont" [] [ws 8, E c!"a:latin" [(c!"typeface", p.majorFont)] [], ws 8, E c!"a:ea" [(c!"typeface", [])] [], ws 8,
          E c!"a:cs" [(c!"typeface", [])] [], ws 6], ws 6,
        E c!"a:minorFont" [] [ws 8, E c!"a:latin" [(c!"typeface", p.minorFont)] [], ws 8, E c!"a:ea" [(c!"typeface", [])] [], ws 8,
          E c!"a:cs" [(c!"typeface", [])] [], ws 6], ws 4], ws 4, formatNode, ws 2], ws 2,
      E c!"a:objectDefaults" [] [], ws 2, E c!"a:extraClrSchemeLst" [] [], ws 0]

/-- A theme whose texts stand for themselves and whose colours have names of the schema. -/
structure PlainThemePart (p : ThemePart) : Prop where
  name : Plain p.name
  major : Plain p.majorFont
  minor : Plain p.minorFont
  colors : ∀ c ∈ p.colors, c.1 ∈ colorOrder ∧ Plain c.2

set_option maxRecDepth 8000 in
theorem document_themePart {p : ThemePart} (h : PlainThemePart p) : document p.generate = some [themePartDoc p] := by
  obtain ⟨h1, h2, h3, h4⟩ := h
  unfold ThemePart.generate themePartDoc ThemePart.tail
  cases hl : p.colors with
  | nil =>
    refine document_decl ?_ ⟨_, by simp only [fmt_append]; rfl⟩
    exact (((Splits.lit (by parts_ok)).append ((Splits.lit (by parts_ok)).append (.lit (by simp [joined])))).append
      (((Splits.lit (by parts_ok)).append (.tagged tagged_formatScheme)).append (.lit (by parts_ok)))).readsNodes (by krfl)
  | cons c r =>
    rw [hl] at h4
    rw [fmt_append, fmt_append, fmt_append t!"\n      ", fmt_joined_map, ← fmt_append, ← fmt_append, ← fmt_append]
    refine document_decl ?_ ⟨_, by simp only [fmt_append]; rfl⟩
    have hc := h4 c (by simp)
    exact (((Splits.lit (by parts_ok)).append ((Splits.lit (by parts_ok)).append ((Splits.tagged (tagged_colorXml hc.1 hc.2)).append
      (.nodes (readsNodes_flatMap (g := fun y => [ws 8, partColorNode y]) fun y hy =>
        Splits.readsNodes ((Splits.lit (by parts_ok)).append (.tagged
          (tagged_colorXml (h4 y (List.mem_cons_of_mem _ hy)).1 (h4 y (List.mem_cons_of_mem _ hy)).2))) (by krfl)))))).append
      (((Splits.lit (by parts_ok)).append (.tagged tagged_formatScheme)).append (.lit (by parts_ok)))).readsNodes (by krfl)

theorem colors_themeKids (l : List (Str × Str)) :
    ((taggedElems (themeColorKids l)).map fun p => (p.1, colorValue p.2)) = l.map fun c => (c!"a:" ++ c.1, some c.2) := by
  have one : ∀ c : Str × Str, colorValue (partColorNode c) = some c.2 := by
    intro c; krfl
  have app : ∀ a b : List Node, taggedElems (a ++ b) = taggedElems a ++ taggedElems b := by
    intro a b
    induction a with
    | nil => rfl
    | cons k a ih => cases k <;> simp [taggedElems, ih]
  have r : ∀ r : List (Str × Str), taggedElems (r.flatMap fun x => [ws 8, partColorNode x]) = r.map fun c => (c!"a:" ++ c.1, partColorNode c) := by
    intro r
    induction r with
    | nil => rfl
    | cons x r ih => rw [List.flatMap_cons, app, ih]; simp [taggedElems, ws, partColorNode, E]
  cases l with
  | nil => rfl
  | cons c l =>
    unfold themeColorKids
    rw [app, app, r]
    have : taggedElems [ws 6, partColorNode c] = [(c!"a:" ++ c.1, partColorNode c)] := rfl
    have e : taggedElems [ws 4] = [] := rfl
    rw [this, e]
    simp [one]

/-- **C124**, where it holds (the texts contain no `&`, `<` or `"`, and the names of the colours are those of the schema): a theme part is a
document with its name, its colours and its fonts. -/
theorem C124_theme_partial (p : ThemePart) (h : PlainThemePart p) (hk : p.kept = none) :
    ∃ k, document p.toXml = some [k] ∧ readTheme k =
      ⟨some p.name, some c!"Office", p.colors.map fun c => (c!"a:" ++ c.1, some c.2), some p.majorFont, some p.minorFont⟩ := by
  refine ⟨themePartDoc p, ?_, ?_⟩
  · unfold ThemePart.toXml; rw [hk]; exact document_themePart h
  · rw [← colors_themeKids]
    have e : path [c!"a:themeElements", c!"a:clrScheme"] (themePartDoc p) = [E c!"a:clrScheme" [(c!"name", c!"Office")] (themeColorKids p.colors)] := by krfl
    unfold readTheme
    rw [e]
    simp only [List.flatMap_cons, List.flatMap_nil, List.append_nil, E, kidsOf]
    congr 1

theorem setFirst_names {l : List (Str × Str)} {n v : Str} (h : n ∈ l.map Prod.fst) : (setFirst n v l).map Prod.fst = l.map Prod.fst := by
  induction l with
  | nil => simp at h
  | cons c l ih =>
    unfold setFirst
    split
    · rfl
    · rename_i hc
      simp only [List.map_cons, List.mem_cons] at h ⊢
      rw [ih (h.resolve_left fun e => hc e.symm)]

theorem setFirst_lookup {l : List (Str × Str)} {n v m : Str} :
    (setFirst n v l).lookup m = if m = n then some v else l.lookup m := by
  induction l with
  | nil => simp only [setFirst, List.lookup]; by_cases e : m = n <;> [simp [e]; simp [e, beq_eq_false_iff_ne.2 e]]
  | cons c l ih =>
    obtain ⟨a, b⟩ := c
    unfold setFirst
    split
    · rename_i e
      simp only at e
      subst e
      by_cases hm : m = a
      · simp [List.lookup, hm]
      · have : (m == a) = false := by simpa using hm
        simp [List.lookup, hm, this]
    · rename_i e
      simp only at e
      simp only [List.lookup, ih]
      by_cases hm : m = a
      · subst hm; simp [e]
      · have : (m == a) = false := by simpa using hm
        simp [this]

/-- The colour that was set last under a name. -/
def lastColor (ops : List (Str × Str)) (n : Str) : Option Str := (ops.reverse.find? fun o => o.1 = n).map Prod.snd

/-- **C124**, colours of a theme: setting colours of the schema, any number of times and in any order, keeps the twelve colours of the schema in
their order; each has the value that was set last, and the value of the Office theme when it was not set. -/
theorem C124_theme_colors (n : Nat) (ops : List (Str × Str)) (h : ∀ o ∈ ops, o.1 ∈ colorOrder) :
    (ops.foldl (fun p o => p.setColor o.1 o.2) (ThemePart.new n)).colors =
      officeColors.map fun c => (c.1, (lastColor ops c.1).getD c.2) := by
  suffices H : ∀ q : ThemePart, q.colors.map Prod.fst = colorOrder →
      (ops.foldl (fun p o => p.setColor o.1 o.2) q).colors.map Prod.fst = colorOrder ∧
      ∀ m ∈ colorOrder, (ops.foldl (fun p o => p.setColor o.1 o.2) q).colors.lookup m = (lastColor ops m).or (q.colors.lookup m) by
    obtain ⟨h1, h2⟩ := H (ThemePart.new n) (show officeColors.map Prod.fst = colorOrder by decide)
    generalize (ops.foldl (fun p o => p.setColor o.1 o.2) (ThemePart.new n)).colors = l at h1 h2
    have key : ∀ (l : List (Str × Str)), (l.map Prod.fst).Nodup → l = (l.map Prod.fst).map fun m => (m, (l.lookup m).getD []) := by
      intro l hn
      rw [List.map_map]
      refine (List.map_id l).symm.trans (List.map_congr_left fun c hc => ?_)
      have : l.lookup c.1 = some c.2 := by
        clear h1 h2
        induction l with
        | nil => simp at hc
        | cons d l ih =>
          obtain ⟨a, b⟩ := d
          simp only [List.map_cons, List.nodup_cons] at hn
          rcases List.mem_cons.1 hc with e | e
          · subst e; simp [List.lookup]
          · have ne : c.1 ≠ a := fun e' => hn.1 (e' ▸ List.mem_map_of_mem e)
            have : (c.1 == a) = false := by simpa using ne
            simp [List.lookup, this, ih hn.2 e]
      simp [this]
    rw [key l (by rw [h1]; decide), h1]
    have : colorOrder = officeColors.map Prod.fst := by decide
    rw [this, List.map_map]
    refine List.map_congr_left fun c hc => ?_
    simp only [Function.comp]
    rw [h2 c.1 (by rw [this]; exact List.mem_map_of_mem hc)]
    have hv : officeColors.lookup c.1 = some c.2 := by revert c; decide
    rw [show (ThemePart.new n).colors = officeColors from rfl, hv]
    cases lastColor ops c.1 <;> rfl
  induction ops with
  | nil => intro q hq; exact ⟨hq, fun m _ => by simp [lastColor]⟩
  | cons o ops ih =>
    intro q hq
    rw [List.foldl_cons]
    obtain ⟨a, b⟩ := ih (fun x hx => h x (List.mem_cons_of_mem _ hx)) (q.setColor o.1 o.2)
      (by unfold ThemePart.setColor; simp only; rw [setFirst_names (by rw [hq]; exact h o (by simp)), hq])
    refine ⟨a, fun m hm => ?_⟩
    rw [b m hm]
    unfold ThemePart.setColor lastColor
    simp only [setFirst_lookup, List.reverse_cons, List.find?_append]
    cases hf : ops.reverse.find? (fun x => decide (x.1 = m)) with
    | some x => simp
    | none =>
      by_cases e : m = o.1
      · subst e; simp
      · have e' : ¬ o.1 = m := fun x => e x.symm
        simp [e, e']

/-- Not vacuous: the theme with one other colour. -/
example : (document ((ThemePart.new 1).setColor c!"accent1" c!"FF0000").toXml).map (fun d => d.map fun k => ((readTheme k).colors.lookup c!"a:accent1", (readTheme k).major)) =
    some [(some (some c!"FF0000"), some c!"Calibri Light")] := by krfl

/-- **C124 does not hold in full.** Every colour of a theme part is written with a `val` attribute with its own name. The colours of a scheme have no
attributes in the schema (ECMA-376 20.1.4.1). -/
theorem C124_theme_val_violated (n : Nat) : ∃ k, document (ThemePart.new n).toXml = some [k] ∧ (elemsL c!"a:dk1" [k]).map (attrOf c!"val") = [some c!"dk1"] :=
  ⟨_, document_themePart (p := ThemePart.new n) ⟨show Plain c!"Office Theme" by decide, show Plain c!"Calibri Light" by decide, show Plain c!"Calibri" by decide,
    show ∀ c ∈ officeColors, _ by decide⟩, by krfl⟩

/-- **C124 does not hold in full.** Setting a colour under another name adds an element to the scheme that the schema does not allow. -/
theorem C124_theme_color_violated : (document ((ThemePart.new 1).setColor c!"accent7" c!"FF0000").toXml).map (fun d => (elemsL c!"a:accent7" d).length) = some 1 ∧
    c!"accent7" ∉ colorOrder := ⟨by krfl, by decide⟩

/-- **C124 does not hold in full.** The name and the fonts of a theme are not escaped: a name with an ampersand gives a part that is not XML. -/
theorem C124_theme_name_violated : document ({ ThemePart.new 1 with name := c!"R & D" } : ThemePart).toXml = none := by krfl

/-- **C124**, parts that were read: each is written as it was read. -/
theorem C124_kept (x : Str) : (AppPart.fromXml x).toXml = x ∧ (NotesPart.fromXml x).toXml = x ∧ (LayoutPart.fromXml x).toXml = x ∧
    (MasterPart.fromXml x).toXml = x ∧ (ThemePart.fromXml x).toXml = x := ⟨rfl, rfl, rfl, rfl, rfl⟩

/-! ## C125: kinds, paths and targets -/

/-- The part that a target names in the relationships of a part in a folder. -/
def targetFrom (folder : List Str) (t : Str) : Str := joinStr c!"/" (walk folder.reverse (splitChar '/' t)).reverse

/-- The parent of the folder, a folder in it, and a file in that. -/
theorem targetFrom_up {a b d x : Str} (hd : '/' ∉ d) (hx : '/' ∉ x) (d0 : d ≠ c!".." ∧ d ≠ c!"." ∧ d ≠ []) (x0 : x ≠ c!".." ∧ x ≠ c!"." ∧ x ≠ []) :
    targetFrom [a, b] (c!"../" ++ d ++ c!"/" ++ x) = a ++ c!"/" ++ d ++ c!"/" ++ x := by
  have e : splitChar '/' (c!"../" ++ d ++ c!"/" ++ x) = [c!"..", d, x] := by
    have : c!"../" ++ d ++ c!"/" ++ x = c!".." ++ '/' :: (d ++ '/' :: x) := by simp
    rw [this, splitChar_append_sep (by decide), splitChar_append_sep hd, splitChar_of_notMem hx]
  unfold targetFrom
  rw [e, walk_up, walk_name _ _ _ d0.1 d0.2.1 d0.2.2, walk_name _ _ _ x0.1 x0.2.1 x0.2.2]
  simp [walk, joinStr]

/-- A folder of the folder and a file in it. -/
theorem targetFrom_down {a d x : Str} (hd : '/' ∉ d) (hx : '/' ∉ x) (d0 : d ≠ c!".." ∧ d ≠ c!"." ∧ d ≠ []) (x0 : x ≠ c!".." ∧ x ≠ c!"." ∧ x ≠ []) :
    targetFrom [a] (d ++ c!"/" ++ x) = a ++ c!"/" ++ d ++ c!"/" ++ x := by
  have e : splitChar '/' (d ++ c!"/" ++ x) = [d, x] := by
    have : d ++ c!"/" ++ x = d ++ '/' :: x := by simp
    rw [this, splitChar_append_sep hd, splitChar_of_notMem hx]
  unfold targetFrom
  rw [e, walk_name _ _ _ d0.1 d0.2.1 d0.2.2, walk_name _ _ _ x0.1 x0.2.1 x0.2.2]
  simp [walk, joinStr]

/-- A name with a number and an ending. -/
theorem numbered_ok {p e : Str} (n : Nat) (hp : '/' ∉ p) (he : '/' ∉ e) (h0 : p.length ≥ 3) :
    '/' ∉ p ++ dec n ++ e ∧ (p ++ dec n ++ e ≠ c!".." ∧ p ++ dec n ++ e ≠ c!"." ∧ p ++ dec n ++ e ≠ []) := by
  refine ⟨?_, ?_⟩
  · simp only [List.mem_append, not_or]
    exact ⟨⟨hp, slash_notMem_dec n⟩, he⟩
  · have : (p ++ dec n ++ e).length ≥ 3 := by simp only [List.length_append]; omega
    refine ⟨fun h => ?_, fun h => ?_, fun h => ?_⟩ <;> rw [h] at this <;> simp at this

/-- **C125**, where it holds: the relationship target of a part, read from the folder of the slides (of the masters for a theme, of the presentation for a
master), is the path of the part. For images the format must not contain a slash. -/
theorem C125_targets_partial (n : Nat) :
    (∀ (t : Str) (k : Option Str), targetFrom [c!"ppt", c!"slides"] (⟨n, t, k⟩ : NotesPart).relTarget = (⟨n, t, k⟩ : NotesPart).path) ∧
    (∀ f, targetFrom [c!"ppt", c!"slides"] (⟨n, f⟩ : MediaPart).relTarget = (⟨n, f⟩ : MediaPart).path) ∧
    (∀ f, '/' ∉ f → targetFrom [c!"ppt", c!"slides"] (ImagePart.new n f).relTarget = (ImagePart.new n f).path) ∧
    (∀ p : ThemePart, targetFrom [c!"ppt", c!"slideMasters"] p.relTarget = p.path) ∧
    (∀ p : MasterPart, targetFrom [c!"ppt"] p.relTarget = p.path) := by
  refine ⟨fun t k => ?_, fun f => ?_, fun f hf => ?_, fun p => ?_, fun p => ?_⟩
  · have := numbered_ok (p := c!"notesSlide") (e := c!".xml") n (by decide) (by decide) (by decide)
    simpa [NotesPart.relTarget, NotesPart.path] using targetFrom_up (a := c!"ppt") (b := c!"slides") (d := c!"notesSlides") (by decide) this.1 (by decide) this.2
  · have := numbered_ok (p := c!"media") (e := c!"." ++ f.extension) n (by decide) (by cases f <;> decide) (by decide)
    simpa [MediaPart.relTarget, MediaPart.path] using targetFrom_up (a := c!"ppt") (b := c!"slides") (d := c!"media") (by decide) this.1 (by decide) this.2
  · have hx : '/' ∉ c!"." ++ (ImagePart.new n f).extension := by
      have h0 : '/' ∉ f.map Char.toLower := by
        rw [List.mem_map]
        rintro ⟨c, hc, e⟩
        refine hf (?_ : '/' ∈ f)
        have : c = '/' := by
          unfold Char.toLower at e
          split at e
          · rename_i hu
            have e' : c.val + 32 = 47 := congrArg Char.val e
            have l1 := UInt32.le_iff_toNat_le.1 hu.1
            have l2 := UInt32.le_iff_toNat_le.1 hu.2
            have e2 := congrArg UInt32.toNat e'
            rw [UInt32.toNat_add] at e2
            simp at e2 l1 l2
            omega
          · exact e
        exact this ▸ hc
      unfold ImagePart.extension ImagePart.new
      simp only
      split
      · decide
      · simpa using h0
    have := numbered_ok (p := c!"image") (e := c!"." ++ (ImagePart.new n f).extension) n (by decide) hx (by decide)
    simpa [ImagePart.relTarget, ImagePart.path, ImagePart.new] using targetFrom_up (a := c!"ppt") (b := c!"slides") (d := c!"media") (by decide) this.1 (by decide) this.2
  · have := numbered_ok (p := c!"theme") (e := c!".xml") p.number (by decide) (by decide) (by decide)
    simpa [ThemePart.relTarget, ThemePart.path] using targetFrom_up (a := c!"ppt") (b := c!"slideMasters") (d := c!"theme") (by decide) this.1 (by decide) this.2
  · have := numbered_ok (p := c!"slideMaster") (e := c!".xml") p.number (by decide) (by decide) (by decide)
    simpa [MasterPart.relTarget, MasterPart.path] using targetFrom_down (a := c!"ppt") (d := c!"slideMasters") (by decide) this.1 (by decide) this.2

/-- **C125 does not hold in full.** The relationship target of a layout names the layout only from the folder of the presentation. The parts that refer to
layouts are slides and masters; from their folders it names a part that does not exist. -/
theorem C125_layout_target_violated (p : LayoutPart) :
    targetFrom [c!"ppt"] p.relTarget = p.path ∧
    targetFrom [c!"ppt", c!"slides"] p.relTarget = c!"ppt/slides/slideLayouts/slideLayout" ++ dec p.number ++ c!".xml" ∧
    c!"ppt/slides/slideLayouts/slideLayout" ++ dec p.number ++ c!".xml" ≠ p.path := by
  have := numbered_ok (p := c!"slideLayout") (e := c!".xml") p.number (by decide) (by decide) (by decide)
  refine ⟨?_, ?_, ?_⟩
  · simpa [LayoutPart.relTarget, LayoutPart.path] using targetFrom_down (a := c!"ppt") (d := c!"slideLayouts") (by decide) this.1 (by decide) this.2
  · have e : splitChar '/' p.relTarget = [c!"slideLayouts", c!"slideLayout" ++ dec p.number ++ c!".xml"] := by
      have : p.relTarget = c!"slideLayouts" ++ '/' :: (c!"slideLayout" ++ dec p.number ++ c!".xml") := by simp [LayoutPart.relTarget]
      rw [this, splitChar_append_sep (by decide), splitChar_of_notMem (numbered_ok _ (by decide) (by decide) (by decide)).1]
    unfold targetFrom
    rw [e, walk_name _ _ _ (by decide) (by decide) (by decide), walk_name _ _ _ this.2.1 this.2.2.1 this.2.2.2]
    simp [walk, joinStr]
  · simp [LayoutPart.path]

/-- Not vacuous. -/
example : targetFrom [c!"ppt", c!"slides"] (⟨7, .mp4⟩ : MediaPart).relTarget = c!"ppt/media/media7.mp4" := by krfl

/-- **C125**, formats of media: an extension in any case names its format, the content type of media is that of its format, and a format is video or audio as its
content type says. -/
theorem C125_media_formats (f : MediaFormat) :
    (∀ e : Str, e.map Char.toLower = f.extension → MediaFormat.fromExtension e = some f) ∧
    (CType.media f.extension).mime = f.mime ∧
    (f.isVideo = true ↔ c!"video/" <+: f.mime) ∧ (f.isVideo = false ↔ c!"audio/" <+: f.mime) := by
  refine ⟨fun e h => ?_, ?_, ?_, ?_⟩
  · unfold MediaFormat.fromExtension; simp only [h]; cases f <;> rfl
  · cases f <;> krfl
  · cases f <;> decide
  · cases f <;> decide

/-- **C125**, unknown formats: an extension that is accepted is the extension of the format that it names. -/
theorem C125_media_extension (e : Str) (f : MediaFormat) (h : MediaFormat.fromExtension e = some f) : e.map Char.toLower = f.extension := by
  unfold MediaFormat.fromExtension at h
  simp only at h
  repeat' split at h
  all_goals first | (cases h; assumption) | simp at h

/-- Formats of images that both ways of finding the content type know. -/
def commonFormats : List Str := [c!"png", c!"jpg", c!"jpeg", c!"gif", c!"bmp", c!"tiff"]

/-- **C125**, where it holds (the six formats that both know): the MIME type of an image part is the one of its content type. -/
theorem C125_image_type_partial (n : Nat) (f : Str) (h : f.map Char.toLower ∈ commonFormats) :
    (ImagePart.new n f).mime = (ImagePart.new n f).contentType.mime ∧ c!"image/" <+: (ImagePart.new n f).mime := by
  have key : ∀ g ∈ commonFormats, (⟨0, g⟩ : ImagePart).mime = (⟨0, g⟩ : ImagePart).contentType.mime ∧ c!"image/" <+: (⟨0, g⟩ : ImagePart).mime := by decide
  exact key _ h

/-- **C125 does not hold in full.** A TIFF image with the extension `tif` has the MIME type of TIFF and the content type of unknown bytes; an SVG image has
the MIME type of unknown bytes and the content type of SVG. -/
theorem C125_image_type_violated :
    (ImagePart.new 1 c!"tif").mime = c!"image/tiff" ∧ (ImagePart.new 1 c!"tif").contentType.mime = c!"application/octet-stream" ∧
    (ImagePart.new 1 c!"svg").mime = c!"application/octet-stream" ∧ (ImagePart.new 1 c!"svg").contentType.mime = c!"image/svg+xml" := by decide

/-- **C125 does not hold in full.** Audio and video parts say that they are images, and their content type is the one of an image of an unknown format. -/
theorem C125_media_kind_violated (p : MediaPart) :
    p.kind.1 = .image ∧ p.kind.2.mime = c!"application/octet-stream" ∧ p.kind.2.mime ≠ p.format.mime := by
  obtain ⟨n, f⟩ := p
  refine ⟨rfl, ?_, ?_⟩
  · cases f <;> krfl
  · exact show (CType.image f.extension).mime ≠ f.mime by cases f <;> decide

/-- **C125 does not hold in full.** A notes part says that it is a slide with the content type of any XML. -/
theorem C125_notes_kind_violated (p : NotesPart) : p.kind.1 = .slide ∧ p.kind.2.mime ≠ CType.notesSlide.mime := ⟨rfl, by unfold NotesPart.kind; decide⟩

/-- **C125 does not hold in full.** A part that is read from XML has the number 1, so its path is the one of the first part of its kind. -/
theorem C125_number_violated (x : Str) :
    (NotesPart.fromXml x).path = c!"ppt/notesSlides/notesSlide1.xml" ∧ (LayoutPart.fromXml x).path = c!"ppt/slideLayouts/slideLayout1.xml" ∧
    (MasterPart.fromXml x).path = c!"ppt/slideMasters/slideMaster1.xml" ∧ (ThemePart.fromXml x).path = c!"ppt/theme/theme1.xml" :=
  ⟨by krfl, by krfl, by krfl, by krfl⟩

end PptRs.Props
