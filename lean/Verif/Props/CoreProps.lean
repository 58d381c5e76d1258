import Verif.Props.Reader
import Verif.Lemmas.Parts

/-!
# C87: document properties
-/

namespace PptRs.Props

open PptRs PptRs.Spec PptRs.Reader

/-- A property: an element with a text, on a line of its own. -/
def propNode (n : Str) (as : List (Str × Str)) (t : Str) : List Node := [nl, .elem n as (addText [] t)]

/-- The element that is read for a property. -/
def propElem (n : Str) (as : List (Str × Str)) (t : Str) : XmlElement := .mk n as [] (visible t)

theorem built_propNode (n : Str) (as : List (Str × Str)) (t : Str) (h : realAttrs as = as)
    (h' : (as.map (·.1)).Nodup) : builtIn (propNode n as t) = [propElem n as t] := by
  simp only [propNode, builtIn, nl, built, List.nil_append, List.append_nil, builtIn_addText, solidText_addText, h,
    attrMap_eq h', propElem]

/-- One line of the part. -/
def lineOf (ps : List Part) : List Part := t!"\n" ++ ps

theorem fmt_joinParts {l : List (List Part)} (h : l ≠ []) : '\n' :: fmt (joinParts l) = fmt (l.flatMap lineOf) := by
  induction l with
  | nil => exact absurd rfl h
  | cons a l ih =>
    cases l with
    | nil => simp [joinParts, lineOf, fmt, Part.render]
    | cons b l =>
      have := ih (by simp)
      rw [List.flatMap_cons, fmt_append, ← this]
      simp [joinParts, lineOf, fmt, Part.render]

/-- The attribute of the dates. -/
def dateAttr : List (Str × Str) := [(c!"xsi:type", c!"dcterms:W3CDTF")]

/-- The elements in which the properties are stored, in document order. -/
def coreKids (p : CoreProps) : List Node :=
  (p.title.toList.flatMap (propNode c!"dc:title" []))
  ++ (p.subject.toList.flatMap (propNode c!"dc:subject" []))
  ++ (p.creator.toList.flatMap (propNode c!"dc:creator" []))
  ++ (p.keywords.toList.flatMap (propNode c!"cp:keywords" []))
  ++ (p.description.toList.flatMap (propNode c!"dc:description" []))
  ++ (p.lastModifiedBy.toList.flatMap (propNode c!"cp:lastModifiedBy" []))
  ++ (p.revision.toList.flatMap fun v => propNode c!"cp:revision" [] (dec v))
  ++ (p.created.toList.flatMap (propNode c!"dcterms:created" dateAttr))
  ++ (p.modified.toList.flatMap (propNode c!"dcterms:modified" dateAttr))

theorem flatMap_toList_map {α β γ : Type} (o : Option α) (f : α → β) (g : β → List γ) :
    (o.map f).toList.flatMap g = o.toList.flatMap fun a => g (f a) := by
  cases o <;> rfl

/-- The dates, which are written as they are, hold no markup. -/
structure CoreProps.Safe (p : CoreProps) : Prop where
  created : ∀ t ∈ p.created, Plain t
  modified : ∀ t ∈ p.modified, Plain t

theorem readsNodes_elements {p : CoreProps} (h : CoreProps.Safe p) :
    ReadsNodes (p.elements.flatMap lineOf) (coreKids p) := by
  unfold CoreProps.elements coreKids
  simp only [List.flatMap_append, flatMap_toList_map]
  refine ReadsNodes.append (ReadsNodes.append (ReadsNodes.append (ReadsNodes.append (ReadsNodes.append (ReadsNodes.append
    (ReadsNodes.append (ReadsNodes.append ?_ ?_) ?_) ?_) ?_) ?_) ?_) ?_) ?_
  all_goals refine readsNodes_flatMap fun v hv => ?_
  · exact ((Splits.lit (by parts_ok)).append (Splits.lit (by parts_ok))).readsNodes (by krfl)
  · exact ((Splits.lit (by parts_ok)).append (Splits.lit (by parts_ok))).readsNodes (by krfl)
  · exact ((Splits.lit (by parts_ok)).append (Splits.lit (by parts_ok))).readsNodes (by krfl)
  · exact ((Splits.lit (by parts_ok)).append (Splits.lit (by parts_ok))).readsNodes (by krfl)
  · exact ((Splits.lit (by parts_ok)).append (Splits.lit (by parts_ok))).readsNodes (by krfl)
  · exact ((Splits.lit (by parts_ok)).append (Splits.lit (by parts_ok))).readsNodes (by krfl)
  · exact ((Splits.lit (by parts_ok)).append (Splits.lit (by parts_ok))).readsNodes (by krfl)
  · exact ((Splits.lit (by parts_ok)).append
      (Splits.lit (by parts_ok; exact h.created v (by simpa using hv)))).readsNodes (by krfl)
  · exact ((Splits.lit (by parts_ok)).append
      (Splits.lit (by parts_ok; exact h.modified v (by simpa using hv)))).readsNodes (by krfl)

/-- The root element. -/
def corePropsRoot (ks : List Node) : Node :=
  .elem c!"cp:coreProperties" [(c!"xmlns:cp", c!"http://schemas.openxmlformats.org/package/2006/metadata/core-properties"),
    (c!"xmlns:dc", c!"http://purl.org/dc/elements/1.1/"), (c!"xmlns:dcterms", c!"http://purl.org/dc/terms/"),
    (c!"xmlns:dcmitype", c!"http://purl.org/dc/dcmitype/"),
    (c!"xmlns:xsi", c!"http://www.w3.org/2001/XMLSchema-instance")] ks

/-- The root element's start tag. -/
def corePropsOpen : List Part :=
  t!"<cp:coreProperties xmlns:cp=\"http://schemas.openxmlformats.org/package/2006/metadata/core-properties\" xmlns:dc=\"http://purl.org/dc/elements/1.1/\" xmlns:dcterms=\"http://purl.org/dc/terms/\" xmlns:dcmitype=\"http://purl.org/dc/dcmitype/\" xmlns:xsi=\"http://www.w3.org/2001/XMLSchema-instance\">"

theorem document_core {p : CoreProps} (h : CoreProps.Safe p) :
    ∃ ks, document p.toXml = some [corePropsRoot ks] ∧ builtIn ks = builtIn (coreKids p) := by
  have hs : ∀ x, ∃ r, fmt (corePropsOpen ++ x) = '<' :: r := fun x => ⟨_, by rw [fmt_append]; rfl⟩
  by_cases he : p.elements = []
  · refine ⟨[.text c!"\n\n"], ?_, ?_⟩
    · unfold CoreProps.toXml
      rw [he, show fmt (coreStart ++ joinParts [] ++ _) = fmt (corePropsOpen ++ t!"\n\n</cp:coreProperties>") by krfl]
      exact document_decl (ps := corePropsOpen ++ t!"\n\n</cp:coreProperties>")
        (((Splits.lit (by unfold corePropsOpen; all_ok)).append (.lit (by parts_ok))).readsNodes (by krfl)) (hs _)
    · have : coreKids p = [] := by
        unfold CoreProps.elements at he
        simp only [List.append_eq_nil_iff, Option.toList_eq_nil_iff, Option.map_eq_none_iff] at he
        unfold coreKids
        simp [he]
      rw [this]
      rfl
  · refine ⟨coreKids p ++ [nl], ?_, by rw [builtIn_append]; exact List.append_nil _⟩
    have e : p.toXml = xmlDecl ++ fmt (corePropsOpen ++ p.elements.flatMap lineOf ++ t!"\n</cp:coreProperties>") := by
      unfold CoreProps.toXml
      rw [fmt_append, fmt_append, fmt_append, fmt_append, ← fmt_joinParts he, show fmt coreStart = fmt corePropsOpen ++ ['\n'] by krfl]
      simp only [List.append_assoc, List.cons_append, List.nil_append]
    rw [e]
    refine document_decl ?_ (by rw [List.append_assoc]; exact hs _)
    exact ((Splits.lit (by unfold corePropsOpen; all_ok)).append (.nodes (readsNodes_elements h)) |>.append
      (.lit (by parts_ok))).readsNodes (by krfl)

theorem builtIn_props {α : Type} (o : Option α) (n : Str) (as : List (Str × Str)) (f : α → Str) (h : realAttrs as = as)
    (h' : (as.map (·.1)).Nodup) :
    builtIn (o.toList.flatMap fun a => propNode n as (f a)) = o.toList.map fun a => propElem n as (f a) := by
  cases o with
  | none => rfl
  | some a => simp [built_propNode n as (f a) h h']

theorem findIn_append (name : Str) (a b : List XmlElement) :
    XmlElement.findIn name (a ++ b) = (XmlElement.findIn name a).or (XmlElement.findIn name b) := by
  induction a with
  | nil => rfl
  | cons e a ih =>
    simp only [List.cons_append, XmlElement.findIn]
    split
    · rfl
    · cases XmlElement.findDescendant name e with
      | some x => rfl
      | none => exact ih

theorem findIn_props {α : Type} (name : Str) (o : Option α) (n : Str) (as : List (Str × Str)) (f : α → Str) :
    XmlElement.findIn name (o.toList.map fun a => propElem n as (f a)) =
      if afterColon n = name then o.map fun a => propElem n as (f a) else none := by
  cases o with
  | none => split <;> rfl
  | some a =>
    simp only [Option.toList_some, List.map_cons, List.map_nil, XmlElement.findIn, propElem, localName_eq, XmlElement.tag,
      XmlElement.findDescendant]
    split <;> rfl

/-- The text that is left of an optional property. -/
def kept (o : Option Str) : Option Str := o.filter fun t => ¬ BlankText t

theorem kept_eq (o : Option Str) (n : Str) (as : List (Str × Str)) :
    ((o.map fun a => propElem n as a).map (·.textContent)).filter (· ≠ []) = kept o := by
  cases o with
  | none => rfl
  | some t =>
    by_cases h : BlankText t
    · simp [kept, propElem, XmlElement.textContent, visible, h, Option.filter, XmlElement.textIn]
    · have : t ≠ [] := by intro e; exact h (by simp [e, BlankText])
      simp [kept, propElem, XmlElement.textContent, visible, h, Option.filter, XmlElement.textIn, this]

/-- The elements that are read. -/
def coreElems (p : CoreProps) : List XmlElement :=
  (p.title.toList.map fun a => propElem c!"dc:title" [] (id a))
  ++ (p.subject.toList.map fun a => propElem c!"dc:subject" [] (id a))
  ++ (p.creator.toList.map fun a => propElem c!"dc:creator" [] (id a))
  ++ (p.keywords.toList.map fun a => propElem c!"cp:keywords" [] (id a))
  ++ (p.description.toList.map fun a => propElem c!"dc:description" [] (id a))
  ++ (p.lastModifiedBy.toList.map fun a => propElem c!"cp:lastModifiedBy" [] (id a))
  ++ (p.revision.toList.map fun a => propElem c!"cp:revision" [] (dec a))
  ++ (p.created.toList.map fun a => propElem c!"dcterms:created" dateAttr (id a))
  ++ (p.modified.toList.map fun a => propElem c!"dcterms:modified" dateAttr (id a))

theorem builtIn_coreKids (p : CoreProps) : builtIn (coreKids p) = coreElems p := by
  have hd : realAttrs dateAttr = dateAttr := by decide
  have hd' : (dateAttr.map (·.1)).Nodup := by decide
  unfold coreKids coreElems
  simp only [builtIn_append]
  rw [← builtIn_props p.title c!"dc:title" [] id rfl (by simp),
    ← builtIn_props p.subject c!"dc:subject" [] id rfl (by simp),
    ← builtIn_props p.creator c!"dc:creator" [] id rfl (by simp),
    ← builtIn_props p.keywords c!"cp:keywords" [] id rfl (by simp),
    ← builtIn_props p.description c!"dc:description" [] id rfl (by simp),
    ← builtIn_props p.lastModifiedBy c!"cp:lastModifiedBy" [] id rfl (by simp),
    ← builtIn_props p.revision c!"cp:revision" [] dec rfl (by simp),
    ← builtIn_props p.created c!"dcterms:created" dateAttr id hd hd',
    ← builtIn_props p.modified c!"dcterms:modified" dateAttr id hd hd']
  rfl

/-- **C87** (partial: the dates hold no markup, the revision fits into 32 bits). Reading the document properties that were
written gives all of them, in their fields; only texts of white space are lost. -/
theorem C87_properties_read_back_partial (p : CoreProps) (h : CoreProps.Safe p) (hr : ∀ n ∈ p.revision, n < 4294967296) :
    CoreProps.fromXml p.toXml = some {
      title := kept p.title
      subject := kept p.subject
      creator := kept p.creator
      keywords := kept p.keywords
      description := kept p.description
      lastModifiedBy := kept p.lastModifiedBy
      revision := p.revision
      created := kept p.created
      modified := kept p.modified } := by
  obtain ⟨ks, h1, h2⟩ := document_core h
  unfold CoreProps.fromXml
  rw [parse_elem h1, Option.map_some]
  refine congrArg some ?_
  simp only [textField, XmlElement.findDescendant, h2, builtIn_coreKids, coreElems, findIn_append, findIn_props]
  simp only [id, Option.none_or, Option.or_none,
    show afterColon c!"dc:title" = c!"title" from rfl, show afterColon c!"dc:subject" = c!"subject" from rfl,
    show afterColon c!"dc:creator" = c!"creator" from rfl, show afterColon c!"cp:keywords" = c!"keywords" from rfl,
    show afterColon c!"dc:description" = c!"description" from rfl,
    show afterColon c!"cp:lastModifiedBy" = c!"lastModifiedBy" from rfl,
    show afterColon c!"cp:revision" = c!"revision" from rfl, show afterColon c!"dcterms:created" = c!"created" from rfl,
    show afterColon c!"dcterms:modified" = c!"modified" from rfl, if_true]
  simp only [reduceCtorEq, if_false, if_true, List.cons.injEq, Char.reduceEq, false_and, and_false, Option.none_or, Option.or_none, kept_eq]
  have hrev : ((p.revision.map fun a => propElem c!"cp:revision" [] (dec a)).bind fun e => parseU32? e.textContent) =
      p.revision := by
    cases hv : p.revision with
    | none => rfl
    | some n =>
      simp only [Option.map_some, Option.bind_some, propElem, XmlElement.textContent, XmlElement.textIn, List.append_nil]
      have hb : ¬ BlankText (dec n) := by
        intro hb
        obtain ⟨c, r, hc⟩ := List.exists_cons_of_ne_nil (dec_ne_nil n)
        have hm : c ∈ dec n := by rw [hc]; simp
        rcases hb c hm with rfl | rfl | rfl | rfl <;> exact not_mem_dec (by decide) hm
      rw [visible, if_neg hb]
      exact parseU32_dec (hr n hv)
  rw [hrev]

/-- **C87.** If no text is white space the properties are read unchanged. -/
theorem C87_round_trip_partial (p : CoreProps) (h : CoreProps.Safe p) (hr : ∀ n ∈ p.revision, n < 4294967296)
    (hb : ∀ o ∈ [p.title, p.subject, p.creator, p.keywords, p.description, p.lastModifiedBy, p.created, p.modified],
      ∀ t ∈ o, ¬ BlankText t) : CoreProps.fromXml p.toXml = some p := by
  have hk : ∀ o ∈ [p.title, p.subject, p.creator, p.keywords, p.description, p.lastModifiedBy, p.created, p.modified],
      kept o = o := by
    intro o ho
    cases o with
    | none => rfl
    | some t =>
      have := hb _ ho t rfl
      simp [kept, Option.filter, this]
  rw [C87_properties_read_back_partial p h hr, hk p.title (by simp), hk p.subject (by simp), hk p.creator (by simp),
    hk p.keywords (by simp), hk p.description (by simp), hk p.lastModifiedBy (by simp), hk p.created (by simp),
    hk p.modified (by simp)]

example : ∃ p : CoreProps, CoreProps.Safe p ∧ p.title = some c!"A <b> & \"c\"" ∧ p.revision = some 7 ∧
    CoreProps.fromXml p.toXml = some p :=
  ⟨{ title := some c!"A <b> & \"c\"", revision := some 7, created := some c!"2024-01-01T00:00:00Z" },
    ⟨by simp [Plain], by simp⟩, rfl, rfl,
    C87_round_trip_partial _ ⟨by simp [Plain], by simp⟩ (by simp) (by simp [BlankText])⟩

/-- A date with markup makes the part unreadable. -/
theorem C87_date_markup_violated :
    CoreProps.fromXml ({ title := some c!"Plan", created := some c!"<soon>" } : CoreProps).toXml = none := by
  krfl

/-- A title of white space is lost. -/
theorem C87_blank_violated : ∃ p : CoreProps, CoreProps.Safe p ∧ CoreProps.fromXml p.toXml ≠ some p :=
  ⟨{ title := some c!" " }, ⟨by simp, by simp⟩, by
    rw [C87_properties_read_back_partial _ ⟨by simp, by simp⟩ (by simp)]
    decide⟩

end PptRs.Props
