import Verif.Lemmas.Parts
import Verif.Lemmas.EditorXml
import Verif.Lemmas.Scan
import Verif.Props.Escapers
import Verif.Spec.Settings

/-!
# Reading themes
-/

namespace PptRs.Themes

open PptRs PptRs.Spec

/-! ### The text of a theme -/

/-- The text of a theme after the replacements. -/
def themeText (t : Theme) : Str :=
  themeDecl ++ themeStart ++ escapeXmlAttr t.name ++ themeElements ++ clrScheme t.name t.colors
    ++ afterColors (escapeXmlAttr t.major) (escapeXmlAttr t.minor)

theorem replaceColors_office (clr : Str) :
    replaceColors clr officeTheme =
      themeDecl ++ themeStart ++ c!"Office Theme" ++ themeElements ++ clr ++ afterColors c!"Calibri" c!"Calibri" := by
  have h1 : splitOnce? c!"<a:clrScheme" officeTheme =
      some (themeDecl ++ themeStart ++ c!"Office Theme" ++ themeElements,
        officeColors.drop 12 ++ afterColors c!"Calibri" c!"Calibri") := by krfl
  have h2 : splitOnce? c!"</a:clrScheme>" officeTheme =
      some (themeDecl ++ themeStart ++ c!"Office Theme" ++ themeElements ++ officeColors.take 605,
        afterColors c!"Calibri" c!"Calibri") := by krfl
  unfold replaceColors
  rw [h1, h2]

theorem replaceToQuote_eq {new old r : Str} (h : '"' ∉ old) :
    replaceToQuote new (old ++ c!"\"" ++ r) = new ++ c!"\"" ++ r := by
  unfold replaceToQuote
  have := splitOnce?_quote (q := '"') (s := old) (t := r) h
  rw [show old ++ c!"\"" ++ r = old ++ '"' :: r by simp, this]

theorem replaceName_eq (name rest : Str) :
    replaceName name (themeDecl ++ themeStart ++ c!"Office Theme" ++ themeElements ++ rest) =
      themeDecl ++ themeStart ++ name ++ themeElements ++ rest := by
  have e1 : themeDecl ++ themeStart = (themeDecl ++ c!"<a:theme xmlns:a=\"http://schemas.openxmlformats.org/drawingml/2006/main\" ") ++ c!"name=\"" := by
    decide +kernel
  have e2 : themeElements = c!"\"" ++ c!"><a:themeElements>" := by decide +kernel
  have h := splitOnce?_of_noStart (c := 'n') (m := c!"ame=\"")
    (s := themeDecl ++ c!"<a:theme xmlns:a=\"http://schemas.openxmlformats.org/drawingml/2006/main\" ")
    (t := c!"Office Theme" ++ c!"\"" ++ (c!"><a:themeElements>" ++ rest)) (by decide +kernel)
  unfold replaceName
  rw [e1, e2]
  generalize themeDecl ++ c!"<a:theme xmlns:a=\"http://schemas.openxmlformats.org/drawingml/2006/main\" " = pre at h ⊢
  rw [show pre ++ c!"name=\"" ++ c!"Office Theme" ++ (c!"\"" ++ c!"><a:themeElements>") ++ rest =
    pre ++ c!"name=\"" ++ (c!"Office Theme" ++ c!"\"" ++ (c!"><a:themeElements>" ++ rest)) by simp only [List.append_assoc],
    h]
  show pre ++ c!"name=\"" ++ replaceToQuote name _ = _
  rw [replaceToQuote_eq (by decide)]
  simp only [List.append_assoc]

theorem replaceFontLatin_eq {tag typeface a x old r : Str}
    (ha : noStart (c!"<a:" ++ tag ++ c!">") a = true) (hx : noStart c!"<a:latin typeface=\"" x = true) (ho : '"' ∉ old) :
    replaceFontLatin tag typeface
      (a ++ (c!"<a:" ++ tag ++ c!">") ++ (x ++ c!"<a:latin typeface=\"" ++ (old ++ c!"\"" ++ r))) =
      a ++ (c!"<a:" ++ tag ++ c!">") ++ x ++ c!"<a:latin typeface=\"" ++ escapeXmlAttr typeface ++ c!"\"" ++ r := by
  unfold replaceFontLatin
  have h1 : splitOnce? (c!"<a:" ++ tag ++ c!">")
      (a ++ (c!"<a:" ++ tag ++ c!">") ++ (x ++ c!"<a:latin typeface=\"" ++ (old ++ c!"\"" ++ r))) =
      some (a, x ++ c!"<a:latin typeface=\"" ++ (old ++ c!"\"" ++ r)) :=
    splitOnce?_of_noStart (c := '<') (m := c!"a:" ++ tag ++ c!">") ha
  have h2 : splitOnce? c!"<a:latin typeface=\"" (x ++ c!"<a:latin typeface=\"" ++ (old ++ c!"\"" ++ r)) =
      some (x, old ++ c!"\"" ++ r) := splitOnce?_of_noStart hx
  rw [h1]
  simp only
  rw [h2]
  simp only
  rw [replaceToQuote_eq ho]
  simp only [List.append_assoc]

/-- The colours have no markup. -/
def Colors.Plain (c : Colors) : Prop := ∀ p ∈ c.slots, PptRs.Plain p.2

theorem noStart_attr {m s : Str} : noStart ('<' :: m) (escapeXmlAttr s) = true :=
  noStart_of_notMem (Props.C02_attr_roundtrip s).2.2

theorem noStart_colors {m : Str} {c : Colors} (h : c.Plain) (h1 : noStart ('<' :: m) c!"\"/></a:" = true)
    (h2 : ∀ p ∈ c.slots, noStart ('<' :: m) (c!"<a:" ++ p.1 ++ c!"><a:srgbClr val=\"") = true)
    (h3 : ∀ p ∈ c.slots, '<' ∉ p.1) :
    noStart ('<' :: m) (c.slots.flatMap fun p => colorSlot p.1 p.2) = true := by
  refine noStart_flatMap fun p hp => ?_
  unfold colorSlot
  refine noStart_append (noStart_append (noStart_append (noStart_append (h2 p hp) ?_) h1) ?_) ?_
  · exact noStart_of_notMem (h p hp).2.1
  · exact noStart_of_notMem (h3 p hp)
  · exact noStart_of_notMem (by decide)

/-- What stands before the fonts. -/
def beforeFonts (t : Theme) : Str :=
  themeDecl ++ themeStart ++ escapeXmlAttr t.name ++ themeElements ++ clrScheme t.name t.colors

theorem noStart_before {m : Str} {t : Theme} (h : t.colors.Plain)
    (hm : noStart ('<' :: m) (themeDecl ++ themeStart) = true) (he : noStart ('<' :: m) themeElements = true)
    (hs : noStart ('<' :: m) c!"<a:clrScheme name=\"" = true) (hq : noStart ('<' :: m) c!"\">" = true)
    (hend : noStart ('<' :: m) c!"</a:clrScheme>" = true)
    (h1 : noStart ('<' :: m) c!"\"/></a:" = true)
    (h2 : ∀ p ∈ t.colors.slots, noStart ('<' :: m) (c!"<a:" ++ p.1 ++ c!"><a:srgbClr val=\"") = true) :
    noStart ('<' :: m) (beforeFonts t) = true := by
  have h3 : ∀ p ∈ t.colors.slots, '<' ∉ p.1 := by
    simp only [Colors.slots, List.forall_mem_cons, List.not_mem_nil, false_imp_iff, implies_true, and_true]
    decide
  unfold beforeFonts clrScheme
  exact noStart_append (noStart_append (noStart_append hm noStart_attr) he)
    (noStart_append (noStart_append (noStart_append (noStart_append hs noStart_attr) hq) (noStart_colors h h1 h2 h3)) hend)

theorem slots_tags (c : Colors) {P : Str → Prop} (h : ∀ x ∈ Colors.office.slots.map (·.1), P x) : ∀ p ∈ c.slots, P p.1 := by
  simp only [Colors.slots, List.map_cons, List.map_nil, List.forall_mem_cons, List.not_mem_nil, false_imp_iff, implies_true, and_true] at h ⊢
  exact h

theorem toXml_eq {t : Theme} (h : ¬ (t.name = c!"Office Theme" ∧ t.colors = .office)) (hc : t.colors.Plain) :
    t.toXml = themeText t := by
  unfold Theme.toXml
  rw [if_neg h, replaceColors_office, show themeDecl ++ themeStart ++ c!"Office Theme" ++ themeElements ++ clrScheme t.name t.colors
      ++ afterColors c!"Calibri" c!"Calibri" = themeDecl ++ themeStart ++ c!"Office Theme" ++ themeElements ++ (clrScheme t.name t.colors
      ++ afterColors c!"Calibri" c!"Calibri") by simp only [List.append_assoc], replaceName_eq,
    show themeDecl ++ themeStart ++ escapeXmlAttr t.name ++ themeElements ++ (clrScheme t.name t.colors
      ++ afterColors c!"Calibri" c!"Calibri") = beforeFonts t ++ afterColors c!"Calibri" c!"Calibri" by
      unfold beforeFonts; simp only [List.append_assoc]]
  have q1 : fontsStart = c!"<a:fontScheme name=\"Office\">" ++ (c!"<a:" ++ c!"majorFont" ++ c!">") ++ ([] ++ c!"<a:latin typeface=\"") := by
    decide +kernel
  have q2 : majorRest = c!"\"" ++ majorRest.tail := by decide +kernel
  have q3 : minorStart = (c!"<a:" ++ c!"minorFont" ++ c!">") ++ ([] ++ c!"<a:latin typeface=\"") := by decide +kernel
  have q4 : minorRest = c!"\"" ++ minorRest.tail := by decide +kernel
  have n1 : noStart (c!"<a:" ++ c!"majorFont" ++ c!">") (beforeFonts t ++ c!"<a:fontScheme name=\"Office\">") = true :=
    noStart_append (noStart_before (m := c!"a:majorFont>") hc (by decide +kernel) (by decide +kernel) (by decide)
      (by decide) (by decide) (by decide) (slots_tags (P := fun x => noStart c!"<a:majorFont>" (c!"<a:" ++ x ++ c!"><a:srgbClr val=\"") = true) t.colors (by decide +kernel))) (by decide)
  have n2 : noStart (c!"<a:" ++ c!"minorFont" ++ c!">") (beforeFonts t ++ fontsStart ++ escapeXmlAttr t.major ++ majorRest) = true :=
    noStart_append (noStart_append (noStart_append (noStart_before (m := c!"a:minorFont>") hc (by decide +kernel) (by decide +kernel) (by decide)
      (by decide) (by decide) (by decide) (slots_tags (P := fun x => noStart c!"<a:minorFont>" (c!"<a:" ++ x ++ c!"><a:srgbClr val=\"") = true) t.colors (by decide +kernel))) (by decide +kernel))
      noStart_attr) (by decide +kernel)
  have s1 := replaceFontLatin_eq (tag := c!"majorFont") (typeface := t.major) (a := beforeFonts t ++ c!"<a:fontScheme name=\"Office\">")
    (x := []) (old := c!"Calibri") (r := majorRest.tail ++ minorStart ++ c!"Calibri" ++ minorRest ++ formatScheme ++ formatScheme2 ++ themeEnd)
    n1 rfl (by decide)
  have s2 := replaceFontLatin_eq (tag := c!"minorFont") (typeface := t.minor)
    (a := beforeFonts t ++ fontsStart ++ escapeXmlAttr t.major ++ majorRest)
    (x := []) (old := c!"Calibri") (r := minorRest.tail ++ formatScheme ++ formatScheme2 ++ themeEnd) n2 rfl (by decide)
  have e1 : beforeFonts t ++ afterColors c!"Calibri" c!"Calibri" = (beforeFonts t ++ c!"<a:fontScheme name=\"Office\">") ++ (c!"<a:" ++ c!"majorFont" ++ c!">") ++
      ([] ++ c!"<a:latin typeface=\"" ++ (c!"Calibri" ++ c!"\"" ++
        (majorRest.tail ++ minorStart ++ c!"Calibri" ++ minorRest ++ formatScheme ++ formatScheme2 ++ themeEnd))) := by
    unfold afterColors
    rw [q1]
    generalize hb : beforeFonts t = b
    generalize hd : majorRest.tail = d at q2 ⊢
    rw [q2]
    simp only [List.append_assoc]
  rw [e1, s1]
  have e2 : (beforeFonts t ++ c!"<a:fontScheme name=\"Office\">") ++ (c!"<a:" ++ c!"majorFont" ++ c!">") ++ [] ++ c!"<a:latin typeface=\"" ++ escapeXmlAttr t.major ++ c!"\"" ++
        (majorRest.tail ++ minorStart ++ c!"Calibri" ++ minorRest ++ formatScheme ++ formatScheme2 ++ themeEnd) =
      (beforeFonts t ++ fontsStart ++ escapeXmlAttr t.major ++ majorRest) ++ (c!"<a:" ++ c!"minorFont" ++ c!">") ++
      ([] ++ c!"<a:latin typeface=\"" ++ (c!"Calibri" ++ c!"\"" ++ (minorRest.tail ++ formatScheme ++ formatScheme2 ++ themeEnd))) := by
    rw [q1, q3]
    generalize hb : beforeFonts t = b
    generalize hd : majorRest.tail = d at q2 ⊢
    generalize he : minorRest.tail = e at q4 ⊢
    rw [q2, q4]
    simp only [List.append_assoc]
  rw [e2, s2]
  show _ = beforeFonts t ++ afterColors _ _
  unfold afterColors
  rw [q3]
  generalize hb : beforeFonts t = b
  generalize he : minorRest.tail = e at q4 ⊢
  rw [q4]
  simp only [List.append_assoc]

/-! ### Reading the text -/

/-- The nodes that literal text is read as. -/
def constNodes (s : Str) : List Node :=
  match symRun ⟨⟨[], [], []⟩, [], .text []⟩ [.part (.lit s)] with
  | some r => r.top.kids
  | none => []

theorem readsNodes_const {s : Str} (h : symRun ⟨⟨[], [], []⟩, [], .text []⟩ [.part (.lit s)] =
    some ⟨⟨[], [], constNodes s⟩, [], .text []⟩) : ReadsNodes [.lit s] (constNodes s) :=
  Splits.readsNodes (S := [.part (.lit s)]) (Splits.lit (ps := [.lit s]) (by simp [Part.Ok])) h

/-- An attribute with an escaped value. -/
def attrParts (k v : Str) : List Part := [.lit (' ' :: k ++ c!"=\""), .raw (escapeXmlAttr v), .lit c!"\""]

theorem readsAttrs_name (v : Str) : ReadsAttrs (attrParts c!"name" v) [(c!"name", v)] := by
  intro top st n as
  obtain ⟨h1, h2, h3⟩ := Props.C02_attr_roundtrip v
  show Reads (c!" name=\"" ++ (escapeXmlAttr v ++ (c!"\"" ++ []))) _ _
  refine Reads.append (s1 := ⟨top, st, .val n as c!"name" []⟩) (reads_lit (by krfl)) ?_
  refine Reads.append (s1 := ⟨top, st, .val n as c!"name" v⟩) (reads_hole h1 h3 h2 rfl) ?_
  rw [List.append_nil]
  exact reads_lit (by krfl)

theorem readsAttrs_typeface (v : Str) : ReadsAttrs (attrParts c!"typeface" v) [(c!"typeface", v)] := by
  intro top st n as
  obtain ⟨h1, h2, h3⟩ := Props.C02_attr_roundtrip v
  show Reads (c!" typeface=\"" ++ (escapeXmlAttr v ++ (c!"\"" ++ []))) _ _
  refine Reads.append (s1 := ⟨top, st, .val n as c!"typeface" []⟩) (reads_lit (by krfl)) ?_
  refine Reads.append (s1 := ⟨top, st, .val n as c!"typeface" v⟩) (reads_hole h1 h3 h2 rfl) ?_
  rw [List.append_nil]
  exact reads_lit (by krfl)

/-- The parts of a colour. -/
def slotParts (tag hex : Str) : List Part :=
  [.lit (c!"<a:" ++ tag ++ c!"><a:srgbClr val=\""), .raw hex, .lit (c!"\"/></a:" ++ tag ++ c!">")]

/-- The parts of the colours. -/
def colorParts (c : Colors) : List Part := c.slots.flatMap fun p => slotParts p.1 p.2

/-- A colour. -/
def slotNode (tag hex : Str) : Node := E (c!"a:" ++ tag) [] [E c!"a:srgbClr" [(c!"val", hex)] []]

theorem readsNodes_colors {c : Colors} (h : c.Plain) :
    ReadsNodes (colorParts c) (c.slots.map fun p => slotNode p.1 p.2) := by
  have h' := h
  unfold Colors.Plain at h'
  simp only [Colors.slots, List.forall_mem_cons, List.not_mem_nil, false_imp_iff, implies_true, and_true] at h'
  obtain ⟨a1, a2, a3, a4, a5, a6, a7, a8, a9, a10, a11, a12⟩ := h'
  refine (Splits.lit (ps := colorParts c) ?_).readsNodes (by krfl)
  simp only [colorParts, Colors.slots, List.flatMap_cons, List.flatMap_nil, slotParts, List.append_nil, List.cons_append,
    List.nil_append, List.forall_mem_cons, List.not_mem_nil, false_imp_iff, implies_true, and_true, Part.Ok, true_and]
  exact ⟨a1, a2, a3, a4, a5, a6, a7, a8, a9, a10, a11, a12⟩

/-- The fonts after the major font. -/
def majorScripts : Str := (majorRest.drop 3).dropLast.take (majorRest.length - 17)
/-- The fonts after the minor font. -/
def minorScripts : Str := (minorRest.drop 3).dropLast.take (minorRest.length - 32)
/-- The end of the theme inside its element. -/
def lastElements : Str := (themeEnd.drop 18).take (themeEnd.length - 28)

/-- The parts of a theme. -/
def themeParts (t : Theme) : List Part :=
  [.lit c!"<a:theme xmlns:a=\"http://schemas.openxmlformats.org/drawingml/2006/main\""] ++ attrParts c!"name" t.name
    ++ [.lit c!"><a:themeElements><a:clrScheme"] ++ attrParts c!"name" t.name ++ [.lit c!">"] ++ colorParts t.colors
    ++ [.lit c!"</a:clrScheme><a:fontScheme name=\"Office\"><a:majorFont><a:latin"] ++ attrParts c!"typeface" t.major
    ++ [.lit c!"/>"] ++ [.lit majorScripts] ++ [.lit c!"</a:majorFont><a:minorFont><a:latin"] ++ attrParts c!"typeface" t.minor
    ++ [.lit c!"/>"] ++ [.lit minorScripts] ++ [.lit c!"</a:minorFont></a:fontScheme>"] ++ [.lit (formatScheme ++ formatScheme2)]
    ++ [.lit c!"</a:themeElements>"] ++ [.lit lastElements] ++ [.lit c!"</a:theme>"]

theorem fmt_cons (p : Part) (ps : List Part) : fmt (p :: ps) = p.render ++ fmt ps := rfl

theorem fmt_colors (c : Colors) : fmt (colorParts c) = c.slots.flatMap fun p => colorSlot p.1 p.2 := by
  unfold colorParts fmt
  rw [List.flatMap_assoc]
  congr 1
  funext p
  simp [slotParts, colorSlot, Part.render]

set_option maxRecDepth 8000 in
theorem themeText_eq (t : Theme) : themeText t = themeDecl ++ fmt (themeParts t) := by
  have e1 : themeStart = c!"<a:theme xmlns:a=\"http://schemas.openxmlformats.org/drawingml/2006/main\"" ++ c!" name=\"" := by
    decide +kernel
  have e2 : themeElements = c!"\"" ++ c!"><a:themeElements>" := by decide +kernel
  have e3 : fontsStart = c!"<a:fontScheme name=\"Office\"><a:majorFont><a:latin" ++ c!" typeface=\"" := by decide +kernel
  have e4 : majorRest = c!"\"" ++ (c!"/>" ++ (majorScripts ++ c!"</a:majorFont>")) := by decide +kernel
  have e5 : minorStart = c!"<a:minorFont><a:latin" ++ c!" typeface=\"" := by decide +kernel
  have e6 : minorRest = c!"\"" ++ (c!"/>" ++ (minorScripts ++ c!"</a:minorFont></a:fontScheme>")) := by decide +kernel
  have e7 : themeEnd = c!"</a:themeElements>" ++ (lastElements ++ c!"</a:theme>") := by decide +kernel
  unfold themeText themeParts clrScheme afterColors
  generalize majorScripts = x1 at e4 ⊢
  generalize minorScripts = x2 at e6 ⊢
  generalize lastElements = x3 at e7 ⊢
  rw [e1, e2, e3, e4, e5, e6, e7]
  simp only [fmt_append, fmt_colors]
  generalize t.colors.slots.flatMap _ = x4
  generalize formatScheme = x5
  generalize formatScheme2 = x6
  generalize themeDecl = x7
  simp [fmt, attrParts, Part.render]

/-- A theme. -/
def themeNode (t : Theme) : Node :=
  E c!"a:theme" [(c!"xmlns:a", c!"http://schemas.openxmlformats.org/drawingml/2006/main"), (c!"name", t.name)]
    ([E c!"a:themeElements" []
      ([E c!"a:clrScheme" [(c!"name", t.name)] (t.colors.slots.map fun p => slotNode p.1 p.2),
        E c!"a:fontScheme" [(c!"name", c!"Office")]
          [E c!"a:majorFont" [] ([E c!"a:latin" [(c!"typeface", t.major)] []] ++ constNodes majorScripts),
           E c!"a:minorFont" [] ([E c!"a:latin" [(c!"typeface", t.minor)] []] ++ constNodes minorScripts)]]
        ++ constNodes (formatScheme ++ formatScheme2))]
      ++ constNodes lastElements)

theorem readsNodes_theme {t : Theme} (hc : t.colors.Plain) : ReadsNodes (themeParts t) [themeNode t] := by
  have r1 : ReadsNodes [.lit majorScripts] (constNodes majorScripts) := readsNodes_const (by krfl)
  have r2 : ReadsNodes [.lit minorScripts] (constNodes minorScripts) := readsNodes_const (by krfl)
  have r3 : ReadsNodes [.lit (formatScheme ++ formatScheme2)] (constNodes (formatScheme ++ formatScheme2)) :=
    readsNodes_const (by krfl)
  have r4 : ReadsNodes [.lit lastElements] (constNodes lastElements) := readsNodes_const (by krfl)
  have L : ∀ s : Str, Splits [Part.lit s] [Sym.part (.lit s)] := fun s => Splits.lit (ps := [.lit s]) (by simp [Part.Ok])
  unfold themeParts themeNode
  generalize majorScripts = x1 at r1 ⊢
  generalize minorScripts = x2 at r2 ⊢
  generalize lastElements = x3 at r4 ⊢
  generalize formatScheme ++ formatScheme2 = x4 at r3 ⊢
  generalize constNodes x1 = y1 at r1 ⊢
  generalize constNodes x2 = y2 at r2 ⊢
  generalize constNodes x3 = y3 at r4 ⊢
  generalize constNodes x4 = y4 at r3 ⊢
  exact ((L _).append (.attrs (readsAttrs_name _)) |>.append (L _) |>.append (.attrs (readsAttrs_name _)) |>.append (L _)
    |>.append (.nodes (readsNodes_colors hc)) |>.append (L _) |>.append (.attrs (readsAttrs_typeface _)) |>.append (L _)
    |>.append (.nodes r1) |>.append (L _) |>.append (.attrs (readsAttrs_typeface _)) |>.append (L _) |>.append (.nodes r2)
    |>.append (L _) |>.append (.nodes r3) |>.append (L _) |>.append (.nodes r4) |>.append (L _)).readsNodes (by krfl)

theorem document_theme {t : Theme} (hc : t.colors.Plain) : document (themeText t) = some [themeNode t] := by
  rw [themeText_eq]
  have e : document (themeDecl ++ fmt (themeParts t)) = parse (fmt (themeParts t)) := by krfl
  rw [e, parse_of_nodes (readsNodes_theme hc)]

end PptRs.Themes
