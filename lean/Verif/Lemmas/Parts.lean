import Verif.Model.Parts
import Verif.Lemmas.SlideText

/-!
# The documents written for layouts, masters, notes and document properties
-/

namespace PptRs

open PptRs.Spec

theorem document_decl {ps : List Part} {ks : List Node} (h : ReadsNodes ps ks)
    (hs : ∃ r, fmt ps = '<' :: r) : document (xmlDecl ++ fmt ps) = some ks := by
  obtain ⟨r, hs⟩ := hs
  rw [← parse_of_nodes h, hs]
  krfl

theorem ok_nil : ∀ p ∈ ([] : List Part), p.Ok := by simp

theorem ok_lit {s : Str} {l : List Part} (h : ∀ p ∈ l, p.Ok) : ∀ p ∈ Part.lit s :: l, p.Ok := by
  simp only [List.forall_mem_cons]; exact ⟨trivial, h⟩

theorem ok_esc {s : Str} {l : List Part} (h : ∀ p ∈ l, p.Ok) : ∀ p ∈ Part.esc s :: l, p.Ok := by
  simp only [List.forall_mem_cons]; exact ⟨trivial, h⟩

theorem ok_num {n : Nat} {l : List Part} (h : ∀ p ∈ l, p.Ok) : ∀ p ∈ Part.num n :: l, p.Ok := by
  simp only [List.forall_mem_cons]; exact ⟨plain_dec n, h⟩

theorem ok_raw {s : Str} {l : List Part} (hs : Plain s) (h : ∀ p ∈ l, p.Ok) :
    ∀ p ∈ Part.raw s :: l, p.Ok := by
  simp only [List.forall_mem_cons]; exact ⟨hs, h⟩

/-- Shows that the arguments of a template can be inserted. -/
macro "all_ok" : tactic =>
  `(tactic| repeat (first
    | exact ok_nil | apply ok_lit | apply ok_esc | apply ok_num | apply ok_raw (by assumption)))

/-- The index attribute of a placeholder. -/
def idxAttrs : Option Nat → List (Str × Str)
  | none => []
  | some i => [(c!"idx", dec i)]

theorem readsAttrs_idx (idx : Option Nat) : ReadsAttrs (match idx with
    | none => []
    | some i => t!" idx=\"{.num i}\"") (idxAttrs idx) := by
  cases idx with
  | none => exact readsAttrs_nil
  | some i => exact (Splits.lit (by all_ok)).readsAttrs (fun top st n as => by krfl)

/-- A placeholder. -/
def placeholderNode (id : Nat) (name type : Str) (idx : Option Nat) (x y cx cy : Nat) : Node :=
  E c!"p:sp" [] [E c!"p:nvSpPr" [] [E c!"p:cNvPr" [(c!"id", (dec (id))), (c!"name", name)] [], E
  c!"p:cNvSpPr" [] [E c!"a:spLocks" [(c!"noGrp", c!"1")] []], E c!"p:nvPr" [] [E c!"p:ph"
  ([(c!"type", type)] ++ idxAttrs idx) []]], E c!"p:spPr" [] [E c!"a:xfrm" [] [E c!"a:off" [(c!"x",
  (dec (x))), (c!"y", (dec (y)))] [], E c!"a:ext" [(c!"cx", (dec (cx))), (c!"cy", (dec (cy)))] []],
  E c!"a:prstGeom" [(c!"prst", c!"rect")] [E c!"a:avLst" [] []], E c!"a:noFill" [] []], E
  c!"p:txBody" [] [E c!"a:bodyPr" [] [], E c!"a:lstStyle" [] [], E c!"a:p" [] [E c!"a:endParaRPr"
  [(c!"lang", c!"en-US")] []]]]

theorem readsNodes_placeholder {id : Nat} {name type : Str} {idx : Option Nat} {x y cx cy : Nat}
    (hn : Plain name) (ht : Plain type) :
    ReadsNodes (placeholder id name type idx x y cx cy)
      [placeholderNode id name type idx x y cx cy] :=
  Splits.readsNodes (((Splits.lit (by all_ok)).append
    (.attrs (readsAttrs_idx idx))).append (.lit (by all_ok))) (by krfl)

/-- The footer of the slide master. -/
def masterFooterNode (id : Nat) (footer : Str) : Node :=
  E c!"p:sp" [] [E c!"p:nvSpPr" [] [E c!"p:cNvPr" [(c!"id", (dec (id))), (c!"name",
  c!"Footer Placeholder")] [], E c!"p:cNvSpPr" [] [E c!"a:spLocks" [(c!"noGrp", c!"1")] []], E
  c!"p:nvPr" [] [E c!"p:ph" [(c!"type", c!"ftr"), (c!"sz", c!"quarter")] []]], E c!"p:spPr" [] [E
  c!"a:xfrm" [] [E c!"a:off" [(c!"x", c!"3124200"), (c!"y", c!"6356350")] [], E c!"a:ext" [(c!"cx",
  c!"2895600"), (c!"cy", c!"365125")] []], E c!"a:prstGeom" [(c!"prst", c!"rect")] [E c!"a:avLst"
  [] []], E c!"a:noFill" [] []], E c!"p:txBody" [] [E c!"a:bodyPr" [] [], E c!"a:lstStyle" [] [], E
  c!"a:p" [] [E c!"a:r" [] [E c!"a:rPr" [(c!"lang", c!"en-US"), (c!"sz", c!"1200")] [], E c!"a:t"
  [] ((addText [] footer))]]]]

theorem readsNodes_masterFooter (id : Nat) (footer : Str) :
    ReadsNodes (masterFooter id footer) [masterFooterNode id footer] := by
  unfold masterFooter
  exact Splits.readsNodes (Splits.lit (by all_ok)) (by krfl)

/-- The date of the slide master. -/
def masterDateNode (id : Nat) : Node :=
  E c!"p:sp" [] [E c!"p:nvSpPr" [] [E c!"p:cNvPr" [(c!"id", (dec (id))), (c!"name",
  c!"Date Placeholder")] [], E c!"p:cNvSpPr" [] [E c!"a:spLocks" [(c!"noGrp", c!"1")] []], E
  c!"p:nvPr" [] [E c!"p:ph" [(c!"type", c!"dt"), (c!"sz", c!"half")] []]], E c!"p:spPr" [] [E
  c!"a:xfrm" [] [E c!"a:off" [(c!"x", c!"457200"), (c!"y", c!"6356350")] [], E c!"a:ext" [(c!"cx",
  c!"2133600"), (c!"cy", c!"365125")] []], E c!"a:prstGeom" [(c!"prst", c!"rect")] [E c!"a:avLst"
  [] []], E c!"a:noFill" [] []], E c!"p:txBody" [] [E c!"a:bodyPr" [] [], E c!"a:lstStyle" [] [], E
  c!"a:p" [] [E c!"a:fld" [(c!"id", c!"{B6F15528-F159-4107-2D14-000000000000}"), (c!"type",
  c!"datetimeFigureOut")] [E c!"a:rPr" [(c!"lang", c!"en-US"), (c!"sz", c!"1200")] [], E c!"a:t" []
  [.text c!"6/1/2026"]], E c!"a:endParaRPr" [(c!"lang", c!"en-US"), (c!"sz", c!"1200")] []]]]

theorem readsNodes_masterDate (id : Nat) :
    ReadsNodes (masterDate id) [masterDateNode id] := by
  unfold masterDate
  exact Splits.readsNodes (Splits.lit (by all_ok)) (by krfl)

/-- The slide number of the slide master. -/
def masterNumberNode (id : Nat) : Node :=
  E c!"p:sp" [] [E c!"p:nvSpPr" [] [E c!"p:cNvPr" [(c!"id", (dec (id))), (c!"name",
  c!"Slide Number Placeholder")] [], E c!"p:cNvSpPr" [] [E c!"a:spLocks" [(c!"noGrp", c!"1")] []],
  E c!"p:nvPr" [] [E c!"p:ph" [(c!"type", c!"sldNum"), (c!"sz", c!"quarter")] []]], E c!"p:spPr" []
  [E c!"a:xfrm" [] [E c!"a:off" [(c!"x", c!"8610600"), (c!"y", c!"6356350")] [], E c!"a:ext"
  [(c!"cx", c!"533400"), (c!"cy", c!"365125")] []], E c!"a:prstGeom" [(c!"prst", c!"rect")] [E
  c!"a:avLst" [] []], E c!"a:noFill" [] []], E c!"p:txBody" [] [E c!"a:bodyPr" [] [], E
  c!"a:lstStyle" [] [], E c!"a:p" [] [E c!"a:fld" [(c!"id",
  c!"{B6F15528-F159-4107-2D14-000000000001}"), (c!"type", c!"slidenum")] [E c!"a:rPr" [(c!"lang",
  c!"en-US"), (c!"sz", c!"1200")] [], E c!"a:t" [] [.text c!"‹#›"]], E c!"a:endParaRPr" [(c!"lang",
  c!"en-US"), (c!"sz", c!"1200")] []]]]

theorem readsNodes_masterNumber (id : Nat) :
    ReadsNodes (masterNumber id) [masterNumberNode id] := by
  unfold masterNumber
  exact Splits.readsNodes (Splits.lit (by all_ok)) (by krfl)

/-- The header of the handout master. -/
def handoutHeaderNode (header : Str) : Node :=
  E c!"p:sp" [] [E c!"p:nvSpPr" [] [E c!"p:cNvPr" [(c!"id", c!"2"), (c!"name", c!"Header")] [], E
  c!"p:cNvSpPr" [] [E c!"a:spLocks" [(c!"noGrp", c!"1")] []], E c!"p:nvPr" [] [E c!"p:ph"
  [(c!"type", c!"hdr")] []]], E c!"p:spPr" [] [], E c!"p:txBody" [] [E c!"a:bodyPr" [] [], E
  c!"a:lstStyle" [] [], E c!"a:p" [] [E c!"a:r" [] [E c!"a:t" [] ((addText [] header))]]]]

theorem readsNodes_handoutHeader (header : Str) :
    ReadsNodes (handoutHeader header) [handoutHeaderNode header] := by
  unfold handoutHeader
  exact Splits.readsNodes (Splits.lit (by all_ok)) (by krfl)

/-- The footer of the handout master. -/
def handoutFooterNode (footer : Str) : Node :=
  E c!"p:sp" [] [E c!"p:nvSpPr" [] [E c!"p:cNvPr" [(c!"id", c!"3"), (c!"name", c!"Footer")] [], E
  c!"p:cNvSpPr" [] [E c!"a:spLocks" [(c!"noGrp", c!"1")] []], E c!"p:nvPr" [] [E c!"p:ph"
  [(c!"type", c!"ftr")] []]], E c!"p:spPr" [] [], E c!"p:txBody" [] [E c!"a:bodyPr" [] [], E
  c!"a:lstStyle" [] [], E c!"a:p" [] [E c!"a:r" [] [E c!"a:t" [] ((addText [] footer))]]]]

theorem readsNodes_handoutFooter (footer : Str) :
    ReadsNodes (handoutFooter footer) [handoutFooterNode footer] := by
  unfold handoutFooter
  exact Splits.readsNodes (Splits.lit (by all_ok)) (by krfl)

/-- The date of the handout master. -/
def handoutDateNode  : Node :=
  E c!"p:sp" [] [E c!"p:nvSpPr" [] [E c!"p:cNvPr" [(c!"id", c!"4"), (c!"name", c!"Date")] [], E
  c!"p:cNvSpPr" [] [E c!"a:spLocks" [(c!"noGrp", c!"1")] []], E c!"p:nvPr" [] [E c!"p:ph"
  [(c!"type", c!"dt")] []]], E c!"p:spPr" [] [], E c!"p:txBody" [] [E c!"a:bodyPr" [] [], E
  c!"a:lstStyle" [] [], E c!"a:p" [] [E c!"a:fld" [(c!"id",
  c!"{B6F15528-F159-4107-2D14-000000000000}"), (c!"type", c!"datetimeFigureOut")] [E c!"a:t" []
  []], E c!"a:endParaRPr" [] []]]]

theorem readsNodes_handoutDate  :
    ReadsNodes (handoutDate) [handoutDateNode] := by
  unfold handoutDate
  exact Splits.readsNodes (Splits.lit (by all_ok)) (by krfl)

/-- The slide number of the handout master. -/
def handoutNumberNode  : Node :=
  E c!"p:sp" [] [E c!"p:nvSpPr" [] [E c!"p:cNvPr" [(c!"id", c!"5"), (c!"name", c!"Slide Number")]
  [], E c!"p:cNvSpPr" [] [E c!"a:spLocks" [(c!"noGrp", c!"1")] []], E c!"p:nvPr" [] [E c!"p:ph"
  [(c!"type", c!"sldNum")] []]], E c!"p:spPr" [] [], E c!"p:txBody" [] [E c!"a:bodyPr" [] [], E
  c!"a:lstStyle" [] [], E c!"a:p" [] [E c!"a:fld" [(c!"id",
  c!"{B6F15528-F159-4107-2D14-000000000001}"), (c!"type", c!"slidenum")] [E c!"a:t" [] [.text
  c!"‹#›"]], E c!"a:endParaRPr" [] []]]]

theorem readsNodes_handoutNumber  :
    ReadsNodes (handoutNumber) [handoutNumberNode] := by
  unfold handoutNumber
  exact Splits.readsNodes (Splits.lit (by all_ok)) (by krfl)

/-- The shapes of the slide master. -/
def masterShapes : Option PrintIn → List Node
  | none => []
  | some p =>
    let id1 := 2
    let id2 := if p.header.isSome then id1 + 1 else id1
    let id3 := if p.footer.isSome then id2 + 1 else id2
    let id4 := if p.printDate then id3 + 1 else id3
    (p.header.toList.flatMap fun _ =>
      [placeholderNode id1 c!"Header Placeholder" c!"hdr" none 312420 213360 8519760 365125])
    ++ (p.footer.toList.flatMap fun f => [masterFooterNode id2 f])
    ++ (if p.printDate then [masterDateNode id3] else [])
    ++ (if p.printPageNumbers then [masterNumberNode id4] else [])

theorem readsNodes_masterShapes (p : Option PrintIn) :
    ReadsNodes (slideMasterFooterShapes p) (masterShapes p) := by
  cases p with
  | none => exact readsNodes_nil
  | some p =>
    obtain ⟨hd, ft, pd, pn⟩ := p
    refine ReadsNodes.append (ReadsNodes.append (ReadsNodes.append ?_ ?_) ?_) ?_
    · exact readsNodes_flatMap fun _ _ =>
        readsNodes_placeholder (plain_of (by decide)) (plain_of (by decide))
    · exact readsNodes_flatMap fun f _ => readsNodes_masterFooter _ f
    · cases pd
      · exact readsNodes_nil
      · exact readsNodes_masterDate _
    · cases pn
      · exact readsNodes_nil
      · exact readsNodes_masterNumber _

/-- The shapes of the handout master. -/
def handoutShapes (p : PrintIn) : List Node :=
  (p.header.toList.flatMap fun t => [handoutHeaderNode t])
  ++ (p.footer.toList.flatMap fun t => [handoutFooterNode t])
  ++ (if p.printDate then [handoutDateNode] else [])
  ++ (if p.printPageNumbers then [handoutNumberNode] else [])

theorem readsNodes_handoutShapes (p : PrintIn) :
    ReadsNodes (handoutShapeParts p) (handoutShapes p) := by
  refine ReadsNodes.append (ReadsNodes.append (ReadsNodes.append
    (readsNodes_flatMap fun t _ => readsNodes_handoutHeader t)
    (readsNodes_flatMap fun t _ => readsNodes_handoutFooter t)) ?_) ?_
  · split
    · exact readsNodes_handoutDate
    · exact readsNodes_nil
  · split
    · exact readsNodes_handoutNumber
    · exact readsNodes_nil

/-- A layout. `mid` is what follows the group properties. -/
def layoutDoc (type name : Str) (mid : List Node) : List Node :=
  [E c!"p:sldLayout" [(c!"xmlns:a", c!"http://schemas.openxmlformats.org/drawingml/2006/main"),
  (c!"xmlns:r", c!"http://schemas.openxmlformats.org/officeDocument/2006/relationships"),
  (c!"xmlns:p", c!"http://schemas.openxmlformats.org/presentationml/2006/main"), (c!"type", type),
  (c!"preserve", c!"1")] ([nl, E c!"p:cSld" [(c!"name", name)] ([nl, E c!"p:spTree" [] ([nl, E
  c!"p:nvGrpSpPr" [] [E c!"p:cNvPr" [(c!"id", c!"1"), (c!"name", [])] [], E c!"p:cNvGrpSpPr" [] [],
  E c!"p:nvPr" [] []], nl, E c!"p:grpSpPr" [] [E c!"a:xfrm" [] [E c!"a:off" [(c!"x", c!"0"),
  (c!"y", c!"0")] [], E c!"a:ext" [(c!"cx", c!"0"), (c!"cy", c!"0")] [], E c!"a:chOff" [(c!"x",
  c!"0"), (c!"y", c!"0")] [], E c!"a:chExt" [(c!"cx", c!"0"), (c!"cy", c!"0")] []]]] ++ mid), nl]),
  nl, E c!"p:clrMapOvr" [] [E c!"a:masterClrMapping" [] []], nl, E c!"p:hf" [] [], nl])]

theorem readsNodes_layout {type name : Str} {ps : List Part} {ks : List Node}
    (ht : Plain type) (hn : Plain name) (h : ReadsTagged ps ks) :
    ReadsNodes (layoutShell type name ps) (layoutDoc type name (nl :: ks ++ [nl])) := by
  unfold layoutShell
  exact Splits.readsNodes (((Splits.lit (by all_ok)).append
    (.tagged h)).append
    (.lit (by all_ok))) (by krfl)

theorem readsNodes_layout_empty {type name : Str} (ht : Plain type) (hn : Plain name) :
    ReadsNodes (layoutShell type name []) (layoutDoc type name [.text c!"\n\n"]) := by
  unfold layoutShell
  exact Splits.readsNodes (Splits.lit (by all_ok)) (by krfl)

/-- The layout list of the slide master. -/
def masterIdNodes : List Node :=
  (List.range standardLayoutCount).flatMap fun i =>
    [nl, E c!"p:sldLayoutId" [(c!"id", dec (2147483649 + i)), (c!"r:id", c!"rId" ++ dec (i + 1))] []]

theorem readsNodes_masterIds : ReadsNodes masterLayoutIdParts masterIdNodes :=
  readsNodes_flatMap fun _ _ => (Splits.lit (by all_ok)).readsNodes (by krfl)

/-- The last elements of the slide master. -/
def masterTailDoc (ids styles : List Node) : List Node :=
  [E c!"p:clrMap" [(c!"bg1", c!"lt1"), (c!"tx1", c!"dk1"), (c!"bg2", c!"lt2"), (c!"tx2", c!"dk2"),
  (c!"accent1", c!"accent1"), (c!"accent2", c!"accent2"), (c!"accent3", c!"accent3"), (c!"accent4",
  c!"accent4"), (c!"accent5", c!"accent5"), (c!"accent6", c!"accent6"), (c!"hlink", c!"hlink"),
  (c!"folHlink", c!"folHlink")] [], nl, E c!"p:sldLayoutIdLst" [] (ids ++ [nl]), nl] ++ styles

theorem readsNodes_masterTail {is ps : List Part} {ids styles : List Node}
    (hi : ReadsNodes is ids) (hs : ReadsTagged ps styles) :
    ReadsNodes (masterTail is ps) (masterTailDoc ids styles) := by
  unfold masterTail
  exact Splits.readsNodes ((((Splits.lit (by all_ok)).append
    (.nodes hi)).append
    (.lit (by all_ok))).append
    (.tagged hs)) (by krfl)

/-- The slide master. `mid` is what follows the group properties. -/
def masterDoc (styles : List Node) (mid : List Node) : List Node :=
  [E c!"p:sldMaster" [(c!"xmlns:a", c!"http://schemas.openxmlformats.org/drawingml/2006/main"),
  (c!"xmlns:r", c!"http://schemas.openxmlformats.org/officeDocument/2006/relationships"),
  (c!"xmlns:p", c!"http://schemas.openxmlformats.org/presentationml/2006/main")] ([nl, E c!"p:cSld"
  [] ([nl, E c!"p:bg" [] [nl, E c!"p:bgRef" [(c!"idx", c!"1001")] [nl, E c!"a:schemeClr" [(c!"val",
  c!"bg1")] [], nl], nl], nl, E c!"p:spTree" [] ([nl, E c!"p:nvGrpSpPr" [] [nl, E c!"p:cNvPr"
  [(c!"id", c!"1"), (c!"name", [])] [], nl, E c!"p:cNvGrpSpPr" [] [], nl, E c!"p:nvPr" [] [], nl],
  nl, E c!"p:grpSpPr" [] [nl, E c!"a:xfrm" [] [nl, E c!"a:off" [(c!"x", c!"0"), (c!"y", c!"0")] [],
  nl, E c!"a:ext" [(c!"cx", c!"0"), (c!"cy", c!"0")] [], nl, E c!"a:chOff" [(c!"x", c!"0"), (c!"y",
  c!"0")] [], nl, E c!"a:chExt" [(c!"cx", c!"0"), (c!"cy", c!"0")] [], nl], nl]] ++ mid), nl]), nl]
  ++ masterTailDoc masterIdNodes styles ++ [nl])]

theorem readsNodes_master {ps : List Part} {styles : List Node} {p : Option PrintIn} {ks : List Node}
    (hs : ReadsTagged ps styles) (h : ReadsTagged (slideMasterFooterShapes p) ks) :
    ReadsNodes (masterBody ps p) (masterDoc styles (nl :: ks ++ [nl])) := by
  unfold masterBody
  exact Splits.readsNodes (((((Splits.lit (by all_ok)).append
    (.tagged h)).append
    (.lit (by all_ok))).append
    (.tagged ((readsNodes_masterTail readsNodes_masterIds hs).tagged ⟨_, rfl⟩))).append
    (.lit (by all_ok))) (by krfl)

theorem readsNodes_master_empty {ps : List Part} {styles : List Node} (hs : ReadsTagged ps styles) :
    ReadsNodes (masterBody ps none) (masterDoc styles [.text c!"\n\n"]) := by
  unfold masterBody
  exact Splits.readsNodes (((Splits.lit (by all_ok)).append
    (.tagged ((readsNodes_masterTail readsNodes_masterIds hs).tagged ⟨_, rfl⟩))).append
    (.lit (by all_ok))) (by krfl)

/-- The handout master. -/
def handoutDoc (p : PrintIn) : List Node :=
  [E c!"p:handoutMaster" [(c!"xmlns:a", c!"http://schemas.openxmlformats.org/drawingml/2006/main"),
  (c!"xmlns:r", c!"http://schemas.openxmlformats.org/officeDocument/2006/relationships"),
  (c!"xmlns:p", c!"http://schemas.openxmlformats.org/presentationml/2006/main")] ([E c!"p:cSld" []
  ([E c!"p:bg" [] [E c!"p:bgRef" [(c!"idx", c!"1001")] [E c!"a:schemeClr" [(c!"val", c!"bg1")]
  []]], E c!"p:spTree" [] ([E c!"p:nvGrpSpPr" [] [E c!"p:cNvPr" [(c!"id", c!"1"), (c!"name", [])]
  [], E c!"p:cNvGrpSpPr" [] [], E c!"p:nvPr" [] []], E c!"p:grpSpPr" [] [E c!"a:xfrm" [] [E
  c!"a:off" [(c!"x", c!"0"), (c!"y", c!"0")] [], E c!"a:ext" [(c!"cx", c!"0"), (c!"cy", c!"0")] [],
  E c!"a:chOff" [(c!"x", c!"0"), (c!"y", c!"0")] [], E c!"a:chExt" [(c!"cx", c!"0"), (c!"cy",
  c!"0")] []]]] ++ handoutShapes p)]), E c!"p:clrMap" [(c!"bg1", c!"lt1"), (c!"tx1", c!"dk1"),
  (c!"bg2", c!"lt2"), (c!"tx2", c!"dk2"), (c!"accent1", c!"accent1"), (c!"accent2", c!"accent2"),
  (c!"accent3", c!"accent3"), (c!"accent4", c!"accent4"), (c!"accent5", c!"accent5"), (c!"accent6",
  c!"accent6"), (c!"hlink", c!"hlink"), (c!"folHlink", c!"folHlink")] []])]

theorem readsNodes_handout (p : PrintIn) :
    ReadsNodes (handoutBody p) (handoutDoc p) := by
  unfold handoutBody
  exact Splits.readsNodes (((Splits.lit (by all_ok)).append
    (.nodes (readsNodes_handoutShapes p))).append
    (.lit (by all_ok))) (by krfl)

/-- The notes page. -/
def notesDoc (guid : Str) (slideNum : Nat) (notes : Str) : List Node :=
  [E c!"p:notes" [(c!"xmlns:a", c!"http://schemas.openxmlformats.org/drawingml/2006/main"),
  (c!"xmlns:r", c!"http://schemas.openxmlformats.org/officeDocument/2006/relationships"),
  (c!"xmlns:p", c!"http://schemas.openxmlformats.org/presentationml/2006/main")] [nl, E c!"p:cSld"
  [] [nl, E c!"p:spTree" [] [nl, E c!"p:nvGrpSpPr" [] [nl, E c!"p:cNvPr" [(c!"id", c!"1"),
  (c!"name", [])] [], nl, E c!"p:cNvGrpSpPr" [] [], nl, E c!"p:nvPr" [] [], nl], nl, E
  c!"p:grpSpPr" [] [nl, E c!"a:xfrm" [] [nl, E c!"a:off" [(c!"x", c!"0"), (c!"y", c!"0")] [], nl, E
  c!"a:ext" [(c!"cx", c!"0"), (c!"cy", c!"0")] [], nl, E c!"a:chOff" [(c!"x", c!"0"), (c!"y",
  c!"0")] [], nl, E c!"a:chExt" [(c!"cx", c!"0"), (c!"cy", c!"0")] [], nl], nl], nl, E c!"p:sp" []
  [nl, E c!"p:nvSpPr" [] [nl, E c!"p:cNvPr" [(c!"id", c!"2"), (c!"name",
  c!"Slide Image Placeholder 1")] [], nl, E c!"p:cNvSpPr" [] [nl, E c!"a:spLocks" [(c!"noGrp",
  c!"1"), (c!"noRot", c!"1"), (c!"noChangeAspect", c!"1")] [], nl], nl, E c!"p:nvPr" [] [nl, E
  c!"p:ph" [(c!"type", c!"sldImg")] [], nl], nl], nl, E c!"p:spPr" [] [], nl], nl, E c!"p:sp" []
  [nl, E c!"p:nvSpPr" [] [nl, E c!"p:cNvPr" [(c!"id", c!"3"), (c!"name", c!"Notes Placeholder 2")]
  [], nl, E c!"p:cNvSpPr" [] [nl, E c!"a:spLocks" [(c!"noGrp", c!"1")] [], nl], nl, E c!"p:nvPr" []
  [nl, E c!"p:ph" [(c!"type", c!"body"), (c!"idx", c!"1")] [], nl], nl], nl, E c!"p:spPr" [] [],
  nl, E c!"p:txBody" [] [nl, E c!"a:bodyPr" [] [], nl, E c!"a:lstStyle" [] [], nl, E c!"a:p" []
  [nl, E c!"a:r" [] [nl, E c!"a:rPr" [(c!"lang", c!"en-US"), (c!"dirty", c!"0")] [], nl, E c!"a:t"
  [] ((addText [] notes)), nl], nl], nl], nl], nl, E c!"p:sp" [] [nl, E c!"p:nvSpPr" [] [nl, E
  c!"p:cNvPr" [(c!"id", c!"4"), (c!"name", c!"Slide Number Placeholder 3")] [], nl, E c!"p:cNvSpPr"
  [] [nl, E c!"a:spLocks" [(c!"noGrp", c!"1")] [], nl], nl, E c!"p:nvPr" [] [nl, E c!"p:ph"
  [(c!"type", c!"sldNum"), (c!"sz", c!"quarter"), (c!"idx", c!"10")] [], nl], nl], nl, E c!"p:spPr"
  [] [], nl, E c!"p:txBody" [] [nl, E c!"a:bodyPr" [] [], nl, E c!"a:lstStyle" [] [], nl, E c!"a:p"
  [] [nl, E c!"a:fld" [(c!"id", guid), (c!"type", c!"slidenum")] [nl, E c!"a:rPr" [(c!"lang",
  c!"en-US")] [], nl, E c!"a:t" [] ((addText [] (dec (slideNum)))), nl], nl, E c!"a:endParaRPr"
  [(c!"lang", c!"en-US")] [], nl], nl], nl], nl], nl], nl, E c!"p:clrMapOvr" [] [nl, E
  c!"a:masterClrMapping" [] [], nl], nl]]

theorem readsNodes_notes (guid : Str) (slideNum : Nat) (notes : Str) (hg : Plain guid) :
    ReadsNodes (notesBody guid slideNum notes) (notesDoc guid slideNum notes) := by
  unfold notesBody
  exact Splits.readsNodes (Splits.lit (by all_ok)) (by krfl)

/-- The core properties. -/
def coreDoc (now title : Str) : List Node :=
  [E c!"cp:coreProperties" [(c!"xmlns:cp",
  c!"http://schemas.openxmlformats.org/package/2006/metadata/core-properties"), (c!"xmlns:dc",
  c!"http://purl.org/dc/elements/1.1/"), (c!"xmlns:dcterms", c!"http://purl.org/dc/terms/"),
  (c!"xmlns:dcmitype", c!"http://purl.org/dc/dcmitype/"), (c!"xmlns:xsi",
  c!"http://www.w3.org/2001/XMLSchema-instance")] [nl, E c!"dc:title" [] ((addText [] title)), nl,
  E c!"dc:creator" [] [.text c!"pptx-rs"], nl, E c!"cp:lastModifiedBy" [] [.text c!"pptx-rs"], nl,
  E c!"cp:revision" [] [.text c!"1"], nl, E c!"dcterms:created" [(c!"xsi:type",
  c!"dcterms:W3CDTF")] ((addText [] now)), nl, E c!"dcterms:modified" [(c!"xsi:type",
  c!"dcterms:W3CDTF")] ((addText [] now)), nl]]

theorem readsNodes_core {now title : Str} (ht : Plain title) (hn : Plain now) :
    ReadsNodes (coreBody now title) (coreDoc now title) := by
  unfold coreBody
  exact Splits.readsNodes (Splits.lit (by all_ok)) (by krfl)

/-- The titles in the extended properties. -/
def titleNodes (titles : List Str) : List Node :=
  titles.flatMap fun t => [E c!"vt:lpstr" [] (addText [] t)]

theorem readsNodes_titles (titles : List Str) : ReadsNodes (titlesXml titles) (titleNodes titles) :=
  readsNodes_flatMap fun _ _ => (Splits.lit (by all_ok)).readsNodes (by krfl)

/-- The headings in the extended properties. -/
def headingsDoc (titles : List Str) : List Node :=
  [E c!"HeadingPairs" [] [E c!"vt:vector" [(c!"size", c!"2"), (c!"baseType", c!"variant")] [E
  c!"vt:variant" [] [E c!"vt:lpstr" [] [.text c!"Slide Titles"]], E c!"vt:variant" [] [E c!"vt:i4"
  [] ((addText [] (dec (titles.length))))]]], E c!"TitlesOfParts" [] [E c!"vt:vector" [(c!"size",
  (dec (titles.length))), (c!"baseType", c!"lpstr")] (titleNodes titles)]]

theorem readsNodes_headings (titles : List Str) :
    ReadsNodes (headingPairsAndTitles titles) (headingsDoc titles) := by
  unfold headingPairsAndTitles
  exact Splits.readsNodes (((Splits.lit (by all_ok)).append
    (.nodes (readsNodes_titles titles))).append
    (.lit (by all_ok))) (by krfl)

/-- The extended properties. -/
def appDoc (slides notesCount : Nat) (titles : List Str) : List Node :=
  [E c!"Properties" [(c!"xmlns",
  c!"http://schemas.openxmlformats.org/officeDocument/2006/extended-properties"), (c!"xmlns:vt",
  c!"http://schemas.openxmlformats.org/officeDocument/2006/docPropsVTypes")] ([nl, E c!"TotalTime"
  [] [.text c!"0"], nl, E c!"Words" [] [.text c!"0"], nl, E c!"Application" [] [.text c!"pptx-rs"],
  nl, E c!"PresentationFormat" [] [.text c!"On-screen Show (4:3)"], nl, E c!"Paragraphs" [] [.text
  c!"0"], nl, E c!"Slides" [] ((addText [] (dec (slides)))), nl, E c!"Notes" [] ((addText [] (dec
  (notesCount)))), nl, E c!"HiddenSlides" [] [.text c!"0"], nl, E c!"MMClips" [] [.text c!"0"], nl,
  E c!"ScaleCrop" [] [.text c!"false"], nl] ++ headingsDoc (appTitles slides titles) ++ [nl, E
  c!"LinksUpToDate" [] [.text c!"false"], nl, E c!"SharedDoc" [] [.text c!"false"], nl, E
  c!"HyperlinksChanged" [] [.text c!"false"], nl, E c!"AppVersion" [] [.text c!"1.0000"], nl])]

theorem readsNodes_app (slides notesCount : Nat) (titles : List Str) :
    ReadsNodes (appBody slides notesCount titles) (appDoc slides notesCount titles) := by
  unfold appBody
  exact Splits.readsNodes (((Splits.lit (by all_ok)).append
    (.tagged ((readsNodes_headings _).tagged ⟨_, rfl⟩))).append
    (.lit (by all_ok))) (by krfl)

end PptRs
