import Verif.Model.SlideText
import Verif.Lemmas.Template
import Verif.Spec.SlideText

/-!
# The documents written for slides
-/

namespace PptRs

open PptRs.Spec

theorem textOf_append (a b : List Node) : textOf (a ++ b) = textOf a ++ textOf b := by
  induction a with
  | nil => rfl
  | cons k a ih => cases k <;> simp [textOf, ih]

theorem runsL_append (a b : List Node) : runsL (a ++ b) = runsL a ++ runsL b := by
  induction a with
  | nil => rfl
  | cons k a ih => simp [runsL, ih]

theorem boxNodesL_append (a b : List Node) : boxNodesL (a ++ b) = boxNodesL a ++ boxNodesL b := by
  induction a with
  | nil => rfl
  | cons k a ih => simp [boxNodesL, ih]

theorem elemsL_append (n : Str) (a b : List Node) : elemsL n (a ++ b) = elemsL n a ++ elemsL n b := by
  induction a with
  | nil => rfl
  | cons k a ih => simp [elemsL, ih]

theorem boxes_append (a b : List Node) : boxes (a ++ b) = boxes a ++ boxes b := by
  simp [boxes, boxNodesL_append]

theorem textOf_textNode (t : Str) : textOf (textNode t) = t := by
  unfold textNode
  split <;> simp_all [textOf]

theorem runsL_textNode (t : Str) : runsL (textNode t) = [] := by
  unfold textNode
  split <;> simp [runsL, runs]

theorem boxNodesL_textNode (t : Str) : boxNodesL (textNode t) = [] := by
  unfold textNode
  split <;> simp [boxNodesL, boxNodes]

/-- A line break between elements. -/
def nl : Node := .text c!"\n"

/-- An element. -/
abbrev E (n : Str) (as : List (Str × Str)) (ks : List Node) : Node := .elem n as ks

/-- Elements on separate lines. -/
def lines : List Node → List Node
  | [] => [nl]
  | k :: ks => nl :: k :: lines ks

/-! ### Text properties -/

theorem mem_trimStartChar {c d : Char} {s : Str} (h : d ∈ trimStartChar c s) : d ∈ s := by
  induction s with
  | nil => simp [trimStartChar] at h
  | cons x s ih =>
    unfold trimStartChar at h
    split at h
    · exact List.mem_cons_of_mem _ (ih h)
    · exact h

theorem toUpper_special {c d : Char} (hd : d.toNat < 65) (h : c.toUpper = d) : c = d := by
  unfold Char.toUpper at h
  split at h
  · rename_i hc
    exfalso
    subst h
    obtain ⟨h1, h2⟩ := hc
    have e1 : 97 ≤ c.val.toNat := by simpa [UInt32.le_iff_toNat_le] using h1
    have e2 : c.val.toNat ≤ 122 := by simpa [UInt32.le_iff_toNat_le] using h2
    rw [← Char.toNat_val] at hd
    simp only [UInt32.toNat_add] at hd
    have e3 : (Char.val 'A' - Char.val 'a').toNat = 4294967264 := by decide
    rw [e3] at hd
    omega
  · exact h

theorem plain_cleanColor {c : Str} (h : Plain c) : Plain (cleanColor c) := by
  have key : ∀ d : Char, d.toNat < 65 → d ∈ cleanColor c → d ∈ c := by
    intro d hd hm
    simp only [cleanColor, List.mem_map] at hm
    obtain ⟨x, hx, e⟩ := hm
    exact mem_trimStartChar (toUpper_special hd e ▸ hx)
  exact ⟨fun e => h.1 (key _ (by decide) e), fun e => h.2.1 (key _ (by decide) e),
    fun e => h.2.2 (key _ (by decide) e)⟩

theorem plain_flag (b : Bool) : Plain (flag b) := by
  cases b <;> exact ⟨by decide, by decide, by decide⟩

/-- A colour element. -/
def colorNode (c : Str) : Node := E c!"a:srgbClr" [(c!"val", cleanColor c)] []

/-- The children of text properties. -/
def TextProps.kids (p : TextProps) : List Node :=
  p.color.toList.flatMap (fun c => [E c!"a:solidFill" [] [colorNode c]])
  ++ p.highlight.toList.flatMap (fun c => [E c!"a:highlight" [] [colorNode c]])
  ++ p.fontFamily.toList.flatMap (fun x => [E c!"a:latin" [(c!"typeface", x)] [],
      E c!"a:cs" [(c!"typeface", x)] []])

/-- The element written for text properties. -/
def TextProps.node (p : TextProps) : Node :=
  E c!"a:rPr" ([(c!"lang", c!"en-US"), (c!"sz", dec p.size), (c!"b", flag p.bold),
    (c!"i", flag p.italic), (c!"dirty", c!"0")]
    ++ (if p.underline then [(c!"u", c!"sng")] else [])
    ++ (if p.strikethrough then [(c!"strike", c!"sngStrike")] else [])
    ++ (if p.subscript then [(c!"baseline", c!"-25000")] else [])
    ++ (if !p.subscript && p.superscript then [(c!"baseline", c!"30000")] else [])) p.kids

theorem readsAttrs_whenSet {b : Bool} {ps : List Part} {as : List (Str × Str)}
    (h : ReadsAttrs ps as) : ReadsAttrs (whenSet b ps) (if b then as else []) := by
  cases b
  · exact readsAttrs_nil
  · exact h

theorem readsNodes_whenSome {α : Type} {o : Option α} {f : α → List Part} {g : α → List Node}
    (h : ∀ a ∈ o, ReadsNodes (f a) (g a)) : ReadsNodes (whenSome o f) (o.toList.flatMap g) :=
  readsNodes_flatMap (by simpa using h)

theorem plain_align (a : Str) (h : a = c!"l" ∨ a = c!"ctr") : Plain a := by
  rcases h with rfl | rfl <;> exact ⟨by decide, by decide, by decide⟩

/-- The parts of a template are escaped or stand for themselves. -/
macro "parts_ok" : tactic =>
  `(tactic| (
    simp only [List.forall_mem_cons, List.not_mem_nil, false_implies, implies_true, Part.Ok,
      Part.num, plain_dec, plain_flag, and_true, true_and]
    try trivial))

theorem readsNodes_color {c : Str} (h : Plain c) :
    ReadsNodes t!"<a:solidFill><a:srgbClr val=\"{.raw (cleanColor c)}\"/></a:solidFill>"
      [E c!"a:solidFill" [] [colorNode c]] :=
  (Splits.lit (by parts_ok; exact plain_cleanColor h)).readsNodes (by krfl)

theorem readsNodes_highlight {c : Str} (h : Plain c) :
    ReadsNodes t!"<a:highlight><a:srgbClr val=\"{.raw (cleanColor c)}\"/></a:highlight>"
      [E c!"a:highlight" [] [colorNode c]] :=
  (Splits.lit (by parts_ok; exact plain_cleanColor h)).readsNodes (by krfl)

theorem readsNodes_font {x : Str} (h : Plain x) :
    ReadsNodes t!"<a:latin typeface=\"{.raw x}\"/><a:cs typeface=\"{.raw x}\"/>"
      [E c!"a:latin" [(c!"typeface", x)] [], E c!"a:cs" [(c!"typeface", x)] []] :=
  (Splits.lit (by parts_ok)).readsNodes (by krfl)

theorem readsAttrs_u : ReadsAttrs t!" u=\"sng\"" [(c!"u", c!"sng")] :=
  (Splits.lit (by parts_ok)).readsAttrs (fun top st n as => by krfl)

theorem readsAttrs_strike : ReadsAttrs t!" strike=\"sngStrike\"" [(c!"strike", c!"sngStrike")] :=
  (Splits.lit (by parts_ok)).readsAttrs (fun top st n as => by krfl)

theorem readsAttrs_sub : ReadsAttrs t!" baseline=\"-25000\"" [(c!"baseline", c!"-25000")] :=
  (Splits.lit (by parts_ok)).readsAttrs (fun top st n as => by krfl)

theorem readsAttrs_super : ReadsAttrs t!" baseline=\"30000\"" [(c!"baseline", c!"30000")] :=
  (Splits.lit (by parts_ok)).readsAttrs (fun top st n as => by krfl)

theorem readsTagged_props {p : TextProps} (h : p.Safe) : ReadsTagged p.toXml [p.node] := by
  refine ReadsNodes.tagged ?_ ⟨_, rfl⟩
  refine Splits.readsNodes ((((((((((Splits.lit ?_).append
    (.attrs (readsAttrs_whenSet readsAttrs_u))).append
    (.attrs (readsAttrs_whenSet readsAttrs_strike))).append
    (.attrs (readsAttrs_whenSet readsAttrs_sub))).append
    (.attrs (readsAttrs_whenSet readsAttrs_super))).append (.lit ?_)).append
    (.nodes (readsNodes_whenSome fun c hc => readsNodes_color (h.color c hc)))).append
    (.nodes (readsNodes_whenSome fun c hc => readsNodes_highlight (h.highlight c hc)))).append
    (.nodes (readsNodes_whenSome fun c hc => readsNodes_font (h.font c hc)))).append (.lit ?_))
    (by krfl)
  · parts_ok
  · parts_ok
  · parts_ok

/-! ### Bullets -/

/-- The element written for a bullet style. -/
def BulletStyle.node : BulletStyle → Node
  | .bullet => E c!"a:buChar" [(c!"char", c!"•")] []
  | .number => E c!"a:buAutoNum" [(c!"type", c!"arabicPeriod")] []
  | .letterLower => E c!"a:buAutoNum" [(c!"type", c!"alphaLcPeriod")] []
  | .letterUpper => E c!"a:buAutoNum" [(c!"type", c!"alphaUcPeriod")] []
  | .romanLower => E c!"a:buAutoNum" [(c!"type", c!"romanLcPeriod")] []
  | .romanUpper => E c!"a:buAutoNum" [(c!"type", c!"romanUcPeriod")] []
  | .custom ch => E c!"a:buChar" [(c!"char", [ch])] []
  | .none => E c!"a:buNone" [] []

theorem readsTagged_style {b : BulletStyle} (h : b.Safe) : ReadsTagged b.toXml [b.node] := by
  cases b
  case custom c =>
    exact ((Splits.lit (by simp only [BulletStyle.toXml]; parts_ok; exact h c rfl)).readsNodes (by krfl)).tagged ⟨_, rfl⟩
  all_goals exact ((Splits.lit (by simp only [BulletStyle.toXml]; parts_ok)).readsNodes (by krfl)).tagged ⟨_, rfl⟩

theorem bulletProps_safe {d : TextProps} (hd : d.Safe) {f : Option BulletTextFormat}
    (hf : ∀ x ∈ f, x.Safe) : (bulletProps d f).Safe := by
  cases f with
  | none => exact hd
  | some f =>
    have hf := hf f rfl
    constructor
    · intro c hc
      simp only [bulletProps, Option.map_some, Option.getD_some, mergeProps, Option.mem_def,
        Option.or_eq_some_iff] at hc
      rcases hc with hc | ⟨_, hc⟩
      · exact hf.color c hc
      · exact hd.color c hc
    · exact hf.highlight
    · intro c hc
      simp only [bulletProps, Option.map_some, Option.getD_some, mergeProps, Option.mem_def,
        Option.or_eq_some_iff] at hc
      rcases hc with hc | ⟨_, hc⟩
      · exact hf.font c hc
      · exact hd.font c hc

/-- A text run. -/
def runNode (p : TextProps) (t : Str) : Node :=
  E c!"a:r" [] (lines [p.node, E c!"a:t" [] (addText [] t)])

/-- The paragraph written for a bullet. -/
def paraNode (d : TextProps) (b : BulletPoint) : Node :=
  E c!"a:p" [] (lines [E c!"a:pPr" [(c!"lvl", dec b.level),
      (c!"marL", dec (b.level * 457200 + b.indent)), (c!"indent", c!"-" ++ dec b.indent)]
      (lines [b.style.node]),
    runNode (bulletProps d b.format) b.text])

theorem readsNodes_bullet {d : TextProps} {b : BulletPoint} (hd : d.Safe) (hb : b.Safe) :
    ReadsNodes (bulletParagraph d b) [nl, paraNode d b] :=
  Splits.readsNodes (((((Splits.lit (by parts_ok)).append (.tagged (readsTagged_style hb.style))).append
    (.lit (by parts_ok))).append
    (.tagged (readsTagged_props (bulletProps_safe hd hb.format)))).append (.lit (by parts_ok)))
    (by krfl)

/-! ### Boxes -/

/-- A text box with the given first children of its text body. -/
def boxNode (id name : Str) (x y cx cy : Nat) (bodyAttrs : List (Str × Str)) (paras : List Node) : Node :=
  E c!"p:sp" [] (lines [
    E c!"p:nvSpPr" [] (lines [E c!"p:cNvPr" [(c!"id", id), (c!"name", name)] [],
      E c!"p:cNvSpPr" [(c!"txBox", c!"1")] [], E c!"p:nvPr" [] []]),
    E c!"p:spPr" [] (lines [
      E c!"a:xfrm" [] (lines [E c!"a:off" [(c!"x", dec x), (c!"y", dec y)] [],
        E c!"a:ext" [(c!"cx", dec cx), (c!"cy", dec cy)] []]),
      E c!"a:prstGeom" [(c!"prst", c!"rect")] [E c!"a:avLst" [] []],
      E c!"a:noFill" [] []]),
    E c!"p:txBody" [] ([nl, E c!"a:bodyPr" ([(c!"wrap", c!"square"), (c!"rtlCol", c!"0")] ++ bodyAttrs) [],
      nl, E c!"a:lstStyle" [] []] ++ paras ++ [nl])])

/-- The title box. -/
def titleNode (title : Str) (p : TextProps) (x y cx cy : Nat) (align : Str) : Node :=
  boxNode c!"2" c!"Title" x y cx cy [(c!"anchor", c!"ctr")]
    [nl, E c!"a:p" [] (lines [E c!"a:pPr" [(c!"algn", align)] [], runNode p title])]

theorem readsTagged_title {title : Str} {p : TextProps} {x y cx cy : Nat} {align : Str}
    (hp : p.Safe) (ha : Plain align) :
    ReadsTagged (titleShape title p.toXml x y cx cy align) [titleNode title p x y cx cy align] :=
  (Splits.readsNodes (((Splits.lit (by parts_ok)).append (.tagged (readsTagged_props hp))).append
    (.lit (by parts_ok))) (by krfl)).tagged ⟨_, rfl⟩

theorem readsNodes_box {id : Nat} {name : Str} {x y cx cy : Nat} {ps : List Part} {ks : List Node}
    (hn : Plain name) (h : ReadsNodes ps ks) :
    ReadsNodes (contentBox id name x y cx cy ps) [nl, boxNode (dec id) name x y cx cy [] ks] :=
  Splits.readsNodes (((Splits.lit (by parts_ok)).append (.nodes h)).append (.lit (by parts_ok)))
    (by krfl)

/-! ### Tables -/

/-- The merge attributes of a cell. -/
def CellIn.mergeNodeAttrs (c : CellIn) : List (Str × Str) :=
  if c.hMerge then [(c!"hMerge", c!"1")]
  else if c.vMerge then [(c!"vMerge", c!"1")]
  else (if decide (c.gridSpan.getD 1 > 1) then [(c!"gridSpan", dec (c.gridSpan.getD 1))] else [])
    ++ (if decide (c.rowSpan.getD 1 > 1) then [(c!"rowSpan", dec (c.rowSpan.getD 1))] else [])

theorem readsAttrs_merge (c : CellIn) : ReadsAttrs (mergeAttrs c) c.mergeNodeAttrs := by
  unfold mergeAttrs CellIn.mergeNodeAttrs
  split
  · exact (Splits.lit (by parts_ok)).readsAttrs (fun top st n as => by krfl)
  · split
    · exact (Splits.lit (by parts_ok)).readsAttrs (fun top st n as => by krfl)
    · refine (readsAttrs_whenSet ?_).append (readsAttrs_whenSet ?_)
      · exact (Splits.lit (by parts_ok)).readsAttrs (fun top st n as => by krfl)
      · exact (Splits.lit (by parts_ok)).readsAttrs (fun top st n as => by krfl)

/-- The run attributes of a cell. -/
def CellIn.formatNodeAttrs (c : CellIn) : List (Str × Str) :=
  (if c.bold then [(c!"b", c!"1")] else [])
  ++ (if c.italic then [(c!"i", c!"1")] else [])
  ++ (if c.underline then [(c!"u", c!"sng")] else [])
  ++ c.fontSize.toList.flatMap (fun s => [(c!"sz", dec (s * 100))])

theorem readsAttrs_flatMap {α : Type} {f : α → List Part} {g : α → List (Str × Str)} {l : List α}
    (h : ∀ a ∈ l, ReadsAttrs (f a) (g a)) : ReadsAttrs (l.flatMap f) (l.flatMap g) := by
  induction l with
  | nil => exact readsAttrs_nil
  | cons a l ih =>
    rw [List.flatMap_cons, List.flatMap_cons]
    exact (h a (by simp)).append (ih fun b hb => h b (by simp [hb]))

theorem readsAttrs_format (c : CellIn) : ReadsAttrs (cellFormatAttrs c) c.formatNodeAttrs := by
  refine (((readsAttrs_whenSet ?_).append (readsAttrs_whenSet ?_)).append
    (readsAttrs_whenSet readsAttrs_u)).append (readsAttrs_flatMap fun s _ => ?_)
  · exact (Splits.lit (by parts_ok)).readsAttrs (fun top st n as => by krfl)
  · exact (Splits.lit (by parts_ok)).readsAttrs (fun top st n as => by krfl)
  · exact (Splits.lit (by parts_ok)).readsAttrs (fun top st n as => by krfl)

/-- The children of a cell's run properties. -/
def CellIn.runKids (c : CellIn) : List Node :=
  c.textColor.toList.flatMap (fun c => [E c!"a:solidFill" [] [colorNode c]])
  ++ c.fontFamily.toList.flatMap (fun x => [E c!"a:latin" [(c!"typeface", x)] []])

/-- The run properties of a cell. -/
def CellIn.runProps (c : CellIn) : Node :=
  E c!"a:rPr" ([(c!"lang", c!"en-US"), (c!"dirty", c!"0")] ++ c.formatNodeAttrs) c.runKids

theorem readsNodes_runProps {c : CellIn} (h : c.Safe) : ReadsNodes (cellRunProps c) [c.runProps] := by
  have hk : ReadsNodes (cellRunKids c) c.runKids := by
    refine (readsNodes_whenSome fun x hx => readsNodes_color (h.color x hx)).append
      (readsNodes_whenSome fun x hx => ?_)
    exact (Splits.lit (by parts_ok)).readsNodes (by krfl)
  unfold cellRunProps
  split
  · rename_i hn
    have e : c.runKids = [] := by
      simp only [Bool.and_eq_true, Option.isNone_iff_eq_none] at hn
      simp [CellIn.runKids, hn.1, hn.2]
    unfold CellIn.runProps
    rw [e]
    exact Splits.readsNodes (((Splits.lit (by parts_ok)).append (.attrs (readsAttrs_format c))).append
      (.lit (by parts_ok))) (by krfl)
  · exact Splits.readsNodes (((Splits.lit (by parts_ok)).append (.attrs (readsAttrs_format c))).append
      (((Splits.lit (by parts_ok)).append (.nodes hk)).append (.lit (by parts_ok)))) (by krfl)

/-- The paragraph properties of a cell. -/
def CellIn.paraProps (c : CellIn) : List Node :=
  if c.align = .center then [] else [E c!"a:pPr" [(c!"algn", c.align.asStr)] []]

theorem readsNodes_paraProps (c : CellIn) : ReadsNodes (cellParagraphProps c) c.paraProps := by
  unfold cellParagraphProps CellIn.paraProps
  split
  · exact readsNodes_nil
  · have : Plain c.align.asStr := by
      cases c.align <;> exact ⟨by decide, by decide, by decide⟩
    exact (Splits.lit (by parts_ok)).readsNodes (by krfl)

/-- The anchor of a cell. -/
def CellIn.anchorAttrs (c : CellIn) : List (Str × Str) :=
  if c.valign = .middle then [] else [(c!"anchor", c.valign.asStr)]

theorem readsAttrs_anchor (c : CellIn) : ReadsAttrs (cellAnchor c) c.anchorAttrs := by
  unfold cellAnchor CellIn.anchorAttrs
  split
  · exact readsAttrs_nil
  · have : Plain c.valign.asStr := by
      cases c.valign <;> exact ⟨by decide, by decide, by decide⟩
    exact (Splits.lit (by parts_ok)).readsAttrs (fun top st n as => by krfl)

/-- The properties of a cell. -/
def CellIn.propsNode (c : CellIn) : Node :=
  E c!"a:tcPr" c.anchorAttrs
    (c.backgroundColor.toList.flatMap (fun c => [E c!"a:solidFill" [] [colorNode c]]))

theorem readsNodes_cellProps {c : CellIn} (h : c.Safe) : ReadsNodes (cellProps c) [c.propsNode] := by
  unfold cellProps
  split
  · exact Splits.readsNodes (((((Splits.lit (by parts_ok)).append
      (.attrs (readsAttrs_anchor c))).append (.lit (by parts_ok))).append
      (.nodes (readsNodes_whenSome fun x hx => readsNodes_color (h.background x hx)))).append
      (.lit (by parts_ok))) (by krfl)
  · rename_i hn
    have e : c.backgroundColor = none := by simpa using hn
    unfold CellIn.propsNode
    rw [e]
    exact Splits.readsNodes (((Splits.lit (by parts_ok)).append
      (.attrs (readsAttrs_anchor c))).append (.lit (by parts_ok))) (by krfl)

/-- The paragraph of a cell. -/
def CellIn.paraNode (c : CellIn) : Node :=
  if c.text = [] then E c!"a:p" [] [E c!"a:endParaRPr" [(c!"lang", c!"en-US")] []]
  else E c!"a:p" [] (c.paraProps ++ [E c!"a:r" [] [c.runProps, E c!"a:t" [] (addText [] c.text)]])

theorem readsNodes_cellPara {c : CellIn} (h : c.Safe) : ReadsNodes (cellParagraph c) [c.paraNode] := by
  unfold cellParagraph CellIn.paraNode
  split
  · exact (Splits.lit (by parts_ok)).readsNodes (by krfl)
  · exact Splits.readsNodes (((((Splits.lit (by parts_ok)).append
      (.nodes (readsNodes_paraProps c))).append (.lit (by parts_ok))).append
      (.nodes (readsNodes_runProps h))).append (.lit (by parts_ok))) (by krfl)

/-- The body of a cell that is merged into another. -/
def mergedCellKids : List Node :=
  [E c!"a:txBody" [] [E c!"a:bodyPr" [] [], E c!"a:lstStyle" [] [],
    E c!"a:p" [] [E c!"a:endParaRPr" [] []]], E c!"a:tcPr" [] []]

/-- The element of a cell. -/
def CellIn.node (c : CellIn) : Node :=
  E c!"a:tc" c.mergeNodeAttrs
    (if c.hMerge || c.vMerge then mergedCellKids
     else [E c!"a:txBody" [] [E c!"a:bodyPr" [] [], E c!"a:lstStyle" [] [], c.paraNode], c.propsNode])

theorem readsNodes_cell {c : CellIn} (h : c.Safe) : ReadsNodes (cellXml c) [c.node] := by
  unfold cellXml CellIn.node
  split
  · exact Splits.readsNodes (((Splits.lit (by parts_ok)).append (.attrs (readsAttrs_merge c))).append
      (.lit (by parts_ok))) (by krfl)
  · exact Splits.readsNodes (((((((Splits.lit (by parts_ok)).append
      (.attrs (readsAttrs_merge c))).append (.lit (by parts_ok))).append
      (.nodes (readsNodes_cellPara h))).append (.lit (by parts_ok))).append
      (.nodes (readsNodes_cellProps h))).append (.lit (by parts_ok))) (by krfl)

/-- An extension element with an id. -/
def extNode (uri name : Str) (id : Nat) : Node :=
  E c!"a:extLst" [] [E c!"a:ext" [(c!"uri", uri)] [E name
    [(c!"xmlns:a16", c!"http://schemas.microsoft.com/office/drawing/2014/main"), (c!"val", dec id)] []]]

/-- The element of a row. -/
def rowNode (r : RowIn) (idx : Nat) : Node :=
  E c!"a:tr" [(c!"h", dec (r.height.getD 400000))] (r.cells.flatMap (fun c => [c.node]) ++
    [extNode c!"{0D108BD9-81ED-4DB2-BD59-A6C34878D82A}" c!"a16:rowId" (10000 + idx)])

theorem readsNodes_row {r : RowIn} (idx : Nat) (h : ∀ c ∈ r.cells, c.Safe) :
    ReadsNodes (rowXml r idx) [rowNode r idx] :=
  Splits.readsNodes (((Splits.lit (by parts_ok)).append
    (.nodes (readsNodes_flatMap fun c hc => readsNodes_cell (h c hc)))).append (.lit (by parts_ok)))
    (by krfl)

/-- The element of a column. -/
def columnNode (w idx : Nat) : Node :=
  E c!"a:gridCol" [(c!"w", dec w)]
    [extNode c!"{9D8B030D-6E8A-4147-A177-3AD203B41FA5}" c!"a16:colId" (20000 + idx)]

theorem readsNodes_column (w idx : Nat) : ReadsNodes (columnXml w idx) [columnNode w idx] :=
  Splits.readsNodes (Splits.lit (by unfold columnXml; parts_ok)) (by krfl)

/-- The element of a table. -/
def tableNode (t : TableIn) : Node :=
  E c!"p:graphicFrame" [] [
    E c!"p:nvGraphicFramePr" [] [E c!"p:cNvPr" [(c!"id", c!"3"), (c!"name", c!"Table 3")] [],
      E c!"p:cNvGraphicFramePr" [] [], E c!"p:nvPr" [] []],
    E c!"p:xfrm" [] [E c!"a:off" [(c!"x", dec t.x), (c!"y", dec t.y)] [],
      E c!"a:ext" [(c!"cx", dec t.columnWidths.sum),
        (c!"cy", dec (t.rows.map fun r => r.height.getD 400000).sum)] []],
    E c!"a:graphic" [] [E c!"a:graphicData"
      [(c!"uri", c!"http://schemas.openxmlformats.org/drawingml/2006/table")]
      [E c!"a:tbl" [] ([E c!"a:tblPr" [(c!"firstRow", c!"1"), (c!"bandRow", c!"1")] [],
        E c!"a:tblGrid" [] (t.columnWidths.zipIdx.flatMap fun w => [columnNode w.1 w.2])]
        ++ t.rows.zipIdx.flatMap fun r => [rowNode r.1 r.2])]]]

theorem readsTagged_table {t : TableIn} (h : t.Safe) : ReadsTagged (tableXml t) [tableNode t] :=
  (Splits.readsNodes (((((Splits.lit (by parts_ok)).append
    (.nodes (readsNodes_flatMap fun w _ => readsNodes_column w.1 w.2))).append
    (.lit (by parts_ok))).append
    (.nodes (readsNodes_flatMap fun r hr => readsNodes_row r.2
      (h r.1 (List.fst_mem_of_mem_zipIdx hr))))).append (.lit (by parts_ok))) (by krfl)).tagged ⟨_, rfl⟩

/-! ### Slides -/

theorem withBasic_safe {size : Nat} {b i u : Bool} {c : Option Str} (h : ∀ x ∈ c, Plain x) :
    (TextProps.withBasic size b i u c).Safe := by
  constructor
  · intro x hx
    simp only [TextProps.withBasic, Option.mem_def, Option.map_eq_some_iff] at hx
    obtain ⟨y, hy, rfl⟩ := hx
    exact plain_cleanColor (h y hy)
  · intro x hx; simp [TextProps.withBasic] at hx
  · intro x hx; simp [TextProps.withBasic] at hx

theorem effective_safe {s : SlideText} (h : s.Safe) : ∀ b ∈ s.effective, b.Safe := by
  intro b hb
  unfold SlideText.effective at hb
  split at hb
  · exact h.bullets b hb
  · obtain ⟨t, _, rfl⟩ := List.mem_map.mp hb
    exact ⟨h.bulletStyle, by simp⟩

/-- The paragraphs of some bullets. -/
def paraNodes (d : TextProps) (l : List BulletPoint) : List Node := l.flatMap fun b => [nl, paraNode d b]

theorem readsNodes_paragraphs {d : TextProps} {l : List BulletPoint} (hd : d.Safe)
    (hl : ∀ b ∈ l, b.Safe) : ReadsNodes (paragraphs d l) (paraNodes d l) :=
  readsNodes_flatMap fun b hb => readsNodes_bullet hd (hl b hb)

/-- The two columns. -/
def twoColumnNodes (d : TextProps) (l : List BulletPoint) : List Node :=
  if 0 < l.length then
    [nl, boxNode (dec 3) c!"Left Content" 457200 1189200 4115100 5668800 []
      (paraNodes d (l.take ((l.length + 1) / 2)))]
    ++ (if (l.length + 1) / 2 < l.length then
          [nl, boxNode (dec 4) c!"Right Content" 4572300 1189200 4115100 5668800 []
            (paraNodes d (l.drop ((l.length + 1) / 2)))]
        else [])
  else []

theorem plain_of {s : Str} (h : (s.all fun c => !(c == '&' || c == '<' || c == '"')) = true) :
    Plain s := by
  simp only [List.all_eq_true] at h
  exact ⟨fun m => absurd (h _ m) (by decide), fun m => absurd (h _ m) (by decide),
    fun m => absurd (h _ m) (by decide)⟩

theorem readsNodes_twoColumns {d : TextProps} {l : List BulletPoint} (hd : d.Safe)
    (hl : ∀ b ∈ l, b.Safe) : ReadsNodes (twoColumns d l) (twoColumnNodes d l) := by
  unfold twoColumns twoColumnNodes
  simp only
  split
  · refine (readsNodes_box (plain_of (by decide)) (readsNodes_paragraphs hd
      fun b hb => hl b (List.mem_of_mem_take hb))).append ?_
    split
    · exact readsNodes_box (plain_of (by decide)) (readsNodes_paragraphs hd
        fun b hb => hl b (List.mem_of_mem_drop hb))
    · exact readsNodes_nil
  · exact readsNodes_nil

/-- The single text box. -/
def oneColumnNodes (y cy : Nat) (d : TextProps) (l : List BulletPoint) : List Node :=
  if l ≠ [] then [nl, boxNode (dec 3) c!"Content" 457200 y 8230200 cy [] (paraNodes d l)] else []

theorem readsNodes_oneColumn {y cy : Nat} {d : TextProps} {l : List BulletPoint} (hd : d.Safe)
    (hl : ∀ b ∈ l, b.Safe) : ReadsNodes (oneColumn y cy d l) (oneColumnNodes y cy d l) := by
  unfold oneColumn oneColumnNodes
  split
  · exact readsNodes_box (plain_of (by decide)) (readsNodes_paragraphs hd hl)
  · exact readsNodes_nil

/-- The shapes of a slide. -/
def SlideText.shapeNodes (s : SlideText) : List Node :=
  match s.layout with
  | .blank => []
  | .titleOnly => [nl, titleNode s.title (s.titleProps 44 s.titleBold) 457200 274638 8230200 1143000 c!"l"]
  | .sectionHeader => [nl, titleNode s.title (s.titleProps 48 true) 457200 1600200 8229600 1828800 c!"ctr"]
  | .centeredTitle =>
    [nl, titleNode s.title (s.titleProps 54 s.titleBold) 457200 2743200 8230200 1371600 c!"ctr"]
  | .titleAndBigContent =>
    [nl, titleNode s.title (s.titleProps 44 s.titleBold) 457200 274638 8230200 914400 c!"l"]
      ++ oneColumnNodes 1189200 5668800 (s.contentProps 28) s.effective
  | .twoColumn =>
    [nl, titleNode s.title (s.titleProps 44 s.titleBold) 457200 274638 8230200 914400 c!"l"]
      ++ twoColumnNodes (s.contentProps 24) s.effective
  | .titleAndContent =>
    [nl, titleNode s.title (s.titleProps 44 s.titleBold) 457200 274638 8230200 1143000 c!"l"]
      ++ (if s.table.isSome then s.table.toList.flatMap fun t => [nl, tableNode t]
          else oneColumnNodes 1600200 4572000 (s.contentProps 28) s.effective)

theorem readsNodes_lineTitle {title : Str} {p : TextProps} {x y cx cy : Nat} {align : Str}
    (hp : p.Safe) (ha : Plain align) :
    ReadsNodes (t!"\n" ++ titleShape title p.toXml x y cx cy align)
      [nl, titleNode title p x y cx cy align] :=
  Splits.readsNodes ((Splits.lit (by parts_ok)).append (.tagged (readsTagged_title hp ha))) (by krfl)

theorem readsNodes_lineTable {t : TableIn} (h : t.Safe) :
    ReadsNodes (t!"\n" ++ tableXml t) [nl, tableNode t] :=
  Splits.readsNodes ((Splits.lit (by parts_ok)).append (.tagged (readsTagged_table h))) (by krfl)

theorem readsNodes_shapes {s : SlideText} (h : s.Safe) : ReadsNodes s.shapes s.shapeNodes := by
  have ht : ∀ n b, (s.titleProps n b).Safe := fun n b => withBasic_safe h.titleColor
  have hc : ∀ n, (s.contentProps n).Safe := fun n => withBasic_safe h.contentColor
  have he := effective_safe h
  unfold SlideText.shapes SlideText.shapeNodes
  cases s.layout <;> simp only
  case blank => exact readsNodes_nil
  case titleOnly => exact readsNodes_lineTitle (ht _ _) (plain_of (by decide))
  case sectionHeader => exact readsNodes_lineTitle (ht _ _) (plain_of (by decide))
  case centeredTitle => exact readsNodes_lineTitle (ht _ _) (plain_of (by decide))
  case titleAndBigContent =>
    exact (readsNodes_lineTitle (ht _ _) (plain_of (by decide))).append
      (readsNodes_oneColumn (hc _) he)
  case twoColumn =>
    exact (readsNodes_lineTitle (ht _ _) (plain_of (by decide))).append
      (readsNodes_twoColumns (hc _) he)
  case titleAndContent =>
    refine (readsNodes_lineTitle (ht _ _) (plain_of (by decide))).append ?_
    split
    · rename_i hs
      obtain ⟨t, e⟩ := Option.isSome_iff_exists.mp hs
      rw [e]
      simpa [whenSome] using readsNodes_lineTable (h.table t e)
    · exact readsNodes_oneColumn (hc _) he

/-- The element of a transition. -/
def Transition.nodes : Transition → List Node
  | .none => []
  | .cut => []
  | .fade => [E c!"p:transition" [] [E c!"p:fade" [] []]]
  | .push => [E c!"p:transition" [] [E c!"p:push" [(c!"dir", c!"r")] []]]
  | .wipe => [E c!"p:transition" [] [E c!"p:wipe" [(c!"dir", c!"r")] []]]
  | .split => [E c!"p:transition" [] [E c!"p:split" [(c!"dir", c!"out"), (c!"orient", c!"horz")] []]]
  | .reveal => [E c!"p:transition" [] [E c!"p:reveal" [(c!"dir", c!"r")] []]]
  | .cover => [E c!"p:transition" [] [E c!"p:cover" [(c!"dir", c!"r")] []]]
  | .zoom => [E c!"p:transition" [] [E c!"p:zoom" [(c!"dir", c!"in")] []]]

/-- The attributes of the slide element. -/
def slideNs : List (Str × Str) :=
  [(c!"xmlns:a", c!"http://schemas.openxmlformats.org/drawingml/2006/main"),
   (c!"xmlns:r", c!"http://schemas.openxmlformats.org/officeDocument/2006/relationships"),
   (c!"xmlns:p", c!"http://schemas.openxmlformats.org/presentationml/2006/main")]

/-- The group properties at the start of the shape tree. -/
def groupNodes : List Node :=
  [nl, E c!"p:nvGrpSpPr" [] (lines [E c!"p:cNvPr" [(c!"id", c!"1"), (c!"name", c!"")] [],
      E c!"p:cNvGrpSpPr" [] [], E c!"p:nvPr" [] []]),
   nl, E c!"p:grpSpPr" [] (lines [E c!"a:xfrm" [] (lines [
      E c!"a:off" [(c!"x", c!"0"), (c!"y", c!"0")] [],
      E c!"a:ext" [(c!"cx", c!"9144000"), (c!"cy", c!"6858000")] [],
      E c!"a:chOff" [(c!"x", c!"0"), (c!"y", c!"0")] [],
      E c!"a:chExt" [(c!"cx", c!"9144000"), (c!"cy", c!"6858000")] []])])]

/-- The document of a slide. -/
def slideNode (shapes extra : List Node) (tr : List Node) : Node :=
  E c!"p:sld" slideNs ([nl, E c!"p:cSld" [] (lines [
      E c!"p:bg" [] (lines [E c!"p:bgRef" [(c!"idx", c!"1001")]
        (lines [E c!"a:schemeClr" [(c!"val", c!"bg1")] []])]),
      E c!"p:spTree" [] (groupNodes ++ shapes ++ extra ++ [nl])]),
    nl, E c!"p:clrMapOvr" [] (lines [E c!"a:masterClrMapping" [] []]), nl] ++ tr)

theorem readsTagged_transition (t : Transition) :
    (t.toXml = [] ∧ t.nodes = []) ∨ ReadsTagged t.toXml t.nodes := by
  cases t
  case none => exact .inl ⟨rfl, rfl⟩
  case cut => exact .inl ⟨rfl, rfl⟩
  all_goals
    exact .inr (((Splits.lit (by simp only [Transition.toXml]; parts_ok)).readsNodes
      (by krfl)).tagged ⟨_, rfl⟩)

set_option maxRecDepth 8000 in
theorem readsNodes_slide {s : SlideText} {x : List Node} (h : s.Safe) (hx : ReadsNodes s.extra x) :
    ReadsNodes s.body [slideNode s.shapeNodes x s.transition.nodes] := by
  rcases readsTagged_transition s.transition with ⟨e1, e2⟩ | ht
  · have : s.body = slideHeader ++ s.shapes ++ s.extra ++ slideFooter ++ t!"</p:sld>" := by
      simp [SlideText.body, e1]
    rw [this, e2]
    exact Splits.readsNodes (((((Splits.lit (by unfold slideHeader; parts_ok)).append
      (.nodes (readsNodes_shapes h))).append (.nodes hx)).append
      (.lit (by unfold slideFooter; parts_ok))).append (.lit (by parts_ok))) (by krfl)
  · exact Splits.readsNodes ((((((Splits.lit (by unfold slideHeader; parts_ok)).append
      (.nodes (readsNodes_shapes h))).append (.nodes hx)).append
      (.lit (by unfold slideFooter; parts_ok))).append (.tagged ht)).append (.lit (by parts_ok)))
      (by krfl)

/-! ### What the documents contain -/

theorem boxes_nl (l : List Node) : boxes (nl :: l) = boxes l := rfl

theorem textOf_addText (t : Str) : textOf (addText [] t) = t := by
  rw [addText_eq, List.nil_append, textOf_textNode]

theorem runs_props (q : TextProps) : runs q.node = [] := by
  have : runs q.node = runsL q.kids := by krfl
  rw [this]
  unfold TextProps.kids
  cases q.color <;> cases q.highlight <;> cases q.fontFamily <;> rfl

theorem boxes_title (l : List Node) (t : Str) (p : TextProps) (x y cx cy : Nat) (al : Str) :
    boxes (titleNode t p x y cx cy al :: l) = (some c!"Title", [t]) :: boxes l := by
  have h : runs (titleNode t p x y cx cy al)
      = (((runs p.node ++ [textOf (addText [] t)]) ++ []) ++ []) ++ [] := by krfl
  have : boxes (titleNode t p x y cx cy al :: l)
      = (some c!"Title", runs (titleNode t p x y cx cy al)) :: boxes l := by krfl
  rw [this, h, textOf_addText, runs_props]
  rfl

theorem runs_para (d : TextProps) (b : BulletPoint) : runs (paraNode d b) = [b.text] := by
  have h2 : runs b.style.node = [] := by cases b.style <;> rfl
  have : runs (paraNode d b) = (runs b.style.node ++ []) ++
      ((runs (bulletProps d b.format).node ++ [textOf (addText [] b.text)]) ++ []) := by krfl
  rw [this, runs_props, h2, textOf_addText]
  rfl

theorem runsL_paras (d : TextProps) (l : List BulletPoint) :
    runsL (paraNodes d l) = l.map (·.text) := by
  induction l with
  | nil => rfl
  | cons b l ih =>
    have : runsL (paraNodes d (b :: l)) = runs (paraNode d b) ++ runsL (paraNodes d l) := by
      simp [paraNodes, runsL, nl, runs]
    rw [this, ih, runs_para]
    rfl

theorem boxes_box (l : List Node) (id name : Str) (x y cx cy : Nat) (as : List (Str × Str))
    (ks : List Node) :
    boxes (boxNode id name x y cx cy as ks :: l) = (some name, runsL ks) :: boxes l := by
  have : boxes (boxNode id name x y cx cy as ks :: l)
      = (some name, runsL (ks ++ [nl]) ++ []) :: boxes l := by krfl
  rw [this, runsL_append]
  simp [runsL, runs, nl]

theorem effective_texts (s : SlideText) : s.effective.map (·.text) = s.texts := by
  unfold SlideText.effective SlideText.texts
  by_cases h : s.bullets = [] <;> simp [h, Function.comp_def]

theorem effective_length (s : SlideText) : s.effective.length = s.texts.length := by
  rw [← effective_texts, List.length_map]

theorem runs_cellRunProps (c : CellIn) : runs c.runProps = [] := by
  have : runs c.runProps = runsL c.runKids := by krfl
  rw [this]
  unfold CellIn.runKids
  cases c.textColor <;> cases c.fontFamily <;> rfl

theorem runs_cellProps (c : CellIn) : runs c.propsNode = [] := by
  unfold CellIn.propsNode
  cases c.backgroundColor <;> rfl

theorem runs_cellPara (c : CellIn) : runs c.paraNode = if c.text = [] then [] else [c.text] := by
  unfold CellIn.paraNode
  split
  · rfl
  · have h : runsL c.paraProps = [] := by
      unfold CellIn.paraProps
      split <;> rfl
    have : ∀ ks, runs (E c!"a:p" [] ks) = runsL ks := fun ks => by krfl
    rw [this, runsL_append, h]
    have : runsL [E c!"a:r" [] [c.runProps, E c!"a:t" [] (addText [] c.text)]]
        = (runs c.runProps ++ [textOf (addText [] c.text)]) ++ [] := by krfl
    rw [this, runs_cellRunProps, textOf_addText]
    rfl

theorem runs_cell (c : CellIn) : runs c.node = c.shown := by
  unfold CellIn.node CellIn.shown
  split
  · rename_i h
    have : ∀ a, runs (E c!"a:tc" a mergedCellKids) = [] := fun a => by krfl
    simp [this, h]
  · rename_i h
    have : ∀ a, runs (E c!"a:tc" a [E c!"a:txBody" [] [E c!"a:bodyPr" [] [], E c!"a:lstStyle" [] [],
        c.paraNode], c.propsNode]) = (runs c.paraNode ++ []) ++ (runs c.propsNode ++ []) :=
      fun a => by krfl
    rw [this, runs_cellPara, runs_cellProps]
    by_cases e : c.text = [] <;> simp_all

theorem runsL_flatMap {α : Type} (f : α → Node) (l : List α) :
    runsL (l.flatMap fun a => [f a]) = l.flatMap fun a => runs (f a) := by
  induction l with
  | nil => rfl
  | cons a l ih => simp [runsL, ih]

theorem runs_row (r : RowIn) (i : Nat) : runs (rowNode r i) = r.cells.flatMap CellIn.shown := by
  have : runs (rowNode r i) = runsL (r.cells.flatMap (fun c => [c.node]) ++
    [extNode c!"{0D108BD9-81ED-4DB2-BD59-A6C34878D82A}" c!"a16:rowId" (10000 + i)]) := by krfl
  rw [this, runsL_append, runsL_flatMap]
  simp only [runs_cell]
  have : runsL [extNode c!"{0D108BD9-81ED-4DB2-BD59-A6C34878D82A}" c!"a16:rowId" (10000 + i)] = [] := by
    krfl
  rw [this, List.append_nil]

theorem flatMap_zipIdx {α β : Type} (f : α → List β) (l : List α) (k : Nat) :
    ((l.zipIdx k).flatMap fun p => f p.1) = l.flatMap f := by
  induction l generalizing k with
  | nil => rfl
  | cons a l ih => simp [List.zipIdx_cons, ih]

theorem boxes_table (l : List Node) (t : TableIn) :
    boxes (tableNode t :: l)
      = (some c!"Table 3", t.rows.flatMap fun r => r.cells.flatMap CellIn.shown) :: boxes l := by
  have hc : runsL (t.columnWidths.zipIdx.flatMap fun w => [columnNode w.1 w.2]) = [] := by
    rw [runsL_flatMap, List.flatMap_eq_nil_iff]
    intro w _
    krfl
  have : boxes (tableNode t :: l) = (some c!"Table 3",
      (((runsL (t.columnWidths.zipIdx.flatMap fun w => [columnNode w.1 w.2]) ++
        runsL (t.rows.zipIdx.flatMap fun r => [rowNode r.1 r.2])) ++ []) ++ []) ++ []) :: boxes l := by
    krfl
  rw [this, hc, runsL_flatMap]
  simp only [runs_row, List.nil_append, List.append_nil]
  rw [flatMap_zipIdx (fun r : RowIn => r.cells.flatMap CellIn.shown)]

theorem boxes_oneColumn (y cy : Nat) (s : SlideText) (d : TextProps) :
    boxes (oneColumnNodes y cy d s.effective)
      = if s.texts = [] then [] else [(some c!"Content", s.texts)] := by
  have e : s.effective = [] ↔ s.texts = [] := by
    rw [← effective_texts, List.map_eq_nil_iff]
  unfold oneColumnNodes
  by_cases h : s.texts = []
  · simp [h, e.mpr h, boxes, boxNodesL]
  · have h' := mt e.mp h
    simp only [h, h', ne_eq, not_false_eq_true, if_true, if_false, boxes_nl, boxes_box, runsL_paras,
      effective_texts]
    rfl

theorem boxes_twoColumns (s : SlideText) (d : TextProps) :
    boxes (twoColumnNodes d s.effective) =
      (if 1 ≤ s.texts.length then
        [(some c!"Left Content", s.texts.take ((s.texts.length + 1) / 2))] else [])
      ++ (if 2 ≤ s.texts.length then
        [(some c!"Right Content", s.texts.drop ((s.texts.length + 1) / 2))] else []) := by
  unfold twoColumnNodes
  have e1 : (0 < s.effective.length) = (1 ≤ s.texts.length) := by rw [effective_length]; rfl
  have e2 : ((s.effective.length + 1) / 2 < s.effective.length) = (2 ≤ s.texts.length) := by
    rw [effective_length]; exact propext (by omega)
  simp only [e1, e2]
  by_cases h1 : 1 ≤ s.texts.length
  · by_cases h2 : 2 ≤ s.texts.length
    · simp only [h1, h2, if_true, List.cons_append, List.nil_append, boxes_nl, boxes_box, runsL_paras,
        List.map_take, List.map_drop, effective_texts, effective_length]
      rfl
    · simp only [h1, h2, if_true, if_false, List.append_nil, boxes_nl, boxes_box, runsL_paras,
        List.map_take, effective_texts, effective_length]
      rfl
  · have h2 : ¬ 2 ≤ s.texts.length := by omega
    simp only [h1, h2, if_false]
    rfl

theorem boxes_shapes (s : SlideText) : boxes s.shapeNodes = s.expected := by
  unfold SlideText.shapeNodes SlideText.expected
  cases s.layout <;>
    simp only [boxes_append, boxes_nl, boxes_title, boxes_twoColumns, boxes_oneColumn,
      List.append_assoc]
  case titleAndContent =>
    cases s.table with
    | none =>
      simp only [Option.isSome_none, Bool.false_eq_true, if_false, boxes_oneColumn]
      rfl
    | some t =>
      simp only [Option.isSome_some, if_true, Option.toList_some, List.flatMap_cons,
        List.flatMap_nil, List.append_nil, boxes_nl, boxes_table]
      rfl
  all_goals rfl

theorem boxes_slide (sh x : List Node) (t : Transition) :
    boxes [slideNode sh x t.nodes] = boxes sh ++ boxes x := by
  have ht : boxNodesL t.nodes = [] := by cases t <;> rfl
  have : boxNodesL [slideNode sh x t.nodes]
      = (((boxNodesL (sh ++ x ++ [nl]) ++ []) ++ boxNodesL t.nodes)) ++ [] := by krfl
  unfold boxes
  rw [this]
  simp [ht, boxNodesL_append, boxNodesL, boxNodes, nl]

/-- Reading a generated slide. -/
theorem document_slide {s : SlideText} {X : List Node} (h : s.Safe) (hx : ReadsAs (fmt s.extra) X) :
    document s.xml = some [slideNode s.shapeNodes X s.transition.nodes] := by
  have e : document s.xml = parse (fmt s.body) := by krfl
  rw [e]
  exact parse_of_nodes (readsNodes_slide h (readsNodes_of_readsAs hx))

theorem texts_run (s : SlideText) (hs : s.content = [] ∨ s.bullets ≠ []) (op : BulletOp) :
    (op.run s).texts = s.texts ++ [op.text] ∧ (op.run s).bullets ≠ [] := by
  have : (op.run s).bullets.map (·.text) = s.bullets.map (·.text) ++ [op.text] := by
    cases op <;> simp [BulletOp.run, SlideText.addBullet, SlideText.addStyledBullet,
      SlideText.addSubBullet, BulletOp.text]
  have hne : (op.run s).bullets ≠ [] := by
    intro e
    rw [e] at this
    simp at this
  refine ⟨?_, hne⟩
  unfold SlideText.texts
  rw [if_neg hne, this]
  rcases hs with hs | hs
  · by_cases hb : s.bullets = [] <;> simp [hb, hs]
  · simp [hs]

theorem texts_ops (ops : List BulletOp) (s : SlideText) (hs : s.content = [] ∨ s.bullets ≠ []) :
    (ops.foldl BulletOp.run s).texts = s.texts ++ ops.map BulletOp.text := by
  induction ops generalizing s with
  | nil => simp
  | cons op ops ih =>
    obtain ⟨h1, h2⟩ := texts_run s hs op
    simp [ih _ (.inr h2), h1]

theorem safe_run {s : SlideText} (h : s.Safe) {op : BulletOp} (ho : op.Safe) : (op.run s).Safe := by
  have key : ∀ b : BulletPoint, b.style.Safe → b.format = none → b.Safe :=
    fun b h1 h2 => ⟨h1, by simp [h2]⟩
  have app : ∀ b : BulletPoint, b.Safe → ∀ x ∈ s.bullets ++ [b], x.Safe := by
    intro b hb x hx
    rcases List.mem_append.mp hx with hx | hx
    · exact h.bullets x hx
    · rw [List.mem_singleton.mp hx]; exact hb
  cases op
  · exact ⟨h.titleColor, h.contentColor, h.bulletStyle, app _ (key _ h.bulletStyle rfl), h.table⟩
  · exact ⟨h.titleColor, h.contentColor, h.bulletStyle, app _ (key _ ho rfl), h.table⟩
  · exact ⟨h.titleColor, h.contentColor, h.bulletStyle, app _ (key _ h.bulletStyle rfl), h.table⟩

theorem safe_ops (ops : List BulletOp) {s : SlideText} (h : s.Safe) (ho : ∀ op ∈ ops, op.Safe) :
    (ops.foldl BulletOp.run s).Safe := by
  induction ops generalizing s with
  | nil => exact h
  | cons op ops ih =>
    exact ih (safe_run h (ho op (by simp))) fun o m => ho o (by simp [m])

theorem layout_ops (ops : List BulletOp) (s : SlideText) :
    (ops.foldl BulletOp.run s).layout = s.layout ∧ (ops.foldl BulletOp.run s).table = s.table ∧
      (ops.foldl BulletOp.run s).extra = s.extra ∧ (ops.foldl BulletOp.run s).title = s.title := by
  induction ops generalizing s with
  | nil => exact ⟨rfl, rfl, rfl, rfl⟩
  | cons op ops ih =>
    have : (op.run s).layout = s.layout ∧ (op.run s).table = s.table ∧ (op.run s).extra = s.extra ∧
        (op.run s).title = s.title := by
      cases op <;> exact ⟨rfl, rfl, rfl, rfl⟩
    simp [ih (op.run s), this]

theorem readCell_node (c : CellIn) : readCell c.node = c.expected := by
  have ha : ∀ k, attrOf k c.node = c.mergeNodeAttrs.lookup k := fun k => rfl
  unfold readCell
  rw [runs_cell, ha, ha, ha, ha]
  unfold CellIn.expected CellIn.mergeNodeAttrs CellIn.shown
  cases c.hMerge
  · cases c.vMerge
    · by_cases h1 : 2 ≤ c.gridSpan.getD 1 <;> by_cases h2 : 2 ≤ c.rowSpan.getD 1 <;>
        simp [h1, h2, List.lookup, show ∀ n, (n > 1) = (2 ≤ n) from fun n => rfl]
    · rfl
  · rfl

theorem flatMap_single {α β : Type} (f : α → β) (l : List α) : (l.flatMap fun a => [f a]) = l.map f := by
  induction l with
  | nil => rfl
  | cons a l ih => simp [ih]

theorem elemsL_flatMap {α : Type} (n : Str) (f : α → Node) (l : List α) :
    elemsL n (l.flatMap fun a => [f a]) = l.flatMap fun a => elems n (f a) := by
  induction l with
  | nil => rfl
  | cons a l ih => simp [elemsL, ih]

theorem elems_row (r : RowIn) (i : Nat) : elems c!"a:tc" (rowNode r i) = r.cells.map CellIn.node := by
  have : elems c!"a:tc" (rowNode r i) = elemsL c!"a:tc" (r.cells.flatMap (fun c => [c.node]) ++
    [extNode c!"{0D108BD9-81ED-4DB2-BD59-A6C34878D82A}" c!"a16:rowId" (10000 + i)]) := by krfl
  rw [this, elemsL_append, elemsL_flatMap]
  have : elemsL c!"a:tc" [extNode c!"{0D108BD9-81ED-4DB2-BD59-A6C34878D82A}" c!"a16:rowId" (10000 + i)]
      = [] := by krfl
  rw [this, List.append_nil]
  have : (fun c : CellIn => elems c!"a:tc" c.node) = fun c => [c.node] := by
    funext c
    krfl
  rw [this, flatMap_single]

theorem tableCells_table (t : TableIn) :
    tableCells [tableNode t] = t.rows.map fun r => r.cells.map CellIn.expected := by
  have hc : elemsL c!"a:tr" (t.columnWidths.zipIdx.flatMap fun w => [columnNode w.1 w.2]) = [] := by
    rw [elemsL_flatMap, List.flatMap_eq_nil_iff]
    intro w _
    krfl
  have h : elemsL c!"a:tr" [tableNode t] =
      ((((elemsL c!"a:tr" (t.columnWidths.zipIdx.flatMap fun w => [columnNode w.1 w.2]) ++
        elemsL c!"a:tr" (t.rows.zipIdx.flatMap fun r => [rowNode r.1 r.2])) ++ []) ++ []) ++ []) ++ [] := by
    krfl
  have hr : ∀ r : RowIn × Nat, elems c!"a:tr" (rowNode r.1 r.2) = [rowNode r.1 r.2] :=
    fun r => by krfl
  unfold tableCells
  rw [h, hc, elemsL_flatMap]
  simp only [hr, List.nil_append, List.append_nil, flatMap_single, List.map_map, Function.comp_def,
    elems_row, readCell_node]
  have : ∀ (l : List RowIn) (k : Nat), ((l.zipIdx k).map fun x => x.1.cells.map CellIn.expected)
      = l.map fun r => r.cells.map CellIn.expected := by
    intro l
    induction l with
    | nil => intro k; rfl
    | cons a l ih => intro k; simp [List.zipIdx_cons, ih]
  exact this _ _

theorem tableCells_append (a b : List Node) :
    tableCells (a ++ b) = tableCells a ++ tableCells b := by
  simp [tableCells, elemsL_append]

theorem tableCells_slide (sh x : List Node) (t : Transition) :
    tableCells [slideNode sh x t.nodes] = tableCells sh ++ tableCells x := by
  have ht : elemsL c!"a:tr" t.nodes = [] := by cases t <;> rfl
  have : elemsL c!"a:tr" [slideNode sh x t.nodes]
      = (((elemsL c!"a:tr" (sh ++ x ++ [nl]) ++ []) ++ elemsL c!"a:tr" t.nodes)) ++ [] := by krfl
  unfold tableCells
  rw [this]
  simp [ht, elemsL_append, elemsL, elems, nl]

theorem tableCells_title (t : Str) (p : TextProps) (x y cx cy : Nat) (al : Str) :
    tableCells [nl, titleNode t p x y cx cy al] = [] := by
  have h : elems c!"a:tr" p.node = [] := by
    have : elems c!"a:tr" p.node = elemsL c!"a:tr" p.kids := by krfl
    rw [this]
    unfold TextProps.kids
    cases p.color <;> cases p.highlight <;> cases p.fontFamily <;> rfl
  have h2 : elemsL c!"a:tr" (addText [] t) = [] := by
    rw [addText_eq]
    unfold textNode
    split <;> rfl
  have : elemsL c!"a:tr" [nl, titleNode t p x y cx cy al]
      = ((((elems c!"a:tr" p.node ++ (elemsL c!"a:tr" (addText [] t) ++ [])) ++ []) ++ []) ++ []) ++ [] := by
    krfl
  unfold tableCells
  rw [this, h, h2]
  rfl

theorem elems_runProps (n : Str) (hn : n = c!"a:pPr" ∨ n = c!"a:tcPr") (c : CellIn) :
    elems n c.runProps = [] := by
  rcases hn with rfl | rfl
  all_goals
    unfold CellIn.runProps CellIn.runKids
    cases c.textColor <;> cases c.fontFamily <;> krfl

theorem elemsL_addText (n t : Str) : elemsL n (addText [] t) = [] := by
  rw [addText_eq]
  unfold textNode
  split <;> rfl

theorem elems_cellPara (c : CellIn) : elems c!"a:pPr" c.paraNode = if c.text = [] then [] else c.paraProps := by
  unfold CellIn.paraNode
  split
  · krfl
  · have h : elemsL c!"a:pPr" c.paraProps = c.paraProps := by
      unfold CellIn.paraProps
      split <;> rfl
    have : ∀ ks, elems c!"a:pPr" (E c!"a:p" [] ks) = elemsL c!"a:pPr" ks := fun ks => by krfl
    rw [this, elemsL_append, h]
    have : elemsL c!"a:pPr" [E c!"a:r" [] [c.runProps, E c!"a:t" [] (addText [] c.text)]]
        = (elems c!"a:pPr" c.runProps ++ (elemsL c!"a:pPr" (addText [] c.text) ++ [])) ++ [] := by krfl
    rw [this, elems_runProps _ (.inl rfl), elemsL_addText]
    simp

theorem elems_cellPara' (c : CellIn) : elems c!"a:tcPr" c.paraNode = [] := by
  unfold CellIn.paraNode
  split
  · krfl
  · have h : elemsL c!"a:tcPr" c.paraProps = [] := by
      unfold CellIn.paraProps
      split <;> rfl
    have : ∀ ks, elems c!"a:tcPr" (E c!"a:p" [] ks) = elemsL c!"a:tcPr" ks := fun ks => by krfl
    rw [this, elemsL_append, h]
    have : elemsL c!"a:tcPr" [E c!"a:r" [] [c.runProps, E c!"a:t" [] (addText [] c.text)]]
        = (elems c!"a:tcPr" c.runProps ++ (elemsL c!"a:tcPr" (addText [] c.text) ++ [])) ++ [] := by krfl
    rw [this, elems_runProps _ (.inr rfl), elemsL_addText]
    simp

theorem elems_cell {c : CellIn} (hm : c.hMerge = false) (hv : c.vMerge = false) :
    elems c!"a:pPr" c.node = (if c.text = [] then [] else c.paraProps) ∧
      elems c!"a:tcPr" c.node = [c.propsNode] := by
  unfold CellIn.node
  simp only [hm, hv, Bool.or_self, Bool.false_eq_true, if_false]
  constructor
  · have : ∀ a, elems c!"a:pPr" (E c!"a:tc" a [E c!"a:txBody" [] [E c!"a:bodyPr" [] [],
        E c!"a:lstStyle" [] [], c.paraNode], c.propsNode])
        = (elems c!"a:pPr" c.paraNode ++ []) ++ (elems c!"a:pPr" c.propsNode ++ []) := fun a => by krfl
    have hp : elems c!"a:pPr" c.propsNode = [] := by
      unfold CellIn.propsNode
      cases c.backgroundColor <;> krfl
    rw [this, hp, elems_cellPara]
    simp
  · have : ∀ a, elems c!"a:tcPr" (E c!"a:tc" a [E c!"a:txBody" [] [E c!"a:bodyPr" [] [],
        E c!"a:lstStyle" [] [], c.paraNode], c.propsNode])
        = (elems c!"a:tcPr" c.paraNode ++ []) ++ [c.propsNode] := fun a => by krfl
    rw [this, elems_cellPara']
    rfl

end PptRs
