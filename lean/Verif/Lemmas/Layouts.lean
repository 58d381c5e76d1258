import Verif.Spec.Layouts
import Verif.Lemmas.DrawingRead
import Verif.Lemmas.Parts
import Verif.Props.BulletFormat

/-!
# Reading the slides of the second writer

Every slide is a list of blocks, each after one or two line ends.
-/

namespace PptRs.Layouts
open PptRs.Spec PptRs.Draw

/-! ### The blocks -/

/-- The place of a box, on one line. -/
def xfrmLine (p : Place) : List Node :=
  [E c!"a:off" [(c!"x", dec p.x), (c!"y", dec p.y)] [], E c!"a:ext" [(c!"cx", dec p.cx), (c!"cy", dec p.cy)] []]

/-- A box of text. -/
def textNodeOf (id name : Str) (ph : List (Str × Str)) (xf : List Node) (paras : List Node) : Node :=
  E c!"p:sp" [] (lines [
    E c!"p:nvSpPr" [] (lines [E c!"p:cNvPr" [(c!"id", id), (c!"name", name)] [],
      E c!"p:cNvSpPr" [] [E c!"a:spLocks" [(c!"noGrp", c!"1")] []],
      E c!"p:nvPr" [] [E c!"p:ph" ph []]]),
    E c!"p:spPr" [] (lines [E c!"a:xfrm" [] xf,
      E c!"a:prstGeom" [(c!"prst", c!"rect")] [E c!"a:avLst" [] []], E c!"a:noFill" [] []]),
    E c!"p:txBody" [] ([nl, E c!"a:bodyPr" [] [], nl, E c!"a:lstStyle" [] []] ++ paras ++ [nl])])

set_option maxRecDepth 8000 in
theorem readsTagged_titleBox (id : Nat) (p : Place) (t : Str) {q : TextProps} (hq : q.Safe) {ph : Str}
    (hp : Plain ph) : ReadsTagged (titleBox id p t q ph)
      [textNodeOf (dec id) c!"Title" [(c!"type", ph)] (xfrmLine p)
        [nl, E c!"a:p" [] (lines [runNode q t])]] :=
  (Splits.readsNodes (((Splits.lit (by parts_ok)).append (.tagged (readsTagged_props hq))).append
    (.lit (by parts_ok))) (by krfl)).tagged ⟨_, rfl⟩

set_option maxRecDepth 8000 in
theorem readsTagged_centeredBox (id : Nat) (p : Place) (t : Str) {q : TextProps} (hq : q.Safe) :
    ReadsTagged (centeredBox id p t q)
      [textNodeOf (dec id) c!"Title" [(c!"type", c!"ctrTitle")] (xfrmLine p)
        [nl, E c!"a:p" [] (lines [E c!"a:pPr" [(c!"algn", c!"ctr")] [], runNode q t])]] :=
  (Splits.readsNodes (((Splits.lit (by parts_ok)).append (.tagged (readsTagged_props hq))).append
    (.lit (by parts_ok))) (by krfl)).tagged ⟨_, rfl⟩

/-- A bullet without its own format. -/
def noFormat (b : BulletPoint) : BulletPoint := { b with format := none }

theorem readsNodes_bulletPara {d : TextProps} {b : BulletPoint} (hd : d.Safe) (hb : b.Safe) :
    ReadsNodes (t!"\n" ++ bulletPara d b) [nl, paraNode d (noFormat b)] :=
  have h : ReadsTagged (bulletPara d b) [paraNode d (noFormat b)] :=
    (Splits.readsNodes (((((Splits.lit (by parts_ok)).append (.tagged (readsTagged_style hb.style))).append
      (.lit (by parts_ok))).append (.tagged (readsTagged_props hd))).append (.lit (by parts_ok)))
      (by krfl)).tagged ⟨_, rfl⟩
  Splits.readsNodes ((Splits.lit (by parts_ok)).append (.tagged h)) (by krfl)

theorem readsNodes_bulletParas {d : TextProps} {l : List BulletPoint} (hd : d.Safe) (hl : ∀ b ∈ l, b.Safe) :
    ReadsNodes (l.flatMap fun b => t!"\n" ++ bulletPara d b) (paraNodes d (l.map noFormat)) := by
  unfold paraNodes
  rw [List.flatMap_map]
  exact readsNodes_flatMap fun b hb => readsNodes_bulletPara hd (hl b hb)

theorem bullets_shift (d : TextProps) (l : List BulletPoint) :
    t!"\n" ++ l.flatMap (addBullet d) = (l.flatMap fun b => t!"\n" ++ bulletPara d b) ++ t!"\n" := by
  induction l with
  | nil => rfl
  | cons b l ih =>
    simp only [List.flatMap_cons, addBullet, List.append_assoc]
    rw [ih]

/-- A body with its bullets. -/
def bodyBlock (start : List Part) (d : TextProps) (l : List BulletPoint) : List Part :=
  start ++ (l.flatMap fun b => t!"\n" ++ bulletPara d b) ++ t!"\n" ++ bodyClose

theorem body_shift (start : List Part) (d : TextProps) (l : List BulletPoint) :
    start ++ t!"\n" ++ l.flatMap (addBullet d) ++ endBody = bodyBlock start d l ++ t!"\n" := by
  have := bullets_shift d l
  calc _ = start ++ (t!"\n" ++ l.flatMap (addBullet d)) ++ endBody := by simp only [List.append_assoc]
    _ = _ := by
      rw [this]
      simp only [bodyBlock, endBody, List.append_assoc]

/-- The place of a box, on separate lines. -/
def xfrmLines (p : Place) : List Node := lines (xfrmLine p)

set_option maxRecDepth 8000 in
theorem readsTagged_body (id : Nat) (p : Place) {d : TextProps} {l : List BulletPoint} (hd : d.Safe)
    (hl : ∀ b ∈ l, b.Safe) : ReadsTagged (bodyBlock (bodyOpen id p) d l)
      [textNodeOf (dec id) c!"Content" [(c!"type", c!"body"), (c!"idx", c!"1")] (xfrmLine p)
        (paraNodes d (l.map noFormat))] :=
  (Splits.readsNodes ((((Splits.lit (by unfold bodyOpen; parts_ok)).append (.nodes (readsNodes_bulletParas hd hl))).append
    (.lit (by parts_ok))).append (.lit (by unfold bodyClose; parts_ok))) (by krfl)).tagged ⟨_, rfl⟩

set_option maxRecDepth 8000 in
theorem readsTagged_left {d : TextProps} {l : List BulletPoint} (hd : d.Safe)
    (hl : ∀ b ∈ l, b.Safe) : ReadsTagged (bodyBlock leftOpen d l)
      [textNodeOf (dec 3) c!"Left Content" [(c!"type", c!"body"), (c!"idx", c!"1")]
        (xfrmLines ⟨457200, 1189200, 4115100, 5668800⟩) (paraNodes d (l.map noFormat))] :=
  (Splits.readsNodes ((((Splits.lit (by unfold leftOpen; parts_ok)).append (.nodes (readsNodes_bulletParas hd hl))).append
    (.lit (by parts_ok))).append (.lit (by unfold bodyClose; parts_ok))) (by krfl)).tagged ⟨_, rfl⟩

set_option maxRecDepth 8000 in
theorem readsTagged_right {d : TextProps} {l : List BulletPoint} (hd : d.Safe)
    (hl : ∀ b ∈ l, b.Safe) : ReadsTagged (bodyBlock rightOpen d l)
      [textNodeOf (dec 4) c!"Right Content" [(c!"type", c!"body"), (c!"idx", c!"2")]
        (xfrmLines ⟨4572300, 1189200, 4115100, 5668800⟩) (paraNodes d (l.map noFormat))] :=
  (Splits.readsNodes ((((Splits.lit (by unfold rightOpen; parts_ok)).append (.nodes (readsNodes_bulletParas hd hl))).append
    (.lit (by parts_ok))).append (.lit (by unfold bodyClose; parts_ok))) (by krfl)).tagged ⟨_, rfl⟩

/-- The placeholder of a picture. -/
def imageNode (id : Nat) (i : Picture) : Node :=
  E c!"p:sp" [] (lines [
    E c!"p:nvSpPr" [] (lines [
      E c!"p:cNvPr" [(c!"id", dec id), (c!"name", c!"Image Placeholder: " ++ i.filename)] [],
      E c!"p:cNvSpPr" [] [], E c!"p:nvPr" [] []]),
    E c!"p:spPr" [] (lines [E c!"a:xfrm" [] (xfrmLines ⟨i.x, i.y, i.width, i.height⟩),
      E c!"a:prstGeom" [(c!"prst", c!"rect")] [E c!"a:avLst" [] []],
      E c!"a:solidFill" [] [E c!"a:srgbClr" [(c!"val", c!"E0E0E0")] []],
      E c!"a:ln" [(c!"w", c!"12700")] [E c!"a:solidFill" [] [E c!"a:srgbClr" [(c!"val", c!"808080")] []]]]),
    E c!"p:txBody" [] (lines [
      E c!"a:bodyPr" [(c!"wrap", c!"square"), (c!"rtlCol", c!"0"), (c!"anchor", c!"ctr")] [],
      E c!"a:lstStyle" [] [],
      E c!"a:p" [] (lines [E c!"a:pPr" [(c!"algn", c!"ctr")] [],
        E c!"a:r" [] (lines [E c!"a:rPr" [(c!"lang", c!"en-US"), (c!"sz", c!"1400")] [],
          E c!"a:t" [] [.text (c!"📷 " ++ i.filename)]])])])])

set_option maxRecDepth 8000 in
theorem readsTagged_imageBox (id : Nat) (i : Picture) : ReadsTagged (imageBox id i) [imageNode id i] :=
  (Splits.readsNodes (Splits.lit (by unfold imageBox; parts_ok)) (by krfl)).tagged ⟨_, rfl⟩

/-! ### Lists of blocks -/

/-- A block and the node it is read as; `wide` if it comes after an empty line. -/
structure Item where
  wide : Bool := false
  xml : List Part
  node : Node

/-- The line ends before a block. -/
def Item.gap (i : Item) : List Part := if i.wide then t!"\n" ++ t!"\n" else t!"\n"

/-- The text of the blocks. -/
def itemsXml (l : List Item) : List Part := l.flatMap fun i => i.gap ++ i.xml

/-- The nodes of the blocks. -/
def itemNodes (l : List Item) : List Node :=
  l.flatMap fun i => [.text (if i.wide then c!"\n\n" else c!"\n"), i.node]

theorem readsNodes_items {l : List Item} (h : ∀ i ∈ l, ReadsTagged i.xml [i.node]) :
    ReadsNodes (itemsXml l) (itemNodes l) := by
  refine readsNodes_flatMap fun i hi => ?_
  obtain ⟨w, x, k⟩ := i
  cases w
  · show ReadsNodes (t!"\n" ++ x) _
    exact Splits.readsNodes ((Splits.lit (by parts_ok)).append (.tagged (h _ hi))) (by krfl)
  · show ReadsNodes (t!"\n" ++ t!"\n" ++ x) _
    exact Splits.readsNodes (((Splits.lit (by parts_ok)).append (.lit (by parts_ok))).append (.tagged (h _ hi)))
      (by krfl)

/-- A line end before the blocks goes to the first of them. -/
def widen : List Item → List Item
  | [] => []
  | i :: l => { i with wide := true } :: l

theorem widen_xml {l : List Item} (h : ∀ i ∈ l, i.wide = false) :
    itemsXml (widen l) ++ (if l = [] then t!"\n" else []) = t!"\n" ++ itemsXml l := by
  cases l with
  | nil => rfl
  | cons i l =>
    have := h i (List.mem_cons_self ..)
    simp [widen, itemsXml, Item.gap, this]

theorem widen_nodes (l : List Item) : (widen l).map (·.node) = l.map (·.node) := by
  cases l <;> rfl

theorem widen_ok {l : List Item} (h : ∀ i ∈ l, ReadsTagged i.xml [i.node]) :
    ∀ i ∈ widen l, ReadsTagged i.xml [i.node] := by
  cases l with
  | nil => exact h
  | cons i l =>
    intro j hj
    rcases List.mem_cons.mp hj with rfl | hj
    · exact h i (List.mem_cons_self ..)
    · exact h j (List.mem_cons_of_mem _ hj)

/-- The slide. -/
def pageNode (ks : List Node) : Node :=
  E c!"p:sld" slideNs (lines [
    E c!"p:cSld" [] (lines [
      E c!"p:bg" [] [E c!"p:bgRef" [(c!"idx", c!"1001")] [E c!"a:schemeClr" [(c!"val", c!"bg1")] []]],
      E c!"p:spTree" [] ([nl, E c!"p:nvGrpSpPr" [] [E c!"p:cNvPr" [(c!"id", c!"1"), (c!"name", [])] [],
          E c!"p:cNvGrpSpPr" [] [], E c!"p:nvPr" [] []],
        nl, E c!"p:grpSpPr" [] [E c!"a:xfrm" [] [E c!"a:off" [(c!"x", c!"0"), (c!"y", c!"0")] [],
          E c!"a:ext" [(c!"cx", c!"9144000"), (c!"cy", c!"6858000")] [],
          E c!"a:chOff" [(c!"x", c!"0"), (c!"y", c!"0")] [],
          E c!"a:chExt" [(c!"cx", c!"9144000"), (c!"cy", c!"6858000")] []]]] ++ ks)]),
    E c!"p:clrMapOvr" [] [E c!"a:masterClrMapping" [] []]])

set_option maxRecDepth 8000 in
theorem document_page {d : List Part} {l : List Item} {e : Bool}
    (h : t!"\n" ++ d = itemsXml l ++ (if e then t!"\n" else []))
    (hl : ∀ i ∈ l, ReadsTagged i.xml [i.node]) :
    document (xmlDecl ++ fmt (head ++ d ++ tail))
      = some [pageNode (itemNodes l ++ if e then [nl] else [])] := by
  have e1 : head ++ d ++ tail = pageOpen ++ (itemsXml l ++ (if e then t!"\n" else [])) ++ tail := by
    rw [← h]
    simp only [head, List.append_assoc]
  rw [e1]
  have hn := readsNodes_items hl
  cases e
  · have : ReadsNodes (pageOpen ++ itemsXml l ++ tail) [pageNode (itemNodes l)] :=
      Splits.readsNodes (((Splits.lit (by unfold pageOpen; parts_ok)).append (.nodes hn)).append (.lit (by unfold tail; parts_ok))) (by krfl)
    simpa using document_decl this ⟨_, rfl⟩
  · have : ReadsNodes (pageOpen ++ itemsXml l ++ (t!"\n" ++ tail)) [pageNode (itemNodes l ++ [nl])] :=
      Splits.readsNodes (((Splits.lit (by unfold pageOpen; parts_ok)).append (.nodes hn)).append
        ((Splits.lit (by parts_ok)).append (.lit (by unfold tail; parts_ok)))) (by krfl)
    simpa using document_decl this ⟨_, rfl⟩

/-! ### What the slides contain -/

theorem boxes_page (ks : List Node) : boxes [pageNode ks] = boxes ks := by
  have : boxNodesL [pageNode ks] = ((boxNodesL ks ++ []) ++ []) ++ [] := by krfl
  unfold boxes
  rw [this]
  simp

theorem boxes_cons (k : Node) (ks : List Node) : boxes (k :: ks) = boxes [k] ++ boxes ks := boxes_append [k] ks

theorem boxes_items (l : List Item) (e : Bool) :
    boxes [pageNode (itemNodes l ++ if e then [nl] else [])] = boxes (l.map (·.node)) := by
  have h2 : boxes (if e then [nl] else []) = [] := by cases e <;> rfl
  rw [boxes_page, boxes_append, h2, List.append_nil]
  induction l with
  | nil => rfl
  | cons i l ih =>
    have : itemNodes (i :: l) = .text (if i.wide then c!"\n\n" else c!"\n") :: i.node :: itemNodes l := rfl
    have h3 : ∀ t ks, boxes (.text t :: ks) = boxes ks := fun _ _ => rfl
    rw [this, h3, boxes_cons, ih, List.map_cons, boxes_cons i.node (l.map _)]

theorem drawn_items (l : List Item) (e : Bool) {n : Str} (h1 : n ≠ c!"p:nvGrpSpPr") (h2 : n ≠ c!"p:grpSpPr") :
    drawn n [pageNode (itemNodes l ++ if e then [nl] else [])] = named n (l.map (·.node)) := by
  have e1 : ∀ ks, drawn n [pageNode ks] = path [c!"p:cSld", c!"p:spTree", n] (pageNode ks) := by
    intro ks
    simp only [drawn, List.flatMap_cons, List.flatMap_nil, List.append_nil]
  have e2 : ∀ ks, path [c!"p:cSld", c!"p:spTree", n] (pageNode ks)
      = (((named n ([nl, E c!"p:nvGrpSpPr" [] [E c!"p:cNvPr" [(c!"id", c!"1"), (c!"name", [])] [],
          E c!"p:cNvGrpSpPr" [] [], E c!"p:nvPr" [] []],
        nl, E c!"p:grpSpPr" [] [E c!"a:xfrm" [] [E c!"a:off" [(c!"x", c!"0"), (c!"y", c!"0")] [],
          E c!"a:ext" [(c!"cx", c!"9144000"), (c!"cy", c!"6858000")] [],
          E c!"a:chOff" [(c!"x", c!"0"), (c!"y", c!"0")] [],
          E c!"a:chExt" [(c!"cx", c!"9144000"), (c!"cy", c!"6858000")] []]]] ++ ks)).flatMap (path []) ++ []) ++ []) := by
    intro ks
    krfl
  have e3 : named n (if e then [nl] else []) = [] := by cases e <;> rfl
  have e4 : named n (itemNodes l) = named n (l.map (·.node)) := by
    induction l with
    | nil => rfl
    | cons i l ih =>
      have : itemNodes (i :: l) = .text (if i.wide then c!"\n\n" else c!"\n") :: i.node :: itemNodes l := rfl
      have h3 : ∀ t ks, named n (.text t :: ks) = named n ks := fun _ _ => rfl
      have h4 : ∀ (k : Node) (ks : List Node), named n (k :: ks) = named n [k] ++ named n ks :=
        fun k ks => named_append n [k] ks
      rw [this, h3, h4, ih, List.map_cons, h4 i.node (l.map _)]
  rw [e1, e2, flatMap_path_nil, named_append, named_append, e3, e4]
  simp [named, nl, h1.symm, h2.symm]

theorem boxes_text (l : List Node) (id name : Str) (ph : List (Str × Str)) (p : Place) (two : Bool)
    (ks : List Node) :
    boxes (textNodeOf id name ph (if two then xfrmLines p else xfrmLine p) ks :: l)
      = (some name, runsL ks) :: boxes l := by
  have : boxes (textNodeOf id name ph (if two then xfrmLines p else xfrmLine p) ks :: l)
      = (some name, runsL (ks ++ [nl]) ++ []) :: boxes l := by
    cases two <;> krfl
  rw [this, runsL_append]
  simp [runsL, runs, nl]

theorem runs_run (q : TextProps) (t : Str) : runs (runNode q t) = [t] := by
  have : runs (runNode q t) = runs q.node ++ [textOf (addText [] t)] := by krfl
  rw [this, runs_props, textOf_addText]
  rfl

theorem texts_noFormat (l : List BulletPoint) : (l.map noFormat).map (·.text) = l.map (·.text) := by
  rw [List.map_map]
  rfl

/-! ### The slides -/

theorem readShape_imageNode (id : Nat) (i : Picture) : readShape (imageNode id i) = placeholderRead i id := by
  have h : readShape (imageNode id i)
      = { placeholderRead i id with paragraphs := [((c!"📷 " ++ i.filename) ++ []) ++ []] } := by krfl
  rw [h, List.append_nil, List.append_nil]
  rfl

/-- The blocks of the shapes. -/
theorem shapesXml_items {fontSize : Str → Nat → Nat → Nat} {l : List Shape} {k : Nat} {ps : List Part}
    (h : ∀ s ∈ l, s.Safe) (e : shapesXml fontSize k l = some ps) :
    ∃ m : List Item, ps = itemsXml m ∧ (∀ i ∈ m, i.wide = false) ∧ (∀ i ∈ m, ReadsTagged i.xml [i.node])
      ∧ (∀ i ∈ m, ∃ as ks, i.node = .elem c!"p:sp" as ks)
      ∧ m.map (fun i => readShape i.node) = (l.zipIdx k).map fun s => s.1.expected (s.2 + 10) := by
  induction l generalizing k ps with
  | nil =>
    obtain rfl : ps = [] := by simpa [shapesXml] using e.symm
    exact ⟨[], rfl, by simp, by simp, by simp, rfl⟩
  | cons s l ih =>
    simp only [shapesXml, Option.bind_eq_some_iff, Option.map_eq_some_iff] at e
    obtain ⟨x, hx, r, hr, rfl⟩ := e
    obtain ⟨m, h1, h2, h3, h4, h5⟩ := ih (fun s hs => h s (List.mem_cons_of_mem _ hs)) hr
    obtain ⟨as, ks, h6, h7⟩ := shape_reads (h s (List.mem_cons_self ..)) hx
    refine ⟨{ xml := x, node := .elem c!"p:sp" as ks } :: m, ?_, ?_, ?_, ?_, ?_⟩
    · rw [h1]
      rfl
    · simpa using h2
    · simpa using ⟨h6, h3⟩
    · intro i hi
      rcases List.mem_cons.mp hi with rfl | hi
      · exact ⟨as, ks, rfl⟩
      · exact h4 i hi
    · simp only [List.map_cons, List.zipIdx_cons]
      rw [h7, h5]

/-- The blocks of the placeholders. -/
theorem placeholders_items (l : List Picture) (k : Nat) :
    ∃ m : List Item, placeholders k l = itemsXml m ∧ (∀ i ∈ m, i.wide = false)
      ∧ (∀ i ∈ m, ReadsTagged i.xml [i.node])
      ∧ (∀ i ∈ m, ∃ as ks, i.node = .elem c!"p:sp" as ks)
      ∧ m.map (fun i => readShape i.node) = (l.zipIdx k).map fun s => placeholderRead s.1 s.2 := by
  induction l generalizing k with
  | nil => exact ⟨[], rfl, by simp, by simp, by simp, rfl⟩
  | cons i l ih =>
    obtain ⟨m, h1, h2, h3, h4, h5⟩ := ih (k + 1)
    refine ⟨{ xml := imageBox k i, node := imageNode k i } :: m, ?_, ?_, ?_, ?_, ?_⟩
    · simp only [placeholders, h1]
      rfl
    · simpa using h2
    · simpa using ⟨readsTagged_imageBox k i, h3⟩
    · intro j hj
      rcases List.mem_cons.mp hj with rfl | hj
      · exact ⟨_, _, rfl⟩
      · exact h4 j hj
    · simp only [List.map_cons, List.zipIdx_cons]
      rw [readShape_imageNode, h5]

/-- The blocks of a slide. -/
structure Blocks (d : List Part) (text : List (Option Str × List Str)) (drawn : List ShapeRead) (looks : List Node) : Prop where
  out : ∃ (l r : List Item) (e : Bool), t!"\n" ++ d = itemsXml (l ++ r) ++ (if e then t!"\n" else [])
    ∧ (∀ i ∈ l ++ r, ReadsTagged i.xml [i.node]) ∧ boxes (l.map (·.node)) = text
    ∧ (∀ i ∈ r, ∃ as ks, i.node = .elem c!"p:sp" as ks) ∧ r.map (fun i => readShape i.node) = drawn
    ∧ looks <+: elemsL c!"a:rPr" (l.map (·.node))

/-- The block of a title. -/
def titleItem (p : Place) (t : Str) (q : TextProps) : Item where
  xml := titleBox 2 p t q c!"title"
  node := textNodeOf (dec 2) c!"Title" [(c!"type", c!"title")] (xfrmLine p) [nl, E c!"a:p" [] (lines [runNode q t])]

theorem boxes_titleItem (p : Place) (t : Str) (q : TextProps) (l : List Node) :
    boxes ((titleItem p t q).node :: l) = (some c!"Title", [t]) :: boxes l := by
  have := boxes_text l (dec 2) c!"Title" [(c!"type", c!"title")] p false [nl, E c!"a:p" [] (lines [runNode q t])]
  simp only [Bool.false_eq_true, if_false] at this
  unfold titleItem
  rw [this]
  have : runsL [nl, E c!"a:p" [] (lines [runNode q t])] = (runs (runNode q t) ++ []) ++ [] := by krfl
  rw [this, runs_run]
  rfl

/-- The block of a centred title. -/
def centeredItem (p : Place) (t : Str) (q : TextProps) : Item where
  xml := centeredBox 2 p t q
  node := textNodeOf (dec 2) c!"Title" [(c!"type", c!"ctrTitle")] (xfrmLine p)
    [nl, E c!"a:p" [] (lines [E c!"a:pPr" [(c!"algn", c!"ctr")] [], runNode q t])]

theorem boxes_centeredItem (p : Place) (t : Str) (q : TextProps) (l : List Node) :
    boxes ((centeredItem p t q).node :: l) = (some c!"Title", [t]) :: boxes l := by
  have := boxes_text l (dec 2) c!"Title" [(c!"type", c!"ctrTitle")] p false
    [nl, E c!"a:p" [] (lines [E c!"a:pPr" [(c!"algn", c!"ctr")] [], runNode q t])]
  simp only [Bool.false_eq_true, if_false] at this
  unfold centeredItem
  rw [this]
  have : runsL [nl, E c!"a:p" [] (lines [E c!"a:pPr" [(c!"algn", c!"ctr")] [], runNode q t])]
      = (runs (runNode q t) ++ []) ++ [] := by krfl
  rw [this, runs_run]
  rfl

/-- The block of a body. -/
def bodyItem (p : Place) (d : TextProps) (l : List BulletPoint) : Item where
  xml := bodyBlock (bodyOpen 3 p) d l
  node := textNodeOf (dec 3) c!"Content" [(c!"type", c!"body"), (c!"idx", c!"1")] (xfrmLine p)
    (paraNodes d (l.map noFormat))

theorem boxes_bodyItem (p : Place) (d : TextProps) (l : List BulletPoint) (r : List Node) :
    boxes ((bodyItem p d l).node :: r) = (some c!"Content", l.map (·.text)) :: boxes r := by
  have := boxes_text r (dec 3) c!"Content" [(c!"type", c!"body"), (c!"idx", c!"1")] p false
    (paraNodes d (l.map noFormat))
  simp only [Bool.false_eq_true, if_false] at this
  unfold bodyItem
  rw [this, runsL_paras, texts_noFormat]

/-- The blocks of a body, if there are bullets. -/
def bodyItems (p : Place) (d : TextProps) (l : List BulletPoint) : List Item :=
  if l = [] then [] else [bodyItem p d l]

theorem bodyXml_items (p : Place) (d : TextProps) (l : List BulletPoint) :
    t!"\n" ++ bodyXml p d l = itemsXml (bodyItems p d l) ++ t!"\n" := by
  unfold bodyXml bodyItems
  by_cases h : l = []
  · simp [h, itemsXml]
  · rw [if_pos h, if_neg h]
    unfold startBody
    rw [body_shift]
    simp [itemsXml, Item.gap, bodyItem]

theorem bodyItems_ok (p : Place) {d : TextProps} {l : List BulletPoint} (hd : d.Safe) (hl : ∀ b ∈ l, b.Safe) :
    ∀ i ∈ bodyItems p d l, ReadsTagged i.xml [i.node] := by
  unfold bodyItems
  split
  · simp
  · intro i hi
    rw [List.mem_singleton.mp hi]
    exact readsTagged_body 3 p hd hl

theorem boxes_bodyItems (p : Place) (d : TextProps) (s : SlideText) :
    boxes ((bodyItems p d s.effective).map (·.node))
      = if s.texts = [] then [] else [(some c!"Content", s.texts)] := by
  have e : s.effective = [] ↔ s.texts = [] := by rw [← effective_texts, List.map_eq_nil_iff]
  unfold bodyItems
  by_cases h : s.texts = []
  · rw [if_pos (e.mpr h), if_pos h]
    rfl
  · rw [if_neg (mt e.mp h), if_neg h]
    simp only [List.map_cons, List.map_nil, boxes_bodyItem, effective_texts]
    rfl

/-- The blocks of the columns. -/
def columnItems (d : TextProps) (l : List BulletPoint) : List Item :=
  if 0 < l.length then
    { wide := true
      xml := bodyBlock leftOpen d (l.take ((l.length + 1) / 2))
      node := textNodeOf (dec 3) c!"Left Content" [(c!"type", c!"body"), (c!"idx", c!"1")]
        (xfrmLines ⟨457200, 1189200, 4115100, 5668800⟩)
        (paraNodes d ((l.take ((l.length + 1) / 2)).map noFormat)) } ::
    if (l.length + 1) / 2 < l.length then
      [{ wide := true
         xml := bodyBlock rightOpen d (l.drop ((l.length + 1) / 2))
         node := textNodeOf (dec 4) c!"Right Content" [(c!"type", c!"body"), (c!"idx", c!"2")]
          (xfrmLines ⟨4572300, 1189200, 4115100, 5668800⟩)
          (paraNodes d ((l.drop ((l.length + 1) / 2)).map noFormat)) }]
    else []
  else []

theorem columnsXml_items (d : TextProps) (l : List BulletPoint) :
    t!"\n" ++ columnsXml d l = itemsXml (columnItems d l) ++ t!"\n" := by
  unfold columnsXml columnItems
  by_cases h : 0 < l.length
  · have hl := body_shift (t!"\n" ++ leftOpen) d (l.take ((l.length + 1) / 2))
    have hr := body_shift (t!"\n" ++ rightOpen) d (l.drop ((l.length + 1) / 2))
    by_cases h2 : (l.length + 1) / 2 < l.length
    · simp only [h, h2, if_true, startLeft, startRight]
      rw [hl, hr]
      simp [itemsXml, Item.gap, bodyBlock]
    · simp only [h, h2, if_true, if_false, startLeft]
      rw [hl]
      simp [itemsXml, Item.gap, bodyBlock]
  · simp [h, itemsXml]

theorem columnItems_ok {d : TextProps} {l : List BulletPoint} (hd : d.Safe) (hl : ∀ b ∈ l, b.Safe) :
    ∀ i ∈ columnItems d l, ReadsTagged i.xml [i.node] := by
  have h1 := readsTagged_left hd (l := l.take ((l.length + 1) / 2)) fun b hb => hl b (List.mem_of_mem_take hb)
  have h2 := readsTagged_right hd (l := l.drop ((l.length + 1) / 2)) fun b hb => hl b (List.mem_of_mem_drop hb)
  unfold columnItems
  split
  · split
    · intro i hi
      simp only [List.mem_cons, List.not_mem_nil, or_false] at hi
      rcases hi with rfl | rfl
      · exact h1
      · exact h2
    · intro i hi
      rw [List.mem_singleton.mp hi]
      exact h1
  · simp

theorem boxes_columnItems (d : TextProps) (s : SlideText) :
    boxes ((columnItems d s.effective).map (·.node)) =
      (if 1 ≤ s.texts.length then
        [(some c!"Left Content", s.texts.take ((s.texts.length + 1) / 2))] else [])
      ++ (if 2 ≤ s.texts.length then
        [(some c!"Right Content", s.texts.drop ((s.texts.length + 1) / 2))] else []) := by
  unfold columnItems
  have e1 : (0 < s.effective.length) = (1 ≤ s.texts.length) := by rw [effective_length]; rfl
  have e2 : ((s.effective.length + 1) / 2 < s.effective.length) = (2 ≤ s.texts.length) := by
    rw [effective_length]; exact propext (by omega)
  have hb := fun (l : List Node) (id name : Str) (ph : List (Str × Str)) (p : Place) (ks : List Node) =>
    boxes_text l id name ph p true ks
  simp only [if_true] at hb
  simp only [e1, e2]
  by_cases h1 : 1 ≤ s.texts.length
  · by_cases h2 : 2 ≤ s.texts.length
    · simp only [h1, h2, if_true, List.map_cons, List.map_nil, hb, runsL_paras, texts_noFormat,
        List.map_take, List.map_drop, effective_texts, effective_length]
      rfl
    · simp only [h1, h2, if_true, if_false, List.map_cons, List.map_nil, List.append_nil, hb, runsL_paras,
        texts_noFormat, List.map_take, effective_texts, effective_length]
      rfl
  · have h2 : ¬ 2 ≤ s.texts.length := by omega
    simp only [h1, h2, if_false]
    rfl

theorem itemsXml_append (a b : List Item) : itemsXml (a ++ b) = itemsXml a ++ itemsXml b := by
  simp [itemsXml]

theorem itemsXml_cons (a : Item) (b : List Item) : itemsXml (a :: b) = a.gap ++ a.xml ++ itemsXml b := rfl

theorem titleItem_ok (p : Place) (t : Str) {q : TextProps} (hq : q.Safe) :
    ReadsTagged (titleItem p t q).xml [(titleItem p t q).node] :=
  readsTagged_titleBox 2 p t hq (plain_of (by decide))

/-! ### The properties of the runs -/

theorem rpr_text (id name : Str) (ph : List (Str × Str)) (p : Place) (two : Bool) (ks l : List Node) :
    elemsL c!"a:rPr" (textNodeOf id name ph (if two then xfrmLines p else xfrmLine p) ks :: l)
      = elemsL c!"a:rPr" ks ++ elemsL c!"a:rPr" l := by
  have : elemsL c!"a:rPr" (textNodeOf id name ph (if two then xfrmLines p else xfrmLine p) ks :: l)
      = (elemsL c!"a:rPr" (ks ++ [nl]) ++ []) ++ elemsL c!"a:rPr" l := by
    cases two <;> krfl
  rw [this, elemsL_append, List.append_nil]
  simp [elemsL, elems, nl]

theorem rpr_titleItem (p : Place) (t : Str) (q : TextProps) (l : List Node) :
    elemsL c!"a:rPr" ((titleItem p t q).node :: l) = q.node :: elemsL c!"a:rPr" l := by
  have := rpr_text (dec 2) c!"Title" [(c!"type", c!"title")] p false [nl, E c!"a:p" [] (lines [runNode q t])] l
  simp only [Bool.false_eq_true, if_false] at this
  unfold titleItem
  rw [this]
  have : elemsL c!"a:rPr" [nl, E c!"a:p" [] (lines [runNode q t])] = (([q.node] ++ (elemsL c!"a:rPr" (addText [] t) ++ [])) ++ []) ++ [] := by krfl
  rw [this, elemsL_addText]
  rfl

theorem rpr_centeredItem (p : Place) (t : Str) (q : TextProps) (l : List Node) :
    elemsL c!"a:rPr" ((centeredItem p t q).node :: l) = q.node :: elemsL c!"a:rPr" l := by
  have := rpr_text (dec 2) c!"Title" [(c!"type", c!"ctrTitle")] p false
    [nl, E c!"a:p" [] (lines [E c!"a:pPr" [(c!"algn", c!"ctr")] [], runNode q t])] l
  simp only [Bool.false_eq_true, if_false] at this
  unfold centeredItem
  rw [this]
  have : elemsL c!"a:rPr" [nl, E c!"a:p" [] (lines [E c!"a:pPr" [(c!"algn", c!"ctr")] [], runNode q t])]
      = (([q.node] ++ (elemsL c!"a:rPr" (addText [] t) ++ [])) ++ []) ++ [] := by krfl
  rw [this, elemsL_addText]
  rfl

theorem rpr_paras (d : TextProps) (l : List BulletPoint) :
    elemsL c!"a:rPr" (paraNodes d (l.map noFormat)) = List.replicate l.length d.node := by
  unfold paraNodes
  induction l with
  | nil => rfl
  | cons b l ih =>
    rw [List.map_cons, List.flatMap_cons, elemsL_append, ih, List.length_cons, List.replicate_succ]
    have : elemsL c!"a:rPr" [nl, paraNode d (noFormat b)] = elems c!"a:rPr" (paraNode d (noFormat b)) ++ [] := by
      simp [elemsL, elems, nl]
    rw [this, Props.elems_rpr]
    rfl

theorem rpr_bodyItems (p : Place) (d : TextProps) (l : List BulletPoint) :
    elemsL c!"a:rPr" ((bodyItems p d l).map (·.node)) = List.replicate l.length d.node := by
  unfold bodyItems
  split
  · rename_i h
    rw [h]
    rfl
  · have := rpr_text (dec 3) c!"Content" [(c!"type", c!"body"), (c!"idx", c!"1")] p false (paraNodes d (l.map noFormat)) []
    simp only [Bool.false_eq_true, if_false, rpr_paras] at this
    simp only [List.map_cons, List.map_nil, bodyItem]
    rw [this]
    simp [elemsL]

theorem rpr_columnItems (d : TextProps) (l : List BulletPoint) :
    elemsL c!"a:rPr" ((columnItems d l).map (·.node)) = List.replicate l.length d.node := by
  have hb := fun (id name : Str) (ph : List (Str × Str)) (p : Place) (k : List BulletPoint) (r : List Node) =>
    rpr_text id name ph p true (paraNodes d (k.map noFormat)) r
  simp only [if_true, rpr_paras] at hb
  have hn : elemsL c!"a:rPr" [] = [] := rfl
  unfold columnItems
  by_cases h1 : 0 < l.length
  · by_cases h2 : (l.length + 1) / 2 < l.length
    · simp only [h1, h2, if_true, List.map_cons, List.map_nil, hb, hn, List.append_nil]
      rw [List.replicate_append_replicate, List.length_take, List.length_drop]
      congr 1
      omega
    · simp only [h1, h2, if_true, if_false, List.map_cons, List.map_nil, hb, hn, List.append_nil, List.length_take]
      congr 1
      omega
  · simp only [h1, if_false]
    have : l.length = 0 := by omega
    rw [this]
    rfl

/-- The properties of the runs of title and bullets. -/
def _root_.PptRs.Layouts.Page.runNodes (p : Page) : List Node :=
  match p.text.layout with
  | .blank => []
  | .titleOnly | .centeredTitle | .sectionHeader => [p.titleProps.node]
  | .titleAndBigContent => p.titleProps.node :: List.replicate p.text.texts.length p.contentProps.node
  | .twoColumn => p.columnTitleProps.node :: List.replicate p.text.texts.length p.columnProps.node
  | .titleAndContent =>
    p.titleProps.node :: if p.text.table.isSome then [] else List.replicate p.text.texts.length p.contentProps.node

/-- The blocks of every slide. -/
theorem page_blocks {fontSize : Str → Nat → Nat → Nat} {p : Page} {d : List Part} (h : p.Safe)
    (e : p.drawing fontSize = some d) : Blocks d p.text.expected p.drawnExpected p.runNodes := by
  have hq1 : p.titleProps.Safe := withBasic_safe h.text.titleColor
  have hq2 : p.columnTitleProps.Safe := withBasic_safe h.text.titleColor
  have hd1 : p.contentProps.Safe := withBasic_safe h.text.contentColor
  have hd2 : p.columnProps.Safe := withBasic_safe h.text.contentColor
  have hl := effective_safe h.text
  unfold Page.drawing at e
  unfold SlideText.expected Page.drawnExpected Page.runNodes
  constructor
  cases hlay : p.text.layout
  case blank =>
    rw [hlay] at e
    obtain rfl := Option.some.inj e
    exact ⟨[], [], true, rfl, by simp, rfl, by simp, rfl, by simp⟩
  case titleOnly =>
    rw [hlay] at e
    obtain rfl := Option.some.inj e
    refine ⟨[titleItem ⟨457200, 274638, 8230200, 1143000⟩ p.text.title p.titleProps], [], true, ?_, ?_, ?_,
      by simp, rfl, by rw [List.map_cons, rpr_titleItem]; exact ⟨_, rfl⟩⟩
    · simp only [addTitle, itemsXml, titleItem, Item.gap]
      simp
    · simpa using titleItem_ok _ _ hq1
    · simp only [List.map_cons, List.map_nil, boxes_titleItem]
      rfl
  case centeredTitle =>
    rw [hlay] at e
    obtain rfl := Option.some.inj e
    refine ⟨[centeredItem ⟨457200, 2743200, 8230200, 1371600⟩ p.text.title p.titleProps], [], true, ?_, ?_, ?_,
      by simp, rfl, by rw [List.map_cons, rpr_centeredItem]; exact ⟨_, rfl⟩⟩
    · simp only [addCentered, itemsXml, centeredItem, Item.gap]
      simp
    · intro i hi
      rw [List.mem_singleton.mp hi]
      exact readsTagged_centeredBox 2 _ _ hq1
    · simp only [List.map_cons, List.map_nil, boxes_centeredItem]
      rfl
  case sectionHeader =>
    rw [hlay] at e
    obtain rfl := Option.some.inj e
    refine ⟨[centeredItem ⟨457200, 2743200, 8230200, 1371600⟩ p.text.title p.titleProps], [], true, ?_, ?_, ?_,
      by simp, rfl, by rw [List.map_cons, rpr_centeredItem]; exact ⟨_, rfl⟩⟩
    · simp only [addCentered, itemsXml, centeredItem, Item.gap]
      simp
    · intro i hi
      rw [List.mem_singleton.mp hi]
      exact readsTagged_centeredBox 2 _ _ hq1
    · simp only [List.map_cons, List.map_nil, boxes_centeredItem]
      rfl
  case titleAndBigContent =>
    rw [hlay] at e
    obtain rfl := Option.some.inj e
    refine ⟨titleItem ⟨457200, 274638, 8230200, 914400⟩ p.text.title p.titleProps
      :: bodyItems ⟨457200, 1189200, 8230200, 5668800⟩ p.contentProps p.text.effective, [], true, ?_, ?_, ?_,
      by simp, rfl, by rw [List.map_cons, rpr_titleItem, rpr_bodyItems, effective_length]; exact List.prefix_refl _⟩
    · rw [List.append_nil, itemsXml_cons, if_pos rfl, List.append_assoc, ← bodyXml_items]
      simp only [addTitle, titleItem, Item.gap, Bool.false_eq_true, if_false, List.append_assoc]
    · rw [List.append_nil]
      intro i hi
      rcases List.mem_cons.mp hi with rfl | hi
      · exact titleItem_ok _ _ hq1
      · exact bodyItems_ok _ hd1 hl i hi
    · rw [List.map_cons, boxes_titleItem, boxes_bodyItems]
      rfl
  case twoColumn =>
    rw [hlay] at e
    obtain rfl := Option.some.inj e
    refine ⟨titleItem ⟨457200, 274638, 8230200, 914400⟩ p.text.title p.columnTitleProps
      :: columnItems p.columnProps p.text.effective, [], true, ?_, ?_, ?_, by simp, rfl,
      by rw [List.map_cons, rpr_titleItem, rpr_columnItems, effective_length]; exact List.prefix_refl _⟩
    · rw [List.append_nil, itemsXml_cons, if_pos rfl, List.append_assoc, ← columnsXml_items]
      simp only [addTitle, titleItem, Item.gap, Bool.false_eq_true, if_false, List.append_assoc]
    · rw [List.append_nil]
      intro i hi
      rcases List.mem_cons.mp hi with rfl | hi
      · exact titleItem_ok _ _ hq2
      · exact columnItems_ok hd2 hl i hi
    · rw [List.map_cons, boxes_titleItem, boxes_columnItems]
      rfl
  case titleAndContent =>
    rw [hlay] at e
    simp only [Option.map_eq_some_iff] at e
    obtain ⟨s, hs, rfl⟩ := e
    obtain ⟨m1, a1, a2, a3, a4, a5⟩ := shapesXml_items h.shapes hs
    obtain ⟨m2, b1, b2, b3, b4, b5⟩ := placeholders_items p.images (20 + p.shapes.length)
    have c2 : ∀ i ∈ m1 ++ m2, i.wide = false := fun i hi =>
      (List.mem_append.mp hi).elim (a2 i) (b2 i)
    have c3 : ∀ i ∈ m1 ++ m2, ReadsTagged i.xml [i.node] := fun i hi =>
      (List.mem_append.mp hi).elim (a3 i) (b3 i)
    have c4 : ∀ i ∈ m1 ++ m2, ∃ as ks, i.node = .elem c!"p:sp" as ks := fun i hi =>
      (List.mem_append.mp hi).elim (a4 i) (b4 i)
    have c5 : (m1 ++ m2).map (fun i => readShape i.node)
        = (p.shapes.zipIdx.map fun s => s.1.expected (s.2 + 10))
          ++ p.images.zipIdx.map fun i => placeholderRead i.1 (i.2 + (20 + p.shapes.length)) := by
      rw [List.map_append, a5, b5]
      congr 1
      rw [@List.zipIdx_eq_map_add _ p.images (20 + p.shapes.length), List.map_map]
      refine List.map_congr_left fun x _ => ?_
      simp [Nat.add_comm]
    cases ht : p.text.table with
    | some t =>
      refine ⟨[titleItem ⟨457200, 274638, 8230200, 1143000⟩ p.text.title p.titleProps,
        { xml := tableXml t, node := tableNode t }], m1 ++ m2, false, ?_, ?_, ?_, c4, c5,
        by rw [List.map_cons, rpr_titleItem]; exact ⟨_, rfl⟩⟩
      · rw [itemsXml_append, itemsXml_append, ← a1, ← b1]
        simp only [itemsXml, addTitle, titleItem, Item.gap, Bool.false_eq_true, if_false, List.append_assoc,
          List.flatMap_cons, List.flatMap_nil, List.append_nil]
      · intro i hi
        rcases List.mem_append.mp hi with hi | hi
        · simp only [List.mem_cons, List.not_mem_nil, or_false] at hi
          rcases hi with rfl | rfl
          · exact titleItem_ok _ _ hq1
          · exact readsTagged_table (h.text.table t ht)
        · exact c3 i hi
      · simp only [List.map_cons, List.map_nil, boxes_titleItem, boxes_table]
        rfl
    | none =>
      refine ⟨titleItem ⟨457200, 274638, 8230200, 1143000⟩ p.text.title p.titleProps
        :: bodyItems ⟨457200, 1600200, 8230200, 4572000⟩ p.contentProps p.text.effective, widen (m1 ++ m2),
        decide (m1 ++ m2 = []), ?_, ?_, ?_, ?_, ?_, by rw [List.map_cons, rpr_titleItem, rpr_bodyItems, effective_length]; simp⟩
      · have hw := widen_xml c2
        simp only [decide_eq_true_eq]
        rw [itemsXml_append (titleItem _ _ _ :: _), List.append_assoc (itemsXml (titleItem _ _ _ :: _)), hw,
          itemsXml_cons, itemsXml_append, ← a1, ← b1]
        have hb := bodyXml_items ⟨457200, 1600200, 8230200, 4572000⟩ p.contentProps p.text.effective
        have : (titleItem ⟨457200, 274638, 8230200, 1143000⟩ p.text.title p.titleProps).gap
            ++ (titleItem ⟨457200, 274638, 8230200, 1143000⟩ p.text.title p.titleProps).xml
            ++ itemsXml (bodyItems ⟨457200, 1600200, 8230200, 4572000⟩ p.contentProps p.text.effective)
            ++ (t!"\n" ++ (s ++ placeholders (20 + p.shapes.length) p.images))
          = (titleItem ⟨457200, 274638, 8230200, 1143000⟩ p.text.title p.titleProps).gap
            ++ (titleItem ⟨457200, 274638, 8230200, 1143000⟩ p.text.title p.titleProps).xml
            ++ (itemsXml (bodyItems ⟨457200, 1600200, 8230200, 4572000⟩ p.contentProps p.text.effective)
            ++ t!"\n") ++ (s ++ placeholders (20 + p.shapes.length) p.images) := by
          simp only [List.append_assoc]
        rw [this, ← hb]
        simp only [addTitle, titleItem, Item.gap, Bool.false_eq_true, if_false, List.append_assoc]
      · intro i hi
        rcases List.mem_append.mp hi with hi | hi
        · rcases List.mem_cons.mp hi with rfl | hi
          · exact titleItem_ok _ _ hq1
          · exact bodyItems_ok _ hd1 hl i hi
        · exact widen_ok c3 i hi
      · rw [List.map_cons, boxes_titleItem, boxes_bodyItems]
        rfl
      · intro i hi
        have : i.node ∈ (widen (m1 ++ m2)).map (·.node) := List.mem_map_of_mem hi
        rw [widen_nodes] at this
        obtain ⟨j, hj, e⟩ := List.mem_map.mp this
        obtain ⟨as, ks, e2⟩ := c4 j hj
        exact ⟨as, ks, e.symm.trans e2⟩
      · rw [← c5]
        have := congrArg (List.map readShape) (widen_nodes (m1 ++ m2))
        simpa only [List.map_map, Function.comp_def] using this

end PptRs.Layouts
