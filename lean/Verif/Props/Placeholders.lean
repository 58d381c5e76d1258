import Verif.Props.Parts
import Verif.Props.PartOrder
import Verif.Props.Layouts
import Verif.Props.SlideText

/-!
# C163: placeholders
-/

namespace PptRs.Props

open PptRs PptRs.Spec PptRs.Draw PptRs.Layouts
open PptRs.Themes (txStyles constNodes)

/-! ### The layouts themselves -/

/-- A number in an attribute. -/
def numAttr (k : Str) (n : Node) : Nat := ((attrOf k n).bind parseU32?).getD 0

/-- The name of a layout. -/
def layoutName (doc : List Node) : Option Str := (elemsL c!"p:cSld" doc).head?.bind (attrOf c!"name")

/-- The ids of the objects. -/
def objectIds (doc : List Node) : List (Option Str) := (elemsL c!"p:cNvPr" doc).map (attrOf c!"id")

/-- The places of the shapes: left, top, width, height. -/
def shapePlaces (doc : List Node) : List (Nat × Nat × Nat × Nat) :=
  (elemsL c!"p:sp" doc).flatMap fun s => (elems c!"a:xfrm" s).map fun f =>
    let off := (elems c!"a:off" f).head?.getD (.text [])
    let ext := (elems c!"a:ext" f).head?.getD (.text [])
    (numAttr c!"x" off, numAttr c!"y" off, numAttr c!"cx" ext, numAttr c!"cy" ext)

/-- Places that do not overlap. -/
def NoOverlap (a b : Nat × Nat × Nat × Nat) : Prop :=
  a.1 + a.2.2.1 ≤ b.1 ∨ b.1 + b.2.2.1 ≤ a.1 ∨ a.2.1 + a.2.2.2 ≤ b.2.1 ∨ b.2.1 + b.2.2.2 ≤ a.2.1

instance : DecidableRel NoOverlap := fun _ _ => inferInstanceAs (Decidable (_ ∨ _ ∨ _ ∨ _))

/-- What users read in the list of layouts. -/
def layoutTitle : SlideLayout → Str
  | .centeredTitle => c!"Title Slide"
  | .titleAndContent => c!"Title and Content"
  | .twoColumn => c!"Two Content"
  | .sectionHeader => c!"Section Header"
  | .blank => c!"Blank"
  | .titleOnly => c!"Title Only"
  | .titleAndBigContent => c!"Title and Big Content"

/-- **C163.** Every layout has the name of what was asked for, which is different for different layouts, objects with different ids, and
placeholders that are on the slide of standard size, have an area and do not overlap. -/
theorem C163_layouts (l : SlideLayout) :
    ∃ doc, document (createSlideLayoutXml l.layoutNumber) = some doc ∧ layoutName doc = some (layoutTitle l) ∧
      (objectIds doc).Nodup ∧ (shapePlaces doc).length = (layoutPlaceholders doc).length ∧ (shapePlaces doc).Pairwise NoOverlap ∧
      (∀ b ∈ shapePlaces doc, 0 < b.2.2.1 ∧ 0 < b.2.2.2 ∧ b.1 + b.2.2.1 ≤ 9144000 ∧ b.2.1 + b.2.2.2 ≤ 6858000) := by
  have key : (document (createSlideLayoutXml l.layoutNumber)).any (fun doc => decide (layoutName doc = some (layoutTitle l) ∧
      (objectIds doc).Nodup ∧ (shapePlaces doc).length = (layoutPlaceholders doc).length ∧ (shapePlaces doc).Pairwise NoOverlap ∧
      (∀ b ∈ shapePlaces doc, 0 < b.2.2.1 ∧ 0 < b.2.2.2 ∧ b.1 + b.2.2.1 ≤ 9144000 ∧ b.2.1 + b.2.2.2 ≤ 6858000))) = true := by
    cases l <;> krfl
  cases h : document (createSlideLayoutXml l.layoutNumber) with
  | none => rw [h] at key; cases key
  | some doc =>
    rw [h] at key
    exact ⟨doc, rfl, of_decide_eq_true key⟩

theorem C163_names (a b : SlideLayout) (h : layoutTitle a = layoutTitle b) : a = b := by
  revert h
  cases a <;> cases b <;> decide

example : (document (createSlideLayoutXml 3)).map shapePlaces =
    some [(457200, 274638, 8229600, 1143000), (457200, 1600200, 4025400, 4525963), (4661400, 1600200, 4025400, 4525963)] := by krfl

/-! ### The slide master -/

/-- The ids of the layouts in a slide master. -/
def layoutIds (doc : List Node) : List Nat := (elemsL c!"p:sldLayoutId" doc).map (numAttr c!"id")

theorem objectIds_append (a b : List Node) : objectIds (a ++ b) = objectIds a ++ objectIds b := by simp [objectIds, elemsL_append]

theorem shapePlaces_append (a b : List Node) : shapePlaces (a ++ b) = shapePlaces a ++ shapePlaces b := by
  simp [shapePlaces, elemsL_append]

theorem ids_footer (i : Nat) (t : Str) : objectIds [masterFooterNode i t] = [some (dec i)] := by
  cases t <;> krfl

theorem places_footer (i : Nat) (t : Str) : shapePlaces [masterFooterNode i t] = [(3124200, 6356350, 2895600, 365125)] := by
  cases t <;> krfl

theorem ids_header (i : Nat) : objectIds [placeholderNode i c!"Header Placeholder" c!"hdr" none 312420 213360 8519760 365125] = [some (dec i)] := by krfl
theorem places_header (i : Nat) : shapePlaces [placeholderNode i c!"Header Placeholder" c!"hdr" none 312420 213360 8519760 365125] =
    [(312420, 213360, 8519760, 365125)] := by krfl
theorem ids_date (i : Nat) : objectIds [masterDateNode i] = [some (dec i)] := by krfl
theorem places_date (i : Nat) : shapePlaces [masterDateNode i] = [(457200, 6356350, 2133600, 365125)] := by krfl
theorem ids_number (i : Nat) : objectIds [masterNumberNode i] = [some (dec i)] := by krfl
theorem places_number (i : Nat) : shapePlaces [masterNumberNode i] = [(8610600, 6356350, 533400, 365125)] := by krfl

/-- What is demanded of the shapes of a slide master. -/
def MasterShapesOk (l : List Node) : Prop :=
  (some c!"1" :: objectIds l).Nodup ∧ (shapePlaces l).Pairwise NoOverlap ∧
    (∀ b ∈ shapePlaces l, 0 < b.2.2.1 ∧ 0 < b.2.2.2 ∧ b.1 + b.2.2.1 ≤ 9144000 ∧ b.2.1 + b.2.2.2 ≤ 6858000)

theorem masterShapes_ok (p : PrintIn) : MasterShapesOk (masterShapes (some p)) := by
  obtain ⟨hd, ft, pd, pn⟩ := p
  have n0 : objectIds [] = [] := rfl
  have n1 : shapePlaces [] = [] := rfl
  unfold MasterShapesOk
  cases hd <;> cases ft <;> cases pd <;> cases pn <;>
    simp only [masterShapes, Option.toList, List.flatMap_nil, List.flatMap_cons, objectIds_append, shapePlaces_append, ids_footer, ids_header,
      ids_date, ids_number, places_footer, places_header, places_date, places_number, n0, n1, if_true, if_false, Bool.false_eq_true,
      Option.isSome_none, Option.isSome_some, List.append_nil, List.nil_append] <;> decide +kernel

/-- **C163.** On the slide master, whatever header, footer, date and number were asked for, the objects have different ids, the placeholders are on the
slide and do not overlap, and the layouts have different ids, all of them greater than the id of the slide master, which is 2147483648. -/
theorem C163_master (p : PrintIn) :
    ∃ doc, document (createSlideMasterXml txStyles (some p)) = some doc ∧ (objectIds doc).Nodup ∧ (shapePlaces doc).Pairwise NoOverlap ∧
      (∀ b ∈ shapePlaces doc, 0 < b.2.2.1 ∧ 0 < b.2.2.2 ∧ b.1 + b.2.2.1 ≤ 9144000 ∧ b.2.1 + b.2.2.2 ≤ 6858000) ∧
      (layoutIds doc).Nodup ∧ (layoutIds doc).length = 7 ∧ ∀ i ∈ layoutIds doc, 2147483648 < i ∧ i < 2 ^ 32 := by
  have hi : ∀ ks, objectIds (masterDoc (constNodes (fmt txStyles)) ks) = some c!"1" :: objectIds ks := by
    intro ks
    have : objectIds (masterDoc (constNodes (fmt txStyles)) ks) = some c!"1" :: (elemsL c!"p:cNvPr" ks ++ []).map (attrOf c!"id") := by
      have e : elemsL c!"p:cNvPr" (masterTailDoc masterIdNodes (constNodes (fmt txStyles))) = [] := by krfl
      have e2 : elemsL c!"p:cNvPr" (masterDoc (constNodes (fmt txStyles)) ks) =
          (E c!"p:cNvPr" [(c!"id", c!"1"), (c!"name", [])] [] :: (elemsL c!"p:cNvPr" ks ++ []) ++
            elemsL c!"p:cNvPr" (masterTailDoc masterIdNodes (constNodes (fmt txStyles)) ++ [nl])) ++ [] := by krfl
      rw [objectIds, e2, elemsL_append, e]
      simp [elemsL, elems, nl, E, attrOf]
    rw [this, List.append_nil]
    rfl
  have hp : ∀ ks, shapePlaces (masterDoc (constNodes (fmt txStyles)) ks) = shapePlaces ks := by
    intro ks
    have e : elemsL c!"p:sp" (masterTailDoc masterIdNodes (constNodes (fmt txStyles))) = [] := by krfl
    have e2 : elemsL c!"p:sp" (masterDoc (constNodes (fmt txStyles)) ks) = ((elemsL c!"p:sp" ks ++ []) ++
        elemsL c!"p:sp" (masterTailDoc masterIdNodes (constNodes (fmt txStyles)) ++ [nl])) ++ [] := by krfl
    rw [shapePlaces, e2, elemsL_append, e]
    simp [elemsL, elems, nl, shapePlaces]
  have hl : ∀ ks, elemsL c!"p:sldLayoutId" ks = [] → layoutIds (masterDoc (constNodes (fmt txStyles)) ks) = (List.range 7).map (2147483649 + ·) := by
    intro ks h
    have e2 : elemsL c!"p:sldLayoutId" (masterDoc (constNodes (fmt txStyles)) ks) = ((elemsL c!"p:sldLayoutId" ks ++ []) ++
        elemsL c!"p:sldLayoutId" (masterTailDoc masterIdNodes (constNodes (fmt txStyles)) ++ [nl])) ++ [] := by krfl
    rw [layoutIds, e2, h]
    krfl
  have fin : ∀ l : List Nat, l = (List.range 7).map (2147483649 + ·) → l.Nodup ∧ l.length = 7 ∧ ∀ i ∈ l, 2147483648 < i ∧ i < 2 ^ 32 := by
    rintro _ rfl
    decide +kernel
  have hs := C81_styles
  have ok := masterShapes_ok p
  have hlay : elemsL c!"p:sldLayoutId" (masterShapes (some p)) = [] := by
    obtain ⟨hd, ft, pd, pn⟩ := p
    have f : ∀ i t, elemsL c!"p:sldLayoutId" [masterFooterNode i t] = [] := by
      intro i t
      cases t <;> krfl
    have f1 : ∀ i, elemsL c!"p:sldLayoutId" [placeholderNode i c!"Header Placeholder" c!"hdr" none 312420 213360 8519760 365125] = [] := by
      intro i; krfl
    have f2 : ∀ i, elemsL c!"p:sldLayoutId" [masterDateNode i] = [] := by intro i; krfl
    have f3 : ∀ i, elemsL c!"p:sldLayoutId" [masterNumberNode i] = [] := by intro i; krfl
    have f4 : elemsL c!"p:sldLayoutId" [] = [] := rfl
    cases hd <;> cases ft <;> cases pd <;> cases pn <;>
      simp only [masterShapes, Option.toList, List.flatMap_nil, List.flatMap_cons, elemsL_append, f, f1, f2, f3, f4, if_true, if_false, Bool.false_eq_true,
        List.append_nil]
  rcases masterShapes_start p with hemp | hr
  · have hb : masterBody txStyles (some p) = masterBody txStyles none := by
      unfold masterBody
      rw [hemp]; rfl
    have hd : document (createSlideMasterXml txStyles (some p)) = some (masterDoc (constNodes (fmt txStyles)) [.text c!"\n\n"]) := by
      rw [createSlideMasterXml, hb]
      exact document_decl (readsNodes_master_empty hs.reads) ⟨_, rfl⟩
    refine ⟨_, hd, ?_, ?_, ?_, fin _ (hl _ rfl)⟩
    · rw [hi]; decide
    · rw [hp]; exact List.Pairwise.nil
    · rw [hp]; intro b hb; cases hb
  · have e0 : ∀ n, elemsL n [nl] = [] := fun _ => rfl
    have e1 : objectIds (nl :: masterShapes (some p) ++ [nl]) = objectIds (masterShapes (some p)) := by
      rw [List.cons_append, ← List.singleton_append, objectIds_append, objectIds_append]
      simp [objectIds, e0]
    have e2 : shapePlaces (nl :: masterShapes (some p) ++ [nl]) = shapePlaces (masterShapes (some p)) := by
      rw [List.cons_append, ← List.singleton_append, shapePlaces_append, shapePlaces_append]
      simp [shapePlaces, e0]
    refine ⟨_, document_decl (readsNodes_master hs.reads ((readsNodes_masterShapes _).tagged hr)) ⟨_, rfl⟩, ?_, ?_, ?_, fin _ (hl _ ?_)⟩
    · rw [hi, e1]; exact ok.1
    · rw [hp, e2]; exact ok.2.1
    · rw [hp, e2]; exact ok.2.2
    · have e3 : nl :: masterShapes (some p) ++ [nl] = [nl] ++ masterShapes (some p) ++ [nl] := rfl
      rw [e3, elemsL_append, elemsL_append, e0, hlay]
      rfl

example : (document (createSlideMasterXml txStyles (some ⟨some c!"h", some c!"f", true, true⟩))).map (fun d => (objectIds d).length) = some 5 := by krfl

/-! ### Text without placeholders -/

theorem ph_props (p : TextProps) : elems c!"p:ph" p.node = [] := by
  have : elems c!"p:ph" p.node = elemsL c!"p:ph" p.kids := by krfl
  rw [this]
  unfold TextProps.kids
  cases p.color <;> cases p.highlight <;> cases p.fontFamily <;> rfl

theorem ph_run (p : TextProps) (t : Str) : elems c!"p:ph" (runNode p t) = [] := by
  have : elems c!"p:ph" (runNode p t) = elems c!"p:ph" p.node ++ (elemsL c!"p:ph" (addText [] t) ++ []) := by krfl
  rw [this, ph_props, PptRs.elemsL_addText]
  rfl

theorem ph_style (b : BulletStyle) : elems c!"p:ph" b.node = [] := by cases b <;> krfl

theorem ph_para (d : TextProps) (b : BulletPoint) : elems c!"p:ph" (paraNode d b) = [] := by
  have : elems c!"p:ph" (paraNode d b) = (elems c!"p:ph" b.style.node ++ []) ++ (elems c!"p:ph" (runNode (bulletProps d b.format) b.text) ++ []) := by krfl
  rw [this, ph_style, ph_run]
  rfl

theorem ph_paras (d : TextProps) (l : List BulletPoint) : elemsL c!"p:ph" (paraNodes d l) = [] := by
  unfold paraNodes
  induction l with
  | nil => rfl
  | cons b l ih =>
    rw [List.flatMap_cons, elemsL_append, ih]
    have : elemsL c!"p:ph" [nl, paraNode d b] = elems c!"p:ph" (paraNode d b) ++ [] := by simp [elemsL, elems, nl]
    rw [this, ph_para]
    rfl

theorem ph_box (id name : Str) (x y cx cy : Nat) (as : List (Str × Str)) (ks l : List Node) :
    elemsL c!"p:ph" (boxNode id name x y cx cy as ks :: l) = elemsL c!"p:ph" ks ++ elemsL c!"p:ph" l := by
  have : elemsL c!"p:ph" (boxNode id name x y cx cy as ks :: l) = (elemsL c!"p:ph" (ks ++ [nl]) ++ []) ++ elemsL c!"p:ph" l := by krfl
  rw [this, elemsL_append]
  simp [elemsL, elems, nl]

theorem ph_title (t : Str) (p : TextProps) (x y cx cy : Nat) (al : Str) (l : List Node) :
    elemsL c!"p:ph" (titleNode t p x y cx cy al :: l) = elemsL c!"p:ph" l := by
  unfold titleNode
  rw [ph_box]
  have : elemsL c!"p:ph" [nl, E c!"a:p" [] (lines [E c!"a:pPr" [(c!"algn", al)] [], runNode p t])] = (elems c!"p:ph" (runNode p t) ++ []) ++ [] := by krfl
  rw [this, ph_run]
  rfl

theorem ph_nl (l : List Node) : elemsL c!"p:ph" (nl :: l) = elemsL c!"p:ph" l := by simp [elemsL, elems, nl]

theorem ph_cell (c : CellIn) : elems c!"p:ph" c.node = [] := by
  unfold CellIn.node
  split
  · have : ∀ as, elems c!"p:ph" (E c!"a:tc" as mergedCellKids) = [] := by intro as; krfl
    exact this _
  · have : ∀ as, elems c!"p:ph" (E c!"a:tc" as [E c!"a:txBody" [] [E c!"a:bodyPr" [] [], E c!"a:lstStyle" [] [], c.paraNode], c.propsNode]) =
        (elems c!"p:ph" c.paraNode ++ []) ++ (elems c!"p:ph" c.propsNode ++ []) := by intro as; krfl
    have h1 : elems c!"p:ph" c.paraNode = [] := by
      unfold CellIn.paraNode
      split
      · krfl
      · have e : ∀ ks, elems c!"p:ph" (E c!"a:p" [] ks) = elemsL c!"p:ph" ks := fun ks => by krfl
        have h : elemsL c!"p:ph" c.paraProps = [] := by
          unfold CellIn.paraProps
          split <;> rfl
        have h2 : elemsL c!"p:ph" [E c!"a:r" [] [c.runProps, E c!"a:t" [] (addText [] c.text)]] =
            (elems c!"p:ph" c.runProps ++ (elemsL c!"p:ph" (addText [] c.text) ++ [])) ++ [] := by krfl
        have h3 : elems c!"p:ph" c.runProps = [] := by
          unfold CellIn.runProps CellIn.runKids
          cases c.textColor <;> cases c.fontFamily <;> krfl
        rw [e, elemsL_append, h, h2, h3, PptRs.elemsL_addText]
        rfl
    have h2 : elems c!"p:ph" c.propsNode = [] := by
      unfold CellIn.propsNode
      cases c.backgroundColor <;> krfl
    rw [this, h1, h2]
    rfl

theorem ph_table (t : TableIn) (l : List Node) : elemsL c!"p:ph" (tableNode t :: l) = elemsL c!"p:ph" l := by
  have hc : elemsL c!"p:ph" (t.columnWidths.zipIdx.flatMap fun w => [columnNode w.1 w.2]) = [] := by
    rw [PptRs.elemsL_flatMap, List.flatMap_eq_nil_iff]
    intro w _
    krfl
  have hr : elemsL c!"p:ph" (t.rows.zipIdx.flatMap fun r => [rowNode r.1 r.2]) = [] := by
    rw [PptRs.elemsL_flatMap, List.flatMap_eq_nil_iff]
    intro r _
    have : elems c!"p:ph" (rowNode r.1 r.2) = elemsL c!"p:ph" (r.1.cells.flatMap (fun c => [c.node]) ++
      [extNode c!"{0D108BD9-81ED-4DB2-BD59-A6C34878D82A}" c!"a16:rowId" (10000 + r.2)]) := by krfl
    rw [this, elemsL_append, PptRs.elemsL_flatMap]
    have h2 : elemsL c!"p:ph" [extNode c!"{0D108BD9-81ED-4DB2-BD59-A6C34878D82A}" c!"a16:rowId" (10000 + r.2)] = [] := by krfl
    rw [h2, List.append_nil, List.flatMap_eq_nil_iff]
    exact fun c _ => ph_cell c
  have h : elemsL c!"p:ph" (tableNode t :: l) =
      ((((elemsL c!"p:ph" (t.columnWidths.zipIdx.flatMap fun w => [columnNode w.1 w.2]) ++
        elemsL c!"p:ph" (t.rows.zipIdx.flatMap fun r => [rowNode r.1 r.2])) ++ []) ++ []) ++ []) ++ elemsL c!"p:ph" l := by
    krfl
  rw [h, hc, hr]
  rfl

theorem ph_shapes (s : SlideText) : elemsL c!"p:ph" s.shapeNodes = [] := by
  have h0 : elemsL c!"p:ph" [] = [] := rfl
  have h1 : ∀ y cy d l, elemsL c!"p:ph" (oneColumnNodes y cy d l) = [] := by
    intro y cy d l
    unfold oneColumnNodes
    split
    · rw [ph_nl, ph_box, ph_paras]; rfl
    · rfl
  have h2 : ∀ d l, elemsL c!"p:ph" (twoColumnNodes d l) = [] := by
    intro d l
    unfold twoColumnNodes
    split
    · rw [elemsL_append, ph_nl, ph_box, ph_paras]
      split
      · rw [ph_nl, ph_box, ph_paras]; rfl
      · rfl
    · rfl
  unfold SlideText.shapeNodes
  cases s.layout <;> simp only [elemsL_append, ph_nl, ph_title, h0, h1, h2, List.append_nil]
  cases s.table with
  | none => simp [h1]
  | some t => simp [ph_nl, ph_table, h0]

/-- **C163 does not hold in full.** No slide of a written file has a placeholder among its text: title, bullets and tables are text boxes
and frames of their own, whatever the layout of the slide, which has placeholders for them. To an editor of presentations such a slide has
no title, its text is not in the outline, and it does not follow when the layout is changed. Only things drawn in addition (here `X`) could
have one. -/
theorem C163_slides_violated {s : SlideText} {X : List Node} (h : s.Safe) (hx : ReadsAs (fmt s.extra) X) :
    ∃ doc, document s.xml = some doc ∧ elemsL c!"p:ph" doc = elemsL c!"p:ph" X := by
  refine ⟨_, document_slide h hx, ?_⟩
  have ht : elemsL c!"p:ph" s.transition.nodes = [] := by cases s.transition <;> rfl
  have : elemsL c!"p:ph" [slideNode s.shapeNodes X s.transition.nodes]
      = (((elemsL c!"p:ph" (s.shapeNodes ++ X ++ [nl]) ++ []) ++ elemsL c!"p:ph" s.transition.nodes)) ++ [] := by krfl
  rw [this, ht, elemsL_append, elemsL_append, ph_shapes]
  simp [elemsL, elems, nl]

/-- A slide with a title and a bullet: its layout has two placeholders, it has none. -/
example : (document ((SlideText.new c!"A").addBullet c!"b").xml).map layoutPlaceholders = some [] ∧
    (document (createSlideLayoutXml SlideLayout.titleAndContent.layoutNumber)).map layoutPlaceholders =
      some [(some c!"title", none), (some c!"body", some c!"1")] := ⟨by krfl, by krfl⟩

/-! ### The second writer -/

theorem ph_text (id name : Str) (ph : List (Str × Str)) (p : Place) (two : Bool) (ks l : List Node) :
    elemsL c!"p:ph" (textNodeOf id name ph (if two then xfrmLines p else xfrmLine p) ks :: l) =
      E c!"p:ph" ph [] :: (elemsL c!"p:ph" ks ++ elemsL c!"p:ph" l) := by
  have : elemsL c!"p:ph" (textNodeOf id name ph (if two then xfrmLines p else xfrmLine p) ks :: l)
      = E c!"p:ph" ph [] :: ((elemsL c!"p:ph" (ks ++ [nl]) ++ []) ++ elemsL c!"p:ph" l) := by
    cases two <;> krfl
  rw [this, elemsL_append, List.append_nil]
  simp [elemsL, elems, nl]

theorem ph_titleItem (p : Place) (t : Str) (q : TextProps) (l : List Node) :
    elemsL c!"p:ph" ((titleItem p t q).node :: l) = E c!"p:ph" [(c!"type", c!"title")] [] :: elemsL c!"p:ph" l := by
  have := ph_text (dec 2) c!"Title" [(c!"type", c!"title")] p false [nl, E c!"a:p" [] (lines [runNode q t])] l
  simp only [Bool.false_eq_true, if_false] at this
  unfold titleItem
  rw [this]
  have : elemsL c!"p:ph" [nl, E c!"a:p" [] (lines [runNode q t])] = (elems c!"p:ph" (runNode q t) ++ []) ++ [] := by krfl
  rw [this, ph_run]
  rfl

theorem ph_centeredItem (p : Place) (t : Str) (q : TextProps) (l : List Node) :
    elemsL c!"p:ph" ((centeredItem p t q).node :: l) = E c!"p:ph" [(c!"type", c!"ctrTitle")] [] :: elemsL c!"p:ph" l := by
  have := ph_text (dec 2) c!"Title" [(c!"type", c!"ctrTitle")] p false
    [nl, E c!"a:p" [] (lines [E c!"a:pPr" [(c!"algn", c!"ctr")] [], runNode q t])] l
  simp only [Bool.false_eq_true, if_false] at this
  unfold centeredItem
  rw [this]
  have : elemsL c!"p:ph" [nl, E c!"a:p" [] (lines [E c!"a:pPr" [(c!"algn", c!"ctr")] [], runNode q t])] = (elems c!"p:ph" (runNode q t) ++ []) ++ [] := by krfl
  rw [this, ph_run]
  rfl

theorem ph_bodyItems (p : Place) (d : TextProps) (l : List BulletPoint) :
    elemsL c!"p:ph" ((bodyItems p d l).map (·.node)) = if l = [] then [] else [E c!"p:ph" [(c!"type", c!"body"), (c!"idx", c!"1")] []] := by
  unfold bodyItems
  split
  · rfl
  · have := ph_text (dec 3) c!"Content" [(c!"type", c!"body"), (c!"idx", c!"1")] p false (paraNodes d (l.map noFormat)) []
    simp only [Bool.false_eq_true, if_false, ph_paras] at this
    simp only [List.map_cons, List.map_nil, bodyItem]
    rw [this]
    rfl

theorem ph_columnItems (d : TextProps) (l : List BulletPoint) :
    elemsL c!"p:ph" ((columnItems d l).map (·.node)) = (if 1 ≤ l.length then [E c!"p:ph" [(c!"type", c!"body"), (c!"idx", c!"1")] []] else []) ++
      (if 2 ≤ l.length then [E c!"p:ph" [(c!"type", c!"body"), (c!"idx", c!"2")] []] else []) := by
  have hb := fun (id name : Str) (ph : List (Str × Str)) (p : Place) (k : List BulletPoint) (r : List Node) =>
    ph_text id name ph p true (paraNodes d (k.map noFormat)) r
  simp only [if_true, ph_paras] at hb
  have hn : elemsL c!"p:ph" [] = [] := rfl
  have e2 : ((l.length + 1) / 2 < l.length) = (2 ≤ l.length) := propext (by omega)
  unfold columnItems
  by_cases h1 : 1 ≤ l.length
  · have h1' : 0 < l.length := h1
    by_cases h2 : 2 ≤ l.length
    · simp only [h1, h1', e2, h2, if_true, List.map_cons, List.map_nil, hb, hn, List.append_nil, List.nil_append, List.cons_append]
    · simp only [h1, h1', e2, h2, if_true, if_false, List.map_cons, List.map_nil, hb, hn, List.append_nil]
  · have h1' : ¬ 0 < l.length := h1
    have h2 : ¬ 2 ≤ l.length := by omega
    simp only [h1, h1', h2, if_false]
    rfl

theorem ph_page (l : List Item) (e : Bool) :
    elemsL c!"p:ph" [pageNode (itemNodes l ++ if e then [nl] else [])] = elemsL c!"p:ph" (l.map (·.node)) := by
  have h1 : ∀ ks, elemsL c!"p:ph" [pageNode ks] = ((elemsL c!"p:ph" ks ++ []) ++ []) ++ [] := by intro ks; krfl
  have h2 : elemsL c!"p:ph" (if e then [nl] else []) = [] := by cases e <;> rfl
  rw [h1, elemsL_append, h2]
  simp only [List.append_nil]
  induction l with
  | nil => rfl
  | cons i l ih =>
    have : itemNodes (i :: l) = .text (if i.wide then c!"\n\n" else c!"\n") :: i.node :: itemNodes l := rfl
    rw [this, List.map_cons]
    simp only [elemsL, elems, List.nil_append, ih]

/-- The placeholders the second writer fills. -/
def filledPlaceholders (s : SlideText) : List (Str × Option Str) :=
  match s.layout with
  | .blank => []
  | .titleOnly => [(c!"title", none)]
  | .centeredTitle | .sectionHeader => [(c!"ctrTitle", none)]
  | .titleAndContent | .titleAndBigContent => (c!"title", none) :: if s.texts = [] then [] else [(c!"body", some c!"1")]
  | .twoColumn => (c!"title", none) :: ((if 1 ≤ s.texts.length then [(c!"body", some c!"1")] else []) ++
      if 2 ≤ s.texts.length then [(c!"body", some c!"2")] else [])

theorem second_placeholders {fontSize : Str → Nat → Nat → Nat} {p : Page} {x : Str} (h : p.Safe) (hs : p.shapes = []) (hi : p.images = [])
    (ht : p.text.table = none) (e : p.xml fontSize = some x) :
    ∃ doc, document x = some doc ∧ layoutPlaceholders doc = (filledPlaceholders p.text).map fun a => (some a.1, a.2) := by
  have hq1 : p.titleProps.Safe := withBasic_safe h.text.titleColor
  have hq2 : p.columnTitleProps.Safe := withBasic_safe h.text.titleColor
  have hd1 : p.contentProps.Safe := withBasic_safe h.text.contentColor
  have hd2 : p.columnProps.Safe := withBasic_safe h.text.contentColor
  have hl := effective_safe h.text
  have ee : p.text.effective = [] ↔ p.text.texts = [] := by rw [← effective_texts, List.map_eq_nil_iff]
  obtain ⟨d, hd, rfl⟩ : ∃ d, p.drawing fontSize = some d ∧ xmlDecl ++ fmt (head ++ d ++ tail) = x := by
    simpa [Page.xml] using e
  have main : ∀ l : List Item, t!"\n" ++ d = itemsXml l ++ (if true then t!"\n" else []) → (∀ i ∈ l, ReadsTagged i.xml [i.node]) →
      (elemsL c!"p:ph" (l.map (·.node))).map (fun b => (attrOf c!"type" b, attrOf c!"idx" b)) = (filledPlaceholders p.text).map (fun a => (some a.1, a.2)) →
      ∃ doc, document (xmlDecl ++ fmt (head ++ d ++ tail)) = some doc ∧
        layoutPlaceholders doc = (filledPlaceholders p.text).map fun a => (some a.1, a.2) := by
    intro l h1 h2 h3
    refine ⟨_, document_page h1 h2, ?_⟩
    unfold layoutPlaceholders
    rw [ph_page, h3]
  have one : ∀ (a b : Place), d = addTitle 2 a p.text.title p.titleProps c!"title" ++ bodyXml b p.contentProps p.text.effective →
      filledPlaceholders p.text = (c!"title", none) :: (if p.text.texts = [] then [] else [(c!"body", some c!"1")]) →
      ∃ doc, document (xmlDecl ++ fmt (head ++ d ++ tail)) = some doc ∧
        layoutPlaceholders doc = (filledPlaceholders p.text).map fun a => (some a.1, a.2) := by
    intro a b hd hf
    refine main (titleItem a p.text.title p.titleProps :: bodyItems b p.contentProps p.text.effective) ?_ ?_ ?_
    · rw [hd, itemsXml_cons, if_pos rfl, List.append_assoc, ← bodyXml_items]
      simp only [addTitle, titleItem, Item.gap, Bool.false_eq_true, if_false, List.append_assoc]
    · intro i hi
      rcases List.mem_cons.mp hi with rfl | hi
      · exact titleItem_ok _ _ hq1
      · exact bodyItems_ok _ hd1 hl i hi
    · rw [List.map_cons, ph_titleItem, ph_bodyItems, hf]
      by_cases h0 : p.text.texts = []
      · rw [if_pos (ee.mpr h0), if_pos h0]; rfl
      · rw [if_neg (mt ee.mp h0), if_neg h0]; rfl
  unfold Page.drawing at hd
  cases hlay : p.text.layout
  case blank =>
    rw [hlay] at hd
    obtain rfl := Option.some.inj hd
    exact main [] rfl (by simp) (by unfold filledPlaceholders; rw [hlay]; rfl)
  case titleOnly =>
    rw [hlay] at hd
    obtain rfl := Option.some.inj hd
    refine main [titleItem ⟨457200, 274638, 8230200, 1143000⟩ p.text.title p.titleProps] ?_ ?_ ?_
    · simp only [addTitle, itemsXml, titleItem, Item.gap]
      simp
    · simpa using titleItem_ok _ _ hq1
    · rw [List.map_cons, ph_titleItem]
      unfold filledPlaceholders
      rw [hlay]
      rfl
  case centeredTitle =>
    rw [hlay] at hd
    obtain rfl := Option.some.inj hd
    refine main [centeredItem ⟨457200, 2743200, 8230200, 1371600⟩ p.text.title p.titleProps] ?_ ?_ ?_
    · simp only [addCentered, itemsXml, centeredItem, Item.gap]
      simp
    · intro i hi
      rw [List.mem_singleton.mp hi]
      exact readsTagged_centeredBox 2 _ _ hq1
    · rw [List.map_cons, ph_centeredItem]
      unfold filledPlaceholders
      rw [hlay]
      rfl
  case sectionHeader =>
    rw [hlay] at hd
    obtain rfl := Option.some.inj hd
    refine main [centeredItem ⟨457200, 2743200, 8230200, 1371600⟩ p.text.title p.titleProps] ?_ ?_ ?_
    · simp only [addCentered, itemsXml, centeredItem, Item.gap]
      simp
    · intro i hi
      rw [List.mem_singleton.mp hi]
      exact readsTagged_centeredBox 2 _ _ hq1
    · rw [List.map_cons, ph_centeredItem]
      unfold filledPlaceholders
      rw [hlay]
      rfl
  case titleAndBigContent =>
    rw [hlay] at hd
    exact one _ _ (Option.some.inj hd).symm (by unfold filledPlaceholders; rw [hlay])
  case titleAndContent =>
    rw [hlay] at hd
    simp only [hs, hi, ht] at hd
    refine one ⟨457200, 274638, 8230200, 1143000⟩ ⟨457200, 1600200, 8230200, 4572000⟩ ?_ (by unfold filledPlaceholders; rw [hlay])
    · rw [← Option.some.inj hd]
      simp [Layouts.placeholders]
  case twoColumn =>
    rw [hlay] at hd
    obtain rfl := Option.some.inj hd
    refine main (titleItem ⟨457200, 274638, 8230200, 914400⟩ p.text.title p.columnTitleProps :: columnItems p.columnProps p.text.effective) ?_ ?_ ?_
    · rw [itemsXml_cons, if_pos rfl, List.append_assoc, ← columnsXml_items]
      simp only [addTitle, titleItem, Item.gap, Bool.false_eq_true, if_false, List.append_assoc]
    · intro i hi
      rcases List.mem_cons.mp hi with rfl | hi
      · exact titleItem_ok _ _ hq2
      · exact columnItems_ok hd2 hl i hi
    · rw [List.map_cons, ph_titleItem, ph_columnItems, effective_length]
      unfold filledPlaceholders
      rw [hlay]
      by_cases h1 : 1 ≤ p.text.texts.length <;> by_cases h2 : 2 ≤ p.text.texts.length <;> simp only [h1, h2, if_true, if_false] <;> rfl

/-- **C163, for the second writer.** A slide of `create_slide_xml_for_layout` without shapes, pictures and table has its title and its
bullets in placeholders, and these are placeholders of the layout, except on section headers (see below). What is missing is the slides of
written files, which are made by the first writer. -/
theorem C163_second_partial {fontSize : Str → Nat → Nat → Nat} {p : Page} {x : Str} (h : p.Safe) (hs : p.shapes = []) (hi : p.images = [])
    (ht : p.text.table = none) (e : p.xml fontSize = some x) (hl : p.text.layout ≠ .sectionHeader) :
    ∃ doc lay, document x = some doc ∧ document (createSlideLayoutXml p.text.layout.layoutNumber) = some lay ∧
      (layoutPlaceholders doc).Sublist (layoutPlaceholders lay) ∧
      (layoutPlaceholders doc).length = p.text.expected.length := by
  obtain ⟨doc, h1, h2⟩ := second_placeholders h hs hi ht e
  obtain ⟨lay, h3, -, h4⟩ := C80_layout p.text.layout
  refine ⟨doc, lay, h1, h3, ?_, ?_⟩
  · rw [h2, h4]
    unfold filledPlaceholders layoutMeaning
    cases hlay : p.text.layout
    case sectionHeader => exact absurd hlay hl
    case twoColumn =>
      by_cases h1 : 1 ≤ p.text.texts.length <;> by_cases h2 : 2 ≤ p.text.texts.length <;> simp only [h1, h2, if_true, if_false] <;> decide
    case titleAndContent => by_cases h0 : p.text.texts = [] <;> simp only [h0, if_true, if_false] <;> decide
    case titleAndBigContent => by_cases h0 : p.text.texts = [] <;> simp only [h0, if_true, if_false] <;> decide
    all_goals first | exact List.Sublist.refl _ | simp
  · rw [h2, List.length_map]
    unfold filledPlaceholders SlideText.expected
    cases hlay : p.text.layout
    case twoColumn =>
      by_cases h1 : 1 ≤ p.text.texts.length <;> by_cases h2 : 2 ≤ p.text.texts.length <;> simp [h1, h2]
    case titleAndContent => by_cases h0 : p.text.texts = [] <;> simp [h0, ht]
    case titleAndBigContent => by_cases h0 : p.text.texts = [] <;> simp [h0]
    all_goals rfl

/-- **C163 does not hold in full.** `create_slide_xml_for_layout` writes the title of a section header as a centred title, and the layout
for section headers has no placeholder for one. -/
theorem C163_section_violated {fontSize : Str → Nat → Nat → Nat} {p : Page} {x : Str} (h : p.Safe) (hs : p.shapes = []) (hi : p.images = [])
    (ht : p.text.table = none) (e : p.xml fontSize = some x) (hl : p.text.layout = .sectionHeader) :
    ∃ doc lay, document x = some doc ∧ document (createSlideLayoutXml p.text.layout.layoutNumber) = some lay ∧
      layoutPlaceholders doc = [(some c!"ctrTitle", none)] ∧ (some c!"ctrTitle", none) ∉ layoutPlaceholders lay := by
  obtain ⟨doc, h1, h2⟩ := second_placeholders h hs hi ht e
  obtain ⟨lay, h3, -, h4⟩ := C80_layout p.text.layout
  refine ⟨doc, lay, h1, h3, ?_, ?_⟩
  · rw [h2]
    unfold filledPlaceholders
    rw [hl]
    rfl
  · rw [h4, hl]
    decide

end PptRs.Props
