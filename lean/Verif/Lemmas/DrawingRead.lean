import Verif.Lemmas.DrawingParts

/-!
# What is read for the drawings of a slide
-/

namespace PptRs.Draw

open PptRs PptRs.Spec

/-! ### Children by name -/

theorem named_append (n : Str) (a b : List Node) : named n (a ++ b) = named n a ++ named n b := by
  induction a with
  | nil => rfl
  | cons k a ih =>
    cases k with
    | text t => exact ih
    | elem m as ks =>
      by_cases h : m = n
      · simp [named, h, ih]
      · simp [named, h, ih]

theorem named_gap (n : Str) (ks : List Node) : named n (gap ks) = named n ks := by
  unfold gap
  split
  · rename_i h; subst h; rfl
  · rw [named_append]
    simp [named, nl]

theorem named_map {α : Type} {n : Str} {g : α → Node} {l : List α} (h : ∀ a ∈ l, ∃ as ks, g a = .elem n as ks) :
    named n (l.map g) = l.map g := by
  induction l with
  | nil => rfl
  | cons a l ih =>
    obtain ⟨as, ks, e⟩ := h a (by simp)
    rw [List.map_cons, e, named, if_pos rfl, ih fun b hb => h b (by simp [hb])]

theorem named_map_other {α : Type} {n : Str} {g : α → Node} {l : List α}
    (h : ∀ a ∈ l, ∃ m as ks, g a = .elem m as ks ∧ m ≠ n) : named n (l.map g) = [] := by
  induction l with
  | nil => rfl
  | cons a l ih =>
    obtain ⟨m, as, ks, e, hm⟩ := h a (by simp)
    rw [List.map_cons, e, named, if_neg hm, ih fun b hb => h b (by simp [hb])]

theorem tags_map {α : Type} {g : α → Node} {t : α → Str} {l : List α}
    (h : ∀ a, ∃ as ks, g a = .elem (t a) as ks) : tags (l.map g) = l.map t := by
  induction l with
  | nil => rfl
  | cons a l ih =>
    obtain ⟨as, ks, e⟩ := h a
    rw [List.map_cons, e, tags, ih]
    rfl

/-! ### Shapes -/

/-- The transformation of a shape. -/
def xfrmNode (rot : List (Str × Str)) (s : Shape) : Node :=
  E c!"a:xfrm" rot (lines [E c!"a:off" [(c!"x", dec s.x), (c!"y", dec s.y)] [],
        E c!"a:ext" [(c!"cx", dec s.width), (c!"cy", dec s.height)] []])

/-- The geometry of a shape. -/
def geomNode (s : Shape) : Node := E c!"a:prstGeom" [(c!"prst", s.kind.presetName)] (lines [E c!"a:avLst" [] []])

section
variable {ca : List (Str × Str)} {ck bk : List Node} {rot : List (Str × Str)} {s : Shape} {props : List Node}

/-- The shape with its non-visual properties and its text given by their children. -/
abbrev shapeOf (ca : List (Str × Str)) (ck bk : List Node) (rot : List (Str × Str)) (s : Shape)
    (props : List Node) : Node :=
  shapeNode (E c!"p:cNvPr" ca ck) rot s props (E c!"p:txBody" [] bk)

/-- What a reader finds in the shape properties. -/
theorem path_spPr (n : Str) (r : List Str) :
    path (c!"p:spPr" :: n :: r) (shapeOf ca ck bk rot s props)
      = (named n [xfrmNode rot s, geomNode s] ++ named n props).flatMap (path r) := by
  have e : path (c!"p:spPr" :: n :: r) (shapeOf ca ck bk rot s props)
      = (named n ([nl, xfrmNode rot s, nl, geomNode s] ++ gap props)).flatMap (path r) ++ [] := by krfl
  rw [e, List.append_nil, named_append, named_gap]
  rfl

theorem path_text (r : List Str) :
    path (c!"p:txBody" :: r) (shapeOf ca ck bk rot s props) = path r (E c!"p:txBody" [] bk) := by
  have e : path (c!"p:txBody" :: r) (shapeOf ca ck bk rot s props) = path r (E c!"p:txBody" [] bk) ++ [] := by
    krfl
  rw [e, List.append_nil]

theorem path_cnv (r : List Str) :
    path (c!"p:nvSpPr" :: c!"p:cNvPr" :: r) (shapeOf ca ck bk rot s props) = path r (E c!"p:cNvPr" ca ck) := by
  have e : path (c!"p:nvSpPr" :: c!"p:cNvPr" :: r) (shapeOf ca ck bk rot s props)
      = path r (E c!"p:cNvPr" ca ck) ++ [] ++ [] := by
    krfl
  rw [e, List.append_nil, List.append_nil]

theorem place_shape : readPlace [c!"p:spPr", c!"a:xfrm"] (shapeOf ca ck bk rot s props)
    = ⟨some (dec s.x), some (dec s.y), some (dec s.width), some (dec s.height)⟩ := by
  unfold readPlace pathAttr
  simp only [List.cons_append, List.nil_append, path_spPr]
  krfl

theorem rot_shape : pathAttr [c!"p:spPr", c!"a:xfrm"] c!"rot" (shapeOf ca ck bk rot s props)
    = rot.lookup c!"rot" := by
  unfold pathAttr
  rw [path_spPr]
  krfl

theorem geom_shape : pathAttr [c!"p:spPr", c!"a:prstGeom"] c!"prst" (shapeOf ca ck bk rot s props)
    = some s.kind.presetName := by
  unfold pathAttr
  rw [path_spPr]
  krfl

end

theorem read_stop (x : GradientStop) :
    (attrOf c!"pos" (stopNode x), pathAttr [c!"a:srgbClr"] c!"val" (stopNode x),
      pathAttr [c!"a:srgbClr", c!"a:alpha"] c!"val" (stopNode x))
      = (some (dec x.position), some x.color, x.alpha.map dec) := by
  obtain ⟨c, p, a⟩ := x
  cases a <;> krfl

theorem flatMap_path_nil (l : List Node) : l.flatMap (path []) = l := by
  induction l with
  | nil => rfl
  | cons k l ih => rw [List.flatMap_cons, ih]; rfl

/-- What a reader finds for a gradient. -/
theorem read_gradient (l : List GradientStop) (ang : Nat) :
    ((path [c!"a:gsLst", c!"a:gs"] (gradientNode l ang)).map fun s =>
        (attrOf c!"pos" s, pathAttr [c!"a:srgbClr"] c!"val" s, pathAttr [c!"a:srgbClr", c!"a:alpha"] c!"val" s))
      = l.map fun x => (some (dec x.position), some x.color, x.alpha.map dec) := by
  have e : path [c!"a:gsLst", c!"a:gs"] (gradientNode l ang)
      = (named c!"a:gs" (gap (l.map stopNode))).flatMap (path []) ++ [] := by krfl
  rw [e, List.append_nil, flatMap_path_nil, named_gap, named_map (g := stopNode) (fun a _ => ⟨_, _, rfl⟩), List.map_map]
  exact List.map_congr_left fun x _ => read_stop x

theorem toAngle_eq {d : GradientDirection} {a : Nat} (h : d.toAngle = some a) : a = d.degrees * 60000 := by
  cases d with
  | angle n =>
    by_cases hn : n * 60000 < 4294967296
    · simp only [GradientDirection.toAngle, if_pos hn] at h
      exact (Option.some.inj h).symm
    · simp only [GradientDirection.toAngle, if_neg hn] at h
      cases h
  | _ => exact (Option.some.inj h).symm

theorem fill_shape {ca : List (Str × Str)} {ck bk : List Node} {rot : List (Str × Str)} {s : Shape}
    (h : ∀ g ∈ s.gradient, g.direction.toAngle ≠ none) :
    readFill (shapeOf ca ck bk rot s (s.fillNodes ++ s.line.toList.map lineNode)) = s.expectedFill := by
  unfold readFill Shape.expectedFill Shape.fillNodes
  rw [path_spPr, path_spPr, flatMap_path_nil]
  cases hg : s.gradient with
  | none =>
    cases hf : s.fill with
    | none => cases hl : s.line <;> krfl
    | some f =>
      obtain ⟨c, a⟩ := f
      cases hl : s.line <;> cases a <;> krfl
  | some g =>
    cases ha : g.direction.toAngle with
    | none => exact absurd ha (h g hg)
    | some ang =>
      simp only [ha, Option.toList_some, List.map_cons, List.map_nil]
      rw [← toAngle_eq ha]
      rw [← read_gradient g.stops ang]
      cases hl : s.line <;> krfl

theorem line_shape {ca : List (Str × Str)} {ck bk : List Node} {rot : List (Str × Str)} {s : Shape} :
    (pathAttr [c!"p:spPr", c!"a:ln"] c!"w" (shapeOf ca ck bk rot s (s.fillNodes ++ s.line.toList.map lineNode)),
      pathAttr [c!"p:spPr", c!"a:ln", c!"a:solidFill", c!"a:srgbClr"] c!"val"
        (shapeOf ca ck bk rot s (s.fillNodes ++ s.line.toList.map lineNode)))
      = (s.line.map fun l => dec l.width, s.line.map (·.color)) := by
  unfold pathAttr
  rw [path_spPr, path_spPr, named_append]
  have e : named c!"a:ln" s.fillNodes = [] := by
    unfold Shape.fillNodes
    cases s.gradient with
    | none => cases s.fill <;> rfl
    | some g => cases h : g.direction.toAngle <;> simp [h, named, gradientNode]
  rw [e]
  cases hl : s.line <;> krfl

theorem paragraph_code (l : Str) : paragraphText (codeLineNode l) = l := by
  have : paragraphText (codeLineNode l) = textOf (addText [] l) ++ [] := by krfl
  rw [this, textOf_addText, List.append_nil]

/-- The paragraphs of a body of code. -/
theorem path_code (ks : List Node) : path [c!"a:p"] (codeBodyNode ks) = named c!"a:p" ks := by
  have e : path [c!"a:p"] (codeBodyNode ks) = (named c!"a:p" ks).flatMap (path []) := by krfl
  rw [e, flatMap_path_nil]

theorem paragraphs_code (t : Str) :
    (path [c!"a:p"] (codeBodyNode ((strLines t).map codeLineNode))).map paragraphText = strLines t := by
  rw [path_code, named_map (g := codeLineNode) (fun a _ => ⟨_, _, rfl⟩), List.map_map]
  have : paragraphText ∘ codeLineNode = id := funext paragraph_code
  rw [this, List.map_id]

theorem paragraphs_plain (t : Str) (size : Nat) (color anchor align : Str) :
    (path [c!"a:p"] (plainBodyNode t size color anchor align)).map paragraphText = [t] := by
  have e : (path [c!"a:p"] (plainBodyNode t size color anchor align)).map paragraphText
      = [textOf (addText [] t) ++ []] := by krfl
  rw [e, textOf_addText, List.append_nil]

theorem read_link (h : Link) (rid : Str) :
    (attrOf c!"r:id" (linkNode h rid), attrOf c!"tooltip" (linkNode h rid), attrOf c!"action" (linkNode h rid))
      = (some rid, h.tooltip, actionType h.action) := by
  obtain ⟨a, t, hl, r⟩ := h
  unfold linkNode
  generalize actionType a = x
  cases t <;> cases hl <;> cases x <;> krfl

/-- What is read for a shape. -/
theorem readShape_node {fontSize : Str → Nat → Nat → Nat} {s : Shape} {body : Node} (id : Nat)
    (hg : ∀ g ∈ s.gradient, g.direction.toAngle ≠ none) (hb : BodyOf fontSize s body) :
    readShape (shapeNode (cnvprNode s.link id) (rotAttrs s.rotation) s
      (s.fillNodes ++ s.line.toList.map lineNode) body) = s.expected id := by
  have hbody : ∃ bk, body = E c!"p:txBody" [] bk := by cases hb <;> exact ⟨_, rfl⟩
  obtain ⟨bk, rfl⟩ := hbody
  show readShape (shapeOf [(c!"id", dec id), (c!"name", c!"Shape " ++ dec id)] (linkKids s.link) bk
    (rotAttrs s.rotation) s (s.fillNodes ++ s.line.toList.map lineNode)) = _
  unfold readShape Shape.expected
  rw [ShapeRead.mk.injEq]
  refine ⟨?_, ?_, place_shape, ?_, geom_shape, fill_shape hg, line_shape, ?_, ?_⟩
  · unfold pathAttr; rw [path_cnv]; krfl
  · unfold pathAttr; rw [path_cnv]; krfl
  · rw [rot_shape]
    cases s.rotation <;> krfl
  · unfold bodyTexts
    rw [path_text]
    generalize hk : E c!"p:txBody" [] bk = body at hb
    cases hb with
    | none h => rw [h]; krfl
    | code h hc => rw [h, paragraphs_code]; simp only [hc, if_true]
    | plain h hc => rw [h, paragraphs_plain]; simp only [hc, Bool.false_eq_true, if_false]
  · rw [path_cnv]
    unfold linkKids
    cases hl : s.link with
    | none => krfl
    | some h =>
      cases hr : h.rId with
      | none => simp only [Option.bind_some, hr, Option.map_none]; krfl
      | some rid =>
        simp only [Option.bind_some, hr, Option.map_some]
        rw [← read_link h rid]
        krfl

/-- A written shape is read as one element that shows what was asked for. -/
theorem shape_reads {fontSize : Str → Nat → Nat → Nat} {s : Shape} {id : Nat} {ps : List Part} (h : s.Safe)
    (e : shapeXml fontSize s id = some ps) :
    ∃ as ks, ReadsTagged ps [.elem c!"p:sp" as ks] ∧ readShape (.elem c!"p:sp" as ks) = s.expected id := by
  simp only [shapeXml, Option.bind_eq_some_iff, Option.map_eq_some_iff] at e
  obtain ⟨fill, hf, text, ht, rot, hr, rfl⟩ := e
  obtain ⟨b, hb1, hb2⟩ := readsTagged_text ht
  have hg : ∀ g ∈ s.gradient, g.direction.toAngle ≠ none := by
    intro g hg ha
    rw [Option.mem_def] at hg
    simp [shapeFillXml, hg, gradientXml, ha] at hf
  exact ⟨_, _, readsTagged_shapeText s (readsTagged_cnvpr h.link) (readsAttrs_rot hr) (soft_shapeFill h hf)
    (soft_line h.line) hb1, readShape_node id hg hb2⟩

/-! ### Pictures -/

theorem lookup_crop (c : Crop) :
    ([c!"l", c!"t", c!"r", c!"b"].map fun a => attrOf a (cropNode c))
      = [cropValue c.left, cropValue c.top, cropValue c.right, cropValue c.bottom] := by
  obtain ⟨l, t, r, b⟩ := c
  unfold cropNode cropPart cropValue
  by_cases h1 : 0 < l <;> by_cases h2 : 0 < t <;> by_cases h3 : 0 < r <;> by_cases h4 : 0 < b <;>
    simp only [h1, h2, h3, h4, decide_true, decide_false, if_true, if_false, Bool.false_eq_true] <;> krfl

theorem readPicture_node (p : Picture) (id rel : Nat) :
    readPicture (pictureNode p id rel) = p.expected id rel := by
  unfold readPicture Picture.expected
  rw [PictureRead.mk.injEq]
  refine ⟨by krfl, by krfl, ?_, by krfl, by krfl, ?_, ?_⟩
  · unfold pictureNode
    cases p.altText <;> krfl
  · unfold pictureNode
    cases hc : p.crop with
    | none => krfl
    | some c => exact Eq.trans (by krfl) (lookup_crop c)
  · have e : path [c!"p:spPr", c!"a:effectLst"] (pictureNode p id rel)
        = (named c!"a:effectLst" (gap (effectNodes p.effects))).flatMap (path []) ++ [] := by krfl
    rw [e, List.append_nil, flatMap_path_nil, named_gap]
    unfold effectNodes
    by_cases hl : p.effects = []
    · rw [if_pos hl, hl]; rfl
    · rw [if_neg hl]
      have : (named c!"a:effectLst" [E c!"a:effectLst" [] (p.effects.map ImageEffect.node)]).flatMap childTags
          = tags (p.effects.map ImageEffect.node) ++ [] := by krfl
      rw [this, List.append_nil]
      exact tags_map fun a => by cases a <;> exact ⟨_, _, rfl⟩

/-! ### Connectors -/

theorem min_add_absDiff (a b : Nat) : min a b + absDiff b a = max a b := by
  unfold absDiff
  split <;> omega

theorem ends_eq {sx ex : Nat} :
    (if ex < sx then min sx ex + absDiff ex sx else min sx ex) = sx ∧
    (if ex < sx then min sx ex else min sx ex + absDiff ex sx) = ex := by
  unfold absDiff
  by_cases h : ex < sx
  · simp only [h, if_true]; omega
  · simp only [h, if_false]; omega

theorem flip_lookup (h v : Bool) (K : List Node) :
    (attrOf c!"flipH" (E c!"a:xfrm" (flipPart c!"flipH" h ++ flipPart c!"flipV" v) K) = some c!"1" ↔ h = true) ∧
    (attrOf c!"flipV" (E c!"a:xfrm" (flipPart c!"flipH" h ++ flipPart c!"flipV" v) K) = some c!"1" ↔ v = true) := by
  cases h <;> cases v <;> simp [attrOf, flipPart, List.lookup]

section
variable (c : Connector) (id : Nat)

theorem path_props (r : List Str) :
    path (c!"p:spPr" :: r) (connectorNode c id) = path r (connectorProps c) := by
  have e : path (c!"p:spPr" :: r) (connectorNode c id)
      = path r (connectorProps c) ++ (named c!"p:spPr" (labelNodes c.label ++ [nl])).flatMap (path r) := by krfl
  rw [e]
  have : named c!"p:spPr" (labelNodes c.label ++ [nl]) = [] := by cases c.label <;> krfl
  rw [this]
  simp

theorem path_line (n : Str) :
    path [c!"a:ln", n] (connectorProps c)
      = named n [E c!"a:solidFill" [] (lines [E c!"a:srgbClr" [(c!"val", c.line.color)] []]),
          E c!"a:prstDash" [(c!"val", c.line.dash.xml)] []]
        ++ named n (arrowNodes c!"a:headEnd" c.startArrow c.arrowSize)
        ++ named n (arrowNodes c!"a:tailEnd" c.endArrow c.arrowSize) := by
  have e : path [c!"a:ln", n] (connectorProps c)
      = (named n ([nl, E c!"a:solidFill" [] (lines [E c!"a:srgbClr" [(c!"val", c.line.color)] []]),
          nl, E c!"a:prstDash" [(c!"val", c.line.dash.xml)] []]
          ++ arrowNodes c!"a:headEnd" c.startArrow c.arrowSize
          ++ arrowNodes c!"a:tailEnd" c.endArrow c.arrowSize ++ [nl])).flatMap (path []) ++ [] := by krfl
  rw [e, List.append_nil, flatMap_path_nil, named_append, named_append, named_append]
  rw [show named n [nl] = [] from rfl, List.append_nil]
  rfl

theorem path_attached (n : Str) :
    path [c!"p:nvCxnSpPr", c!"p:cNvCxnSpPr", n] (connectorNode c id)
      = named n (attachedNodes c!"a:stCxn" (both c.startShape c.startSite))
        ++ named n (attachedNodes c!"a:endCxn" (both c.endShape c.endSite)) := by
  have e : path [c!"p:nvCxnSpPr", c!"p:cNvCxnSpPr", n] (connectorNode c id)
      = ((named n (attachedNodes c!"a:stCxn" (both c.startShape c.startSite)
        ++ attachedNodes c!"a:endCxn" (both c.endShape c.endSite) ++ [nl])).flatMap (path []) ++ [])
        ++ (named c!"p:nvCxnSpPr" (labelNodes c.label ++ [nl])).flatMap
          (path [c!"p:cNvCxnSpPr", n]) := by krfl
  have : named c!"p:nvCxnSpPr" (labelNodes c.label ++ [nl]) = [] := by cases c.label <;> krfl
  rw [e, this, flatMap_path_nil, named_append, named_append]
  rw [show named n [nl] = [] from rfl]
  simp

theorem connectorEnds_node {c : Connector} (h : c.Safe) :
    connectorEnds (connectorNode c id) = some ((c.startX, c.startY), (c.endX, c.endY)) := by
  have hx : min c.startX c.endX < 4294967296 := by have := h.startX; omega
  have hy : min c.startY c.endY < 4294967296 := by have := h.startY; omega
  have hw : absDiff c.endX c.startX < 4294967296 := by
    have := h.startX; have := h.endX; unfold absDiff; split <;> omega
  have hh : absDiff c.endY c.startY < 4294967296 := by
    have := h.startY; have := h.endY; unfold absDiff; split <;> omega
  unfold connectorEnds pathAttr
  simp only [List.cons_append, List.nil_append, path_props]
  have e1 : (path [c!"a:xfrm", c!"a:off"] (connectorProps c)).head?.bind (attrOf c!"x")
      = some (dec (min c.startX c.endX)) := by krfl
  have e2 : (path [c!"a:xfrm", c!"a:off"] (connectorProps c)).head?.bind (attrOf c!"y")
      = some (dec (min c.startY c.endY)) := by krfl
  have e3 : (path [c!"a:xfrm", c!"a:ext"] (connectorProps c)).head?.bind (attrOf c!"cx")
      = some (dec (absDiff c.endX c.startX)) := by krfl
  have e4 : (path [c!"a:xfrm", c!"a:ext"] (connectorProps c)).head?.bind (attrOf c!"cy")
      = some (dec (absDiff c.endY c.startY)) := by krfl
  have e5 : path [c!"a:xfrm"] (connectorProps c) = [E c!"a:xfrm"
      (flipPart c!"flipH" (decide (c.endX < c.startX)) ++ flipPart c!"flipV" (decide (c.endY < c.startY)))
      (placeNodes (min c.startX c.endX) (min c.startY c.endY) (absDiff c.endX c.startX)
        (absDiff c.endY c.startY))] := by krfl
  rw [e1, e2, e3, e4, e5]
  simp only [Option.bind_some, parseU32_dec hx, parseU32_dec hy, parseU32_dec hw, parseU32_dec hh,
    Option.map_some, List.head?_cons, (flip_lookup _ _ _).1, (flip_lookup _ _ _).2, decide_eq_true_eq]
  rw [(ends_eq (sx := c.startX) (ex := c.endX)).1, (ends_eq (sx := c.startX) (ex := c.endX)).2,
    (ends_eq (sx := c.startY) (ex := c.endY)).1, (ends_eq (sx := c.startY) (ex := c.endY)).2]

end

theorem named_arrow (n m : Str) (a : ArrowType) (s : ArrowSize) (h : n = m) :
    named n (arrowNodes m a s) = if a = .none then [] else [E m [(c!"type", a.xml), (c!"w", s.xml), (c!"len", s.xml)] []] := by
  subst h
  unfold arrowNodes
  split
  · rfl
  · simp [named, nl]

theorem named_arrow_other (n m : Str) (a : ArrowType) (s : ArrowSize) (h : m ≠ n) :
    named n (arrowNodes m a s) = [] := by
  unfold arrowNodes
  split
  · rfl
  · simp [named, nl, h]

theorem read_attached (n : Str) (i : Option Nat) (s : Option ConnectionSite) :
    ((named n (attachedNodes n (both i s))).head?.map fun e => (attrOf c!"id" e, attrOf c!"idx" e))
      = attachedExpected i s := by
  cases i with
  | none => rfl
  | some i =>
    cases s with
    | none => rfl
    | some s =>
      have : named n (attachedNodes n (both (some i) (some s)))
          = [E n [(c!"id", dec i), (c!"idx", dec s.index)] []] := by
        simp [attachedNodes, both, named, nl]
      rw [this]
      krfl

theorem named_attached_other (n m : Str) (p : Option (Nat × ConnectionSite)) (h : m ≠ n) :
    named n (attachedNodes m p) = [] := by
  cases p with
  | none => rfl
  | some p => simp [attachedNodes, named, nl, h]

/-- What is read for a connector. -/
theorem readConnector_node {c : Connector} (h : c.Safe) (id : Nat) :
    readConnector (connectorNode c id) = c.expected id := by
  unfold readConnector Connector.expected
  rw [ConnectorRead.mk.injEq]
  refine ⟨by krfl, connectorEnds_node id h, ?_, ?_, ?_, ?_, ?_, ?_, ?_, ?_⟩
  · unfold pathAttr; rw [path_props]; krfl
  · unfold pathAttr; rw [path_props]; krfl
  · unfold pathAttr; rw [path_props]; krfl
  · unfold pathAttr; rw [path_props]; krfl
  · unfold readArrow arrowExpected
    rw [path_props, path_line, named_arrow_other _ c!"a:tailEnd" _ _ (by decide), named_arrow _ _ _ _ rfl]
    by_cases ha : c.startArrow = .none
    · rw [if_pos ha, if_pos ha]; krfl
    · rw [if_neg ha, if_neg ha]; krfl
  · unfold readArrow arrowExpected
    rw [path_props, path_line, named_arrow_other _ c!"a:headEnd" _ _ (by decide), named_arrow _ _ _ _ rfl]
    by_cases ha : c.endArrow = .none
    · rw [if_pos ha, if_pos ha]; krfl
    · rw [if_neg ha, if_neg ha]; krfl
  · unfold readAttached
    rw [path_attached, named_attached_other _ c!"a:endCxn" _ (by decide), List.append_nil]
    exact read_attached _ _ _
  · unfold readAttached
    rw [path_attached, named_attached_other _ c!"a:stCxn" _ (by decide), List.nil_append]
    exact read_attached _ _ _

/-! ### Code blocks and charts -/

theorem paragraph_highlighted (l : List Segment) :
    paragraphText (highlightedNode l) = if l = [] then c!" " else l.flatMap (·.text) := by
  by_cases hl : l = []
  · rw [if_pos hl, hl]; krfl
  · rw [if_neg hl]
    have e : paragraphText (highlightedNode l) = ((named c!"a:r" (codeRuns l)).flatMap (path [c!"a:t"])).flatMap
        (fun | .text _ => [] | .elem _ _ ks => textOf ks) := by krfl
    rw [e]
    unfold codeRuns
    rw [if_neg hl, named_map (g := segmentNode) (fun a _ => ⟨_, _, rfl⟩), List.flatMap_map, List.flatMap_assoc]
    clear e hl
    induction l with
    | nil => rfl
    | cons s l ih =>
      rw [List.flatMap_cons, List.flatMap_cons, ih]
      congr 1
      have : (path [c!"a:t"] (segmentNode s)).flatMap (fun | .text _ => [] | .elem _ _ ks => textOf ks)
        = textOf (addText [] s.text) ++ [] := by krfl
      rw [this, textOf_addText, List.append_nil]

theorem readCodeBlock_node (highlight : Option (Str → Str → List (List Segment))) (b : CodeBlock) (id : Nat) :
    readShape (codeBlockNode b id (codeNodes highlight b)) = b.expected highlight id := by
  unfold readShape CodeBlock.expected
  rw [ShapeRead.mk.injEq]
  refine ⟨by krfl, by krfl, by krfl, by krfl, by krfl, by krfl, by krfl, ?_, by krfl⟩
  unfold bodyTexts
  have e : path [c!"p:txBody", c!"a:p"] (codeBlockNode b id (codeNodes highlight b))
      = path [c!"a:p"] (codeBodyNode (codeNodes highlight b)) ++ [] := by krfl
  rw [e, List.append_nil, path_code]
  cases highlight with
  | none => rfl
  | some f =>
    show (named c!"a:p" ((f b.code b.language).map highlightedNode)).map paragraphText = _
    rw [named_map (g := highlightedNode) (fun a _ => ⟨_, _, rfl⟩), List.map_map]
    exact List.map_congr_left fun l _ => paragraph_highlighted l

theorem readChart_node (c : ChartBox) (rid : Str) (id : Nat) :
    readChart (chartNode c rid id)
      = (⟨some (dec c.x), some (dec c.y), some (dec c.width), some (dec c.height)⟩, some rid) := by krfl

/-! ### The whole drawing -/

/-- `ps` is read as elements with the name `tag` that satisfy `Q` and for which `R` is read. -/
def Row {β : Type} (tag : Str) (read : Node → β) (Q : Node → Prop) (ps : List Part) (R : List β) : Prop :=
  ∃ X, ReadsNodes ps X ∧ (named tag X).map read = R ∧ (∀ n, n ≠ tag → named n X = []) ∧ ∀ k ∈ X, k = nl ∨ Q k

theorem Row.nil {β : Type} (tag : Str) (read : Node → β) (Q : Node → Prop) : Row tag read Q [] [] :=
  ⟨[], readsNodes_nil, rfl, fun _ _ => rfl, by simp⟩

theorem Row.cons {β : Type} {tag : Str} {read : Node → β} {Q : Node → Prop} {p ps : List Part} {r : β}
    {R : List β} {as : List (Str × Str)} {ks : List Node} (h : ReadsTagged p [.elem tag as ks])
    (hr : read (.elem tag as ks) = r) (hq : Q (.elem tag as ks)) (hs : Row tag read Q ps R) :
    Row tag read Q (t!"\n" ++ p ++ ps) (r :: R) := by
  obtain ⟨X, h1, h2, h3, h4⟩ := hs
  refine ⟨[nl, .elem tag as ks] ++ X, ?_, ?_, ?_, ?_⟩
  · refine ReadsNodes.append ?_ h1
    exact Splits.readsNodes ((Splits.lit (by parts_ok)).append (.tagged h)) (by krfl)
  · rw [named_append, List.map_append, h2]
    simp [named, nl, hr]
  · intro n hn
    rw [named_append, h3 n hn]
    simp [named, nl, Ne.symm hn]
  · intro k hk
    simp only [List.cons_append, List.nil_append, List.mem_cons] at hk
    rcases hk with rfl | rfl | hk
    · exact .inl rfl
    · exact .inr hq
    · exact h4 k hk

theorem row_write {α β : Type} {tag : Str} {read : Node → β} {Q : Node → Prop} {f : Nat → α → List Part}
    {r : Nat → α → β} {l : List α} (h : ∀ i, ∀ a ∈ l, ∃ as ks, ReadsTagged (f i a) [.elem tag as ks] ∧
      read (.elem tag as ks) = r i a ∧ Q (.elem tag as ks)) (i : Nat) :
    Row tag read Q (writeFrom f i l) ((l.zipIdx i).map fun p => r p.2 p.1) := by
  induction l generalizing i with
  | nil => exact .nil _ _ _
  | cons a l ih =>
    obtain ⟨as, ks, h1, h2, h3⟩ := h i a (by simp)
    rw [List.zipIdx_cons, List.map_cons]
    exact Row.cons h1 h2 h3 (ih (fun i b hb => h i b (by simp [hb])) (i + 1))

theorem row_shapes {fontSize : Str → Nat → Nat → Nat} {Q : Node → Prop} {l : List Shape} {i : Nat}
    {ps : List Part} (e : shapesXml fontSize i l = some ps)
    (h : ∀ s ∈ l, ∀ id x, shapeXml fontSize s id = some x → ∃ as ks, ReadsTagged x [.elem c!"p:sp" as ks] ∧
      readShape (.elem c!"p:sp" as ks) = s.expected id ∧ Q (.elem c!"p:sp" as ks)) :
    Row c!"p:sp" readShape Q ps ((l.zipIdx i).map fun p => p.1.expected (p.1.id.getD (p.2 + 10))) := by
  induction l generalizing i ps with
  | nil => cases e; exact .nil _ _ _
  | cons s l ih =>
    simp only [shapesXml, Option.bind_eq_some_iff, Option.map_eq_some_iff] at e
    obtain ⟨x, hx, r, hr, rfl⟩ := e
    obtain ⟨as, ks, h1, h2, h3⟩ := h s (by simp) _ x hx
    rw [List.zipIdx_cons, List.map_cons]
    exact Row.cons h1 h2 h3 (ih hr fun b hb => h b (by simp [hb]))

theorem map_zipIdx_fst {α β : Type} (l : List α) (f : α → β) (i : Nat) :
    (l.zipIdx i).map (fun p => f p.1) = l.map f := by
  induction l generalizing i with
  | nil => rfl
  | cons a l ih => rw [List.zipIdx_cons, List.map_cons, ih]; rfl

/-- What is read for a drawing; every element satisfies `Q`. -/
structure DrawingRead (Q : Node → Prop) (d : Drawing) (highlight : Option (Str → Str → List (List Segment)))
    (rids : List Str) (X : List Node) : Prop where
  shapes : (named c!"p:sp" X).map readShape = d.expectedShapes ++ d.expectedCode highlight
  pictures : (named c!"p:pic" X).map readPicture = d.expectedPictures
  connectors : (named c!"p:cxnSp" X).map readConnector = d.expectedConnectors
  charts : (named c!"p:graphicFrame" X).map readChart = d.expectedCharts rids
  all : ∀ k ∈ X, k = nl ∨ Q k

theorem picture_elem {Q : Node → Prop} (p : Picture) (id rel : Nat) (h : Q (pictureNode p id rel)) :
    ∃ as ks, ReadsTagged (pictureXml p id rel) [.elem c!"p:pic" as ks] ∧
      readPicture (.elem c!"p:pic" as ks) = p.expected id rel ∧ Q (.elem c!"p:pic" as ks) :=
  ⟨_, _, readsTagged_picture p id rel, readPicture_node p id rel, h⟩

theorem code_elem {Q : Node → Prop} {highlight : Option (Str → Str → List (List Segment))}
    (hh : SafeHighlight highlight) (b : CodeBlock) (id : Nat) (h : Q (codeBlockNode b id (codeNodes highlight b))) :
    ∃ as ks, ReadsTagged (codeBlockXml highlight id b) [.elem c!"p:sp" as ks] ∧
      readShape (.elem c!"p:sp" as ks) = b.expected highlight id ∧ Q (.elem c!"p:sp" as ks) :=
  ⟨_, _, readsTagged_codeBlock hh b id, readCodeBlock_node highlight b id, h⟩

theorem connector_elem {Q : Node → Prop} {c : Connector} (hc : c.Safe) (id : Nat) (h : Q (connectorNode c id)) :
    ∃ as ks, ReadsTagged (connectorXml c id) [.elem c!"p:cxnSp" as ks] ∧
      readConnector (.elem c!"p:cxnSp" as ks) = c.expected id ∧ Q (.elem c!"p:cxnSp" as ks) :=
  ⟨_, _, readsTagged_connector hc.color id, readConnector_node hc id, h⟩

theorem chart_elem {Q : Node → Prop} (c : ChartBox) {rid : Str} (hr : Plain rid) (id : Nat)
    (h : Q (chartNode c rid id)) :
    ∃ as ks, ReadsTagged (chartRefXml c rid id) [.elem c!"p:graphicFrame" as ks] ∧
      readChart (.elem c!"p:graphicFrame" as ks)
        = (⟨some (dec c.x), some (dec c.y), some (dec c.width), some (dec c.height)⟩, some rid) ∧
      Q (.elem c!"p:graphicFrame" as ks) :=
  ⟨_, _, readsTagged_chart c hr id, readChart_node c rid id, h⟩

theorem drawing_join {Q : Node → Prop} {highlight : Option (Str → Str → List (List Segment))} {d : Drawing}
    {rids : List Str} {p1 p2 p3 p4 p5 : List Part}
    (h1 : Row c!"p:sp" readShape Q p1 d.expectedShapes) (h2 : Row c!"p:pic" readPicture Q p2 d.expectedPictures)
    (h3 : Row c!"p:sp" readShape Q p3 (d.expectedCode highlight))
    (h4 : Row c!"p:cxnSp" readConnector Q p4 d.expectedConnectors)
    (h5 : Row c!"p:graphicFrame" readChart Q p5 (d.expectedCharts rids)) :
    ∃ X, ReadsNodes (p1 ++ p2 ++ p3 ++ p4 ++ p5) X ∧ DrawingRead Q d highlight rids X := by
  obtain ⟨X1, a1, b1, c1, d1⟩ := h1
  obtain ⟨X2, a2, b2, c2, d2⟩ := h2
  obtain ⟨X3, a3, b3, c3, d3⟩ := h3
  obtain ⟨X4, a4, b4, c4, d4⟩ := h4
  obtain ⟨X5, a5, b5, c5, d5⟩ := h5
  refine ⟨X1 ++ X2 ++ X3 ++ X4 ++ X5, (((a1.append a2).append a3).append a4).append a5, ?_⟩
  constructor
  · simp only [named_append, List.map_append]
    rw [c2 _ (by decide), c4 _ (by decide), c5 _ (by decide), b1, b3]
    simp
  · simp only [named_append, List.map_append]
    rw [c1 _ (by decide), c3 _ (by decide), c4 _ (by decide), c5 _ (by decide), b2]
    simp
  · simp only [named_append, List.map_append]
    rw [c1 _ (by decide), c2 _ (by decide), c3 _ (by decide), c5 _ (by decide), b4]
    simp
  · simp only [named_append, List.map_append]
    rw [c1 _ (by decide), c2 _ (by decide), c3 _ (by decide), c4 _ (by decide), b5]
    simp
  · intro k hk
    simp only [List.mem_append] at hk
    rcases hk with (((hk | hk) | hk) | hk) | hk
    · exact d1 k hk
    · exact d2 k hk
    · exact d3 k hk
    · exact d4 k hk
    · exact d5 k hk

theorem row_charts {Q : Node → Prop} {d : Drawing} {rids : List Str} (hr : ∀ r ∈ rids, Plain r) (n : Nat)
    (q5 : ∀ c ∈ d.charts, ∀ r id, Q (chartNode c r id)) :
    Row c!"p:graphicFrame" readChart Q (writeFrom (fun i c => chartRefXml c.1 c.2 (n + i)) 0 (d.charts.zip rids))
      (d.expectedCharts rids) := by
  have := row_write (tag := c!"p:graphicFrame") (read := readChart) (Q := Q)
    (f := fun i (c : ChartBox × Str) => chartRefXml c.1 c.2 (n + i))
    (r := fun _ (p : ChartBox × Str) =>
      (⟨some (dec p.1.x), some (dec p.1.y), some (dec p.1.width), some (dec p.1.height)⟩, some p.2))
    (l := d.charts.zip rids)
    (fun i c hc => chart_elem c.1 (hr _ (List.of_mem_zip hc).2) (n + i) (q5 c.1 (List.of_mem_zip hc).1 _ _)) 0
  rw [map_zipIdx_fst (d.charts.zip rids) (fun p : ChartBox × Str =>
    ((⟨some (dec p.1.x), some (dec p.1.y), some (dec p.1.width), some (dec p.1.height)⟩ : PlaceRead), some p.2)) 0]
    at this
  exact this

theorem drawing_reads_all {fontSize : Str → Nat → Nat → Nat} {Q : Node → Prop}
    {highlight : Option (Str → Str → List (List Segment))} {d : Drawing} {rids : List Str} {ps : List Part}
    (h : d.Safe highlight rids) (e : d.xml fontSize highlight rids = some ps)
    (q1 : ∀ s ∈ d.shapes, ∀ id x, shapeXml fontSize s id = some x → ∃ as ks, ReadsTagged x [.elem c!"p:sp" as ks] ∧
      readShape (.elem c!"p:sp" as ks) = s.expected id ∧ Q (.elem c!"p:sp" as ks))
    (q2 : ∀ p ∈ d.pictures, ∀ id rel, Q (pictureNode p id rel))
    (q3 : ∀ b ∈ d.codeBlocks, ∀ id, Q (codeBlockNode b id (codeNodes highlight b)))
    (q4 : ∀ c ∈ d.connectors, ∀ id, Q (connectorNode c id))
    (q5 : ∀ c ∈ d.charts, ∀ r id, Q (chartNode c r id)) :
    ∃ X, ReadsNodes ps X ∧ DrawingRead Q d highlight rids X := by
  unfold Drawing.xml at e
  rw [Option.map_eq_some_iff] at e
  obtain ⟨shapes, hs, rfl⟩ := e
  refine drawing_join (row_shapes hs q1) ?_ ?_ ?_ (row_charts h.charts _ q5)
  · exact row_write (fun i p hp => picture_elem p _ _ (q2 p hp _ _)) 0
  · exact row_write (fun i b hb => code_elem h.code b _ (q3 b hb _)) 0
  · exact row_write (fun i c hc => connector_elem (h.connectors c hc) _ (q4 c hc _)) 0

/-- What is read for a drawing. -/
theorem drawing_reads {fontSize : Str → Nat → Nat → Nat}
    {highlight : Option (Str → Str → List (List Segment))} {d : Drawing} {rids : List Str} {ps : List Part}
    (h : d.Safe highlight rids) (e : d.xml fontSize highlight rids = some ps) :
    ∃ X, ReadsNodes ps X ∧ DrawingRead (fun _ => True) d highlight rids X :=
  drawing_reads_all h e
    (fun s hs id x hx => by
      obtain ⟨as, ks, h1, h2⟩ := shape_reads (h.shapes s hs) hx
      exact ⟨as, ks, h1, h2, trivial⟩)
    (fun _ _ _ _ => trivial) (fun _ _ _ => trivial) (fun _ _ _ => trivial) (fun _ _ _ _ => trivial)

/-- The objects on a slide: those of the text, then those of the drawing. -/
theorem drawn_slide (shapes X : List Node) (t : Transition) {n : Str} (h1 : n ≠ c!"p:nvGrpSpPr")
    (h2 : n ≠ c!"p:grpSpPr") : drawn n [slideNode shapes X t.nodes] = named n shapes ++ named n X := by
  have e : drawn n [slideNode shapes X t.nodes]
      = path [c!"p:cSld", c!"p:spTree", n] (slideNode shapes X t.nodes) := by
    simp only [drawn, List.flatMap_cons, List.flatMap_nil, List.append_nil]
  have e2 : path [c!"p:cSld", c!"p:spTree", n] (slideNode shapes X t.nodes)
      = (((named n (groupNodes ++ shapes ++ X ++ [nl])).flatMap (path []) ++ []) ++
        (named c!"p:cSld" t.nodes).flatMap (path [c!"p:spTree", n])) := by krfl
  have e3 : named c!"p:cSld" t.nodes = [] := by cases t <;> krfl
  have e4 : named n groupNodes = [] := by
    unfold groupNodes
    simp only [named, nl, if_neg h1.symm, if_neg h2.symm]
  rw [e, e2, e3, flatMap_path_nil, named_append, named_append, named_append, e4]
  simp [named, nl]

end PptRs.Draw
