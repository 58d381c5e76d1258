import Verif.Lemmas.DrawingRead
import Mathlib.Data.List.Sublists

/-!
# The order of the elements of a slide
-/

namespace PptRs.Draw

open PptRs PptRs.Spec

theorem tags_append (a b : List Node) : tags (a ++ b) = tags a ++ tags b := by
  induction a with
  | nil => rfl
  | cons k a ih =>
    cases k with
    | text t => exact ih
    | elem m as ks => rw [List.cons_append, tags, ih, tags, List.cons_append]

theorem orderedL_append (a b : List Node) : orderedL (a ++ b) = (orderedL a && orderedL b) := by
  induction a with
  | nil => rfl
  | cons k a ih => rw [List.cons_append, orderedL, ih, orderedL, Bool.and_assoc]

theorem orderedL_map {α : Type} {g : α → Node} {l : List α} (h : ∀ a ∈ l, ordered (g a) = true) :
    orderedL (l.map g) = true := by
  induction l with
  | nil => rfl
  | cons a l ih => rw [List.map_cons, orderedL, h a (by simp), ih fun b hb => h b (by simp [hb])]; rfl

theorem orderedL_all {l : List Node} (h : ∀ k ∈ l, ordered k = true) : orderedL l = true := by
  have := orderedL_map (g := id) (l := l) h
  simpa using this

theorem ordered_elem {n : Str} {as : List (Str × Str)} {ks : List Node} (h1 : wellPlaced n ks = true)
    (h2 : orderedL ks = true) : ordered (E n as ks) = true := by
  have : ordered (E n as ks) = (wellPlaced n ks && orderedL ks) := by rw [ordered]
  rw [this, h1, h2]; rfl

theorem tags_gap (ks : List Node) : tags (gap ks) = tags ks := by
  unfold gap
  split
  · rename_i h; subst h; rfl
  · rw [tags_append]
    simp [tags, nl]

theorem orderedL_gap (ks : List Node) : orderedL (gap ks) = orderedL ks := by
  unfold gap
  split
  · rename_i h; subst h; rfl
  · rw [orderedL_append]
    simp [orderedL, ordered, nl]

theorem takeWhile_all {p : Str → Bool} {xs : List Str} (h : ∀ x ∈ xs, p x = true) : xs.takeWhile p = xs := by
  induction xs with
  | nil => rfl
  | cons x xs ih => rw [List.takeWhile_cons, if_pos (h x (by simp)), ih fun y hy => h y (by simp [hy])]

theorem dropWhile_all {p : Str → Bool} {xs : List Str} (h : ∀ x ∈ xs, p x = true) : xs.dropWhile p = [] := by
  induction xs with
  | nil => rfl
  | cons x xs ih => rw [List.dropWhile_cons, if_pos (h x (by simp)), ih fun y hy => h y (by simp [hy])]

/-- A repeated element at the end. -/
theorem follows_rep {ns : List Str} {k : Nat} {xs : List Str} (h : ∀ x ∈ xs, ns.contains x = true)
    (hk : k ≤ xs.length) : follows [rep k ns] xs = true := by
  have e1 : xs.takeWhile (fun x => ns.contains x) = xs := takeWhile_all h
  have e2 : xs.dropWhile (fun x => ns.contains x) = [] := dropWhile_all h
  unfold rep
  rw [follows, e1, e2]
  simp [follows, hk]

/-- A repeated element before others. -/
theorem follows_rep_before {ns : List Str} {os : List Slot} {xs ys : List Str} {y : Str}
    (h : ∀ x ∈ xs, ns.contains x = true) (hy : ns.contains y = false) :
    follows (rep 0 ns :: os) (xs ++ y :: ys) = follows os (y :: ys) := by
  have e2 : (xs ++ y :: ys).dropWhile (fun x => ns.contains x) = y :: ys := by
    induction xs with
    | nil => rw [List.nil_append, List.dropWhile_cons, if_neg (by rw [hy]; simp)]
    | cons x xs ih =>
      rw [List.cons_append, List.dropWhile_cons, if_pos (h x (by simp))]
      exact ih fun z hz => h z (by simp [hz])
  unfold rep
  rw [follows, e2]
  simp

/-- A repeated element, then nothing. -/
theorem follows_rep_end {ns : List Str} {os : List Slot} {k : Nat} {xs : List Str}
    (h : ∀ x ∈ xs, ns.contains x = true) (hk : k ≤ xs.length) :
    follows (rep k ns :: os) xs = follows os [] := by
  have e1 : xs.takeWhile (fun x => ns.contains x) = xs := takeWhile_all h
  have e2 : xs.dropWhile (fun x => ns.contains x) = [] := dropWhile_all h
  unfold rep
  rw [follows, e1, e2]
  simp [hk]

theorem orderedL_addText (t : Str) : orderedL (addText [] t) = true := by
  cases t <;> rfl

/-! ### Drawings -/

theorem ordered_tint (c : Str) (a : Option Nat) : ordered (tintNode c a) = true := by
  cases a <;> krfl

theorem ordered_solid (f : ShapeFill) : ordered (solidNode f) = true := by
  obtain ⟨c, a⟩ := f
  cases a <;> krfl

theorem ordered_stop (s : GradientStop) : ordered (stopNode s) = true := by
  obtain ⟨c, p, a⟩ := s
  cases a <;> krfl

theorem ordered_gradient {l : List GradientStop} (ang : Nat) (h : 2 ≤ l.length) :
    ordered (gradientNode l ang) = true := by
  have hs : ordered (stopsNode l) = true := by
    refine ordered_elem ?_ ?_
    · show follows [rep 2 [c!"a:gs"]] (tags (gap (l.map stopNode))) = true
      rw [tags_gap, tags_map (g := stopNode) (t := fun _ => c!"a:gs") (fun a => ⟨_, _, rfl⟩)]
      refine follows_rep ?_ (by simpa using h)
      intro x hx
      obtain ⟨_, _, rfl⟩ := List.mem_map.mp hx
      rfl
    · rw [orderedL_gap]
      exact orderedL_map fun s _ => ordered_stop s
  have e : ordered (gradientNode l ang) = (ordered (stopsNode l) && true) := by krfl
  rw [e, hs]; rfl

theorem ordered_line (l : ShapeLine) : ordered (lineNode l) = true := by krfl

theorem ordered_plainBody (t : Str) (size : Nat) (color anchor align : Str) :
    ordered (plainBodyNode t size color anchor align) = true := by
  cases t <;> krfl

theorem ordered_noBody : ordered noBodyNode = true := by krfl

theorem ordered_cnvpr (l : Option Link) (id : Nat) : ordered (cnvprNode l id) = true := by
  unfold cnvprNode linkKids
  cases l with
  | none => krfl
  | some l => cases h : l.rId with
    | none => simp only [Option.bind_some, h, Option.map_none]; krfl
    | some r => simp only [Option.bind_some, h, Option.map_some]; krfl

theorem ordered_shape {fontSize : Str → Nat → Nat → Nat} {s : Shape} {body : Node} (id : Nat)
    (ht : ∀ t ∈ s.text, isCode t = false) (hg : ∀ g ∈ s.gradient, 2 ≤ g.stops.length)
    (hb : BodyOf fontSize s body) :
    ordered (shapeNode (cnvprNode s.link id) (rotAttrs s.rotation) s
      (s.fillNodes ++ s.line.toList.map lineNode) body) = true := by
  have h1 : ordered body = true := by
    cases hb with
    | none h => exact ordered_noBody
    | code h hc => rw [ht _ h] at hc; cases hc
    | plain h hc => exact ordered_plainBody _ _ _ _ _
  have htag : ∃ bk, body = E c!"p:txBody" [] bk := by cases hb <;> exact ⟨_, rfl⟩
  obtain ⟨bk, rfl⟩ := htag
  have h2 := ordered_cnvpr s.link id
  have hf : orderedL s.fillNodes = true := by
    unfold Shape.fillNodes
    cases hgr : s.gradient with
    | none => exact orderedL_map fun f _ => ordered_solid f
    | some g => exact orderedL_map fun a _ => ordered_gradient a (hg g hgr)
  have hl : orderedL (s.line.toList.map lineNode) = true := orderedL_map fun f _ => ordered_line f
  have h3 : ordered (E c!"p:spPr" [] ([nl, xfrmNode (rotAttrs s.rotation) s, nl, geomNode s]
      ++ gap (s.fillNodes ++ s.line.toList.map lineNode))) = true := by
    refine ordered_elem ?_ ?_
    · unfold wellPlaced
      rw [tags_append, tags_gap, tags_append]
      unfold Shape.fillNodes
      cases s.gradient with
      | none => cases s.fill <;> cases s.line <;> krfl
      | some g => cases h : g.direction.toAngle <;> simp only [h] <;> cases s.line <;> krfl
    · rw [orderedL_append, orderedL_gap, orderedL_append, hf, hl]
      krfl
  have e : ordered (shapeNode (cnvprNode s.link id) (rotAttrs s.rotation) s
      (s.fillNodes ++ s.line.toList.map lineNode) (E c!"p:txBody" [] bk))
      = ((ordered (cnvprNode s.link id) && true) && (ordered (E c!"p:spPr" [] ([nl, xfrmNode (rotAttrs s.rotation) s, nl, geomNode s]
      ++ gap (s.fillNodes ++ s.line.toList.map lineNode))) && (ordered (E c!"p:txBody" [] bk) && true))) := by krfl
  rw [e, h1, h2, h3]
  rfl

theorem ordered_effect (e : ImageEffect) : ordered e.node = true := by cases e <;> krfl

theorem ordered_effectTags {l : List ImageEffect} (h : l.Sublist effectOrder) :
    wellPlaced c!"a:effectLst" (l.map ImageEffect.node) = true := by
  have key : ∀ m ∈ effectOrder.sublists, wellPlaced c!"a:effectLst" (m.map ImageEffect.node) = true := by
    decide +kernel
  exact key l (List.mem_sublists.mpr h)

theorem ordered_picture {p : Picture} (h : p.effects.Sublist effectOrder) (id rel : Nat) :
    ordered (pictureNode p id rel) = true := by
  have hb : ordered (blipNode rel p.crop) = true := by cases p.crop <;> krfl
  have h1 : orderedL (effectNodes p.effects) = true := by
    unfold effectNodes
    split
    · rfl
    · rw [orderedL, ordered_elem (ordered_effectTags h) (orderedL_map fun e _ => ordered_effect e)]; rfl
  have ht : tags (effectNodes p.effects) = [] ∨ tags (effectNodes p.effects) = [c!"a:effectLst"] := by
    unfold effectNodes
    split
    · exact .inl rfl
    · exact .inr rfl
  have h2 : wellPlaced c!"p:spPr" ([nl, E c!"a:xfrm" [] (placeNodes p.x p.y p.width p.height),
      nl, E c!"a:prstGeom" [(c!"prst", c!"rect")] (lines [E c!"a:avLst" [] []])] ++ gap (effectNodes p.effects)) = true := by
    unfold wellPlaced
    rw [tags_append, tags_gap]
    rcases ht with ht | ht <;> rw [ht] <;> krfl
  have h3 : ordered (E c!"p:spPr" [] ([nl, E c!"a:xfrm" [] (placeNodes p.x p.y p.width p.height),
      nl, E c!"a:prstGeom" [(c!"prst", c!"rect")] (lines [E c!"a:avLst" [] []])] ++ gap (effectNodes p.effects))) = true := by
    refine ordered_elem h2 ?_
    rw [orderedL_append, orderedL_gap, h1]
    krfl
  have e : ordered (pictureNode p id rel) = (ordered (blipNode rel p.crop) && (ordered (E c!"p:spPr" []
      ([nl, E c!"a:xfrm" [] (placeNodes p.x p.y p.width p.height),
      nl, E c!"a:prstGeom" [(c!"prst", c!"rect")] (lines [E c!"a:avLst" [] []])] ++ gap (effectNodes p.effects))) && true)) := by
    krfl
  rw [e, hb, h3]
  rfl

theorem ordered_connector {c : Connector} (h : c.label = none) (id : Nat) :
    ordered (connectorNode c id) = true := by
  have h1 : ordered (E c!"p:cNvCxnSpPr" [] (attachedNodes c!"a:stCxn" (both c.startShape c.startSite)
        ++ attachedNodes c!"a:endCxn" (both c.endShape c.endSite) ++ [nl])) = true := by
    cases both c.startShape c.startSite <;> cases both c.endShape c.endSite <;> krfl
  have h2 : ordered (connectorProps c) = true := by
    unfold connectorProps arrowNodes
    by_cases a : c.startArrow = .none <;> by_cases b : c.endArrow = .none <;> simp only [a, b, if_true, if_false] <;> krfl
  have e : ordered (connectorNode { c with label := none } id) = ((ordered (E c!"p:cNvCxnSpPr" []
      (attachedNodes c!"a:stCxn" (both c.startShape c.startSite)
        ++ attachedNodes c!"a:endCxn" (both c.endShape c.endSite) ++ [nl])) && true) &&
      (ordered (connectorProps { c with label := none }) && true)) := by krfl
  have ec : { c with label := none } = c := by rw [← h]
  rw [ec] at e
  rw [e, h1, h2]
  rfl

theorem ordered_segment (s : Segment) : ordered (segmentNode s) = true := by
  obtain ⟨t, c, b, i⟩ := s
  cases t <;> krfl

theorem ordered_bareRun (c t : Str) : ordered (codeRunNode [] c t) = true := by
  cases t <;> krfl

theorem ordered_codeBlock {highlight : Option (Str → Str → List (List Segment))} {b : CodeBlock}
    (h : ∃ f ∈ highlight, f b.code b.language ≠ []) (id : Nat) :
    ordered (codeBlockNode b id (codeNodes highlight b)) = true := by
  obtain ⟨f, hf, hn⟩ := h
  rw [Option.mem_def] at hf
  subst hf
  have hl : ∀ l, ordered (highlightedNode l) = true := by
    intro l
    have hr : orderedL (codeRuns l) = true := by
      unfold codeRuns
      split
      · rw [orderedL, ordered_bareRun]; rfl
      · exact orderedL_map fun s _ => ordered_segment s
    have ht : ∀ t ∈ tags (codeRuns l), ([c!"a:r", c!"a:br", c!"a:fld"].contains t) = true := by
      unfold codeRuns
      split
      · intro t ht
        simp only [tags, codeRunNode, List.mem_cons, List.not_mem_nil, or_false] at ht
        rw [ht]; rfl
      · rw [tags_map (g := segmentNode) (t := fun _ => c!"a:r") (fun a => ⟨_, _, rfl⟩)]
        intro t ht
        obtain ⟨_, _, rfl⟩ := List.mem_map.mp ht
        rfl
    refine ordered_elem ?_ ?_
    · generalize codeRuns l = ks at ht
      show follows [rep 0 [c!"a:r", c!"a:br", c!"a:fld"], opt [c!"a:endParaRPr"]] (tags ks) = true
      rw [follows_rep_end ht (Nat.zero_le _)]
      rfl
    · rw [orderedL, hr]
      krfl
  have hb : ordered (codeBodyNode ((f b.code b.language).map highlightedNode)) = true := by
    refine ordered_elem ?_ ?_
    · generalize f b.code b.language = l at hn ⊢
      show follows [req c!"a:bodyPr", opt [c!"a:lstStyle"], rep 1 [c!"a:p"]]
        (c!"a:bodyPr" :: c!"a:lstStyle" :: tags (l.map highlightedNode)) = true
      rw [tags_map (g := highlightedNode) (t := fun _ => c!"a:p") (fun a => ⟨_, _, rfl⟩)]
      show follows [rep 1 [c!"a:p"]] (l.map fun _ => c!"a:p") = true
      refine follows_rep ?_ ?_
      · intro x hx
        obtain ⟨_, _, rfl⟩ := List.mem_map.mp hx
        rfl
      · rw [List.length_map]
        exact List.length_pos_iff.mpr hn
    · rw [orderedL_append, orderedL_map fun l _ => hl l]
      krfl
  have e : ordered (codeBlockNode b id (codeNodes (some f) b))
      = (ordered (codeBodyNode ((f b.code b.language).map highlightedNode)) && true) := by krfl
  rw [e, hb]
  rfl

theorem ordered_chart (c : ChartBox) (r : Str) (id : Nat) : ordered (chartNode c r id) = true := by krfl

/-! ### The text of slides -/

theorem ordered_style (b : BulletStyle) : ordered b.node = true := by cases b <;> krfl

theorem ordered_props (p : TextProps) : ordered p.node = true := by
  unfold TextProps.node TextProps.kids
  cases p.color <;> cases p.highlight <;> cases p.fontFamily <;> krfl

theorem ordered_run (p : TextProps) (t : Str) : ordered (runNode p t) = true := by
  have e : ordered (runNode p t) = (ordered p.node && (orderedL (addText [] t) && true)) := by
    cases t <;> krfl
  rw [e, ordered_props, orderedL_addText]
  rfl

theorem ordered_para (d : TextProps) (b : BulletPoint) : ordered (paraNode d b) = true := by
  have h : ∃ n as ks, b.style.node = E n as ks ∧
      wellPlaced c!"a:pPr" (lines [E n as ks]) = true := by
    cases b.style <;> exact ⟨_, _, _, rfl, by krfl⟩
  obtain ⟨n, as, ks, h1, h2⟩ := h
  have h3 := ordered_style b.style
  have h4 := ordered_run (bulletProps d b.format) b.text
  unfold paraNode
  rw [h1] at h3 ⊢
  have h5 : ordered (E c!"a:pPr" [(c!"lvl", dec b.level),
      (c!"marL", dec (b.level * 457200 + b.indent)), (c!"indent", c!"-" ++ dec b.indent)]
      (lines [E n as ks])) = true := by
    refine ordered_elem h2 ?_
    have : orderedL (lines [E n as ks]) = (ordered (E n as ks) && true) := by krfl
    rw [this, h3]; rfl
  generalize hx : E c!"a:pPr" _ _ = x at h5 ⊢
  have e : ordered (E c!"a:p" [] (lines [x, runNode (bulletProps d b.format) b.text]))
      = (ordered x && (ordered (runNode (bulletProps d b.format) b.text) && true)) := by
    subst hx; krfl
  rw [e, h5, h4]
  rfl

theorem ordered_box {id name : Str} {x y cx cy : Nat} {as : List (Str × Str)} {paras : List Node}
    (h1 : orderedL paras = true) (h2 : ∀ t ∈ tags paras, t = c!"a:p") (h3 : tags paras ≠ []) :
    ordered (boxNode id name x y cx cy as paras) = true := by
  have hb : ordered (E c!"p:txBody" [] ([nl, E c!"a:bodyPr" ([(c!"wrap", c!"square"), (c!"rtlCol", c!"0")] ++ as) [],
      nl, E c!"a:lstStyle" [] []] ++ paras ++ [nl])) = true := by
    refine ordered_elem ?_ ?_
    · unfold wellPlaced
      rw [tags_append, tags_append]
      generalize tags paras = l at h2 h3
      have : tags [nl] = [] := rfl
      rw [this, List.append_nil]
      show follows [rep 1 [c!"a:p"]] l = true
      refine follows_rep ?_ (List.length_pos_iff.mpr h3)
      intro t ht
      rw [h2 t ht]
      rfl
    · rw [orderedL_append, orderedL_append, h1]
      krfl
  have e : ordered (boxNode id name x y cx cy as paras) = (ordered (E c!"p:txBody" []
      ([nl, E c!"a:bodyPr" ([(c!"wrap", c!"square"), (c!"rtlCol", c!"0")] ++ as) [],
      nl, E c!"a:lstStyle" [] []] ++ paras ++ [nl])) && true) := by krfl
  rw [e, hb]
  rfl

theorem ordered_title (title : Str) (p : TextProps) (x y cx cy : Nat) (align : Str) :
    ordered (titleNode title p x y cx cy align) = true := by
  unfold titleNode
  refine ordered_box ?_ (by simp [tags, nl]) (by simp [tags, nl])
  have e : orderedL [nl, E c!"a:p" [] (lines [E c!"a:pPr" [(c!"algn", align)] [], runNode p title])]
      = ((ordered (runNode p title) && true) && true) := by krfl
  rw [e, ordered_run]
  rfl

theorem tags_paras (d : TextProps) (l : List BulletPoint) : tags (paraNodes d l) = l.map fun _ => c!"a:p" := by
  induction l with
  | nil => rfl
  | cons b l ih =>
    have : paraNodes d (b :: l) = [nl, paraNode d b] ++ paraNodes d l := rfl
    rw [this, tags_append, ih]
    rfl

theorem orderedL_paras (d : TextProps) (l : List BulletPoint) : orderedL (paraNodes d l) = true := by
  induction l with
  | nil => rfl
  | cons b l ih =>
    have : paraNodes d (b :: l) = [nl, paraNode d b] ++ paraNodes d l := rfl
    rw [this, orderedL_append, ih]
    have e : orderedL [nl, paraNode d b] = (ordered (paraNode d b) && true) := by krfl
    rw [e, ordered_para]
    rfl

theorem ordered_content {id name : Str} {x y cx cy : Nat} {d : TextProps} {l : List BulletPoint} (h : l ≠ []) :
    ordered (boxNode id name x y cx cy [] (paraNodes d l)) = true := by
  refine ordered_box (orderedL_paras d l) ?_ ?_
  · rw [tags_paras]; simp
  · rw [tags_paras]; simpa using h

/-- The objects of a slide. -/
def objectTags : List Str := [c!"p:sp", c!"p:grpSp", c!"p:graphicFrame", c!"p:cxnSp", c!"p:pic", c!"p:contentPart"]

/-- A list of objects in order. -/
def Objects (l : List Node) : Prop := orderedL l = true ∧ ∀ t ∈ tags l, objectTags.contains t = true

theorem Objects.append {a b : List Node} (h1 : Objects a) (h2 : Objects b) : Objects (a ++ b) :=
  ⟨by rw [orderedL_append, h1.1, h2.1]; rfl, by
    intro t ht
    rw [tags_append, List.mem_append] at ht
    exact ht.elim (h1.2 t) (h2.2 t)⟩

theorem Objects.nil : Objects [] := ⟨rfl, by simp [tags]⟩

theorem Objects.line {n : Str} {as : List (Str × Str)} {ks : List Node} (h : ordered (E n as ks) = true)
    (hn : objectTags.contains n = true) : Objects [nl, E n as ks] := by
  constructor
  · rw [orderedL, orderedL, h]; rfl
  · intro t ht
    simp only [tags, nl, List.mem_cons, List.not_mem_nil, or_false] at ht
    rw [ht]
    exact hn

theorem objects_box {id name : Str} {x y cx cy : Nat} {d : TextProps} {l : List BulletPoint} (h : l ≠ []) :
    Objects [nl, boxNode id name x y cx cy [] (paraNodes d l)] := Objects.line (ordered_content h) rfl

theorem objects_oneColumn (y cy : Nat) (d : TextProps) (l : List BulletPoint) : Objects (oneColumnNodes y cy d l) := by
  unfold oneColumnNodes
  split
  · rename_i h; exact objects_box h
  · exact Objects.nil

theorem objects_twoColumn (d : TextProps) (l : List BulletPoint) : Objects (twoColumnNodes d l) := by
  unfold twoColumnNodes
  split
  · rename_i h
    refine (objects_box ?_).append ?_
    · intro e
      have := congrArg List.length e
      rw [List.length_take] at this
      simp only [List.length_nil] at this
      omega
    · split
      · rename_i h2
        refine objects_box ?_
        intro e
        have := congrArg List.length e
        rw [List.length_drop] at this
        simp only [List.length_nil] at this
        omega
      · exact Objects.nil
  · exact Objects.nil

theorem ordered_cell (c : CellIn) : ordered c.node = true := by
  have h1 : ordered c.runProps = true := by
    unfold CellIn.runProps CellIn.runKids
    cases c.textColor <;> cases c.fontFamily <;> krfl
  have h2 : ordered c.propsNode = true := by
    unfold CellIn.propsNode
    cases c.backgroundColor <;> krfl
  have h3 : ordered c.paraNode = true := by
    have er : ordered (E c!"a:r" [] [c.runProps, E c!"a:t" [] (addText [] c.text)]) = true := by
      have e : ordered (E c!"a:r" [] [c.runProps, E c!"a:t" [] (addText [] c.text)])
        = (ordered c.runProps && (orderedL (addText [] c.text) && true)) := by
        cases c.text <;> krfl
      rw [e, h1, orderedL_addText]; rfl
    unfold CellIn.paraNode CellIn.paraProps
    split
    · krfl
    · split
      · have e : ordered (E c!"a:p" [] ([] ++ [E c!"a:r" [] [c.runProps, E c!"a:t" [] (addText [] c.text)]]))
          = (ordered (E c!"a:r" [] [c.runProps, E c!"a:t" [] (addText [] c.text)]) && true) := by krfl
        rw [e, er]; rfl
      · have e : ordered (E c!"a:p" [] ([E c!"a:pPr" [(c!"algn", c.align.asStr)] []]
            ++ [E c!"a:r" [] [c.runProps, E c!"a:t" [] (addText [] c.text)]]))
          = (ordered (E c!"a:r" [] [c.runProps, E c!"a:t" [] (addText [] c.text)]) && true) := by krfl
        rw [e, er]; rfl
  have h4 : ∃ ks, c.paraNode = E c!"a:p" [] ks := by
    unfold CellIn.paraNode; split <;> exact ⟨_, rfl⟩
  obtain ⟨ks, h4⟩ := h4
  unfold CellIn.node
  split
  · krfl
  · rw [h4] at h3 ⊢
    have e : ordered (E c!"a:tc" c.mergeNodeAttrs [E c!"a:txBody" [] [E c!"a:bodyPr" [] [], E c!"a:lstStyle" [] [],
        E c!"a:p" [] ks], c.propsNode]) = ((ordered (E c!"a:p" [] ks) && true) && (ordered c.propsNode && true)) := by
      krfl
    rw [e, h3, h2]; rfl

theorem flatMap_one {α : Type} (f : α → Node) (l : List α) : (l.flatMap fun a => [f a]) = l.map f := by
  induction l with
  | nil => rfl
  | cons a l ih => rw [List.flatMap_cons, ih]; rfl

theorem ordered_row (r : RowIn) (idx : Nat) : ordered (rowNode r idx) = true := by
  unfold rowNode
  rw [flatMap_one CellIn.node]
  refine ordered_elem ?_ ?_
  · unfold wellPlaced
    rw [tags_append, tags_map (g := CellIn.node) (t := fun _ => c!"a:tc") (fun a => ⟨_, _, rfl⟩)]
    show follows [rep 0 [c!"a:tc"], opt [c!"a:extLst"]] (r.cells.map (fun _ => c!"a:tc") ++ c!"a:extLst" :: []) = true
    rw [follows_rep_before ?_ (by decide)]
    · rfl
    · intro x hx
      obtain ⟨_, _, rfl⟩ := List.mem_map.mp hx
      rfl
  · rw [orderedL_append, orderedL_map fun c _ => ordered_cell c]
    krfl

theorem ordered_table (t : TableIn) : ordered (tableNode t) = true := by
  have hg : ordered (E c!"a:tblGrid" [] (t.columnWidths.zipIdx.flatMap fun w => [columnNode w.1 w.2])) = true := by
    rw [flatMap_one (fun w : Nat × Nat => columnNode w.1 w.2)]
    refine ordered_elem ?_ (orderedL_map fun w _ => by krfl)
    unfold wellPlaced
    rw [tags_map (g := fun w : Nat × Nat => columnNode w.1 w.2) (t := fun _ => c!"a:gridCol") (fun a => ⟨_, _, rfl⟩)]
    refine follows_rep ?_ (Nat.zero_le _)
    intro x hx
    obtain ⟨_, _, rfl⟩ := List.mem_map.mp hx
    rfl
  have ht : ordered (E c!"a:tbl" [] ([E c!"a:tblPr" [(c!"firstRow", c!"1"), (c!"bandRow", c!"1")] [],
        E c!"a:tblGrid" [] (t.columnWidths.zipIdx.flatMap fun w => [columnNode w.1 w.2])]
        ++ t.rows.zipIdx.flatMap fun r => [rowNode r.1 r.2])) = true := by
    rw [flatMap_one (fun r : RowIn × Nat => rowNode r.1 r.2)]
    refine ordered_elem ?_ ?_
    · unfold wellPlaced
      rw [tags_append, tags_map (g := fun r : RowIn × Nat => rowNode r.1 r.2) (t := fun _ => c!"a:tr") (fun a => ⟨_, _, rfl⟩)]
      show follows [rep 0 [c!"a:tr"]] (t.rows.zipIdx.map fun _ => c!"a:tr") = true
      refine follows_rep ?_ (Nat.zero_le _)
      intro x hx
      obtain ⟨_, _, rfl⟩ := List.mem_map.mp hx
      rfl
    · rw [orderedL_append, orderedL_map fun r _ => ordered_row r.1 r.2]
      rw [orderedL, orderedL, hg]
      krfl
  unfold tableNode
  generalize E c!"a:tbl" [] _ = x at ht ⊢
  rw [ordered_elem (n := c!"p:graphicFrame")]
  · krfl
  · rw [orderedL, orderedL, orderedL, ordered_elem (n := c!"a:graphic") (by krfl)]
    · krfl
    · rw [orderedL, ordered_elem (n := c!"a:graphicData") (by krfl)]
      · rfl
      · rw [orderedL, ht]; rfl

theorem objects_title (title : Str) (p : TextProps) (x y cx cy : Nat) (align : Str) :
    Objects [nl, titleNode title p x y cx cy align] := Objects.line (ordered_title title p x y cx cy align) rfl

theorem objects_slideText (s : SlideText) : Objects s.shapeNodes := by
  unfold SlideText.shapeNodes
  split
  · exact Objects.nil
  · exact objects_title _ _ _ _ _ _ _
  · exact objects_title _ _ _ _ _ _ _
  · exact objects_title _ _ _ _ _ _ _
  · exact (objects_title _ _ _ _ _ _ _).append (objects_oneColumn _ _ _ _)
  · exact (objects_title _ _ _ _ _ _ _).append (objects_twoColumn _ _)
  · refine (objects_title _ _ _ _ _ _ _).append ?_
    split
    · cases s.table with
      | none => exact Objects.nil
      | some t => exact Objects.line (ordered_table t) rfl
    · exact objects_oneColumn _ _ _ _

/-- A slide is in order when its objects are. -/
theorem ordered_slide {shapes X : List Node} {t : Transition} (h1 : Objects shapes) (h2 : Objects X)
    (ht : t ≠ .reveal) : ordered (slideNode shapes X t.nodes) = true := by
  have h3 := h1.append h2
  have hs : ordered (E c!"p:spTree" [] (groupNodes ++ shapes ++ X ++ [nl])) = true := by
    rw [List.append_assoc groupNodes]
    generalize shapes ++ X = l at h3 ⊢
    refine ordered_elem ?_ ?_
    · unfold wellPlaced
      rw [tags_append, tags_append]
      have : tags [nl] = [] := rfl
      rw [this, List.append_nil]
      show follows [rep 0 objectTags, opt [c!"p:extLst"]] (tags l) = true
      rw [follows_rep_end h3.2 (Nat.zero_le _)]
      rfl
    · rw [orderedL_append, orderedL_append, h3.1]
      krfl
  unfold slideNode
  generalize hx : E c!"p:spTree" [] _ = x at hs ⊢
  cases t
  case reveal => exact absurd rfl ht
  all_goals
    rw [ordered_elem (n := c!"p:sld")]
    · krfl
    · rw [orderedL_append, orderedL, orderedL, ordered_elem (n := c!"p:cSld") (by subst hx; krfl)]
      · krfl
      · have : orderedL (lines [E c!"p:bg" [] (lines [E c!"p:bgRef" [(c!"idx", c!"1001")]
          (lines [E c!"a:schemeClr" [(c!"val", c!"bg1")] []])]), x]) = (ordered x && true) := by krfl
        rw [this, hs]
        rfl

/-- A drawing has ordered objects if nothing is in it that the writers put in the wrong order. -/
theorem objects_drawing {fontSize : Str → Nat → Nat → Nat}
    {highlight : Option (Str → Str → List (List Segment))} {d : Drawing} {rids : List Str} {ps : List Part}
    (h : d.Safe highlight rids) (ht : d.Tidy highlight) (e : d.xml fontSize highlight rids = some ps) :
    ∃ X, ReadsNodes ps X ∧ Objects X := by
  obtain ⟨X, h1, h2⟩ := drawing_reads_all
    (Q := fun k => ordered k = true ∧ ∃ n as ks, k = .elem n as ks ∧ objectTags.contains n = true) h e
    (fun s hs id x hx => by
      simp only [shapeXml, Option.bind_eq_some_iff, Option.map_eq_some_iff] at hx
      obtain ⟨fill, hf, text, htx, rot, hr, rfl⟩ := hx
      obtain ⟨b, hb1, hb2⟩ := readsTagged_text htx
      have hg : ∀ g ∈ s.gradient, g.direction.toAngle ≠ none := by
        intro g hg ha
        rw [Option.mem_def] at hg
        simp [shapeFillXml, hg, gradientXml, ha] at hf
      exact ⟨_, _, readsTagged_shapeText s (readsTagged_cnvpr (h.shapes s hs).link) (readsAttrs_rot hr)
        (soft_shapeFill (h.shapes s hs) hf) (soft_line (h.shapes s hs).line) hb1, readShape_node id hg hb2,
        ordered_shape id (ht.text s hs) (ht.stops s hs) hb2, _, _, _, rfl, rfl⟩)
    (fun p hp id rel => ⟨ordered_picture (ht.effects p hp) id rel, _, _, _, rfl, rfl⟩)
    (fun b hb id => ⟨ordered_codeBlock (ht.code b hb) id, _, _, _, rfl, rfl⟩)
    (fun c hc id => ⟨ordered_connector (ht.labels c hc) id, _, _, _, rfl, rfl⟩)
    (fun c _ r id => ⟨ordered_chart c r id, _, _, _, rfl, rfl⟩)
  refine ⟨X, h1, ?_, ?_⟩
  · refine orderedL_all fun k hk => ?_
    rcases h2.all k hk with rfl | hq
    · rfl
    · exact hq.1
  · have : ∀ l : List Node, (∀ k ∈ l, k = nl ∨ (ordered k = true ∧ ∃ n as ks, k = .elem n as ks ∧
        objectTags.contains n = true)) → ∀ t ∈ tags l, objectTags.contains t = true := by
      intro l
      induction l with
      | nil => intro _ t ht; cases ht
      | cons k l ih =>
        intro hl t ht
        rcases hl k (by simp) with rfl | ⟨_, n, as, ks, rfl, hn⟩
        · exact ih (fun a ha => hl a (by simp [ha])) t ht
        · rw [tags, List.mem_cons] at ht
          rcases ht with rfl | ht
          · exact hn
          · exact ih (fun a ha => hl a (by simp [ha])) t ht
    exact this X h2.all

end PptRs.Draw
