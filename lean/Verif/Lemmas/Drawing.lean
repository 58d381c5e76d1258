import Verif.Lemmas.SlideText
import Verif.Spec.Drawing

/-!
# The drawings of a slide as XML
-/

namespace PptRs.Draw

open PptRs PptRs.Spec

/-! ### Optional elements between white space -/

/-- Nothing, or something that begins with a tag. -/
def Soft (ps : List Part) (ks : List Node) : Prop :=
  (ps = [] ∧ ks = []) ∨ (ReadsTagged ps ks ∧ ks ≠ [])

theorem readsTagged_append {a b : List Part} {x y : List Node} (h1 : ReadsTagged a x)
    (h2 : ReadsTagged b y) : ReadsTagged (a ++ b) (x ++ y) := by
  intro n as k st t
  rw [fmt_append]
  have := (h1 n as k st t).append (h2.nodes n as _ st)
  simpa using this

theorem Soft.nil : Soft [] [] := .inl ⟨rfl, rfl⟩

theorem Soft.append {a b : List Part} {x y : List Node} (h1 : Soft a x) (h2 : Soft b y) :
    Soft (a ++ b) (x ++ y) := by
  rcases h1 with ⟨rfl, rfl⟩ | ⟨h1, n1⟩
  · simpa using h2
  · rcases h2 with ⟨rfl, rfl⟩ | ⟨h2, n2⟩
    · simpa using .inr ⟨h1, n1⟩
    · exact .inr ⟨readsTagged_append h1 h2, by simp [n1]⟩

theorem Soft.flatMap {α : Type} {f : α → List Part} {g : α → Node} {l : List α}
    (h : ∀ a ∈ l, ReadsTagged (f a) [g a]) : Soft (l.flatMap f) (l.map g) := by
  induction l with
  | nil => exact .nil
  | cons a l ih =>
    rw [List.flatMap_cons, List.map_cons]
    exact Soft.append (x := [g a]) (.inr ⟨h a (by simp), by simp⟩) (ih fun b hb => h b (by simp [hb]))

theorem Soft.whenSome {α : Type} {o : Option α} {f : α → List Part} {g : α → Node}
    (h : ∀ a ∈ o, ReadsTagged (f a) [g a]) : Soft (whenSome o f) (o.toList.map g) :=
  Soft.flatMap (by simpa using h)

/-- What stands between two line feeds. -/
def gap (ks : List Node) : List Node := if ks = [] then [.text c!"\n\n"] else nl :: ks ++ [nl]

/-! ### Fills and lines -/

theorem plain_decInt (i : Int) : Plain (decInt i) := by
  cases i with
  | ofNat n => exact plain_dec n
  | negSucc n =>
    obtain ⟨a, b, c⟩ := plain_dec (n + 1)
    refine ⟨?_, ?_, ?_⟩ <;> simp only [decInt, List.mem_cons, not_or] <;> exact ⟨by decide, by assumption⟩

/-- The opacity. -/
def alphaNodes (a : Option Nat) : List Node := a.toList.map fun t => E c!"a:alpha" [(c!"val", dec t)] []

theorem readsNodes_alpha (a : Option Nat) : ReadsNodes (alphaXml a) (alphaNodes a) := by
  cases a with
  | none => exact readsNodes_nil
  | some t =>
    show ReadsNodes t!"<a:alpha val=\"{.num t}\"/>" _
    exact (Splits.lit (by parts_ok)).readsNodes (by krfl)

/-- A colour with its opacity. -/
def tintNode (c : Str) (a : Option Nat) : Node := E c!"a:srgbClr" [(c!"val", c)] (alphaNodes a)

/-- A solid fill. -/
def solidNode (f : ShapeFill) : Node := E c!"a:solidFill" [] (lines [tintNode f.color f.alpha])

theorem soft_fill {f : Option ShapeFill} (h : ∀ x ∈ f, Plain x.color) :
    Soft (fillXml f) (f.toList.map solidNode) :=
  Soft.whenSome fun x hx =>
    (Splits.readsNodes (((Splits.lit (by parts_ok; exact h x hx)).append
      (.nodes (readsNodes_alpha x.alpha))).append (.lit (by parts_ok))) (by krfl)).tagged ⟨_, rfl⟩

/-- A gradient stop. -/
def stopNode (s : GradientStop) : Node :=
  E c!"a:gs" [(c!"pos", dec s.position)] (lines [tintNode s.color s.alpha])

theorem readsTagged_stop {s : GradientStop} (h : Plain s.color) : ReadsTagged (stopXml s) [stopNode s] :=
  (Splits.readsNodes (((Splits.lit (by parts_ok)).append
    (.nodes (readsNodes_alpha s.alpha))).append (.lit (by parts_ok))) (by krfl)).tagged ⟨_, rfl⟩

/-- The list of stops. -/
def stopsNode (l : List GradientStop) : Node := E c!"a:gsLst" [] (gap (l.map stopNode))

/-- A gradient. -/
def gradientNode (l : List GradientStop) (ang : Nat) : Node :=
  E c!"a:gradFill" [] (lines [stopsNode l,
    E c!"a:lin" [(c!"ang", dec ang), (c!"scaled", c!"1")] []])

theorem readsTagged_gradient {l : List GradientStop} (ang : Nat) (h : ∀ x ∈ l, Plain x.color) :
    ReadsTagged (gradientText l ang) [gradientNode l ang] := by
  refine ReadsNodes.tagged ?_ ⟨_, rfl⟩
  have hs : Soft (l.flatMap stopXml) (l.map stopNode) := Soft.flatMap fun x hx => readsTagged_stop (h x hx)
  unfold gradientNode stopsNode gradientText
  generalize l.map stopNode = ks at hs ⊢
  generalize l.flatMap stopXml = ps at hs ⊢
  rcases hs with ⟨rfl, rfl⟩ | ⟨hs, hn⟩
  · exact Splits.readsNodes (((Splits.lit (by parts_ok)).append (.lit (by parts_ok))).append
      (.lit (by parts_ok))) (by krfl)
  · rw [gap, if_neg hn]
    exact Splits.readsNodes (((Splits.lit (by parts_ok)).append (.tagged hs)).append
      (.lit (by parts_ok))) (by krfl)

/-- A line. -/
def lineNode (l : ShapeLine) : Node :=
  E c!"a:ln" [(c!"w", dec l.width)] (lines [E c!"a:solidFill" []
    (lines [E c!"a:srgbClr" [(c!"val", l.color)] []])])

theorem soft_line {l : Option ShapeLine} (h : ∀ x ∈ l, Plain x.color) :
    Soft (lineXml l) (l.toList.map lineNode) :=
  Soft.whenSome fun x hx =>
    (Splits.readsNodes (Splits.lit (by parts_ok; exact h x hx)) (by krfl)).tagged ⟨_, rfl⟩

/-- The fill of a shape. -/
def Shape.fillNodes (s : Shape) : List Node :=
  match s.gradient with
  | some g => g.direction.toAngle.toList.map (gradientNode g.stops)
  | none => s.fill.toList.map solidNode

theorem soft_shapeFill {s : Shape} (h : s.Safe) {ps : List Part} (e : shapeFillXml s = some ps) :
    Soft ps s.fillNodes := by
  unfold shapeFillXml at e
  unfold Shape.fillNodes
  cases hg : s.gradient with
  | none =>
    rw [hg] at e
    cases e
    exact soft_fill h.fill
  | some g =>
    rw [hg] at e
    simp only [gradientXml, Option.map_eq_some_iff] at e
    obtain ⟨ang, ha, rfl⟩ := e
    simp only [ha, Option.toList_some, List.map_cons, List.map_nil]
    exact .inr ⟨readsTagged_gradient ang (h.gradient g hg), by simp⟩

/-! ### Hyperlinks -/

theorem readsAttrs_whenSome {α : Type} {o : Option α} {f : α → List Part} {g : α → List (Str × Str)}
    (h : ∀ a ∈ o, ReadsAttrs (f a) (g a)) : ReadsAttrs (whenSome o f) (o.toList.flatMap g) :=
  readsAttrs_flatMap (by simpa using h)

theorem plain_action {a : HyperlinkAction} {x : Str} (h : x ∈ actionType a) : Plain x := by
  cases a <;> simp only [actionType, Option.mem_def, Option.some.injEq, reduceCtorEq] at h <;> subst h <;>
    exact ⟨by decide, by decide, by decide⟩

/-- The element of a hyperlink. -/
def linkNode (h : Link) (rid : Str) : Node :=
  E c!"a:hlinkClick" ([(c!"r:id", rid)] ++ h.tooltip.toList.flatMap (fun t => [(c!"tooltip", t)])
    ++ (if h.highlight then [(c!"highlightClick", c!"1")] else [])
    ++ (actionType h.action).toList.flatMap fun a => [(c!"action", a)]) []

theorem readsTagged_link {h : Link} {rid : Str} (hr : Plain rid) :
    ReadsTagged (linkXml h rid) [linkNode h rid] := by
  refine ReadsNodes.tagged ?_ ⟨_, rfl⟩
  have a1 : ReadsAttrs (whenSome h.tooltip (fun t => t!" tooltip=\"{.esc t}\""))
      (h.tooltip.toList.flatMap fun t => [(c!"tooltip", t)]) :=
    readsAttrs_whenSome fun t _ => (Splits.lit (by parts_ok)).readsAttrs (fun top st n as => by krfl)
  have a2 : ReadsAttrs (whenSet h.highlight t!" highlightClick=\"1\"")
      (if h.highlight then [(c!"highlightClick", c!"1")] else []) :=
    readsAttrs_whenSet ((Splits.lit (by parts_ok)).readsAttrs (fun top st n as => by krfl))
  have a3 : ReadsAttrs (whenSome (actionType h.action) (fun a => t!" action=\"{.raw a}\""))
      ((actionType h.action).toList.flatMap fun a => [(c!"action", a)]) :=
    readsAttrs_whenSome fun t ht => by
      have := plain_action ht
      exact (Splits.lit (by parts_ok)).readsAttrs (fun top st n as => by krfl)
  exact Splits.readsNodes (((((Splits.lit (by parts_ok)).append (.attrs a1)).append (.attrs a2)).append
    (.attrs a3)).append (.lit (by parts_ok))) (by krfl)

/-- The hyperlink of a shape. -/
def linkKids (link : Option Link) : List Node :=
  match link.bind (fun h => h.rId.map fun rid => (h, rid)) with
  | some (h, rid) => [linkNode h rid]
  | none => []

/-- The `cNvPr` element of a shape. -/
def cnvprNode (link : Option Link) (id : Nat) : Node :=
  E c!"p:cNvPr" [(c!"id", dec id), (c!"name", c!"Shape " ++ dec id)] (linkKids link)

theorem readsTagged_cnvpr {link : Option Link} {id : Nat} (h : ∀ l ∈ link, ∀ r ∈ l.rId, Plain r) :
    ReadsTagged (cnvprXml link id) [cnvprNode link id] := by
  unfold cnvprXml cnvprNode linkKids
  cases hl : link.bind (fun h => h.rId.map fun rid => (h, rid)) with
  | none =>
    exact (Splits.readsNodes (Splits.lit (by parts_ok)) (by krfl)).tagged ⟨_, rfl⟩
  | some p =>
    obtain ⟨l, rid⟩ := p
    simp only [Option.bind_eq_some_iff, Option.map_eq_some_iff, Prod.mk.injEq] at hl
    obtain ⟨a, ha, r, hr, rfl, rfl⟩ := hl
    exact (Splits.readsNodes (((Splits.lit (by parts_ok)).append
      (.tagged (readsTagged_link (h _ ha _ hr)))).append (.lit (by parts_ok))) (by krfl)).tagged ⟨_, rfl⟩

/-! ### Text -/

/-- A line of code. -/
def codeLineNode (l : Str) : Node :=
  E c!"a:p" [] (lines [E c!"a:pPr" [(c!"algn", c!"l")] [],
    E c!"a:r" [] (lines [E c!"a:rPr" [(c!"lang", c!"en-US"), (c!"sz", c!"1200"), (c!"dirty", c!"0")]
        [E c!"a:latin" [(c!"typeface", c!"Consolas")] [],
         E c!"a:solidFill" [] [E c!"a:srgbClr" [(c!"val", c!"FFFFFF")] []]],
      E c!"a:t" [] (addText [] l)])])

theorem readsTagged_codeLine (l : Str) : ReadsTagged (codeLineXml l) [codeLineNode l] := by
  unfold codeLineXml
  exact (Splits.readsNodes (Splits.lit (by parts_ok)) (by krfl)).tagged ⟨_, rfl⟩

/-- The insets of a text body. -/
def insets : List (Str × Str) :=
  [(c!"lIns", c!"91440"), (c!"tIns", c!"45720"), (c!"rIns", c!"91440"), (c!"bIns", c!"45720")]

/-- The text body of code: the paragraphs follow each other directly. -/
def codeBodyNode (ps : List Node) : Node :=
  E c!"p:txBody" [] ([nl, E c!"a:bodyPr" ([(c!"wrap", c!"square"), (c!"rtlCol", c!"0"), (c!"anchor", c!"t")] ++ insets) [],
    nl, E c!"a:lstStyle" [] [], nl] ++ ps)

theorem readsTagged_codeText (t : Str) :
    ReadsTagged (codeTextXml t) [codeBodyNode ((strLines t).map codeLineNode)] := by
  refine ReadsNodes.tagged ?_ ⟨_, rfl⟩
  have hs : Soft ((strLines t).flatMap codeLineXml) ((strLines t).map codeLineNode) :=
    Soft.flatMap fun x _ => readsTagged_codeLine x
  unfold codeTextXml codeBodyNode
  generalize (strLines t).map codeLineNode = ks at hs ⊢
  generalize (strLines t).flatMap codeLineXml = ps at hs ⊢
  rcases hs with ⟨rfl, rfl⟩ | ⟨hs, hn⟩
  · exact Splits.readsNodes (((Splits.lit (by parts_ok)).append (.lit (by parts_ok))).append
      (.lit (by parts_ok))) (by krfl)
  · exact Splits.readsNodes (((Splits.lit (by parts_ok)).append (.tagged hs)).append
      (.lit (by parts_ok))) (by krfl)

/-- The text body of other text. -/
def plainBodyNode (t : Str) (size : Nat) (color anchor align : Str) : Node :=
  E c!"p:txBody" [] (lines [
    E c!"a:bodyPr" ([(c!"wrap", c!"square"), (c!"rtlCol", c!"0"), (c!"anchor", anchor)] ++ insets)
      (lines [E c!"a:normAutofit" [] []]),
    E c!"a:lstStyle" [] [],
    E c!"a:p" [] (lines [E c!"a:pPr" [(c!"algn", align), (c!"marL", c!"0"), (c!"marR", c!"0"), (c!"indent", c!"0")] [],
      E c!"a:r" [] (lines [E c!"a:rPr" [(c!"lang", c!"en-US"), (c!"sz", dec size), (c!"dirty", c!"0")]
          [E c!"a:solidFill" [] [E c!"a:srgbClr" [(c!"val", color)] []]],
        E c!"a:t" [] (addText [] t)])])])

theorem readsTagged_plainText {t : Str} {size : Nat} {color anchor align : Str} (hc : Plain color)
    (h1 : Plain anchor) (h2 : Plain align) :
    ReadsTagged (plainTextXml t size color anchor align) [plainBodyNode t size color anchor align] := by
  unfold plainTextXml
  exact (Splits.readsNodes (Splits.lit (by parts_ok)) (by krfl)).tagged ⟨_, rfl⟩

/-- The text body of a shape without text. -/
def noBodyNode : Node :=
  E c!"p:txBody" [] (lines [E c!"a:bodyPr" [] [], E c!"a:lstStyle" [] [],
    E c!"a:p" [] (lines [E c!"a:endParaRPr" [] []])])

theorem readsTagged_noText : ReadsTagged noTextXml [noBodyNode] := by
  unfold noTextXml
  exact (Splits.readsNodes (Splits.lit (by parts_ok)) (by krfl)).tagged ⟨_, rfl⟩

theorem plain_textColor {f : Option Str} {c : Str} (h : textColor f = some c) : Plain c := by
  have : c = c!"FFFFFF" ∨ c = c!"000000" := by
    cases f with
    | none => simp only [textColor, Option.some.injEq] at h; exact .inr h.symm
    | some x =>
      simp only [textColor, Option.map_eq_some_iff] at h
      obtain ⟨d, -, rfl⟩ := h
      cases d
      · exact .inr rfl
      · exact .inl rfl
  rcases this with rfl | rfl <;> exact ⟨by decide, by decide, by decide⟩

/-- The text body of a shape. -/
inductive BodyOf (fontSize : Str → Nat → Nat → Nat) (s : Shape) : Node → Prop
  | none (h : s.text = none) : BodyOf fontSize s noBodyNode
  | code {t} (h : s.text = some t) (hc : isCode t = true) :
      BodyOf fontSize s (codeBodyNode ((strLines t).map codeLineNode))
  | plain {t size color anchor align} (h : s.text = some t) (hc : isCode t = false)
      (hs : size = fontSize t s.width s.height) (hcol : textColor (s.fill.map (·.color)) = some color) :
      BodyOf fontSize s (plainBodyNode t size color anchor align)

theorem readsTagged_text {fontSize : Str → Nat → Nat → Nat} {s : Shape} {ps : List Part}
    (e : textXml fontSize s.text s.width s.height (s.fill.map (·.color)) = some ps) :
    ∃ b, ReadsTagged ps [b] ∧ BodyOf fontSize s b := by
  cases ht : s.text with
  | none =>
    rw [ht] at e
    cases e
    exact ⟨_, readsTagged_noText, .none ht⟩
  | some t =>
    rw [ht] at e
    simp only [textXml] at e
    cases hc : isCode t with
    | true =>
      rw [hc] at e
      cases e
      exact ⟨_, readsTagged_codeText t, .code ht hc⟩
    | false =>
      rw [hc] at e
      simp only [Bool.false_eq_true, if_false, Option.map_eq_some_iff] at e
      obtain ⟨c, hcol, rfl⟩ := e
      refine ⟨_, readsTagged_plainText (plain_textColor hcol) ?_ ?_, .plain ht hc rfl hcol⟩
      · split <;> exact ⟨by decide, by decide, by decide⟩
      · split <;> exact ⟨by decide, by decide, by decide⟩

/-! ### Shapes -/

theorem preset_plain (k : ShapeType) : Plain k.presetName := by
  cases k <;> exact ⟨by decide, by decide, by decide⟩

/-- The rotation. -/
def rotAttrs (r : Option Int) : List (Str × Str) := r.toList.map fun r => (c!"rot", decInt (r * 60000))

theorem readsAttrs_rot {r : Option Int} {ps : List Part} (h : rotAttr r = some ps) :
    ReadsAttrs ps (rotAttrs r) := by
  cases r with
  | none => cases h; exact readsAttrs_nil
  | some r =>
    simp only [rotAttr] at h
    split at h
    · cases h
      exact (Splits.lit (by parts_ok; exact plain_decInt _)).readsAttrs (fun top st n as => by krfl)
    · cases h

/-- The element of a shape. -/
def shapeNode (cnv : Node) (rot : List (Str × Str)) (s : Shape) (props : List Node) (body : Node) : Node :=
  E c!"p:sp" [] (lines [
    E c!"p:nvSpPr" [] (lines [cnv, E c!"p:cNvSpPr" [] [], E c!"p:nvPr" [] []]),
    E c!"p:spPr" [] ([nl, E c!"a:xfrm" rot (lines [E c!"a:off" [(c!"x", dec s.x), (c!"y", dec s.y)] [],
        E c!"a:ext" [(c!"cx", dec s.width), (c!"cy", dec s.height)] []]),
      nl, E c!"a:prstGeom" [(c!"prst", s.kind.presetName)] (lines [E c!"a:avLst" [] []])] ++ gap props),
    body])

theorem readsTagged_shapeText {cnv rot fill line text : List Part} {cnvN body : Node}
    {rotA : List (Str × Str)} {fillN lineN : List Node} (s : Shape) (h1 : ReadsTagged cnv [cnvN])
    (h2 : ReadsAttrs rot rotA) (h3 : Soft fill fillN) (h4 : Soft line lineN) (h5 : ReadsTagged text [body]) :
    ReadsTagged (shapeText cnv rot s fill line text) [shapeNode cnvN rotA s (fillN ++ lineN) body] := by
  refine ReadsNodes.tagged ?_ ⟨_, rfl⟩
  have hp := preset_plain s.kind
  unfold shapeNode shapeText
  rcases h3 with ⟨rfl, rfl⟩ | ⟨h3, n3⟩ <;> rcases h4 with ⟨rfl, rfl⟩ | ⟨h4, n4⟩
  · exact Splits.readsNodes ((((((((((Splits.lit (by parts_ok)).append (.tagged h1)).append
      (.lit (by parts_ok))).append (.attrs h2)).append (.lit (by parts_ok))).append
      (.lit (by parts_ok))).append (.lit (by parts_ok))).append (.lit (by parts_ok))).append
      (.tagged h5)).append (.lit (by parts_ok))) (by krfl)
  · rw [gap, if_neg (by simpa using n4)]
    exact Splits.readsNodes ((((((((((Splits.lit (by parts_ok)).append (.tagged h1)).append
      (.lit (by parts_ok))).append (.attrs h2)).append (.lit (by parts_ok))).append
      (.lit (by parts_ok))).append (.tagged h4)).append (.lit (by parts_ok))).append
      (.tagged h5)).append (.lit (by parts_ok))) (by krfl)
  · rw [gap, if_neg (by simpa using n3)]
    simp only [List.append_nil]
    exact Splits.readsNodes (((((((((Splits.lit (by parts_ok)).append (.tagged h1)).append
      (.lit (by parts_ok))).append (.attrs h2)).append (.lit (by parts_ok))).append
      (.tagged h3)).append (.lit (by parts_ok))).append
      (.tagged h5)).append (.lit (by parts_ok))) (by krfl)
  · rw [gap, if_neg (by simp [n3])]
    rw [show (nl :: (fillN ++ lineN) ++ [nl]) = [nl] ++ fillN ++ lineN ++ [nl] by simp]
    refine Splits.readsNodes ((((((((((Splits.lit (by parts_ok)).append (.tagged h1)).append
      (.lit (by parts_ok))).append (.attrs h2)).append (.lit (by parts_ok))).append
      (.tagged h3)).append (.tagged h4)).append (.lit (by parts_ok))).append
      (.tagged h5)).append (.lit (by parts_ok))) ?_
    simp only [← List.append_assoc]
    krfl

end PptRs.Draw
