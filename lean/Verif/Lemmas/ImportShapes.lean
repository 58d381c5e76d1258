import Verif.Model.Import
import Verif.Spec.ImportShapes
import Verif.Lemmas.DrawingRead
import Verif.Lemmas.Reader
import Verif.Props.XmlElement

/-!
# What loading sees in a drawing
-/

namespace PptRs.Draw

open PptRs PptRs.Spec PptRs.Reader PptRs.Import PptRs.Props

theorem builtIn_cons (k : Node) (l : List Node) : builtIn (k :: l) = builtIn [k] ++ builtIn l := builtIn_append [k] l

theorem namedIn_cons (n : Str) (k : Node) (l : List Node) : namedIn n (k :: l) = namedIn n [k] ++ namedIn n l := namedIn_append n [k] l

/-! ### Texts -/

/-- A run. -/
theorem parseRun_any (as : List (Str × Str)) (ks rest : List Node) (t : Str) :
    ∃ r : TextRun, r.text = t ∧
      (built (E c!"a:r" [] (lines [E c!"a:rPr" as ks, E c!"a:t" [] (addText [] t)]))).filterMap parseRun =
        (if BlankText t then [] else [r]) ∧
      (built (E c!"a:r" [] [E c!"a:rPr" as ks, E c!"a:t" [] (addText [] t)])).filterMap parseRun =
        (if BlankText t then [] else [r]) := by
  have key : ∀ e : XmlElement, runText e = (tElem t).textContent → ∀ q, e.find c!"rPr" = q →
      [e].filterMap parseRun = if BlankText t then [] else [makeRun t q] := by
    intro e h1 q h2
    simp only [List.filterMap_cons, List.filterMap_nil, parseRun, h1, h2, tElem_text, visible]
    by_cases hb : BlankText t
    · simp [hb]
    · have : t ≠ [] := by rintro rfl; exact hb (by simp [BlankText])
      simp [hb, this]
  refine ⟨makeRun t (some (.mk c!"a:rPr" (attrMap (realAttrs as)) (builtIn ks) (solidText ks))), rfl, ?_, ?_⟩
  · exact key (.mk c!"a:r" [] [.mk c!"a:rPr" (attrMap (realAttrs as)) (builtIn ks) (solidText ks), tElem t] []) (by krfl) _ (by krfl)
  · exact key (.mk c!"a:r" [] [.mk c!"a:rPr" (attrMap (realAttrs as)) (builtIn ks) (solidText ks), tElem t] []) (by krfl) _ (by krfl)

/-- The texts of the paragraphs below some nodes. -/
def textsIn (ks : List Node) : List Str := (parasIn ks).map Paragraph.text

theorem textsIn_append (a b : List Node) : textsIn (a ++ b) = textsIn a ++ textsIn b := by
  simp [textsIn, parasIn_append]

/-- What is seen of the runs of a paragraph. -/
theorem textsIn_runs (as : List (Str × Str)) (runs : List Node) {l : List TextRun}
    (h1 : (namedIn c!"r" runs).filterMap parseRun = l) (pre post : List Node) (hp : builtIn pre = []) (hq : builtIn post = []) :
    textsIn [E c!"a:p" [] (pre ++ [E c!"a:pPr" as []] ++ runs ++ post)] = if l = [] then [] else [l.flatMap (·.text)] := by
  have e : builtIn [E c!"a:p" [] (pre ++ [E c!"a:pPr" as []] ++ runs ++ post)] =
      [.mk c!"a:p" [] (builtIn (pre ++ [E c!"a:pPr" as []] ++ runs ++ post)) (solidText (pre ++ [E c!"a:pPr" as []] ++ runs ++ post))] := rfl
  have e2 : builtIn (pre ++ [E c!"a:pPr" as []] ++ runs ++ post) = .mk c!"a:pPr" (attrMap (realAttrs as)) [] [] :: builtIn runs := by
    rw [builtIn_append, builtIn_append, builtIn_append, hp, hq]
    simp only [List.nil_append, List.append_nil]
    rfl
  have e3 : ∀ tx, (XmlElement.mk c!"a:p" [] (.mk c!"a:pPr" (attrMap (realAttrs as)) [] [] :: builtIn runs) tx).findAll c!"r" = namedIn c!"r" runs := by
    intro tx
    show (XmlElement.mk c!"a:pPr" (attrMap (realAttrs as)) [] [] :: builtIn runs).filter (fun c => c.localName = c!"r") = _
    rw [List.filter_cons_of_neg]
    · rfl
    · show ¬ decide (XmlElement.localName (.mk c!"a:pPr" (attrMap (realAttrs as)) [] []) = c!"r") = true
      have : XmlElement.localName (.mk c!"a:pPr" (attrMap (realAttrs as)) [] []) = c!"pPr" := by krfl
      rw [this]
      decide
  unfold textsIn parasIn
  rw [e, e2, List.filter_cons_of_pos (by
    have : ∀ c x, XmlElement.localName (.mk c!"a:p" [] c x) = c!"p" := fun c x => by krfl
    simp [this]), List.filter_nil]
  simp only [List.filterMap_cons, List.filterMap_nil, parseParagraph, e3, h1]
  by_cases hl : l = []
  · simp [hl]
  · simp [hl, Paragraph.text]

theorem namedIn_run (as : List (Str × Str)) (ks : List Node) : namedIn c!"r" [E c!"a:r" as ks] = built (E c!"a:r" as ks) := by krfl

theorem textsIn_one (as as' : List (Str × Str)) (ks : List Node) (t : Str) :
    textsIn [E c!"a:p" [] (lines [E c!"a:pPr" as [], E c!"a:r" [] (lines [E c!"a:rPr" as' ks, E c!"a:t" [] (addText [] t)])])] =
      seenLines [t] := by
  obtain ⟨r, hr, h, -⟩ := parseRun_any as' ks [] t
  have := textsIn_runs as [nl, E c!"a:r" [] (lines [E c!"a:rPr" as' ks, E c!"a:t" [] (addText [] t)])] (l := if BlankText t then [] else [r])
    (by rw [← h]; rfl) [nl] [nl] rfl rfl
  rw [show lines [E c!"a:pPr" as [], E c!"a:r" [] (lines [E c!"a:rPr" as' ks, E c!"a:t" [] (addText [] t)])] =
    [nl] ++ [E c!"a:pPr" as []] ++ [nl, E c!"a:r" [] (lines [E c!"a:rPr" as' ks, E c!"a:t" [] (addText [] t)])] ++ [nl] from rfl, this]
  unfold seenLines
  by_cases hb : BlankText t <;> simp [hb, hr]

theorem textsIn_codeLines (l : List Str) : textsIn (l.map codeLineNode) = seenLines l := by
  induction l with
  | nil => rfl
  | cons t l ih =>
    rw [List.map_cons, ← List.singleton_append, textsIn_append, ih]
    unfold codeLineNode
    rw [textsIn_one]
    unfold seenLines
    rw [← List.filter_append]
    rfl

theorem runs_segments (l : List Segment) :
    ∃ rs : List TextRun, (namedIn c!"r" (l.map segmentNode)).filterMap parseRun = rs ∧
      rs.map (·.text) = seenLines (l.map (·.text)) := by
  induction l with
  | nil => exact ⟨[], rfl, rfl⟩
  | cons s l ih =>
    obtain ⟨rs, h1, h2⟩ := ih
    rw [List.map_cons, namedIn_cons, List.filterMap_append, h1]
    unfold segmentNode codeRunNode
    rw [namedIn_run]
    obtain ⟨r, hr, -, h⟩ := parseRun_any ([(c!"lang", c!"en-US"), (c!"sz", c!"1400"), (c!"dirty", c!"0")] ++
      ((if s.bold then [(c!"b", c!"1")] else []) ++ (if s.italic then [(c!"i", c!"1")] else [])))
      [E c!"a:solidFill" [] [E c!"a:srgbClr" [(c!"val", s.color)] []], E c!"a:latin" [(c!"typeface", c!"Consolas")] []] [] s.text
    rw [h]
    refine ⟨_, rfl, ?_⟩
    rw [List.map_append, h2]
    unfold seenLines
    by_cases hb : BlankText s.text <;> simp [hb, hr]

theorem blank_ne {t : Str} (h : ¬ BlankText t) : t ≠ [] := by
  rintro rfl
  exact h (by simp [BlankText])

theorem seenLine_nil (l : List Segment) : seenLine l = [] ↔ seenLines (l.map (·.text)) = [] := by
  unfold seenLine
  constructor
  · intro h
    rw [List.flatten_eq_nil_iff] at h
    cases e : seenLines (l.map (·.text)) with
    | nil => rfl
    | cons a b =>
      have ha : a ∈ seenLines (l.map (·.text)) := by rw [e]; simp
      have h0 := h a ha
      have : ¬ BlankText a := by simpa using (List.mem_filter.mp ha).2
      exact absurd h0 (blank_ne this)
  · intro h
    rw [h]; rfl

theorem textsIn_highlighted (l : List Segment) : textsIn [highlightedNode l] = [seenLine l].filter (· ≠ []) := by
  unfold highlightedNode codeRuns
  by_cases hl : l = []
  · subst hl
    rw [if_pos rfl]
    krfl
  · rw [if_neg hl]
    obtain ⟨rs, h1, h2⟩ := runs_segments l
    have := textsIn_runs [(c!"algn", c!"l")] (l.map segmentNode) h1 [] [] rfl rfl
    simp only [List.nil_append, List.append_nil, List.singleton_append] at this
    rw [this]
    have e : rs.flatMap (·.text) = seenLine l := by rw [seenLine, ← h2, List.flatMap_def]
    have hn : rs = [] ↔ seenLine l = [] := by rw [seenLine_nil, ← h2]; simp
    rw [e]
    by_cases h : rs = []
    · simp [h, hn.mp h]
    · simp [h, mt hn.mpr h]

theorem textsIn_code (highlight : Option (Str → Str → List (List Segment))) (b : CodeBlock) :
    textsIn (codeNodes highlight b) = seenCode highlight b := by
  cases highlight with
  | none => krfl
  | some f =>
    show textsIn ((f b.code b.language).map highlightedNode) = _
    show _ = ((f b.code b.language).map seenLine).filter (· ≠ [])
    induction f b.code b.language with
    | nil => rfl
    | cons a l ih =>
      rw [List.map_cons, ← List.singleton_append, textsIn_append, textsIn_highlighted, ih, List.map_cons, ← List.filter_append]
      rfl

/-! ### Elements -/

theorem collectIn_append (n : Str) (a b : List XmlElement) :
    XmlElement.collectIn n (a ++ b) = XmlElement.collectIn n a ++ XmlElement.collectIn n b := by
  induction a with
  | nil => rfl
  | cons x a ih => simp only [List.cons_append, XmlElement.collectIn, ih, List.append_assoc]

theorem collectIn_map {α : Type} (n : Str) (f : α → Node) (l : List α) (h : ∀ a, XmlElement.collectIn n (builtIn [f a]) = []) :
    XmlElement.collectIn n (builtIn (l.map f)) = [] := by
  induction l with
  | nil => rfl
  | cons a l ih => rw [List.map_cons, builtIn_cons, collectIn_append, h, ih]; rfl

theorem noBody_props (s : Shape) :
    XmlElement.collectIn c!"txBody" (builtIn (gap (s.fillNodes ++ s.line.toList.map lineNode))) = [] := by
  have h1 : XmlElement.collectIn c!"txBody" (builtIn s.fillNodes) = [] := by
    unfold Shape.fillNodes
    cases s.gradient with
    | none => exact collectIn_map _ _ _ fun f => by obtain ⟨c, a⟩ := f; cases a <;> krfl
    | some g =>
      refine collectIn_map _ _ _ fun ang => ?_
      have hs : XmlElement.collectIn c!"txBody" (builtIn (g.stops.map stopNode)) = [] :=
        collectIn_map _ _ _ fun x => by obtain ⟨p, c, a⟩ := x; cases a <;> krfl
      have hg : XmlElement.collectIn c!"txBody" (builtIn (gap (g.stops.map stopNode))) = [] := by
        unfold gap
        split
        · rfl
        · rw [List.cons_append, builtIn_cons, collectIn_append, builtIn_append, collectIn_append, hs]
          rfl
      have : XmlElement.collectIn c!"txBody" (builtIn [gradientNode g.stops ang]) =
          (XmlElement.collectIn c!"txBody" (builtIn (gap (g.stops.map stopNode))) ++ []) ++ [] := by krfl
      rw [this, hg]
      rfl
  have h2 : XmlElement.collectIn c!"txBody" (builtIn (s.line.toList.map lineNode)) = [] :=
    collectIn_map _ _ _ fun l => by krfl
  unfold gap
  split
  · rfl
  · rw [List.cons_append, builtIn_cons, collectIn_append, builtIn_append, collectIn_append, builtIn_append, collectIn_append, h1, h2]
    rfl

/-- The element of `p:nvSpPr`. -/
def nvElem (link : Option Link) (id : Nat) : XmlElement :=
  .mk c!"p:nvSpPr" [] [.mk c!"p:cNvPr" [(c!"id", dec id), (c!"name", c!"Shape " ++ dec id)] (builtIn (linkKids link)) [],
    .mk c!"p:cNvSpPr" [] [] [], .mk c!"p:nvPr" [] [] []] []

/-- The element of `a:xfrm`. -/
def xfrmElem (as : List (Str × Str)) (x y cx cy : Str) : XmlElement :=
  .mk c!"a:xfrm" (attrMap (realAttrs as)) [.mk c!"a:off" [(c!"x", x), (c!"y", y)] [] [], .mk c!"a:ext" [(c!"cx", cx), (c!"cy", cy)] [] []] []

/-- The element of `a:prstGeom`. -/
def geomElem (n : Str) : XmlElement := .mk c!"a:prstGeom" [(c!"prst", n)] [.mk c!"a:avLst" [] [] []] []

/-- The element of a shape. -/
def spElem (nv : XmlElement) (as : List (Str × Str)) (x y cx cy geom : Str) (props : List XmlElement) (tx : Str) (bas : List (Str × Str))
    (body : List Node) : XmlElement :=
  .mk c!"p:sp" [] [nv, .mk c!"p:spPr" [] (xfrmElem as x y cx cy :: geomElem geom :: props) tx,
    .mk c!"p:txBody" (attrMap (realAttrs bas)) (builtIn body) (solidText body)] []

theorem built_shapeNode (s : Shape) (id : Nat) (bas : List (Str × Str)) (body : List Node) :
    builtIn [shapeNode (cnvprNode s.link id) (rotAttrs s.rotation) s (s.fillNodes ++ s.line.toList.map lineNode) (E c!"p:txBody" bas body)] =
      [spElem (nvElem s.link id) (rotAttrs s.rotation) (dec s.x) (dec s.y) (dec s.width) (dec s.height) s.kind.presetName
        (builtIn (gap (s.fillNodes ++ s.line.toList.map lineNode))) (solidText (gap (s.fillNodes ++ s.line.toList.map lineNode))) bas body] := by
  have hl : linkKids s.link = [] ∨ ∃ h r, linkKids s.link = [linkNode h r] := by
    unfold linkKids
    split
    · exact .inr ⟨_, _, rfl⟩
    · exact .inl rfl
  unfold spElem nvElem cnvprNode
  rcases hl with e | ⟨h, r, e⟩
  · rw [e]
    krfl
  · rw [e]
    krfl

/-- The element of `p:nvSpPr` of a code block. -/
def nvCode (id : Nat) : XmlElement :=
  .mk c!"p:nvSpPr" [] [.mk c!"p:cNvPr" [(c!"id", dec id), (c!"name", c!"Code Block")] [] [],
    .mk c!"p:cNvSpPr" [(c!"txBox", c!"1")] [] [], .mk c!"p:nvPr" [] [] []] []

/-- The fill and the line of a code block. -/
def codeProps : List XmlElement :=
  builtIn [E c!"a:solidFill" [] [E c!"a:srgbClr" [(c!"val", c!"002B36")] []],
    E c!"a:ln" [(c!"w", c!"12700")] [E c!"a:solidFill" [] [E c!"a:srgbClr" [(c!"val", c!"073642")] []]]]

theorem built_codeBlock (b : CodeBlock) (id : Nat) (ks : List Node) :
    builtIn [codeBlockNode b id ks] =
      [spElem (nvCode id) [] (decInt b.x) (decInt b.y) (decInt b.width) (decInt b.height) c!"rect" codeProps [] []
        ([nl, E c!"a:bodyPr" ([(c!"wrap", c!"square"), (c!"rtlCol", c!"0"), (c!"anchor", c!"t")] ++ insets) [],
    nl, E c!"a:lstStyle" [] [], nl] ++ ks)] := by krfl

/-- What is read of a shape. -/
theorem parseShape_sp (nv : XmlElement) (as : List (Str × Str)) (x y cx cy geom : Str) (props : List XmlElement) (tx : Str)
    (bas : List (Str × Str)) (body : List Node) {name : Str}
    (hv : nv.localName = c!"nvSpPr") (hn : ∃ e, nv.findDescendant c!"cNvPr" = some e ∧ e.attr c!"name" = some name)
    (h1 : nv.findDescendant c!"xfrm" = none) (h2 : nv.findDescendant c!"prstGeom" = none)
    (h3 : nv.findDescendant c!"txBody" = none) (hp : XmlElement.findIn c!"txBody" props = none) :
    parseShape (spElem nv as x y cx cy geom props tx bas body) =
      { name, shapeType := some geom, paragraphs := parasIn body, x := ((parseI64? x).getD 0), y := ((parseI64? y).getD 0),
        width := ((parseI64? cx).getD 0), height := ((parseI64? cy).getD 0) } := by
  obtain ⟨e, he, hen⟩ := hn
  have ne : ∀ n, n ≠ c!"nvSpPr" → nv.localName ≠ n := fun n hn => hv ▸ hn.symm
  have sub : ∀ n, n ≠ c!"nvSpPr" → nv.findDescendant n = none → (spElem nv as x y cx cy geom props tx bas body).findDescendant n =
      XmlElement.findIn n [.mk c!"p:spPr" [] (xfrmElem as x y cx cy :: geomElem geom :: props) tx,
        .mk c!"p:txBody" (attrMap (realAttrs bas)) (builtIn body) (solidText body)] := by
    intro n hn hd
    rw [spElem, XmlElement.findDescendant, XmlElement.findIn, if_neg (ne n hn), hd]
  have d1 : (spElem nv as x y cx cy geom props tx bas body).findDescendant c!"cNvPr" = some e := by
    rw [spElem, XmlElement.findDescendant, XmlElement.findIn, if_neg (ne _ (by decide)), he]
  have d2 : (spElem nv as x y cx cy geom props tx bas body).findDescendant c!"xfrm" = some (xfrmElem as x y cx cy) := by
    rw [sub _ (by decide) h1]
    krfl
  have d3 : (spElem nv as x y cx cy geom props tx bas body).findDescendant c!"prstGeom" = some (geomElem geom) := by
    rw [sub _ (by decide) h2]
    krfl
  have d4 : (spElem nv as x y cx cy geom props tx bas body).findDescendant c!"txBody" =
      some (.mk c!"p:txBody" (attrMap (realAttrs bas)) (builtIn body) (solidText body)) := by
    rw [sub _ (by decide) h3]
    have : XmlElement.findDescendant c!"txBody" (.mk c!"p:spPr" [] (xfrmElem as x y cx cy :: geomElem geom :: props) tx) =
        XmlElement.findIn c!"txBody" props := by krfl
    rw [XmlElement.findIn, this, hp]
    krfl
  unfold parseShape
  rw [d1, d2, d3, d4]
  simp only [Option.bind_some, hen, Option.getD_some, Option.map_some]
  rfl

/-- A shape that is neither title nor text of the slide. -/
theorem addShape_other (r : ParsedSlide) (nv : XmlElement) (as : List (Str × Str)) (x y cx cy geom : Str) (props : List XmlElement) (tx : Str)
    (bas : List (Str × Str)) (body : List Node) {name : Str}
    (hv : nv.localName = c!"nvSpPr") (hn : ∃ e, nv.findDescendant c!"cNvPr" = some e ∧ e.attr c!"name" = some name)
    (h0 : ∃ e, nv.findDescendant c!"nvPr" = some e ∧ e.find c!"ph" = none)
    (h1 : containsStr c!"title" (name.map Char.toLower) = false) (h2 : containsStr c!"content" (name.map Char.toLower) = false) :
    addShape r (spElem nv as x y cx cy geom props tx bas body) =
      { r with shapes := r.shapes ++ [parseShape (spElem nv as x y cx cy geom props tx bas body)] } := by
  obtain ⟨e, he, hen⟩ := hn
  obtain ⟨q, hq, hqp⟩ := h0
  have ne : ∀ n, n ≠ c!"nvSpPr" → nv.localName ≠ n := fun n hn => hv ▸ hn.symm
  have d1 : (spElem nv as x y cx cy geom props tx bas body).findDescendant c!"cNvPr" = some e := by
    rw [spElem, XmlElement.findDescendant, XmlElement.findIn, if_neg (ne _ (by decide)), he]
  have d2 : (spElem nv as x y cx cy geom props tx bas body).findDescendant c!"nvPr" = some q := by
    rw [spElem, XmlElement.findDescendant, XmlElement.findIn, if_neg (ne _ (by decide)), hq]
  have p : placeholder (spElem nv as x y cx cy geom props tx bas body) = none := by
    rw [placeholder, d2, Option.bind_some, hqp]
  have t : ∀ w, nameHas w (spElem nv as x y cx cy geom props tx bas body) = containsStr w (name.map Char.toLower) := by
    intro w
    rw [nameHas, d1, Option.bind_some, hen]
    rfl
  unfold addShape isTitleShape isBodyShape
  rw [p, t, t, h1, h2]
  rfl

/-! ### What is loaded -/

/-- Loading adds the shapes `l` for the nodes, and no tables. -/
def LoadsAs (X : List Node) (l : List Shape) : Prop :=
  (namedIn c!"graphicFrame" X).filterMap parseTable = [] ∧
  ∃ ps : List ParsedShape, (∀ r : ParsedSlide, (namedIn c!"sp" X).foldl addShape r = { r with shapes := r.shapes ++ ps }) ∧
    (∀ p ∈ ps, p.isTitle = false ∧ p.isBody = false) ∧ ps.map importShape = l

theorem LoadsAs.none {X : List Node} (h1 : namedIn c!"sp" X = []) (h2 : (namedIn c!"graphicFrame" X).filterMap parseTable = []) :
    LoadsAs X [] := by
  refine ⟨h2, [], fun r => ?_, by simp, rfl⟩
  rw [h1]
  simp

theorem LoadsAs.append {X Y : List Node} {a b : List Shape} (hx : LoadsAs X a) (hy : LoadsAs Y b) : LoadsAs (X ++ Y) (a ++ b) := by
  obtain ⟨x1, p, x2, x3, x4⟩ := hx
  obtain ⟨y1, q, y2, y3, y4⟩ := hy
  refine ⟨?_, p ++ q, fun r => ?_, ?_, ?_⟩
  · rw [namedIn_append, List.filterMap_append, x1, y1]; rfl
  · rw [namedIn_append, List.foldl_append, x2, y2, List.append_assoc]
  · intro s hs
    rcases List.mem_append.mp hs with h | h
    · exact x3 s h
    · exact y3 s h
  · rw [List.map_append, x4, y4]

/-- What is written adds the shapes `l` when it is loaded. -/
def Adds (ps : List Part) (l : List Shape) : Prop := ∃ X, ReadsNodes ps X ∧ LoadsAs X l

theorem Adds.append {p q : List Part} {a b : List Shape} (hp : Adds p a) (hq : Adds q b) : Adds (p ++ q) (a ++ b) := by
  obtain ⟨X, x1, x2⟩ := hp
  obtain ⟨Y, y1, y2⟩ := hq
  exact ⟨X ++ Y, x1.append y1, x2.append y2⟩

theorem Adds.cons {p ps : List Part} {k : Node} {a b : List Shape} (h : ReadsTagged p [k]) (hk : LoadsAs [k] a) (hs : Adds ps b) :
    Adds (t!"\n" ++ p ++ ps) (a ++ b) := by
  refine Adds.append ⟨[nl, k], ?_, ?_⟩ hs
  · exact Splits.readsNodes ((Splits.lit (by parts_ok)).append (.tagged h)) (by krfl)
  · have := LoadsAs.append (X := [nl]) (LoadsAs.none (by krfl) (by krfl)) hk
    exact this

theorem adds_write {α : Type} {f : Nat → α → List Part} {g : α → List Shape} {l : List α}
    (h : ∀ i, ∀ a ∈ l, ∃ k, ReadsTagged (f i a) [k] ∧ LoadsAs [k] (g a)) (i : Nat) : Adds (writeFrom f i l) (l.flatMap g) := by
  induction l generalizing i with
  | nil => exact ⟨[], readsNodes_nil, LoadsAs.none rfl rfl⟩
  | cons a l ih =>
    obtain ⟨k, h1, h2⟩ := h i a (by simp)
    rw [List.flatMap_cons]
    exact Adds.cons h1 h2 (ih (fun i b hb => h i b (by simp [hb])) (i + 1))

/-! ### Shapes -/

theorem contains_t {w s : Str} (hw : 't' ∈ w) (hs : 't' ∉ s) : containsStr w s = false := by
  by_contra h
  obtain ⟨a, b, rfl⟩ := containsStr_iff.mp (by simpa using h)
  exact hs (by simp [hw])

theorem shapeName_t (id : Nat) : 't' ∉ (c!"Shape " ++ dec id).map Char.toLower := by
  rw [List.map_append, List.mem_append, not_or]
  refine ⟨by decide, ?_⟩
  rw [List.mem_map]
  rintro ⟨c, hc, h⟩
  have hd := isDigit_of_mem_dec hc
  have : ∀ c : Char, c.isDigit = true → c.toLower ≠ 't' := by
    intro c hc hx
    simp only [Char.isDigit, Bool.and_eq_true, decide_eq_true_eq] at hc
    have hl : c.toLower = c := by
      unfold Char.toLower
      rw [dif_neg]
      intro hu
      have := hc.2
      have h2 := hu.1
      simp only [ge_iff_le, UInt32.le_iff_toNat_le] at this h2
      have a1 : '9'.val.toNat = 57 := by decide
      have a2 : 'A'.val.toNat = 65 := by decide
      omega
    rw [hl] at hx
    subst hx
    exact absurd hc (by decide)
  exact this c hd h

theorem parseShape_written (s : Shape) (id : Nat) (props : List XmlElement) (tx : Str) (bas : List (Str × Str)) (body : List Node)
    (hp : XmlElement.findIn c!"txBody" props = none)
    (hn : s.x < 4294967296 ∧ s.y < 4294967296 ∧ s.width < 4294967296 ∧ s.height < 4294967296) :
    parseShape (spElem (nvElem s.link id) (rotAttrs s.rotation) (dec s.x) (dec s.y) (dec s.width) (dec s.height) s.kind.presetName
      props tx bas body) =
    { name := c!"Shape " ++ dec id, shapeType := some s.kind.presetName, paragraphs := parasIn body, x := s.x, y := s.y,
      width := s.width, height := s.height } := by
  have hl : linkKids s.link = [] ∨ ∃ h r, linkKids s.link = [linkNode h r] := by
    unfold linkKids
    split
    · exact .inr ⟨_, _, rfl⟩
    · exact .inl rfl
  rw [parseShape_sp (name := c!"Shape " ++ dec id) _ _ _ _ _ _ _ _ _ _ _ (by krfl) ⟨_, rfl, by krfl⟩
    (by unfold nvElem; rcases hl with e | ⟨h, r, e⟩ <;> rw [e] <;> krfl)
    (by unfold nvElem; rcases hl with e | ⟨h, r, e⟩ <;> rw [e] <;> krfl)
    (by unfold nvElem; rcases hl with e | ⟨h, r, e⟩ <;> rw [e] <;> krfl) hp]
  rw [parseI64_dec (by omega), parseI64_dec (by omega), parseI64_dec (by omega), parseI64_dec (by omega)]
  rfl

theorem mapShapeType_known (k : ShapeType) : mapShapeType (some k.presetName) = knownKind k := by
  cases k <;> decide +kernel

theorem toU32_nat {n : Nat} (h : n < 4294967296) : toU32 (n : Int) = n := by
  simp [toU32, Nat.mod_eq_of_lt h]

theorem importShape_texts (p : ParsedShape) (ts : List Str) {ks : List Node} (hk : p.paragraphs = parasIn ks) (h : textsIn ks = ts) (hb : ∀ t ∈ ts, t ≠ []) :
    importShape p = { kind := mapShapeType p.shapeType, x := toU32 p.x, y := toU32 p.y, width := toU32 p.width, height := toU32 p.height, text := loadedLines ts } := by
  have ht : p.text = joinStr c!"\n" ts := by rw [ParsedShape.text, hk]; exact congrArg _ h
  unfold importShape loadedLines
  rw [ht]
  cases ts with
  | nil => rfl
  | cons t ts =>
    have hne : joinStr c!"\n" (t :: ts) ≠ [] := by
      have := hb t (by simp)
      cases ts with
      | nil => simpa [joinStr] using this
      | cons u us =>
        cases t with
        | nil => exact absurd rfl this
        | cons c cs => simp [joinStr]
    rw [if_neg hne, if_neg (by simp)]

theorem textsIn_body {fontSize : Str → Nat → Nat → Nat} {s : Shape} {body : Node} (h : BodyOf fontSize s body) :
    ∃ ks, body = E c!"p:txBody" [] ks ∧
      textsIn ks = (s.text.map fun t => seenLines (if isCode t then strLines t else [t])).getD [] := by
  cases h with
  | none h =>
    refine ⟨_, rfl, ?_⟩
    rw [h]
    krfl
  | @code t h hc =>
    refine ⟨_, rfl, ?_⟩
    rw [h, Option.map_some, Option.getD_some, hc, if_pos rfl, textsIn_append, textsIn_codeLines]
    have : textsIn [nl, E c!"a:bodyPr" ([(c!"wrap", c!"square"), (c!"rtlCol", c!"0"), (c!"anchor", c!"t")] ++ insets) [],
      nl, E c!"a:lstStyle" [] [], nl] = [] := by krfl
    rw [this]
    rfl
  | @plain t size color anchor align h hc hs hcol =>
    refine ⟨_, rfl, ?_⟩
    rw [h, Option.map_some, Option.getD_some, hc, if_neg (by simp)]
    rw [← textsIn_one [(c!"algn", align), (c!"marL", c!"0"), (c!"marR", c!"0"), (c!"indent", c!"0")]
      [(c!"lang", c!"en-US"), (c!"sz", dec size), (c!"dirty", c!"0")] [E c!"a:solidFill" [] [E c!"a:srgbClr" [(c!"val", color)] []]] t]
    krfl

theorem seenLines_ne {l : List Str} : ∀ t ∈ seenLines l, t ≠ [] := fun t ht =>
  blank_ne (by simpa using (List.mem_filter.mp ht).2)

theorem loads_shape {fontSize : Str → Nat → Nat → Nat} {s : Shape} {id : Nat} {ps : List Part} (h : s.Safe)
    (hn : s.x < 4294967296 ∧ s.y < 4294967296 ∧ s.width < 4294967296 ∧ s.height < 4294967296)
    (e : shapeXml fontSize s id = some ps) : ∃ k, ReadsTagged ps [k] ∧ LoadsAs [k] [loadedShape s] := by
  simp only [shapeXml, Option.bind_eq_some_iff, Option.map_eq_some_iff] at e
  obtain ⟨fill, hf, text, ht, rot, hr, rfl⟩ := e
  obtain ⟨b, hb1, hb2⟩ := readsTagged_text ht
  refine ⟨_, readsTagged_shapeText s (readsTagged_cnvpr h.link) (readsAttrs_rot hr) (soft_shapeFill h hf) (soft_line h.line) hb1, ?_⟩
  obtain ⟨ks, rfl, htx⟩ := textsIn_body hb2
  have hb := built_shapeNode s id [] ks
  have hp : XmlElement.findIn c!"txBody" (builtIn (gap (s.fillNodes ++ s.line.toList.map lineNode))) = none := by
    rw [findIn_eq, noBody_props]; rfl
  generalize builtIn (gap (s.fillNodes ++ s.line.toList.map lineNode)) = props at hb hp
  generalize solidText (gap (s.fillNodes ++ s.line.toList.map lineNode)) = tx at hb
  have n1 : ∀ n, namedIn n [shapeNode (cnvprNode s.link id) (rotAttrs s.rotation) s (s.fillNodes ++ s.line.toList.map lineNode)
      (E c!"p:txBody" [] ks)] = if c!"sp" = n then [spElem (nvElem s.link id) (rotAttrs s.rotation) (dec s.x) (dec s.y) (dec s.width) (dec s.height) s.kind.presetName
      props tx [] ks] else [] := by
    intro n
    have hl : ∀ c x, XmlElement.localName (.mk c!"p:sp" [] c x) = c!"sp" := fun c x => by krfl
    rw [namedIn, hb, List.filter_cons]
    simp only [spElem, hl, List.filter_nil, decide_eq_true_eq]
  have hps := parseShape_written s id props tx [] ks hp hn
  refine ⟨?_, [parseShape (spElem (nvElem s.link id) (rotAttrs s.rotation) (dec s.x) (dec s.y) (dec s.width) (dec s.height) s.kind.presetName
      props tx [] ks)], fun r => ?_, ?_, ?_⟩
  · rw [n1, if_neg (by decide)]; rfl
  · have hl : linkKids s.link = [] ∨ ∃ h r, linkKids s.link = [linkNode h r] := by
      unfold linkKids
      split
      · exact .inr ⟨_, _, rfl⟩
      · exact .inl rfl
    rw [n1, if_pos rfl, List.foldl_cons, List.foldl_nil, addShape_other (name := c!"Shape " ++ dec id) r _ _ _ _ _ _ _ _ _ _ _ (by krfl) ⟨_, rfl, by krfl⟩
      (by unfold nvElem; rcases hl with e | ⟨h, r, e⟩ <;> rw [e] <;> exact ⟨_, rfl, by krfl⟩)
      (contains_t (by decide) (shapeName_t id)) (contains_t (by decide) (shapeName_t id))]
  · intro p hm
    rw [List.mem_singleton] at hm
    subst hm
    exact ⟨rfl, rfl⟩
  · rw [List.map_cons, List.map_nil, hps]
    congr 1
    rw [importShape_texts _ _ rfl htx]
    · simp only [mapShapeType_known, toU32_nat hn.1, toU32_nat hn.2.1, toU32_nat hn.2.2.1, toU32_nat hn.2.2.2, loadedShape]
      cases s.text <;> rfl
    · cases s.text with
      | none => simp
      | some t => exact seenLines_ne

theorem parseI64_decInt {i : Int} (h1 : -9223372036854775808 ≤ i) (h2 : i < 9223372036854775808) : parseI64? (decInt i) = some i := by
  cases i with
  | ofNat n => exact parseI64_dec (by simp only [Int.ofNat_eq_natCast] at h2; omega)
  | negSucc n =>
    have hv : Nat.ofDigitChars 10 (dec (n + 1)) 0 = n + 1 := by simp [dec]
    have hd : (dec (n + 1)).all isDig = true := by
      simp only [List.all_eq_true]; intro c hc; exact isDigit_of_mem_dec hc
    simp only [decInt, parseI64?, hv, hd]
    rw [if_pos ⟨dec_ne_nil _, trivial⟩, if_pos (by omega)]
    rfl

theorem toU32_int {i : Int} (h : i < 4294967296) : toU32 i = i.toNat := by
  unfold toU32
  exact Nat.mod_eq_of_lt (by omega)

theorem loads_code {highlight : Option (Str → Str → List (List Segment))} (hh : SafeHighlight highlight) {b : CodeBlock} (id : Nat)
    (hn : ∀ n ∈ [b.x, b.y, b.width, b.height], -9223372036854775808 ≤ n ∧ n < 4294967296) :
    ∃ k, ReadsTagged (codeBlockXml highlight id b) [k] ∧ LoadsAs [k] [loadedCode highlight b] := by
  refine ⟨_, readsTagged_codeBlock hh b id, ?_⟩
  have hb := built_codeBlock b id (codeNodes highlight b)
  generalize hks : ([nl, E c!"a:bodyPr" ([(c!"wrap", c!"square"), (c!"rtlCol", c!"0"), (c!"anchor", c!"t")] ++ insets) [],
    nl, E c!"a:lstStyle" [] [], nl] ++ codeNodes highlight b) = ks at hb
  have htx : textsIn ks = seenCode highlight b := by
    rw [← hks, textsIn_append, textsIn_code]
    have : textsIn [nl, E c!"a:bodyPr" ([(c!"wrap", c!"square"), (c!"rtlCol", c!"0"), (c!"anchor", c!"t")] ++ insets) [],
      nl, E c!"a:lstStyle" [] [], nl] = [] := by krfl
    rw [this]
    rfl
  have n1 : ∀ n, namedIn n [codeBlockNode b id (codeNodes highlight b)] = if c!"sp" = n then
      [spElem (nvCode id) [] (decInt b.x) (decInt b.y) (decInt b.width) (decInt b.height) c!"rect" codeProps [] [] ks] else [] := by
    intro n
    have hl : ∀ c x, XmlElement.localName (.mk c!"p:sp" [] c x) = c!"sp" := fun c x => by krfl
    rw [namedIn, hb, List.filter_cons]
    simp only [spElem, hl, List.filter_nil, decide_eq_true_eq]
  have r1 := hn b.x (by simp)
  have r2 := hn b.y (by simp)
  have r3 := hn b.width (by simp)
  have r4 := hn b.height (by simp)
  have hps : parseShape (spElem (nvCode id) [] (decInt b.x) (decInt b.y) (decInt b.width) (decInt b.height) c!"rect" codeProps [] [] ks) =
      { name := c!"Code Block", shapeType := some c!"rect", paragraphs := parasIn ks, x := b.x, y := b.y, width := b.width,
        height := b.height } := by
    rw [parseShape_sp (name := c!"Code Block") _ _ _ _ _ _ _ _ _ _ _ (by krfl) ⟨_, rfl, by krfl⟩ (by krfl) (by krfl) (by krfl) (by krfl),
      parseI64_decInt (by omega) (by omega), parseI64_decInt (by omega) (by omega), parseI64_decInt (by omega) (by omega),
      parseI64_decInt (by omega) (by omega)]
    rfl
  refine ⟨?_, [parseShape (spElem (nvCode id) [] (decInt b.x) (decInt b.y) (decInt b.width) (decInt b.height) c!"rect" codeProps [] [] ks)],
    fun r => ?_, ?_, ?_⟩
  · rw [n1, if_neg (by decide)]; rfl
  · rw [n1, if_pos rfl, List.foldl_cons, List.foldl_nil, addShape_other (name := c!"Code Block") r _ _ _ _ _ _ _ _ _ _ _ (by krfl)
      ⟨_, rfl, by krfl⟩ ⟨_, rfl, by krfl⟩ (by decide) (by decide)]
  · intro p hm
    rw [List.mem_singleton] at hm
    subst hm
    exact ⟨rfl, rfl⟩
  · rw [List.map_cons, List.map_nil, hps]
    congr 1
    rw [importShape_texts _ _ rfl htx]
    · simp only [toU32_int r1.2, toU32_int r2.2, toU32_int r3.2, toU32_int r4.2, loadedCode]
      rfl
    · unfold seenCode
      cases highlight with
      | none => simp
      | some f =>
        intro t ht
        simpa using (List.mem_filter.mp ht).2

theorem adds_shapes {fontSize : Str → Nat → Nat → Nat} {l : List Shape} {i : Nat} {ps : List Part}
    (e : shapesXml fontSize i l = some ps) (h : ∀ s ∈ l, s.Safe)
    (hn : ∀ s ∈ l, s.x < 4294967296 ∧ s.y < 4294967296 ∧ s.width < 4294967296 ∧ s.height < 4294967296) :
    Adds ps (l.map loadedShape) := by
  induction l generalizing i ps with
  | nil => cases e; exact ⟨[], readsNodes_nil, LoadsAs.none rfl rfl⟩
  | cons s l ih =>
    simp only [shapesXml, Option.bind_eq_some_iff, Option.map_eq_some_iff] at e
    obtain ⟨x, hx, r, hr, rfl⟩ := e
    obtain ⟨k, h1, h2⟩ := loads_shape (h s (by simp)) (hn s (by simp)) hx
    rw [List.map_cons, ← List.singleton_append]
    exact Adds.cons h1 h2 (ih hr (fun b hb => h b (by simp [hb])) (fun b hb => hn b (by simp [hb])))

theorem adds_drawing {fontSize : Str → Nat → Nat → Nat} {highlight : Option (Str → Str → List (List Segment))} {d : Drawing}
    {rids : List Str} {ps : List Part} (h : d.Safe highlight rids) (hn : d.Fits) (e : d.xml fontSize highlight rids = some ps) :
    Adds ps (d.loaded highlight) := by
  unfold Drawing.xml at e
  rw [Option.map_eq_some_iff] at e
  obtain ⟨shapes, hs, rfl⟩ := e
  have a1 := adds_shapes hs h.shapes hn.shapes
  have a2 : Adds (writeFrom (fun i p => pictureXml p (20 + d.shapes.length + i) (2 + (if d.notes then 1 else 0) + i)) 0 d.pictures)
      (d.pictures.flatMap fun _ => []) :=
    adds_write (fun i p _ => ⟨_, readsTagged_picture p _ _, LoadsAs.none (by krfl) (by krfl)⟩) 0
  have a3 : Adds (writeFrom (fun i b => codeBlockXml highlight (30 + d.shapes.length + d.pictures.length + i) b) 0 d.codeBlocks)
      (d.codeBlocks.flatMap fun b => [loadedCode highlight b]) :=
    adds_write (fun i b hb => loads_code h.code (b := b) _ (hn.code b hb)) 0
  have a4 : Adds (writeFrom (fun i c => connectorXml c (50 + d.shapes.length + d.pictures.length + d.codeBlocks.length + i)) 0 d.connectors)
      (d.connectors.flatMap fun _ => []) :=
    adds_write (fun i c hc => ⟨_, readsTagged_connector (h.connectors c hc).color _, LoadsAs.none (by krfl) (by krfl)⟩) 0
  have a5 : Adds (writeFrom (fun i c => chartRefXml c.1 c.2 (100 + d.shapes.length + d.pictures.length + d.codeBlocks.length + d.connectors.length + i)) 0
      (d.charts.zip rids)) ((d.charts.zip rids).flatMap fun _ => []) :=
    adds_write (fun i c hc => ⟨_, readsTagged_chart c.1 (h.charts _ (List.of_mem_zip hc).2) _, LoadsAs.none (by krfl) (by krfl)⟩) 0
  have := (((a1.append a2).append a3).append a4).append a5
  have hnil : ∀ {α : Type} (l : List α), (l.flatMap fun _ => ([] : List Shape)) = [] := by
    intro α l
    induction l with
    | nil => rfl
    | cons a l ih => rw [List.flatMap_cons, ih]; rfl
  rw [hnil, hnil, hnil, List.append_nil, List.append_nil, List.append_nil, ← List.map_eq_flatMap] at this
  exact this

end PptRs.Draw
