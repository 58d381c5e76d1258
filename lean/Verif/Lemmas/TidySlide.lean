import Verif.Lemmas.CalmSlide
import Verif.Lemmas.Reader

/-!
# Documents of slides with changed texts
-/

namespace PptRs

open PptRs.Spec PptRs.Reader

/-- A change of texts that keeps blank texts and leaves no other text empty. -/
structure TextChange (f : Str → Str) : Prop where
  blank : ∀ t, BlankText t → f t = t
  nonempty : ∀ t, f t = [] → t = []

theorem tidy_change : TextChange tidy := ⟨fun _ h => tidy_of_blank h, fun _ h => tidy_eq_nil.mp h⟩

section
variable {f : Str → Str} (hf : TextChange f)
include hf

theorem change_nil : f [] = [] := hf.blank [] blankText_nil

theorem map_nl : mapNode f nl = nl := by
  simp only [nl, mapNode]
  rw [hf.blank _ (by decide)]

theorem map_lines (l : List Node) : mapNodes f (lines l) = lines (mapNodes f l) := by
  induction l with
  | nil => simp [lines, mapNodes, map_nl hf]
  | cons k l ih => simp [lines, mapNodes, map_nl hf, ih]

theorem map_addText (t : Str) : mapNodes f (addText [] t) = addText [] (f t) := by
  rw [addText_eq, addText_eq, List.nil_append, List.nil_append]
  unfold textNode
  by_cases h : t = []
  · subst h; simp [change_nil hf, mapNodes]
  · have : f t ≠ [] := fun e => h (hf.nonempty t e)
    simp [h, this, mapNodes, mapNode]

omit hf in
theorem map_E (n : Str) (as : List (Str × Str)) (ks : List Node) : mapNode f (E n as ks) = E n as (mapNodes f ks) := by
  simp only [E, mapNode]

omit hf in
theorem map_nil : mapNodes f [] = [] := by simp only [mapNodes]

omit hf in
theorem map_cons (k : Node) (ks : List Node) : mapNodes f (k :: ks) = mapNode f k :: mapNodes f ks := by simp only [mapNodes]

omit hf in
theorem map_flat {α : Type} {g g' : α → List Node} {l : List α} (h : ∀ a ∈ l, mapNodes f (g a) = g' a) :
    mapNodes f (l.flatMap g) = l.flatMap g' := by
  induction l with
  | nil => simp [mapNodes]
  | cons a l ih =>
    rw [List.flatMap_cons, List.flatMap_cons, mapNodes_append, h a (by simp), ih fun b hb => h b (by simp [hb])]

omit hf in
theorem map_colorNode (c : Str) : mapNode f (colorNode c) = colorNode c := by
  simp only [colorNode, map_E, map_nil]

omit hf in
theorem map_propsNode (p : TextProps) : mapNode f p.node = p.node := by
  unfold TextProps.node
  rw [map_E]
  congr 1
  unfold TextProps.kids
  rw [mapNodes_append, mapNodes_append]
  congr 1
  · congr 1
    · exact map_flat fun c _ => by simp only [map_cons, map_E, map_nil, map_colorNode]
    · exact map_flat fun c _ => by simp only [map_cons, map_E, map_nil, map_colorNode]
  · exact map_flat fun c _ => by simp only [map_cons, map_E, map_nil]

omit hf in
theorem map_styleNode (b : BulletStyle) : mapNode f b.node = b.node := by
  cases b <;> simp only [BulletStyle.node, map_E, map_nil]

theorem map_runNode (p : TextProps) (t : Str) : mapNode f (runNode p t) = runNode p (f t) := by
  simp only [runNode, map_E, map_lines hf, map_cons, map_nil, map_propsNode, map_addText hf]

theorem map_paraNode (d : TextProps) (b : BulletPoint) :
    mapNode f (paraNode d b) = paraNode d { b with text := f b.text } := by
  simp only [paraNode, map_E, map_lines hf, map_cons, map_nil, map_styleNode, map_runNode hf]
  rfl

theorem map_boxNode (id name : Str) (x y cx cy : Nat) (as : List (Str × Str)) (ks : List Node) :
    mapNode f (boxNode id name x y cx cy as ks) = boxNode id name x y cx cy as (mapNodes f ks) := by
  simp only [boxNode, map_E, map_lines hf, map_cons, map_nil, mapNodes_append, map_nl hf]

theorem map_titleNode (title : Str) (p : TextProps) (x y cx cy : Nat) (al : Str) :
    mapNode f (titleNode title p x y cx cy al) = titleNode (f title) p x y cx cy al := by
  simp only [titleNode, map_boxNode hf, map_E, map_lines hf, map_cons, map_nil, map_nl hf, map_runNode hf]

theorem map_paraNodes (d : TextProps) (l : List BulletPoint) :
    mapNodes f (paraNodes d l) = paraNodes d (l.map fun b => { b with text := f b.text }) := by
  unfold paraNodes
  rw [List.flatMap_map]
  exact map_flat fun b _ => by simp only [map_cons, map_nil, map_nl hf, map_paraNode hf]

theorem map_twoColumns (d : TextProps) (l : List BulletPoint) :
    mapNodes f (twoColumnNodes d l) = twoColumnNodes d (l.map fun b => { b with text := f b.text }) := by
  unfold twoColumnNodes
  simp only [List.length_map]
  split
  · split
    · simp only [mapNodes_append, map_cons, map_nil, map_nl hf, map_boxNode hf, map_paraNodes hf, List.map_take, List.map_drop]
    · simp only [mapNodes_append, map_cons, map_nil, map_nl hf, map_boxNode hf, map_paraNodes hf, List.map_take]
  · exact map_nil

theorem map_oneColumn (y cy : Nat) (d : TextProps) (l : List BulletPoint) :
    mapNodes f (oneColumnNodes y cy d l) = oneColumnNodes y cy d (l.map fun b => { b with text := f b.text }) := by
  unfold oneColumnNodes
  by_cases h : l = []
  · simp [h, map_nil]
  · have : (l.map fun b => ({ b with text := f b.text } : BulletPoint)) ≠ [] := by simpa using h
    rw [if_pos h, if_pos this]
    simp only [map_cons, map_nil, map_nl hf, map_boxNode hf, map_paraNodes hf]

/-! ### Tables -/

theorem map_cellNode (c : CellIn) : mapNode f c.node = (mapCell f c).node := by
  have h1 : mapNode f c.propsNode = c.propsNode := by
    unfold CellIn.propsNode
    rw [map_E]
    congr 1
    exact map_flat fun c _ => by simp only [map_cons, map_E, map_nil, map_colorNode]
  have h2 : mapNode f c.runProps = c.runProps := by
    unfold CellIn.runProps
    rw [map_E]
    congr 1
    unfold CellIn.runKids
    rw [mapNodes_append]
    congr 1
    · exact map_flat fun c _ => by simp only [map_cons, map_E, map_nil, map_colorNode]
    · exact map_flat fun c _ => by simp only [map_cons, map_E, map_nil]
  have h3 : mapNodes f c.paraProps = c.paraProps := by
    unfold CellIn.paraProps
    split
    · exact map_nil
    · simp only [map_cons, map_E, map_nil]
  have h4 : mapNode f c.paraNode = (mapCell f c).paraNode := by
    unfold CellIn.paraNode
    by_cases h : c.text = []
    · have : (mapCell f c).text = [] := by simp [mapCell, h, change_nil hf]
      rw [if_pos h, if_pos this]
      simp only [map_cons, map_E, map_nil]
    · have : (mapCell f c).text ≠ [] := fun e => h (hf.nonempty _ e)
      rw [if_neg h, if_neg this]
      simp only [map_cons, map_E, map_nil, mapNodes_append, h3, h2, map_addText hf]
      rfl
  unfold CellIn.node
  rw [map_E]
  have e1 : (mapCell f c).mergeNodeAttrs = c.mergeNodeAttrs := rfl
  have e2 : ((mapCell f c).hMerge || (mapCell f c).vMerge) = (c.hMerge || c.vMerge) := rfl
  have e3 : (mapCell f c).propsNode = c.propsNode := rfl
  rw [e1, e2, e3]
  congr 1
  split
  · simp only [mergedCellKids, map_cons, map_E, map_nil]
  · simp only [map_cons, map_E, map_nil, h1, h4]

theorem map_rowNode (r : RowIn) (i : Nat) :
    mapNode f (rowNode r i) = rowNode { r with cells := r.cells.map (mapCell f) } i := by
  unfold rowNode
  rw [map_E, mapNodes_append, List.flatMap_map]
  congr 1
  congr 1
  exact map_flat fun c _ => by simp only [map_cons, map_nil, map_cellNode hf]

theorem map_tableNode (t : TableIn) : mapNode f (tableNode t) = tableNode (mapTable f t) := by
  have h1 : mapNodes f (t.columnWidths.zipIdx.flatMap fun w => [columnNode w.1 w.2]) =
      t.columnWidths.zipIdx.flatMap fun w => [columnNode w.1 w.2] :=
    map_flat fun w _ => by simp only [columnNode, extNode, map_cons, map_E, map_nil]
  have h2 : mapNodes f (t.rows.zipIdx.flatMap fun r => [rowNode r.1 r.2]) =
      (mapTable f t).rows.zipIdx.flatMap fun r => [rowNode r.1 r.2] := by
    rw [mapTable, List.zipIdx_map, List.flatMap_map]
    exact map_flat fun r _ => by simp only [map_cons, map_nil, map_rowNode hf]; rfl
  have h3 : ((mapTable f t).rows.map fun r => r.height.getD 400000) = t.rows.map fun r => r.height.getD 400000 := by
    simp [mapTable, List.map_map, Function.comp_def]
  unfold tableNode
  rw [h3]
  simp only [map_E, map_cons, map_nil, mapNodes_append, h1, h2]
  rfl

/-! ### Slides -/

omit hf in
theorem effective_map (s : SlideText) :
    (mapSlide f s).effective = s.effective.map fun b => { b with text := f b.text } := by
  unfold SlideText.effective mapSlide
  by_cases h : s.bullets = []
  · simp [h, List.map_map, Function.comp_def]
  · simp [h]

theorem map_shapeNodes (s : SlideText) : mapNodes f s.shapeNodes = (mapSlide f s).shapeNodes := by
  have ht : (mapSlide f s).title = f s.title := rfl
  have hp : ∀ n b, (mapSlide f s).titleProps n b = s.titleProps n b := fun _ _ => rfl
  have hc : ∀ n, (mapSlide f s).contentProps n = s.contentProps n := fun _ => rfl
  have hb : (mapSlide f s).titleBold = s.titleBold := rfl
  have hl : (mapSlide f s).layout = s.layout := rfl
  have hi : (mapSlide f s).table = s.table.map (mapTable f) := rfl
  unfold SlideText.shapeNodes
  rw [hl]
  cases s.layout <;> simp only [ht, hp, hc, hb, hi, effective_map]
  case blank => exact map_nil
  case titleOnly => simp only [map_cons, map_nil, map_nl hf, map_titleNode hf]
  case sectionHeader => simp only [map_cons, map_nil, map_nl hf, map_titleNode hf]
  case centeredTitle => simp only [map_cons, map_nil, map_nl hf, map_titleNode hf]
  case titleAndBigContent =>
    simp only [mapNodes_append, map_cons, map_nil, map_nl hf, map_titleNode hf, map_oneColumn hf]
  case twoColumn =>
    simp only [mapNodes_append, map_cons, map_nil, map_nl hf, map_titleNode hf, map_twoColumns hf]
  case titleAndContent =>
    cases s.table with
    | none =>
      simp only [mapNodes_append, map_cons, map_nil, map_nl hf, map_titleNode hf, Option.isSome_none, Bool.false_eq_true,
        if_false, Option.map_none, map_oneColumn hf]
    | some t =>
      simp only [mapNodes_append, map_cons, map_nil, map_nl hf, map_titleNode hf, Option.isSome_some, if_true,
        Option.map_some, Option.toList_some, List.flatMap_cons, List.flatMap_nil, map_tableNode hf]

omit hf in
theorem map_transition (t : Transition) : mapNodes f t.nodes = t.nodes := by
  cases t <;> simp only [Transition.nodes, map_cons, map_E, map_nil]

theorem map_slideNode (shapes extra tr : List Node) :
    mapNode f (slideNode shapes extra tr) = slideNode (mapNodes f shapes) (mapNodes f extra) (mapNodes f tr) := by
  simp only [slideNode, groupNodes, map_E, map_lines hf, map_cons, map_nil, mapNodes_append, map_nl hf]

end

theorem mapSlide_safe {f : Str → Str} {s : SlideText} (h : s.Safe) : (mapSlide f s).Safe := by
  refine ⟨h.titleColor, h.contentColor, h.bulletStyle, ?_, ?_⟩
  · intro b hb
    obtain ⟨x, hx, rfl⟩ := List.mem_map.mp hb
    exact ⟨(h.bullets x hx).style, (h.bullets x hx).format⟩
  · intro t ht r hr c hc
    obtain ⟨t0, h0, rfl⟩ := Option.map_eq_some_iff.mp ht
    obtain ⟨r0, h1, rfl⟩ := List.mem_map.mp hr
    obtain ⟨c0, h2, rfl⟩ := List.mem_map.mp hc
    have := h.table t0 h0 r0 h1 c0 h2
    exact ⟨this.color, this.background⟩

theorem mapSlide_small {f : Str → Str} {s : SlideText} (h : SmallNumbers s) : SmallNumbers (mapSlide f s) := by
  refine ⟨h.title, h.content, ?_, ?_, ?_⟩
  · intro b hb
    obtain ⟨x, hx, rfl⟩ := List.mem_map.mp hb
    exact h.level x hx
  · intro b hb
    obtain ⟨x, hx, rfl⟩ := List.mem_map.mp hb
    exact h.bullets x hx
  · intro t ht r hr c hc
    obtain ⟨t0, h0, rfl⟩ := Option.map_eq_some_iff.mp ht
    obtain ⟨r0, h1, rfl⟩ := List.mem_map.mp hr
    obtain ⟨c0, h2, rfl⟩ := List.mem_map.mp hc
    exact h.cells t0 h0 r0 h1 c0 h2

/-- A minified slide is read like the slide with tidied texts. -/
theorem parse_minimize_slide {s : SlideText} (h : s.Safe) (hx : s.extra = []) :
    XmlElement.parse (minimizeXml s.xml) = XmlElement.parse (mapSlide tidy s).xml := by
  have hx0 : ReadsNodes s.extra [] := by rw [hx]; exact readsNodes_nil
  have hx1 : ReadsNodes (mapSlide tidy s).extra [] := hx0
  have h1 := readsNodes_slide h hx0
  have h2 := readsNodes_slide (mapSlide_safe (f := tidy) h) hx1
  have hs : ∀ s : SlideText, ∃ r, fmt s.body = '<' :: r := fun s => by
    unfold SlideText.body
    simp only [List.append_assoc]
    rw [fmt_append]
    exact ⟨_, rfl⟩
  have hc : Calm s.body .text .text := calm_slide h (by rw [hx]; exact calm_nil _)
  have d1 := document_minimize h1.readsAs (hs s) hc
  have d2 := document_decl h2 (hs _)
  have e1 : squeezeNodes [slideNode s.shapeNodes [] s.transition.nodes] =
      [.elem c!"p:sld" slideNs (squeezeNodes (match slideNode s.shapeNodes [] s.transition.nodes with
        | .elem _ _ ks => ks
        | _ => []))] := rfl
  have m := map_slideNode tidy_change s.shapeNodes [] s.transition.nodes
  rw [map_shapeNodes tidy_change, map_transition, map_nil] at m
  rw [e1] at d1
  have p1 := parse_elem (x := minimizeXml s.xml) d1
  have p2 := parse_elem (x := (mapSlide tidy s).xml) d2
  rw [p1, p2]
  have e2 : (mapSlide tidy s).transition = s.transition := rfl
  have b := built_squeezeNodes (match slideNode s.shapeNodes [] s.transition.nodes with
        | .elem _ _ ks => ks
        | _ => [])
  rw [b.1, b.2]
  rw [e2] at *
  have m' : mapNodes tidy (match slideNode s.shapeNodes [] s.transition.nodes with
        | .elem _ _ ks => ks
        | _ => []) = (match slideNode (mapSlide tidy s).shapeNodes [] s.transition.nodes with
        | .elem _ _ ks => ks
        | _ => []) := by
    have := congrArg (fun k => match k with | Node.elem _ _ ks => ks | _ => []) m
    exact this
  rw [m']
  rfl

end PptRs
