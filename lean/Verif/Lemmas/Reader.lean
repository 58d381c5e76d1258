import Verif.Spec.Reader
import Verif.Lemmas.XmlElement
import Verif.Lemmas.SlideText
import Verif.Lemmas.Str
import Verif.Props.BulletFormat

/-!
# What the reader sees in written slides
-/

namespace PptRs

open PptRs.Spec PptRs.Reader PptRs.Props

theorem parse_elem {x : Str} {n : Str} {as : List (Str × Str)} {ks : List Node}
    (h : document x = some [.elem n as ks]) :
    XmlElement.parse x = some (.mk n (attrMap (realAttrs as)) (builtIn ks) (solidText ks)) := by
  unfold XmlElement.parse
  rw [h]
  have := ofEvents_elem n as ks (pre := []) (post := []) (by simp) (by simp)
  simpa [eventsIn] using this

theorem builtIn_append (a b : List Node) : builtIn (a ++ b) = builtIn a ++ builtIn b := by
  induction a with
  | nil => rfl
  | cons k a ih => simp [builtIn, ih]

theorem builtIn_flatMap {α : Type} (f : α → Node) (l : List α) :
    builtIn (l.flatMap fun a => [f a]) = l.flatMap fun a => built (f a) := by
  induction l with
  | nil => rfl
  | cons a l ih => simp [builtIn, ih]

theorem builtIn_addText (t : Str) : builtIn (addText [] t) = [] := by
  unfold addText
  split <;> rfl

theorem solidText_addText (t : Str) : solidText (addText [] t) = visible t := by
  unfold addText
  split
  · rfl
  · simp [solidText, visible]

theorem parseI64_dec {n : Nat} (h : n < 9223372036854775808) : parseI64? (dec n) = some (n : Int) := by
  have hne := dec_ne_nil n
  have hd : (dec n).all isDig = true := by
    simp only [List.all_eq_true]; intro c hc; exact isDigit_of_mem_dec hc
  have hbody : dropPlus (dec n) = dec n := by
    unfold dropPlus
    split
    · rename_i t heq
      exact absurd (heq ▸ List.mem_cons_self) (not_mem_dec (n := n) (c := '+') (by decide))
    · rfl
  have hv : Nat.ofDigitChars 10 (dec n) 0 = n := by simp [dec]
  unfold parseI64?
  split
  · rename_i t heq
    exact absurd (heq ▸ List.mem_cons_self) (not_mem_dec (n := n) (c := '-') (by decide))
  · simp [hbody, hne, hd, hv, h]

/-- The element of run properties. -/
def propsElem (p : TextProps) : XmlElement := ((built p.node).head?).getD (.new [])

/-- The element of a text. -/
def tElem (t : Str) : XmlElement := .mk c!"a:t" [] (builtIn (addText [] t)) (solidText (addText [] t))

theorem tElem_text (t : Str) : (tElem t).textContent = visible t := by
  unfold tElem
  rw [builtIn_addText, solidText_addText]
  simp [XmlElement.textContent, XmlElement.textIn]

theorem find_solidFill (p : TextProps) : runColor (propsElem p) = p.color.map cleanColor := by
  obtain ⟨_, _, _, _, _, _, _, color, highlight, font⟩ := p
  cases color <;> cases highlight <;> cases font <;> rfl

theorem propsElem_attrs (p : TextProps) :
    (propsElem p).attr c!"sz" = some (dec p.size) ∧ (propsElem p).attr c!"b" = some (onOff p.bold) ∧
    (propsElem p).attr c!"i" = some (onOff p.italic) ∧
    ((propsElem p).attr c!"u").isSome = p.underline := by
  obtain ⟨_, _, _, u, s, sub, sup, _, _, _⟩ := p
  cases u <;> cases s <;> cases sub <;> cases sup <;>
    exact ⟨by krfl, by krfl, by krfl, by krfl⟩

theorem isOn_onOff (b : Bool) : isOn (some (onOff b)) = b := by cases b <;> rfl

/-- The run that is read. -/
def runOf (p : TextProps) (t : Str) : TextRun :=
  { text := t, bold := p.bold, italic := p.italic, underline := p.underline, fontSize := some p.size
    color := p.color.map cleanColor }

theorem makeRun_props {p : TextProps} (t : Str) (h : p.size < 4294967296) :
    makeRun t (some (propsElem p)) = runOf p t := by
  obtain ⟨h1, h2, h3, h4⟩ := propsElem_attrs p
  simp [makeRun, h1, h2, h3, h4, isOn_onOff, find_solidFill, parseU32_dec h, runOf]

theorem parseRun_node {p : TextProps} (t : Str) (h : p.size < 4294967296) :
    (built (runNode p t)).filterMap parseRun = if BlankText t then [] else [runOf p t] := by
  have e : built (runNode p t) = [.mk c!"a:r" [] [propsElem p, tElem t] []] := by krfl
  have e1 : runText (.mk c!"a:r" [] [propsElem p, tElem t] []) = (tElem t).textContent := by krfl
  have e2 : (XmlElement.mk c!"a:r" [] [propsElem p, tElem t] []).find c!"rPr" = some (propsElem p) := by krfl
  rw [e]
  simp only [List.filterMap_cons, List.filterMap_nil, parseRun, e1, e2, tElem_text, visible]
  by_cases hb : BlankText t
  · simp [hb]
  · have : t ≠ [] := by rintro rfl; exact hb (by simp [BlankText])
    simp [hb, this, makeRun_props _ h, runOf]

/-! ### Boxes -/

/-- The paragraph that is read. -/
def paraOf (level : Nat) (p : TextProps) (t : Str) : List Paragraph :=
  if BlankText t then [] else [⟨[runOf p t], level⟩]

theorem parsePara_node {d : TextProps} {b : BulletPoint} (hs : (bulletProps d b.format).size < 4294967296)
    (hl : b.level < 4294967296) :
    (built (paraNode d b)).filterMap parseParagraph = paraOf b.level (bulletProps d b.format) b.text := by
  have e : ∃ q, built (paraNode d b) = [.mk c!"a:p" [] (q :: built (runNode (bulletProps d b.format) b.text)) []] ∧
      q.localName = c!"pPr" ∧ q.attr c!"lvl" = some (dec b.level) :=
    ⟨((builtIn [pprNode b]).head?).getD (.new []), by krfl, by krfl, by krfl⟩
  obtain ⟨q, e, q1, q2⟩ := e
  have hr : (XmlElement.mk c!"a:p" [] (q :: built (runNode (bulletProps d b.format) b.text)) []).findAll c!"r" =
      built (runNode (bulletProps d b.format) b.text) := by
    have : (built (runNode (bulletProps d b.format) b.text)).filter (fun c => c.localName = c!"r") =
      built (runNode (bulletProps d b.format) b.text) := by krfl
    show (q :: built (runNode (bulletProps d b.format) b.text)).filter (fun c => c.localName = c!"r") = _
    rw [List.filter_cons, this, q1]
    rfl
  have hp : paraLevel (XmlElement.mk c!"a:p" [] (q :: built (runNode (bulletProps d b.format) b.text)) []) = b.level := by
    have : (XmlElement.mk c!"a:p" [] (q :: built (runNode (bulletProps d b.format) b.text)) []).find c!"pPr" = some q := by
      show (q :: built (runNode (bulletProps d b.format) b.text)).find? (fun c => c.localName = c!"pPr") = _
      rw [List.find?_cons, q1]
      rfl
    simp [paraLevel, this, q2, parseU32_dec hl]
  rw [e]
  simp only [List.filterMap_cons, List.filterMap_nil, parseParagraph, hr, hp, parseRun_node _ hs, paraOf]
  by_cases hb : BlankText b.text <;> simp [hb]

theorem parsePara_title {p : TextProps} (t al : Str) (hs : p.size < 4294967296) :
    (built (E c!"a:p" [] (lines [E c!"a:pPr" [(c!"algn", al)] [], runNode p t]))).filterMap parseParagraph =
      paraOf 0 p t := by
  have e : built (E c!"a:p" [] (lines [E c!"a:pPr" [(c!"algn", al)] [], runNode p t])) =
      [.mk c!"a:p" [] (.mk c!"a:pPr" [(c!"algn", al)] [] [] :: built (runNode p t)) []] := by krfl
  have hr : (XmlElement.mk c!"a:p" [] (.mk c!"a:pPr" [(c!"algn", al)] [] [] :: built (runNode p t)) []).findAll c!"r" =
      built (runNode p t) := by krfl
  have hp : paraLevel (XmlElement.mk c!"a:p" [] (.mk c!"a:pPr" [(c!"algn", al)] [] [] :: built (runNode p t)) []) = 0 := by
    krfl
  rw [e]
  simp only [List.filterMap_cons, List.filterMap_nil, parseParagraph, hr, hp, parseRun_node _ hs, paraOf]
  by_cases hb : BlankText t <;> simp [hb]

/-- The element of a box. -/
def boxElem (id name : Str) (x y cx cy : Nat) (as : List (Str × Str)) (ks : List Node) : XmlElement :=
  ((built (boxNode id name x y cx cy as ks)).head?).getD (.new [])

theorem built_box (id name : Str) (x y cx cy : Nat) (as : List (Str × Str)) (ks : List Node) :
    built (boxNode id name x y cx cy as ks) = [boxElem id name x y cx cy as ks] := rfl

/-- The paragraphs below some nodes. -/
def parasIn (ks : List Node) : List Paragraph :=
  ((builtIn ks).filter fun c => c.localName = c!"p").filterMap parseParagraph

theorem parasIn_append (a b : List Node) : parasIn (a ++ b) = parasIn a ++ parasIn b := by
  simp [parasIn, builtIn_append]

theorem parasIn_p (as : List (Str × Str)) (ks : List Node) :
    parasIn [nl, E c!"a:p" as ks] = (built (E c!"a:p" as ks)).filterMap parseParagraph := by
  have : (builtIn [nl, E c!"a:p" as ks]).filter (fun c => c.localName = c!"p") = built (E c!"a:p" as ks) := by krfl
  rw [parasIn, this]

/-- The shape that is read from a box. -/
def shapeOf (name : Str) (x y cx cy : Nat) (l : List Paragraph) : ParsedShape :=
  { name, shapeType := some c!"rect", paragraphs := l, x, y, width := cx, height := cy }

theorem parseShape_box (id name : Str) {x y cx cy : Nat} (as : List (Str × Str)) (ks : List Node)
    (hx : x < 9223372036854775808) (hy : y < 9223372036854775808) (hcx : cx < 9223372036854775808)
    (hcy : cy < 9223372036854775808) :
    parseShape (boxElem id name x y cx cy as ks) = shapeOf name x y cx cy (parasIn ks) := by
  have e1 : (((boxElem id name x y cx cy as ks).findDescendant c!"cNvPr").bind (·.attr c!"name")).getD c!"Shape" = name := by
    krfl
  have e2 : ((boxElem id name x y cx cy as ks).findDescendant c!"prstGeom").bind (·.attr c!"prst") = some c!"rect" := by krfl
  have e3 : (((boxElem id name x y cx cy as ks).findDescendant c!"txBody").map parseTextBody).getD [] = parasIn (ks ++ [nl]) := by
    krfl
  have e4 : (((boxElem id name x y cx cy as ks).findDescendant c!"xfrm").bind (·.find c!"off")) =
      some (.mk c!"a:off" [(c!"x", dec x), (c!"y", dec y)] [] []) := by krfl
  have e5 : (((boxElem id name x y cx cy as ks).findDescendant c!"xfrm").bind (·.find c!"ext")) =
      some (.mk c!"a:ext" [(c!"cx", dec cx), (c!"cy", dec cy)] [] []) := by krfl
  have e6 : parasIn (ks ++ [nl]) = parasIn ks := by
    rw [parasIn_append]
    exact List.append_nil _
  have a1 : intAttr (some (.mk c!"a:off" [(c!"x", dec x), (c!"y", dec y)] [] [])) c!"x" = x := by
    show ((parseI64? (dec x)).getD 0) = _
    rw [parseI64_dec hx]; rfl
  have a2 : intAttr (some (.mk c!"a:off" [(c!"x", dec x), (c!"y", dec y)] [] [])) c!"y" = y := by
    show ((parseI64? (dec y)).getD 0) = _
    rw [parseI64_dec hy]; rfl
  have a3 : intAttr (some (.mk c!"a:ext" [(c!"cx", dec cx), (c!"cy", dec cy)] [] [])) c!"cx" = cx := by
    show ((parseI64? (dec cx)).getD 0) = _
    rw [parseI64_dec hcx]; rfl
  have a4 : intAttr (some (.mk c!"a:ext" [(c!"cx", dec cx), (c!"cy", dec cy)] [] [])) c!"cy" = cy := by
    show ((parseI64? (dec cy)).getD 0) = _
    rw [parseI64_dec hcy]; rfl
  unfold parseShape
  rw [e1, e2, e3, e4, e5, e6, a1, a2, a3, a4]
  rfl

theorem addShape_title (s : ParsedSlide) (id : Str) {x y cx cy : Nat} (as : List (Str × Str)) (ks : List Node)
    (hx : x < 9223372036854775808) (hy : y < 9223372036854775808) (hcx : cx < 9223372036854775808)
    (hcy : cy < 9223372036854775808) :
    addShape s (boxElem id c!"Title" x y cx cy as ks) =
      { s with title := some (shapeOf c!"Title" x y cx cy (parasIn ks)).text
               shapes := s.shapes ++ [{ shapeOf c!"Title" x y cx cy (parasIn ks) with isTitle := true }] } := by
  have : isTitleShape (boxElem id c!"Title" x y cx cy as ks) = true := by krfl
  unfold addShape
  rw [this, parseShape_box id c!"Title" as ks hx hy hcx hcy]
  rfl

theorem addShape_body (s : ParsedSlide) (id : Str) {name : Str} {x y cx cy : Nat} (as : List (Str × Str)) (ks : List Node)
    (hn : name = c!"Content" ∨ name = c!"Left Content" ∨ name = c!"Right Content")
    (hx : x < 9223372036854775808) (hy : y < 9223372036854775808) (hcx : cx < 9223372036854775808)
    (hcy : cy < 9223372036854775808) :
    addShape s (boxElem id name x y cx cy as ks) =
      { s with bodyText := s.bodyText ++ ((parasIn ks).map Paragraph.text).filter (· ≠ [])
               shapes := s.shapes ++ [{ shapeOf name x y cx cy (parasIn ks) with isBody := true }] } := by
  have h1 : isTitleShape (boxElem id name x y cx cy as ks) = false := by rcases hn with rfl | rfl | rfl <;> krfl
  have h2 : isBodyShape (boxElem id name x y cx cy as ks) = true := by rcases hn with rfl | rfl | rfl <;> krfl
  unfold addShape
  rw [h1, h2, parseShape_box id name as ks hx hy hcx hcy]
  rfl

/-! ### The texts that are seen -/

theorem paraOf_bullet (s : SlideText) (size : Nat) (b : BulletPoint) :
    paraOf b.level (bulletProps (s.contentProps size) b.format) b.text = seenBullet s size b := by
  unfold paraOf seenBullet runOf
  split
  · rfl
  · cases hf : b.format with
    | none =>
      simp only [bulletProps, Option.map_none, Option.getD_none, SlideText.contentProps, TextProps.withBasic,
        Bool.false_or, Option.none_or, Option.map_map]
      rw [Nat.mul_comm]
      cases s.contentColor <;> simp [cleanColor_eq, plainColor_twice]
    | some f =>
      simp only [bulletProps, Option.map_some, Option.getD_some, mergeProps, SlideText.contentProps, TextProps.withBasic,
        Bool.or_false]
      have h1 : (f.fontSize.map (· * 100)).getD (s.contentSize.getD size * 100) =
          100 * f.fontSize.getD (s.contentSize.getD size) := by
        cases f.fontSize <;> simp [Nat.mul_comm]
      cases f.fontSize <;> cases f.color <;> cases s.contentColor <;>
        simp [cleanColor_eq, plainColor_twice, Nat.mul_comm]

theorem paraOf_title (s : SlideText) (size : Nat) (bold : Bool) :
    paraOf 0 (s.titleProps size bold) s.title = seenTitle s size bold := by
  unfold paraOf seenTitle runOf
  split
  · rfl
  · simp only [SlideText.titleProps, TextProps.withBasic]
    rw [Nat.mul_comm]
    cases s.titleColor <;> simp [cleanColor_eq, plainColor_twice]

theorem size_bullet {s : SlideText} {size : Nat} {b : BulletPoint} (hs : size < 40000000)
    (hc : ∀ n ∈ s.contentSize, n < 40000000) (hb : ∀ f ∈ b.format, ∀ n ∈ f.fontSize, n < 40000000) :
    (bulletProps (s.contentProps size) b.format).size < 4294967296 := by
  have h0 : s.contentSize.getD size < 40000000 := by
    cases h : s.contentSize with
    | none => exact hs
    | some n => exact hc n h
  cases hf : b.format with
  | none =>
    simp only [bulletProps, Option.map_none, Option.getD_none, SlideText.contentProps, TextProps.withBasic]
    omega
  | some f =>
    simp only [bulletProps, Option.map_some, Option.getD_some, mergeProps, SlideText.contentProps, TextProps.withBasic]
    cases hn : f.fontSize with
    | none => simp; omega
    | some n =>
      have := hb f hf n hn
      simp; omega

theorem size_title {s : SlideText} {size : Nat} (bold : Bool) (hs : size < 40000000)
    (hc : ∀ n ∈ s.titleSize, n < 40000000) : (s.titleProps size bold).size < 4294967296 := by
  have h0 : s.titleSize.getD size < 40000000 := by
    cases h : s.titleSize with
    | none => exact hs
    | some n => exact hc n h
  simp only [SlideText.titleProps, TextProps.withBasic]
  omega

theorem effective_asked (s : SlideText) : s.effective = bulletsAsked s := by
  unfold SlideText.effective bulletsAsked
  split <;> simp_all

theorem parasIn_bullets {s : SlideText} (h : SmallNumbers s) {size : Nat} (hs : size < 40000000) {l : List BulletPoint}
    (hl : ∀ b ∈ l, b ∈ s.effective) :
    parasIn (paraNodes (s.contentProps size) l) = l.flatMap (seenBullet s size) := by
  induction l with
  | nil => rfl
  | cons b l ih =>
    have hb : b.level < 4294967296 ∧ ∀ f ∈ b.format, ∀ n ∈ f.fontSize, n < 40000000 := by
      have := hl b (by simp)
      unfold SlideText.effective at this
      split at this
      · exact ⟨h.level b this, h.bullets b this⟩
      · obtain ⟨t, _, rfl⟩ := List.mem_map.mp this
        exact ⟨by simp, by simp⟩
    have e : paraNodes (s.contentProps size) (b :: l) =
        [nl, paraNode (s.contentProps size) b] ++ paraNodes (s.contentProps size) l := rfl
    rw [e, parasIn_append, ih fun x hx => hl x (by simp [hx]), List.flatMap_cons]
    unfold paraNode
    rw [parasIn_p]
    have := parsePara_node (d := s.contentProps size) (b := b) (size_bullet hs h.content hb.2) hb.1
    unfold paraNode at this
    rw [this, paraOf_bullet]

theorem parasIn_title {s : SlideText} (h : SmallNumbers s) {size : Nat} (hs : size < 40000000) (bold : Bool) (al : Str) :
    parasIn [nl, E c!"a:p" [] (lines [E c!"a:pPr" [(c!"algn", al)] [], runNode (s.titleProps size bold) s.title])] =
      seenTitle s size bold := by
  rw [parasIn_p, parsePara_title _ _ (size_title bold hs h.title), paraOf_title]

theorem text_title (s : SlideText) (size : Nat) (bold : Bool) (x y cx cy : Nat) :
    (shapeOf c!"Title" x y cx cy (seenTitle s size bold)).text = visible s.title := by
  unfold seenTitle visible
  split
  · rfl
  · simp [shapeOf, ParsedShape.text, joinStr, Paragraph.text]

theorem texts_bullets (s : SlideText) (size : Nat) (l : List BulletPoint) :
    ((l.flatMap (seenBullet s size)).map Paragraph.text).filter (· ≠ []) =
      (l.map (·.text)).filter fun t => ¬ BlankText t := by
  induction l with
  | nil => rfl
  | cons b l ih =>
    rw [List.flatMap_cons, List.map_append, List.filter_append, ih, List.map_cons, List.filter_cons]
    unfold seenBullet
    by_cases hb : BlankText b.text
    · simp [hb]
    · have : b.text ≠ [] := by intro e; exact hb (by simp [e, BlankText])
      simp [hb, Paragraph.text, this]

/-! ### Tables -/

/-- The element of a cell. -/
def cellElem (c : CellIn) : XmlElement := ((built c.node).head?).getD (.new [])

theorem find_t_cell {c : CellIn} (hh : c.hMerge = false) (hv : c.vMerge = false) (ht : c.text ≠ []) :
    (cellElem c).findDescendant c!"t" = some (tElem c.text) := by
  obtain ⟨text, bold, italic, underline, color, bg, size, font, align, valign, gs, rs, hm, vm⟩ := c
  simp only at hh hv ht
  subst hh hv
  have e : CellIn.paraNode ⟨text, bold, italic, underline, color, bg, size, font, align, valign, gs, rs, false, false⟩ =
      E c!"a:p" [] (CellIn.paraProps ⟨text, bold, italic, underline, color, bg, size, font, align, valign, gs, rs, false, false⟩ ++
        [E c!"a:r" [] [CellIn.runProps ⟨text, bold, italic, underline, color, bg, size, font, align, valign, gs, rs, false, false⟩,
          E c!"a:t" [] (addText [] text)]]) := by
    unfold CellIn.paraNode
    rw [if_neg ht]
  unfold cellElem CellIn.node
  rw [e]
  cases color <;> cases font <;> cases align <;> krfl

theorem find_t_empty {c : CellIn} (hh : c.hMerge = false) (hv : c.vMerge = false) (ht : c.text = []) :
    (cellElem c).findDescendant c!"t" = none := by
  have e : c.paraNode = E c!"a:p" [] [E c!"a:endParaRPr" [(c!"lang", c!"en-US")] []] := by
    unfold CellIn.paraNode
    rw [if_pos ht]
  unfold cellElem CellIn.node CellIn.propsNode
  rw [e, hh, hv]
  cases c.backgroundColor <;> krfl

theorem find_t_merged {c : CellIn} (h : c.hMerge = true ∨ c.vMerge = true) :
    (cellElem c).findDescendant c!"t" = none := by
  have e : (c.hMerge || c.vMerge) = true := by simpa using h
  unfold cellElem CellIn.node
  rw [e]
  krfl

theorem cellElem_attr (c : CellIn) (k : Str) : (cellElem c).attr k = (attrMap (realAttrs c.mergeNodeAttrs)).get k := rfl

theorem parseCell_elem {c : CellIn} (h : c.rowSpan.getD 1 < 4294967296 ∧ c.gridSpan.getD 1 < 4294967296) :
    parseCell (cellElem c) = seenCell c := by
  unfold parseCell
  rw [cellElem_attr, cellElem_attr]
  unfold seenCell CellIn.mergeNodeAttrs
  cases hh : c.hMerge with
  | true => rw [find_t_merged (.inl hh)]; rfl
  | false =>
    cases hv : c.vMerge with
    | true => rw [find_t_merged (.inr hv)]; rfl
    | false =>
      have ht : (((cellElem c).findDescendant c!"t").map (·.textContent)).getD [] = visible c.text := by
        by_cases ht : c.text = []
        · rw [find_t_empty hh hv ht, ht]; rfl
        · rw [find_t_cell hh hv ht]
          exact tElem_text _
      rw [ht]
      have hr := parseU32_dec h.1
      have hg := parseU32_dec h.2
      have m : ∀ n : Nat, n > 1 → max 1 n = n := by intro n h; omega
      have m' : ∀ n : Nat, ¬ n > 1 → max 1 n = 1 := by intro n h; omega
      generalize c.gridSpan.getD 1 = g at hg ⊢
      generalize c.rowSpan.getD 1 = r at hr ⊢
      by_cases h1 : g > 1
      · by_cases h2 : r > 1
        · have e1 : (attrMap (realAttrs [(c!"gridSpan", dec g), (c!"rowSpan", dec r)])).get c!"rowSpan" = some (dec r) := by krfl
          have e2 : (attrMap (realAttrs [(c!"gridSpan", dec g), (c!"rowSpan", dec r)])).get c!"gridSpan" = some (dec g) := by krfl
          simp [h1, h2, e1, e2, hr, hg, m _ h1, m _ h2]
        · have e1 : (attrMap (realAttrs [(c!"gridSpan", dec g)])).get c!"rowSpan" = none := by krfl
          have e2 : (attrMap (realAttrs [(c!"gridSpan", dec g)])).get c!"gridSpan" = some (dec g) := by krfl
          simp [h1, h2, e1, e2, hg, m _ h1, m' _ h2]
      · by_cases h2 : r > 1
        · have e1 : (attrMap (realAttrs [(c!"rowSpan", dec r)])).get c!"rowSpan" = some (dec r) := by krfl
          have e2 : (attrMap (realAttrs [(c!"rowSpan", dec r)])).get c!"gridSpan" = none := by krfl
          simp [h1, h2, e1, e2, hr, m' _ h1, m _ h2]
        · have e1 : (attrMap (realAttrs [])).get c!"rowSpan" = none := by krfl
          have e2 : (attrMap (realAttrs [])).get c!"gridSpan" = none := by krfl
          simp [h1, h2, e1, e2, m' _ h1, m' _ h2]

theorem built_row (r : RowIn) (i : Nat) : ∃ e, built (rowNode r i) = [e] ∧ e.localName = c!"tr" ∧
    e.findAll c!"tc" = r.cells.map cellElem := by
  refine ⟨((built (rowNode r i)).head?).getD (.new []), by krfl, by krfl, ?_⟩
  have h1 : (((built (rowNode r i)).head?).getD (.new [])).children =
      builtIn (r.cells.flatMap (fun c => [c.node]) ++
        [extNode c!"{0D108BD9-81ED-4DB2-BD59-A6C34878D82A}" c!"a16:rowId" (10000 + i)]) := by krfl
  have h2 : (builtIn [extNode c!"{0D108BD9-81ED-4DB2-BD59-A6C34878D82A}" c!"a16:rowId" (10000 + i)]).filter
      (fun c => c.localName = c!"tc") = [] := by krfl
  unfold XmlElement.findAll
  rw [h1, builtIn_append, List.filter_append, h2, List.append_nil, builtIn_flatMap]
  induction r.cells with
  | nil => rfl
  | cons c l ih =>
    have : (built c.node).filter (fun c => c.localName = c!"tc") = [cellElem c] := by krfl
    rw [List.flatMap_cons, List.filter_append, this, ih]
    rfl

theorem parseTable_node {t : TableIn}
    (h : ∀ r ∈ t.rows, ∀ c ∈ r.cells, c.rowSpan.getD 1 < 4294967296 ∧ c.gridSpan.getD 1 < 4294967296) :
    (built (tableNode t)).filterMap parseTable = if seenTable t = [] then [] else [seenTable t] := by
  have e : ∃ g, built (tableNode t) = [g] ∧ ∃ q1 q2 : XmlElement, q1.localName = c!"tblPr" ∧ q2.localName = c!"tblGrid" ∧
      g.findDescendant c!"tbl" = some (.mk c!"a:tbl" []
        (q1 :: q2 :: builtIn (t.rows.zipIdx.flatMap fun r => [rowNode r.1 r.2]))
        (solidText (t.rows.zipIdx.flatMap fun r => [rowNode r.1 r.2]))) := by
    refine ⟨((built (tableNode t)).head?).getD (.new []), by krfl,
      ((built (E c!"a:tblPr" [(c!"firstRow", c!"1"), (c!"bandRow", c!"1")] [])).head?).getD (.new []),
      ((built (E c!"a:tblGrid" [] (t.columnWidths.zipIdx.flatMap fun w => [columnNode w.1 w.2]))).head?).getD (.new []),
      by krfl, by krfl, by krfl⟩
  obtain ⟨g, hg, q1, q2, hq1, hq2, hf⟩ := e
  have hrows : ∀ (l : List RowIn) (k : Nat), (∀ r ∈ l, ∀ c ∈ r.cells, c.rowSpan.getD 1 < 4294967296 ∧ c.gridSpan.getD 1 < 4294967296) →
      ((builtIn ((l.zipIdx k).flatMap fun r => [rowNode r.1 r.2])).filter fun c => c.localName = c!"tr").map parseRow =
        l.map fun r => r.cells.map seenCell := by
    intro l
    induction l with
    | nil => intro k _; rfl
    | cons r l ih =>
      intro k hk
      obtain ⟨e, e1, e2, e3⟩ := built_row r k
      have hc : (r.cells.map cellElem).map parseCell = r.cells.map seenCell := by
        rw [List.map_map]
        exact List.map_congr_left fun c hc => parseCell_elem (hk r (by simp) c hc)
      have ih := ih (k + 1) fun r' hr' => hk r' (by simp [hr'])
      rw [List.zipIdx_cons, List.flatMap_cons, builtIn_append, List.filter_append, List.map_append, ih]
      have : (builtIn [rowNode r k]).filter (fun c => c.localName = c!"tr") = [e] := by
        rw [builtIn, e1]
        simp [builtIn, e2]
      rw [this]
      simp [parseRow, e3, hc]
  have hr : ((XmlElement.mk c!"a:tbl" [] (q1 :: q2 :: builtIn (t.rows.zipIdx.flatMap fun r => [rowNode r.1 r.2]))
        (solidText (t.rows.zipIdx.flatMap fun r => [rowNode r.1 r.2]))).findAll c!"tr").map parseRow =
      t.rows.map fun r => r.cells.map seenCell := by
    rw [← hrows t.rows 0 h]
    congr 1
    show (q1 :: q2 :: _).filter _ = _
    rw [List.filter_cons, hq1, List.filter_cons, hq2]
    rfl
  rw [hg]
  simp only [List.filterMap_cons, List.filterMap_nil, parseTable, hf, Option.bind_some, hr]
  have hs : (t.rows.map fun r => r.cells.map seenCell).filter (· ≠ []) = seenTable t := rfl
  rw [hs]
  by_cases hn : seenTable t = [] <;> simp [hn]

/-! ### Slides -/

/-- The elements with a name among those of some nodes. -/
def namedIn (n : Str) (ks : List Node) : List XmlElement := (builtIn ks).filter fun c => c.localName = n

theorem namedIn_append (n : Str) (a b : List Node) : namedIn n (a ++ b) = namedIn n a ++ namedIn n b := by
  simp [namedIn, builtIn_append]

/-- The root element of a slide. -/
def slideElem (shapes extra tr : List Node) : XmlElement :=
  ((built (slideNode shapes extra tr)).head?).getD (.new [])

theorem find_spTree (shapes extra tr : List Node) : (slideElem shapes extra tr).findDescendant c!"spTree" =
    some (.mk c!"p:spTree" [] (builtIn (groupNodes ++ shapes ++ extra ++ [nl]))
      (solidText (groupNodes ++ shapes ++ extra ++ [nl]))) := by krfl

theorem parseSlide_node {s : SlideText} {X : List Node} (h : s.Safe) (hx : ReadsAs (fmt s.extra) X) :
    parseSlide s.xml = some { (namedIn c!"sp" s.shapeNodes ++ namedIn c!"sp" X).foldl addShape {} with
      tables := (namedIn c!"graphicFrame" s.shapeNodes ++ namedIn c!"graphicFrame" X).filterMap parseTable } := by
  have h1 : XmlElement.parse s.xml = some (slideElem s.shapeNodes X s.transition.nodes) :=
    parse_elem (document_slide h hx)
  unfold parseSlide
  rw [h1, Option.map_some]
  refine congrArg some ?_
  have f : ∀ n, n = c!"sp" ∨ n = c!"graphicFrame" → (XmlElement.mk c!"p:spTree" []
      (builtIn (groupNodes ++ s.shapeNodes ++ X ++ [nl])) (solidText (groupNodes ++ s.shapeNodes ++ X ++ [nl]))).findAll n =
      namedIn n s.shapeNodes ++ namedIn n X := by
    intro n hn
    show namedIn n (groupNodes ++ s.shapeNodes ++ X ++ [nl]) = _
    rw [namedIn_append, namedIn_append, namedIn_append]
    have g1 : namedIn n groupNodes = [] := by rcases hn with rfl | rfl <;> krfl
    have g2 : namedIn n [nl] = [] := rfl
    rw [g1, g2]
    simp
  rw [find_spTree, Option.map_some, Option.getD_some]
  unfold parseTree
  rw [f _ (.inl rfl), f _ (.inr rfl)]

theorem namedIn_box (id name : Str) (x y cx cy : Nat) (as : List (Str × Str)) (ks : List Node) :
    namedIn c!"sp" [nl, boxNode id name x y cx cy as ks] = [boxElem id name x y cx cy as ks] ∧
    namedIn c!"graphicFrame" [nl, boxNode id name x y cx cy as ks] = [] := ⟨by krfl, by krfl⟩

theorem namedIn_table (t : TableIn) :
    namedIn c!"sp" [nl, tableNode t] = [] ∧ namedIn c!"graphicFrame" [nl, tableNode t] = built (tableNode t) :=
  ⟨by krfl, by krfl⟩

theorem addShape_seenTitle {s : SlideText} (h : SmallNumbers s) {size : Nat} (hs : size < 40000000) (bold : Bool)
    (al : Str) {x y cx cy : Nat}
    (hx : x < 9223372036854775808) (hy : y < 9223372036854775808) (hcx : cx < 9223372036854775808)
    (hcy : cy < 9223372036854775808) :
    (namedIn c!"sp" [nl, titleNode s.title (s.titleProps size bold) x y cx cy al]).foldl addShape {} =
      { title := some (visible s.title), shapes := [seenTitleBox s size bold x y cx cy] } := by
  unfold titleNode
  rw [(namedIn_box _ _ _ _ _ _ _ _).1, List.foldl_cons, List.foldl_nil, addShape_title _ _ _ _ hx hy hcx hcy,
    parasIn_title h hs, text_title]
  rfl

theorem addShape_seenBox {s : SlideText} (h : SmallNumbers s) {size : Nat} (hs : size < 40000000) (r : ParsedSlide)
    {name : Str} (id : Str) {x y cx cy : Nat} {l : List BulletPoint} (hl : ∀ b ∈ l, b ∈ s.effective)
    (hn : name = c!"Content" ∨ name = c!"Left Content" ∨ name = c!"Right Content")
    (hx : x < 9223372036854775808) (hy : y < 9223372036854775808) (hcx : cx < 9223372036854775808)
    (hcy : cy < 9223372036854775808) :
    (namedIn c!"sp" [nl, boxNode id name x y cx cy [] (paraNodes (s.contentProps size) l)]).foldl addShape r =
      { r with bodyText := r.bodyText ++ (l.map (·.text)).filter (fun t => ¬ BlankText t)
               shapes := r.shapes ++ [seenBox s name size x y cx cy l] } := by
  rw [(namedIn_box _ _ _ _ _ _ _ _).1, List.foldl_cons, List.foldl_nil, addShape_body _ _ _ _ hn hx hy hcx hcy,
    parasIn_bullets h hs hl, texts_bullets]
  rfl

theorem asked_texts (s : SlideText) : (bulletsAsked s).map (·.text) = s.texts := by
  rw [← effective_asked, effective_texts]

theorem fold_shapes {s : SlideText} (h : SmallNumbers s) :
    (namedIn c!"sp" s.shapeNodes).foldl addShape {} = { seenSlide s with tables := [] } := by
  have ef : ∀ b ∈ bulletsAsked s, b ∈ s.effective := by rw [effective_asked]; exact fun b hb => hb
  have hone : ∀ (r : ParsedSlide) (y cy : Nat), y < 9223372036854775808 → cy < 9223372036854775808 →
      (namedIn c!"sp" (oneColumnNodes y cy (s.contentProps 28) s.effective)).foldl addShape r =
      { r with bodyText := r.bodyText ++ s.texts.filter (fun t => ¬ BlankText t)
               shapes := r.shapes ++ (if bulletsAsked s = [] then [] else
                [seenBox s c!"Content" 28 457200 y 8230200 cy (bulletsAsked s)]) } := by
    intro r y cy hy hcy
    unfold oneColumnNodes
    rw [effective_asked]
    by_cases hb : bulletsAsked s = []
    · rw [if_neg (by simp [hb]), if_pos hb, ← asked_texts, hb]
      simp [namedIn, builtIn]
    · rw [if_pos hb, if_neg hb, addShape_seenBox h (by omega) r _ ef (.inl rfl) (by omega) hy (by omega) hcy, asked_texts]
  unfold SlideText.shapeNodes seenSlide seenShapes showsBullets
  cases hl : s.layout with
  | blank => simp [namedIn, builtIn]
  | titleOnly =>
    simp only
    rw [addShape_seenTitle h (by omega) _ _ (by omega) (by omega) (by omega) (by omega)]
    simp
  | sectionHeader =>
    simp only
    rw [addShape_seenTitle h (by omega) _ _ (by omega) (by omega) (by omega) (by omega)]
    simp
  | centeredTitle =>
    simp only
    rw [addShape_seenTitle h (by omega) _ _ (by omega) (by omega) (by omega) (by omega)]
    simp
  | titleAndBigContent =>
    simp only
    rw [namedIn_append, List.foldl_append,
      addShape_seenTitle h (by omega) _ _ (by omega) (by omega) (by omega) (by omega),
      hone _ _ _ (by omega) (by omega)]
    simp
  | titleAndContent =>
    simp only
    rw [namedIn_append, List.foldl_append,
      addShape_seenTitle h (by omega) _ _ (by omega) (by omega) (by omega) (by omega)]
    cases ht : s.table with
    | some t =>
      simp only [Option.isSome_some, if_true, Option.toList_some, List.flatMap_cons, List.flatMap_nil, List.append_nil]
      rw [(namedIn_table t).1]
      simp
    | none =>
      simp only [Option.isSome_none, Bool.false_eq_true, if_false]
      rw [hone _ _ _ (by omega) (by omega)]
      simp
  | twoColumn =>
    simp only
    rw [namedIn_append, List.foldl_append,
      addShape_seenTitle h (by omega) _ _ (by omega) (by omega) (by omega) (by omega)]
    unfold twoColumnNodes
    rw [effective_asked]
    have htake : ∀ b ∈ (bulletsAsked s).take (((bulletsAsked s).length + 1) / 2), b ∈ s.effective :=
      fun b hb => ef b (List.mem_of_mem_take hb)
    have hdrop : ∀ b ∈ (bulletsAsked s).drop (((bulletsAsked s).length + 1) / 2), b ∈ s.effective :=
      fun b hb => ef b (List.mem_of_mem_drop hb)
    by_cases h1 : 0 < (bulletsAsked s).length
    · rw [if_pos h1, namedIn_append, List.foldl_append,
        addShape_seenBox h (by omega) _ _ htake (.inr (.inl rfl)) (by omega) (by omega) (by omega) (by omega)]
      by_cases h2 : ((bulletsAsked s).length + 1) / 2 < (bulletsAsked s).length
      · rw [if_pos h2, addShape_seenBox h (by omega) _ _ hdrop (.inr (.inr rfl)) (by omega) (by omega) (by omega) (by omega)]
        rw [if_pos (by omega : 1 ≤ (bulletsAsked s).length), if_pos (by omega : 2 ≤ (bulletsAsked s).length)]
        have := asked_texts s
        simp only [List.nil_append, ← List.filter_append, ← List.map_append, List.take_append_drop, this]
        simp
      · rw [if_neg h2, if_pos (by omega : 1 ≤ (bulletsAsked s).length), if_neg (by omega : ¬ 2 ≤ (bulletsAsked s).length)]
        rw [List.take_of_length_le (by omega), asked_texts]
        simp [namedIn, builtIn]
    · rw [if_neg h1]
      have : bulletsAsked s = [] := List.eq_nil_of_length_eq_zero (by omega)
      rw [← asked_texts, this]
      simp [namedIn, builtIn]

theorem tables_shapes {s : SlideText} (h : SmallNumbers s) :
    (namedIn c!"graphicFrame" s.shapeNodes).filterMap parseTable = seenTables s := by
  have ht : ∀ (t : Str) (p : TextProps) (x y cx cy : Nat) (al : Str),
      namedIn c!"graphicFrame" [nl, titleNode t p x y cx cy al] = [] := fun t p x y cx cy al => (namedIn_box _ _ _ _ _ _ _ _).2
  have hone : ∀ (y cy : Nat) (d : TextProps) (l : List BulletPoint),
      namedIn c!"graphicFrame" (oneColumnNodes y cy d l) = [] := by
    intro y cy d l
    unfold oneColumnNodes
    split
    · exact (namedIn_box _ _ _ _ _ _ _ _).2
    · rfl
  unfold SlideText.shapeNodes seenTables
  cases hl : s.layout with
  | blank => rfl
  | titleOnly => simp [ht]
  | sectionHeader => simp [ht]
  | centeredTitle => simp [ht]
  | titleAndBigContent => simp only [namedIn_append, ht, hone]; rfl
  | twoColumn =>
    have : namedIn c!"graphicFrame" (twoColumnNodes (s.contentProps 24) s.effective) = [] := by
      unfold twoColumnNodes
      split
      · rw [namedIn_append, (namedIn_box _ _ _ _ _ _ _ _).2]
        split
        · rw [(namedIn_box _ _ _ _ _ _ _ _).2]; rfl
        · rfl
      · rfl
    simp only [namedIn_append, ht, this]
    rfl
  | titleAndContent =>
    simp only [namedIn_append, ht, List.nil_append]
    cases hs : s.table with
    | none => simp [hone]
    | some t =>
      simp only [Option.isSome_some, if_true, Option.toList_some, List.flatMap_cons, List.flatMap_nil, List.append_nil]
      rw [(namedIn_table t).2, parseTable_node (h.cells t hs)]
      by_cases hn : seenTable t = [] <;> simp [hn]

end PptRs
