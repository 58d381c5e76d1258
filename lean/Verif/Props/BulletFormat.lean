import Verif.Props.SlideText
import Verif.Spec.Bullets

/-!
# C85: the format of bullets
-/

namespace PptRs.Props
open PptRs PptRs.Spec

theorem trimStartChar_eq (c : Char) (s : Str) : trimStartChar c s = s.dropWhile (· = c) := by
  induction s with
  | nil => rfl
  | cons x s ih =>
    rw [trimStartChar, List.dropWhile_cons]
    by_cases h : x = c <;> simp [h, ih]

theorem cleanColor_eq (c : Str) : cleanColor c = plainColor c := by
  rw [cleanColor, plainColor, trimStartChar_eq]

theorem plainColor_twice (c : Str) : plainColor (plainColor c) = plainColor c := by
  have hup : ∀ d : Char, d.toUpper.toUpper = d.toUpper := by
    intro d
    unfold Char.toUpper
    by_cases h : d.val ≥ 97 ∧ d.val ≤ 122
    · have h' : d.val ≥ 'a'.val ∧ d.val ≤ 'z'.val := h
      simp only [h', and_self, dite_true]
      obtain ⟨h1, h2⟩ := h'
      have e1 : 97 ≤ d.val.toNat := by simpa [UInt32.le_iff_toNat_le] using h1
      have e2 : d.val.toNat ≤ 122 := by simpa [UInt32.le_iff_toNat_le] using h2
      rw [dif_neg]
      rintro ⟨h3, _⟩
      have h3 : 97 ≤ (d.val + ('A'.val - 'a'.val)).toNat := by simpa [UInt32.le_iff_toNat_le] using h3
      simp only [UInt32.toNat_add] at h3
      have e3 : (Char.val 'A' - Char.val 'a').toNat = 4294967264 := by decide
      rw [e3] at h3
      omega
    · have h' : ¬ (d.val ≥ 'a'.val ∧ d.val ≤ 'z'.val) := h
      simp only [h', dite_false]
  unfold plainColor
  have hd : ((c.dropWhile (· = '#')).map Char.toUpper).dropWhile (· = '#') = (c.dropWhile (· = '#')).map Char.toUpper := by
    cases hc : c.dropWhile (· = '#') with
    | nil => rfl
    | cons x r =>
      have hx : x ≠ '#' := by
        have := List.head?_dropWhile_not (fun d : Char => decide (d = '#')) c
        rw [hc] at this
        simpa using this
      have : x.toUpper ≠ '#' := fun e => hx (toUpper_special (by decide) e)
      simp [this]
  rw [hd, List.map_map]
  exact List.map_congr_left fun d _ => hup d

/-- Elements of the names asked for in run properties. -/
theorem elems_kids (q : TextProps) :
    elemsL c!"a:pPr" q.kids = [] ∧ elemsL c!"a:buChar" q.kids = [] ∧ elemsL c!"a:buAutoNum" q.kids = [] ∧
    elemsL c!"a:buNone" q.kids = [] ∧ elemsL c!"a:p" q.kids = [] ∧
    (elemsL c!"a:solidFill" q.kids).head?.bind (firstAttr c!"a:srgbClr" c!"val") = q.color.map cleanColor ∧
    (elemsL c!"a:highlight" q.kids).head?.bind (firstAttr c!"a:srgbClr" c!"val") = q.highlight.map cleanColor ∧
    (elemsL c!"a:latin" q.kids).head?.bind (attrOf c!"typeface") = q.fontFamily := by
  obtain ⟨_, _, _, _, _, _, _, color, highlight, font⟩ := q
  cases color <;> cases highlight <;> cases font <;> exact ⟨rfl, rfl, rfl, rfl, rfl, rfl, rfl, rfl⟩

/-- Searching a written paragraph. -/
theorem elems_para (n : Str) (hn : n ≠ c!"a:p" ∧ n ≠ c!"a:r" ∧ n ≠ c!"a:t" ∧ n ≠ c!"a:pPr" ∧ n ≠ c!"a:rPr") (d : TextProps) (b : BulletPoint) :
    elems n (paraNode d b) = elems n b.style.node ++ elemsL n (bulletProps d b.format).kids := by
  obtain ⟨h1, h2, h3, h4, h5⟩ := hn
  have e : ∀ (m : Str) as ks, m ≠ n → elems n (E m as ks) = elemsL n ks := by
    intro m as ks h
    show elems n (.elem m as ks) = _
    rw [elems, if_neg h]
  have et : ∀ t, elems n (.text t) = [] := fun t => by rw [elems]
  have ec : ∀ k ks, elemsL n (k :: ks) = elems n k ++ elemsL n ks := fun k ks => by rw [elemsL]
  have en : elemsL n [] = [] := by rw [elemsL]
  unfold paraNode runNode TextProps.node
  simp only [lines, nl, e _ _ _ (Ne.symm h1), e _ _ _ (Ne.symm h2), e _ _ _ (Ne.symm h3), e _ _ _ (Ne.symm h4),
    e _ _ _ (Ne.symm h5), et, ec, en, elemsL_addText, List.nil_append, List.append_nil]

/-- The attributes of a paragraph. -/
def pprNode (b : BulletPoint) : Node :=
  E c!"a:pPr" [(c!"lvl", dec b.level), (c!"marL", dec (b.level * 457200 + b.indent)), (c!"indent", c!"-" ++ dec b.indent)]
      (lines [b.style.node])

theorem elems_ppr (d : TextProps) (b : BulletPoint) : elems c!"a:pPr" (paraNode d b) = [pprNode b] := by
  have h1 : elems c!"a:pPr" (paraNode d b) = [pprNode b] ++
      ((elemsL c!"a:pPr" (bulletProps d b.format).kids ++ (elemsL c!"a:pPr" (addText [] b.text) ++ [])) ++ []) := by krfl
  rw [h1, (elems_kids _).1, elemsL_addText]
  rfl

theorem elems_rpr (d : TextProps) (b : BulletPoint) : elems c!"a:rPr" (paraNode d b) = [(bulletProps d b.format).node] := by
  have h1 : elems c!"a:rPr" (paraNode d b) = (elems c!"a:rPr" b.style.node ++ []) ++
      (([(bulletProps d b.format).node] ++ (elemsL c!"a:rPr" (addText [] b.text) ++ [])) ++ []) := by krfl
  have h2 : elems c!"a:rPr" b.style.node = [] := by cases b.style <;> rfl
  rw [h1, h2, elemsL_addText]
  rfl

theorem firstAttr_style (d : TextProps) (b : BulletPoint) :
    firstAttr c!"a:buChar" c!"char" (paraNode d b) = bulletChar b.style ∧
    firstAttr c!"a:buAutoNum" c!"type" (paraNode d b) = numbering b.style ∧
    (!(elems c!"a:buNone" (paraNode d b)).isEmpty) = decide (b.style = .none) := by
  obtain ⟨_, h1, h2, h3, _⟩ := elems_kids (bulletProps d b.format)
  unfold firstAttr
  rw [elems_para _ (by decide), elems_para _ (by decide), elems_para _ (by decide), h1, h2, h3]
  cases b.style <;> exact ⟨rfl, rfl, rfl⟩

theorem attrs_node (q : TextProps) :
    attrOf c!"sz" q.node = some (dec q.size) ∧ attrOf c!"b" q.node = some (onOff q.bold) ∧
    attrOf c!"i" q.node = some (onOff q.italic) ∧ attrOf c!"u" q.node = (if q.underline then some c!"sng" else none) ∧
    attrOf c!"strike" q.node = (if q.strikethrough then some c!"sngStrike" else none) ∧
    attrOf c!"baseline" q.node = (if q.subscript then some c!"-25000" else if q.superscript then some c!"30000" else none) := by
  obtain ⟨_, _, _, u, s, sub, sup, _, _, _⟩ := q
  refine ⟨rfl, rfl, rfl, ?_, ?_, ?_⟩
  · cases u <;> cases s <;> cases sub <;> cases sup <;> rfl
  · cases u <;> cases s <;> cases sub <;> cases sup <;> rfl
  · cases u <;> cases s <;> cases sub <;> cases sup <;> rfl

theorem readBullet_para (s : SlideText) (size : Nat) (b : BulletPoint) :
    readBullet (paraNode (s.contentProps size) b) = look s size b := by
  obtain ⟨t1, t2, t3⟩ := firstAttr_style (s.contentProps size) b
  obtain ⟨k1, k2, k3, k4, k5, k6⟩ := attrs_node (bulletProps (s.contentProps size) b.format)
  obtain ⟨_, _, _, _, _, c1, c2, c3⟩ := elems_kids (bulletProps (s.contentProps size) b.format)
  have hs1 : ∀ n : Str, n = c!"a:solidFill" ∨ n = c!"a:highlight" ∨ n = c!"a:latin" → elems n b.style.node = [] := by
    rintro n (rfl | rfl | rfl) <;> cases b.style <;> rfl
  have r1 : firstColor c!"a:solidFill" (paraNode (s.contentProps size) b) = (bulletProps (s.contentProps size) b.format).color.map cleanColor := by
    rw [firstColor, elems_para _ (by decide), hs1 _ (.inl rfl), List.nil_append, c1]
  have r2 : firstColor c!"a:highlight" (paraNode (s.contentProps size) b) = (bulletProps (s.contentProps size) b.format).highlight.map cleanColor := by
    rw [firstColor, elems_para _ (by decide), hs1 _ (.inr (.inl rfl)), List.nil_append, c2]
  have r3 : firstAttr c!"a:latin" c!"typeface" (paraNode (s.contentProps size) b) = (bulletProps (s.contentProps size) b.format).fontFamily := by
    rw [firstAttr, elems_para _ (by decide), hs1 _ (.inr (.inr rfl)), List.nil_append, c3]
  have p : ∀ k, firstAttr c!"a:pPr" k (paraNode (s.contentProps size) b) = attrOf k (pprNode b) := by
    intro k; rw [firstAttr, elems_ppr]; rfl
  have q : ∀ k, firstAttr c!"a:rPr" k (paraNode (s.contentProps size) b) = attrOf k (bulletProps (s.contentProps size) b.format).node := by
    intro k; rw [firstAttr, elems_rpr]; rfl
  have p1 : attrOf c!"lvl" (pprNode b) = some (dec b.level) := rfl
  have p2 : attrOf c!"marL" (pprNode b) = some (dec (457200 * (2 * b.level + 1))) := by
    show some (dec (b.level * 457200 + b.indent)) = _
    rw [show b.level * 457200 + b.indent = 457200 * (2 * b.level + 1) by unfold BulletPoint.indent; omega]
  have p3 : attrOf c!"indent" (pprNode b) = some (c!"-" ++ dec (457200 * (b.level + 1))) := by
    show some (c!"-" ++ dec b.indent) = _
    rw [show b.indent = 457200 * (b.level + 1) by unfold BulletPoint.indent; omega]
  unfold readBullet
  rw [runs_para, t1, t2, t3, r1, r2, r3]
  simp only [p, q, p1, p2, p3, k1, k2, k3, k4, k5, k6]
  cases hf : b.format with
  | none =>
    simp only [bulletProps, Option.map_none, Option.getD_none, look, hf, SlideText.contentProps, TextProps.withBasic,
      Bool.false_or, Option.none_or, Option.map_map]
    congr 1
    · rw [Nat.mul_comm]
    · cases s.contentColor <;> simp [cleanColor_eq, plainColor_twice]
  | some f =>
    simp only [bulletProps, Option.map_some, Option.getD_some, mergeProps, look, hf, SlideText.contentProps, TextProps.withBasic,
      Bool.or_false, Option.or_none]
    congr 1
    · cases f.fontSize <;> simp [Nat.mul_comm]
    · cases f.color <;> cases s.contentColor <;> simp [cleanColor_eq, plainColor_twice]
    · cases f.highlight <;> simp [cleanColor_eq]

theorem bulletsOf_append (a b : List Node) : bulletsOf (a ++ b) = bulletsOf a ++ bulletsOf b := by
  simp [bulletsOf, elemsL_append]

theorem bulletsOf_slide (sh x : List Node) (t : Transition) :
    bulletsOf [slideNode sh x t.nodes] = bulletsOf sh ++ bulletsOf x := by
  have ht : elemsL c!"a:p" t.nodes = [] := by cases t <;> rfl
  have : elemsL c!"a:p" [slideNode sh x t.nodes]
      = (((elemsL c!"a:p" (sh ++ x ++ [nl]) ++ []) ++ elemsL c!"a:p" t.nodes)) ++ [] := by krfl
  unfold bulletsOf
  rw [this]
  simp [ht, elemsL_append, elemsL, elems, nl]

theorem bulletsOf_title (t : Str) (p : TextProps) (x y cx cy : Nat) (al : Str) :
    bulletsOf [nl, titleNode t p x y cx cy al] = [] := by
  have h : elemsL c!"a:p" [nl, titleNode t p x y cx cy al] =
      [E c!"a:p" [] (lines [E c!"a:pPr" [(c!"algn", al)] [], runNode p t])] := by krfl
  have h2 : (readBullet (E c!"a:p" [] (lines [E c!"a:pPr" [(c!"algn", al)] [], runNode p t]))).level = none := by krfl
  unfold bulletsOf
  rw [h]
  simp [h2]

theorem bulletsOf_box (id name : Str) (x y cx cy : Nat) (as : List (Str × Str)) (ks : List Node) :
    bulletsOf [nl, boxNode id name x y cx cy as ks] = bulletsOf ks := by
  have h : elemsL c!"a:p" [nl, boxNode id name x y cx cy as ks] = ((elemsL c!"a:p" (ks ++ [nl]) ++ []) ++ []) := by krfl
  have h2 : elemsL c!"a:p" [nl] = [] := rfl
  unfold bulletsOf
  rw [h, elemsL_append, h2]
  simp

theorem bulletsOf_paras (s : SlideText) (size : Nat) (l : List BulletPoint) :
    bulletsOf (paraNodes (s.contentProps size) l) = l.map (look s size) := by
  induction l with
  | nil => rfl
  | cons b l ih =>
    have e : paraNodes (s.contentProps size) (b :: l) = [nl, paraNode (s.contentProps size) b] ++ paraNodes (s.contentProps size) l := by
      simp [paraNodes]
    have h : elemsL c!"a:p" [nl, paraNode (s.contentProps size) b] = [paraNode (s.contentProps size) b] := by krfl
    have h2 : (look s size b).level.isSome = true := rfl
    have h3 : bulletsOf [nl, paraNode (s.contentProps size) b] = [look s size b] := by
      unfold bulletsOf
      rw [h, List.map_singleton, readBullet_para]
      simp [h2]
    rw [e, bulletsOf_append, ih, h3]
    rfl

/-- The text size of the content area of a layout. -/
def contentSizeOf (l : SlideLayout) : Nat := if l = .twoColumn then 24 else 28

theorem bulletsOf_shapes (s : SlideText) (hl : (s.layout = .titleAndContent ∧ s.table = none) ∨ s.layout = .titleAndBigContent ∨
      s.layout = .twoColumn) :
    bulletsOf s.shapeNodes = s.effective.map (look s (contentSizeOf s.layout)) := by
  have hone : ∀ y cy, bulletsOf (oneColumnNodes y cy (s.contentProps 28) s.effective) = s.effective.map (look s 28) := by
    intro y cy
    unfold oneColumnNodes
    split
    · rw [bulletsOf_box, bulletsOf_paras]
    · rename_i h
      simp only [ne_eq, Decidable.not_not] at h
      rw [h]; rfl
  rcases hl with ⟨hl, ht⟩ | hl | hl
  · simp only [SlideText.shapeNodes, hl, ht, bulletsOf_append, bulletsOf_title, List.nil_append]
    exact hone _ _
  · simp only [SlideText.shapeNodes, hl, bulletsOf_append, bulletsOf_title, List.nil_append]
    exact hone _ _
  · simp only [SlideText.shapeNodes, hl, bulletsOf_append, bulletsOf_title, List.nil_append]
    show _ = s.effective.map (look s 24)
    unfold twoColumnNodes
    split
    · rw [bulletsOf_append, bulletsOf_box, bulletsOf_paras]
      split
      · rw [bulletsOf_box, bulletsOf_paras, ← List.map_append, List.take_append_drop]
      · rw [List.take_of_length_le (by omega)]
        exact List.append_nil _
    · have : s.effective = [] := List.eq_nil_of_length_eq_zero (by omega)
      rw [this]; rfl

/-- **C85** (partial: no markup in colours, fonts and bullet characters; a layout with a content area and no table). Every
bullet point is read back with its level, margins, bullet mark, size and text format. -/
theorem C85_bullet_format_partial {s : SlideText} {X : List Node} (h : s.Safe) (hx : ReadsAs (fmt s.extra) X)
    (hb : s.bullets ≠ [])
    (hl : (s.layout = .titleAndContent ∧ s.table = none) ∨ s.layout = .titleAndBigContent ∨ s.layout = .twoColumn) :
    ∃ doc, document s.xml = some doc ∧
      bulletsOf doc = s.bullets.map (look s (if s.layout = .twoColumn then 24 else 28)) ++ bulletsOf X := by
  refine ⟨_, document_slide h hx, ?_⟩
  rw [bulletsOf_slide, bulletsOf_shapes s hl]
  simp [SlideText.effective, hb, contentSizeOf]

/-- Plain lines look like bullets of the slide's style on the first level. -/
theorem C85_plain_lines_partial {s : SlideText} {X : List Node} (h : s.Safe) (hx : ReadsAs (fmt s.extra) X)
    (hb : s.bullets = [])
    (hl : (s.layout = .titleAndContent ∧ s.table = none) ∨ s.layout = .titleAndBigContent ∨ s.layout = .twoColumn) :
    ∃ doc, document s.xml = some doc ∧
      bulletsOf doc = (s.content.map fun t => look s (if s.layout = .twoColumn then 24 else 28)
        { text := t, style := s.bulletStyle }) ++ bulletsOf X := by
  refine ⟨_, document_slide h hx, ?_⟩
  rw [bulletsOf_slide, bulletsOf_shapes s hl]
  simp [SlideText.effective, hb, contentSizeOf]

theorem bullets_ops (ops : List BulletOp) (s : SlideText) :
    (ops.foldl BulletOp.run s).bullets = s.bullets ++ ops.map (fun op =>
      { text := op.text, level := addedLevel op, style := addedStyle s.bulletStyle op }) ∧
    (ops.foldl BulletOp.run s).bulletStyle = s.bulletStyle := by
  induction ops generalizing s with
  | nil => simp
  | cons op ops ih =>
    have h1 : (op.run s).bullets = s.bullets ++ [{ text := op.text, level := addedLevel op, style := addedStyle s.bulletStyle op }] := by
      cases op <;> rfl
    have h2 : (op.run s).bulletStyle = s.bulletStyle := by cases op <;> rfl
    obtain ⟨h3, h4⟩ := ih (op.run s)
    rw [List.foldl_cons, h3, h4, h1, h2]
    simp

/-- **C65** (partial, as `C65_bullets_written_once_partial`): sub-bullets are on the second level and everything else on the
first, and each bullet has the mark asked for when it was added. -/
theorem C65_levels_partial {s : SlideText} {ops : List BulletOp} {X : List Node} (h : s.Safe) (ho : ∀ op ∈ ops, op.Safe)
    (hb : s.bullets = []) (hne : ops ≠ []) (hx : ReadsAs (fmt s.extra) X)
    (hl : (s.layout = .titleAndContent ∧ s.table = none) ∨ s.layout = .titleAndBigContent ∨ s.layout = .twoColumn) :
    ∃ doc, document (ops.foldl BulletOp.run s).xml = some doc ∧
      ((bulletsOf doc).map fun b => (b.text, b.level, b.char, b.number)) =
        (ops.map fun op => ([op.text], some (dec (addedLevel op)), bulletChar (addedStyle s.bulletStyle op),
          numbering (addedStyle s.bulletStyle op))) ++ (bulletsOf X).map fun b => (b.text, b.level, b.char, b.number) := by
  obtain ⟨e1, e2, e3, _⟩ := layout_ops ops s
  obtain ⟨b1, _⟩ := bullets_ops ops s
  obtain ⟨doc, h1, h2⟩ := C85_bullet_format_partial (safe_ops ops h ho) (e3 ▸ hx) (by rw [b1]; simp [hne])
    (by rw [e1, e2]; exact hl)
  refine ⟨doc, h1, ?_⟩
  rw [h2, b1, hb]
  simp [look, Function.comp_def]

/-- A level outside the nine that ECMA-376 knows (0 to 8, 20.1.10.71) is written as it is. -/
theorem C85_level_violated (n : Nat) :
    ∃ doc, document ({ SlideText.new c!"T" with bullets := [{ text := c!"x", level := n }] }).xml = some doc ∧
      (bulletsOf doc).map (·.level) = [some (dec n)] := by
  have hx : ReadsAs (fmt ([] : List Part)) [] := by
    intro top st
    simp [fmt, steps]
  obtain ⟨doc, h1, h2⟩ := C85_bullet_format_partial
    (s := { SlideText.new c!"T" with bullets := [{ text := c!"x", level := n }] }) (X := [])
    ⟨by simp [SlideText.new], by simp [SlideText.new], by simp [SlideText.new, BulletStyle.Safe], by
      intro b hb
      rw [List.mem_singleton] at hb
      subst hb
      exact ⟨by simp [BulletStyle.Safe], by simp⟩, by simp [SlideText.new]⟩ hx (by simp) (.inl ⟨rfl, rfl⟩)
  exact ⟨doc, h1, by rw [h2]; rfl⟩

example : (document ([BulletOp.plain c!"a", .sub c!"b", .styled c!"c" .romanLower].foldl BulletOp.run
      (SlideText.new c!"T")).xml).map (fun d => (bulletsOf d).map fun b => (b.level, b.number)) =
    some [(some c!"0", none), (some c!"1", none), (some c!"0", some c!"romanLcPeriod")] := by krfl

example : (document ({ SlideText.new c!"T" with contentColor := some c!"#00ff00", bullets :=
      [{ text := c!"x", level := 2, style := .custom '→',
         format := some { bold := true, superscript := true, highlight := some c!"yellow", fontSize := some 12 } }] }).xml).map bulletsOf =
    some [⟨[c!"x"], some c!"2", some c!"2286000", some c!"-1371600", some c!"→", none, false, some c!"1200", some c!"1",
      some c!"0", none, none, some c!"30000", some c!"00FF00", some c!"YELLOW", none⟩] := by krfl

end PptRs.Props
