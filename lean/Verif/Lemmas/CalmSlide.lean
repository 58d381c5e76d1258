import Verif.Lemmas.Minify
import Verif.Lemmas.SlideText

/-!
# Quotes in written slides

The places of `zsteps` for the templates of slides: quotes surround attribute values and nothing else.
-/

namespace PptRs

open PptRs.Spec

/-- `ps` leads from one place to another. -/
def Calm (ps : List Part) (z z' : Zone) : Prop := zsteps z (fmt ps) = some z'

theorem zsteps_append (z : Zone) (a b : Str) : zsteps z (a ++ b) = (zsteps z a).bind fun z' => zsteps z' b := by
  induction a generalizing z with
  | nil => rfl
  | cons c a ih =>
    simp only [List.cons_append, zsteps]
    cases zstep z c with
    | none => rfl
    | some z' => exact ih z'

theorem Calm.append {a b : List Part} {z z1 z2 : Zone} (h1 : Calm a z z1) (h2 : Calm b z1 z2) : Calm (a ++ b) z z2 := by
  unfold Calm
  rw [fmt_append, zsteps_append, h1]
  exact h2

theorem calm_nil (z : Zone) : Calm [] z z := rfl

theorem calm_flatMap {α : Type} {f : α → List Part} {l : List α} {z : Zone} (h : ∀ a ∈ l, Calm (f a) z z) :
    Calm (l.flatMap f) z z := by
  induction l with
  | nil => exact calm_nil z
  | cons a l ih =>
    rw [List.flatMap_cons]
    exact (h a (by simp)).append (ih fun b hb => h b (by simp [hb]))

theorem calm_whenSome {α : Type} {o : Option α} {f : α → List Part} {z : Zone} (h : ∀ a ∈ o, Calm (f a) z z) :
    Calm (whenSome o f) z z := calm_flatMap (by simpa using h)

theorem calm_whenSet {b : Bool} {ps : List Part} {z : Zone} (h : Calm ps z z) : Calm (whenSet b ps) z z := by
  cases b
  · exact calm_nil z
  · exact h

/-- An argument stays in a text or in a value. -/
def zhole : Zone → Option Zone
  | .text => some .text
  | .val => some .val
  | _ => none

/-- The places of a template. -/
def zparts (z : Zone) : List Part → Option Zone
  | [] => some z
  | .lit s :: ps => (zsteps z s).bind fun z' => zparts z' ps
  | .esc _ :: ps => (zhole z).bind fun z' => zparts z' ps
  | .raw _ :: ps => (zhole z).bind fun z' => zparts z' ps

theorem zsteps_hole {z z' : Zone} {s : Str} (h1 : '<' ∉ s) (h2 : '"' ∉ s) (h : zhole z = some z') :
    zsteps z s = some z' := by
  cases z <;> simp only [zhole, Option.some.injEq, reduceCtorEq] at h <;> subst h
  all_goals
    induction s with
    | nil => rfl
    | cons c s ih =>
      have hc : c ≠ '<' ∧ c ≠ '"' := ⟨fun e => h1 (by simp [e]), fun e => h2 (by simp [e])⟩
      simp only [zsteps, zstep, hc.1, hc.2, if_false, Option.bind_some]
      exact ih (fun e => h1 (by simp [e])) (fun e => h2 (by simp [e]))

theorem calmLit {ps : List Part} {z z' : Zone} (hok : ∀ p ∈ ps, p.Ok) (h : zparts z ps = some z') : Calm ps z z' := by
  induction ps generalizing z with
  | nil => exact h
  | cons p ps ih =>
    have hp := hok p (by simp)
    have ih' := fun {z : Zone} => ih (z := z) (fun q hq => hok q (by simp [hq]))
    unfold Calm
    cases p with
    | lit s =>
      simp only [zparts, Option.bind_eq_some_iff] at h
      obtain ⟨z1, h1, h2⟩ := h
      have : fmt (Part.lit s :: ps) = s ++ fmt ps := by simp [fmt, Part.render]
      rw [this, zsteps_append, h1]
      exact ih' h2
    | esc s =>
      simp only [zparts, Option.bind_eq_some_iff] at h
      obtain ⟨z1, h1, h2⟩ := h
      have : fmt (Part.esc s :: ps) = escapeXml s ++ fmt ps := by simp [fmt, Part.render]
      have hm := fun d : Char => mem_escapeXml (s := s) (d := d)
      rw [this, zsteps_append, zsteps_hole (fun hh => (hm _ hh).1 rfl) (fun hh => (hm _ hh).2.2.1 rfl) h1]
      exact ih' h2
    | raw s =>
      simp only [zparts, Option.bind_eq_some_iff] at h
      obtain ⟨z1, h1, h2⟩ := h
      have : fmt (Part.raw s :: ps) = s ++ fmt ps := by simp [fmt, Part.render]
      rw [this, zsteps_append, zsteps_hole hp.2.1 hp.2.2 h1]
      exact ih' h2

/-! ### Text properties and bullets -/

theorem calm_color {c : Str} (h : Plain c) :
    Calm t!"<a:solidFill><a:srgbClr val=\"{.raw (cleanColor c)}\"/></a:solidFill>" .text .text :=
  calmLit (by parts_ok; exact plain_cleanColor h) (by krfl)

theorem calm_props {p : TextProps} (h : p.Safe) : Calm p.toXml .text .text := by
  refine ((((((((calmLit ?_ (by krfl)).append (calm_whenSet (z := .tag) (calmLit ?_ (by krfl)))).append
    (calm_whenSet (calmLit ?_ (by krfl)))).append (calm_whenSet (calmLit ?_ (by krfl)))).append
    (calm_whenSet (calmLit ?_ (by krfl)))).append (calmLit ?_ (by krfl))).append
    (calm_whenSome fun c hc => calm_color (h.color c hc))).append
    (calm_whenSome fun c hc => calmLit ?_ (by krfl))).append
    (calm_whenSome fun c hc => calmLit ?_ (by krfl)) |>.append (calmLit ?_ (by krfl))
  all_goals parts_ok
  · exact plain_cleanColor (h.highlight c hc)
  · exact ⟨h.font c hc, h.font c hc⟩

theorem calm_style {b : BulletStyle} (h : b.Safe) : Calm b.toXml .text .text := by
  cases b
  case custom c => exact calmLit (by simp only [BulletStyle.toXml]; parts_ok; exact h c rfl) (by krfl)
  all_goals exact calmLit (by simp only [BulletStyle.toXml]; parts_ok) (by krfl)

theorem calm_bullet {d : TextProps} {b : BulletPoint} (hd : d.Safe) (hb : b.Safe) :
    Calm (bulletParagraph d b) .text .text :=
  ((((calmLit (by parts_ok) (by krfl)).append (calm_style hb.style)).append (calmLit (by parts_ok) (by krfl))).append
    (calm_props (bulletProps_safe hd hb.format))).append (calmLit (by parts_ok) (by krfl))

/-! ### Boxes -/

theorem calm_title {title : Str} {p : TextProps} {x y cx cy : Nat} {align : Str} (hp : p.Safe) (ha : Plain align) :
    Calm (titleShape title p.toXml x y cx cy align) .text .text :=
  ((calmLit (by parts_ok) (by krfl)).append (calm_props hp)).append (calmLit (by parts_ok) (by krfl))

theorem calm_box {id : Nat} {name : Str} {x y cx cy : Nat} {ps : List Part} (hn : Plain name) (h : Calm ps .text .text) :
    Calm (contentBox id name x y cx cy ps) .text .text :=
  ((calmLit (by parts_ok) (by krfl)).append h).append (calmLit (by parts_ok) (by krfl))

/-! ### Tables -/

theorem calm_merge (c : CellIn) : Calm (mergeAttrs c) .tag .tag := by
  unfold mergeAttrs
  split
  · exact calmLit (by parts_ok) (by krfl)
  · split
    · exact calmLit (by parts_ok) (by krfl)
    · exact (calm_whenSet (calmLit (by parts_ok) (by krfl))).append (calm_whenSet (calmLit (by parts_ok) (by krfl)))

theorem calm_format (c : CellIn) : Calm (cellFormatAttrs c) .tag .tag :=
  (((calm_whenSet (calmLit (by parts_ok) (by krfl))).append (calm_whenSet (calmLit (by parts_ok) (by krfl)))).append
    (calm_whenSet (calmLit (by parts_ok) (by krfl)))).append
    (calm_whenSome fun s _ => calmLit (by parts_ok) (by krfl))

theorem calm_runProps {c : CellIn} (h : c.Safe) : Calm (cellRunProps c) .text .text := by
  have hk : Calm (cellRunKids c) .text .text :=
    (calm_whenSome fun x hx => calm_color (h.color x hx)).append
      (calm_whenSome fun x hx => calmLit (by parts_ok) (by krfl))
  unfold cellRunProps
  split
  · exact ((calmLit (by parts_ok) (by krfl)).append (calm_format c)).append (calmLit (by parts_ok) (by krfl))
  · exact ((calmLit (by parts_ok) (by krfl)).append (calm_format c)).append
      (((calmLit (by parts_ok) (by krfl)).append hk).append (calmLit (by parts_ok) (by krfl)))

theorem calm_paraProps (c : CellIn) : Calm (cellParagraphProps c) .text .text := by
  unfold cellParagraphProps
  split
  · exact calm_nil _
  · have : Plain c.align.asStr := by
      cases c.align <;> exact ⟨by decide, by decide, by decide⟩
    exact calmLit (by parts_ok) (by krfl)

theorem calm_anchor (c : CellIn) : Calm (cellAnchor c) .tag .tag := by
  unfold cellAnchor
  split
  · exact calm_nil _
  · have : Plain c.valign.asStr := by
      cases c.valign <;> exact ⟨by decide, by decide, by decide⟩
    exact calmLit (by parts_ok) (by krfl)

theorem calm_cellProps {c : CellIn} (h : c.Safe) : Calm (cellProps c) .text .text := by
  unfold cellProps
  split
  · exact ((((calmLit (by parts_ok) (by krfl)).append (calm_anchor c)).append (calmLit (by parts_ok) (by krfl))).append
      (calm_whenSome fun x hx => calm_color (h.background x hx))).append (calmLit (by parts_ok) (by krfl))
  · exact ((calmLit (by parts_ok) (by krfl)).append (calm_anchor c)).append (calmLit (by parts_ok) (by krfl))

theorem calm_cellPara {c : CellIn} (h : c.Safe) : Calm (cellParagraph c) .text .text := by
  unfold cellParagraph
  split
  · exact calmLit (by parts_ok) (by krfl)
  · exact ((((calmLit (by parts_ok) (by krfl)).append (calm_paraProps c)).append (calmLit (by parts_ok) (by krfl))).append
      (calm_runProps h)).append (calmLit (by parts_ok) (by krfl))

theorem calm_cell {c : CellIn} (h : c.Safe) : Calm (cellXml c) .text .text := by
  unfold cellXml
  split
  · exact ((calmLit (by parts_ok) (by krfl)).append (calm_merge c)).append (calmLit (by parts_ok) (by krfl))
  · exact ((((((calmLit (by parts_ok) (by krfl)).append (calm_merge c)).append (calmLit (by parts_ok) (by krfl))).append
      (calm_cellPara h)).append (calmLit (by parts_ok) (by krfl))).append (calm_cellProps h)).append
      (calmLit (by parts_ok) (by krfl))

theorem calm_row {r : RowIn} (idx : Nat) (h : ∀ c ∈ r.cells, c.Safe) : Calm (rowXml r idx) .text .text :=
  ((calmLit (by parts_ok) (by krfl)).append (calm_flatMap fun c hc => calm_cell (h c hc))).append
    (calmLit (by parts_ok) (by krfl))

theorem calm_column (w idx : Nat) : Calm (columnXml w idx) .text .text :=
  calmLit (by unfold columnXml; parts_ok) (by krfl)

theorem calm_table {t : TableIn} (h : t.Safe) : Calm (tableXml t) .text .text :=
  ((((calmLit (by parts_ok) (by krfl)).append (calm_flatMap fun w _ => calm_column w.1 w.2)).append
    (calmLit (by parts_ok) (by krfl))).append
    (calm_flatMap fun r hr => calm_row r.2 (h r.1 (List.fst_mem_of_mem_zipIdx hr)))).append
    (calmLit (by parts_ok) (by krfl))

/-! ### Slides -/

theorem calm_paragraphs {d : TextProps} {l : List BulletPoint} (hd : d.Safe) (hl : ∀ b ∈ l, b.Safe) :
    Calm (paragraphs d l) .text .text := calm_flatMap fun b hb => calm_bullet hd (hl b hb)

theorem calm_twoColumns {d : TextProps} {l : List BulletPoint} (hd : d.Safe) (hl : ∀ b ∈ l, b.Safe) :
    Calm (twoColumns d l) .text .text := by
  unfold twoColumns
  simp only
  split
  · refine (calm_box (plain_of (by decide)) (calm_paragraphs hd fun b hb => hl b (List.mem_of_mem_take hb))).append ?_
    split
    · exact calm_box (plain_of (by decide)) (calm_paragraphs hd fun b hb => hl b (List.mem_of_mem_drop hb))
    · exact calm_nil _
  · exact calm_nil _

theorem calm_oneColumn {y cy : Nat} {d : TextProps} {l : List BulletPoint} (hd : d.Safe) (hl : ∀ b ∈ l, b.Safe) :
    Calm (oneColumn y cy d l) .text .text := by
  unfold oneColumn
  split
  · exact calm_box (plain_of (by decide)) (calm_paragraphs hd hl)
  · exact calm_nil _

theorem calm_lineTitle {title : Str} {p : TextProps} {x y cx cy : Nat} {align : Str} (hp : p.Safe) (ha : Plain align) :
    Calm (t!"\n" ++ titleShape title p.toXml x y cx cy align) .text .text :=
  (calmLit (by parts_ok) (by krfl)).append (calm_title hp ha)

theorem calm_shapes {s : SlideText} (h : s.Safe) : Calm s.shapes .text .text := by
  have ht : ∀ n b, (s.titleProps n b).Safe := fun n b => withBasic_safe h.titleColor
  have hc : ∀ n, (s.contentProps n).Safe := fun n => withBasic_safe h.contentColor
  have he := effective_safe h
  unfold SlideText.shapes
  cases s.layout <;> simp only
  case blank => exact calm_nil _
  case titleOnly => exact calm_lineTitle (ht _ _) (plain_of (by decide))
  case sectionHeader => exact calm_lineTitle (ht _ _) (plain_of (by decide))
  case centeredTitle => exact calm_lineTitle (ht _ _) (plain_of (by decide))
  case titleAndBigContent =>
    exact (calm_lineTitle (ht _ _) (plain_of (by decide))).append (calm_oneColumn (hc _) he)
  case twoColumn =>
    exact (calm_lineTitle (ht _ _) (plain_of (by decide))).append (calm_twoColumns (hc _) he)
  case titleAndContent =>
    refine (calm_lineTitle (ht _ _) (plain_of (by decide))).append ?_
    split
    · exact (calmLit (by parts_ok) (by krfl)).append (calm_whenSome fun t e => calm_table (h.table t e))
    · exact calm_oneColumn (hc _) he

theorem calm_transition (t : Transition) : Calm t.toXml .text .text := by
  cases t
  all_goals exact calmLit (by simp only [Transition.toXml]; parts_ok) (by krfl)

set_option maxRecDepth 8000 in
theorem calm_slide {s : SlideText} (h : s.Safe) (hx : Calm s.extra .text .text) : Calm s.body .text .text :=
  (((((calmLit (by unfold slideHeader; parts_ok) (by krfl)).append (calm_shapes h)).append hx).append
    (calmLit (by unfold slideFooter; parts_ok) (by krfl))).append (calm_transition _)).append
    (calmLit (by parts_ok) (by krfl))

end PptRs
