import Verif.Props.HtmlStyle
import Verif.Props.BulletFormat
import Mathlib.Tactic.FinCases

/-!
# C142: pages with styles
-/

namespace PptRs.Props
open PptRs PptRs.Spec PptRs.Html PptRs.Chains

theorem srun_append (env : HtmlEnv) (o : HtmlOptions) (st : StyledState) (a b : List HtmlEvent) :
    st.run env o (a ++ b) = (st.run env o a).bind fun st => st.run env o b := by
  induction a generalizing st with
  | nil => rfl
  | cons e a ih =>
    simp only [List.cons_append, StyledState.run]
    cases st.step env o e with
    | none => rfl
    | some st' => simp [ih]

/-- **C142.** A page with styles has the same slides as without looking at the styles: titles, texts, tables, code, images
and notes. -/
theorem C142_same_text (env : HtmlEnv) (o : HtmlOptions) (html : Str) :
    parseHtml env o html = (parseHtmlStyled env o html).map fun r => r.map fun l => l.map (·.text) := by
  rw [parseHtml, parseHtmlStyled, parseEvents, parseStyled]
  have h := erase_run (env := env) (o := o) (tokenizeHtml env html) {}
  have h0 : StyledState.erase {} = ({} : HtmlState) := rfl
  rw [h0] at h
  rw [← h]
  cases StyledState.run env o {} (tokenizeHtml env html) with
  | none => rfl
  | some st => simp only [Option.map_some, erase_finish]

/-- A state between blocks or inside a paragraph. -/
def smid (sl : List StyledSlide) (cur : Option StyledSlide) (buf : Str) (k : List Str) (items : List (Str × Option BulletTextFormat))
    (title : Option Str) (S : List InlineStyle) : StyledState :=
  { base := { buffer := buf, stack := k, title := title }, slides := sl, current := cur, items := items, styles := S }

theorem srun_elem (env : HtmlEnv) (o : HtmlOptions) {st st1 st2 st3 : StyledState} {s : InlineStyle} {n : Str} {a : List (Str × Str)}
    {kids : List Html} (hs : SkipFree st.base.stack) (hn : skipTags.contains n = false) (hv : voidTags.contains n = false)
    (ha : childStyle env.low (st.styles.head?.getD {}) a = some s)
    (h1 : StyledState.openBody env o { st with base := { st.base with stack := n :: st.base.stack }, styles := s :: st.styles } n a = st1)
    (h2 : st1.run env o (eventsL kids) = some st2) (hs2 : SkipFree st2.base.stack) (h3 : st2.closeBody env o n = some st3) :
    st.run env o (Html.events (.elem n a kids)) =
      some { st3 with base := { st3.base with stack := st3.base.stack.drop 1 }, styles := st3.styles.drop 1 } := by
  have e1 : (st.mapBase fun b => { b with stack := n :: b.stack }).base.inSkip = false := hs.cons hn
  have e2 : st2.base.inSkip = false := hs2
  have ho : st.step env o (.openTag n a) = some st1 := by
    simp only [StyledState.step, StyledState.openTag, e1, hv, Bool.false_eq_true, if_false]
    show (childStyle env.low (st.styles.head?.getD {}) a).map _ = _
    rw [ha, Option.map_some]
    exact congrArg some h1
  have hc : st2.step env o (.closeTag n) =
      some { st3 with base := { st3.base with stack := st3.base.stack.drop 1 }, styles := st3.styles.drop 1 } := by
    simp only [StyledState.step, StyledState.closeTag, e2, Bool.false_eq_true, if_false, h3, Option.map_some, StyledState.popStyle, hv,
      StyledState.mapBase]
  simp only [Html.events, StyledState.run, ho, Option.bind_some, srun_append, h2, hc]

section
variable (env : HtmlEnv) (o : HtmlOptions)

theorem srun_text (sl : List StyledSlide) (cur : Option StyledSlide) (buf : Str) {k : List Str} (items : List (Str × Option BulletTextFormat))
    (title : Option Str) (S : List InlineStyle) (hk : SkipFree k) (s : Str) :
    StyledState.run env o (smid sl cur buf k items title S) (eventsL [.text s]) =
      some (smid sl cur (buf ++ s) k items title S) := by
  have h1 : (smid sl cur buf k items title S).base.inSkip = false := hk
  simp only [eventsL, Html.events, List.append_nil, StyledState.run, StyledState.step, StyledState.mapBase, HtmlState.addText, h1,
    Option.bind_some]
  rfl

theorem childStyle_plain (low : Str → Str) (p : InlineStyle) : childStyle low p [] = some p := rfl

theorem srun_inline (sl : List StyledSlide) (cur : Option StyledSlide) (buf : Str) {k : List Str} (items : List (Str × Option BulletTextFormat))
    (title : Option Str) (S : List InlineStyle) (hk : SkipFree k) (x : Inline) :
    ∃ k', SkipFree k' ∧ StyledState.run env o (smid sl cur buf k items title S) (Html.events x.html) =
      some (smid sl cur (buf ++ x.show) k' items title S) := by
  cases x with
  | text s =>
    refine ⟨k, hk, ?_⟩
    have := srun_text env o sl cur buf items title S hk s
    simpa [eventsL, Inline.html, Inline.show] using this
  | strong s =>
    have hk1 : SkipFree (c!"strong" :: k) := hk.cons rfl
    refine ⟨k, hk, ?_⟩
    refine Eq.trans (srun_elem env o hk rfl rfl (childStyle_plain _ _) rfl
      (srun_text env o sl cur (buf ++ c!"**") items title _ hk1 s) hk1 rfl) ?_
    simp [smid, Inline.show, HtmlState.mark, StyledState.mapBase]
  | em s =>
    have hk1 : SkipFree (c!"em" :: k) := hk.cons rfl
    refine ⟨k, hk, ?_⟩
    refine Eq.trans (srun_elem env o hk rfl rfl (childStyle_plain _ _) rfl
      (srun_text env o sl cur (buf ++ c!"*") items title _ hk1 s) hk1 rfl) ?_
    simp [smid, Inline.show, HtmlState.mark, StyledState.mapBase]
  | br =>
    refine ⟨c!"br" :: k, hk.cons rfl, ?_⟩
    have e1 : ((smid sl cur buf k items title S).mapBase fun b => { b with stack := c!"br" :: b.stack }).base.inSkip = false := hk.cons rfl
    have e2 : voidTags.contains c!"br" = true := rfl
    simp only [Inline.html, Html.events, StyledState.run, StyledState.step, StyledState.openTag, e1, e2, if_true,
      Bool.false_eq_true, if_false, Option.bind_some]
    rfl
  | link h s =>
    have hk1 : SkipFree (c!"a" :: k) := hk.cons rfl
    refine ⟨k, hk, ?_⟩
    have hc : childStyle env.low ((smid sl cur buf k items title S).styles.head?.getD {}) [(c!"href", h)] =
      some ((smid sl cur buf k items title S).styles.head?.getD {}) := rfl
    refine Eq.trans (srun_elem env o hk rfl rfl hc rfl (srun_text env o sl cur buf items title _ hk1 s) hk1 rfl) ?_
    simp [smid, Inline.show]

theorem srun_inlines (sl : List StyledSlide) (cur : Option StyledSlide) (buf : Str) {k : List Str} (items : List (Str × Option BulletTextFormat))
    (title : Option Str) (S : List InlineStyle) (hk : SkipFree k) (l : List Inline) :
    ∃ k', SkipFree k' ∧ StyledState.run env o (smid sl cur buf k items title S) (eventsL (l.map Inline.html)) =
      some (smid sl cur (buf ++ showL l) k' items title S) := by
  induction l generalizing buf k with
  | nil => exact ⟨k, hk, by simp [eventsL, StyledState.run, showL]⟩
  | cons x l ih =>
    obtain ⟨k1, hk1, h1⟩ := srun_inline env o sl cur buf items title S hk x
    obtain ⟨k2, hk2, h2⟩ := ih (buf ++ x.show) hk1
    refine ⟨k2, hk2, ?_⟩
    simp only [List.map_cons, eventsL, srun_append, h1, Option.bind_some, h2]
    simp [showL]

/-- A slide with its bullets and their formats. -/
def bulleted (hd : StyledSlide) (bs : List (Str × Option BulletTextFormat)) : StyledSlide :=
  { hd with text := shown hd.text.title (bs.map (·.1)) none [] none, formats := bs.map (·.2) }

theorem pushLimited_bulleted {m : Nat} (hd : StyledSlide) {bs : List (Str × Option BulletTextFormat)} (p : Str × Option BulletTextFormat)
    (h : bs.length < m) : (bulleted hd bs).pushLimited m p = bulleted hd (bs ++ [p]) := by
  simp [StyledSlide.pushLimited, bulleted, shown, h, StyledSlide.push, HtmlSlide.push]

theorem fold_bulleted {m : Nat} (hd : StyledSlide) (l bs : List (Str × Option BulletTextFormat)) (h : bs.length + l.length ≤ m) :
    l.foldl (StyledSlide.pushLimited m) (bulleted hd bs) = bulleted hd (bs ++ l) := by
  induction l generalizing bs with
  | nil => simp
  | cons p l ih =>
    rw [List.length_cons] at h
    rw [List.foldl_cons, pushLimited_bulleted hd p (by omega), ih _ (by rw [List.length_append, List.length_singleton]; omega)]
    simp

theorem format_smid (sl : List StyledSlide) (cur : Option StyledSlide) (buf : Str) (k : List Str) (items : List (Str × Option BulletTextFormat))
    (title : Option Str) (ds : List Decl) (S : List InlineStyle) :
    (smid sl cur buf k items title (styleOf ds :: S)).format env = wantedFormat ds := toFormat_styleOf env.low ds

theorem flushText_bulleted (sl : List StyledSlide) (hd : StyledSlide) (bs : List (Str × Option BulletTextFormat)) (buf : Str) (k : List Str)
    (items : List (Str × Option BulletTextFormat)) (title : Option Str) (ds : List Decl) (S : List InlineStyle)
    (h : bs.length + (filled buf).length ≤ o.maxBullets) :
    StyledState.flushText env o (smid sl (some (bulleted hd bs)) buf k items title (styleOf ds :: S)) =
      smid sl (some (bulleted hd (bs ++ (filled buf).map fun t => (t, wantedFormat ds)))) [] k items title (styleOf ds :: S) := by
  by_cases hb : trim buf = []
  · simp [StyledState.flushText, smid, hb, filled, StyledState.withBuffer]
  · have hf : (filled buf).length = 1 := by simp [filled, hb]
    have hw : (smid sl (some (bulleted hd bs)) buf k items title (styleOf ds :: S)).withBuffer [] =
      smid sl (some (bulleted hd bs)) [] k items title (styleOf ds :: S) := rfl
    have hb' : ¬ trim (smid sl (some (bulleted hd bs)) buf k items title (styleOf ds :: S)).base.buffer = [] := hb
    rw [StyledState.flushText, if_neg hb', hw]
    show StyledState.addParagraph env o _ (trim buf) = _
    unfold StyledState.addParagraph
    simp only [format_smid]
    simp only [smid]
    rw [pushLimited_bulleted hd _ (by omega)]
    simp [filled, hb]

theorem srun_items (sl : List StyledSlide) (cur : Option StyledSlide) {k : List Str} (its : List (Str × Option BulletTextFormat))
    (title : Option Str) (ds : List Decl) (S : List InlineStyle) (hk : SkipFree k) (l : List (List Decl × List Inline))
    (hl : ∀ p ∈ l, ∀ d ∈ p.1, d.Ok) :
    ∃ k', SkipFree k' ∧ StyledState.run env o (smid sl cur [] k its title (styleOf ds :: S)) (eventsL (l.map styledItem)) =
      some (smid sl cur [] k' (its ++ l.flatMap fun p => (filled (showL p.2)).map fun t => (t, wantedFormat (ds ++ p.1))) title
        (styleOf ds :: S)) := by
  induction l generalizing its k with
  | nil => exact ⟨k, hk, by simp [eventsL, StyledState.run]⟩
  | cons x l ih =>
    have hk1 : SkipFree (c!"li" :: k) := hk.cons rfl
    obtain ⟨k1, hk1', h1⟩ := srun_inlines env o sl cur [] its title (styleOf (ds ++ x.1) :: styleOf ds :: S) hk1 x.2
    have h2 : StyledState.run env o (smid sl cur [] k its title (styleOf ds :: S)) (Html.events (styledItem x)) =
        some (smid sl cur [] (k1.drop 1) (its ++ (filled (showL x.2)).map fun t => (t, wantedFormat (ds ++ x.1))) title
          (styleOf ds :: S)) := by
      refine Eq.trans (srun_elem env o hk rfl rfl (childStyle_attrs env.low ds x.1 (hl x (by simp))) rfl h1 hk1' rfl) ?_
      rw [List.nil_append]
      unfold StyledState.closeItem
      rw [format_smid]
      by_cases hb : trim (showL x.2) = []
      · simp [smid, hb, filled, StyledState.withBuffer]
      · simp [smid, hb, filled, StyledState.withBuffer]
    obtain ⟨k2, hk2, h3⟩ := ih (its ++ (filled (showL x.2)).map fun t => (t, wantedFormat (ds ++ x.1))) hk1'.tail
      (fun p hp => hl p (by simp [hp]))
    refine ⟨k2, hk2, ?_⟩
    simp only [List.map_cons, eventsL, srun_append, h2, Option.bind_some, h3]
    simp

theorem sopenBody_sub (st : StyledState) (lv : Fin 5) (a : List (Str × Str)) :
    st.openBody env o (subName lv) a = st.flushText env o := by
  match lv with
  | 0 => rfl
  | 1 => rfl
  | 2 => rfl
  | 3 => rfl
  | 4 => rfl

theorem scloseBody_sub (st : StyledState) (lv : Fin 5) : st.closeBody env o (subName lv) = some (st.closeSub env) := by
  match lv with
  | 0 => rfl
  | 1 => rfl
  | 2 => rfl
  | 3 => rfl
  | 4 => rfl

theorem sub_not_void (lv : Fin 5) : voidTags.contains (subName lv) = false := by
  revert lv; decide

theorem srun_block (sl : List StyledSlide) (hd : StyledSlide) (bs : List (Str × Option BulletTextFormat)) {k : List Str} (title : Option Str)
    (outer : List Decl) (S : List InlineStyle) (hk : SkipFree k) (b : StyledBlock) (hb : b.Ok)
    (hr : bs.length + (b.bullets outer).length ≤ o.maxBullets) :
    ∃ k', SkipFree k' ∧ StyledState.run env o (smid sl (some (bulleted hd bs)) [] k [] title (styleOf outer :: S)) (Html.events b.html) =
      some (smid sl (some (bulleted hd (bs ++ b.bullets outer))) [] k' [] title (styleOf outer :: S)) := by
  cases b with
  | para ds l =>
    have hk1 : SkipFree (c!"p" :: k) := hk.cons rfl
    obtain ⟨k1, hk1', h1⟩ := srun_inlines env o sl (some (bulleted hd bs)) [] [] title (styleOf (outer ++ ds) :: styleOf outer :: S) hk1 l
    refine ⟨k1.drop 1, hk1'.tail, ?_⟩
    refine Eq.trans (srun_elem env o hk rfl rfl (childStyle_attrs env.low outer ds hb) rfl h1 hk1' rfl) ?_
    simp only [StyledBlock.bullets, List.length_map] at hr
    rw [List.nil_append, flushText_bulleted _ _ _ _ _ _ _ _ _ _ _ hr]
    rfl
  | sub lv ds l =>
    have hk1 : SkipFree (subName lv :: k) := hk.cons (sub_not_skip lv)
    obtain ⟨k1, hk1', h1⟩ := srun_inlines env o sl (some (bulleted hd bs)) [] [] title (styleOf (outer ++ ds) :: styleOf outer :: S) hk1 l
    refine ⟨k1.drop 1, hk1'.tail, ?_⟩
    refine Eq.trans (srun_elem env o hk (sub_not_skip lv) (sub_not_void lv) (childStyle_attrs env.low outer ds hb)
      (sopenBody_sub env o _ lv _) h1 hk1' (scloseBody_sub env o _ lv)) ?_
    rw [List.nil_append]
    unfold StyledState.closeSub
    by_cases hb : trim (showL l) = []
    · simp [smid, hb, StyledBlock.bullets, filled, StyledState.withBuffer]
    · have hf : (StyledState.withBuffer (smid sl (some (bulleted hd bs)) (showL l) k1 [] title (styleOf (outer ++ ds) :: styleOf outer :: S)) []).format env =
        wantedFormat (outer ++ ds) := toFormat_styleOf env.low _
      have hb' : ¬ trim (smid sl (some (bulleted hd bs)) (showL l) k1 [] title (styleOf (outer ++ ds) :: styleOf outer :: S)).base.buffer = [] := hb
      rw [if_neg hb', StyledState.addFormatted, hf]
      simp [smid, hb, StyledBlock.bullets, filled, StyledState.withBuffer, bulleted, StyledSlide.push, shown, HtmlSlide.push]
  | list ord ds items =>
    have key : ∀ n, skipTags.contains n = false → voidTags.contains n = false →
        (∀ st : StyledState, st.openBody env o n (styleAttrs ds) = { st with items := [] }) →
        (∀ st : StyledState, st.closeBody env o n = some (st.flushItems o)) →
        ∃ k', SkipFree k' ∧ StyledState.run env o (smid sl (some (bulleted hd bs)) [] k [] title (styleOf outer :: S))
          (Html.events (.elem n (styleAttrs ds) (items.map styledItem))) =
        some (smid sl (some (bulleted hd (bs ++ StyledBlock.bullets outer (.list ord ds items)))) [] k' [] title (styleOf outer :: S)) := by
      intro n hn hv ho hc
      have hk1 : SkipFree (n :: k) := hk.cons hn
      obtain ⟨k1, hk1', h1⟩ := srun_items env o sl (some (bulleted hd bs)) [] title (outer ++ ds) (styleOf outer :: S) hk1 items hb.2
      refine ⟨k1.drop 1, hk1'.tail, ?_⟩
      refine Eq.trans (srun_elem env o hk hn hv (childStyle_attrs env.low outer ds hb.1) (ho _) h1 hk1' (hc _)) ?_
      rw [List.nil_append]
      show some _ = some (smid sl (some (bulleted hd (bs ++ (items.flatMap fun p => (filled (showL p.2)).map fun t => (t, wantedFormat (outer ++ ds ++ p.1)))))) [] (k1.drop 1) [] title (styleOf outer :: S))
      have hr' : bs.length + (items.flatMap fun p => (filled (showL p.2)).map fun t => (t, wantedFormat (outer ++ ds ++ p.1))).length ≤ o.maxBullets := hr
      generalize (items.flatMap fun p => (filled (showL p.2)).map fun t => (t, wantedFormat (outer ++ ds ++ p.1))) = new at hr' ⊢
      by_cases he : new = []
      · simp [smid, StyledState.flushItems, he]
      · simp [smid, StyledState.flushItems, he, fold_bulleted hd new bs hr']
    cases ord with
    | true => exact key c!"ol" rfl rfl (fun _ => rfl) (fun _ => rfl)
    | false => exact key c!"ul" rfl rfl (fun _ => rfl) (fun _ => rfl)

theorem srun_blocks (sl : List StyledSlide) (hd : StyledSlide) (bs : List (Str × Option BulletTextFormat)) {k : List Str} (title : Option Str)
    (outer : List Decl) (S : List InlineStyle) (hk : SkipFree k) (l : List StyledBlock) (hb : ∀ b ∈ l, b.Ok)
    (hr : bs.length + (l.flatMap (StyledBlock.bullets outer)).length ≤ o.maxBullets) :
    ∃ k', SkipFree k' ∧ StyledState.run env o (smid sl (some (bulleted hd bs)) [] k [] title (styleOf outer :: S)) (eventsL (l.map StyledBlock.html)) =
      some (smid sl (some (bulleted hd (bs ++ l.flatMap (StyledBlock.bullets outer)))) [] k' [] title (styleOf outer :: S)) := by
  induction l generalizing bs k with
  | nil => exact ⟨k, hk, by simp [eventsL, StyledState.run]⟩
  | cons b l ih =>
    simp only [List.flatMap_cons, List.length_append] at hr
    obtain ⟨k1, hk1, h1⟩ := srun_block env o sl hd bs title outer S hk b (hb b (by simp)) (by omega)
    obtain ⟨k2, hk2, h2⟩ := ih (bs ++ b.bullets outer) hk1 (fun x hx => hb x (by simp [hx])) (by rw [List.length_append]; omega)
    refine ⟨k2, hk2, ?_⟩
    simp only [List.map_cons, eventsL, srun_append, h1, Option.bind_some, h2]
    simp

/-- The slide of a section. -/
def styledSlide (outer : List Decl) (s : StyledSection) : StyledSlide :=
  let f := (wantedFormat (outer ++ s.decls)).getD {}
  { text := { title := if trim (showL s.title) = [] then c!"Slide" else trim (showL s.title)
              content := (s.bullets outer).map (·.1), bullets := (s.bullets outer).map (·.1) }
    titleColor := f.color
    titleSize := f.fontSize.or (some 44)
    titleBold := true
    titleItalic := f.italic
    titleUnderline := f.underline
    formats := (s.bullets outer).map (·.2) }

theorem sopenBody_h1 (sl : List StyledSlide) (cur : Option StyledSlide) (k : List Str) (title : Option Str) (S : List InlineStyle)
    (a : List (Str × Str)) :
    StyledState.openBody env o (smid sl cur [] k [] title S) c!"h1" a = smid (sl ++ cur.toList) none [] k [] title S := by
  show StyledState.finalize env o (StyledState.flushText env o _) = _
  have hf : StyledState.flushText env o (smid sl cur [] k [] title S) = smid sl cur [] k [] title S := by
    simp [StyledState.flushText, smid, trim, trimStart, trimEnd, StyledState.withBuffer]
  simp only [hf, StyledState.finalize]
  simp [StyledState.flushItems, smid]

theorem title_format (low : Str → Str) (ds : List Decl) :
    (styleOf ds).color.map cleanColor = ((wantedFormat ds).getD {}).color ∧ (styleOf ds).fontSize = ((wantedFormat ds).getD {}).fontSize ∧
    (styleOf ds).fontStyle.any (styleItalic low) = ((wantedFormat ds).getD {}).italic ∧
    (styleOf ds).textDecoration.any (containsStr c!"underline") = ((wantedFormat ds).getD {}).underline := by
  rw [← toFormat_styleOf low ds, InlineStyle.toFormat, isEmpty_styleOf]
  by_cases h : ds = []
  · subst h; exact ⟨rfl, rfl, rfl, rfl⟩
  · simp only [h, decide_false, Bool.false_eq_true, if_false, calls_run, Option.getD_some, and_self]

theorem srun_section (sl : List StyledSlide) (cur : Option StyledSlide) {k : List Str} (title : Option Str) (outer : List Decl)
    (S : List InlineStyle) (hk : SkipFree k) (s : StyledSection) (hs : s.Ok) (hr : (s.bullets outer).length ≤ o.maxBullets) :
    ∃ k' title', SkipFree k' ∧ StyledState.run env o (smid sl cur [] k [] title (styleOf outer :: S)) (eventsL s.html) =
      some (smid (sl ++ cur.toList) (some (styledSlide outer s)) [] k' [] title' (styleOf outer :: S)) := by
  have hk1 : SkipFree (c!"h1" :: k) := hk.cons rfl
  obtain ⟨k1, hk1', h1⟩ := srun_inlines env o (sl ++ cur.toList) none [] [] title (styleOf (outer ++ s.decls) :: styleOf outer :: S) hk1 s.title
  rw [List.nil_append] at h1
  have h2 := srun_elem env o (st := smid sl cur [] k [] title (styleOf outer :: S)) (n := c!"h1") (a := styleAttrs s.decls) hk rfl rfl
    (childStyle_attrs env.low outer s.decls hs.1) (sopenBody_h1 env o sl cur _ title _ _) h1 hk1' rfl
  have h3 : ∃ title', StyledState.run env o (smid sl cur [] k [] title (styleOf outer :: S))
      (Html.events (.elem c!"h1" (styleAttrs s.decls) (s.title.map Inline.html))) =
      some (smid (sl ++ cur.toList) (some (bulleted (styledSlide outer s) [])) [] (k1.drop 1) [] title' (styleOf outer :: S)) := by
    refine ⟨if title = none ∧ trim (showL s.title) ≠ [] then some (trim (showL s.title)) else title, h2.trans ?_⟩
    obtain ⟨t1, t2, t3, t4⟩ := title_format env.low (outer ++ s.decls)
    simp only [StyledState.closeTitle, smid, bulleted, styledSlide, shown, List.head?_cons, Option.getD_some, t1, t2, t3, t4, List.map_nil,
      List.drop_one, List.tail_cons]
    rfl
  obtain ⟨title', h3⟩ := h3
  obtain ⟨k2, hk2, h4⟩ := srun_blocks env o (sl ++ cur.toList) (styledSlide outer s) [] title' outer S hk1'.tail s.blocks hs.2
    (by simpa [StyledSection.bullets] using hr)
  refine ⟨k2, title', hk2, ?_⟩
  simp only [StyledSection.html, eventsL, srun_append, h3, Option.bind_some, h4]
  rfl

theorem srun_sections (sl : List StyledSlide) (cur : Option StyledSlide) {k : List Str} (title : Option Str) (outer : List Decl)
    (S : List InlineStyle) (hk : SkipFree k) (a : List StyledSection) (ha : ∀ s ∈ a, s.Ok)
    (hr : ∀ s ∈ a, (s.bullets outer).length ≤ o.maxBullets) :
    ∃ sl' cur' k' title', SkipFree k' ∧ sl' ++ cur'.toList = sl ++ cur.toList ++ a.map (styledSlide outer) ∧
      StyledState.run env o (smid sl cur [] k [] title (styleOf outer :: S)) (eventsL (a.flatMap StyledSection.html)) =
        some (smid sl' cur' [] k' [] title' (styleOf outer :: S)) := by
  induction a generalizing sl cur k title with
  | nil => exact ⟨sl, cur, k, title, hk, by simp, by simp [eventsL, StyledState.run]⟩
  | cons s a ih =>
    obtain ⟨k1, t1, hk1, h1⟩ := srun_section env o sl cur title outer S hk s (ha s (by simp)) (hr s (by simp))
    obtain ⟨sl', cur', k2, t2, hk2, he, h2⟩ := ih (sl ++ cur.toList) (some (styledSlide outer s)) t1 hk1
      (fun s h => ha s (by simp [h])) (fun s h => hr s (by simp [h]))
    refine ⟨sl', cur', k2, t2, hk2, by simp [he], ?_⟩
    rw [List.flatMap_cons, eventsL_append, srun_append, h1, Option.bind_some, h2]

theorem sfinish (sl : List StyledSlide) (cur : Option StyledSlide) (k : List Str) (title : Option Str) (S : List InlineStyle) :
    StyledState.finish env o (smid sl cur [] k [] title S) =
      if sl ++ cur.toList = [] then .error () else .ok ((sl ++ cur.toList).take o.maxSlides) := by
  have hf : StyledState.flushText env o (smid sl cur [] k [] title S) = smid sl cur [] k [] title S := by
    simp [StyledState.flushText, smid, trim, trimStart, trimEnd, StyledState.withBuffer]
  have : (StyledState.finalize env o (smid sl cur [] k [] title S)).slides = sl ++ cur.toList := by
    simp only [StyledState.finalize, hf]
    simp [StyledState.flushItems, smid]
  simp only [StyledState.finish, this]
  cases sl ++ cur.toList <;> rfl

theorem styled_events (outer : List Decl) (ho : ∀ d ∈ outer, d.Ok) (a : List StyledSection) (hne : a ≠ []) (ha : ∀ s ∈ a, s.Ok)
    (hr : ∀ s ∈ a, (s.bullets outer).length ≤ o.maxBullets) :
    parseStyled env o (eventsL [styledPage outer a]) = some (.ok ((a.map (styledSlide outer)).take o.maxSlides)) := by
  have hk1 : SkipFree [c!"body"] := SkipFree.cons (k := []) rfl rfl
  obtain ⟨sl', cur', k', t', hk', he, h⟩ := srun_sections env o [] none (k := [c!"body"]) none outer [] hk1 a ha hr
  have h0 : ({} : StyledState) = smid [] none [] [] [] none [] := rfl
  have h1 := srun_elem env o (st := smid [] none [] [] [] none []) (n := c!"body") (a := styleAttrs outer) rfl rfl rfl
    (childStyle_attrs env.low [] outer ho) rfl h hk' rfl
  have h2 : eventsL [styledPage outer a] = Html.events (.elem c!"body" (styleAttrs outer) (a.flatMap StyledSection.html)) := by
    simp only [eventsL, List.append_nil]; rfl
  rw [parseStyled, h0, h2, h1, Option.map_some]
  have h3 := sfinish env o sl' cur' (k'.drop 1) t' []
  refine congrArg some (h3.trans ?_)
  rw [he]
  simp [hne]

/-- **C142.** A page of sections, with room for all texts: every text is a bullet with the format asked for by its own
style, that of its list and that of the page; headings give the colour, size and slant of titles. -/
theorem C142_page (outer : List Decl) (ho : ∀ d ∈ outer, d.Ok) (a : List StyledSection) (hne : a ≠ []) (ha : ∀ s ∈ a, s.Ok)
    (hr : ∀ s ∈ a, (s.bullets outer).length ≤ o.maxBullets) (hp : properL [styledPage outer a] = true) :
    parseHtmlStyled env o (writeL [styledPage outer a]) = some (.ok ((a.map (styledSlide outer)).take o.maxSlides)) := by
  rw [parseHtmlStyled, C44_tokens env _ hp, styled_events env o outer ho a hne ha hr]

end

/-! ### In the slide -/

theorem plain_hexColor (c : Fin 256 × Fin 256 × Fin 256) : Plain (hexColor upperHex c) := by
  rw [hexColor_hex2]
  have hn : ∀ n : Fin 256, '&' ∉ hex2 (UInt8.ofNat n.val) ∧ '<' ∉ hex2 (UInt8.ofNat n.val) ∧ '"' ∉ hex2 (UInt8.ofNat n.val) := by
    decide +kernel
  obtain ⟨r, g, b⟩ := c
  have h1 := hn r
  have h2 := hn g
  have h3 := hn b
  simp only [Plain, List.mem_append, not_or]
  exact ⟨⟨⟨h1.1, h2.1⟩, h3.1⟩, ⟨⟨h1.2.1, h2.2.1⟩, h3.2.1⟩, ⟨h1.2.2, h2.2.2⟩, h3.2.2⟩

theorem lastSet_prop {ω α : Type} (P : α → Prop) (sets : ω → Option α) (b : α) (l : List ω) (hb : P b)
    (h : ∀ d ∈ l, ∀ x, sets d = some x → P x) : P (lastSet sets b l) := by
  induction l generalizing b with
  | nil => exact hb
  | cons d l ih =>
    rw [lastSet_step]
    refine ih _ ?_ fun d hd => h d (by simp [hd])
    cases e : sets d with
    | none => exact hb
    | some x => exact h d (by simp) x e

theorem wantedFormat_safe {ds : List Decl} (h : ∀ n, Decl.font n ∈ ds → Plain n) : ∀ f ∈ wantedFormat ds, f.Safe := by
  intro f hf
  unfold wantedFormat at hf
  split at hf
  · cases hf
  · cases hf
    refine ⟨?_, ?_, ?_⟩
    · refine lastSet_prop (fun x : Option Str => ∀ c ∈ x, Plain c) _ _ _ (by simp) fun d _ x hx => ?_
      cases d <;> cases hx
      rintro c ⟨⟩
      exact plain_hexColor _
    · refine lastSet_prop (fun x : Option Str => ∀ c ∈ x, Plain c) _ _ _ (by simp) fun d _ x hx => ?_
      cases d <;> cases hx
      rintro c ⟨⟩
      exact plain_hexColor _
    · refine lastSet_prop (fun x : Option Str => ∀ c ∈ x, Plain c) _ _ _ (by simp) fun d hd x hx => ?_
      cases d <;> cases hx
      rintro c ⟨⟩
      exact h _ hd

/-- The fonts of a section contain no markup. -/
def StyledSection.PlainFonts (s : StyledSection) : Prop :=
  (∀ n, Decl.font n ∈ s.decls → Plain n) ∧ ∀ b ∈ s.blocks, match b with
    | .para ds _ => ∀ n, Decl.font n ∈ ds → Plain n
    | .sub _ ds _ => ∀ n, Decl.font n ∈ ds → Plain n
    | .list _ ds items => (∀ n, Decl.font n ∈ ds → Plain n) ∧ ∀ p ∈ items, ∀ n, Decl.font n ∈ p.1 → Plain n

theorem bullets_safe {outer : List Decl} (ho : ∀ n, Decl.font n ∈ outer → Plain n) {s : StyledSection} (hs : StyledSection.PlainFonts s) :
    ∀ p ∈ s.bullets outer, ∀ f ∈ p.2, f.Safe := by
  intro p hp f hf
  obtain ⟨b, hb, hp⟩ := List.mem_flatMap.mp hp
  have hb' := hs.2 b hb
  have join : ∀ a b : List Decl, (∀ n, Decl.font n ∈ a → Plain n) → (∀ n, Decl.font n ∈ b → Plain n) → ∀ n, Decl.font n ∈ a ++ b → Plain n := by
    intro a b h1 h2 n hn
    rcases List.mem_append.mp hn with h | h
    · exact h1 n h
    · exact h2 n h
  cases b with
  | para ds l =>
    obtain ⟨t, _, rfl⟩ := List.mem_map.mp hp
    exact wantedFormat_safe (join _ _ ho hb') f hf
  | sub lv ds l =>
    obtain ⟨t, _, rfl⟩ := List.mem_map.mp hp
    exact wantedFormat_safe (join _ _ ho hb') f hf
  | list ord ds items =>
    obtain ⟨q, hq, hp⟩ := List.mem_flatMap.mp hp
    obtain ⟨t, _, rfl⟩ := List.mem_map.mp hp
    exact wantedFormat_safe (join _ _ (join _ _ ho hb'.1) (hb'.2 q hq)) f hf

/-- **C142** (partial: fonts without markup). The bullets in the slide's XML have the colours, sizes, fonts and lines that the
page asks for. -/
theorem C142_slide_partial (outer : List Decl) (ho : ∀ n, Decl.font n ∈ outer → Plain n) (s : StyledSection)
    (hs : StyledSection.PlainFonts s) (hne : s.bullets outer ≠ []) :
    ∃ doc, document (styledSlide outer s).written.xml = some doc ∧
      bulletsOf doc = (s.bullets outer).map fun p => look (SlideText.new []) 28 { text := p.1, format := p.2 } := by
  have hb : (styledSlide outer s).written.bullets = (s.bullets outer).map fun p => { text := p.1, format := p.2 } := by
    have : ∀ l : List (Str × Option BulletTextFormat), (l.map (·.1)).zip (l.map (·.2)) = l := by
      intro l; induction l with
      | nil => rfl
      | cons p l ih => simp [ih]
    show ((((s.bullets outer).map (·.1)).zip ((s.bullets outer).map (·.2))).map _) = _
    rw [this]
  have hsafe : (styledSlide outer s).written.Safe := by
    refine ⟨?_, by simp [StyledSlide.written], (by intro c hc; cases hc), ?_, by simp [StyledSlide.written]⟩
    · show ∀ c ∈ ((wantedFormat (outer ++ s.decls)).getD {}).color, Plain c
      have h := wantedFormat_safe (ds := outer ++ s.decls) (fun n hn => (List.mem_append.mp hn).elim (ho n) (hs.1 n))
      cases e : wantedFormat (outer ++ s.decls) with
      | none => simp
      | some f => exact (h f e).color
    · rw [hb]
      intro b hb
      obtain ⟨p, hp, rfl⟩ := List.mem_map.mp hb
      exact ⟨(by intro c hc; cases hc), fun f hf => bullets_safe ho hs p hp f hf⟩
  obtain ⟨doc, h1, h2⟩ := C85_bullet_format_partial hsafe (X := []) readsNodes_nil.readsAs (by rw [hb]; simpa using hne) (.inl ⟨rfl, rfl⟩)
  refine ⟨doc, h1, ?_⟩
  have hbn : bulletsOf [] = [] := rfl
  rw [h2, hb, hbn, List.append_nil, List.map_map]
  rfl

/-! ### Not as it should be -/

/-- **C142 does not hold in full.** CSS ignores a declaration with an invalid value, but here it removes an earlier valid one. -/
theorem C142_invalid_violated (low : Str → Str) :
    parseStyle low c!"color: red; color: bad" = some {} ∧ parseStyle low c!"font-size: 12pt; font-size: 2em" = some {} := by
  constructor <;> krfl

/-- **C142 does not hold in full.** Names of colours with capital letters and the names `cyan` and `magenta` are not
known. -/
theorem C142_names_violated : ∀ v ∈ [c!"Red", c!"RED", c!"cyan", c!"magenta"], parseCssColor v = some none := by decide +kernel

/-- **C142 does not hold in full.** Anything of the right length after `#` is taken as a colour: `#zzz` is the colour
`ZZZZZZ`, and a colour with a quotation mark makes the slide unreadable. -/
theorem C142_digits_violated (env : HtmlEnv) :
    parseCssColor c!"#zzz" = some (some c!"ZZZZZZ") ∧
    ∃ s : StyledSlide, parseHtmlStyled env defaultHtml c!"<h1>A</h1><p style='color: #\"><b>1'>x</p>" = some (.ok [s]) ∧
      document s.written.xml = none := by
  refine ⟨by krfl, { text := { title := c!"A", content := [c!"x"], bullets := [c!"x"] }, formats := [some { color := some c!"\"><B>1" }] }, by krfl, by krfl⟩

/-- **C142 does not hold in full.** A list of fonts with a quoted name, as in `font-family: "Times New Roman", serif`, keeps
its second quotation mark, and the slide is unreadable. -/
theorem C142_font_violated (env : HtmlEnv) :
    ∃ s : StyledSlide, parseHtmlStyled env defaultHtml
        c!"<h1>A</h1><p style='font-family: \"Times New Roman\", serif'>x</p>" = some (.ok [s]) ∧
      s.formats = [some { fontFamily := some c!"Times New Roman\", serif" }] ∧ document s.written.xml = none := by
  refine ⟨{ text := { title := c!"A", content := [c!"x"], bullets := [c!"x"] }, formats := [some { fontFamily := some c!"Times New Roman\", serif" }] }, by krfl, rfl, by krfl⟩

/-- **C142 does not hold in full.** Styles of elements inside a paragraph are lost. -/
theorem C142_span_violated (env : HtmlEnv) :
    ∃ s : StyledSlide, parseHtmlStyled env defaultHtml c!"<h1>A</h1><p>a <span style=\"color: red\">b</span></p>" = some (.ok [s]) ∧
      s.text.bullets = [c!"a b"] ∧ s.formats = [none] := by
  refine ⟨{ text := { title := c!"A", content := [c!"a b"], bullets := [c!"a b"] }, formats := [none] }, by krfl, rfl, rfl⟩

/-- **C142 does not hold in full.** Text outside of a paragraph gets the style of the heading that follows it. -/
theorem C142_loose_violated (env : HtmlEnv) :
    ∃ s t : StyledSlide, parseHtmlStyled env defaultHtml c!"<h1>A</h1>x<h1 style=\"color: red\">B</h1>" = some (.ok [s, t]) ∧
      s.text.bullets = [c!"x"] ∧ s.formats = [some { color := some c!"FF0000" }] := by
  refine ⟨{ text := { title := c!"A", content := [c!"x"], bullets := [c!"x"] }, formats := [some { color := some c!"FF0000" }] },
    { text := { title := c!"B" }, titleColor := some c!"FF0000" }, by krfl, rfl, rfl⟩

/-- **C142 does not hold in full.** A title is bold even if its style says `font-weight: normal`. -/
theorem C142_title_weight_violated (env : HtmlEnv) :
    ∃ s : StyledSlide, parseHtmlStyled env defaultHtml c!"<h1 style=\"font-weight: normal\">A</h1>" = some (.ok [s]) ∧
      s.titleBold = true := by
  refine ⟨{ text := { title := c!"A" } }, by krfl, rfl⟩

/-! ### Not vacuous -/

def sampleStyled : List StyledSection :=
  [⟨[.color (0, 0, 255), .size 30], [.text c!"One"],
    [.para [.weight true] [.text c!"x"], .list false [.slant true] [([], [.text c!"i"]), ([.slant false, .background (255, 255, 0)], [.text c!"j"])],
     .sub 0 [.font c!"Arial", .line true false] [.text c!"more"]]⟩]

theorem sampleStyled_ok : ∀ s ∈ sampleStyled, s.Ok := by
  intro s hs
  simp only [sampleStyled, List.mem_singleton] at hs
  subst hs
  refine ⟨?_, ?_⟩
  · intro d hd
    fin_cases hd
    · trivial
    · show 30 < 4294967296; decide
  · intro b hb
    fin_cases hb
    · intro d hd; fin_cases hd; trivial
    · refine ⟨?_, ?_⟩
      · intro d hd; fin_cases hd; trivial
      · intro p hp
        fin_cases hp
        · intro d hd; cases hd
        · intro d hd; fin_cases hd <;> trivial
    · intro d hd
      fin_cases hd
      · exact ⟨by decide, by decide, by decide, by decide, by decide, by decide⟩
      · trivial

example : properL [styledPage [.size 20] sampleStyled] = true := by decide +kernel

end PptRs.Props
