import Verif.Model.HtmlStyle

/-!
# The styled import and the plain one
-/

namespace PptRs.Html

open PptRs PptRs.Chains

/-! ### Panics -/

theorem parseCssColor_none (v : Str) : parseCssColor v = none ↔ cssColorPanics v = true := by
  unfold parseCssColor cssColorPanics
  cases h : stripPrefix? c!"#" (trim v) with
  | none => simp
  | some hex =>
    simp only [hashColor]
    by_cases h3 : utf8Len hex = 3
    · simp [h3]
    · by_cases h6 : utf8Len hex = 6
      · simp [h6]
      · by_cases h8 : utf8Len hex = 8
        · simp [h8]
        · simp [h3, h6, h8]

theorem ite_some_ne {α : Type} {c : Prop} [Decidable c] {y : Option α} (x : α) (h : ¬ y = none) :
    ¬ (if c then some x else y) = none := by
  split
  · exact Option.some_ne_none _
  · exact h

theorem applyDecl_none (low : Str → Str) (s : InlineStyle) (d : Str) : applyDecl low s d = none ↔ declPanics low d = true := by
  unfold applyDecl declPanics declOf
  cases h : splitOnce? c!":" (trim d) with
  | none => simp
  | some p =>
    simp only [Option.map_some]
    unfold setStyle
    by_cases h1 : lowerStr low (trim p.1) = c!"color"
    · simp only [h1, if_true, Option.map_eq_none_iff, parseCssColor_none, decide_true, Bool.true_or, Bool.true_and]
    · by_cases h2 : lowerStr low (trim p.1) = c!"background-color"
      · simp only [h2, if_true, decide_true, Bool.or_true, Bool.true_and]
        rw [if_neg (by decide), Option.map_eq_none_iff, parseCssColor_none]
      · simp only [h1, h2, if_false, decide_false, Bool.or_false, Bool.false_and, Bool.false_eq_true, iff_false]
        iterate 14 refine ite_some_ne _ ?_
        exact Option.some_ne_none _

theorem foldlM_none (low : Str → Str) (l : List Str) : ∀ s, l.foldlM (applyDecl low) s = none ↔ l.any (declPanics low) = true := by
  induction l with
  | nil => intro s; simp
  | cons d l ih =>
    intro s
    rw [List.foldlM_cons, List.any_cons, Bool.or_eq_true]
    cases h : applyDecl low s d with
    | none => simp [(applyDecl_none low s d).mp h]
    | some s' =>
      have : ¬ declPanics low d = true := fun h' => by rw [(applyDecl_none low s d).mpr h'] at h; cases h
      exact (ih s').trans (by simp [this])

theorem parseStyle_none (low : Str → Str) (s : Str) : parseStyle low s = none ↔ stylePanics low s = true :=
  foldlM_none low _ _

theorem childStyle_none (low : Str → Str) (p : InlineStyle) (attrs : List (Str × Str)) :
    childStyle low p attrs = none ↔ stylePanics low ((attrValue? attrs c!"style").getD []) = true := by
  unfold childStyle
  cases h : attrValue? attrs c!"style" with
  | none => simp only [Option.getD_none]; constructor <;> intro h <;> cases h
  | some a => simp only [Option.map_eq_none_iff, Option.getD_some, parseStyle_none]

/-! ### Without formats -/

variable {env : HtmlEnv} {o : HtmlOptions}

theorem erase_addParagraph (st : StyledState) (t : Str) :
    (st.addParagraph env o t).erase = st.erase.addParagraph o t := by
  unfold StyledState.addParagraph HtmlState.addParagraph StyledState.erase
  cases h : st.current with
  | none => rfl
  | some s =>
    simp only [Option.map_some, StyledSlide.pushLimited, HtmlSlide.pushLimited]
    split <;> rfl

theorem erase_flushText (st : StyledState) : (st.flushText env o).erase = st.erase.flushText o := by
  unfold StyledState.flushText HtmlState.flushText
  have : st.erase.buffer = st.base.buffer := rfl
  rw [this]
  dsimp only
  split
  · rfl
  · rw [erase_addParagraph]; rfl

theorem text_items (m : Nat) (l : List (Str × Option BulletTextFormat)) : ∀ s : StyledSlide,
    (l.foldl (StyledSlide.pushLimited m) s).text = (l.map (·.1)).foldl (HtmlSlide.pushLimited m) s.text := by
  induction l with
  | nil => intro s; rfl
  | cons p l ih =>
    intro s
    rw [List.foldl_cons, List.map_cons, List.foldl_cons, ih]
    congr 1
    unfold StyledSlide.pushLimited HtmlSlide.pushLimited
    split <;> rfl

theorem erase_flushItems (st : StyledState) : (st.flushItems o).erase = st.erase.flushItems o := by
  unfold StyledState.flushItems HtmlState.flushItems
  have : st.erase.items = [] ↔ st.items = [] := by
    show st.items.map (·.1) = [] ↔ _
    simp
  by_cases h : st.items = []
  · rw [if_pos h, if_pos (this.mpr h)]
  · rw [if_neg h, if_neg (fun h' => h (this.mp h'))]
    unfold StyledState.erase
    simp only [Option.map_some, text_items, List.map_nil]
    cases st.current <;> rfl

theorem erase_finalize (st : StyledState) : (st.finalize env o).erase = st.erase.finalize o := by
  unfold StyledState.finalize HtmlState.finalize
  rw [← erase_flushText (env := env), ← erase_flushItems]
  dsimp only
  generalize (st.flushText env o).flushItems o = s
  unfold StyledState.erase
  cases s.current <;> simp

theorem erase_image (st : StyledState) (a : List (Str × Str)) :
    (st.image env o a).erase = st.erase.image env o a := by
  unfold StyledState.image HtmlState.image
  dsimp only
  split
  · rfl
  · cases env.load ((attrValue? a c!"src").getD []) with
    | some img =>
      cases h : st.current <;> simp [StyledState.erase, StyledSlide.mapText, h]
    | none => exact erase_addParagraph st _

theorem erase_openBody (st : StyledState) (n : Str) (a : List (Str × Str)) :
    (st.openBody env o n a).erase = st.erase.openBody env o n a := by
  unfold StyledState.openBody HtmlState.openBody
  split
  · rw [erase_finalize, erase_flushText]
  split
  · rw [erase_flushText]
  split
  · rfl
  split
  · rfl
  split
  · rfl
  split
  · rfl
  split
  · rfl
  split
  · rfl
  split
  · rw [erase_image]
  split <;> rfl

theorem erase_openTag (st : StyledState) (n : Str) (a : List (Str × Str)) :
    (st.openTag env o n a).map StyledState.erase = st.erase.openTag env o n a := by
  unfold StyledState.openTag HtmlState.openTag
  dsimp only
  have hs : (st.mapBase fun b => { b with stack := n :: b.stack }).base.inSkip =
      HtmlState.inSkip { st.erase with stack := n :: st.erase.stack } := rfl
  rw [hs]
  split
  · rfl
  · cases hv : voidTags.contains n with
    | true =>
      rw [if_pos rfl, Bool.not_true, Bool.false_and, if_neg (by decide), Option.map_some, erase_openBody]
      rfl
    | false =>
      rw [if_neg (by decide), Bool.not_false, Bool.true_and]
      have hn := childStyle_none env.low ((st.mapBase fun b => { b with stack := n :: b.stack }).styles.head?.getD {}) a
      split
      · rename_i h
        rw [hn.mpr h]; rfl
      · rename_i h
        obtain ⟨s, hs⟩ := Option.ne_none_iff_exists'.mp (fun h' => h (hn.mp h'))
        rw [hs, Option.map_some, Option.map_some, erase_openBody]
        rfl

theorem ite_erase {c : Prop} [Decidable c] {x y : Option StyledState} {x' y' : Option HtmlState}
    (h1 : x.map StyledState.erase = x') (h2 : y.map StyledState.erase = y') :
    (if c then x else y).map StyledState.erase = if c then x' else y' := by
  split
  · exact h1
  · exact h2

theorem ite_erase' {c : Prop} [Decidable c] {x y : StyledState} {x' y' : HtmlState}
    (h1 : x.erase = x') (h2 : y.erase = y') : (if c then x else y).erase = if c then x' else y' := by
  split
  · exact h1
  · exact h2

theorem erase_flushCode (st : StyledState) : (st.flushCode o).erase = st.erase.flushCode o := by
  refine ite_erase' rfl ?_
  cases h : st.current <;> simp [StyledState.erase, StyledSlide.mapText, h]

theorem erase_flushTable (st : StyledState) : (st.flushTable o).map StyledState.erase = st.erase.flushTable o := by
  refine ite_erase rfl ?_
  rw [Option.map_map]
  show _ = (tableFromStringRows st.base.rows).map _
  congr 1
  funext t
  cases h : st.current <;> simp [StyledState.erase, StyledSlide.mapText, h]

theorem erase_flushQuote (st : StyledState) : st.flushQuote.erase = st.erase.flushQuote := by
  refine ite_erase' rfl ?_
  cases h : st.current <;> simp [StyledState.erase, StyledSlide.mapText, h]

theorem erase_closeSub (st : StyledState) : (st.closeSub env).erase = st.erase.closeSub := by
  refine ite_erase' rfl ?_
  cases h : st.current <;> simp [StyledState.addFormatted, HtmlState.addFormatted, StyledState.erase, h,
    StyledState.withBuffer, StyledSlide.push]

theorem erase_closeItem (st : StyledState) : (st.closeItem env).erase = st.erase.closeItem := by
  unfold StyledState.closeItem HtmlState.closeItem
  have : st.erase.buffer = st.base.buffer := rfl
  rw [this]
  by_cases h : trim st.base.buffer = []
  · simp only [h, if_true]; rfl
  · simp only [h, if_false]
    simp [StyledState.erase, StyledState.withBuffer]

theorem erase_closeRow (st : StyledState) : (st.mapBase (·.closeRow)).erase = st.erase.closeRow := by
  unfold StyledState.mapBase HtmlState.closeRow
  have : st.erase.row = st.base.row := rfl
  rw [this]
  by_cases h : st.base.row = []
  · simp only [h, if_true]
  · simp only [h, if_false]; rfl

theorem erase_closeBody (st : StyledState) (n : Str) :
    (st.closeBody env o n).map StyledState.erase = st.erase.closeBody o n := by
  unfold StyledState.closeBody HtmlState.closeBody
  refine ite_erase rfl <| ite_erase (congrArg some (erase_closeSub st)) <| ite_erase (congrArg some (erase_flushText st)) <|
    ite_erase (congrArg some (erase_closeItem st)) <| ite_erase (congrArg some (erase_flushItems st)) <|
    ite_erase (congrArg some (erase_flushCode _)) <| ite_erase (erase_flushTable _) <|
    ite_erase (congrArg some (erase_flushQuote _)) <| ite_erase rfl <| ite_erase (congrArg some (erase_closeRow st)) <|
    ite_erase rfl <| ite_erase rfl rfl

theorem erase_popStyle (st : StyledState) (n : Str) : (st.popStyle n).erase = st.erase := by
  unfold StyledState.popStyle
  split <;> rfl

theorem erase_closeTag (st : StyledState) (n : Str) :
    (st.closeTag env o n).map StyledState.erase = st.erase.closeTag o n := by
  unfold StyledState.closeTag HtmlState.closeTag
  have hs : st.base.inSkip = st.erase.inSkip := rfl
  rw [hs, ← erase_closeBody (env := env)]
  split
  · rfl
  · cases h : st.closeBody env o n with
    | none => rfl
    | some s =>
      simp only [Option.map_some]
      rw [← erase_popStyle s n]
      rfl

theorem erase_step (st : StyledState) (e : HtmlEvent) :
    (st.step env o e).map StyledState.erase = st.erase.step env o e := by
  cases e with
  | openTag n a => exact erase_openTag st n a
  | closeTag n => exact erase_closeTag st n
  | text t =>
    show some (StyledState.erase _) = some _
    congr 1
    have key : ∀ (b : HtmlState) sl c it, HtmlState.addText { b with slides := sl, current := c, items := it } t =
        { b.addText t with slides := sl, current := c, items := it } := by
      intro b sl c it
      have e : HtmlState.inSkip { b with slides := sl, current := c, items := it } = b.inSkip := rfl
      unfold HtmlState.addText
      rw [e]
      by_cases h1 : b.inSkip = true
      · simp only [h1, if_true]
      by_cases h2 : b.inCode = true
      · simp only [h1, h2, if_true, if_false, Bool.false_eq_true]
      by_cases h3 : b.inTable = true
      · simp only [h1, h2, h3, if_true, if_false, Bool.false_eq_true]
      by_cases h4 : b.inQuote = true
      · simp only [h1, h2, h3, h4, if_true, if_false, Bool.false_eq_true]
      · simp only [h1, h2, h3, h4, if_false, Bool.false_eq_true]
    exact (key st.base _ _ _).symm

theorem erase_run (es : List HtmlEvent) : ∀ st : StyledState,
    (st.run env o es).map StyledState.erase = st.erase.run env o es := by
  induction es with
  | nil => intro st; rfl
  | cons e es ih =>
    intro st
    unfold StyledState.run HtmlState.run
    rw [← erase_step]
    cases h : st.step env o e with
    | none => rfl
    | some s => exact ih s

theorem erase_finish (st : StyledState) :
    (st.finish env o).map (List.map (·.text)) = st.erase.finish o := by
  unfold StyledState.finish HtmlState.finish
  rw [← erase_finalize (env := env)]
  dsimp only
  have : (st.finalize env o).erase.slides = (st.finalize env o).slides.map (·.text) := rfl
  rw [this]
  cases (st.finalize env o).slides with
  | nil => rfl
  | cons s l => simp [Except.map, List.map_take]

end PptRs.Html
