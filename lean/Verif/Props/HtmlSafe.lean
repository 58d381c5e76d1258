import Verif.Props.HtmlExact
import Verif.Props.Color
import Verif.Props.Entities

/-!
# C22: what can crash the import of a web page
-/

namespace PptRs.Props
open PptRs PptRs.Spec

theorem mem_of_mem_trim {s : Str} {c : Char} (h : c ∈ trim s) : c ∈ s := by
  have h1 : c ∈ trimStart s := (trimEnd_prefix _).sublist.mem h
  exact (List.dropWhile_sublist _).mem h1

theorem mem_of_mem_pieces {sep : Char} {s d : Str} (h : d ∈ splitChar sep s) {c : Char} (hc : c ∈ d) : c ∈ s := by
  induction s generalizing d with
  | nil => simp [splitChar] at h; subst h; simp at hc
  | cons x s ih =>
    rw [splitChar] at h
    split at h
    · rcases List.mem_cons.mp h with rfl | h
      · simp at hc
      · exact List.mem_cons_of_mem _ (ih h hc)
    · cases hs : splitChar sep s with
      | nil => exact absurd hs (splitChar_ne_nil sep s)
      | cons y ys =>
        rw [hs] at h
        rcases List.mem_cons.mp h with rfl | h
        · rcases List.mem_cons.mp hc with rfl | hc
          · simp
          · exact List.mem_cons_of_mem _ (ih (by rw [hs]; simp) hc)
        · exact List.mem_cons_of_mem _ (ih (by rw [hs]; simp [h]) hc)

theorem cssColor_ascii {v : Str} (h : AllAscii v) : cssColorPanics v = false := by
  unfold cssColorPanics
  split
  · rename_i hex he
    rw [stripPrefix?_eq_some] at he
    have hh : AllAscii hex := fun c hc => h c (mem_of_mem_trim (by rw [he]; simp [hc]))
    by_cases hl : utf8Len hex = 8
    · rw [utf8Len_ascii hh] at hl
      have := byteSlice_some hh (a := 0) (b := 6) (by omega) (by omega)
      simp [this]
    · simp [hl]
  · rfl

theorem style_ascii {low : Str → Str} {v : Str} (h : AllAscii v) : stylePanics low v = false := by
  unfold stylePanics
  rw [List.any_eq_false]
  intro d hd
  have hda : AllAscii d := fun c hc => h c (mem_of_mem_pieces hd hc)
  unfold declPanics
  split
  · rename_i prop value he
    have e := splitOnce?_some he
    have hv : AllAscii (trim value) := fun c hc => hda c (mem_of_mem_trim (by rw [e]; simp [mem_of_mem_trim hc]))
    simp [cssColor_ascii hv]
  · simp

/-- Rows of the table being read have cells, at most `n`. -/
def RowsOk (n : Nat) (st : HtmlState) : Prop := (∀ r ∈ st.rows, r ≠ [] ∧ r.length ≤ n) ∧ st.row.length ≤ n

theorem RowsOk.mono {n : Nat} {st : HtmlState} (h : RowsOk n st) : RowsOk (n + 1) st :=
  ⟨fun r hr => ⟨(h.1 r hr).1, by have := (h.1 r hr).2; omega⟩, by have := h.2; omega⟩

theorem RowsOk.of {n : Nat} {st st' : HtmlState} (h : RowsOk n st) (h1 : st'.rows = st.rows) (h2 : st'.row = st.row) : RowsOk n st' := by
  unfold RowsOk; rw [h1, h2]; exact h

theorem addParagraph_rows (o : HtmlOptions) (st : HtmlState) (t : Str) :
    (st.addParagraph o t).rows = st.rows ∧ (st.addParagraph o t).row = st.row := by
  unfold HtmlState.addParagraph; split <;> exact ⟨rfl, rfl⟩

theorem flushText_rows (o : HtmlOptions) (st : HtmlState) :
    (st.flushText o).rows = st.rows ∧ (st.flushText o).row = st.row := by
  unfold HtmlState.flushText
  exact ite_ind (Q := fun x : HtmlState => x.rows = st.rows ∧ x.row = st.row) (fun _ => ⟨rfl, rfl⟩) (fun _ => addParagraph_rows o _ _)

theorem flushItems_rows (o : HtmlOptions) (st : HtmlState) :
    (st.flushItems o).rows = st.rows ∧ (st.flushItems o).row = st.row := by
  unfold HtmlState.flushItems
  exact ite_ind (Q := fun x : HtmlState => x.rows = st.rows ∧ x.row = st.row) (fun _ => ⟨rfl, rfl⟩) (fun _ => ⟨rfl, rfl⟩)

theorem image_rows (env : HtmlEnv) (o : HtmlOptions) (st : HtmlState) (a : List (Str × Str)) :
    (st.image env o a).rows = st.rows ∧ (st.image env o a).row = st.row := by
  unfold HtmlState.image
  refine ite_ind (Q := fun x : HtmlState => x.rows = st.rows ∧ x.row = st.row) (fun _ => ⟨rfl, rfl⟩) (fun _ => ?_)
  split
  · exact ⟨rfl, rfl⟩
  · exact addParagraph_rows o _ _

theorem openBody_rows (env : HtmlEnv) (o : HtmlOptions) {n : Nat} {st : HtmlState} (h : RowsOk n st) (name : Str) (a : List (Str × Str)) :
    RowsOk n (st.openBody env o name a) := by
  have hf := flushText_rows o st
  have hfr := h.of hf.1 hf.2
  refine openBody_cases env o st name a (P := RowsOk n) ?_ hfr (h.of rfl rfl) ⟨by simp, h.2⟩ (h.of rfl rfl) (h.of rfl rfl)
    (fun m => h.of rfl rfl) (h.of (image_rows env o st a).1 (image_rows env o st a).2) h
  have h2 := flushText_rows o (st.flushText o)
  have h3 := flushItems_rows o ((st.flushText o).flushText o)
  have h4 := (hfr.of h2.1 h2.2).of h3.1 h3.2
  exact h4.of rfl rfl

theorem closeBody_rows {o : HtmlOptions} {n : Nat} {st st' : HtmlState} (h : RowsOk n st) {name : Str}
    (hc : st.closeBody o name = some st') : RowsOk (n + 1) st' := by
  have hm := h.mono
  refine closeBody_cases hc (P := RowsOk (n + 1)) (hm.of rfl rfl) ?_ (hm.of (flushText_rows o st).1 (flushText_rows o st).2)
    (hm.of rfl rfl) (hm.of (flushItems_rows o st).1 (flushItems_rows o st).2) ?_ ?_ ?_ ⟨hm.1, ?_⟩ ?_ (fun _ => hm.of rfl rfl) hm
  · intro _
    unfold HtmlState.closeSub
    refine ite_ind (Q := RowsOk (n + 1)) (fun _ => hm.of rfl rfl) (fun _ => ?_)
    exact hm.of rfl rfl
  · unfold HtmlState.flushCode
    exact ite_ind (Q := RowsOk (n + 1)) (fun _ => hm.of rfl rfl) (fun _ => hm.of rfl rfl)
  · intro st' he
    unfold HtmlState.flushTable at he
    revert he
    refine ite_ind (Q := fun x => x = some st' → RowsOk (n + 1) st') (fun _ he => ?_) (fun _ he => ?_)
    · simp only [Option.some.injEq] at he
      subst he; exact hm.of rfl rfl
    · obtain ⟨t, _, rfl⟩ := Option.map_eq_some_iff.mp he
      exact ⟨by simp, hm.2⟩
  · unfold HtmlState.flushQuote
    exact ite_ind (Q := RowsOk (n + 1)) (fun _ => hm.of rfl rfl) (fun _ => hm.of rfl rfl)
  · show (st.row ++ [trim st.cell]).length ≤ n + 1
    have := h.2
    simp; omega
  · unfold HtmlState.closeRow
    refine ite_ind (Q := RowsOk (n + 1)) (fun _ => hm) (fun hr => ⟨?_, by simp⟩)
    intro r hr'
    rcases List.mem_append.mp hr' with h1 | h1
    · exact hm.1 r h1
    · rw [List.mem_singleton] at h1
      subst h1
      exact ⟨hr, hm.2⟩

theorem closeBody_some {o : HtmlOptions} {n : Nat} {st : HtmlState} (h : RowsOk n st) (hn : n < 4294967296) (name : Str) :
    ∃ st', st.closeBody o name = some st' := by
  rw [← Option.isSome_iff_exists]
  unfold HtmlState.closeBody
  have it : ∀ {c : Prop} [Decidable c] {x : HtmlState} {y : Option HtmlState}, y.isSome = true →
      (if c then some x else y).isSome = true := by
    intro c _ x y h1
    exact ite_ind (Q := fun x : Option HtmlState => x.isSome = true) (fun _ => rfl) (fun _ => h1)
  refine it (it (it (it (it (it ?_)))))
  refine ite_ind (Q := fun x : Option HtmlState => x.isSome = true) (fun _ => ?_) (fun _ => it (it (it (it (it rfl)))))
  unfold HtmlState.flushTable
  refine ite_ind (Q := fun x : Option HtmlState => x.isSome = true) (fun _ => rfl) (fun he => ?_)
  rw [Option.isSome_map]
  simp only [Bool.or_eq_true, Bool.not_eq_true', List.isEmpty_iff, not_or] at he
  obtain ⟨r, hr⟩ := List.exists_mem_of_ne_nil _ he.2
  obtain ⟨t, ht, _⟩ := C57_string_rows_partial st.rows (.inr ⟨r, hr, (h.1 r hr).1⟩)
    (fun r hr => by have := (h.1 r hr).2; omega)
  rw [ht]; rfl

/-- A style attribute of a tag, if there is one, is ASCII text. -/
def asciiStyle : HtmlEvent → Prop
  | .openTag _ a => ∀ v, attrValue? a c!"style" = some v → AllAscii v
  | _ => True

theorem run_safe (env : HtmlEnv) (o : HtmlOptions) (es : List HtmlEvent) (st : HtmlState) (n : Nat) (h : RowsOk n st)
    (hn : n + es.length < 4294967296) (ha : ∀ e ∈ es, asciiStyle e) : ∃ st', st.run env o es = some st' := by
  induction es generalizing st n with
  | nil => exact ⟨st, rfl⟩
  | cons e es ih =>
    have hstep : ∃ st1, st.step env o e = some st1 ∧ RowsOk (n + 1) st1 := by
      cases e with
      | openTag name a =>
        have hs : stylePanics env.low ((attrValue? a c!"style").getD []) = false := by
          cases hv : attrValue? a c!"style" with
          | none => rfl
          | some v => exact style_ascii ((show asciiStyle (.openTag name a) from ha _ (by simp)) v hv)
        by_cases hk : HtmlState.inSkip { st with stack := name :: st.stack } = true
        · exact ⟨{ st with stack := name :: st.stack }, by simp only [HtmlState.step, HtmlState.openTag, hk, if_true], h.mono.of rfl rfl⟩
        · exact ⟨HtmlState.openBody env o { st with stack := name :: st.stack } name a, by
              simp only [HtmlState.step, HtmlState.openTag, hk, hs, Bool.and_false, Bool.false_eq_true, if_false],
            openBody_rows env o (st := { st with stack := name :: st.stack }) (h.mono.of rfl rfl) name a⟩
      | closeTag name =>
        by_cases hk : st.inSkip = true
        · exact ⟨{ st with stack := st.stack.drop 1 }, by simp only [HtmlState.step, HtmlState.closeTag, hk, if_true, Option.map_some], h.mono.of rfl rfl⟩
        · obtain ⟨st', hst'⟩ := closeBody_some (o := o) h (by omega) name
          exact ⟨{ st' with stack := st'.stack.drop 1 }, by simp only [HtmlState.step, HtmlState.closeTag, hk, Bool.false_eq_true, if_false, hst', Option.map_some],
            (closeBody_rows h hst').of rfl rfl⟩
      | text t =>
        refine ⟨_, rfl, ?_⟩
        have e : (st.addText t).rows = st.rows ∧ (st.addText t).row = st.row := by
          unfold HtmlState.addText
          refine ite_ind (Q := fun x : HtmlState => x.rows = st.rows ∧ x.row = st.row) (fun _ => ⟨rfl, rfl⟩) fun _ =>
            ite_ind (Q := fun x : HtmlState => x.rows = st.rows ∧ x.row = st.row) (fun _ => ⟨rfl, rfl⟩) fun _ =>
            ite_ind (Q := fun x : HtmlState => x.rows = st.rows ∧ x.row = st.row) (fun _ => ⟨rfl, rfl⟩) fun _ =>
            ite_ind (Q := fun x : HtmlState => x.rows = st.rows ∧ x.row = st.row) (fun _ => ⟨rfl, rfl⟩) fun _ => ⟨rfl, rfl⟩
        exact h.mono.of e.1 e.2
    obtain ⟨st1, h1, h2⟩ := hstep
    obtain ⟨st', h3⟩ := ih st1 (n + 1) h2 (by simp only [List.length_cons] at hn; omega) (fun e he => ha e (by simp [he]))
    exact ⟨st', by rw [run_cons, h1, Option.bind_some, h3]⟩

/-- **C22**, web pages: if style attributes are ASCII text nothing crashes the import, whatever tags come in whatever order.
(Missing: other style attributes.) -/
theorem C22_html_partial (env : HtmlEnv) (o : HtmlOptions) (page : Str)
    (hl : (tokenizeHtml env page).length < 4294967296) (ha : ∀ e ∈ tokenizeHtml env page, asciiStyle e) :
    parseHtml env o page ≠ none := by
  obtain ⟨st', h⟩ := run_safe env o (tokenizeHtml env page) {} 0 ⟨by simp, by simp⟩ (by omega) ha
  rw [parseHtml, parseEvents, h]
  simp


example (env : HtmlEnv) : ∀ e ∈ tokenizeHtml env c!"<p style=\"color:#1234\">x</p>", asciiStyle e := by
  have : tokenizeHtml env c!"<p style=\"color:#1234\">x</p>" =
    [.openTag c!"p" [(c!"style", c!"color:#1234")], .text c!"x", .closeTag c!"p"] := by krfl
  rw [this]
  intro e he
  rcases List.mem_cons.mp he with rfl | he
  · intro v hv
    have : v = c!"color:#1234" := by simpa [attrValue?] using hv.symm
    subst this
    exact (show ∀ c ∈ c!"color:#1234", c.toNat < 128 by decide)
  · rcases List.mem_cons.mp he with rfl | he
    · trivial
    · rw [List.mem_singleton] at he; subst he; trivial

end PptRs.Props
