import Verif.Props.HtmlExact
import Verif.Props.HtmlExport
import Verif.Props.FlowSource
import Verif.Props.Repair
import Verif.Model.HtmlScript

/-!
# C165: an exported page is imported again
-/

namespace PptRs.Props
open PptRs PptRs.Spec

/-! ### Tags with other attribute names -/

/-- The name of an attribute as it is kept: ASCII, in lower case, without the characters that end a name. -/
def isKeptName (n : Str) : Bool :=
  n ≠ [] && n.all fun c => !attrNameEnd c && decide (c.toNat < 128) && decide (c.toLower = c)

theorem kept_end {n : Str} (h : isKeptName n = true) : ∀ c ∈ n, (!attrNameEnd c) = true := by
  intro c hc
  simp only [isKeptName, Bool.and_eq_true, List.all_eq_true] at h
  exact (h.2 c hc).1.1

theorem kept_ne {n : Str} (h : isKeptName n = true) : n ≠ [] := by
  simp only [isKeptName, Bool.and_eq_true, decide_eq_true_eq] at h
  exact h.1

theorem lowerStr_kept {low : Str → Str} {n : Str} (h : isKeptName n = true) : lowerStr low n = n := by
  simp only [isKeptName, Bool.and_eq_true, List.all_eq_true, decide_eq_true_eq] at h
  unfold lowerStr
  rw [if_pos]
  · conv => rhs; rw [← List.map_id n]
    exact List.map_congr_left fun c hc => (h.2 c hc).2
  · rw [List.all_eq_true]
    intro c hc
    exact decide_eq_true (h.2 c hc).1.2

theorem readAttr_kept {k v r : Str} (hk : isKeptName k = true) :
    readAttr (k ++ c!"=\"" ++ v.flatMap htmlEsc ++ c!"\"" ++ r) = ((k, v.flatMap htmlEsc), r) := by
  have e : k ++ c!"=\"" ++ v.flatMap htmlEsc ++ c!"\"" ++ r = k ++ '=' :: ('"' :: (v.flatMap htmlEsc ++ '"' :: r)) := by simp
  obtain ⟨h1, h2⟩ := takeWhile_stop (p := fun c => !attrNameEnd c) (a := k) (c := '=')
    (r := '"' :: (v.flatMap htmlEsc ++ '"' :: r)) (kept_end hk) (by decide)
  have h3 : ('=' :: ('"' :: (v.flatMap htmlEsc ++ '"' :: r))).dropWhile htmlWs = '=' :: ('"' :: (v.flatMap htmlEsc ++ '"' :: r)) := by
    simp [htmlWs]
  obtain ⟨h4, h5⟩ := takeWhile_stop (p := fun c => c != '"') (a := v.flatMap htmlEsc) (c := '"') (r := r)
    (fun d hd => by simpa using (mem_written hd).2) (by decide)
  have h6 : readAttrValue (('"' :: (v.flatMap htmlEsc ++ '"' :: r)).dropWhile htmlWs) = (v.flatMap htmlEsc, r) := by
    have : ('"' :: (v.flatMap htmlEsc ++ '"' :: r)).dropWhile htmlWs = '"' :: (v.flatMap htmlEsc ++ '"' :: r) := by
      simp [htmlWs]
    rw [this]
    simp [readAttrValue, h4, h5]
  rw [e]
  unfold readAttr
  rw [h1, h2, h3]
  simp only [h6]

theorem attrLoop_kept (low : Str → Str) (attrs : List (Str × Str)) (h : attrs.all (fun x => isKeptName x.1) = true)
    (fuel : Nat) (r : Str) :
    attrLoop low (fuel + attrs.length) (writeHtmlAttrs attrs ++ '>' :: r) = (attrs, '>' :: r) := by
  induction attrs with
  | nil => simp [writeHtmlAttrs, attrLoop_end]
  | cons a attrs ih =>
    simp only [List.all_cons, Bool.and_eq_true] at h
    obtain ⟨k, v⟩ := a
    have hk := h.1
    obtain ⟨c, k', rfl⟩ : ∃ c k', k = c :: k' := by
      cases k with
      | nil => exact absurd rfl (kept_ne hk)
      | cons c k' => exact ⟨c, k', rfl⟩
    have he := kept_end hk c (by simp)
    simp only [attrNameEnd, Bool.not_eq_true', Bool.or_eq_false_iff, decide_eq_false_iff_not] at he
    have e : writeHtmlAttrs ((c :: k', v) :: attrs) ++ '>' :: r =
        ' ' :: (c :: k' ++ c!"=\"" ++ v.flatMap htmlEsc ++ c!"\"" ++ (writeHtmlAttrs attrs ++ '>' :: r)) := by
      simp [writeHtmlAttrs]
    rw [e, List.length_cons, ← Nat.add_assoc]
    have hd : (' ' :: (c :: k' ++ c!"=\"" ++ v.flatMap htmlEsc ++ c!"\"" ++ (writeHtmlAttrs attrs ++ '>' :: r))).dropWhile htmlWs =
        c :: (k' ++ c!"=\"" ++ v.flatMap htmlEsc ++ c!"\"" ++ (writeHtmlAttrs attrs ++ '>' :: r)) := by
      rw [List.dropWhile_cons, if_pos (show htmlWs ' ' = true from rfl), List.cons_append, List.cons_append, List.cons_append, List.cons_append,
        List.dropWhile_cons, if_neg (by rw [he.1.2]; simp)]
    have hr := readAttr_kept (v := v) (r := writeHtmlAttrs attrs ++ '>' :: r) hk
    simp only [List.cons_append] at hr
    unfold attrLoop
    rw [hd]
    simp only [he.1.1.2, he.2, if_false, hr, ih h.2, lowerStr_kept hk, decode_written]

theorem readOpenTag_kept (env : HtmlEnv) {n : Str} {attrs : List (Str × Str)} (hn : isHtmlName n = true)
    (ha : attrs.all (fun x => isKeptName x.1) = true) (r : Str) :
    readOpenTag env (n ++ writeHtmlAttrs attrs ++ '>' :: r) = ([.openTag n attrs], r) := by
  have hstop : ∃ c t, writeHtmlAttrs attrs ++ '>' :: r = c :: t ∧ htmlNameChar env.uni c = false := by
    cases attrs with
    | nil => exact ⟨'>', r, rfl, rfl⟩
    | cons a attrs => exact ⟨' ', _, by simp [writeHtmlAttrs]; rfl, rfl⟩
  obtain ⟨c, t, hct, hc⟩ := hstop
  obtain ⟨h1, h2⟩ := takeWhile_stop (p := htmlNameChar env.uni) (a := n) (c := c) (r := t) (nameChar_name hn) hc
  rw [List.append_assoc, hct]
  unfold readOpenTag
  rw [h1, h2]
  have hl : attrs.length ≤ (n ++ c :: t).length + 1 := by
    rw [← hct]
    have : attrs.length ≤ (writeHtmlAttrs attrs).length := by
      clear hct h1 h2 hn
      induction attrs with
      | nil => simp
      | cons a attrs ih =>
        simp only [List.all_cons, Bool.and_eq_true] at ha
        have := ih ha.2
        simp only [writeHtmlAttrs, List.flatMap_cons, List.length_append, List.length_cons] at this ⊢
        omega
    simp only [List.length_append]
    omega
  obtain ⟨f, hf⟩ := Nat.exists_eq_add_of_le hl
  rw [hf, Nat.add_comm attrs.length f, ← hct, attrLoop_kept env.low attrs ha]
  simp [lowerStr_name hn, name_ne hn]

/-! ### Lines of the page -/

/-- Text that begins with a tag, or nothing. -/
def BeginsTag (r : Str) : Prop := r = [] ∨ ∃ t, r = '<' :: t

/-- `a` is read as the events `es` if a tag or the end follows. -/
def Seg (env : HtmlEnv) (a : Str) (es : List HtmlEvent) : Prop :=
  BeginsTag a ∧ ∃ k, k ≤ a.length ∧ ∀ fuel r, BeginsTag r → tokenLoop env (fuel + k) (a ++ r) = es ++ tokenLoop env fuel r

theorem Seg.nil {env : HtmlEnv} : Seg env [] [] := ⟨.inl rfl, 0, by simp, fun _ _ _ => rfl⟩

theorem beginsTag_append {a b : Str} (ha : BeginsTag a) (hb : BeginsTag b) : BeginsTag (a ++ b) := by
  rcases ha with rfl | ⟨t, rfl⟩
  · exact hb
  · exact .inr ⟨t ++ b, rfl⟩

theorem Seg.append {env : HtmlEnv} {a b : Str} {es fs : List HtmlEvent} (ha : Seg env a es) (hb : Seg env b fs) :
    Seg env (a ++ b) (es ++ fs) := by
  obtain ⟨a1, k, hk, h1⟩ := ha
  obtain ⟨b1, j, hj, h2⟩ := hb
  refine ⟨beginsTag_append a1 b1, j + k, by rw [List.length_append]; omega, fun fuel r hr => ?_⟩
  rw [List.append_assoc, ← Nat.add_assoc, h1 _ _ (beginsTag_append b1 hr), h2 _ _ hr, List.append_assoc]

theorem Seg.flatMap {α : Type} {env : HtmlEnv} {f : α → Str} {g : α → List HtmlEvent} {l : List α} (h : ∀ x ∈ l, Seg env (f x) (g x)) :
    Seg env (l.flatMap f) (l.flatMap g) := by
  induction l with
  | nil => exact Seg.nil
  | cons x l ih =>
    rw [List.flatMap_cons, List.flatMap_cons]
    exact (h x (by simp)).append (ih fun y hy => h y (by simp [hy]))

/-- A tag with the text after it. -/
theorem seg_tag {env : HtmlEnv} {a t : Str} {es : List HtmlEvent} (ha : Tokens env a es) (hb : ∃ x, a = '<' :: x) (ht : '<' ∉ t) :
    Seg env (a ++ t) (es ++ textEvents t) := by
  obtain ⟨k, hk, h⟩ := ha
  obtain ⟨x, rfl⟩ := hb
  cases t with
  | nil =>
    refine ⟨.inr ⟨x, by simp⟩, k, by simpa using hk, fun fuel r _ => ?_⟩
    simpa [textEvents, trim, trimStart, trimEnd] using h fuel r
  | cons c t =>
    refine ⟨.inr ⟨x ++ c :: t, rfl⟩, k + 1, by simp only [List.length_append, List.length_cons] at hk ⊢; omega, fun fuel r hr => ?_⟩
    rw [show fuel + (k + 1) = (fuel + 1) + k by omega, List.append_assoc, h]
    have hall : ∀ y ∈ c :: t, (y != '<') = true := fun y hy => by
      simp only [bne_iff_ne, ne_eq]
      rintro rfl
      exact ht hy
    have htd : (c :: t ++ r).takeWhile (fun c => c != '<') = c :: t ∧ (c :: t ++ r).dropWhile (fun c => c != '<') = r := by
      rcases hr with rfl | ⟨u, rfl⟩
      · simpa using takeWhile_all hall
      · exact takeWhile_stop hall (by decide)
    have hc : c ≠ '<' := by rintro rfl; exact ht (by simp)
    rw [List.cons_append] at htd ⊢
    rw [tokenLoop_text env fuel (t ++ r) hc, htd.1, htd.2, List.append_assoc]

theorem tokens_kept (env : HtmlEnv) {n : Str} {attrs : List (Str × Str)} (hn : isHtmlName n = true)
    (ha : attrs.all (fun x => isKeptName x.1) = true) :
    Tokens env (c!"<" ++ n ++ writeHtmlAttrs attrs ++ c!">") [.openTag n attrs] := by
  refine ⟨1, by simp, fun fuel r => ?_⟩
  obtain ⟨c, n', rfl, h1, h2, h3⟩ := head_of_name hn
  have e : c!"<" ++ c :: n' ++ writeHtmlAttrs attrs ++ c!">" ++ r = '<' :: (c :: (n' ++ writeHtmlAttrs attrs ++ '>' :: r)) := by
    simp
  rw [e]
  have hr := readOpenTag_kept env hn ha r
  simp only [List.cons_append] at hr
  have hd : (c :: (n' ++ writeHtmlAttrs attrs ++ '>' :: r)).dropWhile htmlWs = c :: (n' ++ writeHtmlAttrs attrs ++ '>' :: r) := by
    simp [h3]
  rw [tokenLoop_tag]
  simp only [stripPrefix?, Ne.symm h1, if_false, h1, h2, hd, hr]

theorem seg_open (env : HtmlEnv) {n t : Str} {attrs : List (Str × Str)} (hn : isHtmlName n = true)
    (ha : attrs.all (fun x => isKeptName x.1) = true) (ht : '<' ∉ t) :
    Seg env (c!"<" ++ n ++ writeHtmlAttrs attrs ++ c!">" ++ t) (.openTag n attrs :: textEvents t) :=
  seg_tag (tokens_kept env hn ha) ⟨n ++ writeHtmlAttrs attrs ++ c!">", by simp⟩ ht

theorem seg_close (env : HtmlEnv) {n t : Str} (hn : isHtmlName n = true) (ht : '<' ∉ t) :
    Seg env (c!"</" ++ n ++ c!">" ++ t) (.closeTag n :: textEvents t) :=
  seg_tag (tokens_close env hn) ⟨'/' :: n ++ c!">", by simp⟩ ht

theorem Seg.of_eq {env : HtmlEnv} {a b : Str} {es fs : List HtmlEvent} (h : Seg env a es) (ha : b = a) (he : fs = es) : Seg env b fs := by
  subst ha; subst he; exact h

/-- Text of a page that is shown: without the two characters that have a meaning, and not blank. -/
structure Words (s : Str) : Prop where
  plain : PlainText s
  some : trim s ≠ []

theorem Words.events {s : Str} (h : Words s) : textEvents s = [.text s] := by
  simp [textEvents, h.some, C46_no_ampersand s h.plain.2]

theorem trim_dec_self (n : Nat) : trim (dec n) = dec n := by
  apply trim_tight
  have hw : ∀ c ∈ dec n, isWs c = false := by
    intro c hc
    have hd := isDigit_of_mem_dec hc
    simp only [Char.isDigit, Bool.and_eq_true, decide_eq_true_eq] at hd
    have h1 : 48 ≤ c.toNat := hd.1
    have h2 : c.toNat ≤ 57 := hd.2
    simp only [isWs, Bool.or_eq_false_iff, Bool.and_eq_false_iff, decide_eq_false_iff_not, beq_eq_false_iff_ne]
    omega
  exact ⟨fun c hc => hw c (List.mem_of_mem_head? hc), fun c hc => hw c (List.mem_of_mem_getLast? hc), dec_ne_nil n⟩

theorem words_dec (n : Nat) : Words (dec n) := ⟨plainText_dec n, by rw [trim_dec_self]; exact dec_ne_nil n⟩

theorem flatMap_same {α β : Type} {f g : α → List β} {l : List α} (h : ∀ x ∈ l, f x = g x) : l.flatMap f = l.flatMap g := by
  rw [List.flatMap_def, List.flatMap_def, List.map_congr_left h]

theorem esc_dec (n : Nat) : (dec n).flatMap htmlEsc = dec n := by
  have h : ∀ c ∈ dec n, htmlEsc c = [c] := by
    intro c hc
    unfold htmlEsc
    have ne : ∀ d : Char, d.isDigit = false → c ≠ d := fun d hd e => not_mem_dec hd (e ▸ hc)
    rw [if_neg (ne '&' rfl), if_neg (ne '<' rfl), if_neg (ne '>' rfl), if_neg (ne '"' rfl), if_neg (ne '\'' rfl)]
  rw [flatMap_same h]
  simp

/-! ### The events of a page -/

/-- The attributes of the frame of a slide. -/
def frameAttrs (i : Nat) : List (Str × Str) :=
  [(c!"class", c!"slide"), (c!"id", c!"slide-" ++ dec i), (c!"data-slide", dec i)]

/-- The events of the bullets. -/
def bulletEvents (l : List Str) : List HtmlEvent :=
  if l = [] then [] else
    .openTag c!"ul" [] :: (l.flatMap fun t => [.openTag c!"li" [], .text t, .closeTag c!"li"]) ++ [.closeTag c!"ul"]

/-- The events of the notes. -/
def noteEvents (on : Bool) (n : Option Str) : List HtmlEvent :=
  match on, n with
  | true, some t => [.openTag c!"div" [(c!"class", c!"speaker-notes")], .openTag c!"strong" [], .text c!"Notes:",
      .closeTag c!"strong", .text (' ' :: t), .closeTag c!"div"]
  | _, _ => []

/-- The events of a slide. -/
def slideEvents (on : Bool) (i : Nat) (s : HtmlExport.Slide) : List HtmlEvent :=
  [.openTag c!"div" (frameAttrs i), .openTag c!"div" [(c!"class", c!"slide-number")], .text (dec i), .closeTag c!"div",
    .openTag c!"h2" [], .text s.title, .closeTag c!"h2", .openTag c!"div" [(c!"class", c!"content")]]
  ++ bulletEvents s.content ++ noteEvents on s.notes ++ [.closeTag c!"div", .closeTag c!"div"]

/-- A slide of titles, bullets and notes only. -/
structure WordsOnly (s : HtmlExport.Slide) : Prop where
  title : Words s.title
  content : ∀ t ∈ s.content, Words t
  notes : ∀ t, s.notes = some t → trim t ≠ []
  table : s.table = none
  images : s.images = []
  code : s.code = []

theorem seg_bullets (env : HtmlEnv) {l : List Str} (h : ∀ t ∈ l, Words t) : Seg env (HtmlExport.renderBullets l) (bulletEvents l) := by
  unfold HtmlExport.renderBullets bulletEvents
  split
  · exact Seg.nil
  · refine (((seg_open env (n := c!"ul") (t := c!"\n") (attrs := []) rfl rfl (by decide)).append (Seg.flatMap fun t ht =>
      ((seg_open env (n := c!"li") (t := t) (attrs := []) rfl rfl (h t ht).plain.1).append
        (seg_close env (n := c!"li") (t := c!"\n") rfl (by decide))))).append (seg_close env (n := c!"ul") (t := c!"\n") rfl (by decide))).of_eq ?_ ?_
    · simp [writeHtmlAttrs]
    · have e : textEvents c!"\n" = [] := rfl
      rw [e]
      rw [flatMap_same (f := fun t => HtmlEvent.openTag c!"li" [] :: textEvents t ++ [HtmlEvent.closeTag c!"li"])
        (g := fun t => [.openTag c!"li" [], .text t, .closeTag c!"li"]) fun t ht => by rw [(h t ht).events]; rfl]
      simp

theorem seg_notes (env : HtmlEnv) (o : HtmlExport.Options) {n : Option Str} (h : ∀ t, n = some t → trim t ≠ []) :
    Seg env (HtmlExport.renderNotes o n) (noteEvents o.notes n) := by
  cases hn : o.notes with
  | false => simpa [HtmlExport.renderNotes, noteEvents, hn] using Seg.nil
  | true =>
    cases n with
    | none => simpa [HtmlExport.renderNotes, noteEvents, hn] using Seg.nil
    | some t =>
      have ht : '<' ∉ ' ' :: escapeHtml t := by
        rw [escapeHtml_eq, ← htmlEsc_eq]
        intro hm
        rcases List.mem_cons.mp hm with hm | hm
        · exact absurd hm (by decide)
        · exact (mem_written hm).1 rfl
      have hev : textEvents (' ' :: escapeHtml t) = [.text (' ' :: t)] := by
        have e : ' ' :: escapeHtml t = (' ' :: t).flatMap htmlEsc := by rw [escapeHtml_eq, ← htmlEsc_eq]; rfl
        have hne : trim (' ' :: escapeHtml t) ≠ [] := by
          have h1 := h t rfl
          rw [ne_eq, trim_eq_nil] at h1
          simp only [not_forall] at h1
          obtain ⟨c, hc, hw⟩ := h1
          simp only [Bool.not_eq_true] at hw
          obtain ⟨d, hd, hdw⟩ := isWs_esc hw
          refine trim_ne_nil (c := d) ?_ hdw
          rw [e]
          exact List.mem_flatMap.mpr ⟨c, by simp [hc], hd⟩
        unfold textEvents
        rw [if_neg hne, e, decode_written]
      refine ((seg_open env (n := c!"div") (t := []) (attrs := [(c!"class", c!"speaker-notes")]) rfl rfl (by simp)).append
        ((seg_open env (n := c!"strong") (t := c!"Notes:") (attrs := []) rfl rfl (by decide)).append
        ((seg_close env (n := c!"strong") (t := ' ' :: escapeHtml t) rfl ht).append
        (seg_close env (n := c!"div") (t := c!"\n") rfl (by decide))))).of_eq ?_ ?_
      · simp [HtmlExport.renderNotes, hn, writeHtmlAttrs, htmlEsc]
      · rw [hev]
        rfl

theorem seg_slide (env : HtmlEnv) (o : HtmlExport.Options) (i : Nat) {s : HtmlExport.Slide} (h : WordsOnly s) :
    Seg env (HtmlExport.renderSlide o i s) (slideEvents o.notes i s) := by
  have hn : '<' ∉ c!"\n" := by decide
  refine ((((seg_open env (n := c!"div") (t := c!"\n") (attrs := frameAttrs i) rfl rfl hn).append
    ((seg_open env (n := c!"div") (t := dec i) (attrs := [(c!"class", c!"slide-number")]) rfl rfl (words_dec i).plain.1).append
    ((seg_close env (n := c!"div") (t := c!"\n") rfl hn).append
    ((seg_open env (n := c!"h2") (t := s.title) (attrs := []) rfl rfl h.title.plain.1).append
    ((seg_close env (n := c!"h2") (t := c!"\n") rfl hn).append
    (seg_open env (n := c!"div") (t := c!"\n") (attrs := [(c!"class", c!"content")]) rfl rfl hn)))))).append
    ((seg_bullets env h.content).append (seg_notes env o h.notes))).append
    ((seg_close env (n := c!"div") (t := c!"\n") rfl hn).append (seg_close env (n := c!"div") (t := c!"\n") rfl hn))).of_eq ?_ ?_
  · simp [HtmlExport.renderSlide, h.table, h.images, h.code, writeHtmlAttrs, frameAttrs, esc_dec, htmlEsc]
  · rw [(words_dec i).events, h.title.events]
    simp [slideEvents, show textEvents c!"\n" = [] from rfl]

/-! ### What a page does -/

/-- The lines that still fit. -/
def fitIn (m : Nat) (c l : List Str) : List Str := c ++ l.take (m - c.length)

/-- The bullets of the imported slide after a slide of the page. -/
def slideLines (m : Nat) (on : Bool) (c : List Str) (x : HtmlExport.Slide × Nat) : List Str :=
  fitIn m (fitIn m (fitIn m c [dec x.2] ++ [c!"**" ++ trim x.1.title ++ c!"**"]) (x.1.content.map trim))
    (if on then (x.1.notes.map fun t => trim (c!"**Notes:** " ++ t)).toList else [])

section
variable (env : HtmlEnv) (o : HtmlOptions)

/-- A state inside the page. -/
def inPage (t : Str) (c : List Str) (buf : Str) (k items : List Str) : HtmlState :=
  mid [] (some (shown t c none [] none)) buf k items [] [] (some t)

theorem inPage_text (t : Str) (c : List Str) (buf : Str) {k : List Str} (items : List Str) (hk : SkipFree k) (s : Str) :
    HtmlState.step env o (inPage t c buf k items) (.text s) = some (inPage t c (buf ++ s) k items) := by
  have h1 : HtmlState.inSkip (inPage t c buf k items) = false := hk
  simp only [HtmlState.step, HtmlState.addText, h1]
  rfl

theorem inPage_open (t : Str) (c : List Str) (buf : Str) {k : List Str} (items : List Str) (hk : SkipFree k) {n : Str} {a : List (Str × Str)}
    (hn : skipTags.contains n = false) (ha : attrValue? a c!"style" = none)
    (hb : ∀ st : HtmlState, HtmlState.openBody env o st n a = st) :
    HtmlState.step env o (inPage t c buf k items) (.openTag n a) = some (inPage t c buf (n :: k) items) := by
  rw [step_open env o _ (show SkipFree (inPage t c buf k items).stack from hk) hn ha, hb]
  rfl

theorem inPage_h2 (t : Str) (c : List Str) {k : List Str} (items : List Str) (hk : SkipFree k) :
    HtmlState.step env o (inPage t c [] k items) (.openTag c!"h2" []) = some (inPage t c [] (c!"h2" :: k) items) := by
  rw [step_open env o _ (show SkipFree (inPage t c [] k items).stack from hk) rfl rfl]
  rfl

theorem inPage_ul (t : Str) (c : List Str) {k : List Str} (hk : SkipFree k) :
    HtmlState.step env o (inPage t c [] k []) (.openTag c!"ul" []) = some (inPage t c [] (c!"ul" :: k) []) := by
  rw [step_open env o _ (show SkipFree (inPage t c [] k []).stack from hk) rfl rfl]
  rfl

theorem inPage_strong (t : Str) (c : List Str) (buf : Str) {k : List Str} (items : List Str) (hk : SkipFree k) :
    HtmlState.step env o (inPage t c buf k items) (.openTag c!"strong" []) = some (inPage t c (buf ++ c!"**") (c!"strong" :: k) items) := by
  rw [step_open env o _ (show SkipFree (inPage t c buf k items).stack from hk) rfl rfl]
  rfl

theorem inPage_unstrong (t : Str) (c : List Str) (buf : Str) {k : List Str} (items : List Str) (hk : SkipFree (c!"strong" :: k)) :
    HtmlState.step env o (inPage t c buf (c!"strong" :: k) items) (.closeTag c!"strong") = some (inPage t c (buf ++ c!"**") k items) := by
  rw [step_close env o _ _ (show SkipFree (inPage t c buf (c!"strong" :: k) items).stack from hk)]
  rfl

theorem inPage_undiv (t : Str) (c : List Str) (buf : Str) {x : Str} {k : List Str} (items : List Str) (hk : SkipFree (x :: k)) :
    HtmlState.step env o (inPage t c buf (x :: k) items) (.closeTag c!"div") =
      some (inPage t (fitIn o.maxBullets c (filled buf)) [] k items) := by
  rw [step_close env o _ _ (show SkipFree (inPage t c buf (x :: k) items).stack from hk)]
  have : HtmlState.closeBody o (inPage t c buf (x :: k) items) c!"div" = some (HtmlState.flushText o (inPage t c buf (x :: k) items)) := rfl
  rw [this, inPage, flushText_shown]
  rfl

theorem inPage_unh2 (t : Str) (c : List Str) {buf : Str} {k : List Str} (items : List Str) (hk : SkipFree (c!"h2" :: k)) (hb : trim buf ≠ []) :
    HtmlState.step env o (inPage t c buf (c!"h2" :: k) items) (.closeTag c!"h2") =
      some (inPage t (c ++ [c!"**" ++ trim buf ++ c!"**"]) [] k items) := by
  rw [step_close env o _ _ (show SkipFree (inPage t c buf (c!"h2" :: k) items).stack from hk)]
  have : HtmlState.closeBody o (inPage t c buf (c!"h2" :: k) items) c!"h2" = some (HtmlState.closeSub (inPage t c buf (c!"h2" :: k) items)) := rfl
  rw [this]
  have hb' : trim (inPage t c buf (c!"h2" :: k) items).buffer ≠ [] := hb
  simp only [HtmlState.closeSub, if_neg hb']
  rfl

theorem inPage_unli (t : Str) (c : List Str) {buf : Str} {k : List Str} (items : List Str) (hk : SkipFree (c!"li" :: k)) (hb : trim buf ≠ []) :
    HtmlState.step env o (inPage t c buf (c!"li" :: k) items) (.closeTag c!"li") = some (inPage t c [] k (items ++ [trim buf])) := by
  rw [step_close env o _ _ (show SkipFree (inPage t c buf (c!"li" :: k) items).stack from hk)]
  have : HtmlState.closeBody o (inPage t c buf (c!"li" :: k) items) c!"li" = some (HtmlState.closeItem (inPage t c buf (c!"li" :: k) items)) := rfl
  rw [this]
  have hb' : trim (inPage t c buf (c!"li" :: k) items).buffer ≠ [] := hb
  simp only [HtmlState.closeItem, if_neg hb']
  rfl

theorem inPage_unul (t : Str) (c : List Str) {k : List Str} (items : List Str) (hk : SkipFree (c!"ul" :: k)) :
    HtmlState.step env o (inPage t c [] (c!"ul" :: k) items) (.closeTag c!"ul") =
      some (inPage t (fitIn o.maxBullets c items) [] k []) := by
  rw [step_close env o _ _ (show SkipFree (inPage t c [] (c!"ul" :: k) items).stack from hk)]
  have : HtmlState.closeBody o (inPage t c [] (c!"ul" :: k) items) c!"ul" = some (HtmlState.flushItems o (inPage t c [] (c!"ul" :: k) items)) := rfl
  rw [this]
  by_cases h : items = []
  · subst h
    simp [HtmlState.flushItems, inPage, mid, fitIn]
  · have h' : (inPage t c [] (c!"ul" :: k) items).items ≠ [] := h
    simp only [HtmlState.flushItems, if_neg h', Option.map_some]
    have := items_shown o.maxBullets t none [] none items c
    simp only [inPage, mid, Option.getD_some, this]
    rfl

theorem run_lis (t : Str) (c : List Str) {k : List Str} (items : List Str) (hk : SkipFree k) {l : List Str} (hl : ∀ b ∈ l, Words b) :
    HtmlState.run env o (inPage t c [] k items) (l.flatMap fun t => [.openTag c!"li" [], .text t, .closeTag c!"li"]) =
      some (inPage t c [] k (items ++ l.map trim)) := by
  induction l generalizing items with
  | nil => simp [HtmlState.run]
  | cons b l ih =>
    have hk1 : SkipFree (c!"li" :: k) := hk.cons rfl
    rw [List.flatMap_cons, run_append]
    simp only [run_cons, inPage_open env o t c [] items hk (n := c!"li") (a := []) rfl rfl (fun _ => rfl), Option.bind_some,
      inPage_text env o t c [] items hk1, List.nil_append, inPage_unli env o t c items hk1 (hl b (by simp)).some, HtmlState.run]
    rw [ih _ (fun x hx => hl x (by simp [hx]))]
    simp

theorem run_bullets (t : Str) (c : List Str) {k : List Str} (hk : SkipFree k) {l : List Str} (hl : ∀ b ∈ l, Words b) :
    HtmlState.run env o (inPage t c [] k []) (bulletEvents l) = some (inPage t (fitIn o.maxBullets c (l.map trim)) [] k []) := by
  unfold bulletEvents
  split
  · rename_i h
    subst h
    simp [HtmlState.run, fitIn]
  · have hk1 : SkipFree (c!"ul" :: k) := hk.cons rfl
    rw [List.cons_append, run_cons, inPage_ul env o t c hk, Option.bind_some, run_append, run_lis env o t c [] hk1 hl, Option.bind_some, run_cons,
      List.nil_append, inPage_unul env o t c _ hk1]
    rfl

theorem run_notes (t : Str) (c : List Str) {k : List Str} (hk : SkipFree k) (on : Bool) (n : Option Str) :
    HtmlState.run env o (inPage t c [] k []) (noteEvents on n) =
      some (inPage t (fitIn o.maxBullets c (if on then (n.map fun t => trim (c!"**Notes:** " ++ t)).toList else [])) [] k []) := by
  cases on with
  | false => simp [noteEvents, HtmlState.run, fitIn]
  | true =>
    cases n with
    | none => simp [noteEvents, HtmlState.run, fitIn]
    | some s =>
      have hk1 : SkipFree (c!"div" :: k) := hk.cons rfl
      have hk2 : SkipFree (c!"strong" :: c!"div" :: k) := hk1.cons rfl
      have hf : filled (c!"**" ++ c!"Notes:" ++ c!"**" ++ ' ' :: s) = [trim (c!"**Notes:** " ++ s)] := by
        have e : c!"**" ++ c!"Notes:" ++ c!"**" ++ ' ' :: s = c!"**Notes:** " ++ s := rfl
        rw [e, filled, if_neg (trim_ne_nil (c := '*') (by simp) rfl)]
      simp only [noteEvents, run_cons,
        inPage_open env o t c [] [] hk (n := c!"div") (a := [(c!"class", c!"speaker-notes")]) rfl rfl (fun _ => rfl), Option.bind_some,
        inPage_strong env o t c [] [] hk1, inPage_text env o t c _ [] hk2, inPage_unstrong env o t c _ [] hk2,
        inPage_text env o t c _ [] hk1, inPage_undiv env o t c _ [] hk1, HtmlState.run, List.nil_append, hf]
      rfl

theorem run_slide (t : Str) (c : List Str) {k : List Str} (hk : SkipFree k) (on : Bool) (i : Nat) {s : HtmlExport.Slide} (h : WordsOnly s) :
    HtmlState.run env o (inPage t c [] k []) (slideEvents on i s) =
      some (inPage t (slideLines o.maxBullets on c (s, i)) [] k []) := by
  have hk1 : SkipFree (c!"div" :: k) := hk.cons rfl
  have hk2 : SkipFree (c!"div" :: c!"div" :: k) := hk1.cons rfl
  have hk3 : SkipFree (c!"h2" :: c!"div" :: k) := hk1.cons rfl
  have hf : filled (dec i) = [dec i] := by rw [filled, trim_dec_self, if_neg (dec_ne_nil i)]
  have he : ∀ c : List Str, fitIn o.maxBullets c (filled []) = c := fun c => by simp [fitIn, filled, trim, trimStart, trimEnd]
  unfold slideEvents
  rw [List.append_assoc, List.append_assoc, run_append]
  simp only [run_cons,
    inPage_open env o t c [] [] hk (n := c!"div") (a := frameAttrs i) rfl rfl (fun _ => rfl), Option.bind_some,
    inPage_open env o t c [] [] hk1 (n := c!"div") (a := [(c!"class", c!"slide-number")]) rfl rfl (fun _ => rfl),
    inPage_text env o t c [] [] hk2, inPage_undiv env o t c _ [] hk2, List.nil_append, hf,
    inPage_h2 env o t _ [] hk1, inPage_text env o t _ [] [] hk3, inPage_unh2 env o t _ [] hk3 h.title.some,
    inPage_open env o t _ [] [] hk1 (n := c!"div") (a := [(c!"class", c!"content")]) rfl rfl (fun _ => rfl)]
  rw [show HtmlState.run env o _ [] = some _ from rfl, Option.bind_some, run_append, run_bullets env o t _ hk2 h.content, Option.bind_some, run_append,
    run_notes env o t _ hk2, Option.bind_some]
  simp only [run_cons, inPage_undiv env o t _ _ [] hk2, inPage_undiv env o t _ _ [] hk1, Option.bind_some, he]
  rfl

theorem run_slides (t : Str) (c : List Str) {k : List Str} (hk : SkipFree k) (on : Bool) {l : List (HtmlExport.Slide × Nat)} (h : ∀ x ∈ l, WordsOnly x.1) :
    HtmlState.run env o (inPage t c [] k []) (l.flatMap fun x => slideEvents on x.2 x.1) =
      some (inPage t (l.foldl (slideLines o.maxBullets on) c) [] k []) := by
  induction l generalizing c with
  | nil => rfl
  | cons x l ih =>
    rw [List.flatMap_cons, run_append, run_slide env o t c hk on x.2 (h x (by simp)), Option.bind_some, ih _ fun y hy => h y (by simp [hy])]
    rfl

end

/-! ### The whole page -/

theorem flatten_numbered {f : Nat → HtmlExport.Slide → Str} (l : List HtmlExport.Slide) (j : Nat) :
    (l.mapIdx fun i s => f (i + j) s).flatten = (l.zipIdx j).flatMap fun x => f x.2 x.1 := by
  induction l generalizing j with
  | nil => rfl
  | cons s l ih =>
    rw [List.mapIdx_cons, List.flatten_cons, List.zipIdx_cons, List.flatMap_cons, Nat.zero_add, ← ih (j + 1)]
    simp only [Nat.add_assoc, Nat.add_comm 1 j]

/-- The events of the first lines of a page. -/
def topEvents (title : Str) : List HtmlEvent :=
  [.openTag c!"html" [], .openTag c!"head" [], .openTag c!"meta" [(c!"charset", c!"UTF-8")],
    .openTag c!"meta" [(c!"name", c!"viewport"), (c!"content", c!"width=device-width, initial-scale=1.0")],
    .openTag c!"title" [], .text title, .closeTag c!"title"]

/-- The events between the head and the first slide. -/
def bodyEvents (title : Str) : List HtmlEvent :=
  [.closeTag c!"head", .openTag c!"body" [], .openTag c!"div" [(c!"class", c!"slide title-slide"), (c!"data-slide", c!"0")],
    .openTag c!"h1" [], .text title, .closeTag c!"h1", .closeTag c!"div"]

theorem seg_doctype (env : HtmlEnv) : Seg env c!"<!DOCTYPE html>\n" [] :=
  seg_tag (a := c!"<!DOCTYPE html>") (t := c!"\n") (es := []) ⟨1, by decide, fun _ _ => rfl⟩ ⟨_, rfl⟩ (by decide)

theorem seg_top (env : HtmlEnv) {title : Str} (h : Words title) :
    Seg env (c!"<!DOCTYPE html>\n<html>\n<head>\n<meta charset=\"UTF-8\">\n<meta name=\"viewport\" content=\"width=device-width, initial-scale=1.0\">\n"
      ++ (c!"<title>" ++ title ++ c!"</title>\n")) (topEvents title) := by
  have hn : '<' ∉ c!"\n" := by decide
  refine ((seg_doctype env).append ((seg_open env (n := c!"html") (t := c!"\n") (attrs := []) rfl rfl hn).append
    ((seg_open env (n := c!"head") (t := c!"\n") (attrs := []) rfl rfl hn).append
    ((seg_open env (n := c!"meta") (t := c!"\n") (attrs := [(c!"charset", c!"UTF-8")]) rfl rfl hn).append
    ((seg_open env (n := c!"meta") (t := c!"\n") (attrs := [(c!"name", c!"viewport"), (c!"content", c!"width=device-width, initial-scale=1.0")]) rfl rfl hn).append
    ((seg_open env (n := c!"title") (t := title) (attrs := []) rfl rfl h.plain.1).append
    (seg_close env (n := c!"title") (t := c!"\n") rfl hn))))))).of_eq ?_ ?_
  · simp [writeHtmlAttrs, htmlEsc]
  · rw [h.events]
    rfl

theorem seg_style (env : HtmlEnv) {css : Str} (h : '<' ∉ css) :
    Seg env (c!"<style>\n" ++ css ++ c!"</style>\n") (.openTag c!"style" [] :: textEvents ('\n' :: css) ++ [.closeTag c!"style"]) := by
  refine ((seg_open env (n := c!"style") (t := '\n' :: css) (attrs := []) rfl rfl (by
    intro hm
    rcases List.mem_cons.mp hm with hm | hm
    · exact absurd hm (by decide)
    · exact h hm)).append (seg_close env (n := c!"style") (t := c!"\n") rfl (by decide))).of_eq ?_ ?_
  · simp [writeHtmlAttrs]
  · rfl

theorem seg_body (env : HtmlEnv) {title : Str} (h : Words title) :
    Seg env (c!"</head>\n<body>\n" ++ (c!"<div class=\"slide title-slide\" data-slide=\"0\">\n<h1>" ++ title ++ c!"</h1>\n</div>\n")) (bodyEvents title) := by
  have hn : '<' ∉ c!"\n" := by decide
  refine ((seg_close env (n := c!"head") (t := c!"\n") rfl hn).append ((seg_open env (n := c!"body") (t := c!"\n") (attrs := []) rfl rfl hn).append
    ((seg_open env (n := c!"div") (t := c!"\n") (attrs := [(c!"class", c!"slide title-slide"), (c!"data-slide", c!"0")]) rfl rfl hn).append
    ((seg_open env (n := c!"h1") (t := title) (attrs := []) rfl rfl h.plain.1).append
    ((seg_close env (n := c!"h1") (t := c!"\n") rfl hn).append
    (seg_close env (n := c!"div") (t := c!"\n") rfl hn)))))).of_eq ?_ ?_
  · simp [writeHtmlAttrs, htmlEsc]
  · rw [h.events]
    rfl

theorem seg_end (env : HtmlEnv) : Seg env c!"</body>\n</html>" [.closeTag c!"body", .closeTag c!"html"] :=
  ((seg_close env (n := c!"body") (t := c!"\n") rfl (by decide)).append (seg_close env (n := c!"html") (t := []) rfl (by decide))).of_eq rfl rfl

theorem seg_slides (env : HtmlEnv) (o : HtmlExport.Options) {slides : List HtmlExport.Slide} (h : ∀ s ∈ slides, WordsOnly s) :
    Seg env (slides.mapIdx fun i s => HtmlExport.renderSlide o (i + 1) s).flatten
      ((slides.zipIdx 1).flatMap fun x => slideEvents o.notes x.2 x.1) := by
  rw [flatten_numbered (f := HtmlExport.renderSlide o) slides 1]
  exact Seg.flatMap fun x hx => seg_slide env o x.2 (h x.1 (List.fst_mem_of_mem_zipIdx hx))

/-- Where the whole text is one segment, its events are those of the text. -/
theorem Seg.tokenize {env : HtmlEnv} {a : Str} {es : List HtmlEvent} (h : Seg env a es) : tokenizeHtml env a = es := by
  obtain ⟨_, k, hk, h⟩ := h
  have := h (a.length + 1 - k) [] (.inl rfl)
  rw [List.append_nil, show a.length + 1 - k + k = a.length + 1 by omega] at this
  rw [tokenizeHtml, this, show a.length + 1 - k = (a.length - k) + 1 by omega]
  exact List.append_nil es

theorem run_style (env : HtmlEnv) (o : HtmlOptions) (st : HtmlState) (hk : SkipFree st.stack) (t : Str) :
    st.run env o (.openTag c!"style" [] :: textEvents t ++ [.closeTag c!"style"]) = some st := by
  have h1 : HtmlState.inSkip { st with stack := c!"style" :: st.stack } = true := by
    show (List.any (c!"style" :: st.stack) _) = true
    rw [List.any_cons]; rfl
  have hc : HtmlState.run env o { st with stack := c!"style" :: st.stack } [.closeTag c!"style"] = some st := by
    simp only [run_cons, HtmlState.step, HtmlState.closeTag, h1, if_true, Option.map_some, Option.bind_some]
    rfl
  rw [List.cons_append, run_cons]
  simp only [HtmlState.step, HtmlState.openTag, h1, if_true, Option.bind_some]
  unfold textEvents
  split
  · exact hc
  · rw [List.singleton_append, run_cons]
    simp only [HtmlState.step, HtmlState.addText, h1, if_true, Option.bind_some]
    exact hc

/-- A page without navigation is imported as one slide. Its title is that of the presentation. Its bullets are, for each slide of the page, the
number of the slide, its title in bold, its bullets and its notes, as long as there is room; the titles are kept even if there is none. -/
theorem C165_page_partial (env : HtmlEnv) (o : HtmlOptions) (a : HtmlExport.Assets) (x : HtmlExport.Options) (hx : x.navigation = false)
    (hs : '<' ∉ a.style) (hn : '<' ∉ a.notesCss) {title : Str} (ht : Words title) {slides : List HtmlExport.Slide} (h : ∀ s ∈ slides, WordsOnly s) :
    parseHtml env o (HtmlExport.exportHtml a x title slides) =
      some (.ok (List.take o.maxSlides [{ title := trim title
                                          content := (slides.zipIdx 1).foldl (slideLines o.maxBullets x.notes) []
                                          bullets := (slides.zipIdx 1).foldl (slideLines o.maxBullets x.notes) [] }])) := by
  have hcss : '<' ∉ a.style ++ (if x.notes then a.notesCss else []) := by
    intro hm
    rcases List.mem_append.mp hm with hm | hm
    · exact hs hm
    · split at hm
      · exact hn hm
      · simp at hm
  have hseg : Seg env (HtmlExport.exportHtml a x title slides) (topEvents title ++
      ((.openTag c!"style" [] :: textEvents ('\n' :: (a.style ++ (if x.notes then a.notesCss else []))) ++ [.closeTag c!"style"]) ++
      (bodyEvents title ++ (((slides.zipIdx 1).flatMap fun y => slideEvents x.notes y.2 y.1) ++ [.closeTag c!"body", .closeTag c!"html"])))) := by
    refine ((seg_top env ht).append ((seg_style env hcss).append ((seg_body env ht).append ((seg_slides env x h).append (seg_end env))))).of_eq ?_ rfl
    unfold HtmlExport.exportHtml
    simp only [hx, Bool.false_eq_true, if_false, List.append_nil, List.nil_append, List.append_assoc]
  have hk0 : SkipFree [c!"meta", c!"meta", c!"head", c!"html"] := rfl
  have hk2 : SkipFree [c!"body", c!"meta", c!"head", c!"html"] := rfl
  have h1 : HtmlState.run env o {} (topEvents title) = some (mid [] none [] [c!"meta", c!"meta", c!"head", c!"html"] [] [] [] none) := rfl
  have h2 : HtmlState.run env o (mid [] none [] [c!"meta", c!"meta", c!"head", c!"html"] [] [] [] none) (bodyEvents title) =
      some (inPage (trim title) [] [] [c!"body", c!"meta", c!"head", c!"html"] []) := by
    have hk1 : SkipFree [c!"div", c!"body", c!"meta", c!"head", c!"html"] := rfl
    have e1 : HtmlState.run env o (mid [] none [] [c!"meta", c!"meta", c!"head", c!"html"] [] [] [] none) (bodyEvents title) =
      HtmlState.run env o (HtmlState.closeTitle (mid [] none title [c!"div", c!"body", c!"meta", c!"head", c!"html"] [] [] [] none)) [.closeTag c!"div"] := by krfl
    have e2 : HtmlState.closeTitle (mid [] none title [c!"div", c!"body", c!"meta", c!"head", c!"html"] [] [] [] none) =
        inPage (trim title) [] [] [c!"div", c!"body", c!"meta", c!"head", c!"html"] [] := by
      simp [HtmlState.closeTitle, mid, inPage, ht.some, shown]
    rw [e1, e2, run_cons, inPage_undiv env o _ _ _ _ hk1]
    simp [fitIn, filled, trim, trimStart, trimEnd, HtmlState.run]
  rw [parseHtml, hseg.tokenize, parseEvents, run_append, h1, Option.bind_some, run_append, run_style env o _ hk0, Option.bind_some,
    run_append, h2, Option.bind_some, run_append, run_slides env o _ _ hk2 x.notes (fun y hy => h y.1 (List.fst_mem_of_mem_zipIdx hy)), Option.bind_some]
  have h3 : ∀ c, HtmlState.run env o (inPage (trim title) c [] [c!"body", c!"meta", c!"head", c!"html"] []) [.closeTag c!"body", .closeTag c!"html"] =
      some (inPage (trim title) c [] [c!"head", c!"html"] []) := fun c => rfl
  rw [h3, Option.map_some, inPage, finish_mid]
  rfl

/-- All lines of a slide of the page. -/
def allLines (on : Bool) (x : HtmlExport.Slide × Nat) : List Str :=
  [dec x.2, c!"**" ++ trim x.1.title ++ c!"**"] ++ x.1.content.map trim
    ++ (if on then (x.1.notes.map fun t => trim (c!"**Notes:** " ++ t)).toList else [])

theorem fitIn_all {m : Nat} {c l : List Str} (h : c.length + l.length ≤ m) : fitIn m c l = c ++ l := by
  rw [fitIn, List.take_of_length_le (by omega)]

theorem lines_fit {m : Nat} {on : Bool} (l : List (HtmlExport.Slide × Nat)) (c : List Str) (h : c.length + (l.flatMap (allLines on)).length ≤ m) :
    l.foldl (slideLines m on) c = c ++ l.flatMap (allLines on) := by
  induction l generalizing c with
  | nil => simp
  | cons x l ih =>
    rw [List.flatMap_cons, List.length_append] at h
    have e : slideLines m on c x = c ++ allLines on x := by
      unfold slideLines
      have hl : (allLines on x).length = 2 + x.1.content.length +
          (if on then (x.1.notes.map fun t => trim (c!"**Notes:** " ++ t)).toList else []).length := by
        simp only [allLines, List.length_append, List.length_map, List.length_cons, List.length_nil]
      rw [fitIn_all (c := c) (by simp only [List.length_cons, List.length_nil]; omega), fitIn_all (c := c ++ [dec x.2] ++ [_])
        (by simp only [List.length_append, List.length_cons, List.length_nil, List.length_map]; omega),
        fitIn_all (by simp only [List.length_append, List.length_cons, List.length_nil, List.length_map]; omega)]
      simp [allLines]
    rw [List.foldl_cons, e, ih _ (by rw [List.length_append]; omega), List.flatMap_cons, List.append_assoc]

/-- If there is room for all lines, all lines of the page are bullets of the slide, in order. -/
theorem C165_lines_partial (env : HtmlEnv) (o : HtmlOptions) (a : HtmlExport.Assets) (x : HtmlExport.Options) (hx : x.navigation = false)
    (hs : '<' ∉ a.style) (hn : '<' ∉ a.notesCss) {title : Str} (ht : Words title) {slides : List HtmlExport.Slide} (h : ∀ s ∈ slides, WordsOnly s)
    (h1 : 1 ≤ o.maxSlides) (hm : ((slides.zipIdx 1).flatMap (allLines x.notes)).length ≤ o.maxBullets) :
    parseHtml env o (HtmlExport.exportHtml a x title slides) =
      some (.ok [{ title := trim title
                   content := (slides.zipIdx 1).flatMap (allLines x.notes)
                   bullets := (slides.zipIdx 1).flatMap (allLines x.notes) }]) := by
  rw [C165_page_partial env o a x hx hs hn ht h, lines_fit _ [] (by simpa using hm), List.take_of_length_le (by simpa using h1)]
  rfl

/-- **C165 does not hold in full.** A page exported without navigation is imported as a single slide, however many slides it shows: the exporter
writes the titles of the slides as headings of the second level (src/export/html.rs line 131), and the importer begins a slide only at a heading of the
first level. -/
theorem C165_one_slide_violated (env : HtmlEnv) (o : HtmlOptions) (a : HtmlExport.Assets) (x : HtmlExport.Options) (hx : x.navigation = false)
    (hs : '<' ∉ a.style) (hn : '<' ∉ a.notesCss) {title : Str} (ht : Words title) {slides : List HtmlExport.Slide} (h : ∀ s ∈ slides, WordsOnly s)
    (h1 : 1 ≤ o.maxSlides) (h2 : slides.length ≠ 1) :
    ∃ l, parseHtml env o (HtmlExport.exportHtml a x title slides) = some (.ok l) ∧ l.length ≠ slides.length := by
  refine ⟨_, C165_page_partial env o a x hx hs hn ht h, ?_⟩
  rw [List.take_of_length_le (by simpa using h1)]
  exact fun e => h2 e.symm

/-! ### Pages with navigation -/

/-- How deep the tags are after the events, if it is never less than nothing. -/
def depthAfter : Nat → List HtmlEvent → Option Nat
  | d, [] => some d
  | d, .openTag _ _ :: es => depthAfter (d + 1) es
  | 0, .closeTag _ :: _ => none
  | d + 1, .closeTag _ :: es => depthAfter d es
  | d, .text _ :: es => depthAfter d es

theorem depthAfter_append {d e : Nat} {a b : List HtmlEvent} (h : depthAfter d a = some e) : depthAfter d (a ++ b) = depthAfter e b := by
  induction a generalizing d with
  | nil => simp only [depthAfter, Option.some.injEq] at h; subst h; rfl
  | cons x a ih =>
    cases x with
    | openTag n l => exact ih h
    | text s => cases d <;> exact ih h
    | closeTag n =>
      cases d with
      | zero => simp [depthAfter] at h
      | succ d => exact ih h

/-- At least `d` tags lie above a tag whose text is skipped. -/
def Buried (d : Nat) (k : List Str) : Prop := ∃ l x r, k = l ++ x :: r ∧ skipTags.contains x = true ∧ d ≤ l.length

theorem Buried.skip {d : Nat} {k : List Str} (h : Buried d k) : (k.any fun t => skipTags.contains t) = true := by
  obtain ⟨l, x, r, rfl, hx, _⟩ := h
  rw [List.any_append, List.any_cons, hx]
  simp

/-- While such a tag is open nothing but the stack changes. -/
theorem run_buried (env : HtmlEnv) (o : HtmlOptions) (st : HtmlState) {d e : Nat} {es : List HtmlEvent} (hb : Buried d st.stack)
    (h : depthAfter d es = some e) : ∃ k, Buried e k ∧ st.run env o es = some { st with stack := k } := by
  induction es generalizing st d with
  | nil =>
    simp only [depthAfter, Option.some.injEq] at h
    subst h
    exact ⟨st.stack, hb, rfl⟩
  | cons x es ih =>
    have hs : st.inSkip = true := hb.skip
    cases x with
    | openTag n a =>
      have hb' : Buried (d + 1) (n :: st.stack) := by
        obtain ⟨l, y, r, e1, e2, e3⟩ := hb
        exact ⟨n :: l, y, r, by rw [e1]; rfl, e2, by simpa using e3⟩
      have hs' : HtmlState.inSkip { st with stack := n :: st.stack } = true := hb'.skip
      obtain ⟨k, hk, hr⟩ := ih { st with stack := n :: st.stack } hb' h
      refine ⟨k, hk, ?_⟩
      rw [run_cons]
      simp only [HtmlState.step, HtmlState.openTag, hs', if_true, Option.bind_some]
      exact hr
    | text s =>
      have h' : depthAfter d es = some e := by cases d <;> exact h
      obtain ⟨k, hk, hr⟩ := ih st hb h'
      refine ⟨k, hk, ?_⟩
      rw [run_cons]
      simp only [HtmlState.step, HtmlState.addText, hs, if_true, Option.bind_some]
      exact hr
    | closeTag n =>
      cases d with
      | zero => simp [depthAfter] at h
      | succ d =>
        have hb' : Buried d (st.stack.drop 1) := by
          obtain ⟨l, y, r, e1, e2, e3⟩ := hb
          cases l with
          | nil => simp at e3
          | cons z l => exact ⟨l, y, r, by rw [e1]; rfl, e2, by simpa using e3⟩
        obtain ⟨k, hk, hr⟩ := ih { st with stack := st.stack.drop 1 } hb' h
        refine ⟨k, hk, ?_⟩
        rw [run_cons]
        simp only [HtmlState.step, HtmlState.closeTag, hs, if_true, Option.map_some, Option.bind_some]
        exact hr

theorem depthAfter_texts (d : Nat) (s : Str) : depthAfter d (textEvents s) = some d := by
  unfold textEvents
  split
  · cases d <;> rfl
  · cases d <;> rfl

theorem depthAfter_flatMap {α : Type} {f : α → List HtmlEvent} (d : Nat) {l : List α} (h : ∀ x ∈ l, depthAfter d (f x) = some d) :
    depthAfter d (l.flatMap f) = some d := by
  induction l with
  | nil => cases d <;> rfl
  | cons x l ih =>
    rw [List.flatMap_cons, depthAfter_append (h x (by simp))]
    exact ih fun y hy => h y (by simp [hy])

theorem depthAfter_bullets (d : Nat) (l : List Str) : depthAfter d (bulletEvents l) = some d := by
  unfold bulletEvents
  split
  · cases d <;> rfl
  · rw [List.cons_append]
    show depthAfter (d + 1) _ = _
    rw [depthAfter_append (depthAfter_flatMap (d + 1) fun x _ => rfl)]
    cases d <;> rfl

theorem depthAfter_notes (d : Nat) (on : Bool) (n : Option Str) : depthAfter d (noteEvents on n) = some d := by
  cases on <;> cases n <;> cases d <;> rfl

theorem depthAfter_slide (d : Nat) (on : Bool) (i : Nat) (s : HtmlExport.Slide) : depthAfter d (slideEvents on i s) = some d := by
  unfold slideEvents
  rw [List.append_assoc, List.append_assoc]
  rw [depthAfter_append (e := d + 2) rfl, depthAfter_append (depthAfter_bullets _ _), depthAfter_append (depthAfter_notes _ _ _)]
  cases d <;> rfl

/-- Text without `>` and without a quotation mark after `=`. -/
def quoteless : Str → Bool
  | [] => true
  | c :: s => c != '>' && (c != '=' || !((s.dropWhile htmlWs).head? == some '"' || (s.dropWhile htmlWs).head? == some '\'')) && quoteless s

theorem quoteless_dropWhile {s : Str} (p : Char → Bool) (h : quoteless s = true) : quoteless (s.dropWhile p) = true := by
  induction s with
  | nil => rfl
  | cons c s ih =>
    rw [List.dropWhile_cons]
    split
    · simp only [quoteless, Bool.and_eq_true] at h
      exact ih h.2
    · exact h

theorem dropWhile_gt {p : Char → Bool} (hp : p '>' = false) (s r : Str) :
    (s ++ '>' :: r).dropWhile p = s.dropWhile p ++ '>' :: r ∧ (s ++ '>' :: r).takeWhile p = s.takeWhile p := by
  induction s with
  | nil => simp [hp]
  | cons c s ih =>
    rw [List.cons_append, List.dropWhile_cons, List.dropWhile_cons, List.takeWhile_cons, List.takeWhile_cons]
    split
    · exact ⟨ih.1, by rw [ih.2]⟩
    · exact ⟨rfl, rfl⟩

theorem length_dropWhile_le' (p : Char → Bool) (s : Str) : (s.dropWhile p).length ≤ s.length := (List.dropWhile_sublist p).length_le

/-- One attribute of such a text. -/
theorem readAttr_quoteless {c : Char} {s : Str} (h : quoteless (c :: s) = true) (hw : htmlWs c = false) (hc : c ≠ '/') :
    ∃ kv u, quoteless u = true ∧ u.length ≤ s.length ∧ ∀ r, readAttr (c :: s ++ '>' :: r) = (kv, u ++ '>' :: r) := by
  have hgt : c ≠ '>' := by simp only [quoteless, Bool.and_eq_true, bne_iff_ne] at h; exact h.1.1
  have e1 := fun r => dropWhile_gt (p := fun c => !attrNameEnd c) rfl (c :: s) r
  have e2 := fun r => dropWhile_gt (p := htmlWs) rfl ((c :: s).dropWhile fun c => !attrNameEnd c) r
  have hq : quoteless (((c :: s).dropWhile fun c => !attrNameEnd c).dropWhile htmlWs) = true :=
    quoteless_dropWhile _ (quoteless_dropWhile _ h)
  have hl : c = '=' ∨ (((c :: s).dropWhile fun c => !attrNameEnd c).dropWhile htmlWs).length ≤ s.length := by
    by_cases hc2 : c = '='
    · exact .inl hc2
    · right
      refine (length_dropWhile_le' _ _).trans ?_
      rw [List.dropWhile_cons, if_pos (by simp [attrNameEnd, hw, hc, hc2, hgt])]
      exact length_dropWhile_le' _ _
  have hl2 : (((c :: s).dropWhile fun c => !attrNameEnd c).dropWhile htmlWs).length ≤ s.length + 1 :=
    (length_dropWhile_le' _ _).trans (length_dropWhile_le' _ _)
  have hceq : c = '=' → ((c :: s).dropWhile fun c => !attrNameEnd c).dropWhile htmlWs = '=' :: s := by
    rintro rfl; rfl
  generalize hu : ((c :: s).dropWhile fun c => !attrNameEnd c).dropWhile htmlWs = u at *
  cases u with
  | nil =>
    refine ⟨((c :: s).takeWhile fun c => !attrNameEnd c, []), [], rfl, by simp, fun r => ?_⟩
    unfold readAttr
    rw [(e1 r).1, (e1 r).2, (e2 r).1]
    rfl
  | cons d u =>
    by_cases hd : d = '='
    · subst hd
      have e3 := fun r => dropWhile_gt (p := htmlWs) rfl u r
      have hv : quoteless (u.dropWhile htmlWs) = true := by
        simp only [quoteless, Bool.and_eq_true] at hq
        exact quoteless_dropWhile _ hq.2
      have hnq : (u.dropWhile htmlWs).head? ≠ some '"' ∧ (u.dropWhile htmlWs).head? ≠ some '\'' := by
        simp only [quoteless, Bool.and_eq_true] at hq
        have := hq.1.2
        simpa using this
      have hlv : (u.dropWhile htmlWs).length ≤ s.length := by
        have := length_dropWhile_le' htmlWs u
        simp only [List.length_cons] at hl2
        omega
      generalize u.dropWhile htmlWs = v at *
      cases v with
      | nil =>
        refine ⟨((c :: s).takeWhile fun c => !attrNameEnd c, []), [], rfl, by simp, fun r => ?_⟩
        unfold readAttr
        rw [(e1 r).1, (e1 r).2, (e2 r).1]
        simp only [List.cons_append, (e3 r).1, List.nil_append]
        rfl
      | cons q v =>
        have e4 := fun r => dropWhile_gt (p := fun c => !unquotedEnd c) rfl (q :: v) r
        refine ⟨((c :: s).takeWhile fun c => !attrNameEnd c, (q :: v).takeWhile fun c => !unquotedEnd c),
          (q :: v).dropWhile fun c => !unquotedEnd c, quoteless_dropWhile _ hv, (length_dropWhile_le' _ _).trans hlv, fun r => ?_⟩
        have hq' : ¬ (q = '"' ∨ q = '\'') := by
          rintro (rfl | rfl)
          · exact hnq.1 rfl
          · exact hnq.2 rfl
        unfold readAttr
        rw [(e1 r).1, (e1 r).2, (e2 r).1]
        simp only [List.cons_append, (e3 r).1]
        simp only [List.cons_append] at e4
        simp only [readAttrValue, if_neg hq', (e4 r).1, (e4 r).2]
    · refine ⟨((c :: s).takeWhile fun c => !attrNameEnd c, []), d :: u, hq, ?_, fun r => ?_⟩
      · rcases hl with rfl | hl
        · exact absurd (List.cons.inj (hceq rfl)).1 hd
        · exact hl
      · unfold readAttr
        rw [(e1 r).1, (e1 r).2, (e2 r).1, List.cons_append]
        split
        · rename_i heq
          exact absurd (List.cons.inj heq).1 hd
        · rfl

/-- Such a text is read as attributes of a tag. -/
theorem attrLoop_quoteless (low : Str → Str) (n : Nat) : ∀ s : Str, s.length ≤ n → quoteless s = true →
    ∃ l, ∀ fuel r, n < fuel → attrLoop low fuel (s ++ '>' :: r) = (l, '>' :: r) := by
  induction n with
  | zero =>
    intro s hs _
    rw [List.length_eq_zero_iff.mp (Nat.le_zero.mp hs)]
    exact ⟨[], fun fuel r _ => attrLoop_end low fuel r⟩
  | succ n ih =>
    intro s hs h
    have e := fun r => (dropWhile_gt (p := htmlWs) rfl s r).1
    have hq := quoteless_dropWhile htmlWs h
    have hl := length_dropWhile_le' htmlWs s
    have hw : ∀ c t, s.dropWhile htmlWs = c :: t → htmlWs c = false := by
      intro c t hct
      have := List.head?_dropWhile_not htmlWs s
      rw [hct] at this
      simpa using this
    generalize hv : s.dropWhile htmlWs = v at *
    cases v with
    | nil =>
      refine ⟨[], fun fuel r hf => ?_⟩
      obtain ⟨f, rfl⟩ : ∃ f, fuel = f + 1 := ⟨fuel - 1, by omega⟩
      unfold attrLoop
      rw [e r]
      rfl
    | cons c t =>
      have hc : c ≠ '>' := by simp only [quoteless, Bool.and_eq_true, bne_iff_ne] at hq; exact hq.1.1
      by_cases hs2 : c = '/'
      · subst hs2
        have ht : quoteless t = true := by simp only [quoteless, Bool.and_eq_true] at hq; exact hq.2
        obtain ⟨l, hl2⟩ := ih t (by simp only [List.length_cons] at hl; omega) ht
        refine ⟨l, fun fuel r hf => ?_⟩
        obtain ⟨f, rfl⟩ : ∃ f, fuel = f + 1 := ⟨fuel - 1, by omega⟩
        unfold attrLoop
        rw [e r]
        simp only [List.cons_append, hc, if_false, if_true]
        exact hl2 f r (by omega)
      · obtain ⟨kv, u, hu, hlu, hr⟩ := readAttr_quoteless hq (hw c t rfl) hs2
        obtain ⟨l, hl2⟩ := ih u (by simp only [List.length_cons] at hl; omega) hu
        refine ⟨(lowerStr low kv.1, decodeEntities kv.2) :: l, fun fuel r hf => ?_⟩
        obtain ⟨f, rfl⟩ : ∃ f, fuel = f + 1 := ⟨fuel - 1, by omega⟩
        have := hr r
        simp only [List.cons_append] at this
        unfold attrLoop
        rw [e r]
        simp only [List.cons_append, hc, hs2, if_false, this, hl2 f r (by omega)]

/-- `<`, white space, a name and such a text up to `>` are an opening tag. -/
theorem tokens_quoteless (env : HtmlEnv) {n s : Str} (h : quoteless s = true) (hn : n.all (htmlNameChar fun _ => false) = true)
    (h0 : lowerStr env.low n ≠ []) (hs : ∃ t, s = ')' :: t ∨ s = ' ' :: t) :
    ∃ m l, Tokens env (c!"< " ++ n ++ s ++ c!">") [.openTag m l] := by
  obtain ⟨l, hl⟩ := attrLoop_quoteless env.low s.length s le_rfl h
  refine ⟨lowerStr env.low n, l, 1, by simp, fun fuel r => ?_⟩
  have hname : ∀ c ∈ n, htmlNameChar env.uni c = true := by
    intro c hc
    have := List.all_eq_true.mp hn c hc
    simp only [htmlNameChar, Repair.isAlnum, Bool.or_eq_true] at this ⊢
    rcases this with (((h1 | h1) | h1) | h1) | h1
    · left; left; left; left
      split at h1
      · rename_i h2; simp [h2, h1]
      · simp at h1
    all_goals simp [h1]
  have hne : n ≠ [] := by rintro rfl; exact h0 rfl
  obtain ⟨c, n', rfl⟩ : ∃ c n', n = c :: n' := by
    cases n with
    | nil => exact absurd rfl hne
    | cons c n' => exact ⟨c, n', rfl⟩
  have hcw : htmlWs c = false := by
    have := List.all_eq_true.mp hn c (by simp)
    by_contra hw
    simp only [Bool.not_eq_false, htmlWs, Bool.or_eq_true, decide_eq_true_eq] at hw
    rcases hw with ((rfl | rfl) | rfl) | rfl <;> revert this <;> decide
  have e : c!"< " ++ c :: n' ++ s ++ c!">" ++ r = '<' :: (' ' :: (c :: n' ++ s ++ '>' :: r)) := by simp
  have hstop : ∃ d t, s ++ '>' :: r = d :: t ∧ htmlNameChar env.uni d = false := by
    obtain ⟨t, rfl | rfl⟩ := hs
    · exact ⟨')', _, rfl, rfl⟩
    · exact ⟨' ', _, rfl, rfl⟩
  obtain ⟨d, t, hdt, hd⟩ := hstop
  obtain ⟨h1, h2⟩ := takeWhile_stop (p := htmlNameChar env.uni) (a := c :: n') (c := d) (r := t) hname hd
  have hdrop : (' ' :: (c :: n' ++ s ++ '>' :: r)).dropWhile htmlWs = c :: n' ++ (s ++ '>' :: r) := by
    rw [List.dropWhile_cons, if_pos (show htmlWs ' ' = true from rfl), List.append_assoc, List.cons_append, List.dropWhile_cons, if_neg (by simp [hcw])]
  have hopen : readOpenTag env (c :: n' ++ (s ++ '>' :: r)) = ([.openTag (lowerStr env.low (c :: n')) l], r) := by
    rw [← hdt] at h1 h2
    unfold readOpenTag
    rw [h1, h2, hl _ r (by simp only [List.length_append, List.length_cons]; omega)]
    simp [h0]
  rw [e, tokenLoop_tag, hdrop, hopen]
  simp only [stripPrefix?, show ¬ ('!' = ' ') by decide, show ¬ (' ' = '!') by decide, show ¬ (' ' = '/') by decide, if_false]

/-- The events of the controls. -/
def controlEvents : List HtmlEvent :=
  [.openTag c!"div" [(c!"class", c!"navigation-controls")],
    .openTag c!"button" [(c!"onclick", c!"previousSlide()"), (c!"id", c!"prevBtn")], .text c!"Previous", .closeTag c!"button",
    .openTag c!"button" [(c!"onclick", c!"nextSlide()"), (c!"id", c!"nextBtn")], .text c!"Next", .closeTag c!"button",
    .openTag c!"span" [(c!"id", c!"slideCounter")], .closeTag c!"span", .closeTag c!"div"]

theorem seg_controls (env : HtmlEnv) : Seg env HtmlExport.controls controlEvents := by
  have hn : '<' ∉ c!"\n" := by decide
  refine ((seg_open env (n := c!"div") (t := c!"\n") (attrs := [(c!"class", c!"navigation-controls")]) rfl rfl hn).append
    ((seg_open env (n := c!"button") (t := c!"Previous") (attrs := [(c!"onclick", c!"previousSlide()"), (c!"id", c!"prevBtn")]) rfl rfl (by decide)).append
    ((seg_close env (n := c!"button") (t := c!"\n") rfl hn).append
    ((seg_open env (n := c!"button") (t := c!"Next") (attrs := [(c!"onclick", c!"nextSlide()"), (c!"id", c!"nextBtn")]) rfl rfl (by decide)).append
    ((seg_close env (n := c!"button") (t := c!"\n") rfl hn).append
    ((seg_open env (n := c!"span") (t := []) (attrs := [(c!"id", c!"slideCounter")]) rfl rfl (by simp)).append
    ((seg_close env (n := c!"span") (t := c!"\n") rfl hn).append
    (seg_close env (n := c!"div") (t := c!"\n") rfl hn)))))))).of_eq ?_ ?_
  · krfl
  · krfl

/-- A piece of the script that is read as a tag, with the text after it. -/
theorem seg_piece (env : HtmlEnv) {a t n : Str} (hn : n.all (htmlNameChar fun _ => false) = true) (ha : n.all (fun c => c.toNat < 128) = true) (h0 : n ≠ [])
    (h : a = c!"< " ++ n ++ (a.drop (n.length + 2)).dropLast ++ c!">") (hq : quoteless (a.drop (n.length + 2)).dropLast = true)
    (hs : (a.drop (n.length + 2)).dropLast.head? = some ')' ∨ (a.drop (n.length + 2)).dropLast.head? = some ' ') (ht : '<' ∉ t) :
    ∃ es, Seg env (a ++ t) es ∧ ∀ d, depthAfter d es = some (d + 1) := by
  have hlow : lowerStr env.low n ≠ [] := by
    unfold lowerStr
    rw [if_pos ha]
    simpa using h0
  obtain ⟨m, l, hm⟩ := tokens_quoteless env hq hn hlow (by
    generalize (a.drop (n.length + 2)).dropLast = s at hs
    cases s with
    | nil => simp at hs
    | cons c s =>
      simp only [List.head?_cons, Option.some.injEq] at hs
      rcases hs with rfl | rfl
      · exact ⟨s, .inl rfl⟩
      · exact ⟨s, .inr rfl⟩)
  rw [← h] at hm
  refine ⟨_, seg_tag hm ⟨_, by rw [h]; rfl⟩ ht, fun d => ?_⟩
  rw [List.singleton_append]
  show depthAfter (d + 1) _ = _
  exact depthAfter_texts _ _

/-- The script is read as four opening tags more than closing tags, besides its own. -/
theorem seg_script (env : HtmlEnv) :
    ∃ es, Seg env (c!"<script>\n" ++ HtmlExport.navigationScript ++ c!"</script>\n") (.openTag c!"script" [] :: es) ∧ depthAfter 0 es = some 4 := by
  have h0 := seg_open env (n := c!"script") (t := '\n' :: HtmlExport.script0) (attrs := []) rfl rfl (by decide +kernel)
  obtain ⟨e1, h1, d1⟩ := seg_piece env (a := HtmlExport.script1) (t := HtmlExport.script2) (n := c!"-swipeThreshold") (by decide +kernel) (by decide +kernel) (by simp)
    (by decide +kernel) (by decide +kernel) (by decide +kernel) (by decide +kernel)
  obtain ⟨e2, h2, d2⟩ := seg_piece env (a := HtmlExport.script3) (t := HtmlExport.script4) (n := c!"slides.length") (by decide +kernel) (by decide +kernel) (by simp)
    (by decide +kernel) (by decide +kernel) (by decide +kernel) (by decide +kernel)
  obtain ⟨e3, h3, d3⟩ := seg_piece env (a := HtmlExport.script5) (t := HtmlExport.script6) (n := c!"slides.length") (by decide +kernel) (by decide +kernel) (by simp)
    (by decide +kernel) (by decide +kernel) (by decide +kernel) (by decide +kernel)
  obtain ⟨e4, h4, d4⟩ := seg_piece env (a := HtmlExport.script7 ++ c!"</script>") (t := c!"\n") (n := c!"slides.length") (by decide +kernel) (by decide +kernel) (by simp)
    (by decide +kernel) (by decide +kernel) (by decide +kernel) (by decide +kernel)
  refine ⟨textEvents ('\n' :: HtmlExport.script0) ++ (e1 ++ (e2 ++ (e3 ++ e4))), (h0.append (h1.append (h2.append (h3.append h4)))).of_eq ?_ ?_, ?_⟩
  · have e : c!"<" ++ c!"script" ++ writeHtmlAttrs [] ++ c!">" ++ '\n' :: HtmlExport.script0 = c!"<script>\n" ++ HtmlExport.script0 := rfl
    have e' : c!"</script>\n" = c!"</script>" ++ c!"\n" := rfl
    rw [e, e', HtmlExport.navigationScript]
    simp only [List.append_assoc]
  · rfl
  · rw [depthAfter_append (depthAfter_texts _ _), depthAfter_append (d1 _), depthAfter_append (d2 _), depthAfter_append (d3 _), d4]

/-- **C165 does not hold in full.** No slide at all is found in a page exported with navigation, which is the default. The importer does not treat
the text of a script as text: in `currentSlide < slides.length` it sees an opening tag. The last such tag ends only with the `>` of `</script>`
(src/export/html_navigation.js line 128), so the script is never closed and the rest of the page is skipped as part of it. -/
theorem C165_navigation_violated (env : HtmlEnv) (o : HtmlOptions) (a : HtmlExport.Assets) (x : HtmlExport.Options) (hx : x.navigation = true)
    (hj : a.navigationJs = HtmlExport.navigationScript) (hs : '<' ∉ a.style) (hc : '<' ∉ a.navigationCss) (hn : '<' ∉ a.notesCss)
    {title : Str} (ht : Words title) {slides : List HtmlExport.Slide} (h : ∀ s ∈ slides, WordsOnly s) :
    parseHtml env o (HtmlExport.exportHtml a x title slides) = some (.error ()) := by
  have hcss : '<' ∉ a.style ++ a.navigationCss ++ (if x.notes then a.notesCss else []) := by
    intro hm
    rcases List.mem_append.mp hm with hm | hm
    · exact (List.mem_append.mp hm).elim hs hc
    · split at hm
      · exact hn hm
      · simp at hm
  obtain ⟨es, hes, hd⟩ := seg_script env
  have hseg : Seg env (HtmlExport.exportHtml a x title slides) (topEvents title ++
      ((.openTag c!"style" [] :: textEvents ('\n' :: (a.style ++ a.navigationCss ++ (if x.notes then a.notesCss else []))) ++ [.closeTag c!"style"]) ++
      ((.openTag c!"script" [] :: es) ++
      (bodyEvents title ++ (((slides.zipIdx 1).flatMap fun y => slideEvents x.notes y.2 y.1) ++ (controlEvents ++ [.closeTag c!"body", .closeTag c!"html"])))))) := by
    refine ((seg_top env ht).append ((seg_style env hcss).append (hes.append ((seg_body env ht).append ((seg_slides env x h).append
      ((seg_controls env).append (seg_end env))))))).of_eq ?_ rfl
    unfold HtmlExport.exportHtml
    simp only [hx, hj, if_true, List.append_assoc]
  have hk0 : SkipFree [c!"meta", c!"meta", c!"head", c!"html"] := rfl
  have h1 : HtmlState.run env o {} (topEvents title) = some (mid [] none [] [c!"meta", c!"meta", c!"head", c!"html"] [] [] [] none) := rfl
  have h2 : HtmlState.step env o (mid [] none [] [c!"meta", c!"meta", c!"head", c!"html"] [] [] [] none) (.openTag c!"script" []) =
      some (mid [] none [] [c!"script", c!"meta", c!"meta", c!"head", c!"html"] [] [] [] none) := rfl
  have hb : Buried 0 (mid [] none [] [c!"script", c!"meta", c!"meta", c!"head", c!"html"] [] [] [] none).stack :=
    ⟨[], c!"script", [c!"meta", c!"meta", c!"head", c!"html"], rfl, rfl, le_rfl⟩
  have hdepth : depthAfter 0 (es ++ (bodyEvents title ++ (((slides.zipIdx 1).flatMap fun y => slideEvents x.notes y.2 y.1) ++
      (controlEvents ++ [.closeTag c!"body", .closeTag c!"html"])))) = some 2 := by
    rw [depthAfter_append hd, depthAfter_append (e := 4) rfl, depthAfter_append (depthAfter_flatMap 4 fun y _ => depthAfter_slide 4 x.notes y.2 y.1)]
    rfl
  obtain ⟨k, _, hk⟩ := run_buried env o _ hb hdepth
  rw [parseHtml, hseg.tokenize, parseEvents, run_append, h1, Option.bind_some, run_append, run_style env o _ hk0, Option.bind_some,
    List.cons_append, run_cons, h2, Option.bind_some, hk, Option.map_some]
  rfl

/-! ### Samples -/

/-- Style sheets and scripts. -/
def againAssets : HtmlExport.Assets := ⟨c!"body { margin: 0 }", c!"nav { }", c!"p { }", HtmlExport.navigationScript⟩

def againSlides : List HtmlExport.Slide :=
  [{ title := c!"One", content := [c!"a", c!" b "], notes := some c!"x < y" }, { title := c!"Two" }]

theorem againSlides_words : ∀ s ∈ againSlides, WordsOnly s := by
  have w : ∀ s : Str, '<' ∉ s → '&' ∉ s → trim s ≠ [] → Words s := fun s h1 h2 h3 => ⟨⟨h1, h2⟩, h3⟩
  intro s hs
  simp only [againSlides, List.mem_cons, List.not_mem_nil, or_false] at hs
  rcases hs with rfl | rfl
  · refine ⟨w _ (by decide) (by decide) (by decide), ?_, ?_, rfl, rfl, rfl⟩
    · intro t ht
      simp only [List.mem_cons, List.not_mem_nil, or_false] at ht
      rcases ht with rfl | rfl
      · exact w _ (by decide) (by decide) (by decide)
      · exact w _ (by decide) (by decide) (by decide)
    · intro t ht
      simp only [Option.some.injEq] at ht
      subst ht
      decide
  · exact ⟨w _ (by decide) (by decide) (by decide), by simp, by simp, rfl, rfl, rfl⟩

example (env : HtmlEnv) : parseHtml env defaultHtml (HtmlExport.exportHtml againAssets { navigation := false } c!"Deck" againSlides) =
    some (.ok [{ title := c!"Deck"
                 content := [c!"1", c!"**One**", c!"a", c!"b", c!"**Notes:** x < y", c!"2", c!"**Two**"]
                 bullets := [c!"1", c!"**One**", c!"a", c!"b", c!"**Notes:** x < y", c!"2", c!"**Two**"] }]) := by
  rw [C165_lines_partial env defaultHtml againAssets { navigation := false } rfl (by decide) (by decide) ⟨⟨by decide, by decide⟩, by decide⟩ againSlides_words
    (by decide) (by decide)]
  have : (againSlides.zipIdx 1).flatMap (allLines true) = [c!"1", c!"**One**", c!"a", c!"b", c!"**Notes:** x < y", c!"2", c!"**Two**"] := by decide
  show some (Except.ok [HtmlSlide.mk _ ((againSlides.zipIdx 1).flatMap (allLines true)) ((againSlides.zipIdx 1).flatMap (allLines true)) _ _ _ _]) = _
  rw [this]
  rfl

example (env : HtmlEnv) : parseHtml env defaultHtml (HtmlExport.exportHtml againAssets {} c!"Deck" againSlides) = some (.error ()) :=
  C165_navigation_violated env defaultHtml againAssets {} rfl rfl (by decide) (by decide) (by decide) ⟨⟨by decide, by decide⟩, by decide⟩ againSlides_words

end PptRs.Props
