import Verif.Model.HtmlExport
import Verif.Spec.HtmlPage
import Verif.Props.Escapers
import Verif.Props.Base64
import Verif.Lemmas.Str

/-!
# C119, C120: the page that is exported, and its navigation
-/

namespace PptRs.Props

open PptRs PptRs.Spec PptRs.Spec.Page PptRs.HtmlExport

/-! ### Reading -/

theorem page_run_append (s : State) (a b : Str) : run s (a ++ b) = ((run (run s a).1 b).1, (run s a).2 ++ (run (run s a).1 b).2) := by
  induction a generalizing s with
  | nil => rfl
  | cons c a ih => simp only [List.cons_append, run, ih, List.append_assoc]

/-- From one state to another. -/
def Goes (s : State) (a : Str) (t : State) (l : List Tok) : Prop := run s a = (t, l)

instance (s t : State) (a : Str) (l : List Tok) : Decidable (Goes s a t l) := inferInstanceAs (Decidable (run s a = (t, l)))

theorem Goes.append {s t u : State} {a b : Str} {l m : List Tok} (h : Goes s a t l) (g : Goes t b u m) : Goes s (a ++ b) u (l ++ m) := by
  unfold Goes at *
  rw [page_run_append, h]
  simp only [g]

theorem Goes.congr {s t : State} {a : Str} {l m : List Tok} (h : Goes s a t l) (e : l = m) : Goes s a t m := e ▸ h

theorem Goes.nil (s : State) : Goes s [] s [] := rfl

/-- Text that is no markup. -/
def PlainText (s : Str) : Prop := '<' ∉ s ∧ '&' ∉ s

/-- Text that can stand in an attribute. -/
def PlainAttr (s : Str) : Prop := '"' ∉ s ∧ '&' ∉ s

theorem goes_plain {b : Option Str} {s : Str} (h : PlainText s) : Goes (textState b) s (textState b) (s.map .ch) := by
  obtain ⟨h1, h2⟩ := h
  have hs : ∀ c, Page.step (textState b) c = stepText b c := fun c => by cases b <;> rfl
  induction s with
  | nil => rfl
  | cons c s ih =>
    simp only [List.mem_cons, not_or] at h1 h2
    have : Page.step (textState b) c = (textState b, [.ch c]) := by
      rw [hs]
      unfold stepText
      rw [if_neg (Ne.symm h1.1), if_neg (fun h => h2.1 h.1.symm)]
    unfold Goes
    rw [run, this]
    have := ih h1.2 h2.2
    unfold Goes at this
    simp only [this, List.map_cons, List.singleton_append]

theorem goes_escaped (s : Str) : Goes .data (escapeHtml s) .data (s.map .ch) := by
  rw [escapeHtml_eq]
  induction s with
  | nil => rfl
  | cons c s ih =>
    rw [List.flatMap_cons]
    refine (Goes.append (t := .data) (l := [.ch c]) ?_ ih)
    unfold htmlChar
    by_cases h1 : c = '&'
    · subst h1; decide
    rw [if_neg h1]
    by_cases h2 : c = '<'
    · subst h2; decide
    rw [if_neg h2]
    by_cases h3 : c = '>'
    · subst h3; decide
    rw [if_neg h3]
    by_cases h4 : c = '"'
    · subst h4; decide
    rw [if_neg h4]
    by_cases h5 : c = '\''
    · subst h5; decide
    rw [if_neg h5]
    exact goes_plain (b := none) (s := [c]) ⟨by simpa using Ne.symm h2, by simpa using Ne.symm h1⟩

theorem goes_quoted {t : Tag} {k s : Str} (h : '"' ∉ s) (v : Str) : Goes (.quoted '"' t k v) s (.quoted '"' t k (v ++ s)) [] := by
  induction s generalizing v with
  | nil => rw [List.append_nil]; rfl
  | cons c s ih =>
    simp only [List.mem_cons, not_or] at h
    unfold Goes
    have : Page.step (.quoted '"' t k v) c = (.quoted '"' t k (v ++ [c]), []) := if_neg (Ne.symm h.1)
    rw [run, this]
    have := ih h.2 (v ++ [c])
    unfold Goes at this
    simp only [this, List.append_assoc, List.singleton_append, List.nil_append]

theorem decodeValue_plain {s : Str} (h : '&' ∉ s) : decodeValue none s = s := by
  induction s with
  | nil => rfl
  | cons c s ih =>
    simp only [List.mem_cons, not_or] at h
    rw [decodeValue, if_neg (Ne.symm h.1), ih h.2]

/-- The end of an attribute. -/
theorem goes_quote {t : Tag} {k v : Str} (h : '&' ∉ v) : Goes (.quoted '"' t k v) c!"\"" (.attrGap { t with attrs := t.attrs ++ [(k, v)] }) [] := by
  unfold Goes
  rw [run, run]
  simp only [Page.step, if_true, decodeValue_plain h, List.append_nil]

/-- Style sheets and scripts: no `</`, and no `<` at the end. -/
def RawText : Str → Prop
  | [] => True
  | [c] => c ≠ '<'
  | c :: d :: s => ¬ (c = '<' ∧ d = '/') ∧ RawText (d :: s)

theorem RawText.append {a b : Str} (ha : RawText a) (hb : RawText b) : RawText (a ++ b) := by
  induction a with
  | nil => exact hb
  | cons c a ih =>
    cases a with
    | nil =>
      cases b with
      | nil => exact ha
      | cons d b => exact ⟨fun h => ha h.1, hb⟩
    | cons d a => exact ⟨ha.1, ih ha.2⟩

theorem goes_raw {n : Str} (hn : n ≠ c!"title") (s : Str) :
    (RawText s → Goes (.raw n) s (.raw n) (s.map .ch)) ∧
    (RawText ('<' :: s) → Goes (.rawLess n) s (.raw n) (.ch '<' :: s.map .ch)) := by
  induction s with
  | nil => exact ⟨fun _ => rfl, fun h => absurd rfl h⟩
  | cons c s ih =>
    have plain : c ≠ '<' → stepText (some n) c = (.raw n, [.ch c]) := fun h => by
      unfold stepText
      rw [if_neg h, if_neg (fun h => by simp [hn] at h)]
      rfl
    have less : stepText (some n) '<' = (.rawLess n, []) := rfl
    constructor
    · intro h
      unfold Goes
      rw [run]
      simp only [Page.step]
      by_cases hc : c = '<'
      · subst hc
        rw [less]
        have := ih.2 h
        unfold Goes at this
        simp only [this, List.nil_append, List.map_cons]
      · rw [plain hc]
        have := ih.1 (by cases s with | nil => trivial | cons d s => exact h.2)
        unfold Goes at this
        simp only [this, List.singleton_append, List.map_cons]
    · intro h
      obtain ⟨h1, h2⟩ := h
      unfold Goes
      rw [run]
      have hd : Page.step (.rawLess n) c = before c!"<" (stepText (some n) c) := if_neg fun h => h1 ⟨rfl, h⟩
      rw [hd]
      simp only [before]
      by_cases hc : c = '<'
      · subst hc
        rw [less]
        have := ih.2 h2
        unfold Goes at this
        simp only [this, List.map_cons, List.map_nil, List.append_nil, List.singleton_append]
      · rw [plain hc]
        have := ih.1 (by cases s with | nil => trivial | cons d s => exact h2.2)
        unfold Goes at this
        simp only [this, List.map_cons, List.map_nil, List.cons_append, List.nil_append]

theorem plainText_dec (n : Nat) : PlainText (dec n) := ⟨not_mem_dec rfl, not_mem_dec rfl⟩

theorem plainAttr_dec (n : Nat) : PlainAttr (dec n) := ⟨not_mem_dec rfl, not_mem_dec rfl⟩

theorem PlainAttr.append {a b : Str} (ha : PlainAttr a) (hb : PlainAttr b) : PlainAttr (a ++ b) :=
  ⟨fun h => (List.mem_append.mp h).elim ha.1 hb.1, fun h => (List.mem_append.mp h).elim ha.2 hb.2⟩

theorem toksL_append (a b : List Html) : toksL (a ++ b) = toksL a ++ toksL b := by
  induction a with
  | nil => rfl
  | cons h a ih => simp only [List.cons_append, toksL, ih, List.append_assoc]

theorem toksL_flatMap {α : Type _} (f : α → List Html) (l : List α) : toksL (l.flatMap f) = l.flatMap fun x => toksL (f x) := by
  induction l with
  | nil => rfl
  | cons x l ih => rw [List.flatMap_cons, List.flatMap_cons, toksL_append, ih]

theorem Goes.flatMap {α : Type _} {s : State} {f : α → Str} {g : α → List Tok} {l : List α} (h : ∀ x ∈ l, Goes s (f x) s (g x)) :
    Goes s (l.flatMap f) s (l.flatMap g) := by
  induction l with
  | nil => rfl
  | cons x l ih => exact (h x (.head _)).append (ih fun y hy => h y (.tail _ hy))

/-! ### What the page should be -/

def newline : Html := .text c!"\n"

/-- The list of bullets. -/
def bulletTree (l : List Str) : List Html :=
  if l = [] then [] else [.elem c!"ul" [] (newline :: l.flatMap fun t => [.elem c!"li" [] [.text t], newline]), newline]

/-- The address of an image: the data itself. -/
def dataUrl (i : Picture) (b : Bytes) : Str := c!"data:" ++ mime i.format ++ c!";base64," ++ base64 b

/-- An image. -/
def imageTree (i : Picture) : List Html :=
  match i.bytes with
  | some b => [.elem c!"div" [(c!"class", c!"image-container")] [.void c!"img" [(c!"src", dataUrl i b), (c!"alt", i.name)]], newline]
  | none => []

/-- A block of code. -/
def codeTree (highlight : Bool) (c : Str × Str) : List Html :=
  [.elem c!"pre" [] [.elem c!"code" (if highlight then [(c!"class", c!"language-" ++ c.1)] else []) [.text c.2]], newline]

/-- The notes. -/
def notesTree (o : Options) (n : Option Str) : List Html :=
  match n with
  | some t =>
    if o.notes then [.elem c!"div" [(c!"class", c!"speaker-notes")] [.elem c!"strong" [] [.text c!"Notes:"], .text (c!" " ++ t)], newline] else []
  | none => []

/-- A slide without table. -/
def slideTree (o : Options) (i : Nat) (s : Slide) : List Html :=
  [.elem c!"div" [(c!"class", c!"slide"), (c!"id", c!"slide-" ++ dec i), (c!"data-slide", dec i)]
    [newline, .elem c!"div" [(c!"class", c!"slide-number")] [.text (dec i)], newline, .elem c!"h2" [] [.text s.title], newline,
     .elem c!"div" [(c!"class", c!"content")]
      (newline :: bulletTree s.content ++ s.images.flatMap imageTree ++ s.code.flatMap (codeTree o.highlight) ++ notesTree o s.notes), newline],
   newline]

/-- The buttons. -/
def controlTree : List Html :=
  [.elem c!"div" [(c!"class", c!"navigation-controls")]
    [newline, .elem c!"button" [(c!"onclick", c!"previousSlide()"), (c!"id", c!"prevBtn")] [.text c!"Previous"], newline,
     .elem c!"button" [(c!"onclick", c!"nextSlide()"), (c!"id", c!"nextBtn")] [.text c!"Next"], newline,
     .elem c!"span" [(c!"id", c!"slideCounter")] [], newline], newline]

/-- The whole page. -/
def pageTree (a : Assets) (o : Options) (title : Str) (slides : List Slide) : List Html :=
  [newline, .elem c!"html" []
    [newline, .elem c!"head" []
      ([newline, .void c!"meta" [(c!"charset", c!"UTF-8")], newline,
        .void c!"meta" [(c!"name", c!"viewport"), (c!"content", c!"width=device-width, initial-scale=1.0")], newline,
        .elem c!"title" [] [.text title], newline,
        .elem c!"style" [] [.text (c!"\n" ++ a.style ++ (if o.navigation then a.navigationCss else []) ++ (if o.notes then a.notesCss else []))],
        newline]
       ++ if o.navigation then [.elem c!"script" [] [.text (c!"\n" ++ a.navigationJs)], newline] else []), newline,
     .elem c!"body" []
      ([newline, .elem c!"div" [(c!"class", c!"slide title-slide"), (c!"data-slide", c!"0")] [newline, .elem c!"h1" [] [.text title], newline],
        newline]
       ++ (slides.mapIdx fun i s => slideTree o (i + 1) s).flatten
       ++ if o.navigation then controlTree else []), newline]]

/-- A slide of which all is shown. -/
structure SlidePlain (o : Options) (s : Slide) : Prop where
  title : PlainText s.title
  content : ∀ t ∈ s.content, PlainText t
  table : s.table = none
  images : ∀ i ∈ s.images, PlainAttr i.name
  code : o.highlight = true → ∀ c ∈ s.code, PlainAttr c.1

/-- The style sheets and the script. -/
structure AssetsRaw (a : Assets) : Prop where
  style : RawText a.style
  navigationCss : RawText a.navigationCss
  notesCss : RawText a.notesCss
  navigationJs : RawText a.navigationJs

theorem goes_bullets {l : List Str} (h : ∀ t ∈ l, PlainText t) : Goes .data (renderBullets l) .data (toksL (bulletTree l)) := by
  unfold renderBullets bulletTree
  split
  · rfl
  · have h1 : Goes .data c!"<ul>\n" .data [.start c!"ul" [], .ch '\n'] := by decide
    have h3 : Goes .data c!"</ul>\n" .data [.fin c!"ul", .ch '\n'] := by decide
    have h2 : Goes .data (l.flatMap fun t => c!"<li>" ++ t ++ c!"</li>\n") .data
        (l.flatMap fun t => [.start c!"li" []] ++ t.map .ch ++ [.fin c!"li", .ch '\n']) := by
      refine Goes.flatMap fun t ht => ?_
      have a : Goes .data c!"<li>" .data [.start c!"li" []] := by decide
      have b : Goes .data c!"</li>\n" .data [.fin c!"li", .ch '\n'] := by decide
      exact (a.append (goes_plain (b := none) (h t ht))).append b
    refine ((h1.append h2).append h3).congr ?_
    simp [toksL, Html.toks, newline, toksL_flatMap]

theorem mime_plain (f : Str) : PlainAttr (mime f) := by
  unfold mime
  dsimp only
  split
  · exact ⟨by decide, by decide⟩
  · split
    · exact ⟨by decide, by decide⟩
    · split
      · exact ⟨by decide, by decide⟩
      · split
        · exact ⟨by decide, by decide⟩
        · exact ⟨by decide, by decide⟩

theorem digit_plain (n : Nat) : b64Digit n ≠ '"' ∧ b64Digit n ≠ '&' := by
  by_cases h : n < 64
  · have : ∀ n < 64, b64Digit n ≠ '"' ∧ b64Digit n ≠ '&' := by decide +kernel
    exact this n h
  · have e : b64Digit n = '/' := by
      unfold b64Digit
      rw [if_neg (by omega), if_neg (by omega), if_neg (by omega), if_neg (by omega)]
    rw [e]; decide

theorem base64_plain (b : Bytes) : PlainAttr (base64 b) := by
  have h : ∀ c ∈ base64 b, c ≠ '"' ∧ c ≠ '&' := by
    fun_induction base64 b with
    | case1 => simp
    | case2 x n =>
      intro c hc
      simp only [List.mem_cons, List.not_mem_nil, or_false] at hc
      rcases hc with rfl | rfl | rfl | rfl
      all_goals first | exact digit_plain _ | decide
    | case3 x y n =>
      intro c hc
      simp only [List.mem_cons, List.not_mem_nil, or_false] at hc
      rcases hc with rfl | rfl | rfl | rfl
      all_goals first | exact digit_plain _ | decide
    | case4 x y z rest n ih =>
      intro c hc
      simp only [List.mem_append, List.mem_cons, List.not_mem_nil, or_false] at hc
      rcases hc with (rfl | rfl | rfl | rfl) | hc
      · exact digit_plain _
      · exact digit_plain _
      · exact digit_plain _
      · exact digit_plain _
      · exact ih c hc
  exact ⟨fun hc => (h _ hc).1 rfl, fun hc => (h _ hc).2 rfl⟩

theorem goes_attr {t : Tag} {k v s : Str} (hv : '&' ∉ v) (h : PlainAttr s) :
    Goes (.quoted '"' t k v) (s ++ c!"\"") (.attrGap { t with attrs := t.attrs ++ [(k, v ++ s)] }) [] :=
  (goes_quoted h.1 v).append (goes_quote fun hc => (List.mem_append.mp hc).elim hv h.2)

theorem goes_image {o : Options} (ho : o.files = false) {i : Picture} (h : PlainAttr i.name) :
    Goes .data ((renderImage o i).getD []) .data (toksL (imageTree i)) := by
  unfold renderImage imageTree
  cases i.bytes with
  | none => rfl
  | some b =>
    simp only [Option.map_some, Option.getD_some]
    have hs : imageSource o i b = dataUrl i b := by
      unfold imageSource dataUrl
      rw [ho, if_neg (by decide), C20_encode_is_base64]
    rw [hs]
    have hu : PlainAttr (dataUrl i b) :=
      (((show PlainAttr c!"data:" from ⟨by decide, by decide⟩).append (mime_plain _)).append ⟨by decide, by decide⟩).append (base64_plain b)
    have h1 : Goes .data c!"<div class=\"image-container\"><img src=\"" (.quoted '"' ⟨false, c!"img", []⟩ c!"src" [])
      [.start c!"div" [(c!"class", c!"image-container")]] := by decide +kernel
    have h2 := goes_attr (t := ⟨false, c!"img", []⟩) (k := c!"src") (v := []) (by simp) hu
    have h3 : Goes (.attrGap ⟨false, c!"img", [(c!"src", dataUrl i b)]⟩) c!" alt=\"" (.quoted '"' ⟨false, c!"img", [(c!"src", dataUrl i b)]⟩ c!"alt" []) [] := rfl
    have h4 := goes_attr (t := ⟨false, c!"img", [(c!"src", dataUrl i b)]⟩) (k := c!"alt") (v := []) (by simp) h
    have h5 : Goes (.attrGap ⟨false, c!"img", [(c!"src", dataUrl i b), (c!"alt", i.name)]⟩) c!" /></div>\n" .data
      [.start c!"img" [(c!"src", dataUrl i b), (c!"alt", i.name)], .fin c!"div", .ch '\n'] := rfl
    have := (((h1.append h2).append h3).append h4).append h5
    refine (congrArg (fun s => Goes .data s .data _) ?_).mp (this.congr ?_)
    · simp only [List.append_assoc, List.cons_append, List.nil_append]
    · simp [toksL, Html.toks, newline]

theorem goes_code {o : Options} {c : Str × Str} (h : o.highlight = true → PlainAttr c.1) :
    Goes .data (renderCode o c) .data (toksL (codeTree o.highlight c)) := by
  have h3 : Goes .data c!"</code></pre>\n" .data [.fin c!"code", .fin c!"pre", .ch '\n'] := by decide +kernel
  unfold renderCode codeTree
  cases hh : o.highlight with
  | false =>
    have h1 : Goes .data c!"<pre><code>" .data [.start c!"pre" [], .start c!"code" []] := by decide +kernel
    refine ((h1.append (goes_escaped c.2)).append h3).congr ?_
    simp [toksL, Html.toks, newline]
  | true =>
    have h1 : Goes .data c!"<pre><code class=\"language-" (.quoted '"' ⟨false, c!"code", []⟩ c!"class" c!"language-") [.start c!"pre" []] := by decide +kernel
    have h2 := goes_attr (t := ⟨false, c!"code", []⟩) (k := c!"class") (v := c!"language-") (by decide) (h hh)
    have h4 : Goes (.attrGap ⟨false, c!"code", [(c!"class", c!"language-" ++ c.1)]⟩) c!">" .data
      [.start c!"code" [(c!"class", c!"language-" ++ c.1)]] := rfl
    have := (((h1.append h2).append h4).append (goes_escaped c.2)).append h3
    refine (congrArg (fun s => Goes .data s .data _) ?_).mp (this.congr ?_)
    · simp only [List.append_assoc, List.cons_append, List.nil_append, if_true]
    · simp [toksL, Html.toks, newline]

theorem goes_notes (o : Options) (n : Option Str) : Goes .data (renderNotes o n) .data (toksL (notesTree o n)) := by
  unfold renderNotes notesTree
  cases n with
  | none => cases o.notes <;> rfl
  | some t =>
    cases o.notes with
    | false => rfl
    | true =>
      have h1 : Goes .data c!"<div class=\"speaker-notes\"><strong>Notes:</strong> " .data
        ([.start c!"div" [(c!"class", c!"speaker-notes")], .start c!"strong" []] ++ c!"Notes:".map .ch ++ [.fin c!"strong", .ch ' ']) := by decide +kernel
      have h2 : Goes .data c!"</div>\n" .data [.fin c!"div", .ch '\n'] := by decide +kernel
      refine ((h1.append (goes_escaped t)).append h2).congr ?_
      simp [toksL, Html.toks, newline]

theorem goes_slide {o : Options} (ho : o.files = false) {s : Slide} (h : SlidePlain o s) (i : Nat) :
    Goes .data (renderSlide o i s) .data (toksL (slideTree o i s)) := by
  have a1 : Goes .data c!"<div class=\"slide\" id=\"slide-" (.quoted '"' ⟨false, c!"div", [(c!"class", c!"slide")]⟩ c!"id" c!"slide-") [] := by decide +kernel
  have a2 := goes_attr (t := ⟨false, c!"div", [(c!"class", c!"slide")]⟩) (k := c!"id") (v := c!"slide-") (by decide) (plainAttr_dec i)
  have a3 : Goes (.attrGap ⟨false, c!"div", [(c!"class", c!"slide"), (c!"id", c!"slide-" ++ dec i)]⟩) c!" data-slide=\""
    (.quoted '"' ⟨false, c!"div", [(c!"class", c!"slide"), (c!"id", c!"slide-" ++ dec i)]⟩ c!"data-slide" []) [] := rfl
  have a4 := goes_attr (t := ⟨false, c!"div", [(c!"class", c!"slide"), (c!"id", c!"slide-" ++ dec i)]⟩) (k := c!"data-slide") (v := []) (by simp)
    (plainAttr_dec i)
  have a5 : Goes (.attrGap ⟨false, c!"div", [(c!"class", c!"slide"), (c!"id", c!"slide-" ++ dec i), (c!"data-slide", dec i)]⟩) c!">\n" .data
    [.start c!"div" [(c!"class", c!"slide"), (c!"id", c!"slide-" ++ dec i), (c!"data-slide", dec i)], .ch '\n'] := rfl
  have b1 : Goes .data c!"<div class=\"slide-number\">" .data [.start c!"div" [(c!"class", c!"slide-number")]] := by decide +kernel
  have b2 := goes_plain (b := none) (plainText_dec i)
  have b3 : Goes .data c!"</div>\n" .data [.fin c!"div", .ch '\n'] := by decide +kernel
  have c1 : Goes .data c!"<h2>" .data [.start c!"h2" []] := by decide +kernel
  have c2 := goes_plain (b := none) h.title
  have c3 : Goes .data c!"</h2>\n" .data [.fin c!"h2", .ch '\n'] := by decide +kernel
  have d1 : Goes .data c!"<div class=\"content\">\n" .data [.start c!"div" [(c!"class", c!"content")], .ch '\n'] := by decide +kernel
  have e1 := goes_bullets h.content
  have e2 : Goes .data (s.images.flatMap fun i => (renderImage o i).getD []) .data (toksL (s.images.flatMap imageTree)) :=
    (Goes.flatMap fun x hx => goes_image ho (h.images x hx)).congr (toksL_flatMap _ _).symm
  have e3 : Goes .data (s.code.flatMap (renderCode o)) .data (toksL (s.code.flatMap (codeTree o.highlight))) :=
    (Goes.flatMap fun x hx => goes_code fun hh => h.code hh x hx).congr (toksL_flatMap _ _).symm
  have e4 := goes_notes o s.notes
  have := (((((((((((((((((a1.append a2).append a3).append a4).append a5).append b1).append b2).append b3).append c1).append c2).append c3).append
    d1).append e1).append e2).append e3).append e4).append b3).append b3)
  refine (congrArg (fun s => Goes .data s .data _) ?_).mp (this.congr ?_)
  · unfold renderSlide
    simp only [h.table, List.append_assoc, List.cons_append, List.nil_append, if_false, Bool.false_eq_true]
  · simp [toksL, Html.toks, newline, slideTree, toksL_append]

theorem goes_slides {o : Options} (ho : o.files = false) {l : List Slide} (h : ∀ s ∈ l, SlidePlain o s) (k : Nat) :
    Goes .data (l.mapIdx fun i s => renderSlide o (i + k) s).flatten .data (toksL (l.mapIdx fun i s => slideTree o (i + k) s).flatten) := by
  induction l generalizing k with
  | nil => rfl
  | cons s l ih =>
    rw [List.mapIdx_cons, List.mapIdx_cons, List.flatten_cons, List.flatten_cons, toksL_append]
    refine (goes_slide ho (h s (.head _)) _).append ?_
    have := ih (fun s hs => h s (.tail _ hs)) (k + 1)
    simpa only [Nat.add_assoc, Nat.add_comm 1 k] using this

set_option maxRecDepth 8000 in
/-- **C119**, where it holds: for a presentation whose title, slide titles and bullets contain neither `<` nor `&`, without tables, with
harmless names of images and languages, and with images put into the page, a browser finds exactly the slides: number, title, bullets, images
with their data, code and notes, in the order in which they were given. Code and notes may be any text. -/
theorem C119_page_partial (a : Assets) (ha : AssetsRaw a) (o : Options) (ho : o.files = false) (title : Str) (slides : List Slide)
    (ht : PlainText title) (hs : ∀ s ∈ slides, SlidePlain o s) :
    Page.read (exportHtml a o title slides) = toksL (pageTree a o title slides) := by
  have a1 : Goes .data c!"<!DOCTYPE html>\n<html>\n<head>\n<meta charset=\"UTF-8\">\n<meta name=\"viewport\" content=\"width=device-width, initial-scale=1.0\">\n" .data
    [.ch '\n', .start c!"html" [], .ch '\n', .start c!"head" [], .ch '\n', .start c!"meta" [(c!"charset", c!"UTF-8")], .ch '\n',
     .start c!"meta" [(c!"name", c!"viewport"), (c!"content", c!"width=device-width, initial-scale=1.0")], .ch '\n'] := by decide +kernel
  have b1 : Goes .data c!"<title>" (.raw c!"title") [.start c!"title" []] := by decide +kernel
  have b2 := goes_plain (b := some c!"title") ht
  have b3 : Goes (.raw c!"title") c!"</title>\n" .data [.fin c!"title", .ch '\n'] := by decide +kernel
  have c1 : Goes .data c!"<style>\n" (.raw c!"style") [.start c!"style" [], .ch '\n'] := by decide +kernel
  have c2 := (goes_raw (n := c!"style") (by decide)
    (a.style ++ (if o.navigation then a.navigationCss else []) ++ (if o.notes then a.notesCss else []))).1
      ((ha.style.append (by split; exact ha.navigationCss; trivial)).append (by split; exact ha.notesCss; trivial))
  have c3 : Goes (.raw c!"style") c!"</style>\n" .data [.fin c!"style", .ch '\n'] := by decide +kernel
  have d : Goes .data (if o.navigation then c!"<script>\n" ++ a.navigationJs ++ c!"</script>\n" else []) .data
      (toksL (if o.navigation then [.elem c!"script" [] [.text (c!"\n" ++ a.navigationJs)], newline] else [])) := by
    split
    · have d1 : Goes .data c!"<script>\n" (.raw c!"script") [.start c!"script" [], .ch '\n'] := by decide +kernel
      have d2 := (goes_raw (n := c!"script") (by decide) _).1 ha.navigationJs
      have d3 : Goes (.raw c!"script") c!"</script>\n" .data [.fin c!"script", .ch '\n'] := by decide +kernel
      refine ((d1.append d2).append d3).congr ?_
      simp [toksL, Html.toks, newline]
    · rfl
  have e1 : Goes .data c!"</head>\n<body>\n" .data [.fin c!"head", .ch '\n', .start c!"body" [], .ch '\n'] := by decide +kernel
  have f1 : Goes .data c!"<div class=\"slide title-slide\" data-slide=\"0\">\n<h1>" .data
    [.start c!"div" [(c!"class", c!"slide title-slide"), (c!"data-slide", c!"0")], .ch '\n', .start c!"h1" []] := by decide +kernel
  have f2 := goes_plain (b := none) ht
  have f3 : Goes .data c!"</h1>\n</div>\n" .data [.fin c!"h1", .ch '\n', .fin c!"div", .ch '\n'] := by decide +kernel
  have g := goes_slides ho hs 1
  have k : Goes .data (if o.navigation then controls else []) .data (toksL (if o.navigation then controlTree else [])) := by
    split
    · refine Goes.congr (l := (run .data controls).2) ?_ (by decide +kernel)
      unfold Goes
      exact Prod.ext (by decide +kernel) rfl
    · rfl
  have m : Goes .data c!"</body>\n</html>" .data [.fin c!"body", .ch '\n', .fin c!"html"] := by decide +kernel
  have := ((((((((((((((a1.append b1).append b2).append b3).append c1).append c2).append c3).append d).append e1).append f1).append f2).append f3).append
    g).append k).append m)
  unfold Page.read exportHtml
  refine (congrArg (fun s => (run .data s).2) ?_).trans ((congrArg Prod.snd this).trans ?_)
  · simp only [List.append_assoc, List.cons_append, List.nil_append]
  · simp [toksL, Html.toks, newline, pageTree, toksL_append]

def sampleAssets : Assets := ⟨c!"b{}", c!".slide{}", c!".n{}", c!"if (i < 3) {}"⟩

example : AssetsRaw sampleAssets := by
  constructor <;> simp [sampleAssets, RawText]

example : SlidePlain {} { title := c!"Über uns", content := [c!"one > two"], code := [(c!"rust", c!"a < b && c")], notes := some c!"<b>" } :=
  ⟨⟨by decide, by decide⟩, by simp [PlainText], rfl, by simp, by simp [PlainAttr]⟩

example : Page.read (exportHtml sampleAssets { navigation := false } c!"T" [{ title := c!"A", content := [c!"x"], notes := some c!"<b>" }])
    = toksL (pageTree sampleAssets { navigation := false } c!"T" [{ title := c!"A", content := [c!"x"], notes := some c!"<b>" }]) := by
  decide +kernel

/-- The names of the elements of a page. -/
def elementNames (l : List Tok) : List Str := l.filterMap fun | .start n _ => some n | _ => none

/-- The text of a page. -/
def pageText (l : List Tok) : Str := l.filterMap fun | .ch c => some c | _ => none

/-- **C119 does not hold in full.** Titles and bullets of slides, and the title of the presentation, are put into the page as they are. A bullet that
contains a `script` element becomes a script that is run by whoever opens the page. -/
theorem C119_markup_violated : ∃ t : Str,
    c!"script" ∈ elementNames (Page.read (exportHtml sampleAssets { navigation := false } c!"T" [{ title := c!"A", content := [t] }]))
    ∧ c!"script" ∈ elementNames (Page.read (exportHtml sampleAssets { navigation := false } c!"T" [{ title := t }]))
    ∧ c!"script" ∈ elementNames (Page.read (exportHtml sampleAssets { navigation := false } t []))
    ∧ c!"script" ∉ elementNames (toksL (pageTree sampleAssets { navigation := false } t [{ title := t, content := [t] }])) :=
  ⟨c!"<script>alert(1)</script>", by decide +kernel⟩

/-- **C119 does not hold in full.** Since bullets are not escaped in the exported page, a bullet that explains how to write `&lt;` is shown as `<`, and
what stands between `<` and `>`, like the type in `Vec<u8>`, is not shown at all. -/
theorem C119_text_violated :
    (∀ t, t = c!"Write &lt;" → ¬ t <:+: pageText (Page.read (exportHtml sampleAssets { navigation := false } c!"T" [{ title := c!"A", content := [t] }])))
    ∧ (∀ t, t = c!"Vec<u8> of bytes" → ¬ t <:+: pageText (Page.read (exportHtml sampleAssets { navigation := false } c!"T" [{ title := c!"A", content := [t] }])))
    ∧ c!"Vec of bytes" <:+: pageText (Page.read (exportHtml sampleAssets { navigation := false } c!"T" [{ title := c!"A", content := [c!"Vec<u8> of bytes"] }])) := by
  refine ⟨?_, ?_, ?_⟩
  · rintro t rfl; decide +kernel
  · rintro t rfl; decide +kernel
  · decide +kernel

/-- **C119 does not hold in full.** Of a table only the words "Table content" are exported to HTML, whatever stands in its cells. -/
theorem C119_table_violated (a : Assets) (o : Options) (title : Str) (s : Slide) (rest : List Slide) (t u : List (List Str)) :
    exportHtml a o title ({ s with table := some t } :: rest) = exportHtml a o title ({ s with table := some u } :: rest)
    ∧ renderTable t = c!"<table class=\"ppt-table\">\n<tbody>\n<tr><td>Table content</td></tr>\n</tbody>\n</table>\n" := ⟨rfl, rfl⟩

/-- **C119 does not hold in full.** With images as files, the exported page names a file with two endings, `slide_img_photo.png.png` for `photo.png`;
the export writes no file, and `image_output_dir` is only put in front of the name. -/
theorem C119_files_violated (b : Bytes) :
    imageSource { files := true, dir := some c!"img" } ⟨c!"photo.png", c!"png", some b⟩ b = c!"img/slide_img_photo.png.png" := rfl

/-- **C119 does not hold in full.** Names of images (and languages of code) are put into attributes of the exported page as they are: a quotation mark
ends the attribute, and what follows can be an event handler. -/
theorem C119_attribute_violated : ∃ n : Str, ∃ l, Tok.start c!"img" l ∈
      Page.read ((renderImage {} ⟨n, c!"png", some [1, 2, 3]⟩).getD []) ∧ (c!"onerror", c!"alert(1)") ∈ l :=
  ⟨c!"a\" onerror=\"alert(1)", [(c!"src", c!"data:image/png;base64,AQID"), (c!"alt", c!"a"), (c!"onerror", c!"alert(1)")], by decide +kernel⟩

/-- **C119**: the data of an image in the page are its bytes. -/
theorem C119_image_data_partial (i : Picture) (b : Bytes) (h : i.bytes = some b) :
    ∃ t, dataUrl i b = c!"data:" ++ mime i.format ++ c!";base64," ++ t ∧ base64Decode t = some b :=
  ⟨_, rfl, C20_decode_base64 b⟩

/-! ### Navigation -/

/-- What is between blanks. -/
def spaceWords (s : Str) : List Str := splitChar ' ' s

/-- `document.querySelectorAll('.slide')` finds an element if `slide` is one of its classes. -/
def isSlideTok : Tok → Bool
  | .start _ l => l.any fun a => a.1 = c!"class" && (spaceWords a.2).contains c!"slide"
  | _ => false

theorem countP_ch (s : Str) : (s.map Tok.ch).countP isSlideTok = 0 := by
  induction s with
  | nil => rfl
  | cons c s ih => rw [List.map_cons, List.countP_cons, ih]; rfl

theorem language_word {s : Str} (h : ' ' ∉ s) : isSlideTok (.start c!"code" [(c!"class", c!"language-" ++ s)]) = false := by
  have : spaceWords (c!"language-" ++ s) = [c!"language-" ++ s] := splitChar_of_notMem (by simpa using h)
  unfold isSlideTok
  simp only [List.any_cons, List.any_nil, this]
  simp

theorem countP_flatMap_zero {α : Type _} {f : α → List Tok} {l : List α} (h : ∀ x ∈ l, (f x).countP isSlideTok = 0) :
    (l.flatMap f).countP isSlideTok = 0 := by
  induction l with
  | nil => rfl
  | cons x l ih => rw [List.flatMap_cons, List.countP_append, h x (.head _), ih fun y hy => h y (.tail _ hy)]

theorem countP_bullets (l : List Str) : (toksL (bulletTree l)).countP isSlideTok = 0 := by
  unfold bulletTree
  split
  · rfl
  · have : (toksL (l.flatMap fun t => [.elem c!"li" [] [.text t], newline])).countP isSlideTok = 0 := by
      rw [toksL_flatMap]
      refine countP_flatMap_zero fun t _ => ?_
      simp only [toksL, Html.toks, newline, List.countP_append, List.countP_cons, countP_ch, List.countP_nil]
      rfl
    have h2 : newline.toks = [.ch '\n'] := rfl
    rw [toksL, Html.toks, toksL, h2]
    simp only [this, h2, List.countP_append, List.countP_cons, toksL, countP_ch, List.countP_nil, List.cons_append]
    rfl

theorem countP_images (l : List Picture) : (toksL (l.flatMap imageTree)).countP isSlideTok = 0 := by
  rw [toksL_flatMap]
  refine countP_flatMap_zero fun t _ => ?_
  unfold imageTree
  split
  · simp only [toksL, Html.toks, newline, List.countP_append, List.countP_cons, countP_ch, List.countP_nil]
    rfl
  · rfl

theorem countP_code {h : Bool} {l : List (Str × Str)} (hl : ∀ c ∈ l, ' ' ∉ c.1) : (toksL (l.flatMap (codeTree h))).countP isSlideTok = 0 := by
  rw [toksL_flatMap]
  refine countP_flatMap_zero fun t ht => ?_
  simp only [codeTree, toksL, Html.toks, newline, List.countP_append, List.countP_cons, countP_ch, List.countP_nil]
  cases h with
  | false => rfl
  | true => simp only [if_true, language_word (hl t ht)]; rfl

theorem countP_notes (o : Options) (n : Option Str) : (toksL (notesTree o n)).countP isSlideTok = 0 := by
  unfold notesTree
  split
  · split
    · simp only [toksL, Html.toks, newline, List.countP_append, List.countP_cons, countP_ch, List.countP_nil]
      rfl
    · rfl
  · rfl

theorem countP_slide {o : Options} {s : Slide} (h : ∀ c ∈ s.code, ' ' ∉ c.1) (i : Nat) : (toksL (slideTree o i s)).countP isSlideTok = 1 := by
  simp only [slideTree, toksL, Html.toks, newline, toksL_append, List.countP_append, List.countP_cons, countP_ch, List.countP_nil, countP_bullets,
    countP_images, countP_code h, countP_notes, List.cons_append, List.append_assoc]
  rfl

theorem countP_slides {o : Options} {l : List Slide} (h : ∀ s ∈ l, ∀ c ∈ s.code, ' ' ∉ c.1) (k : Nat) :
    (toksL (l.mapIdx fun i s => slideTree o (i + k) s).flatten).countP isSlideTok = l.length := by
  induction l generalizing k with
  | nil => rfl
  | cons s l ih =>
    rw [List.mapIdx_cons, List.flatten_cons, toksL_append, List.countP_append, countP_slide (h s (.head _))]
    have := ih (fun s hs => h s (.tail _ hs)) (k + 1)
    simp only [Nat.add_assoc, Nat.add_comm 1 k]
    rw [this, List.length_cons]
    omega

/-- **C120**: the elements that the script takes for slides are the title and the slides: one more than the presentation has. -/
theorem C120_slide_elements_partial (a : Assets) (ha : AssetsRaw a) (o : Options) (ho : o.files = false) (title : Str) (slides : List Slide)
    (ht : PlainText title) (hs : ∀ s ∈ slides, SlidePlain o s) (hc : ∀ s ∈ slides, ∀ c ∈ s.code, ' ' ∉ c.1) :
    (Page.read (exportHtml a o title slides)).countP isSlideTok = slides.length + 1 := by
  rw [C119_page_partial a ha o ho title slides ht hs]
  have k : (toksL (if o.navigation then controlTree else [])).countP isSlideTok = 0 := by split <;> decide +kernel
  have d : (toksL (if o.navigation then [.elem c!"script" [] [.text (c!"\n" ++ a.navigationJs)], newline] else [])).countP isSlideTok = 0 := by
    split
    · simp only [toksL, Html.toks, newline, List.countP_append, List.countP_cons, countP_ch, List.countP_nil]
      rfl
    · rfl
  simp only [pageTree, toksL, Html.toks, newline, toksL_append, List.countP_append, List.countP_cons, countP_ch, List.countP_nil, k,
    countP_slides hc 1, List.cons_append, List.append_assoc] at d ⊢
  simp only [d]
  have e : isSlideTok (.start c!"div" [(c!"class", c!"slide title-slide"), (c!"data-slide", c!"0")]) = true := by decide +kernel
  simp only [e]
  simp [isSlideTok]

/-- **C120 does not hold in full.** A block of code whose language has the word `slide` in it is taken for one more slide by the script of the
exported page: the counter is wrong, and the block is hidden until its turn comes. -/
theorem C120_slide_elements_violated : ∃ s : Slide, SlidePlain {} s ∧
    (Page.read (exportHtml sampleAssets {} c!"T" [s])).countP isSlideTok = 3 :=
  ⟨{ title := c!"A", code := [(c!"marp slide", c!"x")] },
    ⟨⟨by decide, by decide⟩, by simp, rfl, by simp, by simp [PlainAttr]⟩, by decide +kernel⟩

/-- The show from its start on. -/
def navRun (n : Nat) (l : List NavEvent) : Nav := l.foldl Nav.step ⟨n + 1, 0⟩

theorem nav_next {n : Nav} (h : n.current < n.count) : n.next.count = n.count ∧ n.next.current = min (n.current + 1) (n.count - 1) := by
  unfold Nav.next
  by_cases g : n.current + 1 < n.count
  · rw [if_pos g]; refine ⟨rfl, ?_⟩; dsimp only; omega
  · rw [if_neg g]; refine ⟨rfl, ?_⟩; omega

theorem nav_previous (n : Nav) : n.previous.count = n.count ∧ n.previous.current = n.current - 1 := by
  unfold Nav.previous
  by_cases g : 0 < n.current
  · rw [if_pos g]; exact ⟨rfl, rfl⟩
  · rw [if_neg g]; refine ⟨rfl, ?_⟩; omega

theorem nav_goTo {n : Nav} {i : Nat} (h : i < n.count) : n.goTo i = ⟨n.count, i⟩ := by
  unfold Nav.goTo
  rw [if_pos (by omega)]
  rfl

theorem nav_step {n : Nav} (h : n.current < n.count) (e : NavEvent) : (n.step e).count = n.count ∧ (n.step e).current < n.count := by
  have h1 := nav_next h
  have h2 := nav_previous n
  have h3 := nav_goTo (n := n) (i := 0) (by omega)
  have h4 := nav_goTo (n := n) (i := n.count - 1) (by omega)
  have h5 : n.goTo ((n.count : Int) - 1) = ⟨n.count, n.count - 1⟩ := by rw [← h4]; congr 1; omega
  change n.goTo 0 = _ at h3
  cases e with
  | key k f =>
    simp only [Nav.step]
    split
    · omega
    · split
      · omega
      · split
        · rw [h3]; dsimp only; omega
        · split
          · rw [h5]; dsimp only; omega
          · omega
  | clickPrevious => simp only [Nav.step]; omega
  | clickNext => simp only [Nav.step]; omega
  | swipe d =>
    simp only [Nav.step]
    split
    · omega
    · split <;> omega
  | tick =>
    simp only [Nav.step]
    split
    · omega
    · rw [h3]; dsimp only; omega

theorem nav_run (n : Nav) (h : n.current < n.count) (l : List NavEvent) :
    (l.foldl Nav.step n).count = n.count ∧ (l.foldl Nav.step n).current < n.count := by
  induction l generalizing n with
  | nil => exact ⟨rfl, h⟩
  | cons e l ih =>
    have h1 := nav_step h e
    have := ih (n.step e) (by omega)
    rw [List.foldl_cons]
    omega

/-- **C120**: whatever keys, buttons, swipes and turns of the automatic show come, in whatever order, exactly one slide is shown, the counter tells which,
"Previous" is off exactly at the first slide, and "Next" exactly at the last. -/
theorem C120_one_slide_shown (n : Nat) (l : List NavEvent) : ∃ k ≤ n,
    (navRun n l).view.active = List.replicate k false ++ true :: List.replicate (n - k) false
    ∧ (navRun n l).view.counter = dec (k + 1) ++ c!" / " ++ dec (n + 1)
    ∧ ((navRun n l).view.previousOff = true ↔ k = 0) ∧ ((navRun n l).view.nextOff = true ↔ k = n) := by
  have h := nav_run ⟨n + 1, 0⟩ (by dsimp only; omega) l
  change (navRun n l).count = n + 1 ∧ (navRun n l).current < n + 1 at h
  refine ⟨(navRun n l).current, by omega, ?_, ?_, ?_, ?_⟩
  · simp only [Nav.view, h.1]
    refine List.ext_getElem ?_ fun i h1 h2 => ?_
    · simp; omega
    · simp only [List.getElem_map, List.getElem_range]
      by_cases hi : i < (navRun n l).current
      · rw [List.getElem_append_left (by simpa using hi)]
        simp; omega
      · rw [List.getElem_append_right (by simpa using hi)]
        by_cases he : i = (navRun n l).current
        · simp [he]
        · obtain ⟨m, hm⟩ : ∃ m, i - (navRun n l).current = m + 1 := ⟨i - (navRun n l).current - 1, by omega⟩
          simp [he, hm]
  · simp only [Nav.view, h.1]
  · simp [Nav.view]
  · simp [Nav.view, h.1]

/-- **C120**: what each event does. -/
theorem C120_moves (n : Nat) (l : List NavEvent) :
    let k := (navRun n l).current
    (∀ f, (navRun n (l ++ [.key c!"ArrowRight" f])).current = min (k + 1) n) ∧ (∀ f, (navRun n (l ++ [.key c!"ArrowLeft" f])).current = k - 1)
    ∧ (∀ f, (navRun n (l ++ [.key c!"Home" f])).current = 0) ∧ (∀ f, (navRun n (l ++ [.key c!"End" f])).current = n)
    ∧ (navRun n (l ++ [.clickNext])).current = min (k + 1) n ∧ (navRun n (l ++ [.clickPrevious])).current = k - 1
    ∧ (∀ d > 50, (navRun n (l ++ [.swipe d])).current = min (k + 1) n) ∧ (∀ d < -50, (navRun n (l ++ [.swipe d])).current = k - 1)
    ∧ (∀ d, -50 ≤ d → d ≤ 50 → (navRun n (l ++ [.swipe d])).current = k)
    ∧ (navRun n (l ++ [.tick])).current = (k + 1) % (n + 1) := by
  have h := nav_run ⟨n + 1, 0⟩ (by dsimp only; omega) l
  change (navRun n l).count = n + 1 ∧ (navRun n l).current < n + 1 at h
  have hr : ∀ e, navRun n (l ++ [e]) = (navRun n l).step e := fun e => by unfold navRun; rw [List.foldl_append]; rfl
  have h1 := nav_next (n := navRun n l) (by omega)
  have h2 := nav_previous (navRun n l)
  have h3 := nav_goTo (n := navRun n l) (i := 0) (by omega)
  have h4 := nav_goTo (n := navRun n l) (i := (navRun n l).count - 1) (by omega)
  have h5 : (navRun n l).goTo (((navRun n l).count : Int) - 1) = ⟨(navRun n l).count, (navRun n l).count - 1⟩ := by rw [← h4]; congr 1; omega
  change (navRun n l).goTo 0 = _ at h3
  have e1 : (navRun n l).next.current = min ((navRun n l).current + 1) n := by omega
  dsimp only
  simp only [hr]
  refine ⟨fun f => e1, fun f => h2.2, fun f => ?_, fun f => ?_, e1, h2.2, fun d hd => ?_, fun d hd => ?_, fun d hd hd' => ?_, ?_⟩
  · exact congrArg Nav.current h3
  · exact (congrArg Nav.current h5).trans (by dsimp only; omega)
  · simp only [Nav.step]; rw [if_pos hd, e1]
  · simp only [Nav.step]; rw [if_neg (by omega), if_pos hd, h2.2]
  · simp only [Nav.step]; rw [if_neg (by omega), if_neg (by omega)]
  · simp only [Nav.step]
    split
    · rw [e1, Nat.mod_eq_of_lt (by omega)]; omega
    · rw [h3]
      have : (navRun n l).current + 1 = n + 1 := by omega
      rw [this, Nat.mod_self]

/-- **C120**: from wherever one is, every slide can be reached. -/
theorem C120_every_slide_reached (n : Nat) (l : List NavEvent) (k : Nat) (hk : k ≤ n) : ∃ m, (navRun n (l ++ m)).current = k := by
  induction k with
  | zero => exact ⟨[.key c!"Home" none], (C120_moves n l).2.2.1 none⟩
  | succ k ih =>
    obtain ⟨m, hm⟩ := ih (by omega)
    refine ⟨m ++ [.clickNext], ?_⟩
    have := (C120_moves n (l ++ m)).2.2.2.2.1
    rw [← List.append_assoc, this, hm]
    omega

/-- **C120 does not hold in full.** In the exported page, the key that presses the button which has the focus goes forward, also on "Previous": the
handler takes Enter and the space bar for "next slide" and keeps them from the button. -/
theorem C120_focused_button_violated : ∃ n l, ∀ k, k = c!"Enter" ∨ k = c!" " →
    (navRun n (l ++ [.key k (some .previous)])).current ≠ (navRun n (l ++ [.clickPrevious])).current :=
  ⟨2, [.clickNext], fun k h => by rcases h with rfl | rfl <;> decide⟩

example : (navRun 3 [.clickNext, .key c!"End" none, .tick, .tick, .swipe (-80)]).view = ⟨[true, false, false, false], true, false, c!"1 / 4"⟩ := by decide

end PptRs.Props
