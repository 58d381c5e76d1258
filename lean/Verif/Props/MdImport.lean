import Verif.Model.MdImport
import Verif.Lemmas.Template
import Verif.Props.Tables

/-!
# C59, C89: Markdown documents become the slides they describe

A document is a tree of blocks and inline text, as in the CommonMark specification; `docEvs` lists the events of its
traversal, which is what pulldown-cmark produces. `docSlides` says which slides a document describes.
-/

namespace PptRs.Props

open PptRs.MdImport

/-! ### Documents -/

/-- Inline text. -/
inductive Inline where
  | text (s : Str) | codeSpan (s : Str)
  | strong (xs : List Inline) | emph (xs : List Inline) | strike (xs : List Inline)
  | link (url : Str) (xs : List Inline)
  | image (url title : Str) (xs : List Inline)
  | softBreak | hardBreak
  | html (s : Str)

/-- Blocks: the items of a list have one paragraph each and are written close together or apart. -/
inductive DocBlock where
  | heading (level : Nat) (xs : List Inline)
  | para (xs : List Inline)
  | list (items : List (Bool × List Inline))
  | quote (xs : List Inline)
  | code (lang : Option Str) (lines : List Str)
  | table (head : List (List Inline)) (rows : List (List (List Inline)))
  | rule
  | html

mutual
/-- The events of inline text. -/
def inlineEvs : Inline → List Ev
  | .text s => [.text s]
  | .codeSpan s => [.codeSpan s]
  | .strong xs => .strong :: (inlinesEvs xs ++ [.strongEnd])
  | .emph xs => .emph :: (inlinesEvs xs ++ [.emphEnd])
  | .strike xs => .strike :: (inlinesEvs xs ++ [.strikeEnd])
  | .link _ xs => .other :: (inlinesEvs xs ++ [.other])
  | .image u t xs => .image u t :: (inlinesEvs xs ++ [.imageEnd])
  | .softBreak => [.softBreak]
  | .hardBreak => [.hardBreak]
  | .html s => [.html s]

def inlinesEvs : List Inline → List Ev
  | [] => []
  | x :: xs => inlineEvs x ++ inlinesEvs xs
end

/-- The events of a list item. -/
def itemEvs (it : Bool × List Inline) : List Ev :=
  .item :: ((if it.1 then .para :: (inlinesEvs it.2 ++ [.paraEnd]) else inlinesEvs it.2) ++ [.itemEnd])

def cellEvs (c : List Inline) : List Ev := .cell :: (inlinesEvs c ++ [.cellEnd])

/-- The events of a block. -/
def blockEvs : DocBlock → List Ev
  | .heading l xs => .heading l :: (inlinesEvs xs ++ [.headingEnd l])
  | .para xs => .para :: (inlinesEvs xs ++ [.paraEnd])
  | .list items => .list :: (items.flatMap itemEvs ++ [.listEnd])
  | .quote xs => .quote :: .para :: (inlinesEvs xs ++ [.paraEnd, .quoteEnd])
  | .code lang lines => .code lang :: (lines.map .text ++ [.codeEnd])
  | .table head rows => .table :: .tableHead :: (head.flatMap cellEvs ++ .tableHeadEnd ::
      (rows.flatMap (fun r => .row :: (r.flatMap cellEvs ++ [.rowEnd])) ++ [.tableEnd]))
  | .rule => [.rule]
  | .html => [.other]

def docEvs (doc : List DocBlock) : List Ev := doc.flatMap blockEvs

/-! ### What they describe -/

/-- Text in bold, italics or struck through. -/
def styled (b i s : Bool) (t : Str) : Str :=
  let stars := (if b then c!"**" else []) ++ (if i then c!"*" else [])
  let t := if s then c!"~~" ++ t ++ c!"~~" else t
  stars ++ t ++ stars

mutual
/-- The text, with marks for its style. The alternative text of a picture is part of it. -/
def mdShown (b i s : Bool) : Inline → Str
  | .text t => styled b i s t
  | .codeSpan t => styled b i s (c!"`" ++ t ++ c!"`")
  | .strong xs => mdShownL true i s xs
  | .emph xs => mdShownL b true s xs
  | .strike xs => mdShownL b i true xs
  | .link _ xs => mdShownL b i s xs
  | .image _ _ xs => mdShownL b i s xs
  | .softBreak => styled b i s c!" "
  | .hardBreak => styled b i s c!" "
  | .html _ => []

def mdShownL (b i s : Bool) : List Inline → Str
  | [] => []
  | x :: xs => mdShown b i s x ++ mdShownL b i s xs
end

/-- The text of a title, paragraph, list item, cell or quote. -/
def plainText (xs : List Inline) : Str := trim (mdShownL false false false xs)

mutual
/-- The pictures of inline text: address and title. -/
def picsOf : Inline → List (Str × Str)
  | .strong xs => picsOfL xs
  | .emph xs => picsOfL xs
  | .strike xs => picsOfL xs
  | .link _ xs => picsOfL xs
  | .image u t _ => [(u, t)]
  | _ => []

def picsOfL : List Inline → List (Str × Str)
  | [] => []
  | x :: xs => picsOf x ++ picsOfL xs
end

mutual
/-- Inline text the importer reads as meant: a style inside the same style and a stroke combined with bold or italics are
excluded (see `C89_style_violated`), pictures inside the alternative text of a picture, and the tags named in the importer
together with `</` (see `C89_comment_violated`). `g`: pictures are allowed here. -/
def inlineOk (g b i s : Bool) : Inline → Bool
  | .text _ => true
  | .codeSpan _ => true
  | .strong xs => !b && !s && inlineOkL g true i s xs
  | .emph xs => !i && !s && inlineOkL g b true s xs
  | .strike xs => !b && !i && !s && inlineOkL g b i true xs
  | .link _ xs => inlineOkL g b i s xs
  | .image _ _ xs => g && inlineOkL false b i s xs
  | .softBreak => true
  | .hardBreak => true
  | .html h => !containsStr c!"</" h ||
      !(containsStr c!"<mark>" h || containsStr c!"<ins>" h || containsStr c!"<sub>" h || containsStr c!"<sup>" h)

def inlineOkL (g b i s : Bool) : List Inline → Bool
  | [] => true
  | x :: xs => inlineOk g b i s x && inlineOkL g b i s xs
end

/-- A slide described by a document; it may have several tables and quotes. -/
structure DocSlide where
  title : Str
  bullets : List Str := []
  tables : List (List (List Str)) := []
  codes : List (Str × Str) := []
  notes : List Str := []
  figures : List Figure := []
  pictures : List Str := []

/-- Something on a slide. -/
inductive Piece where
  | bullet (s : Str)
  | table (rows : List (List Str))
  | code (text lang : Str)
  | notes (s : Str)
  | figure (f : Figure)
  | picture (url : Str)

def Piece.on : Piece → DocSlide → DocSlide
  | .bullet s, d => { d with bullets := d.bullets ++ [s] }
  | .table r, d => { d with tables := d.tables ++ [r] }
  | .code t l, d => { d with codes := d.codes ++ [(t, l)] }
  | .notes s, d => { d with notes := d.notes ++ [s] }
  | .figure f, d => { d with figures := d.figures ++ [f] }
  | .picture u, d => { d with pictures := d.pictures ++ [u] }

/-- What a block does: begin a slide, continue on a further slide, or put something on the slide. `home` is the title of
the slide it begins when there is none yet; without it the piece is left out. -/
inductive Act where
  | start (title : Str)
  | further
  | put (home : Option Str) (p : Piece)

/-- A picture, or a box saying which picture is missing. -/
def picAct (load : Str → Bool) (p : Str × Str) : Act :=
  if load p.1 then .put (some c!"Image") (.picture p.1)
  else .put (some c!"Image") (.figure (.placeholder (c!"[Image: " ++ (if p.2 = [] then p.1 else p.2) ++ c!"]")))

def picActs (load : Str → Bool) (xs : List Inline) : List Act := (picsOfL xs).map (picAct load)

/-- A bullet, if there is any text. -/
def bulletAct (t : Str) : List Act := if t = [] then [] else [.put (some c!"Slide") (.bullet t)]

def codeActs (diagramTitle : Str → Str) (lang text : Str) : List Act :=
  if text = [] then []
  else if lang = c!"mermaid" then [.put (some (diagramTitle text)) (.figure (.diagram text))]
  else [.put (some c!"Code") (.code (trim text) lang)]

/-- The language of a code block. -/
def codeLang (lang : Option Str) : Str :=
  match lang with
  | some (c :: l) => c :: l
  | _ => c!"text"

/-- What the blocks of a document do. -/
def blockActs (load : Str → Bool) (diagramTitle : Str → Str) : DocBlock → List Act
  | .heading l xs =>
    if l = 1 then [.start (plainText xs)] else picActs load xs ++ [.put none (.bullet (c!"**" ++ plainText xs ++ c!"**"))]
  | .para xs => picActs load xs ++ bulletAct (plainText xs)
  | .list items => items.flatMap (fun it => picActs load it.2) ++ items.flatMap (fun it => bulletAct (plainText it.2))
  | .quote xs => picActs load xs ++ (if mdShownL false false false xs = [] then [] else [.put none (.notes (plainText xs))])
  | .code lang lines => codeActs diagramTitle (codeLang lang) lines.flatten
  | .table head rows => (head ++ rows.flatten).flatMap (picActs load) ++
      [.put (some c!"Data Table") (.table ((head :: rows).map fun r => r.map plainText))]
  | .rule => [.further]
  | .html => []

/-- The slides finished so far and the one being filled. -/
abbrev Filling := List DocSlide × Option DocSlide

def Act.exec : Act → Filling → Filling
  | .start t, (ds, cur) => (ds ++ cur.toList, some { title := t })
  | .further, (ds, cur) => (ds ++ cur.toList, (ds ++ cur.toList).getLast?.map fun d => { title := d.title ++ c!" (continued)" })
  | .put home p, (ds, cur) => (ds, match cur, home with
    | some d, _ => some (p.on d)
    | none, some t => some (p.on { title := t })
    | none, none => none)

def execs (as : List Act) (f : Filling) : Filling := as.foldl (fun f a => a.exec f) f

/-- The slides a document describes. -/
def docSlides (load : Str → Bool) (diagramTitle : Str → Str) (doc : List DocBlock) : List DocSlide :=
  let f := execs (doc.flatMap (blockActs load diagramTitle)) ([], none)
  f.1 ++ f.2.toList

/-- The slide the importer makes of it: of several tables the last, of several quotes the last. -/
def DocSlide.kept (d : DocSlide) : Slide :=
  { title := d.title, bullets := d.bullets, table := d.tables.getLast?.bind tableFromStringRows, codes := d.codes,
    notes := d.notes.getLast?, shapes := d.figures, images := d.pictures }

/-- Blocks the importer reads as meant: the inline text is, a title has no pictures (see `C89_title_picture_violated`), the rows of
tables have cells. -/
def blockOk : DocBlock → Bool
  | .heading l xs => inlineOkL (l ≠ 1) false false false xs
  | .para xs => inlineOkL true false false false xs
  | .list items => items.all fun it => inlineOkL true false false false it.2
  | .quote xs => inlineOkL true false false false xs
  | .code _ _ => true
  | .table head rows => (head :: rows).all (fun r => !r.isEmpty && decide (r.length < 4294967296)) &&
      (head ++ rows.flatten).all (inlineOkL true false false false)
  | .rule => true
  | .html => true

/-! ### Inline text -/

/-- Append text where the importer collects it. -/
def sink (st : State) (t : Str) : State :=
  if st.inTable then { st with cell := st.cell ++ t }
  else if st.inQuote then { st with quote := st.quote ++ t }
  else { st with text := st.text ++ t }

theorem sink_nil (st : State) : sink st [] = st := by
  unfold sink
  split
  · simp
  · split <;> simp

theorem sink_sink (st : State) (a b : Str) : sink (sink st a) b = sink st (a ++ b) := by
  cases st with
  | mk sl c tx il it it' rows row cell ic code lang bo i s q qt p =>
    cases it' <;> cases q <;> simp [sink]

theorem marked_styled {b i s : Bool} (h : (s && (b || i)) = false) (t : Str) : marked b i s t = styled b i s t := by
  cases b <;> cases i <;> cases s <;> simp_all [marked, styled]

theorem push_sink {st : State} (hc : st.inCode = false) (t : Str) :
    st.push t = sink st (marked st.bold st.italic st.struck t) := by
  simp [State.push, sink, hc]

/-- Put a picture on the current slide. -/
def picOn (load : Str → Bool) (c : Option Slide) (p : Str × Str) : Option Slide :=
  let d := c.getD { title := c!"Image" }
  if load p.1 then some { d with images := d.images ++ [p.1] }
  else some { d with shapes := d.shapes ++ [.placeholder (c!"[Image: " ++ (if p.2 = [] then p.1 else p.2) ++ c!"]")] }

theorem addImage_picOn (load : Str → Bool) (st : State) (u a : Str) :
    st.addImage load u a = { st with current := picOn load st.current (u, a) } := by
  unfold State.addImage picOn
  cases load u <;> rfl

/-- Put pictures on the current slide. -/
def addPics (load : Str → Bool) (st : State) (ps : List (Str × Str)) : State :=
  { st with current := ps.foldl (picOn load) st.current }

theorem addPics_nil (load : Str → Bool) (st : State) : addPics load st [] = st := rfl

theorem addPics_sink (load : Str → Bool) (ps : List (Str × Str)) (st : State) (t : Str) :
    addPics load (sink st t) ps = sink (addPics load st ps) t := by
  cases st with
  | mk sl c tx il it it' rows row cell ic code lang bo i s q qt p =>
    cases it' <;> cases q <;> rfl

theorem addPics_append (load : Str → Bool) (st : State) (a b : List (Str × Str)) :
    addPics load st (a ++ b) = addPics load (addPics load st a) b := by
  simp [addPics]

theorem md_run_append (load : Str → Bool) (dt : Str → Str) (a b : List Ev) (st : State) :
    run load dt (a ++ b) st = (run load dt a st).bind (run load dt b) := by
  induction a generalizing st with
  | nil => rfl
  | cons e es ih =>
    show (handle load dt st e).bind _ = ((handle load dt st e).bind _).bind _
    cases handle load dt st e with
    | none => rfl
    | some st' => exact ih st'

theorem md_run_cons_some {load : Str → Bool} {dt : Str → Str} {e : Ev} {es : List Ev} {st st' : State}
    (h : handle load dt st e = some st') : run load dt (e :: es) st = run load dt es st' := by
  show (handle load dt st e).bind _ = _
  rw [h]
  rfl

theorem md_run_then {load : Str → Bool} {dt : Str → Str} {a b : List Ev} {st st' : State}
    (h : run load dt a st = some st') : run load dt (a ++ b) st = run load dt b st' := by
  rw [md_run_append, h]
  rfl

theorem html_none {h : Str} (hh : (!containsStr c!"</" h ||
      !(containsStr c!"<mark>" h || containsStr c!"<ins>" h || containsStr c!"<sub>" h || containsStr c!"<sup>" h)) = true)
    (st : State) : st.html h = some st := by
  unfold State.html htmlMark
  by_cases hm : (containsStr c!"<mark>" h || containsStr c!"<ins>" h || containsStr c!"<sub>" h || containsStr c!"<sup>" h) = true
  · have h1 : containsStr c!"</" h = false := by simpa [hm] using hh
    have h2 : htmlSlice h = some none := by
      unfold htmlSlice
      have : splitOnce? c!"</" h = none := by
        simpa [containsStr] using h1
      rw [this]
      cases splitOnce? c!">" h <;> rfl
    rw [h2]
    split <;> simp
  · simp only [Bool.or_eq_true, not_or, Bool.not_eq_true] at hm
    simp [hm]

theorem sink_fields (st : State) (t : Str) : (sink st t).bold = st.bold ∧ (sink st t).italic = st.italic ∧
    (sink st t).struck = st.struck ∧ (sink st t).inCode = st.inCode ∧ (sink st t).pending = st.pending := by
  unfold sink
  split
  · simp
  · split <;> simp

/-- The flags while inline text is read. -/
def MdReads (g b i s : Bool) (st : State) : Prop :=
  st.inCode = false ∧ st.bold = b ∧ st.italic = i ∧ st.struck = s ∧ (s && (b || i)) = false ∧ (g = true → st.pending = none)

theorem MdReads.after {g b i s : Bool} {st : State} (h : MdReads g b i s st) (load : Str → Bool) (ps : List (Str × Str)) (t : Str) :
    MdReads g b i s (sink (addPics load st ps) t) := by
  obtain ⟨h1, h2, h3, h4, h5, h6⟩ := h
  obtain ⟨e1, e2, e3, e4, e5⟩ := sink_fields (addPics load st ps) t
  exact ⟨e4.trans h1, e1.trans h2, e2.trans h3, e3.trans h4, h5, fun hg => e5.trans (h6 hg)⟩

theorem MdReads.push {g b i s : Bool} {st : State} (h : MdReads g b i s st) (t : Str) : st.push t = sink st (styled b i s t) := by
  obtain ⟨h1, h2, h3, h4, h5, h6⟩ := h
  rw [push_sink h1, h2, h3, h4, marked_styled h5]

theorem sink_bold (st : State) (t : Str) (b : Bool) : { sink st t with bold := b } = sink { st with bold := b } t := by
  cases st with
  | mk sl c tx il it it' rows row cell ic code lang bo i s q qt p =>
    cases it' <;> cases q <;> rfl

theorem sink_italic (st : State) (t : Str) (b : Bool) : { sink st t with italic := b } = sink { st with italic := b } t := by
  cases st with
  | mk sl c tx il it it' rows row cell ic code lang bo i s q qt p =>
    cases it' <;> cases q <;> rfl

theorem sink_struck (st : State) (t : Str) (b : Bool) : { sink st t with struck := b } = sink { st with struck := b } t := by
  cases st with
  | mk sl c tx il it it' rows row cell ic code lang bo i s q qt p =>
    cases it' <;> cases q <;> rfl

theorem sink_pending (st : State) (t : Str) (b : Option (Str × Str)) :
    { sink st t with pending := b } = sink { st with pending := b } t := by
  cases st with
  | mk sl c tx il it it' rows row cell ic code lang bo i s q qt p =>
    cases it' <;> cases q <;> rfl

theorem sink_current (st : State) (t : Str) (b : Option Slide) :
    { sink st t with current := b } = sink { st with current := b } t := by
  cases st with
  | mk sl c tx il it it' rows row cell ic code lang bo i s q qt p =>
    cases it' <;> cases q <;> rfl

theorem sink_current_eq (st : State) (t : Str) : (sink st t).current = st.current := by
  cases st with
  | mk sl c tx il it it' rows row cell ic code lang bo i s q qt p =>
    cases it' <;> cases q <;> rfl

mutual
/-- No pictures where they are not allowed. -/
theorem picsOf_nil {b i s : Bool} : ∀ x : Inline, inlineOk false b i s x = true → picsOf x = []
  | .text _, _ => by simp [picsOf]
  | .codeSpan _, _ => by simp [picsOf]
  | .strong xs, h => by
    rw [picsOf]
    rw [inlineOk, Bool.and_eq_true] at h
    exact picsOfL_nil xs h.2
  | .emph xs, h => by
    rw [picsOf]
    rw [inlineOk, Bool.and_eq_true] at h
    exact picsOfL_nil xs h.2
  | .strike xs, h => by
    rw [picsOf]
    rw [inlineOk, Bool.and_eq_true] at h
    exact picsOfL_nil xs h.2
  | .link _ xs, h => by
    rw [picsOf]
    rw [inlineOk] at h
    exact picsOfL_nil xs h
  | .image _ _ _, h => by simp [inlineOk] at h
  | .softBreak, _ => by simp [picsOf]
  | .hardBreak, _ => by simp [picsOf]
  | .html _, _ => by simp [picsOf]

theorem picsOfL_nil {b i s : Bool} : ∀ xs : List Inline, inlineOkL false b i s xs = true → picsOfL xs = []
  | [], _ => by rw [picsOfL]
  | x :: xs, h => by
    rw [inlineOkL, Bool.and_eq_true] at h
    rw [picsOfL, picsOf_nil x h.1, picsOfL_nil xs h.2]
    rfl
end

mutual
/-- Reading inline text: its pictures are put on the slide and its text is collected. -/
theorem md_run_inline (load : Str → Bool) (dt : Str → Str) {g b i s : Bool} : ∀ (x : Inline) (st : State), MdReads g b i s st →
    inlineOk g b i s x = true → run load dt (inlineEvs x) st = some (sink (addPics load st (picsOf x)) (mdShown b i s x))
  | .text t, st, h, _ => by
    rw [inlineEvs, picsOf, addPics_nil, mdShown, md_run_cons_some (st' := st.push t) rfl, h.push]
    · rfl
    all_goals simp
  | .codeSpan t, st, h, _ => by
    rw [inlineEvs, picsOf, addPics_nil, mdShown, md_run_cons_some (st' := st.push _) rfl, h.push]
    · rfl
    all_goals simp
  | .strong xs, st, h, ho => by
    rw [inlineOk] at ho
    simp only [Bool.and_eq_true, Bool.not_eq_true'] at ho
    obtain ⟨⟨hb, hs⟩, ho⟩ := ho
    subst hb; subst hs
    rw [inlineEvs, picsOf, mdShown, md_run_cons_some (st' := { st with bold := true }) rfl,
      md_run_then (md_run_inlines load dt xs { st with bold := true } ⟨h.1, rfl, h.2.2.1, h.2.2.2.1, rfl, h.2.2.2.2.2⟩ ho)]
    show some { sink (addPics load { st with bold := true } (picsOfL xs)) (mdShownL true i false xs) with bold := false } = _
    rw [sink_bold]
    have := h.2.1
    cases st
    cases this
    rfl
  | .emph xs, st, h, ho => by
    rw [inlineOk] at ho
    simp only [Bool.and_eq_true, Bool.not_eq_true'] at ho
    obtain ⟨⟨hb, hs⟩, ho⟩ := ho
    subst hb; subst hs
    rw [inlineEvs, picsOf, mdShown, md_run_cons_some (st' := { st with italic := true }) rfl,
      md_run_then (md_run_inlines load dt xs { st with italic := true } ⟨h.1, h.2.1, rfl, h.2.2.2.1, rfl, h.2.2.2.2.2⟩ ho)]
    show some { sink (addPics load { st with italic := true } (picsOfL xs)) (mdShownL b true false xs) with italic := false } = _
    rw [sink_italic]
    have := h.2.2.1
    cases st
    cases this
    rfl
  | .strike xs, st, h, ho => by
    rw [inlineOk] at ho
    simp only [Bool.and_eq_true, Bool.not_eq_true'] at ho
    obtain ⟨⟨⟨hb, hi⟩, hs⟩, ho⟩ := ho
    subst hb; subst hi; subst hs
    rw [inlineEvs, picsOf, mdShown, md_run_cons_some (st' := { st with struck := true }) rfl,
      md_run_then (md_run_inlines load dt xs { st with struck := true } ⟨h.1, h.2.1, h.2.2.1, rfl, rfl, h.2.2.2.2.2⟩ ho)]
    show some { sink (addPics load { st with struck := true } (picsOfL xs)) (mdShownL false false true xs) with struck := false } = _
    rw [sink_struck]
    have := h.2.2.2.1
    cases st
    cases this
    rfl
  | .link _ xs, st, h, ho => by
    rw [inlineOk] at ho
    rw [inlineEvs, picsOf, mdShown, md_run_cons_some (st' := st) rfl, md_run_then (md_run_inlines load dt xs st h ho)]
    rfl
  | .image u t xs, st, h, ho => by
    rw [inlineOk] at ho
    simp only [Bool.and_eq_true] at ho
    obtain ⟨hg, ho⟩ := ho
    subst hg
    rw [inlineEvs, picsOf, mdShown, md_run_cons_some (st' := { st with pending := some (u, t) }) rfl,
      md_run_then (md_run_inlines load dt xs { st with pending := some (u, t) }
        ⟨h.1, h.2.1, h.2.2.1, h.2.2.2.1, h.2.2.2.2.1, fun hf => by simp at hf⟩ ho), picsOfL_nil xs ho, addPics_nil]
    show some ((sink { st with pending := some (u, t) } (mdShownL b i s xs)).imageEnd load) = _
    unfold State.imageEnd
    rw [(sink_fields _ _).2.2.2.2]
    show some { (sink { st with pending := some (u, t) } (mdShownL b i s xs)).addImage load u t with pending := none } = _
    rw [addImage_picOn, sink_current_eq, sink_current, sink_pending]
    have := h.2.2.2.2.2 rfl
    cases st
    cases this
    rfl
  | .softBreak, st, h, _ => by
    rw [inlineEvs, picsOf, addPics_nil, mdShown, md_run_cons_some (st' := st.push _) rfl, h.push]
    · rfl
    all_goals simp
  | .hardBreak, st, h, _ => by
    rw [inlineEvs, picsOf, addPics_nil, mdShown, md_run_cons_some (st' := st.push _) rfl, h.push]
    · rfl
    all_goals simp
  | .html t, st, h, ho => by
    rw [inlineOk] at ho
    rw [inlineEvs, picsOf, addPics_nil, mdShown, sink_nil, md_run_cons_some (show handle load dt st (.html t) = some st from html_none ho st)]
    · rfl
    all_goals simp

theorem md_run_inlines (load : Str → Bool) (dt : Str → Str) {g b i s : Bool} : ∀ (xs : List Inline) (st : State), MdReads g b i s st →
    inlineOkL g b i s xs = true → run load dt (inlinesEvs xs) st = some (sink (addPics load st (picsOfL xs)) (mdShownL b i s xs))
  | [], st, _, _ => by
    rw [inlinesEvs, picsOfL, mdShownL, addPics_nil, sink_nil]
    rfl
  | x :: xs, st, h, ho => by
    rw [inlineOkL, Bool.and_eq_true] at ho
    rw [inlinesEvs, picsOfL, mdShownL, md_run_then (md_run_inline load dt x st h ho.1), md_run_inlines load dt xs _ (h.after ..) ho.2,
      addPics_sink, sink_sink, addPics_append]
end

/-! ### Blocks -/

/-- The state between two blocks. -/
def between (f : Filling) (lang : Option Str) : State :=
  { slides := f.1.map DocSlide.kept, current := f.2.map DocSlide.kept, lang := lang }

theorem execs_append (a b : List Act) (f : Filling) : execs (a ++ b) f = execs b (execs a f) := List.foldl_append

theorem execs_cons (a : Act) (b : List Act) (f : Filling) : execs (a :: b) f = execs b (a.exec f) := rfl

theorem execs_nil (f : Filling) : execs [] f = f := rfl

theorem picAct_exec (load : Str → Bool) (p : Str × Str) (f : Filling) : ((picAct load p).exec f).1 = f.1 ∧
    ((picAct load p).exec f).2.map DocSlide.kept = picOn load (f.2.map DocSlide.kept) p := by
  obtain ⟨ds, cur⟩ := f
  unfold picAct picOn
  cases load p.1 <;> cases cur <;> exact ⟨rfl, rfl⟩

theorem picActs_exec (load : Str → Bool) (ps : List (Str × Str)) (f : Filling) : (execs (ps.map (picAct load)) f).1 = f.1 ∧
    (execs (ps.map (picAct load)) f).2.map DocSlide.kept = ps.foldl (picOn load) (f.2.map DocSlide.kept) := by
  induction ps generalizing f with
  | nil => exact ⟨rfl, rfl⟩
  | cons p ps ih =>
    obtain ⟨h1, h2⟩ := picAct_exec load p f
    obtain ⟨h3, h4⟩ := ih ((picAct load p).exec f)
    exact ⟨h3.trans h1, by rw [List.map_cons, execs_cons, h4, h2]; rfl⟩

theorem picActs_between (load : Str → Bool) (ps : List (Str × Str)) (f : Filling) (lang : Option Str) :
    addPics load (between f lang) ps = between (execs (ps.map (picAct load)) f) lang := by
  obtain ⟨h1, h2⟩ := picActs_exec load ps f
  unfold addPics between
  rw [h1, h2]

/-- The bullets of nonempty texts. -/
def bulletTexts (items : List (Bool × List Inline)) : List Str := (items.map fun it => plainText it.2).filter (· ≠ [])

theorem bulletActs_exec (ts : List Str) (hn : ts ≠ []) (f : Filling) :
    execs (ts.map fun t => Act.put (some c!"Slide") (.bullet t)) f = (f.1, some (let d := f.2.getD { title := c!"Slide" }
      { d with bullets := d.bullets ++ ts })) := by
  have key : ∀ (ts : List Str) (ds : List DocSlide) (d : DocSlide), execs (ts.map fun t => Act.put (some c!"Slide") (.bullet t)) (ds, some d) =
      (ds, some { d with bullets := d.bullets ++ ts }) := by
    intro ts
    induction ts with
    | nil => intro ds d; simp [execs]
    | cons t ts ih =>
      intro ds d
      rw [List.map_cons, execs_cons]
      show execs _ (ds, some { d with bullets := d.bullets ++ [t] }) = _
      rw [ih]
      simp
  obtain ⟨ds, cur⟩ := f
  cases cur with
  | some d => exact key ts ds d
  | none =>
    cases ts with
    | nil => exact absurd rfl hn
    | cons t ts =>
      rw [List.map_cons, execs_cons]
      show execs _ (ds, some ⟨c!"Slide", [t], [], [], [], [], []⟩) = _
      rw [key]
      rfl

theorem flatMap_bulletAct (items : List (Bool × List Inline)) :
    items.flatMap (fun it => bulletAct (plainText it.2)) = (bulletTexts items).map fun t => Act.put (some c!"Slide") (.bullet t) := by
  induction items with
  | nil => rfl
  | cons it items ih =>
    rw [List.flatMap_cons, ih]
    unfold bulletTexts bulletAct
    by_cases h : plainText it.2 = [] <;> simp [h]

/-- The state while a list is read. -/
def inItems (sl : List Slide) (c : Option Slide) (its : List Str) (lang : Option Str) : State :=
  { slides := sl, current := c, inList := true, items := its, lang := lang }

theorem md_run_item (load : Str → Bool) (dt : Str → Str) (it : Bool × List Inline) (ho : inlineOkL true false false false it.2 = true)
    (sl : List Slide) (c : Option Slide) (its : List Str) (lang : Option Str) : run load dt (itemEvs it) (inItems sl c its lang) =
      some (inItems sl ((picsOfL it.2).foldl (picOn load) c) (if plainText it.2 = [] then its else its ++ [plainText it.2]) lang) := by
  obtain ⟨loose, xs⟩ := it
  have h1 := md_run_inlines load dt xs (inItems sl c its lang) ⟨rfl, rfl, rfl, rfl, rfl, fun _ => rfl⟩ ho
  unfold itemEvs
  rw [md_run_cons_some (st' := inItems sl c its lang) rfl]
  have h2 : run load dt (if loose then .para :: (inlinesEvs xs ++ [.paraEnd]) else inlinesEvs xs) (inItems sl c its lang) =
      some (sink (addPics load (inItems sl c its lang) (picsOfL xs)) (mdShownL false false false xs)) := by
    cases loose with
    | false => exact h1
    | true =>
      show run load dt (.para :: (inlinesEvs xs ++ [.paraEnd])) _ = _
      rw [md_run_cons_some (st' := inItems sl c its lang) rfl, md_run_then h1]
      rfl
  rw [md_run_then h2]
  rfl

theorem md_run_items (load : Str → Bool) (dt : Str → Str) (items : List (Bool × List Inline))
    (ho : ∀ it ∈ items, inlineOkL true false false false it.2 = true)
    (sl : List Slide) (c : Option Slide) (its : List Str) (lang : Option Str) :
    run load dt (items.flatMap itemEvs) (inItems sl c its lang) =
      some (inItems sl ((items.flatMap fun it => picsOfL it.2).foldl (picOn load) c) (its ++ bulletTexts items) lang) := by
  induction items generalizing c its with
  | nil => simp [run, bulletTexts]
  | cons it items ih =>
    rw [List.flatMap_cons, md_run_then (md_run_item load dt it (ho it (by simp)) ..), ih (fun x hx => ho x (by simp [hx]))]
    rw [List.flatMap_cons, List.foldl_append]
    congr 2
    unfold bulletTexts
    by_cases h : plainText it.2 = [] <;> simp [h]

theorem map_flatMap_pics (load : Str → Bool) (items : List (Bool × List Inline)) :
    items.flatMap (fun it => picActs load it.2) = (items.flatMap fun it => picsOfL it.2).map (picAct load) := by
  rw [List.map_flatMap]
  rfl

theorem cells_pics (load : Str → Bool) (cells : List (List Inline)) :
    cells.flatMap (picActs load) = (cells.flatMap picsOfL).map (picAct load) := by
  rw [List.map_flatMap]
  rfl

/-- The state while a table is read. -/
def inCells (sl : List Slide) (c : Option Slide) (rows : List (List Str)) (row : List Str) (lang : Option Str) : State :=
  { slides := sl, current := c, inTable := true, rows := rows, row := row, lang := lang }

theorem md_run_cells (load : Str → Bool) (dt : Str → Str) (cells : List (List Inline))
    (ho : ∀ x ∈ cells, inlineOkL true false false false x = true) (sl : List Slide) (c : Option Slide) (rows : List (List Str))
    (row : List Str) (lang : Option Str) : run load dt (cells.flatMap cellEvs) (inCells sl c rows row lang) =
      some (inCells sl ((cells.flatMap picsOfL).foldl (picOn load) c) rows (row ++ cells.map plainText) lang) := by
  induction cells generalizing c row with
  | nil => simp [run]
  | cons x xs ih =>
    have h1 : run load dt (cellEvs x) (inCells sl c rows row lang) =
        some (inCells sl ((picsOfL x).foldl (picOn load) c) rows (row ++ [plainText x]) lang) := by
      unfold cellEvs
      rw [md_run_cons_some (st' := inCells sl c rows row lang) rfl,
        md_run_then (md_run_inlines load dt x (inCells sl c rows row lang) ⟨rfl, rfl, rfl, rfl, rfl, fun _ => rfl⟩ (ho x (by simp)))]
      rfl
    rw [List.flatMap_cons, md_run_then h1, ih (fun y hy => ho y (by simp [hy])), List.flatMap_cons, List.foldl_append]
    simp

theorem md_run_rows (load : Str → Bool) (dt : Str → Str) (rs : List (List (List Inline))) (hne : ∀ r ∈ rs, r ≠ [])
    (ho : ∀ r ∈ rs, ∀ x ∈ r, inlineOkL true false false false x = true) (sl : List Slide) (c : Option Slide) (rows : List (List Str))
    (lang : Option Str) : run load dt (rs.flatMap fun r => .row :: (r.flatMap cellEvs ++ [.rowEnd])) (inCells sl c rows [] lang) =
      some (inCells sl ((rs.flatten.flatMap picsOfL).foldl (picOn load) c) (rows ++ rs.map fun r => r.map plainText) [] lang) := by
  induction rs generalizing c rows with
  | nil => simp [run]
  | cons r rs ih =>
    have h1 : run load dt (.row :: (r.flatMap cellEvs ++ [.rowEnd])) (inCells sl c rows [] lang) =
        some (inCells sl ((r.flatMap picsOfL).foldl (picOn load) c) (rows ++ [r.map plainText]) [] lang) := by
      rw [md_run_cons_some (st' := inCells sl c rows [] lang) rfl, md_run_then (md_run_cells load dt r (ho r (by simp)) ..)]
      show some (State.rowEnd _) = _
      unfold State.rowEnd
      have : ([] : List Str) ++ r.map plainText ≠ [] := by simpa using hne r (by simp)
      rw [if_neg (by exact this)]
      simp [inCells]
    rw [List.flatMap_cons, md_run_then h1, ih (fun y hy => hne y (by simp [hy])) (fun y hy => ho y (by simp [hy])),
      List.flatten_cons, List.flatMap_append, List.foldl_append]
    simp

theorem table_some (rows : List (List Str)) (hne : ∀ r ∈ rows, r ≠ []) (hl : ∀ r ∈ rows, r.length < 4294967296) :
    ∃ t, tableFromStringRows rows = some t := by
  have h0 : rows = [] ∨ ∃ r ∈ rows, r ≠ [] := by
    cases rows with
    | nil => exact .inl rfl
    | cons r rs => exact .inr ⟨r, by simp, hne r (by simp)⟩
  obtain ⟨t, ht, _⟩ := C57_string_rows_partial rows h0 hl
  exact ⟨t, ht⟩

theorem md_run_texts (load : Str → Bool) (dt : Str → Str) (lines : List Str) (st : State) (hc : st.inCode = true) :
    run load dt (lines.map .text) st = some { st with code := st.code ++ lines.flatten } := by
  induction lines generalizing st with
  | nil => simp [run]
  | cons l ls ih =>
    have : st.push l = { st with code := st.code ++ l } := by simp [State.push, hc]
    rw [List.map_cons, md_run_cons_some (show handle load dt st (.text l) = _ from congrArg some this)]
    refine (ih { st with code := st.code ++ l } hc).trans ?_
    simp

/-- Reading a block. -/
theorem md_run_block (load : Str → Bool) (dt : Str → Str) (b : DocBlock) (ho : blockOk b = true) (f : Filling) (lang : Option Str) :
    ∃ lang', run load dt (blockEvs b) (between f lang) = some (between (execs (blockActs load dt b) f) lang') := by
  cases b with
  | heading l xs =>
    refine ⟨lang, ?_⟩
    unfold blockOk at ho
    unfold blockEvs
    by_cases hl : l = 1
    · subst hl
      have ha : blockActs load dt (.heading 1 xs) = [.start (plainText xs)] := by rw [blockActs, if_pos rfl]
      rw [ha]
      have h0 : (between f lang).finalize = { between (f.1 ++ f.2.toList, none) lang with text := [] } := by
        obtain ⟨ds, cur⟩ := f
        cases cur <;> simp [between, State.finalize, State.flushItems]
      rw [md_run_cons_some (st' := between (f.1 ++ f.2.toList, none) lang) (by
          show some { (between f lang).finalize with text := [] } = _
          rw [h0]
          rfl),
        md_run_then (md_run_inlines load dt xs _ ⟨rfl, rfl, rfl, rfl, rfl, fun _ => rfl⟩ ho), picsOfL_nil xs ho]
      rfl
    · have ho : inlineOkL true false false false xs = true := by simpa [hl] using ho
      have ha : blockActs load dt (.heading l xs) = picActs load xs ++ [.put none (.bullet (c!"**" ++ plainText xs ++ c!"**"))] := if_neg hl
      rw [ha]
      rw [md_run_cons_some (st' := between f lang) (by
          show some { (if l = 1 then _ else between f lang) with text := [] } = _
          rw [if_neg hl]
          rfl),
        md_run_then (md_run_inlines load dt xs _ ⟨rfl, rfl, rfl, rfl, rfl, fun _ => rfl⟩ ho), picActs_between, execs_append]
      show some (State.headingEnd _ l) = some (between (execs _ (execs ((picsOfL xs).map (picAct load)) f)) lang)
      generalize execs ((picsOfL xs).map (picAct load)) f = f'
      obtain ⟨ds, cur⟩ := f'
      unfold State.headingEnd
      rw [if_neg hl]
      cases cur <;> rfl
  | para xs =>
    refine ⟨lang, ?_⟩
    unfold blockOk at ho
    unfold blockEvs blockActs
    rw [md_run_cons_some (st' := between f lang) rfl,
      md_run_then (md_run_inlines load dt xs _ ⟨rfl, rfl, rfl, rfl, rfl, fun _ => rfl⟩ ho), picActs_between, execs_append]
    show some (State.paraEnd _) = some (between (execs _ (execs ((picsOfL xs).map (picAct load)) f)) lang)
    generalize execs ((picsOfL xs).map (picAct load)) f = f'
    obtain ⟨ds, cur⟩ := f'
    unfold State.paraEnd bulletAct
    show some (if plainText xs = [] then _ else _) = _
    by_cases h : plainText xs = []
    · rw [if_pos h, if_pos h]
      rfl
    · rw [if_neg h, if_neg h]
      cases cur <;> rfl
  | list items =>
    refine ⟨lang, ?_⟩
    unfold blockOk at ho
    rw [List.all_eq_true] at ho
    unfold blockEvs blockActs
    rw [md_run_cons_some (st' := inItems (f.1.map DocSlide.kept) (f.2.map DocSlide.kept) [] lang) rfl,
      md_run_then (md_run_items load dt items ho ..), execs_append, map_flatMap_pics, flatMap_bulletAct]
    obtain ⟨h1, h2⟩ := picActs_exec load (items.flatMap fun it => picsOfL it.2) f
    rw [← h1, ← h2]
    generalize execs ((items.flatMap fun it => picsOfL it.2).map (picAct load)) f = f'
    obtain ⟨ds, cur⟩ := f'
    show some (State.flushItems _) = _
    unfold State.flushItems
    by_cases h : bulletTexts items = []
    · rw [if_pos (by exact h), h]
      rfl
    · rw [if_neg (by exact h), bulletActs_exec _ h]
      cases cur <;> rfl
  | quote xs =>
    refine ⟨lang, ?_⟩
    unfold blockOk at ho
    unfold blockEvs blockActs
    rw [md_run_cons_some (st' := { between f lang with inQuote := true }) rfl,
      md_run_cons_some (st' := { between f lang with inQuote := true }) rfl,
      md_run_then (md_run_inlines load dt xs _ ⟨rfl, rfl, rfl, rfl, rfl, fun _ => rfl⟩ ho), execs_append]
    have e : addPics load { between f lang with inQuote := true } (picsOfL xs) =
        { between (execs ((picsOfL xs).map (picAct load)) f) lang with inQuote := true } := by
      rw [← picActs_between]
      rfl
    rw [e]
    show some (State.flushQuote _) = some (between (execs _ (execs ((picsOfL xs).map (picAct load)) f)) lang)
    generalize execs ((picsOfL xs).map (picAct load)) f = f'
    obtain ⟨ds, cur⟩ := f'
    unfold State.flushQuote
    show some (if mdShownL false false false xs = [] then _ else _) = _
    by_cases h : mdShownL false false false xs = []
    · rw [if_pos h, if_pos h]
      show some { between (ds, cur) lang with quote := [] ++ mdShownL false false false xs } = _
      rw [h]
      rfl
    · rw [if_neg h, if_neg h]
      cases cur with
      | none => rfl
      | some d =>
        have : between (execs [.put none (.notes (plainText xs))] (ds, some d)) lang =
            { slides := ds.map DocSlide.kept, current := some { d.kept with notes := some (plainText xs) }, lang := lang } := by
          simp [between, execs, Act.exec, Piece.on, DocSlide.kept]
        rw [this]
        rfl
  | code cl lines =>
    unfold blockEvs
    rw [md_run_cons_some (st' := { between f lang with inCode := true, lang := if cl = some [] then none else cl }) rfl,
      md_run_then (md_run_texts load dt lines _ rfl)]
    have hl : (if cl = some [] then none else cl).getD c!"text" = codeLang cl := by
      unfold codeLang
      cases cl with
      | none => rfl
      | some l => cases l <;> rfl
    obtain ⟨ds, cur⟩ := f
    have hr : ∀ st, run load dt [.codeEnd] st = some ({ st with inCode := false }.flushCode dt) := fun _ => rfl
    rw [hr]
    have ha : blockActs load dt (.code cl lines) = codeActs dt (codeLang cl) lines.flatten := rfl
    rw [ha]
    unfold State.flushCode codeActs
    show ∃ lang', some (if [] ++ lines.flatten = [] then _ else if (if cl = some [] then none else cl).getD c!"text" = _ then _ else _) = _
    rw [hl, List.nil_append]
    by_cases h : lines.flatten = []
    · rw [if_pos h, if_pos h, h]
      exact ⟨_, rfl⟩
    · rw [if_neg h, if_neg h]
      by_cases hm : codeLang cl = c!"mermaid"
      · rw [if_pos hm, if_pos hm]
        refine ⟨none, ?_⟩
        cases cur <;> rfl
      · rw [if_neg hm, if_neg hm]
        refine ⟨none, ?_⟩
        rw [← hl]
        cases cur <;> rfl
  | table head rows =>
    refine ⟨lang, ?_⟩
    unfold blockOk at ho
    simp only [Bool.and_eq_true, List.all_eq_true, Bool.not_eq_true', decide_eq_true_eq] at ho
    obtain ⟨hr, hi⟩ := ho
    unfold blockEvs blockActs
    have hne : ∀ r ∈ head :: rows, r ≠ [] := fun r h => by
      have := (hr r h).1
      cases r <;> simp_all
    have hcells : run load dt (rows.flatMap fun r => .row :: (r.flatMap cellEvs ++ [.rowEnd]))
        (inCells (f.1.map DocSlide.kept) ((head.flatMap picsOfL).foldl (picOn load) (f.2.map DocSlide.kept)) [head.map plainText] [] lang) =
        _ := md_run_rows load dt rows (fun r h => hne r (by simp [h]))
          (fun r h x hx => hi x (by rw [List.mem_append]; exact .inr (List.mem_flatten.mpr ⟨r, h, hx⟩))) ..
    rw [md_run_cons_some (st' := inCells (f.1.map DocSlide.kept) (f.2.map DocSlide.kept) [] [] lang) rfl,
      md_run_cons_some (st' := inCells (f.1.map DocSlide.kept) (f.2.map DocSlide.kept) [] [] lang) rfl,
      md_run_then (md_run_cells load dt head (fun x hx => hi x (by simp [hx])) ..),
      md_run_cons_some (st' := inCells (f.1.map DocSlide.kept) ((head.flatMap picsOfL).foldl (picOn load) (f.2.map DocSlide.kept))
        [head.map plainText] [] lang) (by
          show some (State.rowEnd _) = _
          unfold State.rowEnd
          have : ([] : List Str) ++ head.map plainText ≠ [] := by simpa using hne head (by simp)
          rw [if_neg (by exact this)]
          simp [inCells]),
      md_run_then hcells, execs_append, cells_pics]
    obtain ⟨h1, h2⟩ := picActs_exec load ((head ++ rows.flatten).flatMap picsOfL) f
    rw [List.flatMap_append, List.foldl_append] at h2
    rw [← h1, ← h2, ← List.flatMap_append]
    generalize execs (((head ++ rows.flatten).flatMap picsOfL).map (picAct load)) f = f'
    obtain ⟨ds, cur⟩ := f'
    have hrows : [head.map plainText] ++ rows.map (fun r => r.map plainText) = (head :: rows).map fun r => r.map plainText := rfl
    rw [hrows]
    obtain ⟨t, ht⟩ := table_some ((head :: rows).map fun r => r.map plainText) (by
        intro r h
        obtain ⟨r', h', rfl⟩ := List.mem_map.mp h
        simpa using hne r' h') (by
        intro r h
        obtain ⟨r', h', rfl⟩ := List.mem_map.mp h
        simpa using (hr r' h').2)
    show Option.bind (State.flushTable _) _ = _
    unfold State.flushTable
    rw [if_neg (by simp [inCells])]
    show Option.bind ((tableFromStringRows ((head :: rows).map fun r => r.map plainText)).map _) _ = _
    rw [ht]
    cases cur <;> (simp [between, execs, Act.exec, Piece.on, DocSlide.kept, inCells, State.onSlide, run]; exact ht.symm)
  | rule =>
    refine ⟨lang, ?_⟩
    obtain ⟨ds, cur⟩ := f
    show some (State.rule _) = some (between (Act.further.exec (ds, cur)) lang)
    cases cur with
    | none =>
      simp only [State.rule, State.finalize, State.flushItems, between, Act.exec, Option.map_none, Option.toList_none,
        List.append_nil, List.getLast?_map, Option.map_map, if_true]
      rfl
    | some d => simp [State.rule, State.finalize, State.flushItems, between, Act.exec, DocSlide.kept]
  | html => exact ⟨lang, rfl⟩

theorem md_run_doc (load : Str → Bool) (dt : Str → Str) (doc : List DocBlock) (ho : ∀ b ∈ doc, blockOk b = true) (f : Filling)
    (lang : Option Str) : ∃ lang', run load dt (docEvs doc) (between f lang) =
      some (between (execs (doc.flatMap (blockActs load dt)) f) lang') := by
  induction doc generalizing f lang with
  | nil => exact ⟨lang, rfl⟩
  | cons b doc ih =>
    obtain ⟨l1, h1⟩ := md_run_block load dt b (ho b (by simp)) f lang
    obtain ⟨l2, h2⟩ := ih (fun x hx => ho x (by simp [hx])) (execs (blockActs load dt b) f) l1
    refine ⟨l2, ?_⟩
    unfold docEvs at h2 ⊢
    rw [List.flatMap_cons, md_run_then h1, h2, List.flatMap_cons, execs_append]

/-- Importing a document gives exactly the slides it describes, in order, with the pieces of each in order; of several
tables or quotes on a slide the last one. A document that describes no slide is an error. -/
theorem C89_import_partial (load : Str → Bool) (dt : Str → Str) (doc : List DocBlock) (ho : ∀ b ∈ doc, blockOk b = true) :
    importMd load dt (docEvs doc) =
      some (if docSlides load dt doc = [] then none else some ((docSlides load dt doc).map DocSlide.kept)) := by
  obtain ⟨lang, h⟩ := md_run_doc load dt doc ho ([], none) none
  unfold importMd
  have h' : run load dt (docEvs doc) {} = _ := h
  rw [h']
  unfold docSlides
  generalize execs (doc.flatMap (blockActs load dt)) ([], none) = f
  obtain ⟨ds, cur⟩ := f
  have e : (between (ds, cur) lang).finalize.slides = (ds ++ cur.toList).map DocSlide.kept := by
    cases cur <;> simp [between, State.finalize, State.flushItems]
  rw [Option.map_some, e]
  simp

/-! ### List items -/

/-- Bullets on some slide stay there. -/
def Holds (ts : List Str) (f : Filling) : Prop := ∃ d ∈ f.1 ++ f.2.toList, ts <:+: d.bullets

theorem Piece.on_bullets (p : Piece) (d : DocSlide) : ∃ l, (p.on d).bullets = d.bullets ++ l := by
  cases p
  case bullet s => exact ⟨[s], rfl⟩
  all_goals exact ⟨[], (List.append_nil _).symm⟩

theorem Holds.exec {ts : List Str} {f : Filling} (h : Holds ts f) (a : Act) : Holds ts (a.exec f) := by
  obtain ⟨ds, cur⟩ := f
  obtain ⟨d, hd, hb⟩ := h
  cases a with
  | start t => exact ⟨d, by simp only [Act.exec]; exact List.mem_append_left _ hd, hb⟩
  | further => exact ⟨d, by simp only [Act.exec]; exact List.mem_append_left _ hd, hb⟩
  | put home p =>
    rcases List.mem_append.mp hd with h1 | h1
    · exact ⟨d, List.mem_append_left _ h1, hb⟩
    · cases cur with
      | none => simp at h1
      | some d' =>
        have : d = d' := by simpa using h1
        subst this
        obtain ⟨l, hl⟩ := p.on_bullets d
        refine ⟨p.on d, by simp [Act.exec], ?_⟩
        rw [hl]
        exact hb.trans (List.prefix_append _ _).isInfix

theorem Holds.execs {ts : List Str} (as : List Act) {f : Filling} (h : Holds ts f) : Holds ts (execs as f) := by
  induction as generalizing f with
  | nil => exact h
  | cons a as ih => exact ih (h.exec a)

/-- The items of a list that is not inside another list, with one paragraph each, become bullets of one slide, next to each other and
in order. -/
theorem C59_flat_partial (load : Str → Bool) (dt : Str → Str) (doc : List DocBlock) (ho : ∀ b ∈ doc, blockOk b = true)
    (items : List (Bool × List Inline)) (hm : DocBlock.list items ∈ doc) (hne : ∃ it ∈ items, plainText it.2 ≠ []) :
    ∃ slides, importMd load dt (docEvs doc) = some (some slides) ∧
      ∃ s ∈ slides, (items.map fun it => plainText it.2).filter (· ≠ []) <:+: s.bullets := by
  obtain ⟨pre, post, rfl⟩ := List.append_of_mem hm
  have hn : bulletTexts items ≠ [] := by
    obtain ⟨it, hi, ht⟩ := hne
    intro h0
    have : plainText it.2 ∈ bulletTexts items := by
      unfold bulletTexts
      simp only [List.mem_filter, List.mem_map, decide_eq_true_eq]
      exact ⟨⟨it, hi, rfl⟩, ht⟩
    rw [h0] at this
    simp at this
  have hh : Holds (bulletTexts items) (execs ((pre ++ DocBlock.list items :: post).flatMap (blockActs load dt)) ([], none)) := by
    rw [List.flatMap_append, List.flatMap_cons, execs_append, execs_append]
    apply Holds.execs
    generalize execs (pre.flatMap (blockActs load dt)) ([], none) = f
    unfold blockActs
    rw [execs_append, flatMap_bulletAct, bulletActs_exec _ hn]
    exact ⟨_, List.mem_append_right _ (by simp; rfl), (List.suffix_append _ _).isInfix⟩
  obtain ⟨d, hd, hb⟩ := hh
  have hd : d ∈ docSlides load dt (pre ++ DocBlock.list items :: post) := hd
  refine ⟨_, ?_, d.kept, List.mem_map_of_mem hd, hb⟩
  rw [C89_import_partial load dt _ ho, if_neg (List.ne_nil_of_mem hd)]

/-- Whatever the list, an item with a list inside it is lost. -/
theorem C59_nested_violated (load : Str → Bool) (dt : Str → Str) (a b c : Str) (hb : trim b ≠ []) (hc : trim c ≠ []) :
    importMd load dt [.list, .item, .text a, .list, .item, .text b, .itemEnd, .listEnd, .itemEnd, .item, .text c, .itemEnd, .listEnd] =
      some (some [{ title := c!"Slide", bullets := [trim b, trim c] }]) := by
  simp [importMd, run, handle, State.push, State.itemEnd, State.flushItems, State.finalize, State.onSlide, marked, hb, hc]
  simp [trim, trimStart, trimEnd]

/-- So are the items before it. -/
theorem C59_earlier_items_violated (load : Str → Bool) (dt : Str → Str) (a b c : Str) (hc : trim c ≠ []) :
    importMd load dt [.list, .item, .text a, .itemEnd, .item, .text b, .list, .item, .text c, .itemEnd, .listEnd, .itemEnd, .listEnd] =
      some (some [{ title := c!"Slide", bullets := [trim c] }]) := by
  simp [importMd, run, handle, State.push, State.itemEnd, State.flushItems, State.finalize, State.onSlide, marked, hc]
  simp [trim, trimStart, trimEnd]

/-- The paragraphs of an item are written without anything between them. -/
theorem C59_paragraphs_violated (load : Str → Bool) (dt : Str → Str) (a b : Str) (hb : trim (a ++ b) ≠ []) :
    importMd load dt [.list, .item, .para, .text a, .paraEnd, .para, .text b, .paraEnd, .itemEnd, .listEnd] =
      some (some [{ title := c!"Slide", bullets := [trim (a ++ b)] }]) := by
  simp [importMd, run, handle, State.push, State.itemEnd, State.flushItems, State.finalize, State.onSlide, State.open, State.paraEnd,
    marked, hb]

/-- A list inside a quote becomes notes. -/
theorem C59_quoted_violated (load : Str → Bool) (dt : Str → Str) (t a : Str) (ha : a ≠ []) :
    importMd load dt [.heading 1, .text t, .headingEnd 1, .quote, .list, .item, .text a, .itemEnd, .listEnd, .quoteEnd] =
      some (some [{ title := trim t, notes := some (trim a) }]) := by
  cases a with
  | nil => exact absurd rfl ha
  | cons x xs =>
    simp [importMd, run, handle, State.push, State.itemEnd, State.flushItems, State.finalize, State.headingEnd, State.flushQuote, marked,
      show trim [] = [] from rfl]

/-- Whether a task is done is lost. -/
theorem C59_tasks_violated (load : Str → Bool) (dt : Str → Str) (es fs : List Ev) (b : Bool) :
    importMd load dt (es ++ .taskMarker b :: fs) = importMd load dt (es ++ fs) := by
  have : run load dt (es ++ .taskMarker b :: fs) {} = run load dt (es ++ fs) {} := by
    rw [md_run_append, md_run_append]
    rfl
  unfold importMd
  rw [this]

/-! ### What goes wrong -/

/-- A heading of a lower level before the first title is lost. -/
theorem C89_subheading_violated (load : Str → Bool) (dt : Str → Str) (l : Nat) (hl : l ≠ 1) (xs : List Inline)
    (ho : inlineOkL false false false false xs = true) (doc : List DocBlock) :
    importMd load dt (docEvs (.heading l xs :: doc)) = importMd load dt (docEvs doc) := by
  have h1 := md_run_inlines load dt xs (between ([], none) none) ⟨rfl, rfl, rfl, rfl, rfl, fun _ => rfl⟩ ho
  have : run load dt (docEvs (.heading l xs :: doc)) {} = run load dt (docEvs doc) {} := by
    show run load dt (blockEvs _ ++ docEvs doc) _ = _
    apply md_run_then
    rw [blockEvs, md_run_cons_some (st' := between ([], none) none) (by simp [handle, hl, between]), md_run_then h1, picsOfL_nil xs ho]
    show some (State.headingEnd _ l) = _
    unfold State.headingEnd
    rw [if_neg hl]
    rfl
  unfold importMd
  rw [this]

/-- A picture in a title is lost. -/
theorem C89_title_picture_violated (load : Str → Bool) (dt : Str → Str) (u t a : Str) :
    importMd load dt [.heading 1, .image u t, .text a, .imageEnd, .headingEnd 1] = some (some [{ title := trim a }]) := by
  cases h : load u <;>
  simp [importMd, run, handle, State.push, State.flushItems, State.finalize, State.headingEnd, State.imageEnd, State.addImage,
    State.onSlide, marked, h]

/-- Of two tables on a slide the first is lost. -/
theorem C89_tables_violated (load : Str → Bool) (dt : Str → Str) (title : List Inline) (h1 h2 : List (List Inline))
    (r1 r2 : List (List (List Inline))) (ht : blockOk (.heading 1 title) = true) (ho1 : blockOk (.table h1 r1) = true)
    (ho2 : blockOk (.table h2 r2) = true) (hp : (h1 ++ r1.flatten ++ (h2 ++ r2.flatten)).flatMap picsOfL = []) :
    importMd load dt (docEvs [.heading 1 title, .table h1 r1, .table h2 r2]) =
      some (some [{ title := plainText title, table := tableFromStringRows ((h2 :: r2).map fun r => r.map plainText) }]) := by
  rw [C89_import_partial load dt _ (by simp [ht, ho1, ho2])]
  rw [List.flatMap_append, List.append_eq_nil_iff] at hp
  have e : docSlides load dt [.heading 1 title, .table h1 r1, .table h2 r2] = [{ title := plainText title, tables :=
      [(h1 :: r1).map fun r => r.map plainText, (h2 :: r2).map fun r => r.map plainText] }] := by
    simp only [docSlides, List.flatMap_cons, List.flatMap_nil, blockActs, cells_pics, hp.1, hp.2, if_true]
    rfl
  rw [e]
  rfl

/-- Of two quotes on a slide the first is lost. -/
theorem C89_quotes_violated (load : Str → Bool) (dt : Str → Str) (t a b : Str) (hb : b ≠ []) :
    importMd load dt (docEvs [.heading 1 [.text t], .quote [.text a], .quote [.text b]]) =
      some (some [{ title := trim t, notes := some (trim b) }]) := by
  rw [C89_import_partial load dt _ (by simp [blockOk, inlineOkL, inlineOk])]
  by_cases ha : a = []
  · subst ha
    cases b with
    | nil => exact absurd rfl hb
    | cons x xs => simp [docSlides, blockActs, picActs, picsOfL, picsOf, plainText, mdShownL, mdShown, styled, execs, Act.exec, Piece.on, DocSlide.kept]
  · simp [docSlides, blockActs, picActs, picsOfL, picsOf, plainText, mdShownL, mdShown, styled, execs, Act.exec, Piece.on, DocSlide.kept, ha, hb]

/-- A quote before the first slide is lost. -/
theorem C89_first_quote_violated (load : Str → Bool) (dt : Str → Str) (a : Str) :
    importMd load dt (docEvs [.quote [.text a]]) = some none := by
  rw [C89_import_partial load dt _ (by simp [blockOk, inlineOkL, inlineOk])]
  by_cases ha : a = [] <;> simp [docSlides, blockActs, picActs, picsOfL, picsOf, plainText, mdShownL, mdShown, styled, execs, Act.exec, ha]

/-- Bold text inside bold text ends it, and struck out bold text is only bold. -/
theorem C89_style_violated (load : Str → Bool) (dt : Str → Str) (a b c : Str) :
    run load dt (inlinesEvs [.strong [.text a, .strong [.text b], .text c]]) {} =
      some { text := c!"**" ++ a ++ c!"**" ++ (c!"**" ++ b ++ c!"**") ++ c } ∧
    run load dt (inlinesEvs [.strike [.strong [.text a]]]) {} = some { text := c!"**" ++ a ++ c!"**" } := by
  simp [inlinesEvs, inlineEvs, run, handle, State.push, marked]

/-- A comment in a paragraph crashes the import: the text between its first `>` and its first `</` is taken, in that order. -/
theorem C89_comment_violated (load : Str → Bool) (dt : Str → Str) (a b : Str) :
    importMd load dt (docEvs [.para [.text a, .html c!"<!-- </b><mark> -->", .text b]]) = none := by
  have hm : htmlMark c!"<!-- </b><mark> -->" = some c!"==" := by decide
  have hs : htmlSlice c!"<!-- </b><mark> -->" = none := by decide
  simp [importMd, docEvs, blockEvs, inlinesEvs, inlineEvs, run, handle, State.push, State.open, State.html, marked, hm, hs]

/-- The rows read so far have cells, and not more than there were events. -/
def MdRowsOk (n : Nat) (st : State) : Prop := (∀ r ∈ st.rows, r ≠ [] ∧ r.length ≤ n) ∧ st.row.length ≤ n

theorem MdRowsOk.mono {n m : Nat} {st : State} (h : MdRowsOk n st) (hm : n ≤ m) : MdRowsOk m st :=
  ⟨fun r hr => ⟨(h.1 r hr).1, Nat.le_trans (h.1 r hr).2 hm⟩, Nat.le_trans h.2 hm⟩

theorem MdRowsOk.same {n : Nat} {st st' : State} (h : MdRowsOk n st) (h1 : st'.rows = st.rows) (h2 : st'.row = st.row) : MdRowsOk n st' := by
  unfold MdRowsOk
  rw [h1, h2]
  exact h

theorem push_rows (st : State) (t : Str) : (st.push t).rows = st.rows ∧ (st.push t).row = st.row := by
  unfold State.push
  dsimp only
  split
  · simp
  · split
    · simp
    · split <;> simp

theorem md_flushItems_rows (st : State) : st.flushItems.rows = st.rows ∧ st.flushItems.row = st.row := by
  unfold State.flushItems
  split <;> simp [State.onSlide]

theorem addImage_rows (load : Str → Bool) (st : State) (u a : Str) :
    (st.addImage load u a).rows = st.rows ∧ (st.addImage load u a).row = st.row := by
  unfold State.addImage
  split <;> simp [State.onSlide]

theorem html_some {h : Str} (hs : (∃ a b, h = a ++ c!"<mark>" ++ b ∨ h = a ++ c!"<ins>" ++ b ∨ h = a ++ c!"<sub>" ++ b ∨ h = a ++ c!"<sup>" ++ b) →
      ∀ a b, h = a ++ c!"</" ++ b → '>' ∈ a) (st : State) : ∃ st', st.html h = some st' ∧ st'.rows = st.rows ∧ st'.row = st.row := by
  unfold State.html
  cases hm : htmlMark h with
  | none => exact ⟨st, rfl, rfl, rfl⟩
  | some m =>
    have hs := hs (by
      unfold htmlMark at hm
      simp only [Bool.or_eq_true] at hm
      split at hm
      · rename_i h1
        rcases h1 with h1 | h1
        · obtain ⟨a, b, e⟩ := containsStr_iff.mp h1
          exact ⟨a, b, .inl e⟩
        · obtain ⟨a, b, e⟩ := containsStr_iff.mp h1
          exact ⟨a, b, .inr (.inl e)⟩
      · split at hm
        · rename_i h1
          obtain ⟨a, b, e⟩ := containsStr_iff.mp h1
          exact ⟨a, b, .inr (.inr (.inl e))⟩
        · split at hm
          · rename_i h1
            obtain ⟨a, b, e⟩ := containsStr_iff.mp h1
            exact ⟨a, b, .inr (.inr (.inr e))⟩
          · simp at hm)
    have hsl : ∃ o, htmlSlice h = some o := by
      unfold htmlSlice
      cases h1 : splitOnce? c!">" h with
      | none => exact ⟨_, rfl⟩
      | some ab =>
        obtain ⟨a, r⟩ := ab
        cases h2 : splitOnce? c!"</" h with
        | none => exact ⟨_, rfl⟩
        | some cd =>
          obtain ⟨b, r'⟩ := cd
          have e2 := splitOnce?_some h2
          have hb := hs b r' e2
          have hlt : ¬ b.length < a.length + 1 := by
            obtain ⟨x, y, rfl, hx⟩ := List.eq_append_cons_of_mem hb
            have h3 : splitOnce? c!">" h = some (x, y ++ c!"</" ++ r') := by
              rw [e2, show x ++ '>' :: y ++ c!"</" ++ r' = x ++ ['>'] ++ (y ++ c!"</" ++ r') by simp]
              exact splitOnce?_append_of_notMem hx
            rw [h1] at h3
            have : a = x := by simpa using congrArg (Option.map Prod.fst) h3
            subst this
            simp only [List.length_append, List.length_cons]
            omega
          show ∃ o, (if b.length < a.length + 1 then none else some _) = some o
          rw [if_neg hlt]
          exact ⟨_, rfl⟩
    obtain ⟨o, ho⟩ := hsl
    rw [ho]
    cases o with
    | none => exact ⟨st, rfl, rfl, rfl⟩
    | some t => exact ⟨_, rfl, (push_rows ..).1, (push_rows ..).2⟩

theorem handle_some (load : Str → Bool) (dt : Str → Str) (e : Ev) (st : State) (n : Nat) (h : MdRowsOk n st) (hn : n < 4294967296)
    (hs : ∀ h, Ev.html h = e → (∃ a b, h = a ++ c!"<mark>" ++ b ∨ h = a ++ c!"<ins>" ++ b ∨ h = a ++ c!"<sub>" ++ b ∨ h = a ++ c!"<sup>" ++ b) →
      ∀ a b, h = a ++ c!"</" ++ b → '>' ∈ a) : ∃ st', handle load dt st e = some st' ∧ MdRowsOk (n + 1) st' := by
  have hm := h.mono (Nat.le_succ n)
  have hfin : ∀ st : State, st.finalize.rows = st.rows ∧ st.finalize.row = st.row := md_flushItems_rows
  have hre : MdRowsOk (n + 1) st.rowEnd := by
    unfold State.rowEnd
    split
    · exact hm
    · rename_i hne
      refine ⟨fun r hr => ?_, by simp⟩
      rcases List.mem_append.mp hr with hr | hr
      · exact hm.1 r hr
      · have : r = st.row := by simpa using hr
        subst this
        exact ⟨hne, hm.2⟩
  cases e with
  | heading l =>
    refine ⟨_, rfl, hm.same ?_ ?_⟩
    · split
      · exact (hfin st).1
      · rfl
    · split
      · exact (hfin st).2
      · rfl
  | headingEnd l => exact ⟨_, rfl, hm.same (by unfold State.headingEnd; split <;> rfl) (by unfold State.headingEnd; split <;> rfl)⟩
  | listEnd => exact ⟨_, rfl, hm.same (md_flushItems_rows _).1 (md_flushItems_rows _).2⟩
  | table => exact ⟨_, rfl, ⟨fun r hr => by simp at hr, hm.2⟩⟩
  | tableEnd =>
    show ∃ st', State.flushTable _ = some st' ∧ _
    unfold State.flushTable
    split
    · exact ⟨_, rfl, hm.same rfl rfl⟩
    · obtain ⟨t, ht⟩ := table_some st.rows (fun r hr => (h.1 r hr).1) (fun r hr => by have := (h.1 r hr).2; omega)
      rw [show ({ st with inTable := false } : State).rows = st.rows from rfl, ht]
      exact ⟨_, rfl, ⟨fun r hr => by simp at hr, hm.2⟩⟩
  | tableHead => exact ⟨_, rfl, ⟨hm.1, by simp⟩⟩
  | tableHeadEnd => exact ⟨_, rfl, hre⟩
  | row => exact ⟨_, rfl, ⟨hm.1, by simp⟩⟩
  | rowEnd => exact ⟨_, rfl, hre⟩
  | cellEnd => exact ⟨_, rfl, ⟨hm.1, by simpa using h.2⟩⟩
  | codeEnd =>
    refine ⟨_, rfl, hm.same ?_ ?_⟩ <;>
    · unfold State.flushCode
      split
      · rfl
      · split <;> rfl
  | quoteEnd => exact ⟨_, rfl, hm.same (by unfold State.flushQuote; split <;> rfl) (by unfold State.flushQuote; split <;> rfl)⟩
  | codeSpan s => exact ⟨_, rfl, hm.same (push_rows ..).1 (push_rows ..).2⟩
  | html s =>
    obtain ⟨st', h1, h2, h3⟩ := html_some (hs s rfl) st
    exact ⟨st', h1, hm.same h2 h3⟩
  | imageEnd =>
    refine ⟨_, rfl, ?_⟩
    unfold State.imageEnd
    split
    · exact hm
    · exact hm.same (addImage_rows ..).1 (addImage_rows ..).2
  | rule => exact ⟨_, rfl, hm.same (hfin st).1 (hfin st).2⟩
  | text s => exact ⟨_, rfl, hm.same (push_rows ..).1 (push_rows ..).2⟩
  | softBreak => exact ⟨_, rfl, hm.same (push_rows ..).1 (push_rows ..).2⟩
  | hardBreak => exact ⟨_, rfl, hm.same (push_rows ..).1 (push_rows ..).2⟩
  | para => exact ⟨_, rfl, hm.same (by split <;> rfl) (by split <;> rfl)⟩
  | paraEnd =>
    refine ⟨_, rfl, hm.same ?_ ?_⟩ <;>
    · unfold State.paraEnd
      split
      · dsimp only
        split <;> rfl
      · rfl
  | list => exact ⟨_, rfl, hm.same rfl rfl⟩
  | item => exact ⟨_, rfl, hm.same rfl rfl⟩
  | itemEnd => exact ⟨_, rfl, hm.same rfl rfl⟩
  | cell => exact ⟨_, rfl, hm.same rfl rfl⟩
  | code l => exact ⟨_, rfl, hm.same rfl rfl⟩
  | quote => exact ⟨_, rfl, hm.same rfl rfl⟩
  | strong => exact ⟨_, rfl, hm.same rfl rfl⟩
  | strongEnd => exact ⟨_, rfl, hm.same rfl rfl⟩
  | emph => exact ⟨_, rfl, hm.same rfl rfl⟩
  | emphEnd => exact ⟨_, rfl, hm.same rfl rfl⟩
  | strike => exact ⟨_, rfl, hm.same rfl rfl⟩
  | strikeEnd => exact ⟨_, rfl, hm.same rfl rfl⟩
  | image u t => exact ⟨_, rfl, hm.same rfl rfl⟩
  | taskMarker c => exact ⟨_, rfl, hm.same rfl rfl⟩
  | other => exact ⟨_, rfl, hm.same rfl rfl⟩

/-- The only crash: whatever the events, the import ends if no piece of HTML with one of these four tags has `</` before its first `>`. -/
theorem C89_no_crash (load : Str → Bool) (dt : Str → Str) (es : List Ev) (hl : es.length < 4294967296)
    (hs : ∀ h, Ev.html h ∈ es → (∃ a b, h = a ++ c!"<mark>" ++ b ∨ h = a ++ c!"<ins>" ++ b ∨ h = a ++ c!"<sub>" ++ b ∨ h = a ++ c!"<sup>" ++ b) →
      ∀ a b, h = a ++ c!"</" ++ b → '>' ∈ a) : ∃ r, importMd load dt es = some r := by
  have key : ∀ (es : List Ev) (st : State) (n : Nat), MdRowsOk n st → n + es.length < 4294967296 →
      (∀ h, Ev.html h ∈ es → (∃ a b, h = a ++ c!"<mark>" ++ b ∨ h = a ++ c!"<ins>" ++ b ∨ h = a ++ c!"<sub>" ++ b ∨ h = a ++ c!"<sup>" ++ b) →
      ∀ a b, h = a ++ c!"</" ++ b → '>' ∈ a) → ∃ st', run load dt es st = some st' := by
    intro es
    induction es with
    | nil => exact fun st _ _ _ _ => ⟨st, rfl⟩
    | cons e es ih =>
      intro st n h hn hs
      simp only [List.length_cons] at hn
      obtain ⟨st1, h1, h2⟩ := handle_some load dt e st n h (by omega) (fun x hx => hs x (by simp [hx]))
      obtain ⟨st2, h3⟩ := ih st1 (n + 1) h2 (by omega) (fun x hx => hs x (by simp [hx]))
      exact ⟨st2, by rw [md_run_cons_some h1, h3]⟩
  obtain ⟨st, h⟩ := key es {} 0 ⟨fun r hr => by simp at hr, by simp⟩ (by omega) hs
  exact ⟨_, by unfold importMd; rw [h]; rfl⟩

/-! ### Examples -/

/-- A document with everything. -/
def exampleDoc : List DocBlock :=
  [.para [.text c!"before"], .heading 1 [.text c!"One ", .strong [.text c!"two"]], .heading 2 [.text c!"Sub"],
   .list [(false, [.text c!"a", .softBreak, .emph [.text c!"b"]]), (true, [.codeSpan c!"c"]), (false, [])],
   .quote [.text c!"say this"], .table [[.text c!"h"], [.text c!"k"]] [[[.text c!"1"], [.strike [.text c!"2"]]]],
   .rule, .code (some c!"rust") [c!"let x;\n"], .code none [], .para [.image c!"p.png" c!"" [.text c!"alt"]],
   .code (some c!"mermaid") [c!"graph LR\n"], .html]

example : ∀ b ∈ exampleDoc, blockOk b = true := by decide +kernel

example : importMd (fun _ => false) (fun _ => c!"Flowchart") (docEvs exampleDoc) = some (some
    [{ title := c!"Slide", bullets := [c!"before"] },
     { title := c!"One **two**", bullets := [c!"**Sub**", c!"a *b*", c!"`c`"], notes := some c!"say this",
       table := tableFromStringRows [[c!"h", c!"k"], [c!"1", c!"~~2~~"]] },
     { title := c!"One **two** (continued)", bullets := [c!"alt"], codes := [(c!"let x;", c!"rust")],
       shapes := [.placeholder c!"[Image: p.png]", .diagram c!"graph LR\n"] }]) := by decide +kernel

end PptRs.Props
