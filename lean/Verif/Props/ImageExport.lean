import Verif.Model.ImageExport
import Verif.Lemmas.Sort
import Verif.Lemmas.Rels
import Verif.Lemmas.Str

/-!
# Slides as pictures (C149)
-/

namespace PptRs.Props

open PptRs PptRs.External PptRs.ImageExport

/-- The picture of slide `n` among the files of an export. -/
def slideFileName (n : Nat) (ext : Str) : Str := c!"Slide" ++ dec n ++ c!"." ++ ext

/-- The program worked and the folder can be read. -/
structure Spec.Working (w : World) (dir : Str) : Prop where
  saved : w.saved = true
  made : w.made = true
  tool : w.tool = some true
  listable : w.listable dir = true

/-- What the program left in the folder: a picture for each of the `count` slides, named after its number; the other files that look
like pictures of the export are named after numbers, too, or are called otherwise than `Slide…`. -/
structure Spec.Drawn (o : Options) (count : Nat) (pic : Nat → Bytes) (g : Folder) : Prop where
  names : (g.map (·.1)).Nodup
  slides : ∀ n, 1 ≤ n → n ≤ count → (slideFileName n o.format.ext, pic n) ∈ g
  others : ∀ x ∈ g.map (·.1), isImage o x = true → (∃ k, k < 18446744073709551616 ∧ x = slideFileName k o.format.ext) ∨ 'S' ∉ x

theorem imageExt_noDot (o : Options) : '.' ∉ o.format.ext := by
  cases o.format <;> decide

theorem imageExt_noS (o : Options) : 'S' ∉ o.format.ext := by
  cases o.format <;> decide

theorem slideFileName_split (n : Nat) (o : Options) :
    rsplitOnceChar? '.' (slideFileName n o.format.ext) = some (c!"Slide" ++ dec n, o.format.ext) := by
  have := rsplitOnceChar?_append (c := '.') (a := c!"Slide" ++ dec n) (b := o.format.ext) (imageExt_noDot o)
  rw [← this]
  simp [slideFileName]

theorem fileStem_slideFileName (n : Nat) (o : Options) : fileStem (slideFileName n o.format.ext) = c!"Slide" ++ dec n := by
  unfold fileStem
  rw [slideFileName_split]
  rfl

theorem isImage_slideFileName (n : Nat) (o : Options) : isImage o (slideFileName n o.format.ext) = true := by
  unfold isImage
  have e : fileExt (slideFileName n o.format.ext) = some o.format.ext := by
    unfold fileExt
    rw [slideFileName_split]
    rfl
  rw [e, fileStem_slideFileName]
  have e1 : o.format.ext.map Char.toLower = o.format.ext := by cases o.format <;> decide
  have e2 : startsWith c!"Slide" (c!"Slide" ++ dec n) = true := by
    unfold startsWith
    rw [List.isPrefixOf_iff_prefix]
    exact List.prefix_append _ _
  simp only [e1, e2, decide_true, Bool.or_true, Bool.and_self]

theorem digits_of_dec (n : Nat) : (c!"Slide" ++ dec n).filter isDig = dec n := by
  rw [List.filter_append]
  have : (dec n).filter isDig = dec n := by
    rw [List.filter_eq_self]
    exact fun c hc => isDigit_of_mem_dec hc
  rw [this]
  rfl

theorem ofDigitChars_dec_self (n : Nat) : Nat.ofDigitChars 10 (dec n) 0 = n := by
  unfold dec
  rw [Nat.ofDigitChars_ten_toDigits]

theorem numberOf_slideFileName {n : Nat} (h : n < 18446744073709551616) (o : Options) :
    numberOf (slideFileName n o.format.ext) = n := by
  unfold numberOf
  rw [fileStem_slideFileName, digits_of_dec]
  unfold parseDigits
  rw [ofDigitChars_dec_self, if_pos ⟨dec_ne_nil n, h⟩]
  rfl

theorem ofDigitChars_mono (s : Str) (k : Nat) : k ≤ Nat.ofDigitChars 10 s k := by
  induction s generalizing k with
  | nil => exact Nat.le_refl _
  | cons c s ih =>
    rw [Nat.ofDigitChars_cons]
    refine Nat.le_trans ?_ (ih _)
    omega

/-- Digits in front of digits make a number greater. -/
theorem le_of_dec_prefix {n k : Nat} {rest : Str} (h : dec k = dec n ++ rest) : n ≤ k := by
  have := ofDigitChars_mono rest (Nat.ofDigitChars 10 (dec n) 0)
  rw [← Nat.ofDigitChars_append, ← h, ofDigitChars_dec_self, ofDigitChars_dec_self] at this
  exact this

theorem prefix_dec_dot {n k : Nat} {e t : Str} (h : dec k ++ '.' :: e = dec n ++ t) : ∃ rest, dec k = dec n ++ rest := by
  rcases List.append_eq_append_iff.mp h with ⟨r, h1, h2⟩ | ⟨r, h1, h2⟩
  · cases r with
    | nil => exact ⟨[], by simpa using h1.symm⟩
    | cons c r =>
      simp only [List.cons_append, List.cons.injEq] at h2
      have : c.isDigit = true := isDigit_of_mem_dec (n := n) (by rw [h1]; simp)
      rw [← h2.1] at this
      cases this
  · exact ⟨r, h1⟩

/-- A file of a slide whose name contains `Slide` and the number `n` is that of slide `n` or of a later one. -/
theorem le_of_contains {n k : Nat} {o : Options} (h : containsStr (c!"Slide" ++ dec n) (slideFileName k o.format.ext) = true) : n ≤ k := by
  obtain ⟨a, b, e⟩ := containsStr_iff.mp h
  cases a with
  | nil =>
    have e' : dec k ++ '.' :: o.format.ext = dec n ++ b := by
      have : c!"Slide" ++ (dec k ++ '.' :: o.format.ext) = c!"Slide" ++ (dec n ++ b) := by
        have := e
        unfold slideFileName at this
        simpa using this
      exact List.append_cancel_left this
    obtain ⟨rest, hr⟩ := prefix_dec_dot e'
    exact le_of_dec_prefix hr
  | cons c a =>
    exfalso
    have hs : 'S' ∈ (slideFileName k o.format.ext).tail := by
      rw [e]
      simp
    have hs' : 'S' ∉ (slideFileName k o.format.ext).tail := by
      have : (slideFileName k o.format.ext).tail = c!"lide" ++ dec k ++ c!"." ++ o.format.ext := rfl
      rw [this]
      simp only [List.mem_append, not_or]
      exact ⟨⟨⟨by decide, not_mem_dec (by decide)⟩, by decide⟩, imageExt_noS o⟩
    exact hs' hs

theorem mem_collect {o : Options} {names : List Str} {x : Str} : x ∈ collect o names ↔ x ∈ names ∧ isImage o x = true := by
  unfold collect
  rw [(sortByKey_perm numberOf _).mem_iff, List.mem_filter]

/-- The first match in a sorted list has the smallest number. -/
theorem find_least {l : List Str} {p : Str → Bool} (h : l.Pairwise fun a b => numberOf a ≤ numberOf b) {x y : Str}
    (hx : l.find? p = some x) (hy : y ∈ l) (hp : p y = true) : numberOf x ≤ numberOf y := by
  induction l with
  | nil => cases hy
  | cons z l ih =>
    rw [List.pairwise_cons] at h
    rw [List.find?_cons] at hx
    split at hx
    · cases hx
      rcases List.mem_cons.mp hy with rfl | hy
      · exact Nat.le_refl _
      · exact h.1 y hy
    · rename_i hz
      rcases List.mem_cons.mp hy with rfl | hy
      · rw [hp] at hz; cases hz
      · exact ih h.2 hx hy

theorem pick_slide {o : Options} {count n : Nat} {pic : Nat → Bytes} {g : Folder} (h : Spec.Drawn o count pic g)
    (h1 : 1 ≤ n) (h2 : n ≤ count) (hc : count < 18446744073709551616) :
    pick o n (collect o (g.map (·.1))) = some (slideFileName n o.format.ext) := by
  have hm : slideFileName n o.format.ext ∈ collect o (g.map (·.1)) :=
    mem_collect.mpr ⟨List.mem_map.mpr ⟨_, h.slides n h1 h2, rfl⟩, isImage_slideFileName n o⟩
  have hp : (fun x => decide (x = c!"Slide" ++ dec n ++ c!"." ++ o.format.ext) || containsStr (c!"Slide" ++ dec n) x)
      (slideFileName n o.format.ext) = true := by
    simp [slideFileName]
  unfold pick
  cases hf : (collect o (g.map (·.1))).find? fun x => decide (x = c!"Slide" ++ dec n ++ c!"." ++ o.format.ext) || containsStr (c!"Slide" ++ dec n) x with
  | none =>
    rw [List.find?_eq_none] at hf
    exact absurd hp (hf _ hm)
  | some x =>
    have hle := find_least (sortByKey_sorted numberOf _) hf hm hp
    have hx := mem_collect.mp (List.mem_of_find?_eq_some hf)
    have hxp := List.find?_some hf
    rw [numberOf_slideFileName (by omega)] at hle
    rcases h.others x hx.1 hx.2 with ⟨k, hk, rfl⟩ | hS
    · rw [numberOf_slideFileName hk] at hle
      have hge : n ≤ k := by
        simp only [Bool.or_eq_true, decide_eq_true_eq] at hxp
        rcases hxp with hxp | hxp
        · have := congrArg numberOf (show slideFileName k o.format.ext = slideFileName n o.format.ext from hxp)
          rw [numberOf_slideFileName hk, numberOf_slideFileName (by omega)] at this
          omega
        · exact le_of_contains hxp
      have : k = n := by omega
      rw [this]
    · exfalso
      simp only [Bool.or_eq_true, decide_eq_true_eq] at hxp
      rcases hxp with hxp | hxp
      · apply hS
        rw [hxp]
        simp
      · obtain ⟨a, b, e⟩ := containsStr_iff.mp hxp
        apply hS
        rw [e]
        simp

theorem lookup_of_mem {g : Folder} (h : (g.map (·.1)).Nodup) {x : Str} {d : Bytes} (hm : (x, d) ∈ g) : g.lookup x = some d := by
  induction g with
  | nil => cases hm
  | cons e g ih =>
    rw [List.map_cons, List.nodup_cons] at h
    rcases List.mem_cons.mp hm with rfl | hm
    · simp [List.lookup]
    · have hne : (x == e.1) = false := by
        rw [beq_eq_false_iff_ne]
        rintro rfl
        exact h.1 (List.mem_map.mpr ⟨_, hm, rfl⟩)
      rw [List.lookup_cons, hne]
      exact ih h.2 hm

theorem exportImages_working {w : World} {o : Options} {tempDir dir : Str} {f : Folder} (h : Spec.Working w dir) :
    exportImages w o tempDir dir f =
      (some (collect o ((w.convert (command o dir (tempDir ++ c!"/temp_export.pptx")) f).map (·.1))),
        w.convert (command o dir (tempDir ++ c!"/temp_export.pptx")) f) := by
  unfold exportImages
  rw [h.saved, h.made, h.tool]
  simp [h.listable]

/-- **C149.** If the program draws every slide into a file named after its number, the export of one slide leaves the picture of just
this slide under the name asked for, whatever else is in the folder and however many slides there are. -/
theorem C149_slide_partial (w : World) (o : Options) (tempDir path : Str) (count n : Nat) (pic : Nat → Bytes) (f : Folder)
    (hw : Spec.Working w (outDir path)) (hc : count < 18446744073709551616) (h1 : 1 ≤ n) (h2 : n ≤ count)
    (hd : Spec.Drawn o count pic (w.convert (command o (outDir path) (tempDir ++ c!"/temp_export.pptx")) f)) :
    (exportSlide w o tempDir count n path f).1 = true ∧
    (exportSlide w o tempDir count n path f).2.lookup (outName path) = some (pic n) := by
  unfold exportSlide
  rw [if_neg (by simp; omega), exportImages_working hw]
  have hcmd : command { o with slideNumber := n } = command o := rfl
  have hcol : collect { o with slideNumber := n } = collect o := rfl
  rw [hcmd, hcol]
  generalize w.convert (command o (outDir path) (tempDir ++ c!"/temp_export.pptx")) f = g at hd
  simp only [pick_slide hd h1 h2 hc]
  have hl := lookup_of_mem hd.names (hd.slides n h1 h2)
  refine ⟨trivial, ?_⟩
  split
  · rename_i e
    rw [← e]
    exact hl
  · unfold rename
    rw [hl]
    simp [List.lookup]

/-- **C149.** The pictures of an export are the files that look like pictures of it, in the order of their numbers. -/
theorem C149_order (w : World) (o : Options) (tempDir dir : Str) (f g : Folder) (names : List Str)
    (h : exportImages w o tempDir dir f = (some names, g)) :
    g = w.convert (command o dir (tempDir ++ c!"/temp_export.pptx")) f ∧
    names.Perm ((g.map (·.1)).filter (isImage o)) ∧ names.Pairwise fun a b => numberOf a ≤ numberOf b := by
  unfold exportImages at h
  split at h
  · cases h
  · split at h
    · cases h
    · simp only at h
      split at h
      · cases h
        exact ⟨rfl, sortByKey_perm _ _, sortByKey_sorted _ _⟩
      · cases h

/-- **C149.** If the files that look like pictures of the export are those of the slides, they are returned in the order of the
slides, in whatever order the folder is read. -/
theorem C149_all_partial (w : World) (o : Options) (tempDir dir : Str) (count : Nat) (f : Folder) (hw : Spec.Working w dir)
    (hc : count < 18446744073709551616)
    (hp : (((w.convert (command o dir (tempDir ++ c!"/temp_export.pptx")) f).map (·.1)).filter (isImage o)).Perm
      ((List.range count).map fun i => slideFileName (i + 1) o.format.ext)) :
    (exportImages w o tempDir dir f).1 = some ((List.range count).map fun i => slideFileName (i + 1) o.format.ext) := by
  rw [exportImages_working hw]
  generalize w.convert (command o dir (tempDir ++ c!"/temp_export.pptx")) f = g at hp
  have hp' := (sortByKey_perm numberOf _).trans hp
  refine congrArg some (?_ : sortByKey numberOf _ = _)
  refine hp'.eq_of_pairwise (le := fun a b => numberOf a ≤ numberOf b) ?_ (sortByKey_sorted numberOf _) ?_
  · intro a b ha hb h1 h2
    have ha := hp'.mem_iff.mp ha
    simp only [List.mem_map, List.mem_range] at ha hb
    obtain ⟨i, hi, rfl⟩ := ha
    obtain ⟨k, hk, rfl⟩ := hb
    rw [numberOf_slideFileName (by omega), numberOf_slideFileName (by omega)] at h1 h2
    have : i = k := by omega
    rw [this]
  · rw [List.pairwise_map]
    refine List.Pairwise.imp_of_mem ?_ (List.pairwise_lt_range (n := count))
    intro i k hi hk hik
    rw [List.mem_range] at hi hk
    rw [numberOf_slideFileName (by omega), numberOf_slideFileName (by omega)]
    omega

/-- **C149.** A slide that does not exist is refused, and nothing is done. -/
theorem C149_refused (w : World) (o : Options) (tempDir path : Str) (count n : Nat) (f : Folder) (h : n = 0 ∨ count < n) :
    exportSlide w o tempDir count n path f = (false, f) := by
  unfold exportSlide
  rw [if_pos (by simpa using h)]

/-- **C149.** The thumbnail is the picture of the first slide. -/
theorem C149_thumbnail (w : World) (tempDir path : Str) (count width : Nat) (f : Folder) :
    thumbnail w tempDir count path width f = exportSlide w {} tempDir count 1 path f := rfl

/-- **C149.** The pictures are asked for with the ending of their format, in the folder of the file that was named; a file of the root
folder is drawn there. -/
theorem C149_command (o : Options) (dir pptx name : Str) (a : Str) (ha : a ≠ []) (hn : '/' ∉ name) :
    command { o with format := .png } dir pptx =
      [c!"--headless", c!"--convert-to", c!"png:ExportNotesPages=false", c!"--outdir", dir, pptx] ∧
    command { o with format := .jpeg } dir pptx =
      [c!"--headless", c!"--convert-to", c!"jpg:ExportNotesPages=false", c!"--outdir", dir, pptx] ∧
    outDir (a ++ '/' :: name) = a ∧ outName (a ++ '/' :: name) = name ∧
    outDir ('/' :: name) = c!"/" ∧ outName ('/' :: name) = name := by
  have e := rsplitOnceChar?_append (c := '/') (a := a) (b := name) hn
  have e0 := rsplitOnceChar?_append (c := '/') (a := []) (b := name) hn
  simp only [List.nil_append] at e0
  refine ⟨rfl, rfl, ?_, ?_, ?_, ?_⟩
  · unfold outDir; rw [e]; simp [ha]
  · unfold outName; rw [e]; rfl
  · unfold outDir; rw [e0]; rfl
  · unfold outName; rw [e0]; rfl

/-- The value of the last call that gives one, or else the one before all calls. -/
def Spec.lastSet {α : Type} (f : Call → Option α) (before : α) (calls : List Call) : α := (calls.reverse.findSome? f).getD before

theorem set_last {α : Type} (f : Call → Option α) (get : Options → α) (h : ∀ o c, get (o.set c) = (f c).getD (get o)) (calls : List Call) :
    ∀ o : Options, get (calls.foldl Options.set o) = Spec.lastSet f (get o) calls := by
  unfold Spec.lastSet
  induction calls with
  | nil => intro o; rfl
  | cons c l ih =>
    intro o
    rw [List.foldl_cons, ih, h, List.reverse_cons, List.findSome?_append]
    cases l.reverse.findSome? f with
    | some a => rfl
    | none => cases hc : f c <;> simp [hc]

/-- **C149.** After any calls of the methods each option has the value of the last call that sets it, or the one of the preset; a quality
is at most 100. -/
theorem C149_setters (o : Options) (calls : List Call) :
    (calls.foldl Options.set o).format = Spec.lastSet (fun | .format f => some f | _ => none) o.format calls ∧
      (calls.foldl Options.set o).dpi = Spec.lastSet (fun | .dpi n => some n | _ => none) o.dpi calls ∧
      (calls.foldl Options.set o).jpegQuality = Spec.lastSet (fun | .quality n => some (min n 100) | _ => none) o.jpegQuality calls ∧
      (calls.foldl Options.set o).width = Spec.lastSet (fun | .dimensions w _ => some w | _ => none) o.width calls ∧
      (calls.foldl Options.set o).height = Spec.lastSet (fun | .dimensions _ h => some h | _ => none) o.height calls ∧
      (calls.foldl Options.set o).slideNumber = Spec.lastSet (fun | .slide n => some n | _ => none) o.slideNumber calls := by
  refine ⟨set_last _ (·.format) ?_ calls o, set_last _ (·.dpi) ?_ calls o, set_last _ (·.jpegQuality) ?_ calls o,
    set_last _ (·.width) ?_ calls o, set_last _ (·.height) ?_ calls o, set_last _ (·.slideNumber) ?_ calls o⟩ <;>
  · intro o c
    cases c <;> rfl

/-- **C149.** Qualities are always between 0 and 100, for all presets and calls. -/
theorem C149_quality (o : Options) (ho : o ∈ [{}, Options.highQuality, Options.webOptimized]) (calls : List Call) :
    (calls.foldl Options.set o).jpegQuality ≤ 100 := by
  have h0 : o.jpegQuality ≤ 100 := by
    simp only [List.mem_cons, List.not_mem_nil, or_false] at ho
    rcases ho with rfl | rfl | rfl <;> decide
  clear ho
  induction calls generalizing o with
  | nil => exact h0
  | cons c l ih =>
    apply ih
    cases c <;> first | exact h0 | exact Nat.min_le_right _ _

/-- **C149.** The presets, and names of formats: the high quality is of twice the default resolution without loss, and that for the web
is smaller in all respects. -/
theorem C149_presets :
    Options.highQuality.dpi = 2 * ({} : Options).dpi ∧ Options.highQuality.format = .png ∧ Options.webOptimized.format = .jpeg ∧
      Options.webOptimized.dpi < ({} : Options).dpi ∧ Options.webOptimized.jpegQuality < ({} : Options).jpegQuality ∧
      ({} : Options).jpegQuality < Options.highQuality.jpegQuality ∧
      (∀ o ∈ [({} : Options), Options.highQuality, Options.webOptimized], o.width = 0 ∧ o.height = 0 ∧ o.slideNumber = 0) ∧
      Format.png.mime = c!"image/png" ∧ Format.jpeg.mime = c!"image/jpeg" := by
  decide +kernel

/-- **C149 does not hold in full.** The resolution, the size and the quality asked for do not reach the program: what it is called
with depends on the format only. -/
theorem C149_options_violated (o o' : Options) (h : o.format = o'.format) (dir pptx : Str) : command o dir pptx = command o' dir pptx := by
  unfold command
  rw [h]

/-- A program that draws the first slide into one file named after the presentation, as `soffice` does. -/
def soffice (pic : Bytes) : World where
  saved := true
  made := true
  tool := some true
  convert _ f := (c!"temp_export.png", pic) :: f.filter fun e => e.1 ≠ c!"temp_export.png"
  listable dir := dir ≠ []

/-- **C149 does not hold in full.** `soffice` draws one picture, named after the temporary file. It is never taken for the picture
of a slide: the export of a slide into an empty folder fails and leaves that picture behind. -/
theorem C149_single_violated (pic : Bytes) (count n : Nat) (path : Str) :
    exportSlide (soffice pic) {} c!"/tmp" count n path [] = (false, if n = 0 ∨ count < n then [] else [(c!"temp_export.png", pic)]) := by
  unfold exportSlide
  by_cases h : n = 0 ∨ count < n
  · rw [if_pos (by simpa using h), if_pos h]
  · rw [if_neg (by simpa using h), if_neg h]
    unfold exportImages
    simp only [soffice, Bool.not_true, Bool.or_self, Bool.false_eq_true, if_false, List.filter_nil, Bool.true_and]
    by_cases hd : outDir path = []
    · simp [hd]
    · simp only [decide_eq_true_eq]
      rw [if_pos hd]
      have : pick {} n (collect { slideNumber := n } ([(c!"temp_export.png", pic)].map (·.1))) = none := by
        have e : collect { slideNumber := n } ([(c!"temp_export.png", pic)].map (·.1)) = [c!"temp_export.png"] := by
          have : collect { slideNumber := n } [c!"temp_export.png"] = collect {} [c!"temp_export.png"] := rfl
          rw [List.map_cons, List.map_nil, this]
          decide +kernel
        rw [e]
        unfold pick
        rw [List.find?_eq_none]
        intro x hx
        rw [List.mem_singleton] at hx
        subst hx
        have hS : 'S' ∉ c!"temp_export.png" := by decide
        simp only [Bool.or_eq_true, decide_eq_true_eq, not_or]
        refine ⟨fun e => hS (by rw [e]; simp), fun e => ?_⟩
        obtain ⟨a, b, e⟩ := containsStr_iff.mp e
        exact hS (by rw [e]; simp)
      simp only [this]

/-- **C149 does not hold in full.** A picture from before is taken for the one of this export: with an old `Slide1.png` in the folder
the export of the first slide succeeds and moves the old picture. The list of pictures contains files of other origin, too. -/
theorem C149_old_violated (pic old show' : Bytes) :
    exportSlide (soffice pic) {} c!"/tmp" 1 1 c!"out/first.png" [(c!"Slide1.png", old)] =
      (true, [(c!"first.png", old), (c!"temp_export.png", pic)]) ∧
    (exportImages (soffice pic) {} c!"/tmp" c!"out" [(c!"Slideshow.png", show')]).1 = some [c!"temp_export.png", c!"Slideshow.png"] := by
  constructor <;> rfl

/-- **C149 does not hold in full.** The folder of a plain file name is the empty path, which cannot be listed: a slide cannot be
exported to `first.png`, whatever the program draws. -/
theorem C149_plain_violated (w : World) (h : w.listable [] = false) (o : Options) (tempDir name : Str) (hn : '/' ∉ name) (count n : Nat)
    (f : Folder) : (exportSlide w o tempDir count n name f).1 = false := by
  have e : outDir name = [] := by
    unfold outDir
    have : rsplitOnceChar? '/' name = none := by
      clear h
      induction name with
      | nil => rfl
      | cons c s ih =>
        simp only [List.mem_cons, not_or] at hn
        rw [rsplitOnceChar?, ih hn.2]
        simp only
        rw [if_neg fun e => hn.1 e.symm]
    rw [this]
  unfold exportSlide
  split
  · rfl
  · rw [e]
    unfold exportImages
    split
    · rename_i h'
      split at h'
      · cases h'; rfl
      · split at h'
        · cases h'; rfl
        · simp only [h, Bool.and_false, Bool.false_eq_true, if_false] at h'
          cases h'; rfl
    · rename_i h'
      split at h'
      · cases h'
      · split at h'
        · cases h'
        · simp only [h, Bool.and_false, Bool.false_eq_true, if_false] at h'
          cases h'

/-- A program that draws every slide. -/
def drawsAll (count : Nat) (pic : Nat → Bytes) : World where
  saved := true
  made := true
  tool := some true
  convert _ f := f ++ (List.range count).map fun i => (slideFileName (i + 1) c!"png", pic (i + 1))
  listable dir := dir ≠ []

example : Spec.Working (drawsAll 11 fun n => [UInt8.ofNat n]) (outDir c!"out/x.png") := ⟨rfl, rfl, rfl, by decide⟩

example : exportSlide (drawsAll 11 fun n => [UInt8.ofNat n]) {} c!"/tmp" 11 1 c!"out/x.png" [] =
    (true, (c!"x.png", [1]) :: ((List.range 10).map fun i => (slideFileName (i + 2) c!"png", [UInt8.ofNat (i + 2)]))) := by decide +kernel

example : ((drawsAll 11 fun n => [UInt8.ofNat n]).convert [] [(c!"a.txt", []), (c!"temp_export1.png", [])]).map (·.1) =
    [c!"a.txt", c!"temp_export1.png", c!"Slide1.png", c!"Slide2.png", c!"Slide3.png", c!"Slide4.png", c!"Slide5.png", c!"Slide6.png",
     c!"Slide7.png", c!"Slide8.png", c!"Slide9.png", c!"Slide10.png", c!"Slide11.png"] := by decide +kernel

/-- The conditions of `C149_slide_partial` hold with other files in the folder. -/
example : Spec.Drawn {} 11 (fun n => [UInt8.ofNat n])
    ((drawsAll 11 fun n => [UInt8.ofNat n]).convert [] [(c!"a.txt", []), (c!"temp_export1.png", [])]) where
  names := by decide +kernel
  slides := by
    intro n h1 h2
    refine List.mem_append_right _ (List.mem_map.mpr ⟨n - 1, List.mem_range.mpr (by omega), ?_⟩)
    rw [Nat.sub_add_cancel h1]
    rfl
  others := by
    intro x hx hi
    simp only [drawsAll, List.map_append, List.mem_append, List.map_map, List.mem_map, List.mem_range] at hx
    rcases hx with ⟨e, he, rfl⟩ | ⟨i, hi, rfl⟩
    · right
      simp only [List.mem_cons, List.not_mem_nil, or_false] at he
      rcases he with rfl | rfl <;> decide
    · exact .inl ⟨i + 1, by omega, rfl⟩

end PptRs.Props
