import Verif.Model.PdfText
import Verif.Props.Markdown

/-!
# PDF by way of Markdown (C168) and measures (C169)
-/

namespace PptRs.Props

open PptRs PptRs.Spec PptRs.Full PptRs.PdfText

/-- **C168.** The PDF is what the engine makes of a Markdown text with one heading for every slide, in their order, with its number
and its title. Titles with line breaks, and code with fences, are left out (C78). -/
theorem C168_headings_partial {E : Type} (eng : Engine E) (ext : Str → Str) (o : Options) (title : Str) (l : List Sheet)
    (ht : '\n' ∉ title) (h : ∀ p ∈ l, SimpleMd ext (sheetMd p)) :
    ∃ md, exportBytes eng ext o title l = eng.generate (eng.parse md) o.font o.fontSize o.orientation ∧
      mdHeadings md = l.zipIdx.map fun x => c!"## Slide " ++ dec (x.2 + 1) ++ c!": " ++ escapeMarkdown x.1.text.title := by
  refine ⟨_, rfl, ?_⟩
  rw [C78_headings_partial ext o.md title (l.map sheetMd) (by simp [Options.md]) ht (by simpa using h)]
  rw [List.zipIdx_map, List.map_map]
  rfl

/-- **C168.** The text the engine gets is that of the Markdown export with its default options, if nothing is switched off. -/
theorem C168_default {E : Type} (eng : Engine E) (ext : Str → Str) (title : Str) (l : List Sheet) :
    exportBytes eng ext {} title l =
      eng.generate (eng.parse (exportMarkdown ext mdDefault title (l.map sheetMd))) c!"Helvetica" 12000 .portrait := rfl

/-- **C168.** The file written holds the bytes returned and all others stay as they are; if the engine fails or the file cannot be
written, nothing changes. -/
theorem C168_file {E : Type} (eng : Engine E) (ext : Str → Str) (writable : Str → Bool) (o : Options) (title : Str) (l : List Sheet)
    (path : Str) (d : Disk) :
    (∀ b, (exportFile eng ext writable o title l path d).1 = some b →
      exportBytes eng ext o title l = some b ∧ (exportFile eng ext writable o title l path d).2 path = some b) ∧
    (∀ p, p ≠ path → (exportFile eng ext writable o title l path d).2 p = d p) ∧
    ((exportFile eng ext writable o title l path d).1 = none → (exportFile eng ext writable o title l path d).2 = d) ∧
    ((exportFile eng ext writable o title l path d).1 = none ↔ exportBytes eng ext o title l = none ∨ writable path = false) := by
  unfold exportFile
  cases he : exportBytes eng ext o title l with
  | none => simp
  | some b =>
    cases hw : writable path with
    | false => simp
    | true =>
      simp only [if_true]
      refine ⟨?_, ?_, ?_, ?_⟩
      · intro c hc
        cases hc
        exact ⟨rfl, by simp⟩
      · intro p hp
        simp [hp]
      · simp
      · simp

theorem mdSlide_noNotes {m : MdOptions} (h : m.notes = false) (ext : Str → Str) (i : Nat) (s : MdSlide) (x : Option Str) :
    mdSlide ext m i { s with notes := x } = mdSlide ext m i s := by
  unfold mdSlide
  have : ∀ t, mdNotes m t = [] := fun t => by simp [mdNotes, h]
  rw [this, this]
  rfl

theorem mdSlide_noImages {m : MdOptions} (h : m.images = false) (ext : Str → Str) (i : Nat) (s : MdSlide) (x : List Str) :
    mdSlide ext m i { s with images := x } = mdSlide ext m i s := by
  unfold mdSlide
  have : ∀ t, mdImages ext m i t = [] := fun t => by simp [mdImages, h]
  rw [this, this]
  rfl

/-- **C168.** What is switched off does not reach the engine: without notes the PDF is the same whatever the notes are, and without
images it is the same whatever the pictures are. -/
theorem C168_off {E : Type} (eng : Engine E) (ext : Str → Str) (o : Options) (title : Str) (l : List Sheet) :
    (∀ notes : Sheet → Option Str, exportBytes eng ext (o.withNotes false) title l =
      exportBytes eng ext (o.withNotes false) title (l.map fun p => { p with notes := notes p })) ∧
    (∀ images : Sheet → List (Draw.Picture × ImageIn), exportBytes eng ext (o.withImages false) title l =
      exportBytes eng ext (o.withImages false) title (l.map fun p => { p with images := images p })) := by
  have key : ∀ (m : MdOptions) (f : Sheet → Sheet), (∀ i p, mdSlide ext m i (sheetMd (f p)) = mdSlide ext m i (sheetMd p)) →
      exportMarkdown ext m title (l.map sheetMd) = exportMarkdown ext m title ((l.map f).map sheetMd) := by
    intro m f hf
    unfold exportMarkdown
    simp only [List.length_map, List.map_map, List.zipIdx_map, List.flatMap_map]
    refine congrArg (mdPreamble m title l.length ++ ·) (List.flatMap_congr fun x _ => ?_)
    exact (hf _ _).symm
  constructor
  · intro notes
    unfold exportBytes
    rw [key _ (fun p => { p with notes := notes p })]
    · intro i p
      exact mdSlide_noNotes rfl ext i (sheetMd p) (notes p)
  · intro images
    unfold exportBytes
    rw [key _ (fun p => { p with images := images p })]
    · intro i p
      exact mdSlide_noImages rfl ext i (sheetMd p) ((images p).map (·.2.ext))

/-- **C168.** Notes and references to pictures reach the engine if they are wanted: the text it gets contains them. -/
theorem C168_on (ext : Str → Str) (o : Options) (title : Str) (l : List Sheet) (i : Nat) (p : Sheet) (h : l[i]? = some p) :
    (o.notes = true → ∀ n, p.notes = some n → n ≠ [] →
      (c!"**Notes:**\n\n> " ++ escapeMarkdown n ++ c!"\n\n") <:+: exportMarkdown ext o.md title (l.map sheetMd)) ∧
    (o.images = true → ∀ j x, p.images[j]? = some x →
      (c!"![Image " ++ dec (j + 1) ++ c!" on slide " ++ dec (i + 1) ++ c!"](images/slide" ++ dec (i + 1) ++ c!"_image" ++ dec (j + 1) ++
        ext x.2.ext ++ c!")\n\n") <:+: exportMarkdown ext o.md title (l.map sheetMd)) := by
  have hs : mdSlide ext o.md i (sheetMd p) <:+: exportMarkdown ext o.md title (l.map sheetMd) := by
    unfold exportMarkdown
    refine List.IsInfix.trans ?_ (List.suffix_append _ _).isInfix
    have hm : (sheetMd p, i) ∈ (l.map sheetMd).zipIdx := by
      rw [List.mem_zipIdx_iff_getElem?]
      simp [h]
    obtain ⟨a, b, e⟩ := List.append_of_mem hm
    rw [e]
    simp only [List.flatMap_append, List.flatMap_cons]
    exact ⟨_, _, by rw [List.append_assoc]⟩
  constructor
  · intro ho n hn hne
    refine List.IsInfix.trans ?_ hs
    unfold mdSlide
    refine List.IsInfix.trans ?_ (List.suffix_append _ _).isInfix
    have : mdNotes o.md (sheetMd p) = c!"**Notes:**\n\n> " ++ escapeMarkdown n ++ c!"\n\n" := by
      simp [mdNotes, Options.md, ho, sheetMd, hn, hne]
    rw [this]
    exact List.infix_refl _
  · intro ho j x hx
    refine List.IsInfix.trans ?_ hs
    unfold mdSlide
    refine List.IsInfix.trans ?_ ((List.prefix_append _ _).trans (List.prefix_append _ _)).isInfix
    refine List.IsInfix.trans ?_ (List.suffix_append _ _).isInfix
    unfold mdImages
    rw [if_pos (by simpa [Options.md] using ho)]
    have hm : (x.2.ext, j) ∈ (sheetMd p).images.zipIdx := by
      rw [List.mem_zipIdx_iff_getElem?]
      simp [sheetMd, hx]
    obtain ⟨a, b, e⟩ := List.append_of_mem hm
    rw [e]
    simp only [List.flatMap_append, List.flatMap_cons]
    exact ⟨_, _, by rw [List.append_assoc]; rfl⟩

/-- **C168.** The methods of the options set what they are named after and keep all else; a font is never smaller than one point. -/
theorem C168_options (o : Options) (x : Orientation) (font : Str) (size : Int) (a b c : Bool) :
    ((((((o.withOrientation x).withFont font).withFontSize size).withFrontmatter a).withNotes b).withImages c) =
      ⟨x, font, if size < 1000 then 1000 else size, a, b, c⟩ ∧
    o.withOrientation x = ⟨x, o.font, o.fontSize, o.frontmatter, o.notes, o.images⟩ ∧
    o.withFont font = ⟨o.orientation, font, o.fontSize, o.frontmatter, o.notes, o.images⟩ ∧
    o.withFontSize size = ⟨o.orientation, o.font, if size < 1000 then 1000 else size, o.frontmatter, o.notes, o.images⟩ ∧
    o.withFrontmatter a = ⟨o.orientation, o.font, o.fontSize, a, o.notes, o.images⟩ ∧
    o.withNotes b = ⟨o.orientation, o.font, o.fontSize, o.frontmatter, b, o.images⟩ ∧
    o.withImages c = ⟨o.orientation, o.font, o.fontSize, o.frontmatter, o.notes, c⟩ ∧
    Options.landscape = ⟨.landscape, c!"Helvetica", 12000, true, true, true⟩ := by
  have h : max size 1000 = if size < 1000 then 1000 else size := by
    split <;> omega
  refine ⟨?_, rfl, rfl, ?_, rfl, rfl, rfl, rfl⟩ <;>
    simp only [Options.withOrientation, Options.withFont, Options.withFontSize, Options.withFrontmatter, Options.withNotes, Options.withImages, h]

/-- **C168 does not hold in full.** A PDF made by way of Markdown shows nothing of shapes, connectors, charts and ink, and of the
pictures only a reference to a file that is not written: the PDF is the same without all of these, and whatever the pictures show. -/
theorem C168_drawings_violated {E : Type} (eng : Engine E) (ext : Str → Str) (o : Options) (title : Str) (l : List Sheet)
    (bytes : Bytes → Bytes) :
    exportBytes eng ext o title l = exportBytes eng ext o title (l.map fun p =>
      { p with shapes := [], connectors := [], charts := [], ink := false,
               images := p.images.map fun i => (i.1, { i.2 with bytes := i.2.bytes.map bytes }) }) := by
  unfold exportBytes
  congr 3
  rw [List.map_map]
  refine List.map_congr_left fun p _ => ?_
  simp [sheetMd]

/-- **C168 does not hold in full.** Levels, numbering and looks of bullets are lost in a PDF made by way of Markdown: it is the same
whatever the bullets of the slides are, as it is made of the plain texts kept beside them. -/
theorem C168_bullets_violated {E : Type} (eng : Engine E) (ext : Str → Str) (o : Options) (title : Str) (l : List Sheet)
    (bullets : Sheet → List BulletPoint) :
    exportBytes eng ext o title l =
      exportBytes eng ext o title (l.map fun p => { p with text := { p.text with bullets := bullets p } }) := by
  unfold exportBytes
  congr 3
  rw [List.map_map]
  rfl

example : exportBytes (E := Str) ⟨id, fun e _ _ _ => some (e.map fun c => UInt8.ofNat c.toNat)⟩ id (({} : Options).withFrontmatter false) c!"T"
    [{ text := .new c!"A" }] = some ((c!"# T\n\n\n---\n\n## Slide 1: A\n\n").map fun c => UInt8.ofNat c.toNat) := by decide +kernel

/-! ### Measures -/

/-- The bytes of the texts of a slide that are counted: the title, the bullets and the notes. -/
def Spec.textBytes (p : Sheet) : Nat :=
  utf8Len p.text.title + (p.text.bullets.map fun b => utf8Len b.text).sum + utf8Len (p.notes.getD [])

/-- The bytes of the pictures of a slide that are at hand. -/
def Spec.pictureBytes (p : Sheet) : Nat := (p.images.map fun i => (i.2.bytes.getD []).length).sum

theorem payload_from (l : List Sheet) (n : Nat) :
    l.foldl (fun total p => total + utf8Len p.text.title + (p.text.bullets.map fun b => utf8Len b.text).sum + (p.notes.map utf8Len).getD 0) n =
      n + (l.map Spec.textBytes).sum := by
  induction l generalizing n with
  | nil => simp
  | cons p l ih =>
    rw [List.foldl_cons, ih, List.map_cons, List.sum_cons]
    have : (p.notes.map utf8Len).getD 0 = utf8Len (p.notes.getD []) := by
      cases p.notes <;> rfl
    unfold Spec.textBytes
    rw [this]
    omega

/-- **C169.** The payload of slides is the number of bytes of their titles, bullets and notes. -/
theorem C169_payload (l : List Sheet) : payload l = (l.map Spec.textBytes).sum := by
  unfold payload
  rw [payload_from, Nat.zero_add]

theorem addU_some {a b c : Nat} : addU a b = some c ↔ c = a + b ∧ a + b ≤ usizeMax := by
  unfold addU
  split
  · simp [*]
    omega
  · simp [*]

theorem addU_bind {a b : Nat} {f : Nat → Option Nat} {c : Nat} (h : (addU a b).bind f = some c) : f (a + b) = some c := by
  rw [Option.bind_eq_some_iff] at h
  obtain ⟨x, hx, h⟩ := h
  rw [addU_some] at hx
  rw [← hx.1]
  exact h

theorem addU_ok {a b : Nat} (h : a + b ≤ usizeMax) (f : Nat → Option Nat) : (addU a b).bind f = f (a + b) := by
  unfold addU
  rw [if_pos h]
  rfl

theorem addImages_ok (l : List (Draw.Picture × ImageIn)) (n : Nat) (h : n + (l.map fun i => (i.2.bytes.getD []).length).sum ≤ usizeMax) :
    addImages n l = some (n + (l.map fun i => (i.2.bytes.getD []).length).sum) := by
  induction l generalizing n with
  | nil => simp [addImages]
  | cons i l ih =>
    rw [List.map_cons, List.sum_cons] at h
    rw [addImages, List.map_cons, List.sum_cons]
    cases hb : i.2.bytes with
    | none =>
      rw [hb] at h
      simp only [Option.getD_none, List.length_nil, Nat.zero_add] at h ⊢
      exact ih n h
    | some b =>
      rw [hb] at h
      simp only [Option.getD_some] at h ⊢
      rw [addU_ok (by omega), ih _ (by omega)]
      congr 1
      omega

/-- What charts and pictures add. -/
def Spec.objectBytes (p : Sheet) : Nat := p.charts.length * 8192 + Spec.pictureBytes p

theorem addSheets_ok (l : List Sheet) (n : Nat) (h : n + (l.map Spec.objectBytes).sum ≤ usizeMax) :
    addSheets n l = some (n + (l.map Spec.objectBytes).sum) := by
  induction l generalizing n with
  | nil => simp [addSheets]
  | cons p l ih =>
    rw [List.map_cons, List.sum_cons] at h
    rw [addSheets, List.map_cons, List.sum_cons]
    have hb : Spec.objectBytes p = p.charts.length * 8192 + Spec.pictureBytes p := rfl
    have hm : satMul p.charts.length 8192 = p.charts.length * 8192 := by
      unfold satMul
      omega
    have hp : Spec.pictureBytes p = (p.images.map fun i => (i.2.bytes.getD []).length).sum := rfl
    rw [hm, addU_ok (by omega), addImages_ok _ _ (by rw [← hp]; omega), Option.bind_some, ih _ (by rw [← hp]; omega), ← hp]
    congr 1
    omega

/-- **C169.** The space reserved for a file is 32 KiB, 4 KiB for every slide, the bytes of the texts, 8 KiB for every chart and the
bytes of the pictures, as long as all this is less than 2^64; nothing panics then. -/
theorem C169_capacity (l : List Sheet)
    (h : 32768 + 4096 * l.length + (l.map Spec.textBytes).sum + (l.map Spec.objectBytes).sum < 2 ^ 64) :
    capacity l.length (some l) = some (32768 + 4096 * l.length + (l.map Spec.textBytes).sum + (l.map Spec.objectBytes).sum) := by
  have hu : usizeMax = 18446744073709551615 := rfl
  have h2 : (2 : Nat) ^ 64 = 18446744073709551616 := rfl
  rw [h2] at h
  have hm : satMul l.length 4096 = 4096 * l.length := by
    unfold satMul
    omega
  unfold capacity
  rw [hm, addU_ok (by omega)]
  simp only
  rw [C169_payload, addU_ok (by omega), addSheets_ok _ _ (by omega), Option.map_some]
  congr 1
  omega

/-- **C169.** Both ways of generating are measured alike: with the number of the slides, the bytes of the file and the payload. The
bytes for each slide fit into the file, and there are none without slides. -/
theorem C169_metrics (create : Str → List Sheet → Option Bytes) (title : Str) (l : List Sheet) (m : Metrics)
    (h : profile create title l = some m) :
    (∃ b, create title l = some b ∧ m = ⟨l.length, b.length, (l.map Spec.textBytes).sum⟩) ∧
    m.bytesPerSlide * l.length ≤ m.outputBytes ∧ (l ≠ [] → m.outputBytes < (m.bytesPerSlide + 1) * l.length) ∧
    (l = [] → m.bytesPerSlide = 0) := by
  unfold profile at h
  rw [Option.map_eq_some_iff] at h
  obtain ⟨b, hb, rfl⟩ := h
  refine ⟨⟨b, hb, by rw [C169_payload]⟩, ?_, ?_, ?_⟩
  · unfold Metrics.bytesPerSlide
    simp only
    split
    · simp
    · exact Nat.div_mul_le_self _ _
  · intro hl
    unfold Metrics.bytesPerSlide
    have h0 : l.length ≠ 0 := by simpa using hl
    simp only
    rw [if_neg h0]
    have := Nat.lt_mul_div_succ b.length (Nat.pos_of_ne_zero h0)
    rw [Nat.mul_comm] at this
    exact this
  · rintro rfl
    rfl

/-- **C169.** The sample slides: as many as asked for, each with its own number in the title and both bullets. -/
theorem C169_sample (n i : Nat) (h : i < n) :
    (sampleSheets n).length = n ∧
    ((sampleSheets n)[i]?).map (fun p => (p.text.title, p.text.bullets.map (·.text), p.text.content)) =
      some (c!"Slide " ++ dec i, [c!"Bullet A on slide " ++ dec i, c!"Bullet B on slide " ++ dec i],
        [c!"Bullet A on slide " ++ dec i, c!"Bullet B on slide " ++ dec i]) := by
  unfold sampleSheets
  constructor
  · simp
  · rw [List.getElem?_map, List.getElem?_range h]
    rfl

/-- **C169 does not hold in full.** The payload of slides leaves out what is written in tables, shapes and code: it is the same
whatever they contain. -/
theorem C169_payload_violated (l : List Sheet) (table : Sheet → Option TableIn) (shapes : Sheet → List Draw.Shape)
    (code : Sheet → List Draw.CodeBlock) :
    payload (l.map fun p => { p with text := { p.text with table := table p }, shapes := shapes p, codeBlocks := code p }) = payload l := by
  rw [C169_payload, C169_payload, List.map_map]
  rfl

example : capacity 2 (some (sampleSheets 2)) = some (32768 + 8192 + 7 + 19 + 19 + 7 + 19 + 19) := by decide +kernel

example : capacity (2 ^ 60) none = none := by decide +kernel

end PptRs.Props
