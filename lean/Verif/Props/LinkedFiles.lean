import Verif.Model.LinkedFiles
import Verif.Props.HtmlLimits
import Verif.Props.Image

/-!
# C166: files named by imported documents
-/

namespace PptRs.Props
open PptRs PptRs.Spec PptRs.Linked

/-! ## One picture -/

/-- The file begins like a picture. -/
def beginsAsPicture (d : Bytes) : Prop := isPng d ∨ isJpeg d ∨ isGif d

/-- **C166** (the picture). A file of fewer than four or of at least six bytes becomes a picture with exactly its bytes,
in the box from (2000000, 2000000) to (7000000, 5000000), which lies on every slide at least that large. Its format is
that of its signature, and its name ends accordingly. -/
theorem C166_picture_partial (disk : Str → Option Bytes) (src : Str) (d : Bytes)
    (h1 : ¬ c!"http://" <+: src) (h2 : ¬ c!"https://" <+: src) (h3 : disk src = some d)
    (h4 : d.length < 4 ∨ 6 ≤ d.length) :
    ∃ p, loadImage disk src = some (some p) ∧ p.data = d ∧ (p.x, p.y, p.width, p.height) = (2000000, 2000000, 5000000, 3000000) ∧
      (isPng d → p.filename = c!"image.png" ∧ p.format = c!"PNG") ∧
      (isJpeg d → 4 ≤ d.length → p.filename = c!"image.jpg" ∧ p.format = c!"JPEG") ∧
      (isGif d → p.filename = c!"image.gif" ∧ p.format = c!"GIF") := by
  obtain ⟨f, hf, g1, g2, g3, _⟩ := C58_formats_partial d h4
  have hs : ∀ p s : Str, ¬ p <+: s → stripPrefix? p s = none := by
    intro p
    induction p with
    | nil => intro s h; exact absurd (List.nil_prefix) h
    | cons a p ih =>
      intro s h
      cases s with
      | nil => rfl
      | cons b s =>
        simp only [stripPrefix?]
        split
        · rename_i e
          subst e
          exact ih s fun hp => h ((List.cons_prefix_cons).2 ⟨rfl, hp⟩)
        · rfl
  refine ⟨⟨c!"image." ++ Image.extOf f, f, 2000000, 2000000, 5000000, 3000000, d⟩, by simp only [loadImage, isAddress, hs _ _ h1, hs _ _ h2, Option.isSome_none, Bool.or_false, Bool.false_eq_true,
    if_false, h3, picture, Image.auto, hf, Option.map_some], rfl, rfl, ?_, ?_, ?_⟩
  · intro h; rw [g1 h]; exact ⟨rfl, rfl⟩
  · intro h h'; rw [g2 h h']; exact ⟨rfl, rfl⟩
  · intro h; rw [g3 h]; exact ⟨rfl, rfl⟩

/-- The disk of the examples. -/
def oneFile (name : Str) (d : Bytes) : Str → Option Bytes := fun s => if s = name then some d else none

example : ∃ p, loadImage (oneFile c!"a.gif" [0x47, 0x49, 0x46, 0x38, 0x39, 0x61, 1]) c!"a.gif" = some (some p) ∧
    p.filename = c!"image.gif" := ⟨_, rfl, rfl⟩

/-- **C166 does not hold in full.** A file of four or five bytes that is named as a picture in a page or a Markdown text
stops the importer with a crash unless it begins like a PNG or JPEG picture: the range of the first six bytes is taken
without a test of the length, because `a && b || c` groups as `(a && b) || c`. -/
theorem C166_short_file_violated (disk : Str → Option Bytes) (src : Str) (d : Bytes) (h : disk src = some d)
    (ha : isAddress src = false) (hd : d.length = 4 ∨ d.length = 5) (h1 : ¬ isPng d) (h2 : ¬ isJpeg d) :
    loadImage disk src = none := by
  have e4 : ¬ d.take 4 = [0x89, 0x50, 0x4E, 0x47] := fun e => h1 ((take_eq_iff (p := [0x89, 0x50, 0x4E, 0x47]) (by simp; omega)).1 e)
  have e2 : ¬ d.take 2 = [0xFF, 0xD8] := fun e => h2 ((take_eq_iff (p := [0xFF, 0xD8]) (by simp; omega)).1 e)
  simp only [loadImage, ha, Bool.false_eq_true, if_false, h, picture, Image.auto, autoFormat_short hd, if_neg e4, if_neg e2,
    Option.map_none]

example : loadImage (oneFile c!"notes.txt" [0x74, 0x65, 0x73, 0x74]) c!"notes.txt" = none := rfl

/-! ## HTML: which files are opened -/

theorem linked_step_congr (o : HtmlOptions) (uni : Char → Bool) (low : Str → Str) (d1 d2 : Str → Option Bytes)
    (st : HtmlState) (ev : HtmlEvent)
    (h : ∀ attrs s, ev = .openTag c!"img" attrs → attrValue? attrs c!"src" = some s → loadImage d1 s = loadImage d2 s) :
    st.step (env uni low d1) o ev = st.step (env uni low d2) o ev := by
  cases ev with
  | closeTag n => rfl
  | text t => rfl
  | openTag n a =>
    simp only [HtmlState.step, HtmlState.openTag]
    have : ∀ st : HtmlState, st.openBody (env uni low d1) o n a = st.openBody (env uni low d2) o n a := by
      intro st
      by_cases hn : n = c!"img"
      · subst hn
        have hi : st.image (env uni low d1) o a = st.image (env uni low d2) o a := by
          unfold HtmlState.image
          cases hs : attrValue? a c!"src" with
          | none => simp
          | some s =>
            have hl : (env uni low d1).load s = (env uni low d2).load s := by simp only [env, loaded, h a s rfl hs]
            simp only [Option.getD_some, hl]
        unfold HtmlState.openBody
        rw [hi]
      · simp only [HtmlState.openBody, if_neg hn]
    simp only [this]
    rfl

theorem linked_wanted {o : HtmlOptions} {st : HtmlState} {ev : HtmlEvent} {s : Str} (h : wanted o st ev = some s) :
    o.includeImages = true ∧ ∃ attrs, ev = .openTag c!"img" attrs ∧ attrValue? attrs c!"src" = some s := by
  cases ev with
  | closeTag n => simp [wanted] at h
  | text t => simp [wanted] at h
  | openTag n a =>
    simp only [wanted] at h
    split at h
    · rename_i hc
      obtain ⟨rfl, ho, _, hne⟩ := hc
      refine ⟨ho, a, rfl, ?_⟩
      cases hs : attrValue? a c!"src" with
      | none => rw [hs] at hne; exact absurd rfl hne
      | some x => rw [hs] at h; simpa using h
    · cases h

theorem linked_run_congr (o : HtmlOptions) (uni : Char → Bool) (low : Str → Str) (d1 d2 : Str → Option Bytes) :
    ∀ (es : List HtmlEvent) (st : HtmlState),
      (∀ attrs s, HtmlEvent.openTag c!"img" attrs ∈ es → attrValue? attrs c!"src" = some s → loadImage d1 s = loadImage d2 s) →
      runHtml (env uni low d1) d1 o st es = runHtml (env uni low d2) d2 o st es := by
  intro es
  induction es with
  | nil => intros; rfl
  | cons e es ih =>
    intro st h
    simp only [runHtml]
    have hw : (wanted o st e).any (fun s => (loadImage d1 s).isNone) = (wanted o st e).any fun s => (loadImage d2 s).isNone := by
      cases hw : wanted o st e with
      | none => rfl
      | some s =>
        obtain ⟨_, a, rfl, ha⟩ := linked_wanted hw
        simp only [Option.any_some, h a s (List.mem_cons_self ..) ha]
    rw [hw, linked_step_congr o uni low d1 d2 st e fun a s he hs => h a s (he ▸ List.mem_cons_self ..) hs]
    have := fun st => ih st fun a s he hs => h a s (List.mem_cons_of_mem _ he) hs
    simp only [this]

theorem tokenize_disk (uni : Char → Bool) (low : Str → Str) (d1 d2 : Str → Option Bytes) (html : Str) :
    tokenizeHtml (env uni low d2) html = tokenizeHtml (env uni low d1) html := by
  have : ∀ fuel s, tokenLoop (env uni low d2) fuel s = tokenLoop (env uni low d1) fuel s := by
    intro fuel
    induction fuel with
    | zero => intro s; rfl
    | succ n ih =>
      intro s
      cases s with
      | nil => rfl
      | cons c r =>
        simp only [tokenLoop, ih]
        rfl
  exact this _ _

theorem linked_address {disk : Str → Option Bytes} {s : Str} (h : isAddress s = true) : loadImage disk s = some none := by
  simp [loadImage, h]

theorem linked_isAddress {s : Str} (h : c!"http://" <+: s ∨ c!"https://" <+: s) : isAddress s = true := by
  have hp : ∀ p s : Str, p <+: s → (stripPrefix? p s).isSome = true := by
    rintro p s ⟨t, rfl⟩
    induction p with
    | nil => simp [stripPrefix?]
    | cons a p ih => simp [stripPrefix?]
  unfold isAddress
  rcases h with h | h
  · rw [hp _ _ h]; rfl
  · rw [hp _ _ h, Bool.or_true]

/-- **C166** (a page). What becomes of a page depends on no other files than those it names: if two disks agree on all
names that stand as the source of an image and are not addresses on the network, then the two imports end alike,
whether with slides, an error or a crash. -/
theorem C166_page_files (uni : Char → Bool) (low : Str → Str) (d1 d2 : Str → Option Bytes) (o : HtmlOptions) (html : Str)
    (h : ∀ attrs s, HtmlEvent.openTag c!"img" attrs ∈ tokenizeHtml (env uni low d1) html →
      (attrs.find? fun a => a.1 = c!"src").map (·.2) = some s → ¬ c!"http://" <+: s → ¬ c!"https://" <+: s → d1 s = d2 s) :
    importHtml uni low d1 o html = importHtml uni low d2 o html := by
  have ht : tokenizeHtml (env uni low d2) html = tokenizeHtml (env uni low d1) html := tokenize_disk ..
  unfold importHtml
  rw [ht, linked_run_congr o uni low d1 d2]
  intro a s he hs
  by_cases hh : c!"http://" <+: s ∨ c!"https://" <+: s
  · rw [linked_address (linked_isAddress hh), linked_address (linked_isAddress hh)]
  · rw [not_or] at hh
    simp only [loadImage, h a s he hs hh.1 hh.2]

/-- **C166** (no images wanted). Without images, what becomes of a page does not depend on the disk at all. -/
theorem C166_page_no_images (uni : Char → Bool) (low : Str → Str) (d1 d2 : Str → Option Bytes) (o : HtmlOptions) (html : Str)
    (h : o.includeImages = false) : importHtml uni low d1 o html = importHtml uni low d2 o html := by
  have ht : tokenizeHtml (env uni low d2) html = tokenizeHtml (env uni low d1) html := tokenize_disk ..
  have hs : ∀ (st : HtmlState) e, st.step (env uni low d1) o e = st.step (env uni low d2) o e := by
    intro st e
    cases e with
    | closeTag n => rfl
    | text t => rfl
    | openTag n a =>
      have : ∀ st : HtmlState, st.openBody (env uni low d1) o n a = st.openBody (env uni low d2) o n a := by
        intro st
        simp only [HtmlState.openBody, HtmlState.image, h, Bool.not_false, Bool.true_or, if_true]
      simp only [HtmlState.step, HtmlState.openTag, this]
      rfl
  have hw : ∀ (st : HtmlState) e, wanted o st e = none := by
    intro st e
    cases hw : wanted o st e with
    | none => rfl
    | some s => rw [(linked_wanted hw).1] at h; cases h
  have hr : ∀ es (st : HtmlState), runHtml (env uni low d1) d1 o st es = runHtml (env uni low d2) d2 o st es := by
    intro es
    induction es with
    | nil => intros; rfl
    | cons e es ih =>
      intro st
      simp only [runHtml, hw, Option.any_none, Bool.false_eq_true, if_false, hs, ih]
  unfold importHtml
  rw [ht, hr]

/-- **C166** (crashes). If no file on the disk has four or five bytes, the disk makes no page crash: the import is the one
without a disk whose pictures are the files themselves. -/
theorem C166_page_partial (uni : Char → Bool) (low : Str → Str) (disk : Str → Option Bytes) (o : HtmlOptions) (html : Str)
    (h : ∀ s d, disk s = some d → d.length < 4 ∨ 6 ≤ d.length) :
    importHtml uni low disk o html =
      parseHtml { uni := uni, low := low, load := fun s => if isAddress s then none else disk s } o html := by
  have hl : ∀ s, loadImage disk s ≠ none := by
    intro s
    unfold loadImage
    split
    · simp
    · split
      · simp
      · rename_i d hd
        obtain ⟨f, hf, _⟩ := C58_formats_partial d (h s d hd)
        simp [picture, Image.auto, hf]
  have he : (env uni low disk) = { uni := uni, low := low, load := fun s => if isAddress s then none else disk s } := by
    unfold env
    congr 1
    funext s
    unfold loaded loadImage
    split
    · rfl
    · split
      · rename_i hd
        rw [hd]; rfl
      · rename_i d hd
        obtain ⟨f, hf, _⟩ := C58_formats_partial d (h s d hd)
        simp [picture, Image.auto, hf, hd]
  have hr : ∀ es (st : HtmlState), runHtml (env uni low disk) disk o st es = st.run (env uni low disk) o es := by
    intro es
    induction es with
    | nil => intros; rfl
    | cons e es ih =>
      intro st
      have : (wanted o st e).any (fun s => (loadImage disk s).isNone) = false := by
        cases wanted o st e with
        | none => rfl
        | some s =>
          cases hs : loadImage disk s with
          | none => exact absurd hs (hl s)
          | some x => simp [hs]
      simp only [runHtml, this, Bool.false_eq_true, if_false, HtmlState.run, ih]
  unfold importHtml parseHtml parseEvents
  rw [hr, ← he]

/-! ## HTML: whose bytes are on the slides -/

/-- Every image of the slide satisfies `P`. -/
def ImagesOf (P : Bytes → Prop) (s : HtmlSlide) : Prop := ∀ i ∈ s.images, P i

theorem kept_imagesOf (o : HtmlOptions) (h : o.includeImages = false) (P : Bytes → Prop) :
    Kept o (fun _ => ImagesOf P) where
  mono := fun _ _ h => h
  fresh := fun _ _ => by simp [ImagesOf]
  first := fun _ _ _ => by simp [ImagesOf, HtmlSlide.push]
  para := fun _ s x hs => by
    unfold HtmlSlide.pushLimited
    split
    · exact hs
    · exact hs
  sub := fun _ _ _ hs => hs
  table := fun _ _ _ _ hs => hs
  code := fun _ _ _ _ hs => hs
  notes := fun _ _ _ hs => hs
  images := fun _ _ _ hi => by rw [h] at hi; cases hi

theorem step_images_off (e : HtmlEnv) (o : HtmlOptions) (st : HtmlState) (ev : HtmlEvent)
    (h : ∀ a, ev ≠ .openTag c!"img" a) : st.step e o ev = st.step e { o with includeImages := false } ev := by
  cases ev with
  | closeTag n => rfl
  | text t => rfl
  | openTag n a =>
    have hn : n ≠ c!"img" := fun hn => h a (hn ▸ rfl)
    simp only [HtmlState.step, HtmlState.openTag, HtmlState.openBody, if_neg hn]
    rfl

theorem linked_step_images (e : HtmlEnv) (o : HtmlOptions) (P : Bytes → Prop) {st st' : HtmlState} (ev : HtmlEvent)
    (hP : ∀ a s d, ev = .openTag c!"img" a → attrValue? a c!"src" = some s → e.load s = some d → P d)
    (h : AllSlides (ImagesOf P) st) (hs : st.step e o ev = some st') : AllSlides (ImagesOf P) st' := by
  by_cases hi : ∃ a, ev = .openTag c!"img" a
  · obtain ⟨a, rfl⟩ := hi
    simp only [HtmlState.step, HtmlState.openTag] at hs
    split at hs
    · cases hs; exact h.of_eq rfl rfl
    · split at hs
      · cases hs
      · have ho : ∀ st : HtmlState, st.openBody e o c!"img" a = st.image e o a := by
          intro st
          unfold HtmlState.openBody
          rw [if_neg (by decide), if_neg (by decide), if_neg (by decide), if_neg (by decide), if_neg (by decide), if_neg (by decide),
            if_neg (by decide), if_neg (by decide), if_pos rfl]
        rw [ho] at hs
        cases hs
        have h' : AllSlides (ImagesOf P) { st with stack := c!"img" :: st.stack } := h.of_eq rfl rfl
        have K := kept_imagesOf { o with includeImages := false } rfl P
        unfold HtmlState.image
        simp only
        split
        · exact h'
        · rename_i hc
          split
          · rename_i d hd
            cases hsrc : attrValue? a c!"src" with
            | none => rw [hsrc] at hc; simp at hc
            | some s =>
              rw [hsrc] at hd
              refine h'.set ?_ rfl rfl
              intro i hi
              simp only [List.mem_append, List.mem_singleton] at hi
              rcases hi with hi | rfl
              · exact K.currentD (n := 0) h' c!"Image" i hi
              · exact hP a s i rfl hsrc hd
          · exact K.addParagraph (n := 0) h' _
  · have hi' : ∀ a, ev ≠ .openTag c!"img" a := fun a ha => hi ⟨a, ha⟩
    rw [step_images_off e o st ev hi'] at hs
    have K := kept_imagesOf { o with includeImages := false } rfl P
    rcases K.step (n := 0) e ev h hs with h | ⟨_, h⟩
    · exact h
    · exact h

theorem linked_run_images (e : HtmlEnv) (disk : Str → Option Bytes) (o : HtmlOptions) (P : Bytes → Prop) :
    ∀ (es : List HtmlEvent) (st st' : HtmlState),
      (∀ a s d, HtmlEvent.openTag c!"img" a ∈ es → attrValue? a c!"src" = some s → e.load s = some d → P d) →
      AllSlides (ImagesOf P) st → runHtml e disk o st es = some st' → AllSlides (ImagesOf P) st' := by
  intro es
  induction es with
  | nil => intro st st' _ h hr; simp only [runHtml, Option.some.injEq] at hr; exact hr ▸ h
  | cons ev es ih =>
    intro st st' hP h hr
    simp only [runHtml] at hr
    split at hr
    · cases hr
    · cases h1 : st.step e o ev with
      | none => rw [h1] at hr; cases hr
      | some st1 =>
        rw [h1, Option.bind_some] at hr
        exact ih st1 st' (fun a s d ha => hP a s d (List.mem_cons_of_mem _ ha))
          (linked_step_images e o P ev (fun a s d ha => hP a s d (ha ▸ List.mem_cons_self ..)) h h1) hr

/-- **C166** (what is put on the slides). Every image on the slides of an imported page is, byte for byte, a file of the
disk that the page names as the source of an image; addresses on the network give none. -/
theorem C166_page_images (uni : Char → Bool) (low : Str → Str) (disk : Str → Option Bytes) (o : HtmlOptions) (html : Str)
    (slides : List HtmlSlide) (h : importHtml uni low disk o html = some (.ok slides)) :
    ∀ sl ∈ slides, ∀ i ∈ sl.images, ∃ attrs s, HtmlEvent.openTag c!"img" attrs ∈ tokenizeHtml (env uni low disk) html ∧
      (attrs.find? fun a => a.1 = c!"src").map (·.2) = some s ∧ disk s = some i ∧ ¬ c!"http://" <+: s ∧ ¬ c!"https://" <+: s := by
  simp only [importHtml, Option.map_eq_some_iff] at h
  obtain ⟨st, hr, hf⟩ := h
  have h0 : AllSlides (ImagesOf fun i => ∃ attrs s, HtmlEvent.openTag c!"img" attrs ∈ tokenizeHtml (env uni low disk) html ∧
      attrValue? attrs c!"src" = some s ∧ disk s = some i ∧ ¬ c!"http://" <+: s ∧ ¬ c!"https://" <+: s) ({} : HtmlState) :=
    ⟨by simp, by simp⟩
  have h1 := linked_run_images _ disk o _ _ _ _ ?_ h0 hr
  · have h2 := (kept_imagesOf { o with includeImages := false } rfl _).finalize (n := 0) h1
    simp only [HtmlState.finish] at hf
    split at hf
    · cases hf
    · simp only [Except.ok.injEq] at hf
      subst hf
      intro sl hsl i hi
      exact h2.1 sl (List.mem_of_mem_take hsl) i hi
  · intro a s d ha hs hd
    have hna : isAddress s ≠ true := by
      intro hadr
      simp [env, loaded, linked_address hadr] at hd
    refine ⟨a, s, ha, hs, ?_, fun hp => hna (linked_isAddress (.inl hp)), fun hp => hna (linked_isAddress (.inr hp))⟩
    simp only [env, loaded, loadImage, if_neg hna] at hd
    cases hds : disk s with
    | none => rw [hds] at hd; simp at hd
    | some b =>
      rw [hds] at hd
      cases hf : Image.autoFormat b with
      | none => simp [picture, Image.auto, hf] at hd
      | some f => simpa [picture, Image.auto, hf] using hd

/-- The page of the examples. -/
def linkingPage : Str := c!"<h1>Q</h1><img src='/etc/passwd'><p>t</p>"

/-- Options of the examples. -/
def linkingOptions (images : Bool) : HtmlOptions :=
  { maxSlides := 50, maxBullets := 10, includeCode := true, includeTables := true, includeImages := images }

/-- The beginning of a list of accounts. -/
def accounts : Bytes := [0x72, 0x6F, 0x6F, 0x74, 0x3A, 0x78, 0x3A, 0x30]

set_option maxRecDepth 8000 in
/-- **C166 does not hold in full.** The HTML importer puts every file that a page names as an image into the presentation,
as a PNG picture, wherever it lies and whatever it holds: `<img src='/etc/passwd'>` in a page from elsewhere
copies the list of accounts into the presentation. Neither the name nor the contents are looked at. -/
theorem C166_any_file_violated :
    ¬ beginsAsPicture accounts ∧
    importHtml (fun _ => false) id (oneFile c!"/etc/passwd" accounts) (linkingOptions true) linkingPage =
      some (.ok [{ title := c!"Q", content := [c!"t"], bullets := [c!"t"], images := [accounts] }]) ∧
    (loadImage (oneFile c!"/etc/passwd" accounts) c!"/etc/passwd").map (Option.map fun p => (p.filename, p.format)) =
      some (some (c!"image.png", c!"PNG")) := by
  refine ⟨?_, by decide +kernel, by decide +kernel⟩
  simp [beginsAsPicture, isPng, isJpeg, isGif, accounts]

set_option maxRecDepth 8000 in
example : importHtml (fun _ => false) id (oneFile c!"/etc/passwd" accounts) (linkingOptions false) linkingPage =
    some (.ok [{ title := c!"Q", content := [c!"t"], bullets := [c!"t"] }]) := by decide +kernel

set_option maxRecDepth 8000 in
example : importHtml (fun _ => false) id (fun _ => none) (linkingOptions true) linkingPage =
    some (.ok [{ title := c!"Q", content := [c!"[Image: /etc/passwd]", c!"t"], bullets := [c!"[Image: /etc/passwd]", c!"t"] }]) := by
  decide +kernel

set_option maxRecDepth 8000 in
example : importHtml (fun _ => false) id (oneFile c!"/etc/passwd" [1, 2, 3, 4]) (linkingOptions true) linkingPage = none := by
  decide +kernel

/-- **C166 does not hold in full.** Pictures of imported documents all get the same place and size, so that of several
on a slide each lies exactly over the one before. -/
theorem C166_one_place_violated (disk : Str → Option Bytes) (a b : Str) (p q : Picture)
    (h1 : loadImage disk a = some (some p)) (h2 : loadImage disk b = some (some q)) :
    (p.x, p.y, p.width, p.height) = (q.x, q.y, q.width, q.height) := by
  have : ∀ s r, loadImage disk s = some (some r) → (r.x, r.y, r.width, r.height) = (2000000, 2000000, 5000000, 3000000) := by
    intro s r h
    unfold loadImage at h
    split at h
    · cases h
    · split at h
      · cases h
      · rename_i d _
        simp only [picture, Option.map_map, Option.map_eq_some_iff, Function.comp] at h
        obtain ⟨f, _, e⟩ := h
        cases e
        rfl
  rw [this a p h1, this b q h2]

/-! ## Markdown -/

open MdImport in
theorem md_handle_congr (l1 l2 : Str → Bool) (t : Str → Str) (st : State) (e : Ev)
    (h : e = .imageEnd → ∀ p, st.pending = some p → l1 p.1 = l2 p.1) : handle l1 t st e = handle l2 t st e := by
  cases e with
  | imageEnd =>
    simp only [handle, State.imageEnd]
    cases hp : st.pending with
    | none => rfl
    | some p => simp only [State.addImage, h rfl p hp]
  | _ => rfl

open MdImport in
/-- The pending picture changes only with the start and the end of a picture. -/
theorem md_pending (l : Str → Bool) (t : Str → Str) {st st' : State} (e : Ev) (h : handle l t st e = some st') :
    st'.pending = st.pending ∨ st'.pending = none ∨ ∃ u a, e = .image u a ∧ st'.pending = some (u, a) := by
  have hf : ∀ s : State, s.flushItems.pending = s.pending := by
    intro s; unfold State.flushItems; split <;> rfl
  cases e with
  | image u a => right; right; simp only [handle, Option.some.injEq] at h; exact ⟨u, a, rfl, by rw [← h]⟩
  | imageEnd =>
    simp only [handle, Option.some.injEq] at h
    subst h
    unfold State.imageEnd
    split
    · left; rfl
    · right; left; rfl
  | heading n =>
    simp only [handle, Option.some.injEq] at h
    subst h
    left
    simp only [State.finalize]
    split <;> simp [hf]
  | headingEnd n =>
    simp only [handle, Option.some.injEq] at h
    subst h
    left
    unfold State.headingEnd; split <;> rfl
  | listEnd => simp only [handle, Option.some.injEq] at h; subst h; left; simp [hf]
  | tableEnd =>
    simp only [handle, State.flushTable] at h
    split at h
    · cases h; left; rfl
    · simp only [Option.map_eq_some_iff] at h
      obtain ⟨_, _, rfl⟩ := h
      left; rfl
  | tableHeadEnd => simp only [handle, Option.some.injEq] at h; subst h; left; unfold State.rowEnd; split <;> rfl
  | rowEnd => simp only [handle, Option.some.injEq] at h; subst h; left; unfold State.rowEnd; split <;> rfl
  | codeEnd =>
    simp only [handle, Option.some.injEq] at h; subst h; left
    unfold State.flushCode; split
    · rfl
    · split <;> rfl
  | quoteEnd => simp only [handle, Option.some.injEq] at h; subst h; left; unfold State.flushQuote; split <;> rfl
  | codeSpan s => simp only [handle, Option.some.injEq] at h; subst h; left; unfold State.push; simp only; split_ifs <;> rfl
  | text s => simp only [handle, Option.some.injEq] at h; subst h; left; unfold State.push; simp only; split_ifs <;> rfl
  | softBreak => simp only [handle, Option.some.injEq] at h; subst h; left; unfold State.push; simp only; split_ifs <;> rfl
  | hardBreak => simp only [handle, Option.some.injEq] at h; subst h; left; unfold State.push; simp only; split_ifs <;> rfl
  | html s =>
    simp only [handle, State.html] at h
    split at h
    · cases h; left; rfl
    · simp only [Option.map_eq_some_iff] at h
      obtain ⟨o, _, rfl⟩ := h
      left
      split
      · rfl
      · unfold State.push; simp only; split_ifs <;> rfl
  | rule => simp only [handle, Option.some.injEq] at h; subst h; left; simp [State.rule, State.finalize, hf]
  | para => simp only [handle, Option.some.injEq] at h; subst h; left; split <;> rfl
  | paraEnd =>
    simp only [handle, Option.some.injEq] at h; subst h; left
    unfold State.paraEnd; simp only
    split
    · split <;> rfl
    · rfl
  | _ => simp only [handle, Option.some.injEq] at h; subst h; left; rfl

open MdImport in
theorem runMd_congr (d1 d2 : Str → Option Bytes) (t : Str → Str) :
    ∀ (es : List Ev) (st : State), (∀ u a, Ev.image u a ∈ es → loadImage d1 u = loadImage d2 u) →
      (∀ p, st.pending = some p → loadImage d1 p.1 = loadImage d2 p.1) → runMd d1 t es st = runMd d2 t es st := by
  intro es
  induction es with
  | nil => intros; rfl
  | cons e es ih =>
    intro st h hp
    have e1 : (st.pending.any fun p => (loadImage d1 p.1).isNone) = st.pending.any fun p => (loadImage d2 p.1).isNone := by
      cases hst : st.pending with
      | none => rfl
      | some p => simp only [Option.any_some, hp p hst]
    have e2 : handle (fun s => (loaded d1 s).isSome) t st e = handle (fun s => (loaded d2 s).isSome) t st e :=
      md_handle_congr _ _ t st e fun _ p hst => by simp only [loaded, hp p hst]
    simp only [runMd, e1, e2]
    split
    · rfl
    · cases hh : handle (fun s => (loaded d2 s).isSome) t st e with
      | none => rfl
      | some st' =>
        simp only [Option.bind_some]
        refine ih st' (fun u a hu => h u a (List.mem_cons_of_mem _ hu)) fun p hst => ?_
        rcases md_pending _ t e hh with h1 | h1 | ⟨u, a, rfl, h1⟩
        · exact hp p (h1 ▸ hst)
        · rw [h1] at hst; cases hst
        · rw [h1] at hst; cases hst; exact h u a (List.mem_cons_self ..)

open MdImport in
/-- **C166** (a Markdown text). What becomes of a Markdown text depends on no other files than those it names as pictures
and that are not addresses on the network: slides, error and crash are the same for two disks that agree on these. -/
theorem C166_markdown_files (d1 d2 : Str → Option Bytes) (diagramTitle : Str → Str) (es : List Ev)
    (h : ∀ u a, Ev.image u a ∈ es → ¬ c!"http://" <+: u → ¬ c!"https://" <+: u → d1 u = d2 u) :
    importMdFiles d1 diagramTitle es = importMdFiles d2 diagramTitle es := by
  unfold importMdFiles
  rw [runMd_congr d1 d2 diagramTitle es {} _ (by intro p hp; cases hp)]
  intro u a hu
  by_cases hh : c!"http://" <+: u ∨ c!"https://" <+: u
  · rw [linked_address (linked_isAddress hh), linked_address (linked_isAddress hh)]
  · rw [not_or] at hh
    simp only [loadImage, h u a hu hh.1 hh.2]

open MdImport in
/-- **C166** (crashes, Markdown). If no file on the disk has four or five bytes, the disk makes no text crash: the import is
the one that knows of the disk only which pictures can be read. -/
theorem C166_markdown_partial (disk : Str → Option Bytes) (diagramTitle : Str → Str) (es : List Ev)
    (h : ∀ s d, disk s = some d → d.length < 4 ∨ 6 ≤ d.length) :
    importMdFiles disk diagramTitle es = importMd (fun s => !isAddress s && (disk s).isSome) diagramTitle es := by
  have hl : ∀ s, loadImage disk s ≠ none ∧ (loaded disk s).isSome = (!isAddress s && (disk s).isSome) := by
    intro s
    unfold loaded loadImage
    by_cases ha : isAddress s = true
    · simp [ha]
    · simp only [Bool.not_eq_true] at ha
      cases hd : disk s with
      | none => simp [ha]
      | some d =>
        obtain ⟨f, hf, _⟩ := C58_formats_partial d (h s d hd)
        simp [ha, picture, Image.auto, hf]
  have hfun : (fun s => (loaded disk s).isSome) = fun s => !isAddress s && (disk s).isSome := funext fun s => (hl s).2
  have hr : ∀ es (st : State), runMd disk diagramTitle es st = run (fun s => !isAddress s && (disk s).isSome) diagramTitle es st := by
    intro es
    induction es with
    | nil => intros; rfl
    | cons e es ih =>
      intro st
      have : (st.pending.any fun p => (loadImage disk p.1).isNone) = false := by
        cases st.pending with
        | none => rfl
        | some p =>
          cases hs : loadImage disk p.1 with
          | none => exact absurd hs (hl p.1).1
          | some x => simp [hs]
      simp only [runMd, this, Bool.false_eq_true, and_false, if_false, run, hfun]
      congr 1
      funext st
      exact ih st
  unfold importMdFiles importMd
  rw [hr]

/-- The text `![a](f)` of the examples. -/
def linkingText : List MdImport.Ev := [.para, .image c!"f" [], .text c!"a", .imageEnd, .paraEnd]

set_option maxRecDepth 8000 in
example : (importMdFiles (oneFile c!"f" accounts) id linkingText).map (Option.map (List.map (·.images))) = some (some [[c!"f"]]) := by
  decide +kernel

set_option maxRecDepth 8000 in
/-- **C166 does not hold in full.** A Markdown text that names a file of four bytes as a picture crashes the importer. -/
theorem C166_markdown_violated : importMdFiles (oneFile c!"f" [1, 2, 3, 4]) id linkingText = none := by
  decide +kernel

end PptRs.Props
