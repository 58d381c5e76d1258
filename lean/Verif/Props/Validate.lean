import Verif.Lemmas.Validate
import Verif.Props.BuilderTargets
import Verif.Props.BuilderParts

/-!
# C64: the validator accepts generated decks
-/

namespace PptRs.Props

open PptRs.Spec PptRs.Validate

/-- Conditions on the input: no template, ordinary image extensions, internal links only to slides of the
deck, ids of links without quotes, and fonts with plain typefaces, distinct file names and ids left to the
builder. -/
structure DeckOk (d : Deck) (st : BuildSettings) : Prop where
  links : LinksOk d st
  exts : ∀ s ∈ d.slides, ∀ i ∈ s.images, i.ext = c!"png" ∨ i.ext = c!"jpg" ∨ i.ext = c!"gif"
  linkIds : ∀ s ∈ d.slides, ∀ id ∈ linkIds s, '"' ∉ id
  typefaces : ∀ f ∈ st.fonts.getD [], f.typeface.any needsEscape = false
  fontFiles : ((st.fonts.getD []).map (·.fileName)).Nodup
  fontIds : ∀ f ∈ st.fonts.getD [], f.relationshipId = []

/-! ### The archive -/

theorem hasPart_archive {d : Deck} {st : BuildSettings} {desc : Str → Str} {texts : PartTexts} {path : Str} :
    hasPart (packageArchive d st desc texts) path = true ↔ ∃ q ∈ names (buildPackage d st), q.path = path := by
  simp [hasPart, packageArchive, names]

theorem readPart_archive {d : Deck} {st : BuildSettings} (h : DeckOk d st) (desc : Str → Str) (texts : PartTexts)
    {e : Entry} (he : e ∈ buildPackage d st) :
    readPart (packageArchive d st desc texts) e.name.path = entryText d st desc texts e := by
  have hn := C31_no_duplicates_partial d st h.links.template h.fontFiles
  have key : ∀ l : List Entry, (l.map (·.name.path)).Nodup → e ∈ l →
      (l.map fun e => (e.name.path, entryText d st desc texts e)).find? (fun x => x.1 = e.name.path) =
        some (e.name.path, entryText d st desc texts e) := by
    intro l hl he
    induction l with
    | nil => simp at he
    | cons x l ih =>
      rw [List.map_cons, List.nodup_cons] at hl
      rcases List.mem_cons.mp he with rfl | he'
      · simp
      · have : x.name.path ≠ e.name.path := by
          intro h; exact hl.1 (h ▸ List.mem_map_of_mem he')
        rw [List.map_cons, List.find?_cons_of_neg (by simpa using this)]
        exact ih hl.2 he'
  unfold readPart packageArchive
  rw [key _ hn he]
  rfl

/-! ### Extensions -/

theorem endsWith_dot {a x y : Str} (hx : '.' ∉ x) (hy : '.' ∉ y) :
    endsWith ('.' :: y) (a ++ '.' :: x) = decide (x = y) := by
  have key : ∀ {u v p q : Str}, '.' ∉ u → '.' ∉ v → u ++ '.' :: p = v ++ '.' :: q → u = v := by
    intro u
    induction u with
    | nil =>
      intro v p q _ hv e
      cases v with
      | nil => rfl
      | cons c v => simp only [List.nil_append, List.cons_append, List.cons.injEq] at e; exact absurd e.1 (by rintro rfl; simp at hv)
    | cons c u ih =>
      intro v p q hu hv e
      cases v with
      | nil => simp only [List.nil_append, List.cons_append, List.cons.injEq] at e; exact absurd e.1 (by rintro rfl; simp at hu)
      | cons c' v =>
        simp only [List.cons_append, List.cons.injEq] at e
        rw [e.1, ih (fun h => hu (by simp [h])) (fun h => hv (by simp [h])) e.2]
  rw [Bool.eq_iff_iff, decide_eq_true_eq]
  unfold endsWith
  rw [List.isSuffixOf_iff_suffix]
  constructor
  · rintro ⟨r, e⟩
    have e' : x.reverse ++ '.' :: a.reverse = y.reverse ++ '.' :: r.reverse := by
      simpa using congrArg List.reverse e.symm
    have := key (by simpa using hx) (by simpa using hy) e'
    exact List.reverse_injective this
  · rintro rfl
    exact ⟨a, rfl⟩

/-- The relationship parts. -/
def isRelsPart : PartName → Bool
  | .rootRels | .presRels | .handoutRels | .notesMasterRels | .masterRels | .layoutRels _ | .slideRels _
  | .notesRels _ | .chartRels _ => true
  | _ => false

/-- The text after the last dot of a part name. -/
def partExtension : PartName → Str
  | .rootRels | .presRels | .handoutRels | .notesMasterRels | .masterRels | .layoutRels _ | .slideRels _
  | .notesRels _ | .chartRels _ => c!"rels"
  | .media _ ext => ext
  | .font _ => c!"fntdata"
  | .embedding _ => c!"xlsx"
  | .sigOrigin => c!"sigs"
  | _ => c!"xml"

theorem partExtension_spec {d : Deck} {st : BuildSettings} (h : DeckOk d st) {p : PartName}
    (hp : p ∈ names (buildPackage d st)) : '.' ∉ partExtension p ∧ partExtension p ≠ [] ∧ ∃ a, p.path = a ++ '.' :: partExtension p := by
  rw [mem_names h.links.template] at hp
  cases p
  case media n x =>
    have hm : .media n x ∈ mediaParts (distinctImages d.slides) := by
      cases hh : st.handout <;> cases hs : st.signature <;>
        by_cases h0 : numNotes d.slides = 0 <;>
        simpa [expectedParts, hh, hs, h0] using hp
    obtain ⟨_, s, hs, i, hi, rfl⟩ := mem_media_ext hm
    refine ⟨?_, ?_, c!"ppt/media/image" ++ dec n, by simp [PartName.path, partExtension]⟩ <;>
      rcases h.exts s hs i hi with e | e | e <;> simp only [partExtension, e] <;> decide
  case font file =>
    have hf : ∃ f ∈ st.fonts.getD [], f.fileName = file := by
      cases hh : st.handout <;> cases hs : st.signature <;>
        by_cases h0 : numNotes d.slides = 0 <;>
        simpa [expectedParts, hh, hs, h0, mediaParts] using hp
    obtain ⟨f, _, rfl⟩ := hf
    exact ⟨by simp [partExtension], by simp [partExtension], c!"ppt/fonts/" ++ (replaceChar ' ' [] f.typeface ++ c!"-" ++ f.style.xmlElement),
      by simp [PartName.path, EmbeddedFont.fileName, partExtension]⟩
  case templatePart path => exact absurd (expectedParts_own d st _ hp) (by simp [PartName.Own])
  case contentTypes => exact ⟨by simp [partExtension], by simp [partExtension], c!"[Content_Types]", rfl⟩
  case rootRels => exact ⟨by simp [partExtension], by simp [partExtension], c!"_rels/", rfl⟩
  case presRels => exact ⟨by simp [partExtension], by simp [partExtension], c!"ppt/_rels/presentation.xml", rfl⟩
  case presentation => exact ⟨by simp [partExtension], by simp [partExtension], c!"ppt/presentation", rfl⟩
  case presProps => exact ⟨by simp [partExtension], by simp [partExtension], c!"ppt/presProps", rfl⟩
  case viewProps => exact ⟨by simp [partExtension], by simp [partExtension], c!"ppt/viewProps", rfl⟩
  case tableStyles => exact ⟨by simp [partExtension], by simp [partExtension], c!"ppt/tableStyles", rfl⟩
  case handoutMaster => exact ⟨by simp [partExtension], by simp [partExtension], c!"ppt/handoutMasters/handoutMaster1", rfl⟩
  case handoutRels => exact ⟨by simp [partExtension], by simp [partExtension], c!"ppt/handoutMasters/_rels/handoutMaster1.xml", rfl⟩
  case notesMaster => exact ⟨by simp [partExtension], by simp [partExtension], c!"ppt/notesMasters/notesMaster1", rfl⟩
  case notesMasterRels => exact ⟨by simp [partExtension], by simp [partExtension], c!"ppt/notesMasters/_rels/notesMaster1.xml", rfl⟩
  case master => exact ⟨by simp [partExtension], by simp [partExtension], c!"ppt/slideMasters/slideMaster1", rfl⟩
  case masterRels => exact ⟨by simp [partExtension], by simp [partExtension], c!"ppt/slideMasters/_rels/slideMaster1.xml", rfl⟩
  case core => exact ⟨by simp [partExtension], by simp [partExtension], c!"docProps/core", rfl⟩
  case app => exact ⟨by simp [partExtension], by simp [partExtension], c!"docProps/app", rfl⟩
  case sigOrigin => exact ⟨by simp [partExtension], by simp [partExtension], c!"_xmlsignatures/origin", rfl⟩
  case sig => exact ⟨by simp [partExtension], by simp [partExtension], c!"_xmlsignatures/sig1", rfl⟩
  case theme n => exact ⟨by simp [partExtension], by simp [partExtension], c!"ppt/theme/theme" ++ dec n, by simp [PartName.path, partExtension]⟩
  case layout n => exact ⟨by simp [partExtension], by simp [partExtension], c!"ppt/slideLayouts/slideLayout" ++ dec n, by simp [PartName.path, partExtension]⟩
  case layoutRels n =>
    exact ⟨by simp [partExtension], by simp [partExtension], c!"ppt/slideLayouts/_rels/slideLayout" ++ dec n ++ c!".xml", by simp [PartName.path, partExtension]⟩
  case slide n => exact ⟨by simp [partExtension], by simp [partExtension], c!"ppt/slides/slide" ++ dec n, by simp [PartName.path, partExtension]⟩
  case slideRels n =>
    exact ⟨by simp [partExtension], by simp [partExtension], c!"ppt/slides/_rels/slide" ++ dec n ++ c!".xml", by simp [PartName.path, partExtension]⟩
  case notes n => exact ⟨by simp [partExtension], by simp [partExtension], c!"ppt/notesSlides/notesSlide" ++ dec n, by simp [PartName.path, partExtension]⟩
  case notesRels n =>
    exact ⟨by simp [partExtension], by simp [partExtension], c!"ppt/notesSlides/_rels/notesSlide" ++ dec n ++ c!".xml", by simp [PartName.path, partExtension]⟩
  case chart n => exact ⟨by simp [partExtension], by simp [partExtension], c!"ppt/charts/chart" ++ dec n, by simp [PartName.path, partExtension]⟩
  case chartRels n =>
    exact ⟨by simp [partExtension], by simp [partExtension], c!"ppt/charts/_rels/chart" ++ dec n ++ c!".xml", by simp [PartName.path, partExtension]⟩
  case embedding n =>
    exact ⟨by simp [partExtension], by simp [partExtension], c!"ppt/embeddings/Microsoft_Excel_Sheet" ++ dec n, by simp [PartName.path, partExtension]⟩
  case ink n => exact ⟨by simp [partExtension], by simp [partExtension], c!"ppt/ink/ink" ++ dec n, by simp [PartName.path, partExtension]⟩

theorem endsWith_rels {d : Deck} {st : BuildSettings} (h : DeckOk d st) {p : PartName}
    (hp : p ∈ names (buildPackage d st)) : endsWith c!".rels" p.path = isRelsPart p := by
  obtain ⟨hd, -, a, e⟩ := partExtension_spec h hp
  rw [e, endsWith_dot hd (by decide)]
  have hx : ∀ n x, p = .media n x → x ≠ c!"rels" := by
    rintro n x rfl
    have hm : .media n x ∈ mediaParts (distinctImages d.slides) := by
      rw [mem_names h.links.template] at hp
      cases hh : st.handout <;> cases hs : st.signature <;>
        by_cases h0 : numNotes d.slides = 0 <;>
        simpa [expectedParts, hh, hs, h0] using hp
    obtain ⟨_, s, hs, i, hi, rfl⟩ := mem_media_ext hm
    rcases h.exts s hs i hi with e | e | e <;> rw [e] <;> decide
  cases p
  case media n x => exact decide_eq_false (hx n x rfl)
  all_goals rfl

/-! ### Relationships -/

/-- The builder's relationships can be read by the validator, and those inside the package have plain
targets. -/
structure RelOk (r : RelEntry) : Prop where
  safe : r.Safe
  plain : r.external = false → '&' ∉ r.target ∧ '<' ∉ r.target

theorem quote_notMem_rid (n : Nat) : '"' ∉ c!"rId" ++ dec n := by
  simp [not_mem_dec (c := '"') (n := n) (by decide)]

theorem relOk_rel {n : Nat} {ty t : Str} (h1 : 'T' ∉ ty) (h2 : '"' ∉ t) (h3 : '&' ∉ t) (h4 : '<' ∉ t) :
    RelOk (rel n ty t) := by
  refine ⟨⟨quote_notMem_rid n, ?_, h2⟩, fun _ => ⟨h3, h4⟩⟩
  simp only [rel, List.mem_append, not_or]
  exact ⟨by decide, h1⟩

theorem relOk_num {n m : Nat} {ty a b : Str} (h1 : 'T' ∉ ty) (h2 : '"' ∉ a ++ b) (h3 : '&' ∉ a ++ b)
    (h4 : '<' ∉ a ++ b) : RelOk (rel n ty (a ++ dec m ++ b)) := by
  simp only [List.mem_append, not_or] at h2 h3 h4
  apply relOk_rel h1 <;> simp only [List.mem_append, not_or]
  · exact ⟨⟨h2.1, not_mem_dec (by decide)⟩, h2.2⟩
  · exact ⟨⟨h3.1, not_mem_dec (by decide)⟩, h3.2⟩
  · exact ⟨⟨h4.1, not_mem_dec (by decide)⟩, h4.2⟩

theorem escape_plain {s : Str} (h : s.any needsEscape = false) : escapeXml s = s := by
  simp [escapeXml, h]

theorem plain_of_noEscape {s : Str} (h : s.any needsEscape = false) : '"' ∉ s ∧ '&' ∉ s ∧ '<' ∉ s := by
  rw [List.any_eq_false] at h
  exact ⟨fun hm => h _ hm (by decide), fun hm => h _ hm (by decide), fun hm => h _ hm (by decide)⟩

theorem fileName_noEscape {f : EmbeddedFont} (h : f.typeface.any needsEscape = false) :
    (c!"fonts/" ++ f.fileName).any needsEscape = false := by
  rw [List.any_eq_false] at h ⊢
  intro c hc
  simp only [EmbeddedFont.fileName, List.mem_append] at hc
  rcases hc with hc | ((hc | hc) | hc) | hc
  · revert c; decide
  · simp only [replaceChar, List.mem_flatMap] at hc
    obtain ⟨x, hx, hc⟩ := hc
    split at hc
    · simp at hc
    · simp only [List.mem_singleton] at hc; subst hc; exact h _ hx
  · revert c; decide
  · cases hs : f.style <;> rw [hs] at hc <;> revert c <;> decide
  · revert c; decide

theorem mem_assign_id {start i : Nat} {fonts : List EmbeddedFont} {g : EmbeddedFont}
    (hf : ∀ f ∈ fonts, f.relationshipId = []) (h : g ∈ assignFontIdsFrom start i fonts) :
    ∃ n, g.relationshipId = c!"rId" ++ dec n := by
  induction fonts generalizing i with
  | nil => simp [assignFontIdsFrom] at h
  | cons f fs ih =>
    simp only [assignFontIdsFrom, hf f (by simp), if_true, List.mem_cons] at h
    rcases h with rfl | h
    · exact ⟨_, rfl⟩
    · exact ih (fun f h => hf f (by simp [h])) h

theorem relOk_font {d : Deck} {st : BuildSettings} (h : DeckOk d st) {f : EmbeddedFont} (hf : f ∈ fontsOf d st) :
    RelOk (fontRel f) := by
  rw [fontsOf_eq, assignFontIds] at hf
  obtain ⟨n, e⟩ := mem_assign_id h.fontIds hf
  obtain ⟨g, hg, e1, _⟩ := mem_assign hf
  have ht : (c!"fonts/" ++ f.fileName).any needsEscape = false :=
    fileName_noEscape (e1 ▸ h.typefaces g hg)
  obtain ⟨p1, p2, p3⟩ := plain_of_noEscape ht
  refine ⟨⟨?_, by simp only [fontRel]; decide, ?_⟩, fun _ => ⟨?_, ?_⟩⟩
  · simp only [fontRel, e]; exact quote_notMem_rid n
  all_goals simp only [fontRel, escape_plain ht]; assumption

theorem relOk_presentationRels (n : Nat) (a b : Bool) : ∀ r ∈ presentationRels n a b, RelOk r := by
  intro r hr
  simp only [presentationRels, List.mem_append, List.mem_map, List.mem_cons, List.not_mem_nil, or_false] at hr
  rcases hr with (((rfl | ⟨i, _, rfl⟩) | hr) | hr) | hr
  · exact relOk_rel (by decide) (by decide) (by decide) (by decide)
  · exact relOk_num (by decide) (by decide) (by decide) (by decide)
  · split at hr
    · simp only [List.mem_singleton] at hr; subst hr
      exact relOk_rel (by decide) (by decide) (by decide) (by decide)
    · simp at hr
  · split at hr
    · simp only [List.mem_singleton] at hr; subst hr
      exact relOk_rel (by decide) (by decide) (by decide) (by decide)
    · simp at hr
  · rcases hr with rfl | rfl | rfl | rfl <;> exact relOk_rel (by decide) (by decide) (by decide) (by decide)

theorem relOk_of_mem {d : Deck} {st : BuildSettings} (hok : DeckOk d st) {p : PartName} {l : List RelEntry}
    (h : ⟨p, .rels l⟩ ∈ buildPackage d st) : ∀ r ∈ l, RelOk r := by
  intro r hr
  have hb := bodyOk d st _ h
  cases p <;> simp only [BodyOk, Body.rels.injEq, reduceCtorEq, and_false, exists_false,
    or_false] at hb
  case slide m =>
    obtain ⟨_, s, _, _, e⟩ := hb
    simp [slideBody] at e
  case rootRels =>
    subst hb
    simp only [rootRels, List.mem_append, List.mem_cons, List.not_mem_nil, or_false] at hr
    rcases hr with (rfl | rfl | rfl) | hr
    · exact relOk_rel (by decide) (by decide) (by decide) (by decide)
    · exact ⟨by simp only [RelEntry.Safe]; decide, fun _ => by decide⟩
    · exact relOk_rel (by decide) (by decide) (by decide) (by decide)
    · split at hr
      · simp only [List.mem_singleton] at hr
        subst hr
        exact ⟨by simp only [RelEntry.Safe]; decide, fun _ => by decide⟩
      · simp at hr
  case presRels =>
    subst hb
    simp only [presentationRelsWithFonts, List.mem_append, List.mem_map] at hr
    rcases hr with hr | ⟨f, hf, rfl⟩
    · exact relOk_presentationRels _ _ _ r hr
    · exact relOk_font hok hf
  case handoutRels =>
    subst hb
    simp only [handoutMasterRels, List.mem_singleton] at hr
    subst hr
    exact relOk_rel (by decide) (by decide) (by decide) (by decide)
  case notesMasterRels =>
    subst hb
    simp only [notesMasterRels, List.mem_singleton] at hr
    subst hr
    exact relOk_rel (by decide) (by decide) (by decide) (by decide)
  case masterRels =>
    subst hb
    simp only [masterRels, List.mem_append, List.mem_map, List.mem_singleton] at hr
    rcases hr with ⟨i, _, rfl⟩ | rfl
    · exact relOk_num (by decide) (by decide) (by decide) (by decide)
    · exact relOk_rel (by decide) (by decide) (by decide) (by decide)
  case layoutRels n =>
    subst hb
    simp only [layoutRels, List.mem_singleton] at hr
    subst hr
    exact relOk_rel (by decide) (by decide) (by decide) (by decide)
  case notesRels m =>
    obtain ⟨j, s, hj, hs, rfl, rfl⟩ := hb
    simp only [notesRels, List.mem_cons, List.not_mem_nil, or_false] at hr
    rcases hr with rfl | rfl
    · exact relOk_num (by decide) (by decide) (by decide) (by decide)
    · exact relOk_rel (by decide) (by decide) (by decide) (by decide)
  case chartRels m =>
    subst hb
    simp only [chartRels, List.mem_singleton] at hr
    subst hr
    exact relOk_num (by decide) (by decide) (by decide) (by decide)
  case slideRels m =>
    rcases hb with ⟨j, s, hj, rfl, e⟩ | ⟨n, rfl, rfl⟩
    · have hs := List.mem_of_getElem? hj
      have e := slideRels_body hj h
      subst e
      simp only [ownRels, slideRelsWithImages, List.mem_append, List.mem_map, List.mem_singleton,
        List.append_nil] at hr
      rcases hr with ((((rfl | hr) | hr) | ⟨c, ⟨i, hi, rfl⟩, rfl⟩) | ⟨c, hc, rfl⟩) | hr
      · exact relOk_num (by decide) (by decide) (by decide) (by decide)
      · split at hr
        · simp only [List.mem_singleton] at hr
          subst hr
          exact relOk_num (by decide) (by decide) (by decide) (by decide)
        · simp at hr
      · obtain ⟨i, hi⟩ := List.mem_iff_getElem?.mp hr
        rw [imageRelsFrom_get, Option.map_eq_some_iff] at hi
        obtain ⟨x, hx, rfl⟩ := hi
        have hx := List.mem_of_getElem? hx
        simp only [slideImageRelTargets, List.mem_filterMap, Option.bind_eq_some_iff,
          Option.map_eq_some_iff] at hx
        obtain ⟨img, himg, b, hb, n, hn, rfl⟩ := hx
        have he := hok.exts s hs img himg
        have : RelOk (rel (2 + s.notes.isSome.toNat + (0 + i)) c!"image"
            (c!"../media/image" ++ dec n ++ (c!"." ++ img.ext))) :=
          relOk_num (by decide) (by rcases he with e | e | e <;> rw [e] <;> decide)
            (by rcases he with e | e | e <;> rw [e] <;> decide)
            (by rcases he with e | e | e <;> rw [e] <;> decide)
        simpa [List.append_assoc] using this
      · exact relOk_num (by decide) (by decide) (by decide) (by decide)
      · exact relOk_num (by decide) (by decide) (by decide) (by decide)
      · have hid : r.id ∈ linkIds s := by
          rw [← hyperlinkRels_ids]; exact List.mem_map_of_mem hr
        simp only [hyperlinkRels, List.mem_filterMap, Option.map_eq_some_iff] at hr
        obtain ⟨k, ⟨sh, hsh, hk⟩, id, hid', rfl⟩ := hr
        refine ⟨⟨hok.linkIds s hs _ hid, by simp only; decide, fun hm => (mem_escapeXml hm).2.2.1 rfl⟩, ?_⟩
        intro hx
        rcases hok.links.links s hs sh hsh k hk (by simp [hid']) with hx' | ⟨n, hn, _, _⟩
        · simp only at hx; rw [hx'] at hx; exact absurd hx (by simp)
        · have : (c!"slide" ++ dec n ++ c!".xml").any needsEscape = false := by
            simp only [List.any_append, Bool.or_eq_false_iff]
            refine ⟨⟨by decide, ?_⟩, by decide⟩
            rw [List.any_eq_false]
            intro c hc hne
            have : c.isDigit = true := by
              cases h : c.isDigit with
              | true => rfl
              | false => exact absurd hc (not_mem_dec h)
            simp only [needsEscape] at hne
            revert this
            simp only [Bool.or_eq_true, beq_iff_eq] at hne
            rcases hne with (((rfl | rfl) | rfl) | rfl) | rfl <;> decide
          simp only [hn, HyperlinkAction.relationshipTarget, escape_plain this]
          exact (plain_of_noEscape this).2
    · simp only [List.mem_singleton] at hr
      subst hr
      exact relOk_num (by decide) (by decide) (by decide) (by decide)

theorem rels_body {d : Deck} {st : BuildSettings} {e : Entry} (he : e ∈ buildPackage d st)
    (h : isRelsPart e.name = true) : ∃ l, e.body = .rels l := by
  have hb := bodyOk d st e he
  obtain ⟨p, b⟩ := e
  cases p <;> simp only [isRelsPart, Bool.false_eq_true] at h <;> simp only [BodyOk] at hb
  case slideRels m =>
    rcases hb with ⟨j, s, hj, rfl, e⟩ | ⟨n, rfl, rfl⟩
    · exact ⟨_, congrArg Entry.body e⟩
    · exact ⟨_, rfl⟩
  case notesRels m =>
    obtain ⟨j, s, hj, hs, rfl, rfl⟩ := hb
    exact ⟨_, rfl⟩
  all_goals exact ⟨_, hb⟩

theorem relationships_archive {d : Deck} {st : BuildSettings} (h : DeckOk d st) (desc : Str → Str)
    (texts : PartTexts) {p : PartName} {l : List RelEntry} (he : ⟨p, .rels l⟩ ∈ buildPackage d st)
    (hp : isRelsPart p = true) :
    relationships (packageArchive d st desc texts) p.path = l.map (RelEntry.scanned (relsSourceDir p.path)) := by
  have hm : p ∈ names (buildPackage d st) := List.mem_map.mpr ⟨_, he, rfl⟩
  unfold relationships
  rw [endsWith_rels h hm, hp, if_pos rfl, readPart_archive h desc texts (e := ⟨p, .rels l⟩) he]
  exact parseRelationships_relsPartText d st l p _ fun r hr => (relOk_of_mem h he r hr).safe

theorem scanned_leads {p : PartName} {r : RelEntry} {q : Str} (h : RelOk r) (hx : r.external = false)
    (e : leadsTo p r = some q) : (r.scanned (relsSourceDir p.path)).resolved = q := by
  rw [leadsTo, readText_of_plain (h.plain hx).1 (h.plain hx).2] at e
  simpa [RelEntry.scanned] using e

/-- **C64**: the relationship check finds nothing wrong with a generated deck whatever the texts of the
other parts are. -/
theorem C64_relationships_partial (d : Deck) (st : BuildSettings) (h : DeckOk d st) (desc : Str → Str)
    (texts : PartTexts) : checkRelationshipTargets (packageArchive d st desc texts) = [] := by
  unfold checkRelationshipTargets
  rw [List.flatMap_eq_nil_iff]
  intro x hx
  simp only [relationshipParts, List.mem_map, List.mem_filter, Bool.and_eq_true] at hx
  obtain ⟨y, ⟨hy, hends, _⟩, rfl⟩ := hx
  simp only [packageArchive, List.mem_map] at hy
  obtain ⟨e, he, rfl⟩ := hy
  have hm : e.name ∈ names (buildPackage d st) := List.mem_map.mpr ⟨e, he, rfl⟩
  simp only at hends
  rw [endsWith_rels h hm] at hends
  obtain ⟨l, hl⟩ := rels_body he hends
  obtain ⟨p, b⟩ := e
  simp only at hl hends hm
  subst hl
  simp only
  rw [relationships_archive h desc texts he hends, List.flatMap_eq_nil_iff]
  intro r' hr'
  obtain ⟨r, hr, rfl⟩ := List.mem_map.mp hr'
  unfold checkTarget
  cases hx : r.external with
  | true => simp [RelEntry.scanned, hx]
  | false =>
    obtain ⟨q, hq, e⟩ := C29_no_dangling_partial d st h.links p l he r hr hx
    rw [scanned_leads (relOk_of_mem h he r hr) hx e]
    have : hasPart (packageArchive d st desc texts) q.path = true := hasPart_archive.mpr ⟨q, hq, rfl⟩
    simp [issueIf, this]

/-- **C64**: the required parts are there. -/
theorem C64_required (d : Deck) (st : BuildSettings) (h : st.template = none) (desc : Str → Str)
    (texts : PartTexts) : checkRequiredParts (packageArchive d st desc texts) = [] := by
  unfold checkRequiredParts
  rw [List.flatMap_eq_nil_iff]
  intro path hp
  have := C31_required_parts d st h path hp
  have : hasPart (packageArchive d st desc texts) path = true := by
    rw [hasPart_archive]
    obtain ⟨e, he, hpath⟩ := List.mem_map.mp this
    exact ⟨e.name, List.mem_map.mpr ⟨e, he, rfl⟩, hpath⟩
  simp [issueIf, this]

/-! ### Content types -/

theorem overrideText_has {p : PartName} {t : ContentType} : containsStr (c!"/" ++ p.path) (overrideText (overrideOf p t)) = true :=
  containsStr_iff.mpr ⟨c!"<Override PartName=\"", c!"\" ContentType=\"" ++ t.mime ++ c!"\"/>",
    by simp [overrideText, overrideOf]⟩

theorem containsStr_of_mem {α : Type} {m : Str} {f : α → Str} {l : List α} {a : α} (ha : a ∈ l)
    (h : containsStr m (f a) = true) : containsStr m (l.flatMap f) = true := by
  induction l with
  | nil => simp at ha
  | cons b l ih =>
    rw [List.flatMap_cons]
    rcases List.mem_cons.mp ha with rfl | ha'
    · exact containsStr_append (.inl h)
    · exact containsStr_append (.inr (ih ha'))

theorem overrideLines_has {l : List (Str × ContentType)} {e : Str × ContentType} {m : Str} (he : e ∈ l)
    (h : containsStr m (overrideText e) = true) : containsStr m (overrideLines l) = true := by
  refine containsStr_of_mem he ?_
  have : ('\n' :: overrideText e) = c!"\n" ++ overrideText e := rfl
  rw [this]
  exact containsStr_append (.inr h)

/-- Every entry of the list of content types is in its text. -/
theorem overrides_in_text (d : Deck) (st : BuildSettings) (e : Str × ContentType)
    (he : e ∈ (contentTypesPart d st).overrides) (m : Str) (h : containsStr m (overrideText e) = true) :
    containsStr m (contentTypesText d st) = true := by
  have key : e = overrideOf .presentation .presentation ∨
      e ∈ (upTo d.count).map (fun i => overrideOf (.slide i) .slide) ++ notesOverrides (notesCount d.slides) ++
        handoutOverrides st.handout ++ chartOverrides (totalCharts d.slides) ++ layoutOverrides ++ contentTypesFooter ∨
      (st.signature = true ∧ e = overrideOf .sig .sigXml) ∨
      e ∈ (upTo (inkCount d.slides)).map fun i => overrideOf (.ink i) .ink := by
    revert he
    simp only [contentTypesPart, appendInkTypes, appendFontTypes, appendSignatureTypes,
      createContentTypes, contentTypesOpening]
    cases st.signature <;> cases (st.fonts.getD []).isEmpty <;>
      simp only [if_true, if_false, Bool.false_eq_true, List.mem_append, List.mem_singleton, false_and, true_and] <;>
      tauto
  unfold contentTypesText contentTypesMainText contentTypesOpeningText
  rcases key with rfl | hm | ⟨hs, rfl⟩ | hm
  · exact containsStr_append (.inl (containsStr_append (.inl (containsStr_append (.inl (containsStr_append (.inl
      (containsStr_append (.inl (containsStr_append (.inl (containsStr_append (.inr h)))))))))))))
  · exact containsStr_append (.inl (containsStr_append (.inl (containsStr_append (.inl (containsStr_append (.inl
      (containsStr_append (.inl (containsStr_append (.inr (overrideLines_has hm h))))))))))))
  · rw [hs, if_pos rfl]
    exact containsStr_append (.inl (containsStr_append (.inl (containsStr_append (.inl (containsStr_append (.inr
      (containsStr_append (.inr h)))))))))
  · exact containsStr_append (.inl (containsStr_append (.inr (overrideLines_has hm h))))

theorem defaultText_has {x : Str} {t : ContentType} :
    containsStr (c!"Extension=\"" ++ x ++ c!"\"") (defaultText (x, t)) = true :=
  containsStr_iff.mpr ⟨c!"<Default ", c!" ContentType=\"" ++ t.mime ++ c!"\"/>", by simp [defaultText]⟩

theorem defaults_in_text (d : Deck) (st : BuildSettings) (e : Str × ContentType)
    (he : e ∈ (contentTypesPart d st).defaults) :
    containsStr (c!"Extension=\"" ++ e.1 ++ c!"\"") (contentTypesText d st) = true := by
  rw [contentTypes_defaults] at he
  have h := @defaultText_has e.1 e.2
  unfold contentTypesText contentTypesMainText contentTypesOpeningText
  simp only [List.mem_append, List.mem_cons, List.not_mem_nil, or_false] at he
  rcases he with (((he | he) | he) | he) | he
  · refine containsStr_append (.inl (containsStr_append (.inl (containsStr_append (.inl (containsStr_append (.inl
      (containsStr_append (.inl (containsStr_append (.inl ?_)))))))))))
    iterate 5 refine containsStr_append (.inl ?_)
    exact containsStr_append (.inr (containsStr_of_mem he h))
  · refine containsStr_append (.inl (containsStr_append (.inl (containsStr_append (.inl (containsStr_append (.inl
      (containsStr_append (.inl (containsStr_append (.inl ?_)))))))))))
    rcases he with rfl | rfl
    · iterate 4 refine containsStr_append (.inl ?_)
      exact containsStr_append (.inr h)
    · iterate 2 refine containsStr_append (.inl ?_)
      exact containsStr_append (.inr h)
  · split at he
    · rename_i hc
      simp only [List.mem_singleton] at he
      subst he
      refine containsStr_append (.inl (containsStr_append (.inl (containsStr_append (.inl (containsStr_append (.inl
        (containsStr_append (.inl (containsStr_append (.inl ?_)))))))))))
      rw [totalCharts_eq, if_pos hc]
      exact containsStr_append (.inl (containsStr_append (.inr h)))
    · simp at he
  · split at he
    · rename_i hc
      simp only [List.mem_singleton] at he
      subst he
      refine containsStr_append (.inl (containsStr_append (.inl (containsStr_append (.inl (containsStr_append (.inr ?_)))))))
      rw [if_pos hc]
      exact containsStr_append (.inl h)
    · simp at he
  · split at he
    · simp at he
    · rename_i hc
      simp only [List.mem_singleton] at he
      subst he
      refine containsStr_append (.inl (containsStr_append (.inl (containsStr_append (.inr ?_)))))
      rw [if_neg hc]
      exact h

theorem lastSegment_dot (a x : Str) (hx : '.' ∉ x) : lastSegment (a ++ '.' :: x) = x := by
  rw [lastSegment, splitChar_append, splitChar_of_notMem hx]
  simp [List.getLastD_eq_getLast?]

/-- **C64**: the content type check finds nothing wrong with a generated deck. -/
theorem C64_content_types_partial (d : Deck) (st : BuildSettings) (h : DeckOk d st) (desc : Str → Str)
    (texts : PartTexts) : checkContentTypes (packageArchive d st desc texts) = [] := by
  have hct : (⟨.contentTypes, .contentTypes (contentTypesPart d st)⟩ : Entry) ∈ buildPackage d st := by
    simp [buildPackage]
  unfold checkContentTypes
  rw [show c!"[Content_Types].xml" = (⟨.contentTypes, .contentTypes (contentTypesPart d st)⟩ : Entry).name.path from rfl,
    readPart_archive h desc texts hct]
  simp only [entryText]
  rw [List.flatMap_eq_nil_iff]
  intro x hx
  simp only [packageArchive, List.mem_map] at hx
  obtain ⟨e, he, rfl⟩ := hx
  have hm : e.name ∈ names (buildPackage d st) := List.mem_map.mpr ⟨e, he, rfl⟩
  unfold checkTypeOf
  simp only
  by_cases h1 : isRelsPart e.name = true
  · rw [if_pos (by rw [endsWith_rels h hm, h1]; rfl)]
  by_cases h2 : e.name = .contentTypes
  · rw [if_pos (by simp [h2, PartName.path])]
  split
  · rfl
  obtain ⟨ht, hty⟩ := C30_types_partial d st h.links.template h.exts _ hct e.name hm h2
  obtain ⟨t, ht⟩ := Option.isSome_iff_exists.mp ht
  rw [ht, typeOf] at hty
  cases ho : (contentTypesPart d st).overrides.find? fun x => x.1 = '/' :: e.name.path with
  | some o =>
    have h3 := List.find?_some ho
    have h4 := List.mem_of_find?_eq_some ho
    have : containsStr (c!"/" ++ e.name.path) (contentTypesText d st) = true := by
      refine overrides_in_text d st o h4 _ ?_
      simp only [decide_eq_true_eq] at h3
      refine containsStr_iff.mpr ⟨c!"<Override PartName=\"", c!"\" ContentType=\"" ++ o.2.mime ++ c!"\"/>", ?_⟩
      simp [overrideText, h3]
    rw [if_pos this]
  | none =>
    rw [ho] at hty
    simp only [Option.map_eq_some_iff] at hty
    obtain ⟨x, hx, rfl⟩ := hty
    have h3 := List.find?_some hx
    have h4 := List.mem_of_find?_eq_some hx
    obtain ⟨hd, hne, a, epath⟩ := partExtension_spec h hm
    simp only [decide_eq_true_eq, epath, extensionOf_dot _ _ hd] at h3
    have := defaults_in_text d st x h4
    rw [h3] at this
    split
    · rfl
    · rw [epath, lastSegment_dot _ _ hd]
      simp only [issueIf]
      rw [this, if_neg (by simpa using hne)]

/-! ### What the conditions leave out -/

/-- The archive of a deck, the texts of slides and other parts left out. -/
def bareArchive (slides : List SlideIn) (st : BuildSettings) : Archive :=
  packageArchive (.custom slides) st (fun _ => []) (fun _ => none)

/-- A slide with a linked shape. -/
def linkSlide (a : HyperlinkAction) : SlideIn :=
  ⟨c!"T", .titleOnly, 0, false, [⟨none, some ⟨a, some c!"rId9"⟩⟩], [], none, 0, 0, 0, false⟩

set_option maxRecDepth 20000 in
/-- A picture of type `jpeg` or `bmp` gets no content type, which the validator reports. -/
theorem C64_extensions_violated :
    checkContentTypes (bareArchive [imageSlide c!"jpeg"] .none) = [⟨.contentType, c!"ppt/media/image1.jpeg"⟩] ∧
    checkContentTypes (bareArchive [imageSlide c!"bmp"] .none) = [⟨.contentType, c!"ppt/media/image1.bmp"⟩] ∧
    checkContentTypes (bareArchive [imageSlide c!"png"] .none) = [] := by
  decide +kernel

set_option maxRecDepth 20000 in
/-- A jump to the first slide, or to a slide that is not there, is a relationship to a missing part. -/
theorem C64_links_violated :
    checkRelationshipTargets (bareArchive [linkSlide .firstSlide] .none) =
      [⟨.relationship, c!"ppt/slides/_rels/slide1.xml.rels"⟩] ∧
    checkRelationshipTargets (bareArchive [linkSlide (.slide 2)] .none) =
      [⟨.relationship, c!"ppt/slides/_rels/slide1.xml.rels"⟩] ∧
    checkRelationshipTargets (bareArchive [linkSlide (.slide 1)] .none) = [] := by
  decide +kernel

set_option maxRecDepth 20000 in
/-- A font whose name has an ampersand: the part is there, but the validator compares its name with the
escaped target. -/
theorem C64_fonts_violated :
    let st : BuildSettings := { BuildSettings.none with fonts := some [⟨c!"A&B", .regular, []⟩] }
    checkRelationshipTargets (bareArchive [linkSlide (.slide 1)] st) =
      [⟨.relationship, c!"ppt/_rels/presentation.xml.rels"⟩] ∧
    (names (buildPackage (.custom [linkSlide (.slide 1)]) st)).any (fun p => p.path = c!"ppt/fonts/A&B-regular.fntdata") = true := by
  decide +kernel

/-- A deck that meets the conditions: a picture, notes, charts, ink, links and a font. -/
example : DeckOk (.custom [⟨c!"T", .titleOnly, 0, false,
    [⟨none, some ⟨.slide 1, some c!"rId9"⟩⟩, ⟨none, some ⟨.url c!"u", some c!"rId10"⟩⟩],
    [⟨some [1], c!"png"⟩], some c!"n", 0, 0, 2, true⟩])
    { BuildSettings.none with fonts := some [⟨c!"A B", .regular, []⟩] } := by
  refine ⟨⟨rfl, by decide, ?_, ?_⟩, by decide, by decide, by decide, by decide, by decide⟩
  · simp only [ExtOk]; decide
  · intro s hs sh hsh k hk _
    simp only [Deck.slides, List.mem_singleton] at hs
    subst hs
    simp only [List.mem_cons, List.not_mem_nil, or_false] at hsh
    rcases hsh with rfl | rfl <;> (simp only [Option.some.injEq] at hk; subst hk)
    · exact .inr ⟨1, rfl, by decide, by decide⟩
    · exact .inl rfl

end PptRs.Props
