import Verif.Props.RepairLines
import Verif.Props.Repair
import Verif.Props.WholeEdit
import Verif.Model.WholeRepair

/-!
# C148: a generated file needs no repair
-/

namespace PptRs.Spec

open PptRs

/-- A link that the repair leaves alone: to a slide of the deck or to the web, with an id and an address that fit on a line. -/
def LinkFine (count : Nat) (k : LinkIn) : Prop :=
  ∀ id, k.rId = some id → ('"' ∉ id ∧ '=' ∉ id ∧ '\n' ∉ id) ∧
    ((∃ n, k.action = .slide n ∧ 1 ≤ n ∧ n ≤ count) ∨ ∃ u, k.action = .url u ∧ IsWeb u ∧ '\n' ∉ u)

/-- A font with a name that can be written as it is. -/
def FontFine (f : EmbeddedFont) : Prop :=
  ('"' ∉ f.relationshipId ∧ '=' ∉ f.relationshipId ∧ '\n' ∉ f.relationshipId) ∧
    ∀ c ∈ f.typeface, c ≠ '&' ∧ c ≠ '<' ∧ c ≠ '>' ∧ c ≠ '"' ∧ c ≠ '\'' ∧ c ≠ '\n'

/-- No template, different files for different fonts, and images whose extension does not make their file a folder. -/
structure Openable (d : Deck) (st : BuildSettings) : Prop where
  template : st.template = none
  files : ((st.fonts.getD []).map (·.fileName)).Nodup
  folders : ∀ s ∈ d.slides, ∀ i ∈ s.images, ∀ c, i.ext.getLast? = some c → c ≠ '/' ∧ c ≠ '\\'

/-- Decks that the repair leaves alone. -/
structure NeedsNoRepair (d : Deck) (st : BuildSettings) : Prop where
  template : st.template = none
  files : ((st.fonts.getD []).map (·.fileName)).Nodup
  fonts : ∀ f ∈ st.fonts.getD [], FontFine f
  exts : ∀ s ∈ d.slides, ∀ i ∈ s.images, i.ext = c!"png" ∨ i.ext = c!"jpg" ∨ i.ext = c!"gif"
  links : ∀ s ∈ d.slides, ∀ sh ∈ s.shapes, ∀ k, sh.link = some k → LinkFine d.count k

/-- The parts whose text the package builder spells out. -/
def Spelled : Body → Prop
  | .contentTypes _ | .rels _ | .presentation _ => True
  | _ => False

end PptRs.Spec

namespace PptRs.Props

open PptRs PptRs.Spec PptRs.Repair PptRs.Whole

/-! ### The parts of the opened file -/

theorem keys_foldl_subset (archive : List (Str × Bytes)) (p0 : Package) (k : Str)
    (h : k ∈ AMap.keys (archive.foldl (fun p e => if Package.isDirName e.1 then p else AMap.insert p e.1 e.2) p0)) :
    k ∈ AMap.keys p0 ∨ k ∈ archive.map (·.1) := by
  induction archive generalizing p0 with
  | nil => exact .inl h
  | cons e l ih =>
    rw [List.foldl_cons] at h
    rcases ih _ h with h1 | h1
    · split at h1
      · exact .inl h1
      · rw [← AMap.get_isSome_iff, AMap.get_insert] at h1
        split at h1
        · rename_i hk
          exact .inr (by simp [hk])
        · exact .inl ((AMap.get_isSome_iff _ _).mp h1)
    · exact .inr (by simp [h1])

theorem fontFile_notDir (f : EmbeddedFont) : Package.isDirName (PartName.font f.fileName).path = false := by
  have : (PartName.font f.fileName).path = (c!"ppt/fonts/" ++ (replaceChar ' ' [] f.typeface ++ c!"-" ++ f.style.xmlElement)) ++ c!".fntdata" := by
    simp [PartName.path, EmbeddedFont.fileName]
  rw [this]
  exact isDirName_suffix _ _ 'a' rfl (by decide)

theorem mem_expected_media {d : Deck} {st : BuildSettings} {n : Nat} {x : Str}
    (hp : PartName.media n x ∈ expectedParts d st) : .media n x ∈ mediaParts (distinctImages d.slides) := by
  cases hh : st.handout <;> cases hs : st.signature <;> by_cases h0 : numNotes d.slides = 0 <;>
    simpa [expectedParts, hh, hs, h0] using hp

theorem mem_expected_font {d : Deck} {st : BuildSettings} {file : Str}
    (hp : PartName.font file ∈ expectedParts d st) : ∃ f ∈ st.fonts.getD [], f.fileName = file := by
  cases hh : st.handout <;> cases hs : st.signature <;> by_cases h0 : numNotes d.slides = 0 <;>
    simpa [expectedParts, hh, hs, h0, mediaParts] using hp

theorem _root_.PptRs.Spec.NeedsNoRepair.openable {d : Deck} {st : BuildSettings} (h : NeedsNoRepair d st) : Openable d st := by
  refine ⟨h.template, h.files, ?_⟩
  intro s hs i hi c hc
  rcases h.exts s hs i hi with e | e | e <;> rw [e] at hc <;> cases hc <;> decide

theorem expected_notDir {d : Deck} {st : BuildSettings} (h : Openable d st) {q : PartName}
    (hq : q ∈ expectedParts d st) : Package.isDirName q.path = false := by
  have ho := expectedParts_own d st q hq
  cases q
  case templatePart => exact ho.elim
  case font file =>
    obtain ⟨f, -, rfl⟩ := mem_expected_font hq
    exact fontFile_notDir f
  case media n x =>
    obtain ⟨-, s, hs, i, hi, rfl⟩ := mem_media_ext (mem_expected_media hq)
    cases hl : i.ext.getLast? with
    | none =>
      rw [List.getLast?_eq_none_iff] at hl
      rw [hl]
      show Package.isDirName (c!"ppt/media/image" ++ dec n ++ c!"." ++ []) = false
      rw [List.append_nil]
      exact isDirName_suffix _ c!"." '.' rfl (by decide)
    | some c => exact isDirName_suffix _ _ c hl (h.folders s hs i hi c hl)
  all_goals first
    | exact (by decide)
    | exact isDirName_suffix _ c!".xml" 'l' rfl (by decide)
    | exact isDirName_suffix _ c!".xml.rels" 's' rfl (by decide)
    | exact isDirName_suffix _ c!".xlsx" 'x' rfl (by decide)

section

variable {d : Deck} {st : BuildSettings} {f : Entry → Bytes}

/-- The opened file. -/
def generated (d : Deck) (st : BuildSettings) (f : Entry → Bytes) : Package :=
  Package.openReader ((buildPackage d st).map fun e => (e.name.path, f e))

theorem generated_get (h : Openable d st) {e : Entry} (he : e ∈ buildPackage d st) :
    (generated d st f).getPart e.name.path = some (f e) :=
  written_entry h.template h.files f he
    (expected_notDir h ((mem_names h.template).mp (List.mem_map.mpr ⟨e, he, rfl⟩)))

theorem generated_path {path : Str} (hp : path ∈ (generated d st f).partPaths) :
    ∃ e ∈ buildPackage d st, e.name.path = path := by
  have := (keys_foldl_subset _ _ _ hp).resolve_left (by simp [AMap.keys])
  rw [List.map_map] at this
  obtain ⟨e, he, e2⟩ := List.mem_map.mp this
  exact ⟨e, he, e2⟩

theorem generated_has (h : Openable d st) {q : PartName} (hq : q ∈ expectedParts d st) :
    (generated d st f).hasPart q.path = true := by
  rw [← mem_names h.template] at hq
  obtain ⟨e, he, rfl⟩ := List.mem_map.mp hq
  unfold Package.hasPart
  rw [AMap.has_eq]
  have := generated_get (f := f) h he
  unfold Package.getPart at this
  rw [this]
  rfl

theorem generated_mem (h : Openable d st) {q : PartName} (hq : q ∈ expectedParts d st) :
    q.path ∈ (generated d st f).partPaths := by
  have := generated_has (f := f) h hq
  unfold Package.hasPart at this
  rw [AMap.has_eq, AMap.get_isSome_iff] at this
  exact this

end

/-! ### Relationship parts with several relationships on the last line -/

/-- The lines of a relationship part with further relationships at the end. -/
def relLinesWith (main extra : List RelEntry) : List Str :=
  declLine :: (openLine :: (main.map renderRel ++ [extra.flatMap renderRel ++ c!"</Relationships>"]))

theorem strLines_renderRelsWith {main extra : List RelEntry} (h : ∀ r ∈ main, OneLine r) (h2 : ∀ r ∈ extra, OneLine r) :
    strLines (renderRelsWith main extra) = relLinesWith main extra := by
  have e : renderRelsWith main extra = joinStr c!"\n" (relLinesWith main extra) := by
    unfold relLinesWith
    rw [joinStr_flatMap, List.flatMap_cons, List.flatMap_append, List.flatMap_map]
    unfold renderRelsWith
    have e : relsHeader = declLine ++ ('\n' :: openLine) := rfl
    rw [e]
    simp
  have hxn : '\n' ∉ extra.flatMap renderRel := by
    intro hc
    obtain ⟨r, hr, hc⟩ := List.mem_flatMap.mp hc
    exact (renderRel_line (h2 r hr)).1 hc
  rw [e]
  refine strLines_joinStr (by simp [relLinesWith]) ?_ ?_ ?_
  · intro x hx
    simp only [relLinesWith, List.mem_cons, List.mem_append, List.mem_map, List.not_mem_nil, or_false] at hx
    rcases hx with rfl | rfl | ⟨r, hr, rfl⟩ | rfl
    · decide
    · decide
    · exact (renderRel_line (h r hr)).1
    · simpa using hxn
  · intro x hx
    simp only [relLinesWith, List.mem_cons, List.mem_append, List.mem_map, List.not_mem_nil, or_false] at hx
    rcases hx with rfl | rfl | ⟨r, hr, rfl⟩ | rfl
    · decide
    · decide
    · exact (renderRel_line (h r hr)).2
    · rw [List.getLast?_append]
      simp
  · simp [relLinesWith]

theorem checkRelsFile_with (p : Package) (relsPath : Str) {main extra : List RelEntry}
    (hs : p.getPartString relsPath = some (renderRelsWith main extra)) (h : ∀ r ∈ main, OneLine r) (h2 : ∀ r ∈ extra, OneLine r)
    (g : ∀ r ∈ main ++ extra, relIssue p relsPath r = []) : checkRelsFile p relsPath = [] := by
  unfold checkRelsFile
  rw [hs]
  simp only
  rw [strLines_renderRelsWith h h2]
  rw [List.flatMap_eq_nil_iff]
  have hl : ∀ x ∈ [declLine, openLine, c!"</Relationships>"], checkRelsLine p relsPath x = [] := by
    intro x hx
    unfold checkRelsLine
    have : containsStr c!"Target=" x = false := by revert x; decide
    rw [this, Bool.and_false]
    rfl
  intro x hx
  simp only [relLinesWith, List.mem_cons, List.mem_append, List.mem_map, List.not_mem_nil, or_false] at hx
  rcases hx with rfl | rfl | ⟨r, hr, rfl⟩ | rfl
  · exact hl _ (by simp)
  · exact hl _ (by simp)
  · rw [checkRelsLine_rel p relsPath (h r hr)]
    exact g r (by simp [hr])
  · cases extra with
    | nil => exact hl _ (by simp)
    | cons r l =>
      rw [List.flatMap_cons, List.append_assoc, checkRelsLine_with p relsPath (h2 r (by simp))]
      exact g r (by simp)

theorem relIssue_nil {p : Package} {relsPath : Str} {r : RelEntry}
    (h : IsWeb r.target ∨ p.hasPart (resolvePath relsPath r.target) = true ∨ c!".." <:+: r.target) :
    relIssue p relsPath r = [] := by
  unfold relIssue
  rw [if_pos h]

theorem relIssue_part {p : Package} {relsPath dir : Str} (hb : baseOf relsPath dir) {r : RelEntry}
    (h1 : ¬ c!"/" <+: r.target) (h : p.hasPart (dir ++ r.target) = true) : relIssue p relsPath r = [] := by
  refine relIssue_nil ?_
  by_cases h2 : c!".." <:+: r.target
  · exact .inr (.inr h2)
  · exact .inr (.inl (by rw [resolvePath_base hb h1 h2]; exact h))

theorem oneLine_rel (id : Nat) {ty target : Str} (h1 : '"' ∉ ty ∧ '\n' ∉ ty ∧ '=' ∉ ty) (h2 : '"' ∉ target ∧ '\n' ∉ target) :
    OneLine (rel id ty target) := by
  have hb : '"' ∉ relTypeBase ∧ '\n' ∉ relTypeBase ∧ '=' ∉ relTypeBase := by decide
  have hd : ∀ c : Char, c.isDigit = false → c ∉ dec id := fun c hc => not_mem_dec hc
  refine ⟨⟨?_, ?_, h2.1⟩, ⟨?_, ?_⟩, ⟨?_, ?_⟩, h2.2⟩
  · simp [rel, hd '"' (by decide)]
  · simp [rel, hb, h1]
  · simp [rel, hd '\n' (by decide)]
  · simp [rel, hd '=' (by decide)]
  · simp [rel, hb, h1]
  · simp [rel, hb, h1]

/-! ### The relationships of the package -/

section

variable {d : Deck} {st : BuildSettings} {f : Entry → Bytes}

theorem entry_of_expected (h : Openable d st) {q : PartName} (hq : q ∈ expectedParts d st) :
    ∃ b, (⟨q, b⟩ : Entry) ∈ buildPackage d st ∧ BodyOk d st q b := by
  rw [← mem_names h.template] at hq
  obtain ⟨e, he, rfl⟩ := List.mem_map.mp hq
  exact ⟨e.body, he, bodyOk d st e he⟩

theorem generated_text (h : Openable d st) {e : Entry} (he : e ∈ buildPackage d st) {t : Str} (ht : f e = encode t) :
    (generated d st f).getPartString e.name.path = some t := by
  unfold Package.getPartString
  rw [generated_get h he, ht, Option.map_some, decodeLossy_encode]

theorem root_fine (h : NeedsNoRepair d st)
    (hf : ∀ p l, (⟨p, .rels l⟩ : Entry) ∈ buildPackage d st → f ⟨p, .rels l⟩ = encode (relsPartText d st l p)) :
    checkRelsFile (generated d st f) c!"_rels/.rels" = [] := by
  obtain ⟨b, hb, rfl⟩ := entry_of_expected h.openable (q := .rootRels) (by simp [expectedParts])
  have ht := generated_text h.openable hb (hf _ _ hb)
  have hbase : baseOf c!"_rels/.rels" [] := .inl ⟨rfl, rfl⟩
  refine checkRelsFile_with _ _ ht ?_ ?_ ?_
  · intro r hr
    have : r ∈ (rootRels false) := by
      have e : (rootRels st.signature).take 3 = rootRels false := by cases st.signature <;> rfl
      rwa [e] at hr
    simp only [rootRels, List.mem_append, List.mem_cons, List.not_mem_nil, or_false, Bool.false_eq_true, if_false] at this
    rcases this with rfl | rfl | rfl
    · exact oneLine_rel _ (by decide) (by decide)
    · exact ⟨by decide, by decide, by decide, by decide⟩
    · exact oneLine_rel _ (by decide) (by decide)
  · intro r hr
    have : r ∈ (rootRels true).drop 3 := by
      revert hr
      cases st.signature
      · intro hr; simp [rootRels] at hr
      · exact id
    simp only [rootRels, if_true, List.cons_append, List.nil_append, List.drop_succ_cons, List.drop_zero, List.mem_singleton] at this
    subst this
    exact ⟨by decide, by decide, by decide, by decide⟩
  · intro r hr
    rw [List.take_append_drop] at hr
    simp only [rootRels, List.mem_append, List.mem_cons, List.not_mem_nil, or_false] at hr
    rcases hr with (rfl | rfl | rfl) | hr
    · exact relIssue_part hbase (by decide) (generated_has h.openable (q := .presentation) (by simp [expectedParts]))
    · exact relIssue_part hbase (by decide) (generated_has h.openable (q := .core) (by simp [expectedParts]))
    · exact relIssue_part hbase (by decide) (generated_has h.openable (q := .app) (by simp [expectedParts]))
    · split at hr
      · simp only [List.mem_singleton] at hr
        subst hr
        exact relIssue_part hbase (by decide) (generated_has h.openable (q := .sigOrigin) (by simp [expectedParts, *]))
      · simp at hr

theorem assign_ids {start i : Nat} {fonts : List EmbeddedFont} {g : EmbeddedFont} (h : g ∈ assignFontIdsFrom start i fonts) :
    ∃ x ∈ fonts, g.typeface = x.typeface ∧ g.fileName = x.fileName ∧
      (g.relationshipId = x.relationshipId ∨ ∃ n, g.relationshipId = c!"rId" ++ dec n) := by
  induction fonts generalizing i with
  | nil => simp [assignFontIdsFrom] at h
  | cons x fs ih =>
    simp only [assignFontIdsFrom, List.mem_cons] at h
    rcases h with rfl | h
    · refine ⟨x, by simp, ?_⟩
      split
      · exact ⟨rfl, rfl, .inr ⟨_, rfl⟩⟩
      · exact ⟨rfl, rfl, .inl rfl⟩
    · obtain ⟨y, hy, e⟩ := ih h
      exact ⟨y, by simp [hy], e⟩

theorem escapeXml_safe {s : Str} (h : ∀ c ∈ s, needsEscape c = false) : escapeXml s = s := by
  unfold escapeXml
  have : s.any needsEscape = false := by
    rw [Bool.eq_false_iff]
    intro hc
    obtain ⟨c, hc, hn⟩ := List.any_eq_true.mp hc
    rw [h c hc] at hn
    cases hn
  rw [this]
  rfl

theorem mem_replaceChar {c x : Char} {r s : Str} (h : x ∈ replaceChar c r s) : x ∈ s ∨ x ∈ r := by
  unfold replaceChar at h
  obtain ⟨y, hy, hx⟩ := List.mem_flatMap.mp h
  split at hx
  · exact .inr hx
  · rw [List.mem_singleton] at hx
    exact .inl (hx ▸ hy)

theorem fontFile_safe {x : EmbeddedFont} (h : FontFine x) :
    ∀ c ∈ c!"fonts/" ++ x.fileName, needsEscape c = false ∧ c ≠ '"' ∧ c ≠ '\n' := by
  have hs : ∀ c ∈ x.style.xmlElement, needsEscape c = false ∧ c ≠ '"' ∧ c ≠ '\n' := by cases x.style <;> decide
  have h1 : ∀ c ∈ c!"fonts/", needsEscape c = false ∧ c ≠ '"' ∧ c ≠ '\n' := by decide
  have h2 : ∀ c ∈ c!"-", needsEscape c = false ∧ c ≠ '"' ∧ c ≠ '\n' := by decide
  have h3 : ∀ c ∈ c!".fntdata", needsEscape c = false ∧ c ≠ '"' ∧ c ≠ '\n' := by decide
  intro c hc
  unfold EmbeddedFont.fileName at hc
  simp only [List.mem_append] at hc
  rcases hc with hc | ((hc | hc) | hc) | hc
  · exact h1 c hc
  · rcases mem_replaceChar hc with hc | hc
    · obtain ⟨a1, a2, a3, a4, a5, a6⟩ := h.2 c hc
      exact ⟨by simp [needsEscape, a1, a2, a3, a4, a5], a4, a6⟩
    · cases hc
  · exact h2 c hc
  · exact hs c hc
  · exact h3 c hc

theorem pres_oneLine {n : Nat} {a b : Bool} : ∀ r ∈ presentationRels n a b, OneLine r := by
  intro r hr
  simp only [presentationRels, List.mem_append, List.mem_map, List.mem_cons, List.not_mem_nil, or_false] at hr
  rcases hr with (((rfl | ⟨i, hi, rfl⟩) | hr) | hr) | rfl | rfl | rfl | rfl
  · exact oneLine_rel _ (by decide) (by decide)
  · exact oneLine_rel _ (by decide) ⟨by simp [not_mem_dec (c := '"') (n := i) (by decide)],
      by simp [not_mem_dec (c := '\n') (n := i) (by decide)]⟩
  · split at hr
    · simp only [List.mem_singleton] at hr
      subst hr
      exact oneLine_rel _ (by decide) (by decide)
    · simp at hr
  · split at hr
    · simp only [List.mem_singleton] at hr
      subst hr
      exact oneLine_rel _ (by decide) (by decide)
    · simp at hr
  all_goals exact oneLine_rel _ (by decide) (by decide)

theorem font_fine (h : NeedsNoRepair d st) {x : EmbeddedFont} (hx : x ∈ fontsOf d st) :
    OneLine (fontRel x) ∧ (fontRel x).target = c!"fonts/" ++ x.fileName ∧ .font x.fileName ∈ expectedParts d st := by
  rw [fontsOf_eq, assignFontIds] at hx
  obtain ⟨g, hg, e1, e2, e3⟩ := assign_ids hx
  have hgf := h.fonts g hg
  have hs := fontFile_safe hgf
  rw [← e2] at hs
  have et : (fontRel x).target = c!"fonts/" ++ x.fileName := escapeXml_safe fun c hc => (hs c hc).1
  have hty : '"' ∉ relTypeBase ++ c!"font" ∧ '\n' ∉ relTypeBase ++ c!"font" ∧ '=' ∉ relTypeBase ++ c!"font" := by decide
  have hid : '"' ∉ x.relationshipId ∧ '=' ∉ x.relationshipId ∧ '\n' ∉ x.relationshipId := by
    rcases e3 with e | ⟨n, e⟩
    · rw [e]; exact hgf.1
    · rw [e]
      simp [not_mem_dec (c := '"') (n := n) (by decide), not_mem_dec (c := '=') (n := n) (by decide),
        not_mem_dec (c := '\n') (n := n) (by decide)]
  refine ⟨⟨⟨hid.1, hty.1, ?_⟩, ⟨hid.2.2, hid.2.1⟩, ⟨hty.2.1, hty.2.2⟩, ?_⟩, et, ?_⟩
  · rw [et]; intro hc; exact (hs _ hc).2.1 rfl
  · rw [et]; intro hc; exact (hs _ hc).2.2 rfl
  · rw [e2]
    simp only [expectedParts, List.mem_append, List.mem_map]
    exact .inl (.inr ⟨g, hg, rfl⟩)

theorem presRels_text (d : Deck) (st : BuildSettings) :
    relsPartText d st (presentationRelsWithFonts d.count (hasNotes d.slides) st.handout (fontsOf d st)) .presRels =
      renderRelsWith (presentationRels d.count (hasNotes d.slides) st.handout) ((fontsOf d st).map fontRel) := by
  simp only [relsPartText, presentationRelsWithFonts]
  rw [List.take_left, List.drop_left]

theorem pres_text (h : NeedsNoRepair d st)
    (hf : ∀ p l, (⟨p, .rels l⟩ : Entry) ∈ buildPackage d st → f ⟨p, .rels l⟩ = encode (relsPartText d st l p)) :
    (generated d st f).getPartString c!"ppt/_rels/presentation.xml.rels" =
      some (renderRelsWith (presentationRels d.count (hasNotes d.slides) st.handout) ((fontsOf d st).map fontRel)) := by
  obtain ⟨b, hb, rfl⟩ := entry_of_expected h.openable (q := .presRels) (by simp [expectedParts])
  have ht := generated_text h.openable hb (hf _ _ hb)
  rw [← presRels_text]
  exact ht

/-- The package has every part of the written file that relationships of the presentation and of slides can lead to. -/
def HasTargets (d : Deck) (st : BuildSettings) (p : Package) : Prop :=
  ∀ q ∈ expectedParts d st, q ≠ .contentTypes ∧ q ≠ .rootRels ∧ q ≠ .presentation ∧ q ≠ .presRels → p.hasPart q.path = true

theorem pres_fine_of (h : NeedsNoRepair d st) {p : Package} (hh : HasTargets d st p)
    (ht : p.getPartString c!"ppt/_rels/presentation.xml.rels" =
      some (renderRelsWith (presentationRels d.count (hasNotes d.slides) st.handout) ((fontsOf d st).map fontRel))) :
    checkRelsFile p c!"ppt/_rels/presentation.xml.rels" = [] := by
  have hbase : baseOf c!"ppt/_rels/presentation.xml.rels" c!"ppt/" := .inr (.inl ⟨rfl, rfl⟩)
  refine checkRelsFile_with _ _ ht pres_oneLine ?_ ?_
  · intro r hr
    obtain ⟨x, hx, rfl⟩ := List.mem_map.mp hr
    exact (font_fine h hx).1
  · intro r hr
    simp only [presentationRels, List.mem_append, List.mem_map, List.mem_cons, List.not_mem_nil, or_false] at hr
    rcases hr with ((((rfl | ⟨i, hi, rfl⟩) | hr) | hr) | hr) | ⟨x, hx, rfl⟩
    · exact relIssue_part hbase (by decide) (hh (.master) (by simp [expectedParts]) (by simp))
    · have hm : PartName.slide i ∈ expectedParts d st := by
        rw [mem_expected_slide]
        rw [upTo_eq, List.mem_range'_1] at hi
        omega
      have := hh _ hm (by simp)
      refine relIssue_part hbase (by rintro ⟨t, ht⟩; simp [rel] at ht) ?_
      simpa [rel, PartName.path] using this
    · split at hr
      · rename_i hn
        simp only [List.mem_singleton] at hr
        subst hr
        rw [hasNotes_iff] at hn
        exact relIssue_part hbase (by simp [rel]) (hh (.notesMaster) (by simp [expectedParts, hn]) (by simp))
      · simp at hr
    · split at hr
      · rename_i hn
        simp only [List.mem_singleton] at hr
        subst hr
        exact relIssue_part hbase (by simp [rel]) (hh (.handoutMaster) (by simp [expectedParts, hn]) (by simp))
      · simp at hr
    · rcases hr with rfl | rfl | rfl | rfl
      · exact relIssue_part hbase (by simp [rel]) (hh (.presProps) (by simp [expectedParts]) (by simp))
      · exact relIssue_part hbase (by simp [rel]) (hh (.viewProps) (by simp [expectedParts]) (by simp))
      · exact relIssue_part hbase (by simp [rel]) (hh (.theme 1) (by simp [expectedParts]) (by simp))
      · exact relIssue_part hbase (by simp [rel]) (hh (.tableStyles) (by simp [expectedParts]) (by simp))
    · obtain ⟨-, et, hm⟩ := font_fine h hx
      have := hh _ hm (by simp)
      refine relIssue_part hbase (by rw [et]; rintro ⟨t, ht⟩; simp at ht) ?_
      rw [et]
      simpa [PartName.path] using this

theorem generated_targets (h : Openable d st) : HasTargets d st (generated d st f) := fun _ hq _ => generated_has h hq

theorem pres_fine (h : NeedsNoRepair d st)
    (hf : ∀ p l, (⟨p, .rels l⟩ : Entry) ∈ buildPackage d st → f ⟨p, .rels l⟩ = encode (relsPartText d st l p)) :
    checkRelsFile (generated d st f) c!"ppt/_rels/presentation.xml.rels" = [] :=
  pres_fine_of h (generated_targets h.openable) (pres_text h hf)

theorem web_escape {u : Str} (h : IsWeb u) : IsWeb (escapeXml u) := by
  rcases h with ⟨t, rfl⟩ | ⟨t, rfl⟩
  · left
    rw [escapeXml_append]
    exact ⟨escapeXml t, rfl⟩
  · right
    rw [escapeXml_append]
    exact ⟨escapeXml t, rfl⟩

theorem newline_notMem_escape {u : Str} (h : '\n' ∉ u) : '\n' ∉ escapeXml u := by
  rw [escapeXml_eq]
  intro hc
  obtain ⟨x, hx, hc⟩ := List.mem_flatMap.mp hc
  have hne : x ≠ '\n' := fun e => h (e ▸ hx)
  revert hc
  unfold escapeChar
  repeat' split
  · decide
  · decide
  · decide
  · decide
  · decide
  · simpa using hne.symm

theorem ups_infix (t : Str) : c!".." <:+: c!"../" ++ t := ⟨[], c!"/" ++ t, by simp⟩

/-- The relationships of a slide other than links: on one line, and with targets in other folders. -/
theorem own_rel {s : SlideIn} (hx : ∀ i ∈ s.images, i.ext = c!"png" ∨ i.ext = c!"jpg" ∨ i.ext = c!"gif") (reg : MediaRegistry)
    (layout notesPart inkPart chart : Nat) : ∀ r ∈ ownRels s reg layout notesPart inkPart chart, OneLine r ∧ c!".." <:+: r.target := by
  have num : ∀ (m : Nat) (c : Char), c.isDigit = false → c ∉ dec m := fun m c hc => not_mem_dec hc
  intro r hr
  simp only [ownRels, slideRelsWithImages, List.mem_append, List.mem_map, List.mem_singleton, List.append_nil] at hr
  rcases hr with (((rfl | hr) | hr) | ⟨c, ⟨i, hi, rfl⟩, rfl⟩) | ⟨c, hc, rfl⟩
  · refine ⟨oneLine_rel _ (by decide) ?_, ups_infix _⟩
    simp [layoutRelTarget, num]
  · split at hr
    · simp only [List.mem_singleton] at hr
      subst hr
      refine ⟨oneLine_rel _ (by decide) ?_, ups_infix _⟩
      simp [num]
    · simp at hr
  · obtain ⟨i, hi⟩ := List.mem_iff_getElem?.mp hr
    rw [imageRelsFrom_get, Option.map_eq_some_iff] at hi
    obtain ⟨x, hxx, rfl⟩ := hi
    have hxx := List.mem_of_getElem? hxx
    simp only [slideImageRelTargets, List.mem_filterMap, Option.bind_eq_some_iff, Option.map_eq_some_iff] at hxx
    obtain ⟨img, himg, b, hb, n, hn, rfl⟩ := hxx
    refine ⟨oneLine_rel _ (by decide) ?_, ups_infix _⟩
    rcases hx img himg with e | e | e <;> simp [e, num]
  · refine ⟨oneLine_rel _ (by decide) ?_, ups_infix _⟩
    simp [num]
  · cases hink : s.ink
    · simp [hink] at hc
    · simp only [hink, if_true, Option.toList_some, List.mem_singleton] at hc
      subst hc
      refine ⟨oneLine_rel _ (by decide) ?_, ups_infix _⟩
      simp [num]

theorem slide_fine_of (h : NeedsNoRepair d st) {p : Package} (hh : HasTargets d st p)
    (hg : ∀ n l, (⟨.slideRels n, .rels l⟩ : Entry) ∈ buildPackage d st →
      p.getPartString (PartName.slideRels n).path = some (relsPartText d st l (.slideRels n)))
    {e : Entry} (he : e ∈ buildPackage d st) (hp : c!"ppt/slides/_rels/" <+: e.name.path) :
    checkRelsFile p e.name.path = [] := by
  have hm := (mem_names h.template).mp (List.mem_map.mpr ⟨e, he, rfl⟩)
  have ho := expectedParts_own d st _ hm
  obtain ⟨q, b⟩ := e
  have hq : ∃ n, q = .slideRels n := by
    obtain ⟨t, ht⟩ := hp
    cases q <;> simp [PartName.path, PartName.Own] at ht ho ⊢
  obtain ⟨n, rfl⟩ := hq
  have hb := bodyOk d st _ he
  simp only [BodyOk] at hb
  have hbase : baseOf (PartName.slideRels n).path c!"ppt/slides/" :=
    .inr (.inr ⟨c!"slide" ++ dec n, by simp [PartName.path], by simp [slash_notMem_dec], rfl⟩)
  have num : ∀ (m : Nat) (c : Char), c.isDigit = false → c ∉ dec m := fun m c hc => not_mem_dec hc
  rcases hb with ⟨j, s, hj, rfl, e⟩ | ⟨k, hd, rfl⟩
  · simp only [slideRelsEntry, Entry.mk.injEq, true_and] at e
    obtain ⟨l, rfl⟩ : ∃ l, b = .rels l := ⟨_, e⟩
    have hs := List.mem_of_getElem? hj
    have ht := hg _ _ he
    have e := slideRels_body hj he
    subst e
    have key : ∀ r ∈ ownRels s (buildMediaRegistry d.slides) (resolveLayout st s.layout.layoutNumber)
        (if s.notes.isSome then numNotes (d.slides.take j) + 1 else 1) (numInk (d.slides.take j) + 1)
        (numCharts (d.slides.take j) + 1) ++ hyperlinkRels s,
        OneLine r ∧ relIssue p (PartName.slideRels (j + 1)).path r = [] := by
      intro r hr
      rcases List.mem_append.mp hr with hr | hr
      · obtain ⟨o1, o2⟩ := own_rel (h.exts s hs) _ _ _ _ _ r hr
        exact ⟨o1, relIssue_nil (.inr (.inr o2))⟩
      · simp only [hyperlinkRels, List.mem_filterMap, Option.map_eq_some_iff] at hr
        obtain ⟨k, ⟨sh, hsh, hk⟩, id, hid, rfl⟩ := hr
        obtain ⟨⟨i1, i2, i3⟩, hl⟩ := h.links s hs sh hsh k hk id hid
        have hty : '"' ∉ relTypeBase ++ c!"hyperlink" ∧ '\n' ∉ relTypeBase ++ c!"hyperlink" ∧
          '=' ∉ relTypeBase ++ c!"hyperlink" := by decide
        have mk : ∀ t, '"' ∉ t → '\n' ∉ t → ∀ x, OneLine ⟨id, relTypeBase ++ c!"hyperlink", t, x⟩ :=
          fun t t1 t2 x => ⟨⟨i1, hty.1, t1⟩, ⟨i3, i2⟩, ⟨hty.2.1, hty.2.2⟩, t2⟩
        have hq : '"' ∉ escapeXml k.action.relationshipTarget := fun h => (mem_escapeXml h).2.2.1 rfl
        have hn : '\n' ∉ k.action.relationshipTarget → '\n' ∉ escapeXml k.action.relationshipTarget := newline_notMem_escape
        rcases hl with ⟨n, hn', h1, h2⟩ | ⟨u, hu, hw, hnl⟩
        · have ht : k.action.relationshipTarget = c!"slide" ++ dec n ++ c!".xml" := by rw [hn']; rfl
          have hsafe : escapeXml (c!"slide" ++ dec n ++ c!".xml") = c!"slide" ++ dec n ++ c!".xml" := by
            refine escapeXml_safe fun c hc => ?_
            simp only [List.mem_append] at hc
            have h1 : ∀ c ∈ c!"slide", needsEscape c = false := by decide
            have h2 : ∀ c ∈ c!".xml", needsEscape c = false := by decide
            rcases hc with (hc | hc) | hc
            · exact h1 c hc
            · rw [Bool.eq_false_iff]
              intro hne
              have : c.isDigit = false := by
                simp only [needsEscape, Bool.or_eq_true, beq_iff_eq] at hne
                rcases hne with (((rfl | rfl) | rfl) | rfl) | rfl <;> decide
              exact num n c this hc
            · exact h2 c hc
          refine ⟨mk _ hq (hn (by rw [ht]; simp [num])) _, ?_⟩
          have hmem : PartName.slide n ∈ expectedParts d st := by rw [mem_expected_slide]; omega
          have := hh _ hmem (by simp)
          refine relIssue_part hbase ?_ ?_
          · simp only [ht, hsafe]
            rintro ⟨t, ht⟩
            simp at ht
          · simp only [ht, hsafe]
            simpa [PartName.path] using this
        · have ht : k.action.relationshipTarget = u := by rw [hu]; rfl
          refine ⟨mk _ hq (hn (by rw [ht]; exact hnl)) _, relIssue_nil (.inl ?_)⟩
          simp only [ht]
          exact web_escape hw
    rw [checkRelsFile_rendered _ _ ht fun r hr => (key r hr).1, List.flatMap_eq_nil_iff]
    exact fun r hr => (key r hr).2
  · have ht := hg _ _ he
    have key : ∀ r ∈ [rel 1 c!"slideLayout" (layoutRelTarget 2)],
        OneLine r ∧ relIssue p (PartName.slideRels n).path r = [] := by
      intro r hr
      rw [List.mem_singleton] at hr
      subst hr
      exact ⟨oneLine_rel _ (by decide) (by decide), relIssue_nil (.inr (.inr (ups_infix _)))⟩
    rw [checkRelsFile_rendered _ _ ht fun r hr => (key r hr).1, List.flatMap_eq_nil_iff]
    exact fun r hr => (key r hr).2

theorem slide_fine (h : NeedsNoRepair d st)
    (hf : ∀ p l, (⟨p, .rels l⟩ : Entry) ∈ buildPackage d st → f ⟨p, .rels l⟩ = encode (relsPartText d st l p))
    {e : Entry} (he : e ∈ buildPackage d st) (hp : c!"ppt/slides/_rels/" <+: e.name.path) :
    checkRelsFile (generated d st f) e.name.path = [] :=
  slide_fine_of h (generated_targets h.openable) (fun _ _ hm => generated_text h.openable hm (hf _ _ hm)) he hp

/-! ### The list of slides -/

theorem referencedSlide_rel {r : RelEntry} (h : OneLine r) (t : Str) :
    referencedSlide (renderRel r ++ t) =
      if r.type = relTypeBase ++ c!"slide" then
        some (match stripPrefix? c!"/" r.target with
          | some s => s
          | none => c!"ppt/" ++ r.target)
      else none := by
  unfold referencedSlide
  rw [extract_type h t, extract_target h t, Option.bind_some]
  by_cases e : r.type = relTypeBase ++ c!"slide"
  · rw [if_pos e, if_neg (by simpa using e)]
    rfl
  · rw [if_neg e, if_pos (by simpa using e)]

theorem type_ne_slide {ty : Str} (h : ty ≠ c!"slide") : relTypeBase ++ ty ≠ relTypeBase ++ c!"slide" :=
  fun e => h (List.append_cancel_left e)

theorem mem_referencedSlides (h : NeedsNoRepair d st)
    (hf : ∀ p l, (⟨p, .rels l⟩ : Entry) ∈ buildPackage d st → f ⟨p, .rels l⟩ = encode (relsPartText d st l p)) {path : Str} :
    path ∈ referencedSlides (generated d st f) ↔ ∃ i, 1 ≤ i ∧ i ≤ d.count ∧ path = (PartName.slide i).path := by
  unfold referencedSlides
  rw [pres_text h hf]
  simp only
  rw [List.mem_eraseDups, strLines_renderRelsWith pres_oneLine (by
    intro r hr
    obtain ⟨x, hx, rfl⟩ := List.mem_map.mp hr
    exact (font_fine h hx).1), List.mem_filterMap]
  have hlast : referencedSlide (((fontsOf d st).map fontRel).flatMap renderRel ++ c!"</Relationships>") = none := by
    cases hx : fontsOf d st with
    | nil => decide
    | cons x l =>
      rw [List.map_cons, List.flatMap_cons, List.append_assoc, referencedSlide_rel (font_fine h (hx ▸ List.mem_cons_self)).1, if_neg]
      exact type_ne_slide (by decide)
  have hslide : ∀ i, referencedSlide (renderRel (rel (slideRelId i) c!"slide" (c!"slides/slide" ++ dec i ++ c!".xml"))) =
      some (PartName.slide i).path := by
    intro i
    have ho : OneLine (rel (slideRelId i) c!"slide" (c!"slides/slide" ++ dec i ++ c!".xml")) :=
      oneLine_rel _ (by decide) ⟨by simp [not_mem_dec (c := '"') (n := i) (by decide)],
        by simp [not_mem_dec (c := '\n') (n := i) (by decide)]⟩
    have := referencedSlide_rel ho []
    have hty : (rel (slideRelId i) c!"slide" (c!"slides/slide" ++ dec i ++ c!".xml")).type = relTypeBase ++ c!"slide" := rfl
    rw [List.append_nil, if_pos hty] at this
    rw [this]
    simp [rel, stripPrefix?, PartName.path]
  have hother : ∀ n ty t, ty ≠ c!"slide" → OneLine (rel n ty t) → referencedSlide (renderRel (rel n ty t)) = none := by
    intro n ty t hty ho
    have := referencedSlide_rel ho []
    have hne : ¬ (rel n ty t).type = relTypeBase ++ c!"slide" := type_ne_slide hty
    rw [List.append_nil, if_neg hne] at this
    exact this
  constructor
  · rintro ⟨line, hl, e⟩
    simp only [relLinesWith, List.mem_cons, List.mem_append, List.mem_map, List.not_mem_nil, or_false] at hl
    rcases hl with rfl | rfl | ⟨r, hr, rfl⟩ | rfl
    · have : referencedSlide declLine = none := by decide
      rw [this] at e; cases e
    · have : referencedSlide openLine = none := by decide
      rw [this] at e; cases e
    · have ho := pres_oneLine r hr
      simp only [presentationRels, List.mem_append, List.mem_map, List.mem_cons, List.not_mem_nil, or_false] at hr
      rcases hr with (((rfl | ⟨i, hi, rfl⟩) | hr) | hr) | rfl | rfl | rfl | rfl
      · rw [hother _ _ _ (by decide) ho] at e; cases e
      · rw [hslide] at e
        rw [upTo_eq, List.mem_range'_1] at hi
        exact ⟨i, by omega, by omega, (Option.some.inj e).symm⟩
      · split at hr
        · simp only [List.mem_singleton] at hr
          subst hr
          rw [hother _ _ _ (by decide) ho] at e; cases e
        · simp at hr
      · split at hr
        · simp only [List.mem_singleton] at hr
          subst hr
          rw [hother _ _ _ (by decide) ho] at e; cases e
        · simp at hr
      all_goals
        rw [hother _ _ _ (by decide) ho] at e; cases e
    · rw [hlast] at e; cases e
  · rintro ⟨i, h1, h2, rfl⟩
    refine ⟨_, ?_, hslide i⟩
    have : rel (slideRelId i) c!"slide" (c!"slides/slide" ++ dec i ++ c!".xml") ∈
        presentationRels d.count (hasNotes d.slides) st.handout := by
      unfold presentationRels
      simp only [List.mem_append, List.mem_map]
      refine .inl (.inl (.inl (.inr ⟨i, ?_, rfl⟩)))
      rw [upTo_eq, List.mem_range'_1]
      omega
    simp only [relLinesWith, List.mem_cons, List.mem_append, List.mem_map]
    exact .inr (.inr (.inl ⟨_, this, rfl⟩))

theorem mem_actualSlides (h : NeedsNoRepair d st) {path : Str} :
    path ∈ actualSlides (generated d st f) ↔ ∃ i, 1 ≤ i ∧ i ≤ d.count ∧ path = (PartName.slide i).path := by
  unfold actualSlides
  rw [List.mem_filter]
  constructor
  · rintro ⟨hp, hs⟩
    obtain ⟨e, he, rfl⟩ := generated_path hp
    have hm := (mem_names h.template).mp (List.mem_map.mpr ⟨e, he, rfl⟩)
    have ho := expectedParts_own d st _ hm
    simp only [Bool.and_eq_true, startsWith_prefix] at hs
    obtain ⟨t, ht⟩ := hs.1.1
    have hq : ∃ n, e.name = .slide n := by
      generalize e.name = q at ht ho
      clear hp hs hm he
      cases q <;> simp [PartName.path, PartName.Own] at ht ho ⊢
    obtain ⟨n, hn⟩ := hq
    rw [hn, mem_expected_slide] at hm
    exact ⟨n, by omega, by omega, by rw [hn]⟩
  · rintro ⟨i, h1, h2, rfl⟩
    refine ⟨generated_mem h.openable (by rw [mem_expected_slide]; omega), ?_⟩
    simp only [Bool.and_eq_true, startsWith_prefix, endsWith_suffix]
    refine ⟨⟨⟨dec i ++ c!".xml", by simp [PartName.path]⟩, ⟨c!"ppt/slides/slide" ++ dec i, by simp [PartName.path]⟩⟩, ?_⟩
    rw [Bool.not_eq_true', Bool.eq_false_iff]
    intro hc
    rw [containsStr_iff_infix] at hc
    have : '_' ∈ (PartName.slide i).path := hc.subset (by decide)
    simp [PartName.path, not_mem_dec (c := '_') (n := i) (by decide)] at this

/-! ### The content types -/

theorem lastDot_of {a x : Str} (h : '.' ∉ x) : lastDot (a ++ '.' :: x) = x := by
  unfold lastDot
  rw [rsplitOnceChar?_append h]
  rfl

theorem hasDefault {d : Deck} {st : BuildSettings} {x : Str} {ty : ContentType}
    (h : defaultText (x, ty) <:+: contentTypesText d st) :
    containsStr (c!"Extension=\"" ++ x ++ c!"\"") (contentTypesText d st) = true := by
  rw [containsStr_iff_infix]
  refine List.IsInfix.trans ?_ h
  exact ⟨c!"<Default ", c!" ContentType=\"" ++ ty.mime ++ c!"\"/>", by simp [defaultText]⟩

theorem opening_infix (d : Deck) (st : BuildSettings) :
    contentTypesOpeningText (buildMediaRegistry d.slides).extensions (totalCharts d.slides) <:+: contentTypesText d st := by
  unfold contentTypesText contentTypesMainText
  simp only [List.append_assoc]
  exact (List.prefix_append _ _).isInfix

theorem image_default {exts : List Str} {x : Str} (h : x ∈ exts) (hx : x = c!"png" ∨ x = c!"jpg" ∨ x = c!"gif") :
    ∃ ty, (x, ty) ∈ imageDefaults exts := by
  unfold imageDefaults
  simp only [List.mem_append]
  rcases hx with rfl | rfl | rfl
  · refine ⟨.png, .inl (.inr ?_)⟩
    rw [if_pos (List.any_eq_true.mpr ⟨_, h, by decide⟩)]
    simp
  · refine ⟨.jpeg, .inl (.inl ?_)⟩
    rw [if_pos (List.any_eq_true.mpr ⟨_, h, by decide⟩)]
    simp
  · refine ⟨.gif, .inr ?_⟩
    rw [if_pos (List.any_eq_true.mpr ⟨_, h, by decide⟩)]
    simp

theorem infix_left {a b c : Str} (h : a <:+: b) : a <:+: b ++ c := h.trans (List.prefix_append _ _).isInfix

theorem infix_right {a b c : Str} (h : a <:+: c) : a <:+: b ++ c := h.trans (List.suffix_append _ _).isInfix

theorem lacks_not {xml part a x : Str} (e : part = a ++ '.' :: x) (hx : '.' ∉ x)
    (h : containsStr (c!"Extension=\"" ++ x ++ c!"\"") xml = true) : lacksType xml part = false := by
  unfold lacksType
  rw [e, lastDot_of hx, h]
  simp

theorem lacks_xml {xml part : Str} (h : containsStr (c!"Extension=\"" ++ c!"xml" ++ c!"\"") xml = true) (hp : c!".xml" <:+ part) :
    lacksType xml part = false := by
  obtain ⟨a, rfl⟩ := hp
  exact lacks_not (a := a) (x := c!"xml") rfl (by decide) h

theorem lacks_rels {xml part : Str} (h : c!".rels" <:+ part) : lacksType xml part = false := by
  unfold lacksType
  rw [endsWith_suffix.mpr h]
  simp

theorem lacks_nothing (h : NeedsNoRepair d st) {q : PartName} (hq : q ∈ expectedParts d st) :
    lacksType (contentTypesText d st) q.path = false := by
  have hopen : ∀ x ty, defaultText (x, ty) <:+: contentTypesOpeningText (buildMediaRegistry d.slides).extensions (totalCharts d.slides) →
      containsStr (c!"Extension=\"" ++ x ++ c!"\"") (contentTypesText d st) = true :=
    fun x ty hi => hasDefault (hi.trans (opening_infix d st))
  have hxml := hopen c!"xml" .xml (infix_left (infix_left (infix_right (List.infix_refl _))))
  have ho := expectedParts_own d st q hq
  cases q
  case templatePart => exact ho.elim
  case contentTypes => exact lacks_not (a := c!"[Content_Types]") rfl (by decide) hxml
  case font file =>
    obtain ⟨g, hg, rfl⟩ := mem_expected_font hq
    refine lacks_not (a := c!"ppt/fonts/" ++ (replaceChar ' ' [] g.typeface ++ c!"-" ++ g.style.xmlElement)) (x := c!"fntdata")
      (by simp [PartName.path, EmbeddedFont.fileName]) (by decide) (hasDefault (ty := .fontData) ?_)
    unfold contentTypesText
    have : (st.fonts.getD []).isEmpty = false := by
      cases hl : st.fonts.getD [] with
      | nil => rw [hl] at hg; cases hg
      | cons => rfl
    refine infix_left (infix_left (infix_right ?_))
    rw [this]
    exact List.infix_refl _
  case media n x =>
    obtain ⟨h1, s, hs, i, hi, rfl⟩ := mem_media_ext (mem_expected_media hq)
    have hx := h.exts s hs i hi
    obtain ⟨ty, hty⟩ := image_default h1 hx
    refine lacks_not (a := c!"ppt/media/image" ++ dec n) (x := i.ext) (by simp [PartName.path])
      (by rcases hx with e | e | e <;> rw [e] <;> decide) (hopen _ ty ?_)
    refine infix_left (infix_left (infix_left (infix_left (infix_left (infix_right ?_)))))
    obtain ⟨l1, l2, e⟩ := List.append_of_mem hty
    rw [e, List.flatMap_append, List.flatMap_cons]
    exact infix_right (infix_left (List.infix_refl _))
  case embedding n =>
    refine lacks_not (a := c!"ppt/embeddings/Microsoft_Excel_Sheet" ++ dec n) (x := c!"xlsx") (by simp [PartName.path]) (by decide)
      (hopen _ .xlsx (infix_left (infix_right ?_)))
    have : totalCharts d.slides > 0 := by
      have hn : n ∈ List.range' 1 (numCharts d.slides) := by
        simp only [expectedParts, mediaParts] at hq
        split at hq <;> split at hq <;> split at hq <;> simpa using hq
      rw [List.mem_range'_1] at hn
      rw [totalCharts_eq]
      omega
    rw [if_pos this]
    exact List.infix_refl _
  case sigOrigin =>
    refine lacks_not (a := c!"_xmlsignatures/origin") (x := c!"sigs") rfl (by decide) (hasDefault (ty := .sigOrigin) ?_)
    have hs : st.signature = true := by
      cases hs : st.signature
      · simp [expectedParts, hs, mediaParts] at hq
      · rfl
    unfold contentTypesText
    refine infix_left (infix_left (infix_left (infix_right ?_)))
    rw [hs, if_pos rfl]
    exact infix_left (List.infix_refl _)
  all_goals first
    | exact lacks_xml hxml (by decide)
    | exact lacks_xml hxml (List.suffix_append _ _)
    | exact lacks_rels (by decide)
    | exact lacks_rels ((show c!".rels" <:+ c!".xml.rels" by decide).trans (List.suffix_append _ _))

/-! ### Blank parts -/

set_option maxHeartbeats 2000000 in
theorem spelled_rels (h : NeedsNoRepair d st) {e : Entry} (he : e ∈ buildPackage d st) (hr : c!".rels" <:+ e.name.path) :
    Spelled e.body := by
  have hm := (mem_names h.template).mp (List.mem_map.mpr ⟨e, he, rfl⟩)
  have ho := expectedParts_own d st _ hm
  have hb := bodyOk d st _ he
  obtain ⟨q, b⟩ := e
  have hlast : ∀ (a s : Str) (c : Char), s.getLast? = some c → c ≠ 's' → ¬ c!".rels" <:+ a ++ s := by
    rintro a s c hs hc ⟨t, ht⟩
    have := congrArg List.getLast? ht
    rw [List.getLast?_append, List.getLast?_append, hs] at this
    simp at this
    exact hc this.symm
  simp only at hr hm ho hb ⊢
  cases q
  case templatePart => exact ho.elim
  case font file =>
    obtain ⟨g, -, rfl⟩ := mem_expected_font hm
    exact absurd hr (by
      rw [show (PartName.font g.fileName).path = (c!"ppt/fonts/" ++ (replaceChar ' ' [] g.typeface ++ c!"-" ++ g.style.xmlElement)) ++
        c!".fntdata" by simp [PartName.path, EmbeddedFont.fileName]]
      exact hlast _ _ 'a' rfl (by decide))
  case media n x =>
    obtain ⟨-, s, hs, i, hi, rfl⟩ := mem_media_ext (mem_expected_media hm)
    rcases h.exts s hs i hi with e | e | e <;> rw [e] at hr
    · exact absurd hr (hlast _ c!"png" 'g' rfl (by decide))
    · exact absurd hr (hlast _ c!"jpg" 'g' rfl (by decide))
    · exact absurd hr (hlast _ c!"gif" 'f' rfl (by decide))
  case slideRels n =>
    rcases hb with ⟨j, s, hj, rfl, e⟩ | ⟨k, hd, rfl⟩
    · simp only [slideRelsEntry, Entry.mk.injEq, true_and] at e
      subst e
      trivial
    · trivial
  case notesRels n =>
    obtain ⟨j, s, -, -, -, rfl⟩ := hb
    trivial
  all_goals first
    | (simp only [BodyOk] at hb; subst hb; trivial)
    | exact absurd hr (by decide)
    | exact absurd hr (hlast _ c!".xml" 'l' rfl (by decide))
    | exact absurd hr (hlast _ c!".xlsx" 'x' rfl (by decide))

theorem presText_head (desc : Str → Str) (n : Nat) (a b : Bool) (fonts : List EmbeddedFont) :
    '<' ∈ presentationTextWithFonts desc n a b fonts := by
  unfold presentationTextWithFonts
  split
  · simp
  · exact List.mem_append_left _ (by decide)

theorem spelled_nonblank {desc : Str → Str} {texts : PartTexts} {other : PartName → Bytes} {e : Entry} (hs : Spelled e.body) :
    ∃ t, entryBytes d st desc texts other e = encode t ∧ '<' ∈ t := by
  obtain ⟨q, b⟩ := e
  unfold entryBytes entryText
  cases b <;> simp only [Spelled] at hs ⊢
  case contentTypes =>
    refine ⟨_, rfl, ?_⟩
    unfold contentTypesText
    exact List.mem_append_right _ (by decide)
  case rels l =>
    refine ⟨_, rfl, ?_⟩
    unfold relsPartText
    split
    · exact List.mem_append_right _ (by decide)
    · exact List.mem_append_right _ (by decide)
    · exact List.mem_append_right _ (by decide)
  case presentation => exact ⟨_, rfl, presText_head _ _ _ _ _⟩

end

/-- **C148** (part): the repair finds nothing to do in a generated file, if no template is used, the images are PNG, JPEG (`jpg`) or
GIF, the links lead to slides of the deck or to the web, the names of embedded fonts have no special characters, and no part is blank.
Missing: other links, see `C148_mail_violated`, and other images, see `C148_image_violated`. -/
theorem C148_valid_partial (d : Deck) (st : BuildSettings) (h : NeedsNoRepair d st) (desc : Str → Str) (texts : PartTexts)
    (other : PartName → Bytes)
    (hx : ∀ e ∈ buildPackage d st, ¬ Spelled e.body → c!".xml" <:+ e.name.path →
      ∃ c ∈ decodeLossy (entryBytes d st desc texts other e), isWs c = false) :
    validate (Package.openReader ((buildPackage d st).map fun e => (e.name.path, entryBytes d st desc texts other e))) = [] := by
  change validate (generated d st (entryBytes d st desc texts other)) = []
  have hf : ∀ p l, (⟨p, .rels l⟩ : Entry) ∈ buildPackage d st →
      entryBytes d st desc texts other ⟨p, .rels l⟩ = encode (relsPartText d st l p) := fun _ _ _ => rfl
  have h1 : checkRequiredParts (generated d st (entryBytes d st desc texts other)) = [] := by
    unfold checkRequiredParts
    rw [List.map_eq_nil_iff, List.filter_eq_nil_iff]
    intro x hx
    have : (generated d st (entryBytes d st desc texts other)).hasPart x = true := by
      simp only [requiredParts, List.mem_cons, List.not_mem_nil, or_false] at hx
      rcases hx with rfl | rfl | rfl | rfl
      · exact generated_has h.openable (q := .contentTypes) (by simp [expectedParts])
      · exact generated_has h.openable (q := .rootRels) (by simp [expectedParts])
      · exact generated_has h.openable (q := .presentation) (by simp [expectedParts])
      · exact generated_has h.openable (q := .presRels) (by simp [expectedParts])
    simp [this]
  have h2 : checkXmlValidity (generated d st (entryBytes d st desc texts other)) = [] := by
    unfold checkXmlValidity
    rw [List.flatMap_eq_nil_iff]
    intro path hp
    obtain ⟨hp, hs⟩ := List.mem_filter.mp hp
    obtain ⟨e, he, rfl⟩ := generated_path hp
    have hg : (generated d st (entryBytes d st desc texts other)).getPartString e.name.path =
        some (decodeLossy (entryBytes d st desc texts other e)) := by
      unfold Package.getPartString
      rw [generated_get h.openable he]
      rfl
    rw [hg]
    simp only
    have hc : ∃ c ∈ decodeLossy (entryBytes d st desc texts other e), isWs c = false := by
      by_cases hsp : Spelled e.body
      · obtain ⟨t, ht, hm⟩ := spelled_nonblank (d := d) (st := st) (desc := desc) (texts := texts) (other := other) hsp
        rw [ht, decodeLossy_encode]
        exact ⟨'<', hm, by decide⟩
      · rw [Bool.or_eq_true, endsWith_suffix, endsWith_suffix] at hs
        rcases hs with hs | hs
        · exact hx e he hsp hs
        · exact absurd (spelled_rels h he hs) hsp
    obtain ⟨c, hc, hw⟩ := hc
    have hv : validateWellFormedXml (decodeLossy (entryBytes d st desc texts other e)) = true := by
      unfold validateWellFormedXml
      refine if_neg ?_
      intro e0
      have := trim_eq_nil.mp e0 c hc
      rw [hw] at this
      cases this
    rw [hv]
    rfl
  have h3 : checkRelationships (generated d st (entryBytes d st desc texts other)) = [] := by
    unfold checkRelationships
    rw [root_fine h hf, pres_fine h hf, List.nil_append, List.nil_append, List.flatMap_eq_nil_iff]
    intro path hp
    obtain ⟨hp, hs⟩ := List.mem_filter.mp hp
    obtain ⟨e, he, rfl⟩ := generated_path hp
    rw [Bool.and_eq_true, startsWith_prefix] at hs
    exact slide_fine h hf he hs.1
  have h4 : checkSlideReferences (generated d st (entryBytes d st desc texts other)) = [] := by
    unfold checkSlideReferences
    rw [List.append_eq_nil_iff, List.map_eq_nil_iff, List.map_eq_nil_iff, List.filter_eq_nil_iff, List.filter_eq_nil_iff]
    constructor
    · intro x hx
      rw [mem_referencedSlides h hf] at hx
      have := (mem_actualSlides (f := entryBytes d st desc texts other) h).mpr hx
      simp [this]
    · intro x hx
      rw [mem_actualSlides h] at hx
      have := (mem_referencedSlides h hf).mpr hx
      simp [this]
  have h5 : checkContentTypes (generated d st (entryBytes d st desc texts other)) = [] := by
    unfold checkContentTypes
    obtain ⟨b, hb, rfl⟩ := entry_of_expected h.openable (q := .contentTypes) (by simp [expectedParts])
    have ht : (generated d st (entryBytes d st desc texts other)).getPartString c!"[Content_Types].xml" =
      some (contentTypesText d st) := generated_text h.openable hb rfl
    rw [ht]
    simp only
    rw [List.map_eq_nil_iff, List.filter_eq_nil_iff]
    intro path hp
    obtain ⟨e, he, rfl⟩ := generated_path hp
    rw [lacks_nothing h ((mem_names h.template).mp (List.mem_map.mpr ⟨e, he, rfl⟩))]
    simp
  unfold validate
  rw [h1, h2, h3, h4, h5]
  rfl

/-- **C148** (part): such a file is not changed by the repair, and reported as valid. -/
theorem C148_untouched_partial (uni : Char → Bool) (d : Deck) (st : BuildSettings) (h : NeedsNoRepair d st) (desc : Str → Str)
    (texts : PartTexts) (other : PartName → Bytes)
    (hx : ∀ e ∈ buildPackage d st, ¬ Spelled e.body → c!".xml" <:+ e.name.path →
      ∃ c ∈ decodeLossy (entryBytes d st desc texts other e), isWs c = false) :
    let p := Package.openReader ((buildPackage d st).map fun e => (e.name.path, entryBytes d st desc texts other e))
    repair uni p = (p, ⟨[], [], [], true⟩) := by
  have := C148_valid_partial d st h desc texts other hx
  intro p
  unfold repair
  exact if_pos this

/-! ### Written, repaired and opened -/

theorem deckOf_fine {l : List PageIn} {st : BuildSettings} (ht : st.template = none) (hf : st.fonts = none) :
    NeedsNoRepair (deckOf l) st := by
  have hs : ∀ s ∈ (deckOf l).slides, s.images = [] ∧ s.shapes = [] := by
    intro s hs
    obtain ⟨x, -, rfl⟩ := List.mem_map.mp (show s ∈ l.map PageIn.slideIn from hs)
    exact ⟨rfl, rfl⟩
  refine ⟨ht, by simp [hf], by simp [hf], ?_, ?_⟩
  · intro s h i hi
    rw [(hs s h).1] at hi
    cases hi
  · intro s h sh hsh
    rw [(hs s h).2] at hsh
    cases hsh

theorem entryText_unspelled {d : Deck} {st : BuildSettings} {desc : Str → Str} {texts : PartTexts} {e : Entry} (h : ¬ Spelled e.body) :
    entryText d st desc texts e = texts e.name := by
  obtain ⟨q, b⟩ := e
  unfold entryText
  cases b <;> first | rfl | exact absurd trivial h

theorem pageTexts_nonblank {secs : Nat} {title : Str} {l : List PageIn} {q : PartName} {t : Str}
    (h : pageTexts secs title l q = some t) : '<' ∈ t := by
  unfold pageTexts at h
  split at h
  · obtain ⟨s, -, rfl⟩ := Option.map_eq_some_iff.mp h
    exact List.mem_append_left _ (by decide)
  · cases h
    exact List.mem_append_left _ (by decide)
  · cases h

/-- **C148** (part): a written file that was repaired is opened as the same presentation. -/
theorem C148_same_partial (uni : Char → Bool) (secs : Nat) {title : Str} {l : List PageIn} {st : BuildSettings} (desc : Str → Str)
    (other : PartName → Bytes) (ht : st.template = none) (hf : st.fonts = none) (h1 : '&' ∉ title) (h2 : '<' ∉ title)
    (hn : l.length + 1 < 4294967296) (hs : Readable l)
    (hx : ∀ q, c!".xml" <:+ q.path → ∃ c ∈ decodeLossy (other q), isWs c = false) {file : List (Str × Bytes)}
    (hr : Repaired uni (written secs title l st desc other) file) :
    opened file = some { title := visible title, slides := l.map fun s => expectedSlide s.text } := by
  have hw : repair uni (Package.openReader (written secs title l st desc other)) = _ :=
    C148_untouched_partial uni (deckOf l) st (deckOf_fine ht hf) desc (pageTexts secs title l) other (by
      intro e he hsp hp
      unfold entryBytes
      split
      · rename_i t e1
        rw [decodeLossy_encode]
        rw [entryText_unspelled hsp] at e1
        exact ⟨'<', pageTexts_nonblank e1, by decide⟩
      · exact hx _ hp)
  obtain ⟨entries, hperm, rfl⟩ := hr
  rw [hw] at hperm
  have he : Edited (written secs title l st desc other) [[]] (Package.saveWriter entries) := .session entries hperm (.done _)
  have := C145_edited_partial secs desc other ht hf h1 h2 he (by simpa [editContentsAll] using hn) (by
    intro s hm
    simp only [List.flatten_cons, List.flatten_nil, List.append_nil, editContentsAll, List.foldl_nil, List.mem_map] at hm
    obtain ⟨x, hx, rfl⟩ := hm
    exact hs x hx)
  rw [this]
  simp [editContentsAll, Function.comp_def]

/-! ### What is left out -/

/-- **C148 does not hold in full.** A link to a mail address is found broken in every generated file. The repair removes its
relationship, and the shape on the slide is left with a relationship id that leads nowhere. -/
theorem C148_mail_violated (uni : Char → Bool) (d : Deck) (st : BuildSettings) (h : Openable d st) (desc : Str → Str)
    (texts : PartTexts) (other : PartName → Bytes) (j : Nat) (s : SlideIn) (hj : d.slides[j]? = some s)
    (hx : ∀ i ∈ s.images, i.ext = c!"png" ∨ i.ext = c!"jpg" ∨ i.ext = c!"gif") (id a : Str)
    (hs : s.shapes = [⟨none, some ⟨.email a none, some id⟩⟩]) (hid : '"' ∉ id ∧ '=' ∉ id ∧ '\n' ∉ id)
    (ha : ∀ c ∈ a, needsEscape c = false ∧ c ≠ '\n') (hdot : ¬ c!".." <:+: a) :
    let p := Package.openReader ((buildPackage d st).map fun e => (e.name.path, entryBytes d st desc texts other e))
    let rels := (PartName.slideRels (j + 1)).path
    let issue := RepairIssue.brokenRelationship rels (c!"ppt/slides/mailto:" ++ a) id
    issue ∈ validate p ∧
      ∃ l, p.getPartString rels = some (renderRels l) ∧ (∃ r ∈ l, r.id = id) ∧
        (repairIssue uni p issue).1.getPartString rels = some (renderRels (l.filter fun r => r.id ≠ id)) := by
  intro p rels issue
  have hm : PartName.slideRels (j + 1) ∈ expectedParts d st := by
    rw [mem_expected_slideRels]
    have hlt := (List.getElem?_eq_some_iff.mp hj).1
    have : d.slides.length ≤ d.count := by cases d <;> simp [Deck.slides, Deck.count]
    omega
  obtain ⟨b, hb, hok⟩ := entry_of_expected h hm
  simp only [BodyOk] at hok
  obtain ⟨l, rfl⟩ : ∃ l, b = .rels l := by
    rcases hok with ⟨j', s', -, -, e⟩ | ⟨n, -, e⟩
    · simp only [slideRelsEntry, Entry.mk.injEq] at e
      exact ⟨_, e.2⟩
    · exact ⟨_, e⟩
  have ht : p.getPartString rels = some (renderRels l) := generated_text h hb rfl
  have e := slideRels_body hj hb
  have hlink : hyperlinkRels s = [⟨id, relTypeBase ++ c!"hyperlink", c!"mailto:" ++ a, true⟩] := by
    have hsafe : escapeXml (c!"mailto:" ++ a) = c!"mailto:" ++ a := by
      refine escapeXml_safe fun c hc => ?_
      rcases List.mem_append.mp hc with hc | hc
      · have h1 : ∀ c ∈ c!"mailto:", needsEscape c = false := by decide
        exact h1 c hc
      · exact (ha c hc).1
    simp only [hyperlinkRels, hs, List.filterMap_cons, List.filterMap_nil, Option.map_some, HyperlinkAction.relationshipTarget,
      HyperlinkAction.isExternal, hsafe]
  have hone : ∀ r ∈ l, OneLine r := by
    intro r hr
    rw [e, hlink, List.mem_append, List.mem_singleton] at hr
    rcases hr with hr | rfl
    · exact (own_rel hx _ _ _ _ _ r hr).1
    · have hty : '"' ∉ relTypeBase ++ c!"hyperlink" ∧ '\n' ∉ relTypeBase ++ c!"hyperlink" ∧
        '=' ∉ relTypeBase ++ c!"hyperlink" := by decide
      refine ⟨⟨hid.1, hty.1, ?_⟩, ⟨hid.2.2, hid.2.1⟩, ⟨hty.2.1, hty.2.2⟩, ?_⟩
      · intro hc
        rcases List.mem_append.mp hc with hc | hc
        · revert hc; decide
        · have := (ha _ hc).1
          revert this; decide
      · intro hc
        rcases List.mem_append.mp hc with hc | hc
        · revert hc; decide
        · exact (ha _ hc).2 rfl
  have hr : (⟨id, relTypeBase ++ c!"hyperlink", c!"mailto:" ++ a, true⟩ : RelEntry) ∈ l := by
    rw [e, hlink]; simp
  have hbase : baseOf rels c!"ppt/slides/" :=
    .inr (.inr ⟨c!"slide" ++ dec (j + 1), by simp [rels, PartName.path], by simp [slash_notMem_dec], rfl⟩)
  refine ⟨?_, l, ht, ⟨_, hr, rfl⟩, ?_⟩
  · have := C74_found_partial p rels c!"ppt/slides/" hbase l ht hone _ hr ?_ ?_ ?_ ?_
    · exact this
    · rintro (⟨t, ht⟩ | ⟨t, ht⟩) <;> simp at ht
    · rintro ⟨t, ht⟩
      simp at ht
    · rintro ⟨x, y, hxy⟩
      apply hdot
      have hsplit : c!".." <:+: c!"mailto:" ++ a := ⟨x, y, hxy⟩
      simpa [List.infix_cons_iff] using hsplit
    · rw [Option.eq_none_iff_forall_ne_some]
      intro v hv
      have hk : c!"ppt/slides/" ++ (c!"mailto:" ++ a) ∈ p.partPaths :=
        (AMap.get_isSome_iff p _).mp (by unfold Package.getPart at hv; rw [hv]; rfl)
      obtain ⟨e, he, hpath⟩ := generated_path hk
      have ho := expectedParts_own d st _ ((mem_names h.template).mp (List.mem_map.mpr ⟨e, he, rfl⟩))
      generalize e.name = q at hpath ho
      cases q <;> simp [PartName.path, PartName.Own] at hpath ho
  · exact (C73_package_partial uni p rels (c!"ppt/slides/mailto:" ++ a) id l ht hone hid.1 hid.2.1).1

/-- **C148 does not hold in full.** A generated file with a picture in another format, here BMP, is found to have a part without
content type. -/
theorem C148_image_violated (desc : Str → Str) (texts : PartTexts) (other : PartName → Bytes) :
    let d : Deck := .custom [imageSlide c!"bmp"]
    .invalidContentType c!"ppt/media/image1.bmp" ∈ validate (Package.openReader ((buildPackage d .none).map fun e =>
      (e.name.path, entryBytes d .none desc texts other e))) := by
  intro d
  have h : Openable d .none := by
    refine ⟨rfl, by simp [BuildSettings.none], ?_⟩
    intro s hs i hi c hc
    rw [List.mem_singleton.mp (show s ∈ [imageSlide c!"bmp"] from hs)] at hi
    rw [List.mem_singleton.mp (show i ∈ [⟨some [1], c!"bmp"⟩] from hi)] at hc
    cases hc
    decide
  have hm : PartName.media 1 c!"bmp" ∈ expectedParts d .none := (mem_names rfl).mp (by decide)
  obtain ⟨b, hb, rfl⟩ := entry_of_expected h (q := .contentTypes) (by simp [expectedParts])
  have ht : (generated d .none (entryBytes d .none desc texts other)).getPartString c!"[Content_Types].xml" =
    some (contentTypesText d .none) := generated_text h hb rfl
  change _ ∈ validate (generated d .none (entryBytes d .none desc texts other))
  unfold validate
  refine List.mem_append_right _ ?_
  unfold checkContentTypes
  rw [ht]
  refine List.mem_map.mpr ⟨_, List.mem_filter.mpr ⟨generated_mem h hm, ?_⟩, rfl⟩
  decide +kernel

/-! ### Examples -/

/-- A deck with links, pictures, notes, charts and ink. -/
def richDeck : Deck := .custom [⟨c!"T", .titleOnly, 0, false,
    [⟨none, some ⟨.slide 2, some c!"rId9"⟩⟩, ⟨none, some ⟨.url c!"https://example.org/?a=1&b=2", some c!"rId10"⟩⟩, ⟨none, none⟩],
    [⟨some [1], c!"png"⟩, ⟨some [2], c!"jpg"⟩], some c!"n", 0, 0, 2, true⟩, imageSlide c!"gif"]

/-- With a font, a signature and handouts. -/
def richSettings : BuildSettings := ⟨some [⟨c!"My Font", .bold, []⟩], true, true, false, none⟩

theorem rich_fine : NeedsNoRepair richDeck richSettings := by
  refine ⟨rfl, by decide, ?_, ?_, ?_⟩
  · simp only [FontFine]; decide
  · decide
  · intro s hs sh hsh k hk id hid
    simp only [richDeck, imageSlide, Deck.slides, List.mem_cons, List.not_mem_nil, or_false] at hs
    rcases hs with rfl | rfl
    · simp only [List.mem_cons, List.not_mem_nil, or_false] at hsh
      rcases hsh with rfl | rfl | rfl
      · cases hk; cases hid
        exact ⟨by decide, .inl ⟨2, rfl, by decide, by decide⟩⟩
      · cases hk; cases hid
        exact ⟨by decide, .inr ⟨_, rfl, .inr ⟨c!"example.org/?a=1&b=2", rfl⟩, by decide⟩⟩
      · cases hk
    · cases hsh

example : validate (Package.openReader ((buildPackage richDeck richSettings).map fun e =>
    (e.name.path, entryBytes richDeck richSettings id (fun _ => some c!"<x/>") (fun _ => []) e))) = [] := by
  refine C148_valid_partial _ _ rich_fine _ _ _ ?_
  intro e _ hsp _
  unfold entryBytes
  rw [entryText_unspelled hsp]
  simp only
  rw [decodeLossy_encode]
  decide

example : (buildPackage richDeck richSettings).length > 40 := by decide

example : ∃ file, Repaired (fun _ => false) (written 0 c!"Talk" talkPages .none id fun _ => encode c!"<x/>") file ∧
    (opened file).map (·.title) = some c!"Talk" := by
  refine ⟨_, ⟨_, List.Perm.refl _, rfl⟩, ?_⟩
  rw [C148_same_partial (fun _ => false) 0 id _ rfl rfl (by decide) (by decide) (by decide) ?_ ?_ ⟨_, List.Perm.refl _, rfl⟩]
  · decide
  · exact talk_readable
  · intro q _
    rw [decodeLossy_encode]
    decide

example (d : Deck) (hd : d = .custom [⟨c!"T", .titleOnly, 0, false, [⟨none, some ⟨.email c!"a@b.c" none, some c!"rId9"⟩⟩],
    [], none, 0, 0, 0, false⟩]) : .brokenRelationship c!"ppt/slides/_rels/slide1.xml.rels" c!"ppt/slides/mailto:a@b.c" c!"rId9" ∈
    validate (Package.openReader ((buildPackage d .none).map fun e =>
      (e.name.path, entryBytes d .none id (fun _ => some c!"<x/>") (fun _ => []) e))) := by
  subst hd
  exact (C148_mail_violated (fun _ => false) _ .none ⟨rfl, by decide, by decide⟩ id _ _ 0 _ rfl (by decide) c!"rId9" c!"a@b.c" rfl
    (by decide) (by decide) (by rw [← containsStr_iff_infix]; decide)).1

/-- **C148.** A part is reported as without a content type exactly if the list of types has neither its name nor its extension, and it
is neither the list itself nor a list of relationships. -/
theorem C148_type_reported (p : Package) (path : Str) :
    .invalidContentType path ∈ validate p ↔ ∃ xml, p.getPartString c!"[Content_Types].xml" = some xml ∧ (p.getPart path).isSome ∧
      path ≠ c!"[Content_Types].xml" ∧ ¬ c!".rels" <:+ path ∧ ¬ (c!"PartName=\"/" ++ path ++ c!"\"") <:+: xml ∧
      ¬ (c!"Extension=\"" ++ lastDot path ++ c!"\"") <:+: xml := by
  have key : RepairIssue.invalidContentType path ∈ validate p ↔ .invalidContentType path ∈ checkContentTypes p := by
    unfold validate
    simp only [List.mem_append]
    constructor
    · rintro ((((h | h) | h) | h) | h)
      · simp [checkRequiredParts] at h
      · unfold checkXmlValidity at h
        obtain ⟨x, -, h⟩ := List.mem_flatMap.mp h
        split at h
        · split at h <;> simp at h
        · simp at h
      · have hfile : ∀ q, RepairIssue.invalidContentType path ∉ checkRelsFile p q := by
          intro q h
          unfold checkRelsFile at h
          split at h
          · cases h
          · obtain ⟨y, -, h⟩ := List.mem_flatMap.mp h
            unfold checkRelsLine at h
            split at h
            · split at h
              · cases h
              · simp only at h
                split at h
                · cases h
                · split at h <;> simp at h
            · cases h
        unfold checkRelationships at h
        simp only [List.mem_append] at h
        rcases h with (h | h) | h
        · exact absurd h (hfile _)
        · exact absurd h (hfile _)
        · obtain ⟨x, -, h⟩ := List.mem_flatMap.mp h
          exact absurd h (hfile _)
      · simp [checkSlideReferences] at h
      · exact h
    · exact .inr
  rw [key]
  unfold checkContentTypes
  cases hx : p.getPartString c!"[Content_Types].xml" with
  | none => simp
  | some xml =>
    simp only [List.mem_map, List.mem_filter, RepairIssue.invalidContentType.injEq, exists_eq_right, Option.some.injEq, exists_eq_left',
      lacksType, Bool.and_eq_true, decide_eq_true_eq, Bool.not_eq_true']
    rw [← containsStr_iff_infix, ← containsStr_iff_infix, ← endsWith_suffix]
    have : path ∈ p.partPaths ↔ (p.getPart path).isSome := (AMap.get_isSome_iff _ _).symm
    rw [this]
    simp only [Bool.not_eq_true]
    tauto

end PptRs.Props
