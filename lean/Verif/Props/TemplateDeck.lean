import Verif.Model.TemplateDeck
import Verif.Props.EditRepair

/-!
# C154: presentations made with a template
-/

namespace PptRs.Props

open PptRs PptRs.Spec PptRs.Reader PptRs.Import PptRs.Draw PptRs.Whole

/-! ### The parts of a template -/

theorem templateParts_foldl (p : Package) (l : List Str) (m : AMap Str Bytes) (path : Str) :
    AMap.get (l.foldl (templateStep p) m) path =
      if path ∈ l ∧ isTemplatePart path = true ∧ (p.getPart path).isSome then p.getPart path else AMap.get m path := by
  induction l generalizing m with
  | nil => simp
  | cons x l ih =>
    rw [List.foldl_cons, ih, templateStep]
    by_cases hl : path ∈ l ∧ isTemplatePart path = true ∧ (p.getPart path).isSome
    · rw [if_pos hl, if_pos ⟨List.mem_cons_of_mem _ hl.1, hl.2⟩]
    · rw [if_neg hl]
      by_cases hx : path = x
      · subst hx
        by_cases ht : isTemplatePart path = true
        · rw [if_pos ht]
          cases hg : p.getPart path with
          | none => simp
          | some d => simp [ht, AMap.get_insert]
        · rw [if_neg ht, if_neg (fun h => ht h.2.1)]
      · have : ¬ (path ∈ x :: l ∧ isTemplatePart path = true ∧ (p.getPart path).isSome) := by
          rintro ⟨h1, h2⟩
          rcases List.mem_cons.mp h1 with h | h
          · exact hx h
          · exact hl ⟨h, h2⟩
        rw [if_neg this]
        split
        · split
          · rw [AMap.get_insert, if_neg hx]
          · rfl
        · rfl

theorem templateParts_get (p : Package) (path : Str) :
    AMap.get (templateParts p) path = if isTemplatePart path = true then p.getPart path else none := by
  unfold templateParts
  rw [templateParts_foldl]
  by_cases ht : isTemplatePart path = true
  · cases hg : p.getPart path with
    | none => simp [AMap.get_nil]
    | some d =>
      have : path ∈ p.partPaths := (AMap.get_isSome_iff _ _).mp (Option.isSome_of_eq_some hg)
      simp [ht, this]
  · simp [ht, AMap.get_nil]

theorem ok_templateParts (p : Package) : AMap.Ok (templateParts p) := by
  unfold templateParts
  have : ∀ (l : List Str) (m : AMap Str Bytes), m.Ok → AMap.Ok (l.foldl (templateStep p) m) := by
    intro l
    induction l with
    | nil => exact fun m h => h
    | cons x l ih =>
      intro m h
      rw [List.foldl_cons]
      refine ih _ ?_
      unfold templateStep
      split
      · split
        · exact AMap.Ok.insert h _ _
        · exact h
      · exact h
  exact this _ _ (by simp [AMap.Ok])

theorem fromPackage_parts {p : Package} {t : PptxTemplate} (h : PptxTemplate.fromPackage p = some t) : t.parts = templateParts p := by
  unfold PptxTemplate.fromPackage at h
  simp only at h
  split at h
  · cases h; rfl
  · cases h

/-- **C154.** A file is a template exactly if it has a master. -/
theorem C154_accepted (p : Package) :
    (PptxTemplate.fromPackage p).isSome ↔ ∃ path, c!"ppt/slideMasters/" <+: path ∧ (p.getPart path).isSome := by
  have key : (PptxTemplate.fromPackage p).isSome ↔ ((templateParts p).keys.any fun x => startsWith c!"ppt/slideMasters/" x) = true := by
    unfold PptxTemplate.fromPackage
    simp only
    split <;> simp_all
  rw [key, List.any_eq_true]
  constructor
  · rintro ⟨x, hx, hs⟩
    have := (AMap.get_isSome_iff _ _).mpr hx
    rw [templateParts_get] at this
    split at this
    · exact ⟨x, startsWith_prefix.mp hs, this⟩
    · cases this
  · rintro ⟨x, hx, hs⟩
    refine ⟨x, (AMap.get_isSome_iff _ _).mp ?_, startsWith_prefix.mpr hx⟩
    rw [templateParts_get, if_pos (by unfold isTemplatePart; rw [startsWith_prefix.mpr hx]; simp)]
    exact hs

/-- **C154.** The number of layouts is that of the layout parts of the file, at least one. -/
theorem C154_layout_count {p : Package} (hok : AMap.Ok p) {t : PptxTemplate} (h : PptxTemplate.fromPackage p = some t) :
    t.layoutCount = max 1 (p.partPaths.countP fun x =>
      c!"ppt/slideLayouts/slideLayout" <+: x ∧ c!".xml" <:+ x ∧ ¬ c!"_rels" <:+: x) := by
  have hc : t.layoutCount = Nat.max ((templateParts p).keys.filter isLayoutPath).length 1 := by
    unfold PptxTemplate.fromPackage at h
    simp only at h
    split at h
    · cases h; rfl
    · cases h
  have hmem : ∀ x, x ∈ (templateParts p).keys ↔ x ∈ p.partPaths ∧ isTemplatePart x = true := by
    intro x
    have h1 : x ∈ (templateParts p).keys ↔ _ := (AMap.get_isSome_iff _ _).symm
    have h2 : x ∈ p.partPaths ↔ (p.getPart x).isSome := (AMap.get_isSome_iff _ _).symm
    rw [h1, h2, templateParts_get]
    split <;> simp_all
  have hp : (templateParts p).keys.Perm (p.partPaths.filter isTemplatePart) := by
    refine (List.perm_ext_iff_of_nodup (ok_templateParts p) (List.Nodup.filter _ hok)).mpr fun x => ?_
    rw [List.mem_filter]
    exact hmem x
  have hl : ((templateParts p).keys.filter isLayoutPath).length = p.partPaths.countP isLayoutPath := by
    rw [(hp.filter _).length_eq, List.filter_filter, List.countP_eq_length_filter]
    congr 1
    refine List.filter_congr fun x _ => ?_
    cases hx : isLayoutPath x with
    | false => rfl
    | true =>
      have : c!"ppt/slideLayouts/" <+: x := by
        unfold isLayoutPath at hx
        simp only [Bool.and_eq_true, startsWith_prefix] at hx
        exact List.IsPrefix.trans (by decide) hx.1.1
      unfold isTemplatePart
      rw [startsWith_prefix.mpr this]
      simp
  rw [hc, hl, show ∀ n, Nat.max n 1 = max 1 n from fun n => Nat.max_comm n 1]
  congr 1
  refine List.countP_congr fun x _ => ?_
  unfold isLayoutPath
  simp only [Bool.and_eq_true, startsWith_prefix, endsWith_suffix, Bool.not_eq_true', decide_eq_true_eq, ← containsStr_iff_infix,
    Bool.not_eq_true]
  tauto

/-- The layout of a slide, as the template resolves it and as the package builder does. -/
theorem C154_resolved {st : BuildSettings} {t : PptxTemplate} {entries : List (Str × Bytes)} (h : t.parts.Perm entries) (n : Nat) :
    resolveLayout (withTemplate st entries) n = t.resolveLayoutNumber n := by
  have : (entries.map (·.1)).contains (PartName.layout n).path = t.hasLayout n := by
    rw [Bool.eq_iff_iff, List.contains_iff_mem]
    unfold PptxTemplate.hasLayout
    rw [AMap.has_iff_mem]
    exact (h.map _).mem_iff.symm
  show (if (entries.map (·.1)).contains (PartName.layout n).path then n else 1) = if t.hasLayout n then n else 1
  rw [this]

/-! ### The archive -/

/-- The entries before and after those of the template. -/
def beforeTheme (d : Deck) (st : BuildSettings) : List Entry :=
  let count := d.count
  let notes := hasNotes d.slides
  let fonts := prepareFonts st count notes
  let starts := chartStarts 0 d.slides
  [⟨.contentTypes, .contentTypes (contentTypesPart d st)⟩,
   ⟨.rootRels, .rels (rootRels st.signature)⟩,
   ⟨.presRels, .rels (presentationRelsWithFonts count notes st.handout (fonts.getD []))⟩,
   ⟨.presentation, .presentation (presentationXml count notes st.handout (fonts.getD []))⟩] ++
  standardParts ++
  (if st.handout then handoutParts else []) ++
  writeSlides d ++
  writeSlideRels d st starts ++
  (if notes then writeNotesRelsFrom 0 0 d.slides ++ notesMasterParts else [])

def afterTheme (d : Deck) (st : BuildSettings) : List Entry :=
  [⟨.core, .other⟩, ⟨.app, .other⟩] ++
  ((if totalCharts d.slides > 0 then writeChartsFrom (chartStarts 0 d.slides) d.slides else []) ++
  (writeImagesFrom 0 (buildMediaRegistry d.slides).files ++
  (fontParts ((prepareFonts st d.count (hasNotes d.slides)).getD []) ++
  (if st.signature then signatureParts else []))))

theorem buildPackage_split (d : Deck) (st : BuildSettings) :
    buildPackage d st = beforeTheme d st ++ (themeAndLayoutParts st ++ afterTheme d st) := by
  simp only [buildPackage, beforeTheme, afterTheme, List.append_assoc]

theorem names_slideRels (st st' : BuildSettings) (r : MediaRegistry) (i n k : Nat) (starts : List Nat) (l : List SlideIn) :
    names (writeSlideRelsFrom st r i n k starts l) = names (writeSlideRelsFrom st' r i n k starts l) := by
  induction l generalizing i n k starts with
  | nil => rfl
  | cons s l ih =>
    rw [writeSlideRelsFrom, writeSlideRelsFrom]
    show _ :: names _ = _ :: names _
    rw [ih]
    rfl

theorem names_before (d : Deck) (st : BuildSettings) (entries : List (Str × Bytes)) :
    names (beforeTheme d (withTemplate st entries)) = names (beforeTheme d { st with template := none }) := by
  unfold beforeTheme
  simp only [names, List.map_append]
  have : (writeSlideRels d (withTemplate st entries) (chartStarts 0 d.slides)).map (·.name) =
      (writeSlideRels d { st with template := none } (chartStarts 0 d.slides)).map (·.name) := by
    cases d with
    | plain n => rfl
    | custom l => exact names_slideRels _ _ _ _ _ _ _ _
  rw [this]
  rfl

theorem after_same (d : Deck) (st : BuildSettings) (entries : List (Str × Bytes)) :
    afterTheme d (withTemplate st entries) = afterTheme d { st with template := none } := rfl

/-- The names of the parts that are written after the theme. -/
def LatePart : PartName → Prop
  | .core | .app | .chart _ | .chartRels _ | .embedding _ | .media _ _ | .font _ | .sigOrigin | .sig => True
  | _ => False

theorem late_plain {q : PartName} (h : LatePart q) : isTemplatePart q.path = false := by
  cases q <;> first | exact False.elim h | rfl

theorem late_charts {starts : List Nat} {l : List SlideIn} {e : Entry} (h : e ∈ writeChartsFrom starts l) : LatePart e.name := by
  induction l generalizing starts with
  | nil => simp [writeChartsFrom] at h
  | cons s l ih =>
    rw [writeChartsFrom, List.mem_append] at h
    rcases h with h | h
    · obtain ⟨n, -, h⟩ := List.mem_flatMap.mp h
      simp only [chartParts, List.mem_cons, List.not_mem_nil, or_false] at h
      rcases h with rfl | rfl | rfl <;> trivial
    · exact ih h

theorem late_images {i : Nat} {l : List (List UInt8 × Str)} {e : Entry} (h : e ∈ writeImagesFrom i l) : LatePart e.name := by
  induction l generalizing i with
  | nil => simp [writeImagesFrom] at h
  | cons s l ih =>
    rw [writeImagesFrom, List.mem_cons] at h
    rcases h with rfl | h
    · trivial
    · exact ih h

/-- Parts after the theme are not parts of a template. -/
theorem after_plain {d : Deck} {st : BuildSettings} {e : Entry} (h : e ∈ afterTheme d st) : isTemplatePart e.name.path = false := by
  refine late_plain ?_
  unfold afterTheme at h
  simp only [List.mem_append] at h
  rcases h with h | h | h | h | h
  · simp only [List.mem_cons, List.not_mem_nil, or_false] at h
    rcases h with rfl | rfl <;> trivial
  · split at h
    · exact late_charts h
    · cases h
  · exact late_images h
  · obtain ⟨f, -, rfl⟩ := List.mem_map.mp h
    trivial
  · split at h
    · simp only [signatureParts, List.mem_cons, List.not_mem_nil, or_false] at h
      rcases h with rfl | rfl <;> trivial
    · cases h

/-! ### The last entry of a name -/

theorem lastEntry_append (path : Str) (a b : List (Str × Bytes)) :
    lastEntry path (a ++ b) = (lastEntry path b).or (lastEntry path a) := by
  unfold lastEntry
  rw [List.filter_append, List.getLast?_append]
  cases (b.filter fun e => decide (e.1 = path)).getLast? <;> simp

theorem lastEntry_none {path : Str} {a : List (Str × Bytes)} (h : path ∉ a.map (·.1)) : lastEntry path a = none := by
  unfold lastEntry
  have : a.filter (fun e => e.1 = path) = [] := by
    rw [List.filter_eq_nil_iff]
    intro x hx
    have : x.1 ≠ path := fun e => h (e ▸ List.mem_map.mpr ⟨x, hx, rfl⟩)
    simpa using this
  rw [this]
  rfl

theorem lastEntry_filter {path : Str} (q : Str → Bool) (hq : q path = true) (a : List (Str × Bytes)) :
    lastEntry path (a.filter fun e => q e.1) = lastEntry path a := by
  unfold lastEntry
  rw [List.filter_filter]
  congr 2
  refine List.filter_congr fun x _ => ?_
  by_cases h : x.1 = path
  · simp [h, hq]
  · simp [h]

theorem lastEntry_once {path : Str} {a : List (Str × Bytes)} (q : Str → Bool) (hq : q path = true) (hn : ((a.map (·.1)).filter q).Nodup)
    {b : Bytes} (hm : (path, b) ∈ a) (hd : Package.isDirName path = false) : lastEntry path a = some b := by
  rw [← lastEntry_filter q hq]
  have h1 : ((a.filter fun e => q e.1).map (·.1)).Nodup := by
    rw [List.filter_map] at hn
    exact hn
  have h2 : (path, b) ∈ a.filter fun e => q e.1 := List.mem_filter.mpr ⟨hm, hq⟩
  rw [← C05_open_last_entry _ path hd]
  exact opened_part h1 h2 hd

theorem lastEntry_get {entries : List (Str × Bytes)} (hok : AMap.Ok entries) {path : Str} (hd : Package.isDirName path = false) :
    lastEntry path entries = AMap.get entries path := by
  have := saved_part hok (List.Perm.refl _) hd
  rw [saveWriter_eq, C05_open_last_entry entries path hd] at this
  exact this

theorem map_get_self {entries : List (Str × Bytes)} (hok : AMap.Ok entries) :
    entries.map (fun x => (x.1, (AMap.get entries x.1).getD [])) = entries := by
  have : ∀ x ∈ entries, AMap.get entries x.1 = some x.2 := by
    intro x hx
    induction entries with
    | nil => cases hx
    | cons e l ih =>
      have hn : e.1 ∉ l.map (·.1) ∧ AMap.Ok l := List.nodup_cons.mp hok
      rw [AMap.get_cons]
      rcases List.mem_cons.mp hx with rfl | hx
      · simp
      · rw [if_neg (fun e' : e.1 = x.1 => hn.1 (e' ▸ List.mem_map.mpr ⟨x, hx, rfl⟩)), ih hn.2 hx]
  conv_rhs => rw [← List.map_id entries]
  refine List.map_congr_left fun x hx => ?_
  rw [this x hx]
  rfl

/-! ### What the file has -/

/-- An archive made with the parts of a template, any deck. -/
def templateArchive (d : Deck) (st : BuildSettings) (entries : List (Str × Bytes)) (f : Entry → Bytes) : List (Str × Bytes) :=
  (buildPackage d (withTemplate st entries)).map fun e => (e.name.path, f e)

theorem templateArchive_split (d : Deck) (st : BuildSettings) {entries : List (Str × Bytes)} (hok : AMap.Ok entries) {f : Entry → Bytes}
    (hf : ∀ path, f ⟨.templatePart path, .other⟩ = (AMap.get entries path).getD []) :
    templateArchive d st entries f = (beforeTheme d (withTemplate st entries)).map (fun e => (e.name.path, f e)) ++
      (entries ++ ((if st.theme then [((PartName.theme 1).path, f ⟨.theme 1, .other⟩)] else []) ++
        (afterTheme d (withTemplate st entries)).map fun e => (e.name.path, f e))) := by
  have ht : (themeAndLayoutParts (withTemplate st entries)).map (fun e => (e.name.path, f e)) =
      entries ++ (if st.theme then [((PartName.theme 1).path, f ⟨.theme 1, .other⟩)] else []) := by
    unfold themeAndLayoutParts withTemplate
    simp only [List.map_append, List.map_map]
    congr 1
    · conv_rhs => rw [← map_get_self hok]
      refine List.map_congr_left fun x _ => ?_
      simp only [Function.comp_apply, hf]
      rfl
    · cases st.theme <;> rfl
  unfold templateArchive
  rw [buildPackage_split, List.map_append, List.map_append, ht, List.append_assoc]

theorem after_absent {d : Deck} {st : BuildSettings} {f : Entry → Bytes} {path : Str} (h : isTemplatePart path = true) :
    path ∉ ((afterTheme d st).map fun e => (e.name.path, f e)).map (·.1) := by
  rw [List.map_map, List.mem_map]
  rintro ⟨e, he, rfl⟩
  have := after_plain he
  simp only [Function.comp_apply] at h
  rw [this] at h
  cases h

/-- The parts of the template are in the file. -/
theorem template_kept (d : Deck) {st : BuildSettings} {entries : List (Str × Bytes)} (hok : AMap.Ok entries) {f : Entry → Bytes}
    (hf : ∀ path, f ⟨.templatePart path, .other⟩ = (AMap.get entries path).getD []) {path : Str} {b : Bytes}
    (hp : isTemplatePart path = true) (hd : Package.isDirName path = false) (hg : AMap.get entries path = some b)
    (ht : st.theme = false ∨ path ≠ (PartName.theme 1).path) :
    (Package.openReader (templateArchive d st entries f)).getPart path = some b := by
  rw [C05_open_last_entry _ _ hd, templateArchive_split d st hok hf, lastEntry_append, lastEntry_append, lastEntry_append,
    lastEntry_none (after_absent hp), lastEntry_get hok hd, hg]
  have : lastEntry path (if st.theme then [((PartName.theme 1).path, f ⟨.theme 1, .other⟩)] else []) = none := by
    refine lastEntry_none ?_
    split
    · rcases ht with ht | ht
      · simp_all
      · simpa using ht
    · simp
  rw [this]
  rfl

theorem template_theme (d : Deck) {st : BuildSettings} {entries : List (Str × Bytes)} (hok : AMap.Ok entries) {f : Entry → Bytes}
    (hf : ∀ path, f ⟨.templatePart path, .other⟩ = (AMap.get entries path).getD []) (ht : st.theme = true) :
    (Package.openReader (templateArchive d st entries f)).getPart (PartName.theme 1).path = some (f ⟨.theme 1, .other⟩) := by
  have hd : Package.isDirName (PartName.theme 1).path = false := by decide
  rw [C05_open_last_entry _ _ hd, templateArchive_split d st hok hf, lastEntry_append, lastEntry_append, lastEntry_append,
    lastEntry_none (after_absent (by decide)), ht]
  rfl

theorem template_names {d : Deck} {st : BuildSettings} {entries : List (Str × Bytes)} {f : Entry → Bytes}
    (hall : ∀ e ∈ entries, isTemplatePart e.1 = true) :
    (((templateArchive d st entries f).map (·.1)).filter fun x => !isTemplatePart x).Sublist
      ((buildPackage d { st with template := none }).map (·.name.path)) := by
  have e1 : (templateArchive d st entries f).map (·.1) = (beforeTheme d { st with template := none }).map (·.name.path) ++
      ((themeAndLayoutParts (withTemplate st entries)).map (·.name.path) ++ (afterTheme d { st with template := none }).map (·.name.path)) := by
    unfold templateArchive
    rw [buildPackage_split, List.map_map, List.map_append, List.map_append, after_same]
    congr 1
    have := congrArg (List.map PartName.path) (names_before d st entries)
    rw [names, names, List.map_map, List.map_map] at this
    exact this
  have e2 : ((themeAndLayoutParts (withTemplate st entries)).map (·.name.path)).filter (fun x => !isTemplatePart x) = [] := by
    rw [List.filter_eq_nil_iff]
    intro x hx
    obtain ⟨e, he, rfl⟩ := List.mem_map.mp hx
    unfold themeAndLayoutParts withTemplate at he
    simp only [List.mem_append, List.map_map, List.mem_map, Function.comp_apply] at he
    rcases he with ⟨y, hy, rfl⟩ | he
    · simp [PartName.path, hall y hy]
    · split at he
      · simp only [List.mem_singleton] at he
        rw [he]
        decide
      · cases he
  rw [e1, List.filter_append, List.filter_append, e2, List.nil_append, buildPackage_split, List.map_append, List.map_append]
  exact List.Sublist.append List.filter_sublist (List.Sublist.trans List.filter_sublist (List.sublist_append_right _ _))

/-- The other parts are those of the deck. -/
theorem template_other {d : Deck} {st : BuildSettings} {entries : List (Str × Bytes)} {f : Entry → Bytes}
    (hn : ((st.fonts.getD []).map (·.fileName)).Nodup) (hall : ∀ e ∈ entries, isTemplatePart e.1 = true) {e : Entry}
    (he : e ∈ buildPackage d (withTemplate st entries)) (hp : isTemplatePart e.name.path = false)
    (hd : Package.isDirName e.name.path = false) :
    (Package.openReader (templateArchive d st entries f)).getPart e.name.path = some (f e) := by
  rw [C05_open_last_entry _ _ hd]
  refine lastEntry_once (fun x => !isTemplatePart x) (by simp [hp]) ?_ (List.mem_map.mpr ⟨e, he, rfl⟩) hd
  exact List.Nodup.sublist (template_names hall) (C31_no_duplicates_partial d _ rfl hn)

/-- No other part of the template is in the file. -/
theorem template_dropped {d : Deck} {st : BuildSettings} {entries : List (Str × Bytes)} {f : Entry → Bytes}
    (hall : ∀ e ∈ entries, isTemplatePart e.1 = true) {path : Str} (hp : isTemplatePart path = false)
    (hno : path ∉ (expectedParts d { st with template := none }).map PartName.path) (hd : Package.isDirName path = false) :
    (Package.openReader (templateArchive d st entries f)).getPart path = none := by
  rw [C05_open_last_entry _ _ hd, lastEntry_none]
  intro hc
  have h1 : path ∈ (((templateArchive d st entries f).map (·.1)).filter fun x => !isTemplatePart x) :=
    List.mem_filter.mpr ⟨hc, by simp [hp]⟩
  obtain ⟨e, he, e1⟩ := List.mem_map.mp ((template_names hall).subset h1)
  exact hno (List.mem_map.mpr ⟨e.name, (mem_names rfl).mp (List.mem_map.mpr ⟨e, he, rfl⟩), e1⟩)

/-! ### Presentations made with a template -/

theorem entries_facts {base : List (Str × Bytes)} {t : PptxTemplate} {entries : List (Str × Bytes)}
    (h1 : PptxTemplate.fromPackage (Package.openReader base) = some t) (h2 : t.parts.Perm entries) :
    AMap.Ok entries ∧ (∀ path, AMap.get entries path = if isTemplatePart path = true then (Package.openReader base).getPart path else none) ∧
      (∀ e ∈ entries, isTemplatePart e.1 = true) := by
  rw [fromPackage_parts h1] at h2
  have hok := ok_templateParts (Package.openReader base)
  have hget : ∀ path, AMap.get entries path = if isTemplatePart path = true then (Package.openReader base).getPart path else none := by
    intro path
    rw [← AMap.get_perm hok h2, templateParts_get]
  refine ⟨(h2.map _).nodup_iff.mp hok, hget, ?_⟩
  intro e he
  have hk : (AMap.get entries e.1).isSome := (AMap.get_isSome_iff _ _).mpr (List.mem_map.mpr ⟨e, he, rfl⟩)
  rw [hget] at hk
  split at hk
  · assumption
  · cases hk

theorem fromTemplate_archive {base : List (Str × Bytes)} {secs : Nat} {title : Str} {l : List PageIn} {st : BuildSettings}
    {desc : Str → Str} {other : PartName → Bytes} {file : List (Str × Bytes)} (h : FromTemplate base secs title l st desc other file) :
    ∃ entries, AMap.Ok entries ∧
      (∀ path, AMap.get entries path = if isTemplatePart path = true then (Package.openReader base).getPart path else none) ∧
      (∀ e ∈ entries, isTemplatePart e.1 = true) ∧
      file = templateArchive (deckOf l) st entries (entryBytes (deckOf l) (withTemplate st entries) desc (pageTexts secs title l)
        (templateBytes entries other)) := by
  obtain ⟨t, entries, h1, h2, rfl⟩ := h
  obtain ⟨g1, g2, g3⟩ := entries_facts h1 h2
  exact ⟨entries, g1, g2, g3, rfl⟩

/-- **C154.** Every theme, master and layout of the template, and everything that belongs to them, is in the file as it is in the
template. A theme that is asked for replaces the first one. -/
theorem C154_look {base : List (Str × Bytes)} {secs : Nat} {title : Str} {l : List PageIn} {st : BuildSettings}
    {desc : Str → Str} {other : PartName → Bytes} {file : List (Str × Bytes)} (h : FromTemplate base secs title l st desc other file)
    {path : Str} {b : Bytes}
    (hp : c!"ppt/theme/" <+: path ∨ c!"ppt/slideMasters/" <+: path ∨ c!"ppt/slideLayouts/" <+: path ∨ path = c!"ppt/tableStyles.xml")
    (hb : (Package.openReader base).getPart path = some b) (ht : st.theme = false ∨ path ≠ c!"ppt/theme/theme1.xml") :
    (Package.openReader file).getPart path = some b := by
  have hp' : isTemplatePart path = true := by
    unfold isTemplatePart
    simp only [Bool.or_eq_true, startsWith_prefix, beq_iff_eq]
    tauto
  obtain ⟨entries, g1, g2, g3, rfl⟩ := fromTemplate_archive h
  refine template_kept _ g1 (fun _ => rfl) hp' (openReader_notDir (Option.isSome_of_eq_some hb)) ?_ ht
  rw [g2, if_pos hp', hb]

/-- **C154.** A theme that is asked for is the first theme of the file. -/
theorem C154_theme {base : List (Str × Bytes)} {secs : Nat} {title : Str} {l : List PageIn} {st : BuildSettings}
    {desc : Str → Str} {other : PartName → Bytes} {file : List (Str × Bytes)} (h : FromTemplate base secs title l st desc other file)
    (ht : st.theme = true) : (Package.openReader file).getPart c!"ppt/theme/theme1.xml" = some (other (.theme 1)) := by
  obtain ⟨entries, g1, g2, g3, rfl⟩ := fromTemplate_archive h
  exact template_theme _ g1 (fun _ => rfl) ht

theorem slide_unthemed (n : Nat) : isTemplatePart (PartName.slide n).path = false := rfl

/-- **C154.** The file is opened as the presentation it was written from, whatever the template shows. -/
theorem C154_opened_partial {base : List (Str × Bytes)} {secs : Nat} {title : Str} {l : List PageIn} {st : BuildSettings}
    {desc : Str → Str} {other : PartName → Bytes} {file : List (Str × Bytes)} (h : FromTemplate base secs title l st desc other file)
    (hf : st.fonts = none) (h0 : l ≠ []) (hn : l.length + 1 < 4294967296) (hs : Readable l) (h1 : '&' ∉ title) (h2 : '<' ∉ title) :
    opened file = some { title := visible title, slides := l.map fun s => expectedSlide s.text } := by
  have hfn : ((st.fonts.getD []).map (·.fileName)).Nodup := by rw [hf]; simp
  have hc : (deckOf l).count = l.length := by simp [deckOf, Deck.count]
  obtain ⟨entries, g1, g2, g3, rfl⟩ := fromTemplate_archive h
  unfold opened
  generalize hp : Package.openReader _ = p
  have part : ∀ e ∈ buildPackage (deckOf l) (withTemplate st entries), Package.isDirName e.name.path = false →
      isTemplatePart e.name.path = false → ∀ t,
      entryText (deckOf l) (withTemplate st entries) desc (pageTexts secs title l) e = some t →
      p.getPart e.name.path = some (encode t) := by
    intro e he hd hq t hx
    have := template_other (f := entryBytes (deckOf l) (withTemplate st entries) desc (pageTexts secs title l)
        (templateBytes entries other)) hfn g3 he hq hd
    rw [hp] at this
    rw [this, entryBytes, hx]
  have hcore := part _ (mem_buildPackage_core (deckOf l) _) (by decide) (by decide) _ rfl
  have hrel := part _ (mem_buildPackage_presRels (deckOf l) (withTemplate st entries) hf)
    (show Package.isDirName PartName.presRels.path = false by decide) (show isTemplatePart PartName.presRels.path = false by decide) _ rfl
  have hslide : ∀ i (hi : i < (l.map PageIn.text).length),
      p.getPart (c!"ppt/slides/slide" ++ dec (i + 1) ++ c!".xml") = some (encode (l.map PageIn.text)[i].xml) := by
    intro i hi
    have hi' : i < l.length := by simpa using hi
    obtain ⟨x, hx⟩ := mem_buildPackage_slide (withTemplate st entries) hi'
    exact part _ hx (slide_notDir _) (slide_unthemed _) _ (by simp [entryText, pageTexts, hi'])
  have hr : relsPartText (deckOf l) (withTemplate st entries)
      (presentationRels (deckOf l).count (hasNotes (deckOf l).slides) st.handout) .presRels =
      renderRels (presentationRels (l.map PageIn.text).length (hasNotes (deckOf l).slides) st.handout) := by
    have : (withTemplate st entries).handout = st.handout := rfl
    simp only [relsPartText, renderRelsWith, renderRels, hc, List.length_map, this, List.take_length, List.drop_length, List.flatMap_nil,
      List.append_nil]
    simp
  have := C111_deck_partial p (l.map PageIn.text) (hasNotes (deckOf l).slides) st.handout (by simpa using h0) (by simpa using hn)
    (by rw [← hr]; exact hrel) hslide (by
      intro s hs'
      obtain ⟨x, hx, rfl⟩ := List.mem_map.mp hs'
      exact hs x hx)
  rw [this, coreInfo_written h2 hcore, List.map_map, openedTitle_plain h1 h2]
  rfl

theorem mem_buildPackage_slideRels {l : List SlideIn} (st : BuildSettings) {j : Nat} (hj : j < l.length) :
    ∃ rs, (⟨.slideRels (j + 1), .rels rs⟩ : Entry) ∈ buildPackage (.custom l) st := by
  have key : ∃ rs, (⟨.slideRels (j + 1), .rels rs⟩ : Entry) ∈ writeSlideRels (.custom l) st (chartStarts 0 l) := by
    have := (mem_writeSlideRelsFrom (st := st) (r := buildMediaRegistry l) (i := 0) (n := 0) (k := 0) (t := 0)).mpr
      ⟨j, l[j], List.getElem?_eq_getElem hj, rfl⟩
    rw [slideRelsEntry, Nat.zero_add j] at this
    exact ⟨_, this⟩
  obtain ⟨rs, h⟩ := key
  refine ⟨rs, ?_⟩
  unfold buildPackage
  simp only [List.mem_append]
  exact .inl (.inl (.inl (.inl (.inl (.inl (.inl (.inr h)))))))

theorem slideRels_notDir (i : Nat) : Package.isDirName (PartName.slideRels i).path = false := by
  have : (PartName.slideRels i).path.getLast? = some 's' := by
    simp only [PartName.path]
    rw [List.getLast?_append]
    rfl
  rw [Package.isDirName, this]
  rfl

theorem layout_prefix (n : Nat) : c!"ppt/slideLayouts/" <+: (PartName.layout n).path :=
  ⟨c!"slideLayout" ++ dec n ++ c!".xml", by simp [PartName.path]⟩

theorem layout_template (n : Nat) : isTemplatePart (PartName.layout n).path = true := by
  unfold isTemplatePart
  rw [startsWith_prefix.mpr (layout_prefix n)]
  simp

theorem layout_ne_theme (n : Nat) : (PartName.layout n).path ≠ c!"ppt/theme/theme1.xml" := by
  intro e
  have := layout_prefix n
  rw [e] at this
  exact absurd this (by decide)

/-- **C154.** If the template has a first layout, the relationships of each slide lead to a layout of the template, and to the one
asked for if the template has it. -/
theorem C154_layout_partial {base : List (Str × Bytes)} {secs : Nat} {title : Str} {l : List PageIn} {st : BuildSettings}
    {desc : Str → Str} {other : PartName → Bytes} {file : List (Str × Bytes)} (h : FromTemplate base secs title l st desc other file)
    (hf : ((st.fonts.getD []).map (·.fileName)).Nodup)
    (h1 : ((Package.openReader base).getPart c!"ppt/slideLayouts/slideLayout1.xml").isSome) {j : Nat} (hj : j < l.length) :
    ∃ rs r q, (Package.openReader file).getPartString (PartName.slideRels (j + 1)).path = some (renderRels rs) ∧
      relById rs c!"rId1" = some r ∧ r.type = relTypeBase ++ c!"slideLayout" ∧ leadsTo (.slideRels (j + 1)) r = some q ∧
      c!"ppt/slideLayouts/" <+: q ∧ ((Package.openReader base).getPart q).isSome ∧
      (Package.openReader file).getPart q = (Package.openReader base).getPart q ∧
      (((Package.openReader base).getPart (PartName.layout l[j].text.layout.layoutNumber).path).isSome →
        q = (PartName.layout l[j].text.layout.layoutNumber).path) := by
  have h0 := h
  obtain ⟨entries, g1, g2, g3, rfl⟩ := fromTemplate_archive h
  obtain ⟨rs, hm⟩ := mem_buildPackage_slideRels (l := l.map PageIn.slideIn) (withTemplate st entries) (j := j) (by simpa using hj)
  have hsj : (deckOf l).slides[j]? = some l[j].slideIn := by simp [deckOf, Deck.slides, hj]
  obtain ⟨⟨r, e1, e2, e3⟩, -⟩ := C28_layout_and_notes (deckOf l) (withTemplate st entries) j l[j].slideIn rs hsj hm
  have hhas : ∀ n, (entries.map (·.1)).contains (PartName.layout n).path = true ↔
      ((Package.openReader base).getPart (PartName.layout n).path).isSome := by
    intro n
    have : (PartName.layout n).path ∈ AMap.keys entries ↔ _ := (AMap.get_isSome_iff entries (PartName.layout n).path).symm
    rw [g2, if_pos (layout_template n)] at this
    rw [List.contains_iff_mem, ← this]
    rfl
  have hn : ((Package.openReader base).getPart (PartName.layout (resolveLayout (withTemplate st entries)
      l[j].slideIn.layout.layoutNumber)).path).isSome := by
    unfold resolveLayout withTemplate
    simp only
    split
    · rename_i hc
      exact (hhas _).mp hc
    · exact h1
  obtain ⟨b, hb⟩ := Option.isSome_iff_exists.mp hn
  refine ⟨rs, r, _, ?_, e1, e2, e3, ?_, hn, ?_, ?_⟩
  · have := template_other (d := deckOf l) (f := entryBytes (deckOf l) (withTemplate st entries) desc (pageTexts secs title l)
        (templateBytes entries other)) hf g3 hm (show isTemplatePart (PartName.slideRels (j + 1)).path = false from rfl)
        (slideRels_notDir _)
    unfold Package.getPartString
    rw [this, Option.map_some]
    show some (decodeLossy (encode _)) = _
    rw [decodeLossy_encode]
    rfl
  · exact layout_prefix _
  · rw [hb]
    exact C154_look h0 (.inr (.inr (.inl (layout_prefix _)))) hb (.inr (layout_ne_theme _))
  · intro hreq
    congr 2
    unfold resolveLayout withTemplate
    exact if_pos ((hhas _).mpr hreq)

theorem written_has {secs : Nat} {title : Str} {l : List PageIn} {st : BuildSettings} {desc : Str → Str} {other : PartName → Bytes}
    (ht : st.template = none) (hf : st.fonts = none) {q : PartName} (hq : q ∈ expectedParts (deckOf l) st) :
    ((Package.openReader (written secs title l st desc other)).getPart q.path).isSome := by
  have ho := (deckOf_fine (l := l) ht hf).openable
  obtain ⟨b, hb, -⟩ := entry_of_expected ho hq
  change ((generated (deckOf l) st (entryBytes (deckOf l) st desc (pageTexts secs title l) other)).getPart
    (⟨q, b⟩ : Entry).name.path).isSome
  rw [generated_get ho hb]
  rfl

theorem layoutNumber_standard (x : SlideLayout) : PartName.layout x.layoutNumber ∈ (List.range' 1 7).map PartName.layout := by
  cases x <;> decide

/-- **C154.** With a file of this library as the template every slide gets the layout it asks for, as it is in the template. -/
theorem C154_own {secs0 : Nat} {title0 : Str} {l0 : List PageIn} {st0 : BuildSettings} {desc0 : Str → Str} {other0 : PartName → Bytes}
    (ht0 : st0.template = none) (hf0 : st0.fonts = none) (secs : Nat) (title : Str) (l : List PageIn) (st : BuildSettings)
    (desc : Str → Str) (other : PartName → Bytes) (hf : ((st.fonts.getD []).map (·.fileName)).Nodup) :
    let base := written secs0 title0 l0 st0 desc0 other0
    (∃ file, FromTemplate base secs title l st desc other file) ∧
    ∀ file, FromTemplate base secs title l st desc other file → ∀ j (hj : j < l.length),
      let q := (PartName.layout l[j].text.layout.layoutNumber).path
      ∃ rs r, (Package.openReader file).getPartString (PartName.slideRels (j + 1)).path = some (renderRels rs) ∧
        relById rs c!"rId1" = some r ∧ r.type = relTypeBase ++ c!"slideLayout" ∧ leadsTo (.slideRels (j + 1)) r = some q ∧
        ((Package.openReader file).getPart q).isSome ∧ (Package.openReader file).getPart q = (Package.openReader base).getPart q := by
  intro base
  have has : ∀ q ∈ expectedParts (deckOf l0) st0, ((Package.openReader base).getPart q.path).isSome := fun q hq => written_has ht0 hf0 hq
  clear_value base
  constructor
  · obtain ⟨t, ht⟩ := Option.isSome_iff_exists.mp ((C154_accepted (Package.openReader base)).mpr
      ⟨PartName.master.path, by decide, has _ (by simp [expectedParts])⟩)
    exact ⟨_, t, t.parts, ht, List.Perm.refl _, rfl⟩
  · intro file h j hj q
    have hlay : ∀ x : SlideLayout, ((Package.openReader base).getPart (PartName.layout x.layoutNumber).path).isSome := by
      intro x
      refine has _ ?_
      have := layoutNumber_standard x
      unfold expectedParts
      simp only [List.mem_append]
      tauto
    have h1 := has (.layout 1) (by simp [expectedParts])
    rw [show (PartName.layout 1).path = c!"ppt/slideLayouts/slideLayout1.xml" by decide] at h1
    obtain ⟨rs, r, q', e1, e2, e3, e4, e5, e6, e7, e8⟩ := C154_layout_partial h hf h1 hj
    have := e8 (hlay _)
    subst this
    exact ⟨rs, r, e1, e2, e3, e4, by rw [e7]; exact e6, e7⟩

/-! ### What is left out -/

/-- **C154 does not hold in full.** The table styles of a template, which every file of this library has, are written next to those of
the new deck, so the file has two entries with the same name. -/
theorem C154_twice_violated {base : List (Str × Bytes)} {secs : Nat} {title : Str} {l : List PageIn} {st : BuildSettings}
    {desc : Str → Str} {other : PartName → Bytes} {file : List (Str × Bytes)} (h : FromTemplate base secs title l st desc other file)
    (hb : ((Package.openReader base).getPart c!"ppt/tableStyles.xml").isSome) :
    2 ≤ (file.map (·.1)).count c!"ppt/tableStyles.xml" := by
  obtain ⟨entries, g1, g2, g3, rfl⟩ := fromTemplate_archive h
  rw [templateArchive_split _ _ g1 (fun _ => rfl), List.map_append, List.map_append, List.count_append, List.count_append]
  have h1 : c!"ppt/tableStyles.xml" ∈ ((beforeTheme (deckOf l) (withTemplate st entries)).map fun e => (e.name.path,
      entryBytes (deckOf l) (withTemplate st entries) desc (pageTexts secs title l) (templateBytes entries other) e)).map (·.1) := by
    rw [List.map_map, List.mem_map]
    refine ⟨⟨.tableStyles, .other⟩, ?_, rfl⟩
    unfold beforeTheme
    simp only [List.mem_append]
    exact .inl (.inl (.inl (.inl (.inr (by simp [standardParts])))))
  have h2 : c!"ppt/tableStyles.xml" ∈ entries.map (·.1) := by
    refine (AMap.get_isSome_iff entries _).mp ?_
    rw [g2, if_pos (by decide)]
    exact hb
  have := List.count_pos_iff.mpr h1
  have := List.count_pos_iff.mpr h2
  omega

theorem media_unexpected {l : List PageIn} {st : BuildSettings} {path : Str} (h : c!"ppt/media/" <+: path) :
    path ∉ (expectedParts (deckOf l) st).map PartName.path := by
  intro hc
  obtain ⟨q, hq, rfl⟩ := List.mem_map.mp hc
  have ho := expectedParts_own _ st q hq
  have hs := startsWith_prefix.mpr h
  have himg : distinctImages (deckOf l).slides = [] := by
    have : allImages (deckOf l).slides = [] := by
      unfold allImages
      rw [List.flatMap_eq_nil_iff]
      intro s hs
      simp only [deckOf, Deck.slides, List.mem_map] at hs
      obtain ⟨x, -, rfl⟩ := hs
      rfl
    rw [distinctImages, this]
    rfl
  cases q
  case templatePart => exact ho
  case media n ext =>
    simp only [expectedParts, himg, mediaParts, List.zipIdx_nil, List.map_nil] at hq
    split at hq <;> split at hq <;> split at hq <;> simp at hq
  all_goals exact absurd hs (Bool.eq_false_iff.mp rfl)

/-- **C154 does not hold in full.** The pictures of a master are lost: its relationships are in the file as they are in the template,
but the pictures they lead to are not, because only themes, masters, layouts and table styles are taken from a template. -/
theorem C154_pictures_violated {base : List (Str × Bytes)} {secs : Nat} {title : Str} {l : List PageIn} {st : BuildSettings}
    {desc : Str → Str} {other : PartName → Bytes} {file : List (Str × Bytes)} (h : FromTemplate base secs title l st desc other file)
    {rels : Bytes} (hb : (Package.openReader base).getPart c!"ppt/slideMasters/_rels/slideMaster1.xml.rels" = some rels)
    {picture : Str} (hp : c!"ppt/media/" <+: picture) :
    (Package.openReader file).getPart c!"ppt/slideMasters/_rels/slideMaster1.xml.rels" = some rels ∧
      (Package.openReader file).getPart picture = none := by
  refine ⟨C154_look h (.inr (.inl (by decide))) hb (.inr (by decide)), ?_⟩
  obtain ⟨entries, g1, g2, g3, rfl⟩ := fromTemplate_archive h
  by_contra hc
  have hd := openReader_notDir (Option.isSome_iff_ne_none.mpr hc)
  refine hc (template_dropped g3 ?_ (media_unexpected hp) hd)
  obtain ⟨t, rfl⟩ := hp
  rfl

/-- **C154 does not hold in full.** Layouts of a template beyond the seventh (the templates of PowerPoint have eleven) are copied, but the
list of content types has none for them: they are plain XML. -/
theorem C154_types_violated (d : Deck) (st : BuildSettings) {n : Nat} (hn : 7 < n) :
    typeOf (contentTypesPart d st) (PartName.layout n).path = some .xml ∧
      expectedType (.layout n) = some .slideLayout := by
  have hm : PartName.layout n ∉ overrideParts d st := by
    unfold overrideParts
    split <;> split <;> split <;> simp <;> omega
  refine ⟨?_, rfl⟩
  rw [typeOf_of_default (p := .layout n) trivial hm, contentTypes_defaults]
  have : extensionOf (PartName.layout n).path = c!"xml" :=
    extensionOf_dot (c!"ppt/slideLayouts/slideLayout" ++ dec n) c!"xml" (by decide)
  rw [this, List.append_assoc, List.append_assoc, List.append_assoc, List.find?_append, imageDefaults_find _ _ (by decide)]
  rfl

/-- **C154 does not hold in full.** If the template has neither the layout asked for nor a first one, the slide leads to a layout that is
not in the file. -/
theorem C154_fallback_violated {base : List (Str × Bytes)} {secs : Nat} {title : Str} {l : List PageIn} {st : BuildSettings}
    {desc : Str → Str} {other : PartName → Bytes} {file : List (Str × Bytes)} (h : FromTemplate base secs title l st desc other file)
    (hf : ((st.fonts.getD []).map (·.fileName)).Nodup) {j : Nat} (hj : j < l.length)
    (h1 : (Package.openReader base).getPart (PartName.layout 1).path = none)
    (h2 : (Package.openReader base).getPart (PartName.layout l[j].text.layout.layoutNumber).path = none) :
    ∃ rs r, (Package.openReader file).getPartString (PartName.slideRels (j + 1)).path = some (renderRels rs) ∧
      relById rs c!"rId1" = some r ∧ leadsTo (.slideRels (j + 1)) r = some c!"ppt/slideLayouts/slideLayout1.xml" ∧
      (Package.openReader file).getPart c!"ppt/slideLayouts/slideLayout1.xml" = none := by
  obtain ⟨entries, g1, g2, g3, rfl⟩ := fromTemplate_archive h
  obtain ⟨rs, hm⟩ := mem_buildPackage_slideRels (l := l.map PageIn.slideIn) (withTemplate st entries) (j := j) (by simpa using hj)
  have hsj : (deckOf l).slides[j]? = some l[j].slideIn := by simp [deckOf, Deck.slides, hj]
  obtain ⟨⟨r, e1, e2, e3⟩, -⟩ := C28_layout_and_notes (deckOf l) (withTemplate st entries) j l[j].slideIn rs hsj hm
  have hno : ∀ n, (Package.openReader base).getPart (PartName.layout n).path = none →
      (PartName.layout n).path ∉ entries.map (·.1) := by
    intro n hn
    refine (AMap.get_eq_none_iff entries _).mp ?_
    rw [g2, if_pos (layout_template n), hn]
  have hres : resolveLayout (withTemplate st entries) l[j].slideIn.layout.layoutNumber = 1 := by
    unfold resolveLayout withTemplate
    simp only
    rw [if_neg]
    rw [List.contains_iff_mem]
    exact hno _ h2
  refine ⟨rs, r, ?_, e1, ?_, ?_⟩
  · have := template_other (d := deckOf l) (f := entryBytes (deckOf l) (withTemplate st entries) desc (pageTexts secs title l)
        (templateBytes entries other)) hf g3 hm (show isTemplatePart (PartName.slideRels (j + 1)).path = false from rfl)
        (slideRels_notDir _)
    unfold Package.getPartString
    rw [this, Option.map_some]
    show some (decodeLossy (encode _)) = _
    rw [decodeLossy_encode]
    rfl
  · rw [e3, hres]
    decide
  · have e0 : c!"ppt/slideLayouts/slideLayout1.xml" = (PartName.layout 1).path := by decide
    have hd : Package.isDirName (PartName.layout 1).path = false := by decide
    rw [e0, C05_open_last_entry _ _ hd, templateArchive_split _ _ g1 (fun _ => rfl), lastEntry_append, lastEntry_append, lastEntry_append,
      lastEntry_none (after_absent (layout_template 1)), lastEntry_none (a := entries) (hno 1 h1)]
    have ht : lastEntry (PartName.layout 1).path (if st.theme then [((PartName.theme 1).path, entryBytes (deckOf l)
        (withTemplate st entries) desc (pageTexts secs title l) (templateBytes entries other) ⟨.theme 1, .other⟩)] else []) = none := by
      refine lastEntry_none ?_
      split
      · rw [List.map_singleton, List.mem_singleton]
        exact layout_ne_theme 1
      · simp
    rw [ht, lastEntry_none]
    · rfl
    · rw [List.map_map]
      intro hc
      obtain ⟨e, he, e4⟩ := List.mem_map.mp hc
      have hm2 : e.name ∈ names (beforeTheme (deckOf l) { st with template := none }) := by
        rw [← names_before]
        exact List.mem_map.mpr ⟨e, he, rfl⟩
      obtain ⟨e', he', e5⟩ := List.mem_map.mp hm2
      have hnd := C31_no_duplicates_partial (deckOf l) { st with template := none } rfl hf
      rw [buildPackage_split, List.map_append, List.nodup_append] at hnd
      refine hnd.2.2 _ (List.mem_map.mpr ⟨e', he', rfl⟩) (PartName.layout 1).path ?_ (by rw [e5]; exact e4)
      exact List.mem_map.mpr ⟨⟨.layout 1, .other⟩, by simp [themeAndLayoutParts, upTo_eq, standardLayoutCount], rfl⟩

/-- **C154 does not hold in full.** Where a master of the template shows its first picture, it shows the first picture of the new
deck: the relationships are those of the template, and the part they lead to is the picture of the deck. -/
theorem C154_exchanged_violated (d : Deck) {st : BuildSettings} {entries : List (Str × Bytes)} (hok : AMap.Ok entries)
    (hall : ∀ e ∈ entries, isTemplatePart e.1 = true) (hn : ((st.fonts.getD []).map (·.fileName)).Nodup) {f : Entry → Bytes}
    (hf : ∀ path, f ⟨.templatePart path, .other⟩ = (AMap.get entries path).getD []) {rels picture : Bytes}
    (hr : AMap.get entries c!"ppt/slideMasters/_rels/slideMaster1.xml.rels" = some rels)
    (hp : (⟨.media 1 c!"png", .media picture⟩ : Entry) ∈ buildPackage d (withTemplate st entries))
    (hm : f ⟨.media 1 c!"png", .media picture⟩ = picture) :
    let p := Package.openReader (templateArchive d st entries f)
    p.getPart c!"ppt/slideMasters/_rels/slideMaster1.xml.rels" = some rels ∧ p.getPart c!"ppt/media/image1.png" = some picture := by
  refine ⟨template_kept d hok hf (by decide) (by decide) hr (.inr (by decide)), ?_⟩
  have := template_other (f := f) hn hall hp (show isTemplatePart (PartName.media 1 c!"png").path = false by decide)
    (show Package.isDirName (PartName.media 1 c!"png").path = false by decide)
  rw [hm] at this
  exact this

/-! ### Examples -/

example : ∃ file, FromTemplate (written 0 c!"Base" talkPages .none id fun _ => encode c!"<x/>") 0 c!"New" talkPages .none id
    (fun _ => encode c!"<y/>") file ∧ (opened file).map (·.title) = some c!"New" ∧
    (Package.openReader file).getPart c!"ppt/theme/theme1.xml" = some (encode c!"<x/>") ∧
    2 ≤ (file.map (·.1)).count c!"ppt/tableStyles.xml" := by
  have has : ∀ q ∈ expectedParts (deckOf talkPages) .none, ((Package.openReader (written 0 c!"Base" talkPages .none id
      fun _ => encode c!"<x/>")).getPart q.path).isSome := fun q hq => written_has rfl rfl hq
  obtain ⟨file, h⟩ := (C154_own (secs0 := 0) (title0 := c!"Base") (l0 := talkPages) (st0 := .none) (desc0 := id)
    (other0 := fun _ => encode c!"<x/>") rfl rfl 0 c!"New" talkPages .none id (fun _ => encode c!"<y/>") (by decide)).1
  refine ⟨file, h, ?_, ?_, C154_twice_violated h (has .tableStyles (by simp [expectedParts]))⟩
  · rw [C154_opened_partial h rfl (by decide) (by decide) talk_readable (by decide) (by decide)]
    rfl
  · refine C154_look h (.inl (by decide)) ?_ (.inl rfl)
    have ho := (deckOf_fine (l := talkPages) (st := .none) rfl rfl).openable
    obtain ⟨b, hb, -⟩ := entry_of_expected ho (show PartName.theme 1 ∈ _ by simp [expectedParts])
    have e : b = .other := by
      have := bodyOk _ _ _ hb
      simpa [BodyOk] using this
    subst e
    exact generated_get (f := entryBytes (deckOf talkPages) .none id (pageTexts 0 c!"Base" talkPages) fun _ => encode c!"<x/>") ho hb

end PptRs.Props
