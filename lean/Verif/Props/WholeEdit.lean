import Verif.Props.Whole
import Verif.Props.Reader
import Verif.Lemmas.ExpectedParts

/-!
# C145: editing a written presentation
-/

namespace PptRs.Props

open PptRs PptRs.Spec PptRs.Reader PptRs.Import PptRs.Whole PptRs.Editor

/-! ### What is in the file -/

theorem ok_foldl_insert (archive : List (Str × Bytes)) (p : Package) (h : AMap.Ok p) :
    AMap.Ok (archive.foldl (fun p e => if Package.isDirName e.1 then p else AMap.insert p e.1 e.2) p) := by
  induction archive generalizing p with
  | nil => exact h
  | cons e l ih =>
    rw [List.foldl_cons]
    refine ih _ ?_
    split
    · exact h
    · exact h.insert _ _

theorem ok_openReader (archive : List (Str × Bytes)) : AMap.Ok (Package.openReader archive) :=
  ok_foldl_insert archive [] AMap.Ok_nil

/-- A part of the opened file is an entry of the file. -/
theorem openReader_mem {archive : List (Str × Bytes)} {path : Str} (hd : Package.isDirName path = false)
    (h : ((Package.openReader archive).getPart path).isSome) : path ∈ archive.map (·.1) := by
  rw [C05_open_last_entry archive path hd] at h
  unfold lastEntry at h
  by_contra hc
  have : archive.filter (fun e => e.1 = path) = [] := by
    rw [List.filter_eq_nil_iff]
    intro x hx
    have : x.1 ≠ path := fun e => hc (e ▸ List.mem_map.mpr ⟨x, hx, rfl⟩)
    simpa using this
  rw [this] at h
  cases h

theorem slide_written_name {d : Deck} {st : BuildSettings} (ht : st.template = none) {path : Str} (f : Entry → Bytes)
    (hd : Package.isDirName path = false)
    (h : ((Package.openReader ((buildPackage d st).map fun e => (e.name.path, f e))).getPart path).isSome) :
    ∃ q ∈ expectedParts d st, q.path = path := by
  have := openReader_mem hd h
  rw [List.map_map] at this
  obtain ⟨e, he, hp⟩ := List.mem_map.mp this
  refine ⟨e.name, ?_, hp⟩
  exact (C31_exact_parts d st ht).mem_iff.mp (List.mem_map.mpr ⟨e, he, rfl⟩)

theorem isDirName_suffix (a : Str) (s : Str) (c : Char) (hs : s.getLast? = some c) (hc : c ≠ '/' ∧ c ≠ '\\') :
    Package.isDirName (a ++ s) = false := by
  have : (a ++ s).getLast? = some c := by rw [List.getLast?_append, hs]; rfl
  unfold Package.isDirName
  rw [this]
  simp [hc.1, hc.2]

theorem slidePath_notDir (n : Nat) : Package.isDirName (slidePath n) = false :=
  isDirName_suffix _ c!".xml" 'l' rfl (by decide)

theorem slideRelsPath_notDir (n : Nat) : Package.isDirName (slideRelsPath n) = false :=
  isDirName_suffix _ c!".xml.rels" 's' rfl (by decide)

theorem isSlideName_notDir {k : Str} (h : IsSlideName k) : Package.isDirName k = false := by
  obtain ⟨m, rfl, -⟩ := h
  exact isDirName_suffix _ c!".xml" 'l' rfl (by decide)

theorem mem_expected_slide {d : Deck} {st : BuildSettings} {n : Nat} :
    PartName.slide n ∈ expectedParts d st ↔ 1 ≤ n ∧ n < 1 + d.count := by
  unfold expectedParts
  simp only [List.mem_append, List.mem_map, mediaParts]
  constructor
  · intro h
    split at h <;> split at h <;> split at h <;> simpa using h
  · intro h
    simp [h]

theorem mem_expected_slideRels {d : Deck} {st : BuildSettings} {n : Nat} :
    PartName.slideRels n ∈ expectedParts d st ↔ 1 ≤ n ∧ n < 1 + d.count := by
  unfold expectedParts
  simp only [List.mem_append, List.mem_map, mediaParts]
  constructor
  · intro h
    split at h <;> split at h <;> split at h <;> simpa using h
  · intro h
    simp [h]

theorem own_of_slideName {q : PartName} (ho : q.Own) {m : Str} (h : q.path = c!"ppt/slides/slide" ++ m ++ c!".xml") :
    ∃ n, q = .slide n := by
  cases q <;> simp [PartName.path, PartName.Own] at h ho ⊢

theorem temp_notOwn {q : PartName} (ho : q.Own) : q.path ≠ tempPath ∧ q.path ≠ tempRelsPath := by
  constructor <;> intro h <;> cases q <;> simp [PartName.path, PartName.Own, tempPath, tempRelsPath] at h ho

/-! ### Calls touch only parts of slides and lists -/

/-- The parts that the editor writes and removes. -/
def Touched (path : Str) : Prop :=
  (∃ n, path = slidePath (n + 1)) ∨ (∃ n, path = slideRelsPath (n + 1)) ∨ path = tempPath ∨ path = tempRelsPath ∨ path = presPath ∨
    path = presRelsPath ∨ path = typesPath

/-- A property of packages that calls cannot break. -/
structure Unbroken (P : Package → Prop) : Prop where
  add : ∀ p path c, Touched path → P p → P (Package.addPart p path c)
  remove : ∀ p path, Touched path → P p → P (Package.removePart p path).1

theorem touched_slide (n : Nat) : Touched (slidePath (n + 1)) := Or.inl ⟨n, rfl⟩

theorem touched_rels (n : Nat) : Touched (slideRelsPath (n + 1)) := Or.inr (Or.inl ⟨n, rfl⟩)

theorem touched_temp : Touched tempPath := by simp [Touched]

theorem touched_tempRels : Touched tempRelsPath := by simp [Touched]

theorem touched_pres : Touched presPath := by simp [Touched]

theorem touched_presRels : Touched presRelsPath := by simp [Touched]

theorem touched_types : Touched typesPath := by simp [Touched]

theorem Unbroken.move {P : Package → Prop} (k : Unbroken P) {p : Package} {a b : Str} (ha : Touched a) (hb : Touched b) (h : P p) :
    P (movePart p a b) := by
  unfold movePart
  split
  · exact k.add _ _ _ hb (k.remove _ _ ha h)
  · exact k.remove _ _ ha h

theorem Unbroken.update {P : Package → Prop} (k : Unbroken P) {p : Package} {a : Str} (f : Str → Str) (ha : Touched a) (h : P p) :
    P (updatePart p a f) := by
  unfold updatePart
  split
  · exact k.add _ _ _ ha h
  · exact h

theorem Unbroken.renumber {P : Package → Prop} (k : Unbroken P) {p : Package} {a b : Nat} (ha : 1 ≤ a) (hb : 1 ≤ b) (h : P p) :
    P (renumber p a b) := by
  obtain ⟨a, rfl⟩ := Nat.exists_eq_add_of_le' ha
  obtain ⟨b, rfl⟩ := Nat.exists_eq_add_of_le' hb
  exact k.move (touched_rels _) (touched_rels _) (k.move (touched_slide _) (touched_slide _) h)

theorem kept_foldl {P : Package → Prop} {f : Package → Nat → Package} (l : List Nat) (hf : ∀ p, ∀ i ∈ l, P p → P (f p i)) {p : Package}
    (h : P p) : P (l.foldl f p) := by
  induction l generalizing p with
  | nil => exact h
  | cons i l ih => exact ih (fun p j hj => hf p j (List.mem_cons_of_mem _ hj)) (hf p i (by simp) h)

theorem Unbroken.down {P : Package → Prop} (k : Unbroken P) {p : Package} (a b : Nat) (h : P p) : P (shiftDown p (a + 1) b) :=
  kept_foldl _ (fun _ i hi hp => k.renumber (by omega) (by have := (List.mem_range'_1.mp hi).1; omega) hp) h

theorem Unbroken.up {P : Package → Prop} (k : Unbroken P) {p : Package} (a b : Nat) (h : P p) : P (shiftUp p (a + 1) b) :=
  kept_foldl _ (fun _ i hi hp => k.renumber (by have := (List.mem_range'_1.mp (List.mem_reverse.mp hi)).1; omega) (by omega) hp) h

theorem Unbroken.rebuild {P : Package → Prop} (k : Unbroken P) {e : Editor} (h : P e.package) : P (Editor.rebuild e).package :=
  k.add _ _ _ touched_types (k.add _ _ _ touched_presRels (k.add _ _ _ touched_pres h))

theorem Unbroken.run {P : Package → Prop} (k : Unbroken P) {e : Editor} (op : Op) (h : P e.package) : P (op.run e).1.package := by
  cases op with
  | add c =>
    exact k.update _ touched_types (k.update _ touched_presRels (k.update _ touched_pres
      (k.add _ _ _ (touched_rels _) (k.add _ _ _ (touched_slide _) h))))
  | insert i c =>
    show P (e.insertSlide i c).1.package
    unfold insertSlide
    split
    · exact h
    · exact k.rebuild (k.add _ _ _ (touched_rels _) (k.add _ _ _ (touched_slide _) (k.up _ _ h)))
  | update i c =>
    show P (e.updateSlide i c).1.package
    unfold updateSlide
    split
    · exact h
    · exact k.add _ _ _ (touched_slide _) h
  | remove i =>
    show P (e.removeSlide i).1.package
    unfold removeSlide
    split
    · exact h
    · exact k.rebuild (k.down _ _ (k.remove _ _ (touched_rels _) (k.remove _ _ (touched_slide _) h)))
  | duplicate i =>
    show P (e.duplicateSlide i).1.package
    unfold duplicateSlide
    split
    · exact h
    · split
      · exact h
      · exact k.rebuild (k.add _ _ _ (touched_rels _) (k.add _ _ _ (touched_slide _) (k.up _ _ h)))
  | reorder a b =>
    show P (e.reorderSlide a b).1.package
    unfold reorderSlide
    split
    · exact h
    · split
      · exact h
      · refine k.rebuild (k.move touched_tempRels (touched_rels _) (k.move touched_temp (touched_slide _) ?_))
        have h1 : P (movePart (movePart e.package (slidePath (a + 1)) tempPath) (slideRelsPath (a + 1)) tempRelsPath) :=
          k.move (touched_rels _) touched_tempRels (k.move (touched_slide _) touched_temp h)
        split
        · exact k.down _ _ h1
        · exact k.up _ _ h1

theorem Unbroken.runAll {P : Package → Prop} (k : Unbroken P) {e : Editor} (ops : List Op) (h : P e.package) :
    P (runAll e ops).2.package := by
  induction ops generalizing e with
  | nil => exact h
  | cons op ops ih => exact ih (k.run op h)

theorem kept_ok : Unbroken (fun p => AMap.Ok p) := ⟨fun _ _ _ _ h => h.insert _ _, fun _ _ _ h => h.remove _⟩

theorem kept_part {path : Str} (hp : ¬ Touched path) (v : Option Bytes) : Unbroken (fun p => Package.getPart p path = v) := by
  refine ⟨fun p q c hq h => ?_, fun p q hq h => ?_⟩
  · have : path ≠ q := fun e => hp (e ▸ hq)
    show AMap.get (AMap.insert p q c) path = v
    rw [AMap.get_insert, if_neg this]
    exact h
  · have : path ≠ q := fun e => hp (e ▸ hq)
    show AMap.get (AMap.remove p q) path = v
    rw [AMap.get_remove, if_neg this]
    exact h

theorem core_notTouched : ¬ Touched c!"docProps/core.xml" := by
  rintro (⟨n, h⟩ | ⟨n, h⟩ | h | h | h | h | h)
  · have := congrArg (·[0]?) h
    simp [slidePath] at this
  · have := congrArg (·[0]?) h
    simp [slideRelsPath] at this
  all_goals revert h; decide

/-! ### Editing a list of contents -/

/-- What a call should do to the list of contents, and what it should return. -/
def editContents (l : List SlideText) : Op → List SlideText × Option Nat
  | .add c => (l ++ [c], some l.length)
  | .insert i c => if i ≤ l.length then (l.take i ++ [c] ++ l.drop i, some i) else (l, none)
  | .update i c => if i < l.length then (l.set i c, some 0) else (l, none)
  | .remove i => if i < l.length then (l.take i ++ l.drop (i + 1), some 0) else (l, none)
  | .duplicate i =>
    match l[i]? with
    | some s => (l.take (i + 1) ++ [s] ++ l.drop (i + 1), some (i + 1))
    | none => (l, none)
  | .reorder a b =>
    match l[a]? with
    | some s =>
      if b < l.length then
        let rest := l.take a ++ l.drop (a + 1)
        (rest.take b ++ [s] ++ rest.drop b, some 0)
      else (l, none)
    | none => (l, none)

/-- The list after a sequence of calls. -/
def editContentsAll (l : List SlideText) (ops : List Op) : List SlideText := ops.foldl (fun l op => (editContents l op).1) l

/-- The parts hold the contents. -/
def TextsHeld (l : List Slide) (t : List SlideText) : Prop := l.map (·.xml) = t.map fun s => encode s.xml

theorem TextsHeld.length {l : List Slide} {t : List SlideText} (h : TextsHeld l t) : l.length = t.length := by
  have := congrArg List.length h
  simpa using this

theorem TextsHeld.get {l : List Slide} {t : List SlideText} (h : TextsHeld l t) (i : Nat) :
    l[i]?.map (·.xml) = t[i]?.map fun s => encode s.xml := by
  have := congrArg (·[i]?) h
  simpa using this

theorem TextsHeld.edit {l : List Slide} {t : List SlideText} (h : TextsHeld l t) (op : Op) :
    TextsHeld (editList l op).1 (editContents t op).1 ∧ (editList l op).2 = (editContents t op).2 := by
  have hl := h.length
  unfold TextsHeld at *
  cases op with
  | add c => simp [editList, editContents, hl, h, Slide.of]
  | insert i c =>
    simp only [editList, editContents, hl]
    split
    · simp [List.map_take, List.map_drop, h, Slide.of]
    · simp [h]
  | update i c =>
    simp only [editList, editContents]
    by_cases hi : i < t.length
    · rw [if_pos hi, List.getElem?_eq_getElem (by omega)]
      simp [List.map_set, h]
    · rw [if_neg hi, List.getElem?_eq_none (by omega)]
      simp [h]
  | remove i =>
    simp only [editList, editContents, hl]
    split
    · simp [List.map_take, List.map_drop, h]
    · simp [h]
  | duplicate i =>
    have hg := TextsHeld.get h i
    simp only [editList, editContents]
    cases e : l[i]? with
    | none =>
      rw [e] at hg
      have : t[i]? = none := by cases e' : t[i]? with
        | none => rfl
        | some x => rw [e'] at hg; cases hg
      simp [this, h]
    | some s =>
      rw [e] at hg
      obtain ⟨x, hx, hs⟩ := Option.map_eq_some_iff.mp hg.symm
      simp only [hx]
      simp [List.map_take, List.map_drop, h, hs]
  | reorder a b =>
    have hg := TextsHeld.get h a
    simp only [editList, editContents]
    cases e : l[a]? with
    | none =>
      rw [e] at hg
      have : t[a]? = none := by cases e' : t[a]? with
        | none => rfl
        | some x => rw [e'] at hg; cases hg
      simp [this, h]
    | some s =>
      rw [e] at hg
      obtain ⟨x, hx, hs⟩ := Option.map_eq_some_iff.mp hg.symm
      simp only [hx, hl]
      split
      · simp [List.map_take, List.map_drop, h, hs]
      · simp [h]

theorem TextsHeld.editAll {l : List Slide} {t : List SlideText} (h : TextsHeld l t) (ops : List Op) :
    TextsHeld (Spec.editAll l ops).2 (editContentsAll t ops) := by
  induction ops generalizing l t with
  | nil => exact h
  | cons op ops ih => exact ih (h.edit op).1

/-! ### Files -/

/-- A file with the slides `t` and the document properties `core`. -/
structure FileOf (a : List (Str × Bytes)) (t : List SlideText) (core : Bytes) : Prop where
  slides : ∃ l, TextsHeld l t ∧ Editor.Inv (ofPackage (Package.openReader a)) l
  listed : Listed (ofPackage (Package.openReader a))
  core : (Package.openReader a).getPart c!"docProps/core.xml" = some core

/-- Saving a package in any order and opening the file keeps every part whose name is not that of a folder. -/
theorem saved_part {p : Package} (hp : AMap.Ok p) {entries : List (Str × Bytes)} (ho : p.Perm entries) {path : Str}
    (hd : Package.isDirName path = false) : (Package.openReader (Package.saveWriter entries)).getPart path = p.getPart path := by
  rw [saveWriter_eq, C05_open_last_entry entries path hd]
  have hok : AMap.Ok entries := (ho.map _).nodup_iff.mp hp
  show _ = AMap.get p path
  rw [AMap.get_perm hp ho]
  clear ho hp p
  unfold lastEntry
  induction entries with
  | nil => rfl
  | cons e l ih =>
    have hn : e.1 ∉ l.map (·.1) ∧ AMap.Ok l := List.nodup_cons.mp hok
    rw [AMap.get_cons]
    by_cases h : e.1 = path
    · rw [if_pos h, List.filter_cons_of_pos (by simpa using h)]
      have : l.filter (fun e => e.1 = path) = [] := by
        rw [List.filter_eq_nil_iff]
        intro x hx
        have : x.1 ≠ path := fun e' => hn.1 (by rw [h, ← e']; exact List.mem_map.mpr ⟨x, hx, rfl⟩)
        simpa using this
      rw [this]
      rfl
    · rw [if_neg h, List.filter_cons_of_neg (by simpa using h), ih hn.2]

theorem FileOf.session {a : List (Str × Bytes)} {t : List SlideText} {core : Bytes} (h : FileOf a t core) (ops : List Op)
    {entries : List (Str × Bytes)} (ho : (runAll (ofPackage (Package.openReader a)) ops).2.package.Perm entries) :
    FileOf (Package.saveWriter entries) (editContentsAll t ops) core := by
  obtain ⟨l, hl, hi⟩ := h.slides
  have h1 := (runAll_correct hi ops).2
  have h2 := listed_runAll h.listed ops
  have hok := kept_ok.runAll (e := ofPackage (Package.openReader a)) ops (ok_openReader a)
  have hcore := (kept_part core_notTouched (some core)).runAll (e := ofPackage (Package.openReader a)) ops h.core
  have part := fun {path : Str} (hd : Package.isDirName path = false) => saved_part hok ho (path := path) hd
  have hare : SlidesAre (Package.openReader (Package.saveWriter entries)) (Spec.editAll l ops).2 := by
    refine ⟨fun i => ?_, fun i => ?_, fun path hp hs => ?_⟩
    · exact (part (slidePath_notDir (i + 1))).trans (h1.are.slides i)
    · exact (part (slideRelsPath_notDir (i + 1))).trans (h1.are.rels i)
    · rw [part (isSlideName_notDir hp)] at hs
      exact h1.are.only path hp hs
  have hcount := countSlides_eq (ok_openReader _) hare
  refine ⟨⟨_, hl.editAll ops, hare, ?_, hcount⟩, ?_, ?_⟩
  · exact ⟨(part (by decide)).trans h1.temps.1, (part (by decide)).trans h1.temps.2⟩
  · refine listed_same h2 ?_ ?_
    · exact hcount.trans h1.count.symm
    · unfold Package.getPartString
      exact congrArg (Option.map decodeLossy) (part (by decide))
  · exact (part (by decide)).trans hcore

theorem FileOf.sessions {a b : List (Str × Bytes)} {t : List SlideText} {core : Bytes} {s : List (List Op)} (h : FileOf a t core)
    (he : Edited a s b) : FileOf b (editContentsAll t s.flatten) core := by
  induction he generalizing t with
  | done a => exact h
  | session entries ho _ ih =>
    have := ih (h.session _ ho)
    rw [List.flatten_cons]
    unfold editContentsAll at *
    rw [List.foldl_append]
    exact this

theorem FileOf.opened {a : List (Str × Bytes)} {t : List SlideText} {core : Bytes} (h : FileOf a t core)
    (hn : t.length + 1 < 4294967296) (hs : ∀ s ∈ t, s.Safe ∧ SmallNumbers s ∧ s.extra = []) :
    Whole.opened a = some { title := (coreInfo (Package.openReader a)).title.getD [], slides := t.map expectedSlide } := by
  obtain ⟨l, hl, hi⟩ := h.slides
  have hpaths := slidePaths_inv hi h.listed (by rw [hl.length]; exact hn)
  rw [hl.length] at hpaths
  have hpaths : slidePaths (Package.openReader a) = _ := hpaths
  have hlen : (slidePaths (Package.openReader a)).length = (t.map seenSlide).length := by rw [hpaths]; simp
  have hget : ∀ i (hi : i < (t.map seenSlide).length), getSlide (Package.openReader a) i = some (t.map seenSlide)[i] := by
    intro i hit
    have hi' : i < t.length := by simpa using hit
    unfold Reader.getSlide
    have e : (slidePaths (Package.openReader a))[i]? = some (c!"ppt/slides/slide" ++ dec (i + 1) ++ c!".xml") := by
      rw [hpaths]
      simp [hi']
    have hp : (Package.openReader a).getPart (c!"ppt/slides/slide" ++ dec (i + 1) ++ c!".xml") = some (encode t[i].xml) := by
      have := hi.are.slides i
      rw [hl.get i, List.getElem?_eq_getElem hi'] at this
      exact this
    rw [e, Option.bind_some, Package.getPartString, hp, Option.map_some, decodeLossy_encode, Option.bind_some]
    obtain ⟨h1, h2, h3⟩ := hs t[i] (List.getElem_mem hi')
    have hx' : ReadsAs (fmt t[i].extra) [] := by
      rw [h3]
      intro top st
      simp [fmt, steps]
    rw [C86_slide_reads_back_partial h1 h2 hx' (by intro n as ks hm; simp at hm)]
    simp
  unfold Whole.opened importPptx
  rw [hlen, mapM_range_some hget, Option.map_some, List.map_map]
  congr 2
  exact List.map_congr_left fun s _ => import_seen s

theorem FileOf.written (secs : Nat) (title : Str) (l : List PageIn) {st : BuildSettings} (desc : Str → Str)
    (other : PartName → Bytes) (ht : st.template = none) (hf : st.fonts = none) :
    FileOf (Whole.written secs title l st desc other) (l.map (·.text)) (encode (createCorePropsXml secs title)) := by
  have hfn : ((st.fonts.getD []).map (·.fileName)).Nodup := by rw [hf]; simp
  have hc : (deckOf l).count = l.length := by simp [deckOf, Deck.count]
  generalize hp : Package.openReader (Whole.written secs title l st desc other) = p
  have part : ∀ e ∈ buildPackage (deckOf l) st, Package.isDirName e.name.path = false → ∀ t,
      entryText (deckOf l) st desc (pageTexts secs title l) e = some t → p.getPart e.name.path = some (encode t) := by
    intro e he hd t hx
    have := written_entry ht hfn (entryBytes (deckOf l) st desc (pageTexts secs title l) other) he hd
    rw [← hp]
    unfold Whole.written
    rw [this, entryBytes, hx]
  have inParts : ∀ {path : Str}, Package.isDirName path = false → (p.getPart path).isSome →
      ∃ q ∈ expectedParts (deckOf l) st, q.path = path := by
    intro path hd hs
    rw [← hp] at hs
    exact slide_written_name ht _ hd hs
  have own := expectedParts_own (deckOf l) st
  have hcore := part _ (mem_buildPackage_core (deckOf l) st) (by decide) _ rfl
  have hrel := part _ (mem_buildPackage_presRels (deckOf l) st hf) (show Package.isDirName PartName.presRels.path = false by decide) _ rfl
  have hslide : ∀ i (hi : i < l.length), p.getPart (slidePath (i + 1)) = some (encode l[i].text.xml) := by
    intro i hi
    obtain ⟨x, hx⟩ := mem_buildPackage_slide st hi
    exact part _ hx (slide_notDir _) _ (by simp [entryText, pageTexts, hi])
  have hr : relsPartText (deckOf l) st (presentationRels (deckOf l).count (hasNotes (deckOf l).slides) st.handout) .presRels =
      renderRels (presentationRels l.length (hasNotes (deckOf l).slides) st.handout) := by
    simp only [relsPartText, renderRelsWith, renderRels, hc, List.take_length, List.drop_length, List.flatMap_nil,
      List.append_nil]
    simp
  rw [hr] at hrel
  let sl : List Slide := (List.range l.length).map fun i => ⟨encode ((l[i]?.map (·.text.xml)).getD []), p.getPart (slideRelsPath (i + 1))⟩
  have hlen : sl.length = l.length := by simp [sl]
  have none_of : ∀ {path : Str}, Package.isDirName path = false → (∀ q ∈ expectedParts (deckOf l) st, q.path ≠ path) →
      p.getPart path = none := by
    intro path hd hq
    cases e : p.getPart path with
    | none => rfl
    | some b =>
      obtain ⟨q, h1, h2⟩ := inParts hd (by rw [e]; rfl)
      exact absurd h2 (hq q h1)
  have hare : SlidesAre p sl := by
    refine ⟨fun i => ?_, fun i => ?_, fun path hn hs => ?_⟩
    · by_cases hi : i < l.length
      · refine (hslide i hi).trans ?_
        simp [sl, hi]
      · rw [List.getElem?_eq_none (by omega), Option.map_none]
        refine none_of (slidePath_notDir (i + 1)) fun q hq e => ?_
        have := PartName.path_inj (q := .slide (i + 1)) (own q hq) trivial e
        subst this
        have := mem_expected_slide.mp hq
        omega
    · show p.getPart (slideRelsPath (i + 1)) = _
      by_cases hi : i < l.length
      · simp [sl, hi]
      · rw [List.getElem?_eq_none (by omega), Option.bind_none]
        refine none_of (slideRelsPath_notDir (i + 1)) fun q hq e => ?_
        have := PartName.path_inj (q := .slideRels (i + 1)) (own q hq) trivial e
        subst this
        have := mem_expected_slideRels.mp hq
        omega
    · obtain ⟨q, hq, e⟩ := inParts (isSlideName_notDir hn) hs
      obtain ⟨m, hm, -⟩ := hn
      obtain ⟨n, rfl⟩ := own_of_slideName (own q hq) (e.trans hm)
      have := mem_expected_slide.mp hq
      refine ⟨n - 1, by omega, ?_⟩
      rw [← e, show n - 1 + 1 = n by omega]
      rfl
  have hok : AMap.Ok p := hp ▸ ok_openReader _
  have hcount := countSlides_eq hok hare
  refine ⟨⟨sl, ?_, ?_⟩, ?_, ?_⟩
  · unfold TextsHeld
    apply List.ext_getElem?
    intro i
    by_cases hi : i < l.length
    · simp [sl, hi]
    · rw [List.getElem?_eq_none (by simp [sl]; omega), List.getElem?_eq_none (by simp; omega)]
  · rw [hp]
    refine ⟨hare, ⟨?_, ?_⟩, hcount⟩
    · exact none_of (by decide) fun q hq => (temp_notOwn (own q hq)).1
    · exact none_of (by decide) fun q hq => (temp_notOwn (own q hq)).2
  · rw [hp]
    refine ⟨_, _, ?_, relsText_renderRels (plain_presentationRels l.length (hasNotes (deckOf l).slides) st.handout), ?_⟩
    · show Package.getPartString p _ = _
      unfold Package.getPartString
      rw [show p.getPart presRelsPath = _ from hrel, Option.map_some, decodeLossy_encode]
    · have : (ofPackage p).slideCount = l.length := hcount.trans hlen
      rw [this]
      exact entries_presentationRels _ _ _
  · rw [hp]
    exact hcore

/-- **C145.** A written file is edited in any number of sessions; each opens it, makes any calls, accepted or not, and saves it.
Whoever opens the file then sees the title it was written with and the slides that result from making all the calls on
the list of contents. -/
theorem C145_edited_partial (secs : Nat) {title : Str} {l : List PageIn} {st : BuildSettings} (desc : Str → Str)
    (other : PartName → Bytes) (ht : st.template = none) (hf : st.fonts = none) (h1 : '&' ∉ title) (h2 : '<' ∉ title)
    {sessions : List (List Op)} {file : List (Str × Bytes)} (he : Edited (written secs title l st desc other) sessions file)
    (hn : (editContentsAll (l.map (·.text)) sessions.flatten).length + 1 < 4294967296)
    (hs : ∀ s ∈ editContentsAll (l.map (·.text)) sessions.flatten, s.Safe ∧ SmallNumbers s ∧ s.extra = []) :
    opened file = some { title := visible title,
                         slides := (editContentsAll (l.map (·.text)) sessions.flatten).map expectedSlide } := by
  have h := (FileOf.written secs title l desc other ht hf).sessions he
  rw [h.opened hn hs, coreInfo_written h2 h.core, openedTitle_plain h1 h2]

theorem FileOf.results {a : List (Str × Bytes)} {t : List SlideText} {core : Bytes} (h : FileOf a t core) (ops : List Op) (i : Nat) :
    (runAll (ofPackage (Package.openReader a)) ops).1[i]? =
      ops[i]?.map fun op => (editContents (editContentsAll t (ops.take i)) op).2 := by
  obtain ⟨l, hl, hi⟩ := h.slides
  rw [(runAll_correct hi ops).1]
  clear h hi
  induction ops generalizing l t i with
  | nil => rfl
  | cons op ops ih =>
    cases i with
    | zero =>
      show some (editList l op).2 = _
      rw [(hl.edit op).2]
      rfl
    | succ i => exact ih i _ (hl.edit op).1

/-- **C145.** The calls return what they should: in every session, each call is accepted or refused, and answered, as on the
list of contents. -/
theorem C145_results (secs : Nat) {title : Str} {l : List PageIn} {st : BuildSettings} (desc : Str → Str)
    (other : PartName → Bytes) (ht : st.template = none) (hf : st.fonts = none) {sessions : List (List Op)}
    {file : List (Str × Bytes)} (he : Edited (written secs title l st desc other) sessions file) (ops : List Op) (i : Nat) :
    (runAll (ofPackage (Package.openReader file)) ops).1[i]? =
      ops[i]?.map fun op => (editContents (editContentsAll (l.map (·.text)) (sessions.flatten ++ ops.take i)) op).2 := by
  have h := (FileOf.written secs title l desc other ht hf).sessions he
  rw [h.results ops i]
  simp only [editContentsAll, List.foldl_append]

theorem safe_edit {P : SlideText → Prop} {l : List SlideText} (h : ∀ s ∈ l, P s) (op : Op)
    (ho : ∀ c, op = .add c ∨ (∃ i, op = .insert i c) ∨ (∃ i, op = .update i c) → P c) : ∀ s ∈ (editContents l op).1, P s := by
  have ht : ∀ {k : List SlideText} {n : Nat} {s : SlideText}, s ∈ k.take n → s ∈ k := fun m => List.mem_of_mem_take m
  have hd : ∀ {k : List SlideText} {n : Nat} {s : SlideText}, s ∈ k.drop n → s ∈ k := fun m => List.mem_of_mem_drop m
  intro s hs
  cases op with
  | add c =>
    rcases List.mem_append.mp hs with hs | hs
    · exact h s hs
    · rw [List.mem_singleton.mp hs]; exact ho c (Or.inl rfl)
  | insert i c =>
    simp only [editContents] at hs
    split at hs
    · simp only [List.mem_append, List.mem_singleton] at hs
      rcases hs with (hs | rfl) | hs
      · exact h s (ht hs)
      · exact ho _ (Or.inr (Or.inl ⟨i, rfl⟩))
      · exact h s (hd hs)
    · exact h s hs
  | update i c =>
    simp only [editContents] at hs
    split at hs
    · rcases List.mem_or_eq_of_mem_set hs with hs | rfl
      · exact h s hs
      · exact ho _ (Or.inr (Or.inr ⟨i, rfl⟩))
    · exact h s hs
  | remove i =>
    simp only [editContents] at hs
    split at hs
    · rcases List.mem_append.mp hs with hs | hs
      · exact h s (ht hs)
      · exact h s (hd hs)
    · exact h s hs
  | duplicate i =>
    simp only [editContents] at hs
    split at hs
    · rename_i x hx
      simp only [List.mem_append, List.mem_singleton] at hs
      rcases hs with (hs | rfl) | hs
      · exact h s (ht hs)
      · exact h _ (List.mem_of_getElem? hx)
      · exact h s (hd hs)
    · exact h s hs
  | reorder a b =>
    simp only [editContents] at hs
    split at hs
    · rename_i x hx
      split at hs
      · simp only [List.mem_append, List.mem_singleton] at hs
        rcases hs with (hs | rfl) | hs
        · rcases List.mem_append.mp (ht hs) with hs | hs
          · exact h s (ht hs)
          · exact h s (hd hs)
        · exact h _ (List.mem_of_getElem? hx)
        · rcases List.mem_append.mp (hd hs) with hs | hs
          · exact h s (ht hs)
          · exact h s (hd hs)
      · exact h s hs
    · exact h s hs

theorem safe_editAll {P : SlideText → Prop} {l : List SlideText} (h : ∀ s ∈ l, P s) (ops : List Op)
    (ho : ∀ op ∈ ops, ∀ c, op = .add c ∨ (∃ i, op = .insert i c) ∨ (∃ i, op = .update i c) → P c) :
    ∀ s ∈ editContentsAll l ops, P s := by
  induction ops generalizing l with
  | nil => exact h
  | cons op ops ih =>
    exact ih (safe_edit h op (ho op (List.mem_cons_self ..))) fun o m => ho o (List.mem_cons_of_mem _ m)

/-! ### Examples -/

/-- Two sessions: move the second slide to the front, then duplicate it, remove the last slide and add one; one call is refused. -/
def talkSessions : List (List Op) :=
  [[.reorder 1 0], [.duplicate 0, .remove 7, .remove 2, .add ((SlideText.new c!"End").addBullet c!"Bye & thanks")]]

theorem edited_exists (a : List (Str × Bytes)) (s : List (List Op)) : ∃ b, Edited a s b := by
  induction s generalizing a with
  | nil => exact ⟨a, .done a⟩
  | cons ops s ih =>
    obtain ⟨b, hb⟩ := ih (Package.saveWriter (runAll (ofPackage (Package.openReader a)) ops).2.package)
    exact ⟨b, .session _ (List.Perm.refl _) hb⟩

example : ∃ file, Edited (written 0 c!"Talk" talkPages .none id fun _ => []) talkSessions file ∧
    (opened file).map (fun p => (p.title, p.slides.map fun s => (s.text.title, s.text.texts))) =
      some (c!"Talk", [(c!"Prices", []), (c!"Prices", []), (c!"End", [c!"Bye & thanks"])]) := by
  obtain ⟨file, h⟩ := edited_exists (written 0 c!"Talk" talkPages .none id fun _ => []) talkSessions
  refine ⟨file, h, ?_⟩
  rw [C145_edited_partial 0 id (fun _ => []) rfl rfl (by decide) (by decide) h (by decide +kernel) ?_]
  · decide +kernel
  · refine safe_editAll (P := fun s => s.Safe ∧ SmallNumbers s ∧ s.extra = []) ?_ _ ?_
    · intro s hs
      obtain ⟨x, hx, rfl⟩ := List.mem_map.mp hs
      exact talk_readable x hx
    · intro op hop c hc
      simp only [talkSessions, List.flatten_cons, List.flatten_nil, List.append_nil, List.mem_append, List.mem_cons,
        List.not_mem_nil, or_false] at hop
      have : c = (SlideText.new c!"End").addBullet c!"Bye & thanks" := by
        rcases hop with rfl | rfl | rfl | rfl | rfl <;> simp at hc
        exact hc.symm
      subst this
      exact addBullets_readable c!"End" [c!"Bye & thanks"] none .titleAndContent (by simp)

end PptRs.Props
