import Verif.Props.WholeCompress
import Verif.Props.EditRepair

/-!
# C144 and C147 for files of any origin
-/

namespace PptRs.Props

open PptRs PptRs.Spec PptRs.Reader PptRs.Import PptRs.Whole

/-! ### Sorting names -/

theorem strLe_total (a b : Str) : strLe a b = true ∨ strLe b a = true := by
  induction a generalizing b with
  | nil => exact .inl rfl
  | cons x a ih =>
    cases b with
    | nil => exact .inr rfl
    | cons y b =>
      simp only [strLe]
      rcases Nat.lt_trichotomy x.toNat y.toNat with h | h | h
      · simp [h]
      · simpa [h] using ih b
      · simp [h]

theorem strLe_antisymm {a b : Str} (h1 : strLe a b = true) (h2 : strLe b a = true) : a = b := by
  induction a generalizing b with
  | nil =>
    cases b with
    | nil => rfl
    | cons y b => simp [strLe] at h2
  | cons x a ih =>
    cases b with
    | nil => simp [strLe] at h1
    | cons y b =>
      simp only [strLe] at h1 h2
      rcases Nat.lt_trichotomy x.toNat y.toNat with h | h | h
      · rw [if_neg (by omega), if_pos h] at h2
        cases h2
      · rw [if_neg (by omega), if_neg (by omega)] at h1 h2
        rw [Char.toNat_inj.mp h, ih h1 h2]
      · rw [if_neg (by omega), if_pos h] at h1
        cases h1

theorem strLe_trans {a b c : Str} (h1 : strLe a b = true) (h2 : strLe b c = true) : strLe a c = true := by
  induction a generalizing b c with
  | nil => rfl
  | cons x a ih =>
    cases b with
    | nil => simp [strLe] at h1
    | cons y b =>
      cases c with
      | nil => simp [strLe] at h2
      | cons z c =>
        simp only [strLe] at h1 h2 ⊢
        rcases Nat.lt_trichotomy x.toNat y.toNat with h | h | h
        · rcases Nat.lt_trichotomy y.toNat z.toNat with k | k | k
          · rw [if_pos (by omega)]
          · rw [if_pos (by omega)]
          · rw [if_neg (by omega), if_pos k] at h2
            cases h2
        · rw [if_neg (by omega), if_neg (by omega)] at h1
          rcases Nat.lt_trichotomy y.toNat z.toNat with k | k | k
          · rw [if_pos (by omega)]
          · rw [if_neg (by omega), if_neg (by omega)] at h2
            rw [if_neg (by omega), if_neg (by omega)]
            exact ih h1 h2
          · rw [if_neg (by omega), if_pos k] at h2
            cases h2
        · rw [if_neg (by omega), if_pos h] at h1
          cases h1

theorem insertStr_comm (x y : Str) (l : List Str) : insertStr x (insertStr y l) = insertStr y (insertStr x l) := by
  induction l with
  | nil =>
    simp only [insertStr]
    by_cases h1 : strLe x y = true
    · by_cases h2 : strLe y x = true
      · rw [strLe_antisymm h1 h2]
      · simp [h1, h2]
    · have h2 : strLe y x = true := (strLe_total x y).resolve_left h1
      simp [h1, h2]
  | cons z l ih =>
    by_cases hy : strLe y z = true
    · by_cases hx : strLe x z = true
      · simp only [insertStr, hy, hx, if_true]
        by_cases h1 : strLe x y = true
        · by_cases h2 : strLe y x = true
          · rw [strLe_antisymm h1 h2]
          · simp [h1, h2, hy]
        · have h2 : strLe y x = true := (strLe_total x y).resolve_left h1
          simp [h1, h2, hx]
      · have h1 : ¬ strLe x y = true := fun h => hx (strLe_trans h hy)
        simp only [insertStr, hy, hx, h1, if_true, if_false, Bool.false_eq_true]
    · by_cases hx : strLe x z = true
      · have h1 : ¬ strLe y x = true := fun h => hy (strLe_trans h hx)
        simp only [insertStr, hy, hx, h1, if_true, if_false, Bool.false_eq_true]
      · simp only [insertStr, hy, hx, if_false, Bool.false_eq_true, ih]

theorem sortStrs_perm {l m : List Str} (h : l.Perm m) : sortStrs l = sortStrs m := by
  unfold sortStrs
  induction h with
  | nil => rfl
  | cons x _ ih => rw [List.foldr_cons, List.foldr_cons, ih]
  | swap x y l => exact insertStr_comm _ _ _
  | trans _ _ ih1 ih2 => exact ih1.trans ih2

/-! ### What opening looks at -/

theorem keys_perm {p q : Package} (hp : AMap.Ok p) (hq : AMap.Ok q) (f : Str → Bool)
    (h : ∀ path, f path = true → q.getPart path = p.getPart path) : (q.partPaths.filter f).Perm (p.partPaths.filter f) := by
  have ok : ∀ r : Package, AMap.Ok r → (r.partPaths.filter f).Nodup := fun r hr => List.Nodup.sublist List.filter_sublist hr
  refine (List.perm_ext_iff_of_nodup (ok q hq) (ok p hp)).mpr fun path => ?_
  simp only [List.mem_filter]
  have hm : ∀ r : Package, path ∈ r.partPaths ↔ (r.getPart path).isSome := fun r => (AMap.get_isSome_iff r path).symm
  rw [hm q, hm p]
  constructor
  · rintro ⟨h1, h2⟩
    exact ⟨by rw [← h path h2]; exact h1, h2⟩
  · rintro ⟨h1, h2⟩
    exact ⟨by rw [h path h2]; exact h1, h2⟩

theorem slidePaths_same {p q : Package} (hp : AMap.Ok p) (hq : AMap.Ok q)
    (hr : q.getPart c!"ppt/_rels/presentation.xml.rels" = p.getPart c!"ppt/_rels/presentation.xml.rels")
    (hs : ∀ path, isSlideFile path = true → q.getPart path = p.getPart path) : slidePaths q = slidePaths p := by
  have e : listedSlides q = listedSlides p := by
    unfold listedSlides Package.getPartString
    rw [hr]
  unfold slidePaths
  rw [e]
  split
  · exact sortStrs_perm (keys_perm hp hq _ hs)
  · rfl

theorem slides_same {p q : Package} (hp : AMap.Ok p) (hq : AMap.Ok q)
    (hr : q.getPart c!"ppt/_rels/presentation.xml.rels" = p.getPart c!"ppt/_rels/presentation.xml.rels")
    (hs : ∀ path, isSlideFile path = true ∨ path ∈ slidePaths p → q.getPart path = p.getPart path) :
    importPptx q = (importPptx p).map fun l => { l with title := (coreInfo q).title.getD [] } := by
  have e := slidePaths_same hp hq hr fun path h => hs path (.inl h)
  have g : ∀ i, getSlide q i = getSlide p i := by
    intro i
    unfold Reader.getSlide
    rw [e]
    cases h : (slidePaths p)[i]? with
    | none => rfl
    | some path =>
      simp only [Option.bind_some, Package.getPartString]
      rw [hs path (.inr (List.mem_of_getElem? h))]
  unfold importPptx
  rw [e, funext g]
  cases (List.range (slidePaths p).length).mapM (getSlide p) <;> rfl

theorem coreInfo_same {p q : Package} (h : q.getPart c!"docProps/core.xml" = p.getPart c!"docProps/core.xml") :
    coreInfo q = coreInfo p := by
  unfold coreInfo Package.getPartString
  rw [h]

theorem opened_title {a : List (Str × Bytes)} {l : Loaded} (h : opened a = some l) :
    l.title = (coreInfo (Package.openReader a)).title.getD [] := by
  unfold opened importPptx at h
  obtain ⟨x, _, rfl⟩ := Option.map_eq_some_iff.mp h
  rfl

/-- Saving the parts of an opened file keeps every part. -/
theorem resaved_part (a : List (Str × Bytes)) {p : Package} (hp : AMap.Ok p) {path : Str}
    (hk : p.getPart path = (Package.openReader a).getPart path) {entries : List (Str × Bytes)} (ho : p.Perm entries) :
    (Package.openReader (Package.saveWriter entries)).getPart path = (Package.openReader a).getPart path := by
  cases hd : Package.isDirName path with
  | false => rw [saved_part hp ho hd, hk]
  | true =>
    have none_of : ∀ b : List (Str × Bytes), (Package.openReader b).getPart path = none := by
      intro b
      cases e : (Package.openReader b).getPart path with
      | none => rfl
      | some x =>
        have := openReader_notDir (archive := b) (path := path) (by rw [e]; rfl)
        rw [hd] at this
        cases this
    rw [none_of, none_of]

/-- **C144.** A file of any origin that is opened as a package and saved again, with its parts in any order, is opened as the same
presentation, or as little as the file itself. -/
theorem C144_resaved (a : List (Str × Bytes)) {entries : List (Str × Bytes)} (ho : (Package.openReader a).Perm entries) :
    opened (Package.saveWriter entries) = opened a := by
  have part : ∀ path, (Package.openReader (Package.saveWriter entries)).getPart path = (Package.openReader a).getPart path :=
    fun path => resaved_part a (ok_openReader a) rfl ho
  unfold opened
  rw [slides_same (ok_openReader a) (ok_openReader _) (part _) fun path _ => part path, coreInfo_same (part _)]
  cases e : importPptx (Package.openReader a) with
  | none => rfl
  | some l =>
    have := opened_title (a := a) e
    rw [Option.map_some, ← this]

/-- **C147** (partial: XML is not optimized, and no relationship of the presentation takes a file among the media or the notes for
a slide). A compressed file of any origin, with anything on its slides, is opened as the presentation of the file itself; only the
title is gone if the properties are removed. -/
theorem C147_any_partial {o : CompressionOptions} {a b : List (Str × Bytes)} (hc : Compressed o a b) (hx : o.optimizeXml = false)
    (hs : ∀ path ∈ slidePaths (Package.openReader a), ¬ c!"ppt/media/" <+: path ∧ ¬ c!"ppt/notesSlides/" <+: path ∧
      path ∉ docPropParts) :
    opened b = (opened a).map fun p => { p with title := if o.removeProperties then [] else p.title } := by
  classical
  obtain ⟨entries, ho, rfl⟩ := hc
  have hok : AMap.Ok (compressPackage o (Package.openReader a)).1 := ok_compress (ok_openReader a)
  have part : ∀ path, ¬ Dropped o (Package.openReader a) path →
      (Package.openReader (Package.saveWriter entries)).getPart path = (Package.openReader a).getPart path := by
    intro path hd
    refine resaved_part a hok ?_ ho
    rw [C72_exact_partial o _ (ok_openReader a), if_neg hd, if_neg (by simp [hx])]
  have fine : ∀ path, ¬ c!"ppt/media/" <+: path → ¬ c!"ppt/notesSlides/" <+: path → path ∉ docPropParts →
      ¬ Dropped o (Package.openReader a) path := by
    rintro path h1 h2 h3 (h | h | h)
    · exact h1 h.2.1
    · exact h3 h.2
    · exact h2 h.2
  have slideFine : ∀ path, isSlideFile path = true → ¬ Dropped o (Package.openReader a) path := by
    intro path h
    have hp : c!"ppt/slides/slide" <+: path := by
      simp only [isSlideFile, Bool.and_eq_true] at h
      exact startsWith_prefix.mp h.1.1
    obtain ⟨r, rfl⟩ := hp
    refine fine _ ?_ ?_ ?_
    · rintro ⟨s, hs⟩; simp at hs
    · rintro ⟨s, hs⟩; simp at hs
    · simp [docPropParts]
  have hrel := part c!"ppt/_rels/presentation.xml.rels" (fine _ (by decide) (by decide) (by decide))
  unfold opened
  rw [slides_same (ok_openReader a) (ok_openReader _) hrel fun path h => part path (h.elim (slideFine path) fun h =>
    fine path (hs path h).1 (hs path h).2.1 (hs path h).2.2)]
  cases e : importPptx (Package.openReader a) with
  | none => rfl
  | some l =>
    have ht := opened_title (a := a) e
    rw [Option.map_some, Option.map_some]
    by_cases hr : o.removeProperties = true
    · have hcore : (Package.openReader (Package.saveWriter entries)).getPart c!"docProps/core.xml" = none := by
        rw [saved_part hok ho (by decide), C72_exact_partial o _ (ok_openReader a),
          if_pos (show Dropped o _ _ from Or.inr (Or.inl ⟨hr, by simp [docPropParts]⟩))]
      have : coreInfo (Package.openReader (Package.saveWriter entries)) = {} := by
        unfold coreInfo Package.getPartString
        rw [hcore]
        rfl
      rw [this, hr]
      rfl
    · have hcore := part c!"docProps/core.xml" (by
        rintro (h | h | h)
        · exact absurd (show c!"ppt/media/" <+: _ from h.2.1) (by decide)
        · exact hr h.1
        · exact absurd h.2 (by decide))
      rw [coreInfo_same hcore, ← ht, if_neg hr]

/-- A file with one slide whose name is none that is written here, found through its relationship. -/
def foreign : List (Str × Bytes) :=
  [(c!"ppt/_rels/presentation.xml.rels", encode (renderRels [rel 1 c!"slide" c!"slides/first.xml"])),
   (c!"ppt/slides/first.xml", encode (SlideText.new c!"Hello").xml)]

example : slidePaths (Package.openReader foreign) = [c!"ppt/slides/first.xml"] := by decide +kernel

example : ∃ b, Compressed ⟨true, true, true, true, false⟩ foreign b ∧
    (opened b).map (fun p => p.slides.map fun s => s.text.title) = some [c!"Hello"] := by
  refine ⟨_, ⟨_, List.Perm.refl _, rfl⟩, ?_⟩
  rw [C147_any_partial ⟨_, List.Perm.refl _, rfl⟩ rfl]
  · rw [Option.map_map]
    decide +kernel
  · decide +kernel

end PptRs.Props
