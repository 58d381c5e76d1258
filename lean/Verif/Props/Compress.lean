import Verif.Model.Compress
import Verif.Model.Rels
import Verif.Lemmas.AMap
import Verif.Lemmas.Str
import Verif.Lemmas.Utf8
import Verif.Spec.Path
import Mathlib.Tactic.SplitIfs

/-!
# C25, C26, C72: compression and analysis of packages
-/

namespace PptRs.Spec

open PptRs

/-- The text of some slide part contains the file name of the media part, or its path below `ppt/`. -/
def Mentioned (p : Package) (media : Str) : Prop :=
  ∃ path data, p.getPart path = some data ∧ c!"ppt/slides/slide" <+: path ∧ c!".xml" <:+ path ∧
    ((pathFileName media).getD [] <:+: decodeLossy data ∨ media.drop 4 <:+: decodeLossy data)

/-- Media parts. -/
def IsMedia (path : Str) : Prop := c!"ppt/media/" <+: path

end PptRs.Spec

namespace PptRs.Props

open PptRs PptRs.Spec

theorem startsWith_prefix {p s : Str} : startsWith p s = true ↔ p <+: s := List.isPrefixOf_iff_prefix

theorem endsWith_suffix {p s : Str} : endsWith p s = true ↔ p <:+ s := List.isSuffixOf_iff_suffix

/-! ## Unused media -/

theorem mem_inner (content : Str) (media acc : List Str) (m : Str) :
    m ∈ media.foldl (fun acc m => if mediaMentioned content m then acc ++ [m] else acc) acc ↔
      m ∈ acc ∨ (m ∈ media ∧ mediaMentioned content m = true) := by
  induction media generalizing acc with
  | nil => simp
  | cons x media ih =>
    rw [List.foldl_cons, ih]
    split
    · rename_i h
      simp only [List.mem_append, List.mem_cons, List.not_mem_nil, or_false]
      constructor
      · rintro ((h1 | rfl) | h1)
        · exact .inl h1
        · exact .inr ⟨.inl rfl, h⟩
        · exact .inr ⟨.inr h1.1, h1.2⟩
      · rintro (h1 | ⟨rfl | h1, h2⟩)
        · exact .inl (.inl h1)
        · exact .inl (.inr rfl)
        · exact .inr ⟨h1, h2⟩
    · rename_i h
      simp only [List.mem_cons]
      constructor
      · rintro (h1 | h1)
        · exact .inl h1
        · exact .inr ⟨.inr h1.1, h1.2⟩
      · rintro (h1 | ⟨rfl | h1, h2⟩)
        · exact .inl h1
        · exact absurd h2 h
        · exact .inr ⟨h1, h2⟩

theorem mem_referenced (p : Package) (media : List Str) (m : Str) :
    m ∈ referencedMedia p media ↔ m ∈ media ∧ ∃ path ∈ p.partPaths, isSlideXmlPath path = true ∧
      ∃ content, p.getPartString path = some content ∧ mediaMentioned content m = true := by
  unfold referencedMedia
  have k : ∀ (l acc : List Str), m ∈ l.foldl (referencedStep p media) acc ↔ m ∈ acc ∨ (m ∈ media ∧ ∃ path ∈ l, isSlideXmlPath path = true ∧
      ∃ content, p.getPartString path = some content ∧ mediaMentioned content m = true) := by
    intro l
    induction l with
    | nil => simp
    | cons x l ih =>
      intro acc
      rw [List.foldl_cons, ih]
      unfold referencedStep
      split
      · rename_i hx
        cases hc : p.getPartString x with
        | none =>
          simp only
          constructor
          · rintro (h | ⟨h1, y, hy, h2⟩)
            · exact .inl h
            · exact .inr ⟨h1, y, List.mem_cons_of_mem _ hy, h2⟩
          · rintro (h | ⟨h1, y, hy, h2⟩)
            · exact .inl h
            · rcases List.mem_cons.mp hy with rfl | hy
              · obtain ⟨_, c, hc', _⟩ := h2
                rw [hc] at hc'; cases hc'
              · exact .inr ⟨h1, y, hy, h2⟩
        | some content =>
          simp only
          rw [mem_inner]
          constructor
          · rintro ((h | h) | ⟨h1, y, hy, h2⟩)
            · exact .inl h
            · exact .inr ⟨h.1, x, List.mem_cons_self, hx, content, hc, h.2⟩
            · exact .inr ⟨h1, y, List.mem_cons_of_mem _ hy, h2⟩
          · rintro (h | ⟨h1, y, hy, h2⟩)
            · exact .inl (.inl h)
            · rcases List.mem_cons.mp hy with rfl | hy
              · obtain ⟨_, c, hc', h3⟩ := h2
                rw [hc] at hc'; cases hc'
                exact .inl (.inr ⟨h1, h3⟩)
              · exact .inr ⟨h1, y, hy, h2⟩
      · rename_i hx
        constructor
        · rintro (h | ⟨h1, y, hy, h2⟩)
          · exact .inl h
          · exact .inr ⟨h1, y, List.mem_cons_of_mem _ hy, h2⟩
        · rintro (h | ⟨h1, y, hy, h2⟩)
          · exact .inl h
          · rcases List.mem_cons.mp hy with rfl | hy
            · exact absurd h2.1 hx
            · exact .inr ⟨h1, y, hy, h2⟩
  rw [k]
  simp

theorem mem_referenced' (p : Package) (m : Str) :
    m ∈ referencedMedia p (p.partPaths.filter isMediaPath) ↔ m ∈ p.partPaths ∧ IsMedia m ∧ Mentioned p m := by
  rw [mem_referenced, List.mem_filter]
  constructor
  · rintro ⟨⟨h1, h2⟩, path, _, hs, content, hc, hm⟩
    refine ⟨h1, startsWith_prefix.mp h2, ?_⟩
    unfold Package.getPartString at hc
    obtain ⟨data, hd, rfl⟩ := Option.map_eq_some_iff.mp hc
    unfold isSlideXmlPath at hs
    rw [Bool.and_eq_true] at hs
    unfold mediaMentioned at hm
    rw [Bool.or_eq_true, containsStr_iff_infix, containsStr_iff_infix] at hm
    exact ⟨path, data, hd, startsWith_prefix.mp hs.1, endsWith_suffix.mp hs.2, hm⟩
  · rintro ⟨h1, h2, path, data, hd, s1, s2, hm⟩
    refine ⟨⟨h1, startsWith_prefix.mpr h2⟩, path, ?_, ?_, decodeLossy data, ?_, ?_⟩
    · exact (AMap.get_isSome_iff p path).mp (by unfold Package.getPart at hd; rw [hd]; rfl)
    · unfold isSlideXmlPath
      rw [startsWith_prefix.mpr s1, endsWith_suffix.mpr s2]; rfl
    · unfold Package.getPartString
      rw [hd]; rfl
    · unfold mediaMentioned
      rw [Bool.or_eq_true, containsStr_iff_infix, containsStr_iff_infix]
      exact hm

theorem remove_fold (ref : List Str) (l : List Str) (p : Package) (n : Nat) :
    (∀ path, (l.foldl (fun s m => if ref.contains m then s else ((s.1.removePart m).1, s.2 + 1)) (p, n)).1.getPart
      path = if path ∈ l ∧ path ∉ ref then none else p.getPart path) ∧
    (l.foldl (fun (s : Package × Nat) m => if ref.contains m then s else ((s.1.removePart m).1, s.2 + 1)) (p, n)).2 =
      n + (l.filter fun m => m ∉ ref).length := by
  induction l generalizing p n with
  | nil => simp
  | cons x l ih =>
    rw [List.foldl_cons]
    by_cases hx : x ∈ ref
    · rw [if_pos (by simpa using hx)]
      obtain ⟨h1, h2⟩ := ih p n
      refine ⟨fun path => ?_, ?_⟩
      · rw [h1]
        by_cases h : path ∈ l ∧ path ∉ ref
        · rw [if_pos h, if_pos ⟨List.mem_cons_of_mem _ h.1, h.2⟩]
        · rw [if_neg h, if_neg]
          rintro ⟨h3, h4⟩
          rcases List.mem_cons.mp h3 with rfl | h3
          · exact h4 hx
          · exact h ⟨h3, h4⟩
      · rw [h2, List.filter_cons_of_neg (by simpa using hx)]
    · rw [if_neg (by simpa using hx)]
      obtain ⟨h1, h2⟩ := ih (p.removePart x).1 (n + 1)
      refine ⟨fun path => ?_, ?_⟩
      · rw [h1]
        have e : Package.getPart (p.removePart x).1 path = if path = x then none else p.getPart path :=
          AMap.get_remove p x path
        by_cases h : path ∈ l ∧ path ∉ ref
        · rw [if_pos h, if_pos ⟨List.mem_cons_of_mem _ h.1, h.2⟩]
        · rw [if_neg h, e]
          by_cases hpx : path = x
          · rw [if_pos hpx, if_pos ⟨by simp [hpx], by rw [hpx]; exact hx⟩]
          · rw [if_neg hpx, if_neg]
            rintro ⟨h3, h4⟩
            rcases List.mem_cons.mp h3 with h3 | h3
            · exact hpx h3
            · exact h ⟨h3, h4⟩
      · rw [h2, List.filter_cons_of_pos (by simpa using hx), List.length_cons]
        omega

open Classical in
/-- What unused-media removal does to each part: exactly the media parts that no slide text mentions are
dropped, everything else is kept with its content. -/
theorem C25_exact_partial (p : Package) (path : Str) :
    (removeUnusedMedia p).1.getPart path =
      if IsMedia path ∧ ¬ Mentioned p path then none else p.getPart path := by
  unfold removeUnusedMedia
  simp only
  rw [(remove_fold _ _ _ _).1]
  simp only [mem_referenced', List.mem_filter]
  have hm : isMediaPath path = true ↔ IsMedia path := startsWith_prefix
  simp only [hm]
  by_cases hp : path ∈ p.partPaths
  · simp only [hp, true_and]
    by_cases h1 : IsMedia path <;> by_cases h2 : Mentioned p path <;> simp [h1, h2]
  · have : p.getPart path = none := (AMap.get_eq_none_iff p path).mpr hp
    simp [this]

/-- **C25**: parts that are not media parts are kept. -/
theorem C25_others_kept (p : Package) (path : Str) (h : ¬ IsMedia path) :
    (removeUnusedMedia p).1.getPart path = p.getPart path := by
  classical
  rw [C25_exact_partial, if_neg (fun h' => h h'.1)]

/-- **C25**: the number reported is the number of parts that are gone. -/
theorem C25_count (p : Package) (hp : p.Ok) :
    (removeUnusedMedia p).2 = (p.partPaths.filter fun x => ((removeUnusedMedia p).1.getPart x).isNone).length ∧
      (removeUnusedMedia p).2 + (removeUnusedMedia p).1.partCount = p.partCount := by
  classical
  have e : (removeUnusedMedia p).2 =
      (p.partPaths.filter fun x => ((removeUnusedMedia p).1.getPart x).isNone).length := by
    have h := (remove_fold (referencedMedia p (p.partPaths.filter isMediaPath)) (p.partPaths.filter isMediaPath) p 0).2
    rw [Nat.zero_add] at h
    refine h.trans ?_
    rw [List.filter_filter]
    congr 1
    apply List.filter_congr
    intro x hx
    rw [C25_exact_partial]
    have hm : isMediaPath x = true ↔ IsMedia x := startsWith_prefix
    have hs : (p.getPart x).isNone = false := by
      rw [Option.isNone_eq_false_iff]
      exact (AMap.get_isSome_iff p x).mpr hx
    rw [Bool.eq_iff_iff, Bool.and_eq_true, decide_eq_true_eq, mem_referenced', hm]
    simp only [hx, true_and]
    by_cases h1 : IsMedia x <;> by_cases h2 : Mentioned p x <;> simp [h1, h2, hs]
  refine ⟨e, ?_⟩
  have hk : ∀ (ref l : List Str) (q : Package) (n : Nat), q.Ok → (∀ x ∈ l, x ∈ q.keys) → l.Nodup →
      (l.foldl (fun (s : Package × Nat) m => if ref.contains m then s else ((s.1.removePart m).1, s.2 + 1)) (q, n)).2 +
      (l.foldl (fun (s : Package × Nat) m => if ref.contains m then s else ((s.1.removePart m).1, s.2 + 1))
        (q, n)).1.partCount = n + q.partCount := by
    intro ref l
    induction l with
    | nil => intros; rfl
    | cons x l ih =>
      intro q n hq hx hn
      rw [List.foldl_cons]
      split
      · exact ih q n hq (fun y hy => hx y (List.mem_cons_of_mem _ hy)) hn.of_cons
      · have hn' := List.nodup_cons.mp hn
        rw [ih (q.removePart x).1 (n + 1) (AMap.Ok.remove hq x) ?_ hn'.2]
        · have hc : (Package.removePart q x).1.partCount + 1 = q.partCount := by
            have hmem : x ∈ q.keys := hx x List.mem_cons_self
            clear ih e
            show (AMap.remove q x).length + 1 = q.length
            unfold AMap.remove
            unfold AMap.Ok at hq
            unfold AMap.keys at hmem
            clear hx hn hn'
            induction q with
            | nil => simp at hmem
            | cons a q ihq =>
              rw [List.map_cons, List.nodup_cons] at hq
              rw [List.map_cons, List.mem_cons] at hmem
              by_cases ha : a.1 = x
              · rw [List.filter_cons_of_neg (by simpa using ha), List.length_cons]
                congr 2
                apply List.filter_eq_self.mpr
                intro y hy
                simp only [decide_eq_true_eq]
                rintro rfl
                exact hq.1 (by rw [ha]; exact List.mem_map.mpr ⟨y, hy, rfl⟩)
              · rw [List.filter_cons_of_pos (by simpa using ha), List.length_cons, List.length_cons]
                rw [ihq hq.2 (hmem.resolve_left fun h => ha h.symm)]
          omega
        · intro y hy
          have := hx y (List.mem_cons_of_mem _ hy)
          rw [← AMap.get_isSome_iff] at this ⊢
          have hne : y ≠ x := by rintro rfl; exact hn'.1 hy
          show (AMap.get (AMap.remove q x) y).isSome
          rw [AMap.get_remove, if_neg hne]
          exact this
  have := hk (referencedMedia p (p.partPaths.filter isMediaPath)) (p.partPaths.filter isMediaPath) p 0 hp
    (fun x hx => (List.mem_filter.mp hx).1) (List.Nodup.filter _ hp)
  rw [Nat.zero_add] at this
  exact this

/-- A slide with a picture, as PowerPoint and this library write it. -/
def pictureDeck : Package :=
  [(c!"ppt/slides/slide1.xml", encode c!"<p:pic><p:cNvPr id=\"4\" name=\"photo\"/><a:blip r:embed=\"rId2\"/></p:pic>"),
   (c!"ppt/slides/_rels/slide1.xml.rels",
     encode (renderRels [⟨c!"rId2", relTypeBase ++ c!"image", c!"../media/image1.png", false⟩])),
   (c!"ppt/media/image1.png", [0x89, 0x50])]

set_option maxRecDepth 20000 in
/-- **C25** fails: a picture that a slide shows is dropped whenever the slide's own XML does not happen to
contain the name of the media file. The slide refers to its picture by relationship id only, the file name
stands in the relationship part, which is not searched. -/
theorem C25_used_picture_violated :
    resolveRelTarget (relsSourceDir c!"ppt/slides/_rels/slide1.xml.rels") c!"../media/image1.png" =
      c!"ppt/media/image1.png" ∧
    pictureDeck.getPart c!"ppt/media/image1.png" = some [0x89, 0x50] ∧
    (removeUnusedMedia pictureDeck).1.getPart c!"ppt/media/image1.png" = none ∧
    (removeUnusedMedia pictureDeck).2 = 1 := by decide +kernel

/-- **C25** fails: pictures of layouts, masters, notes and charts are always dropped unless a slide mentions
their name, however they are related. -/
theorem C25_not_on_slide_violated (p : Package) (media : Str) (h : IsMedia media)
    (hno : ∀ path data, p.getPart path = some data → ¬ (c!"ppt/slides/slide" <+: path ∧ c!".xml" <:+ path)) :
    (removeUnusedMedia p).1.getPart media = none := by
  classical
  rw [C25_exact_partial, if_pos]
  refine ⟨h, ?_⟩
  rintro ⟨path, data, h1, h2, h3, _⟩
  exact hno path data h1 ⟨h2, h3⟩

/-! ## C26 -/

theorem C26_fold (p : Package) (l : List Str) (hl : ∀ x ∈ l, (p.getPart x).isSome) (a : PptxAnalysis) :
    let r := l.foldl (fun a path => match p.getPart path with
      | some data => analyzeStep a path data.length
      | none => a) a
    r.imagesSize + r.xmlSize + r.otherSize = a.imagesSize + a.xmlSize + a.otherSize +
      (l.map fun x => ((p.getPart x).getD []).length).sum ∧
    r.imageCount + r.mediaCount = a.imageCount + a.mediaCount + l.countP (fun x => startsWith c!"ppt/media/" x) ∧
    r.imageCount = a.imageCount + l.countP (fun x => startsWith c!"ppt/media/" x &&
      (endsWith c!".png" x || endsWith c!".jpg" x || endsWith c!".jpeg" x)) ∧
    r.slideCount = a.slideCount + l.countP (fun x => startsWith c!"ppt/slides/slide" x && endsWith c!".xml" x) := by
  induction l generalizing a with
  | nil => simp
  | cons x l ih =>
    obtain ⟨data, hd⟩ := Option.isSome_iff_exists.mp (hl x (by simp))
    simp only [List.foldl_cons, hd]
    obtain ⟨h1, h2, h3, h4⟩ := ih (fun y hy => hl y (by simp [hy])) (analyzeStep a x data.length)
    have hms : startsWith c!"ppt/media/" x = true → startsWith c!"ppt/slides/slide" x = false := by
      intro h
      obtain ⟨r, rfl⟩ := startsWith_iff.mp h
      rfl
    rw [h1, h2, h3, h4]
    simp only [List.map_cons, List.sum_cons, hd, Option.getD_some, List.countP_cons]
    unfold analyzeStep
    cases hm : startsWith c!"ppt/media/" x
    · simp only [Bool.false_eq_true, if_false, Bool.false_and, Nat.add_zero]
      cases hx : endsWith c!".xml" x <;> cases hr : endsWith c!".rels" x <;>
        cases hs : startsWith c!"ppt/slides/slide" x <;> simp <;> omega
    · rw [hms hm]
      simp only [if_true, Bool.true_and, Bool.false_and, Bool.false_eq_true, if_false]
      cases hi : (endsWith c!".png" x || endsWith c!".jpg" x || endsWith c!".jpeg" x) <;> simp <;> omega

/-- The total size of the parts of a package. -/
def totalSize (p : Package) : Nat := (p.map fun e => e.2.length).sum

theorem sizes_eq (p : Package) (hp : p.Ok) :
    (p.partPaths.map fun x => ((p.getPart x).getD []).length) = p.map fun e => e.2.length := by
  unfold Package.partPaths AMap.keys
  rw [List.map_map]
  apply List.map_congr_left
  intro e he
  have := (AMap.mem_iff_get hp e.1 e.2).mp he
  show ((AMap.get p e.1).getD []).length = _
  rw [this]; rfl

/-- **C26**: the sizes reported for images, XML and other parts add up to the size of all parts. -/
theorem C26_sizes (p : Package) (hp : p.Ok) :
    (analyzePackage p).imagesSize + (analyzePackage p).xmlSize + (analyzePackage p).otherSize = totalSize p := by
  have h := (C26_fold p p.partPaths (fun x hx => (AMap.get_isSome_iff p x).mpr hx) ⟨0, 0, 0, 0, 0, 0⟩).1
  rw [sizes_eq p hp] at h
  simp only [Nat.zero_add] at h
  exact h

/-- **C26**: every part below `ppt/media/` is counted once, as an image exactly when it is a PNG or JPEG
file, and the slide count is the number of slide parts. -/
theorem C26_counts (p : Package) :
    (analyzePackage p).imageCount + (analyzePackage p).mediaCount =
      p.countP (fun e => c!"ppt/media/".isPrefixOf e.1) ∧
    (analyzePackage p).imageCount = p.countP (fun e => c!"ppt/media/".isPrefixOf e.1 &&
      (c!".png".isSuffixOf e.1 || c!".jpg".isSuffixOf e.1 || c!".jpeg".isSuffixOf e.1)) ∧
    (analyzePackage p).slideCount =
      p.countP (fun e => c!"ppt/slides/slide".isPrefixOf e.1 && c!".xml".isSuffixOf e.1) := by
  have h := (C26_fold p p.partPaths (fun x hx => (AMap.get_isSome_iff p x).mpr hx) ⟨0, 0, 0, 0, 0, 0⟩).2
  simp only [Nat.zero_add] at h
  unfold Package.partPaths AMap.keys at h
  rw [List.countP_map, List.countP_map, List.countP_map] at h
  exact h

example : analyzePackage [(c!"ppt/media/image1.png", [1, 2]), (c!"ppt/slides/slide1.xml", [3]), (c!"x.bin", [4])] =
    ⟨2, 1, 1, 1, 1, 0⟩ := by decide

/-! ## C72 -/

/-- The document property parts. -/
def docPropParts : List Str :=
  [c!"docProps/core.xml", c!"docProps/app.xml", c!"docProps/custom.xml", c!"docProps/thumbnail.jpeg"]

theorem getPart_remove (p : Package) (x path : Str) :
    Package.getPart (p.removePart x).1 path = if path = x then none else p.getPart path :=
  AMap.get_remove p x path

theorem getPart_removeProps (p : Package) (path : Str) :
    (removeDocumentProperties p).getPart path = if path ∈ docPropParts then none else p.getPart path := by
  unfold removeDocumentProperties docPropParts
  simp only [getPart_remove, List.mem_cons, List.not_mem_nil, or_false]
  split_ifs <;> simp_all

theorem replace_notes (r : Str) : ∃ t, replaceStr c!"notesSlides/" c!"notesSlides/_rels/"
    (c!"ppt/notesSlides/" ++ r) ++ c!".rels" = c!"ppt/notesSlides/" ++ t := by
  have h : splitOnce? c!"notesSlides/" (c!"ppt/notesSlides/" ++ r) = some (c!"ppt/", r) := rfl
  unfold replaceStr
  rw [replaceFuel, h]
  exact ⟨_, by simp only [List.append_assoc, List.cons_append, List.nil_append]; rfl⟩

theorem getPart_removeNotes (p : Package) (path : Str) :
    (removeNotesSlides p).getPart path =
      if startsWith c!"ppt/notesSlides/" path then none else p.getPart path := by
  unfold removeNotesSlides
  have k : ∀ (l : List Str) (q : Package), (∀ x ∈ l, startsWith c!"ppt/notesSlides/" x = true) →
      Package.getPart (l.foldl removeNotesStep q) path = if path ∈ l ∨ ∃ y ∈ l, path = replaceStr c!"notesSlides/" c!"notesSlides/_rels/" y ++ c!".rels"
          then none else q.getPart path := by
    intro l
    induction l with
    | nil => intro q _; simp
    | cons x l ih =>
      intro q h
      rw [List.foldl_cons, ih _ fun y hy => h y (by simp [hy])]
      unfold removeNotesStep
      simp only
      rw [getPart_remove, getPart_remove]
      by_cases h1 : path ∈ l ∨ ∃ y ∈ l, path = replaceStr c!"notesSlides/" c!"notesSlides/_rels/" y ++ c!".rels"
      · rw [if_pos h1, if_pos]
        rcases h1 with h1 | ⟨y, hy, h1⟩
        · exact .inl (List.mem_cons_of_mem _ h1)
        · exact .inr ⟨y, List.mem_cons_of_mem _ hy, h1⟩
      · rw [if_neg h1]
        by_cases h2 : path = replaceStr c!"notesSlides/" c!"notesSlides/_rels/" x ++ c!".rels"
        · rw [if_pos h2, if_pos (.inr ⟨x, List.mem_cons_self, h2⟩)]
        · rw [if_neg h2]
          by_cases h3 : path = x
          · rw [if_pos h3, if_pos (.inl (by simp [h3]))]
          · rw [if_neg h3, if_neg]
            rintro (h4 | ⟨y, hy, h4⟩)
            · rcases List.mem_cons.mp h4 with h4 | h4
              · exact h3 h4
              · exact h1 (.inl h4)
            · rcases List.mem_cons.mp hy with rfl | hy
              · exact h2 h4
              · exact h1 (.inr ⟨y, hy, h4⟩)
  rw [k _ _ fun x hx => (List.mem_filter.mp hx).2]
  by_cases hs : startsWith c!"ppt/notesSlides/" path = true
  · rw [if_pos hs]
    by_cases hp : path ∈ p.partPaths
    · rw [if_pos (.inl (List.mem_filter.mpr ⟨hp, hs⟩))]
    · have : p.getPart path = none := (AMap.get_eq_none_iff p path).mpr hp
      rw [this, ite_self]
  · rw [if_neg hs, if_neg]
    rintro (h | ⟨y, hy, rfl⟩)
    · exact hs (List.mem_filter.mp h).2
    · obtain ⟨r, rfl⟩ := startsWith_iff.mp (List.mem_filter.mp hy).2
      obtain ⟨t, ht⟩ := replace_notes r
      exact hs (startsWith_iff.mpr ⟨t, ht⟩)

/-- XML parts and relationship parts. -/
def IsXml (path : Str) : Prop := c!".xml" <:+ path ∨ c!".rels" <:+ path

instance (path : Str) : Decidable (IsXml path) := inferInstanceAs (Decidable (_ ∨ _))

theorem getPart_optimize (p : Package) (hp : p.Ok) (path : Str) :
    (optimizeXmlContent p).getPart path =
      if IsXml path then (p.getPart path).map fun d => encode (minimizeXml (decodeLossy d)) else p.getPart path := by
  unfold optimizeXmlContent
  have k : ∀ (l : List Str) (q : Package), l.Nodup →
      Package.getPart (l.foldl optimizeStep q) path =
        if path ∈ l then (q.getPart path).map fun d => encode (minimizeXml (decodeLossy d)) else q.getPart path := by
    intro l
    induction l with
    | nil => intro q _; simp
    | cons x l ih =>
      intro q hn
      have hn' := List.nodup_cons.mp hn
      rw [List.foldl_cons, ih _ hn'.2]
      have e : Package.getPart (optimizeStep q x) path =
          if path = x then (q.getPart path).map fun d => encode (minimizeXml (decodeLossy d)) else q.getPart path := by
        unfold optimizeStep Package.getPartString
        cases hx : q.getPart x with
        | none =>
          simp only [Option.map_none]
          split
          · rename_i h; rw [h, hx]; rfl
          · rfl
        | some d =>
          simp only [Option.map_some]
          show AMap.get (AMap.insert q x _) path = _
          rw [AMap.get_insert]
          split
          · rename_i h; rw [h, hx]; rfl
          · rfl
      rw [e]
      by_cases hx : path = x
      · subst hx
        rw [if_neg hn'.1, if_pos rfl, if_pos List.mem_cons_self]
      · rw [if_neg hx]
        simp only [List.mem_cons, hx, false_or]
  rw [k (p.partPaths.filter _) p (List.Nodup.filter _ hp)]
  by_cases hx : path ∈ p.partPaths
  · have : path ∈ p.partPaths.filter (fun x => endsWith c!".xml" x || endsWith c!".rels" x) ↔ IsXml path := by
      rw [List.mem_filter, Bool.or_eq_true, endsWith_suffix, endsWith_suffix]
      exact ⟨fun h => h.2, fun h => ⟨hx, h⟩⟩
    by_cases hi : IsXml path
    · rw [if_pos hi, if_pos (this.mpr hi)]
    · rw [if_neg hi, if_neg (fun h => hi (this.mp h))]
  · have : p.getPart path = none := (AMap.get_eq_none_iff p path).mpr hx
    rw [this]
    simp

/-- The parts that compression drops. -/
def Dropped (o : CompressionOptions) (p : Package) (path : Str) : Prop :=
  (o.removeUnusedMedia = true ∧ IsMedia path ∧ ¬ Mentioned p path) ∨
  (o.removeProperties = true ∧ path ∈ docPropParts) ∨
  (o.removeNotes = true ∧ c!"ppt/notesSlides/" <+: path)

theorem ok_remove {p : Package} (h : p.Ok) (x : Str) : (p.removePart x).1.Ok := AMap.Ok.remove h x

theorem ok_removeMedia {p : Package} (h : p.Ok) : (removeUnusedMedia p).1.Ok := by
  unfold removeUnusedMedia
  simp only
  generalize referencedMedia p _ = ref
  generalize p.partPaths.filter isMediaPath = l
  generalize 0 = n
  induction l generalizing p n with
  | nil => exact h
  | cons x l ih =>
    rw [List.foldl_cons]
    split
    · exact ih h n
    · exact ih (ok_remove h x) (n + 1)

theorem ok_removeNotes {p : Package} (h : p.Ok) : (removeNotesSlides p).Ok := by
  unfold removeNotesSlides
  generalize p.partPaths.filter _ = l
  induction l generalizing p with
  | nil => exact h
  | cons x l ih =>
    rw [List.foldl_cons]
    exact ih (ok_remove (ok_remove h _) _)

open Classical in
/-- **C72**, exactly what compression does to every part, for all options: unmentioned media, document
properties and notes are dropped on request, XML is minified on request, and nothing else happens. (Missing:
see the violations.) -/
theorem C72_exact_partial (o : CompressionOptions) (p : Package) (hp : p.Ok) (path : Str) :
    (compressPackage o p).1.getPart path =
      if Dropped o p path then none
      else if o.optimizeXml = true ∧ IsXml path then (p.getPart path).map fun d => encode (minimizeXml (decodeLossy d))
      else p.getPart path := by
  obtain ⟨um, pr, no, co, ox⟩ := o
  have h1 : ∀ q : Package, q.Ok → (if ox = true then optimizeXmlContent q else q).getPart path =
      if ox = true ∧ IsXml path then (q.getPart path).map fun d => encode (minimizeXml (decodeLossy d))
      else q.getPart path := by
    intro q hq
    cases ox
    · simp
    · simp [getPart_optimize q hq]
  have h2 : ∀ q : Package, (if no = true then removeNotesSlides q else q).getPart path =
      if no = true ∧ c!"ppt/notesSlides/" <+: path then none else q.getPart path := by
    intro q
    cases no
    · simp
    · simp only [if_true, true_and, getPart_removeNotes, startsWith_prefix]
  have h3 : ∀ q : Package, (if pr = true then removeDocumentProperties q else q).getPart path =
      if pr = true ∧ path ∈ docPropParts then none else q.getPart path := by
    intro q
    cases pr
    · simp
    · simp only [if_true, true_and, getPart_removeProps]
  have h4 : (if um = true then removeUnusedMedia p else (p, 0)).1.getPart path =
      if um = true ∧ IsMedia path ∧ ¬ Mentioned p path then none else p.getPart path := by
    cases um
    · simp
    · simp only [if_true, true_and]
      exact C25_exact_partial p path
  have o4 : (if um = true then removeUnusedMedia p else (p, 0)).1.Ok := by
    split
    · exact ok_removeMedia hp
    · exact hp
  have o3 : ∀ q : Package, q.Ok → (if pr = true then removeDocumentProperties q else q).Ok := by
    intro q hq
    split
    · exact ok_remove (ok_remove (ok_remove (ok_remove hq _) _) _) _
    · exact hq
  have o2 : ∀ q : Package, q.Ok → (if no = true then removeNotesSlides q else q).Ok := by
    intro q hq
    split
    · exact ok_removeNotes hq
    · exact hq
  unfold compressPackage
  simp only
  rw [h1 _ (o2 _ (o3 _ o4)), h2, h3, h4]
  unfold Dropped
  simp only
  by_cases a : um = true ∧ IsMedia path ∧ ¬ Mentioned p path
  · simp [a]
  · by_cases b : pr = true ∧ path ∈ docPropParts
    · simp [b]
    · by_cases c : no = true ∧ c!"ppt/notesSlides/" <+: path
      · simp [c]
      · rw [if_neg c, if_neg b, if_neg a]
        rw [if_neg (c := _ ∨ _ ∨ _) (by rintro (h | h | h); exacts [a h, b h, c h])]

/-- **C72** fails: removing the document properties leaves the relationships of the package to them in place.
Every package whose root relationships name `docProps/core.xml` is left with a dangling relationship. -/
theorem C72_dangling_properties_violated (o : CompressionOptions) (hr : o.removeProperties = true)
    (ho : o.optimizeXml = false) (p : Package) (hp : p.Ok) :
    (compressPackage o p).1.getPart c!"_rels/.rels" = p.getPart c!"_rels/.rels" ∧
      (compressPackage o p).1.getPart c!"docProps/core.xml" = none ∧
      resolveRelTarget (relsSourceDir c!"_rels/.rels") c!"docProps/core.xml" = c!"docProps/core.xml" := by
  classical
  refine ⟨?_, ?_, by decide⟩
  · rw [C72_exact_partial o p hp, if_neg, if_neg (by simp [ho])]
    rintro (h | h | h)
    · exact absurd h.2.1 (by unfold IsMedia; decide)
    · exact absurd h.2 (by decide)
    · exact absurd h.2 (by decide)
  · rw [C72_exact_partial o p hp, if_pos]
    exact .inr (.inl ⟨hr, by decide⟩)

/-- **C72** fails: removing the notes leaves the relationships of the slides to their notes in place. -/
theorem C72_dangling_notes_violated (o : CompressionOptions) (hr : o.removeNotes = true)
    (ho : o.optimizeXml = false) (p : Package) (hp : p.Ok) :
    (compressPackage o p).1.getPart c!"ppt/slides/_rels/slide1.xml.rels" =
      p.getPart c!"ppt/slides/_rels/slide1.xml.rels" ∧
      (compressPackage o p).1.getPart c!"ppt/notesSlides/notesSlide1.xml" = none ∧
      resolveRelTarget (relsSourceDir c!"ppt/slides/_rels/slide1.xml.rels") c!"../notesSlides/notesSlide1.xml" =
        c!"ppt/notesSlides/notesSlide1.xml" := by
  classical
  refine ⟨?_, ?_, by decide⟩
  · rw [C72_exact_partial o p hp, if_neg, if_neg (by simp [ho])]
    rintro (h | h | h)
    · exact absurd h.2.1 (by unfold IsMedia; decide)
    · exact absurd h.2 (by decide)
    · exact absurd h.2 (by decide)
  · rw [C72_exact_partial o p hp, if_pos]
    exact .inr (.inr ⟨hr, by decide⟩)

/-- **C72** fails: the option to remove comments has no effect at all. -/
theorem C72_comments_kept_violated (o : CompressionOptions) (b : Bool) (p : Package) :
    compressPackage { o with removeComments := b } p = compressPackage o p := rfl

end PptRs.Props
