import Verif.Lemmas.PresText
import Verif.Props.BuilderIds
import Verif.Props.Rels
import Verif.Props.BuilderTargets

/-!
# C16–C19, C69–C71: the presentation editor
-/

namespace PptRs.Props

open PptRs PptRs.Spec PptRs.Editor

/-! ## C16 -/

theorem isSlidePart_iff {k : Str} : isSlidePart k = true ↔ IsSlideName k := by
  unfold isSlidePart IsSlideName
  simp only [Bool.and_eq_true, Bool.not_eq_true']
  have hr : containsStr c!"_rels" k = false ↔ ¬ ∃ a b, k = a ++ c!"_rels" ++ b := by
    rw [← containsStr_iff, Bool.not_eq_true]
  rw [hr]
  constructor
  · rintro ⟨⟨h1, h2⟩, h3⟩
    obtain ⟨r, rfl⟩ := startsWith_iff.mp h1
    have h2' : c!".xml" <:+ c!"ppt/slides/slide" ++ r := by
      simpa [endsWith] using h2
    obtain ⟨q, hq⟩ := h2'
    have hq2 : ∃ m, q = c!"ppt/slides/slide" ++ m := by
      rcases List.append_eq_append_iff.mp hq with ⟨x, hx, hy⟩ | ⟨x, hx, hy⟩
      · cases x with
        | nil => exact ⟨[], by rw [hx]; simp⟩
        | cons y x =>
          exfalso
          have : y = '.' := by
            have := congrArg List.head? hy
            simpa using this.symm
          subst this
          have hm : '.' ∈ c!"ppt/slides/slide" := by rw [hx]; simp
          revert hm
          decide
      · exact ⟨x, hx⟩
    obtain ⟨m, rfl⟩ := hq2
    exact ⟨m, hq.symm, h3⟩
  · rintro ⟨m, rfl, h3⟩
    refine ⟨⟨startsWith_iff.mpr ⟨m ++ c!".xml", by simp⟩, ?_⟩, h3⟩
    rw [endsWith, List.isSuffixOf_iff_suffix]
    exact ⟨_, rfl⟩

theorem countSlides_eq {p : Package} {l : List Slide} (hp : AMap.Ok p) (h : SlidesAre p l) :
    countSlides p = l.length := by
  have hperm : (p.partPaths.filter isSlidePart).Perm
      ((List.range l.length).map fun i => slidePath (i + 1)) := by
    refine (List.perm_ext_iff_of_nodup (hp.filter _) ?_).mpr fun k => ?_
    · refine List.Nodup.map (fun a b e => ?_) List.nodup_range
      have := slidePath_inj.mp e
      omega
    · rw [List.mem_filter, isSlidePart_iff]
      have hk : k ∈ p.partPaths ↔ (p.getPart k).isSome := by
        unfold Package.getPart
        rw [AMap.get_isSome_iff]
        rfl
      constructor
      · rintro ⟨h1, h2⟩
        obtain ⟨i, hi, e⟩ := h.only k h2 (hk.mp h1)
        exact List.mem_map.mpr ⟨i, by simpa using hi, e.symm⟩
      · intro hm
        obtain ⟨i, hi, rfl⟩ := List.mem_map.mp hm
        refine ⟨hk.mpr ?_, isSlideName_slidePath _⟩
        have := h.slides i
        rw [List.getElem?_eq_getElem (by simpa using hi)] at this
        rw [show p.getPart (slidePath (i + 1)) = _ from this]
        rfl
  unfold countSlides
  rw [hperm.length_eq]
  simp

theorem runAll_correct {e : Editor} {l : List Slide} (h : Inv e l) (ops : List Op) :
    (runAll e ops).1 = (editAll l ops).1 ∧ Inv (runAll e ops).2 (editAll l ops).2 := by
  induction ops generalizing e l with
  | nil => exact ⟨rfl, h⟩
  | cons op ops ih =>
    obtain ⟨h1, h2⟩ := run_correct h op
    obtain ⟨h3, h4⟩ := ih h1
    refine ⟨?_, h4⟩
    show (op.run e).2 :: (runAll (op.run e).1 ops).1 = _
    rw [h2, h3]
    rfl

/-- **C16**: opening a package with the slides `l` and running any sequence of calls gives the results
of editing the list `l`, and leaves the package with the slides of the edited list, in order, under
the names `slide1.xml`, `slide2.xml`, ... and no other slide. -/
theorem C16_editing_is_list_editing (p : Package) (l : List Slide) (hp : AMap.Ok p)
    (h : SlidesAre p l) (ht : NoTemps p) (ops : List Op) :
    (runAll (ofPackage p) ops).1 = (editAll l ops).1 ∧
      SlidesAre (runAll (ofPackage p) ops).2.package (editAll l ops).2 ∧
      (runAll (ofPackage p) ops).2.slideCount = (editAll l ops).2.length ∧
      ∀ i, (runAll (ofPackage p) ops).2.getSlide i = (editAll l ops).2[i]?.map (·.xml) := by
  obtain ⟨h1, h2⟩ := runAll_correct (e := ofPackage p) ⟨h, ht, countSlides_eq hp h⟩ ops
  exact ⟨h1, h2.are, h2.count, h2.slide⟩

/-- **C16** for a new presentation. -/
theorem C16_new_presentation (ops : List Op) :
    (runAll Editor.new ops).1 = (editAll [] ops).1 ∧
      SlidesAre (runAll Editor.new ops).2.package (editAll [] ops).2 ∧
      (runAll Editor.new ops).2.slideCount = (editAll [] ops).2.length ∧
      ∀ i, (runAll Editor.new ops).2.getSlide i = (editAll [] ops).2[i]?.map (·.xml) := by
  have h0 : Inv Editor.new [] := by
    refine ⟨⟨fun i => rfl, fun i => rfl, fun path _ hs => ?_⟩, ⟨rfl, rfl⟩, rfl⟩
    exact absurd hs (by simp [Editor.new, Package.new, Package.getPart, AMap.get])
  obtain ⟨h1, h2⟩ := runAll_correct h0 ops
  exact ⟨h1, h2.are, h2.count, h2.slide⟩

example (a b c : SlideText) :
    (editAll [] [.add a, .add b, .insert 1 c, .reorder 0 2, .remove 1, .remove 7]).1 =
      [some 0, some 1, some 1, some 0, some 0, none] ∧
    (editAll [] [.add a, .add b, .insert 1 c, .reorder 0 2, .remove 1, .remove 7]).2 =
      [Slide.of c, Slide.of a] := ⟨rfl, rfl⟩

/-! ## C17 -/

/-- **C17**: a call that is rejected leaves the editor as it was, in every state. -/
theorem C17_rejected_changes_nothing (e : Editor) (op : Op) (h : (op.run e).2 = none) :
    (op.run e).1 = e := by
  cases op with
  | add c => exact absurd h (by simp [Op.run, addSlide])
  | insert i c =>
    simp only [Op.run, insertSlide] at h ⊢
    split
    · rfl
    · rename_i hi; rw [if_neg hi] at h; exact absurd h (by simp)
  | update i c =>
    simp only [Op.run, updateSlide] at h ⊢
    split
    · rfl
    · rename_i hi; rw [if_neg hi] at h; exact absurd h (by simp)
  | remove i =>
    simp only [Op.run, removeSlide] at h ⊢
    split
    · rfl
    · rename_i hi; rw [if_neg hi] at h; exact absurd h (by simp)
  | duplicate i =>
    simp only [Op.run, duplicateSlide] at h ⊢
    split
    · rfl
    · rename_i hi
      rw [if_neg hi] at h
      cases hg : Package.getPart e.package (slidePath (i + 1)) with
      | none => rfl
      | some x => rw [hg] at h; exact absurd h (by simp)
  | reorder a b =>
    simp only [Op.run, reorderSlide] at h ⊢
    split
    · rfl
    · rename_i hi
      rw [if_neg hi] at h
      split
      · rfl
      · rename_i hab; rw [if_neg hab] at h; exact absurd h (by simp)

/-- The indices of a call are in range. -/
def InRange (n : Nat) : Op → Prop
  | .add _ => True
  | .insert i _ => i ≤ n
  | .update i _ => i < n
  | .remove i => i < n
  | .duplicate i => i < n
  | .reorder a b => a < n ∧ b < n

/-- **C17**: after any history, a call succeeds exactly if its indices are in range. -/
theorem C17_accepted_iff_in_range (p : Package) (l : List Slide) (hp : AMap.Ok p)
    (h : SlidesAre p l) (ht : NoTemps p) (ops : List Op) (op : Op) :
    let e := (runAll (ofPackage p) ops).2
    ((op.run e).2.isSome ↔ InRange e.slideCount op) := by
  intro e
  obtain ⟨_, h2⟩ := runAll_correct (e := ofPackage p) ⟨h, ht, countSlides_eq hp h⟩ ops
  obtain ⟨_, h3⟩ := run_correct h2 op
  rw [show (op.run e).2 = _ from h3, show e.slideCount = _ from h2.count]
  generalize (editAll l ops).2 = m
  cases op with
  | add c => simp [editList, InRange]
  | insert i c =>
    simp only [editList, InRange]
    split <;> simp_all
  | update i c =>
    simp only [editList, InRange]
    cases hi : m[i]? with
    | none => simpa using List.getElem?_eq_none_iff.mp hi
    | some s => simpa using (List.getElem?_eq_some_iff.mp hi).1
  | remove i =>
    simp only [editList, InRange]
    split <;> simp_all
  | duplicate i =>
    simp only [editList, InRange]
    cases hi : m[i]? with
    | none => simpa using List.getElem?_eq_none_iff.mp hi
    | some s => simpa using (List.getElem?_eq_some_iff.mp hi).1
  | reorder a b =>
    simp only [editList, InRange]
    cases hi : m[a]? with
    | none =>
      have := List.getElem?_eq_none_iff.mp hi
      simp
      omega
    | some s =>
      have := (List.getElem?_eq_some_iff.mp hi).1
      simp only
      split
      · simp; omega
      · simp; omega

/-- The indices out of range for one slide. -/
example (c : SlideText) :
    (runAll Editor.new [.add c, .update 1 c, .remove 1, .insert 2 c, .duplicate 1, .reorder 0 1]).1 =
      [some 0, none, none, none, none, none] := by
  rw [(C16_new_presentation _).1]
  rfl

/-! ## C18 -/

/-- The text of a part that the editor rewrites. -/
theorem getPartString_addSlide (e : Editor) (c : SlideText) :
    Package.getPartString (e.addSlide c).1.package presRelsPath =
      (Package.getPartString e.package presRelsPath).map
        (fun x => addToPresentationRels x (e.slideCount + 1)) ∧
    Package.getPartString (e.addSlide c).1.package presPath =
      (Package.getPartString e.package presPath).map
        (fun x => addToPresentation x (e.slideCount + 1)) := by
  have up : ∀ (p : Package) (a : Str) (f : Str → Str),
      Package.getPartString (updatePart p a f) a = (Package.getPartString p a).map f := by
    intro p a f
    unfold updatePart
    cases h : Package.getPartString p a with
    | none => rw [h]; rfl
    | some x =>
      simp only
      unfold Package.getPartString
      rw [getPart_addPart, if_pos rfl, Option.map_some, decodeLossy_encode]
      rfl
  have other : ∀ (p : Package) (a k : Str) (f : Str → Str), k ≠ a →
      Package.getPartString (updatePart p a f) k = Package.getPartString p k := by
    intro p a k f h
    unfold Package.getPartString
    rw [getPart_updatePart _ _ _ h]
  have add : ∀ (k : Str), Fixed k → Package.getPartString (Package.addPart (Package.addPart e.package
      (slidePath (e.slideCount + 1)) (encode c.xml)) (slideRelsPath (e.slideCount + 1))
      (encode newSlideRels)) k = Package.getPartString e.package k := by
    intro k hk
    unfold Package.getPartString
    rw [getPart_addBoth_other _ _ _ _ (hk.slide _) (hk.rels _)]
  constructor
  · show Package.getPartString (updatePart (updatePart (updatePart _ _ _) _ _) _ _) _ = _
    rw [other _ _ _ _ (by decide), up, other _ _ _ _ (by decide), add _ fixed_presRels]
  · show Package.getPartString (updatePart (updatePart (updatePart _ _ _) _ _) _ _) _ = _
    rw [other _ _ _ _ (by decide), other _ _ _ _ (by decide), up, add _ fixed_pres]

/-- **C18**, what does hold: a slide that is added gets an additional relationship to its part, and if
the id `rId{n+2}` was free, the ids stay distinct. (Missing: the id is not free in any generated deck,
see below.) -/
theorem C18_added_relationship_partial (e : Editor) (c : SlideText) (l : List RelEntry)
    (hl : ∀ r ∈ l, r.Plain) (h : Package.getPartString e.package presRelsPath = some (renderRels l)) :
    ((Package.getPartString (e.addSlide c).1.package presRelsPath).bind readRels =
      some (l.map relRead ++ [(some (c!"rId" ++ dec (e.slideCount + 2)), some (relTypeBase ++ c!"slide"),
        some (c!"slides/slide" ++ dec (e.slideCount + 1) ++ c!".xml"))])) ∧
    ((l.map (·.id)).Nodup → (c!"rId" ++ dec (e.slideCount + 2)) ∉ l.map (·.id) →
      ((l ++ [addedRel (e.slideCount + 1)]).map (·.id)).Nodup) := by
  constructor
  · rw [(getPartString_addSlide e c).1, h, Option.map_some, Option.bind_some, readRels_added hl,
      List.map_append]
    rfl
  · intro h1 h2
    rw [List.map_append, List.nodup_append]
    refine ⟨h1, by simp, ?_⟩
    intro a ha b hb e
    rw [List.map_singleton, List.mem_singleton] at hb
    subst hb
    subst e
    exact h2 ha

/-- The presentation relationships of every generated deck already use the id that `add_slide` takes. -/
theorem rid_taken (n : Nat) (a b : Bool) :
    (c!"rId" ++ dec (n + 2)) ∈ (presentationRels n a b).map (·.id) := by
  rw [presentationRels_ids]
  exact List.mem_map.mpr ⟨n + 2, by rw [List.mem_range'_1]; omega, rfl⟩

/-- **C18** fails: adding a slide to any deck as generated, with any number of slides, with or without
notes and handouts, leaves two relationships with the same id. -/
theorem C18_added_id_violated (e : Editor) (c : SlideText) (a b : Bool)
    (h : Package.getPartString e.package presRelsPath =
      some (renderRels (presentationRels e.slideCount a b))) :
    ∃ rels, (Package.getPartString (e.addSlide c).1.package presRelsPath).bind readRels = some rels ∧
      ¬ (rels.map (·.1)).Nodup ∧
      2 ≤ (rels.map (·.1)).count (some (c!"rId" ++ dec (e.slideCount + 2))) := by
  refine ⟨_, (C18_added_relationship_partial e c _ (plain_presentationRels _ a b) h).1, ?_⟩
  have hc : 2 ≤ ((((presentationRels e.slideCount a b).map relRead ++
      [(some (c!"rId" ++ dec (e.slideCount + 2)), some (relTypeBase ++ c!"slide"),
        some (c!"slides/slide" ++ dec (e.slideCount + 1) ++ c!".xml"))]).map (·.1)).count
      (some (c!"rId" ++ dec (e.slideCount + 2)))) := by
    rw [List.map_append, List.count_append, List.map_map]
    have h1 : some (c!"rId" ++ dec (e.slideCount + 2)) ∈
        (presentationRels e.slideCount a b).map ((·.1) ∘ relRead) := by
      obtain ⟨r, hr, e⟩ := List.mem_map.mp (rid_taken e.slideCount a b)
      exact List.mem_map.mpr ⟨r, hr, by simp [relRead, e]⟩
    have := List.count_pos_iff.mpr h1
    simp only [List.map_cons, List.map_nil, List.count_singleton_self]
    omega
  refine ⟨fun hn => ?_, hc⟩
  have := List.nodup_iff_count_le_one.mp hn (some (c!"rId" ++ dec (e.slideCount + 2)))
  omega

/-- Such an editor exists: for example with two slides and notes. -/
example : ∃ e : Editor, e.slideCount = 2 ∧ Package.getPartString e.package presRelsPath =
    some (renderRels (presentationRels e.slideCount true false)) :=
  ⟨⟨Package.addPart [] presRelsPath (encode (renderRels (presentationRels 2 true false))), 2⟩, rfl, by
    unfold Package.getPartString
    rw [getPart_addPart, if_pos rfl, Option.map_some, decodeLossy_encode]⟩

/-- **C18**: the slide list gets an entry for the new slide. -/
theorem C18_slide_list_extended (e : Editor) (c : SlideText) (a b : Bool)
    (h : Package.getPartString e.package presPath = some (presentationText e.slideCount a b)) :
    (Package.getPartString (e.addSlide c).1.package presPath).bind readSlideList =
      some ((upTo (e.slideCount + 1)).map slideRefRead) := by
  rw [(getPartString_addSlide e c).2, h, Option.map_some, Option.bind_some, readSlideList_added]
  simp [upTo, List.range_succ]

/-! ## C19, C69 and C71: after a structural edit -/

/-- The call rewrites the presentation, its relationships and the content types. -/
def Structural : Op → Prop
  | .insert _ _ | .remove _ | .duplicate _ => True
  | .reorder a b => a ≠ b
  | _ => False

/-- The texts written by a structural edit. -/
theorem rebuild_texts (e : Editor) :
    let notes := hasNotesList (presText e.package)
    let handout := hasHandoutList (presText e.package)
    Package.getPartString (rebuild e).package presPath =
      some (rebuiltPresentation e.slideCount notes handout) ∧
    Package.getPartString (rebuild e).package presRelsPath =
      some (renderRels (presentationRels e.slideCount notes handout)) ∧
    Package.getPartString (rebuild e).package typesPath = some (rebuiltContentTypes e.slideCount) := by
  intro notes handout
  have e0 : presText (rebuildPresentation e).package = rebuiltPresentation e.slideCount notes handout := by
    unfold presText Package.getPartString
    show ((Package.getPart (Package.addPart _ presPath _) presPath).map _).getD [] = _
    rw [getPart_addPart, if_pos rfl, Option.map_some, decodeLossy_encode]
    rfl
  unfold Package.getPartString
  refine ⟨?_, ?_, ?_⟩
  · show (Package.getPart (Package.addPart (Package.addPart (Package.addPart _ _ _) _ _) _ _) _).map _ = _
    rw [getPart_addPart, if_neg (by decide), getPart_addPart, if_neg (by decide), getPart_addPart,
      if_pos rfl, Option.map_some, decodeLossy_encode]
  · show (Package.getPart (Package.addPart (Package.addPart _ _ _) _ _) _).map _ = _
    rw [getPart_addPart, if_neg (by decide), getPart_addPart, if_pos rfl, Option.map_some,
      decodeLossy_encode, e0, hasNotesList_rebuilt, hasHandoutList_rebuilt]
    rfl
  · show (Package.getPart (Package.addPart _ _ _) _).map _ = _
    rw [getPart_addPart, if_pos rfl, Option.map_some, decodeLossy_encode]
    rfl

/-- A structural edit that succeeds ends with a rebuild. -/
theorem structural_rebuild {e : Editor} {op : Op} (hs : Structural op) (h : (op.run e).2.isSome) :
    ∃ e', (op.run e).1 = rebuild e' := by
  cases op with
  | add c => exact absurd hs (by simp [Structural])
  | update i c => exact absurd hs (by simp [Structural])
  | insert i c =>
    simp only [Op.run, insertSlide] at h ⊢
    split at h
    · exact absurd h (by simp)
    · rename_i hi; rw [if_neg hi]; exact ⟨_, rfl⟩
  | remove i =>
    simp only [Op.run, removeSlide] at h ⊢
    split at h
    · exact absurd h (by simp)
    · rename_i hi; rw [if_neg hi]; exact ⟨_, rfl⟩
  | duplicate i =>
    simp only [Op.run, duplicateSlide] at h ⊢
    split at h
    · exact absurd h (by simp)
    · rename_i hi
      rw [if_neg hi]
      cases hg : Package.getPart e.package (slidePath (i + 1)) with
      | none => rw [hg] at h; exact absurd h (by simp)
      | some x => exact ⟨_, rfl⟩
  | reorder a b =>
    simp only [Op.run, reorderSlide] at h ⊢
    split at h
    · exact absurd h (by simp)
    · rename_i hi
      rw [if_neg hi, if_neg (show a ≠ b from hs)]
      exact ⟨_, rfl⟩

/-- **C71**: after a structural edit the slide list of the presentation has one entry per slide, with
distinct slide ids, and the relationships, whose ids are distinct, lead from the `i`-th entry to
`slides/slide{i}.xml`. -/
theorem C71_slide_list_after_edit (e : Editor) (op : Op) (hs : Structural op)
    (h : (op.run e).2.isSome) :
    ∃ list rels,
      (Package.getPartString (op.run e).1.package presPath).bind readSlideList = some list ∧
      (Package.getPartString (op.run e).1.package presRelsPath).bind readRels = some rels ∧
      list.length = (op.run e).1.slideCount ∧ (list.map (·.1)).Nodup ∧ (rels.map (·.1)).Nodup ∧
      ∀ i, i < (op.run e).1.slideCount → ∃ sid rid, list[i]? = some (some sid, some rid) ∧
        (some rid, some c!"http://schemas.openxmlformats.org/officeDocument/2006/relationships/slide",
          some (c!"slides/slide" ++ dec (i + 1) ++ c!".xml")) ∈ rels := by
  obtain ⟨e', he⟩ := structural_rebuild hs h
  rw [he]
  obtain ⟨h1, h2, -⟩ := rebuild_texts e'
  rw [h1, h2, Option.bind_some, Option.bind_some, readSlideList_rebuilt,
    readRels_render (plain_presentationRels _ _ _)]
  refine ⟨_, _, rfl, rfl, ?_, ?_, ?_, ?_⟩
  · simp [upTo, slideCount_rebuild]
  · rw [List.map_map, upTo_eq]
    refine List.Nodup.map (fun a b e => ?_) List.nodup_range'
    simp only [Function.comp_apply, slideRefRead, Option.some.injEq] at e
    have := dec_inj e
    omega
  · rw [List.map_map]
    have : ((·.1) ∘ relRead) = (fun x : Str => some x) ∘ (fun r : RelEntry => r.id) := rfl
    rw [this, ← List.map_map, presentationRels_ids]
    refine List.Nodup.map (fun a b e => by simpa using e) ?_
    exact List.Nodup.map (fun a b h => rid_inj h) List.nodup_range'
  · intro i hi
    rw [slideCount_rebuild] at hi
    refine ⟨dec (255 + (i + 1)), c!"rId" ++ dec (i + 1 + 1), ?_, ?_⟩
    · simp only [upTo, List.map_map, List.getElem?_map, List.getElem?_range hi, Option.map_some]
      rfl
    · refine List.mem_map.mpr ⟨rel (slideRelId (i + 1)) c!"slide" (c!"slides/slide" ++ dec (i + 1) ++ c!".xml"),
        ?_, rfl⟩
      simp only [presentationRels, List.mem_append, List.mem_map]
      exact .inl (.inl (.inl (.inr ⟨i + 1, by simp [upTo, hi], rfl⟩)))

theorem notes_rel_iff (n : Nat) (b : Bool) (r : Str) :
    (∃ t, (some r, some (relTypeBase ++ c!"notesMaster"), t) ∈ (presentationRels n true b).map relRead) ↔
      r = c!"rId" ++ dec (n + 2) := by
  constructor
  · rintro ⟨t, ht⟩
    obtain ⟨x, hx, e⟩ := List.mem_map.mp ht
    simp only [relRead, Prod.mk.injEq, Option.some.injEq] at e
    obtain ⟨rfl, e2, -⟩ := e
    simp only [presentationRels, List.mem_append, List.mem_map, List.mem_cons, List.not_mem_nil,
      or_false, if_true] at hx
    have key : ∀ a b : Str, relTypeBase ++ a = relTypeBase ++ b → a = b := fun a b h => by simpa using h
    rcases hx with (((rfl | ⟨i, _, rfl⟩) | rfl) | hx) | rfl | rfl | rfl | rfl
    · exact absurd (key _ _ e2) (by decide)
    · exact absurd (key _ _ e2) (by decide)
    · rfl
    · cases b
      · simp at hx
      · simp only [if_true, List.mem_singleton] at hx
        subst hx
        exact absurd (key _ _ e2) (by decide)
    all_goals exact absurd (key _ _ e2) (by decide)
  · rintro rfl
    refine ⟨_, List.mem_map.mpr ⟨rel (notesMasterRelId n) c!"notesMaster" c!"notesMasters/notesMaster1.xml",
      ?_, rfl⟩⟩
    simp [presentationRels]

theorem handout_rel_iff (n : Nat) (a : Bool) (r : Str) :
    (∃ t, (some r, some (relTypeBase ++ c!"handoutMaster"), t) ∈ (presentationRels n a true).map relRead) ↔
      r = c!"rId" ++ dec (n + 2 + a.toNat) := by
  constructor
  · rintro ⟨t, ht⟩
    obtain ⟨x, hx, e⟩ := List.mem_map.mp ht
    simp only [relRead, Prod.mk.injEq, Option.some.injEq] at e
    obtain ⟨rfl, e2, -⟩ := e
    simp only [presentationRels, List.mem_append, List.mem_map, List.mem_cons, List.not_mem_nil,
      or_false, if_true] at hx
    have key : ∀ a b : Str, relTypeBase ++ a = relTypeBase ++ b → a = b := fun a b h => by simpa using h
    rcases hx with (((rfl | ⟨i, _, rfl⟩) | hx) | rfl) | rfl | rfl | rfl | rfl
    · exact absurd (key _ _ e2) (by decide)
    · exact absurd (key _ _ e2) (by decide)
    · cases a
      · simp at hx
      · simp only [if_true, List.mem_singleton] at hx
        subst hx
        exact absurd (key _ _ e2) (by decide)
    · rfl
    all_goals exact absurd (key _ _ e2) (by decide)
  · rintro rfl
    refine ⟨_, List.mem_map.mpr ⟨rel (handoutMasterRelId n a) c!"handoutMaster"
      c!"handoutMasters/handoutMaster1.xml", ?_, rfl⟩⟩
    simp [presentationRels]

/-- The notes (handout) master reference of a presentation names a relationship of the right kind. -/
def MasterReachable (p : Package) (element kind : Str) : Prop :=
  ∃ r rels t, (Package.getPartString p presPath).bind (readRefs element) = some [some r] ∧
    (Package.getPartString p presRelsPath).bind readRels = some rels ∧
    (some r, some (c!"http://schemas.openxmlformats.org/officeDocument/2006/relationships/" ++ kind), t) ∈ rels

theorem notes_reachable_iff (e : Editor) (hn : hasNotesList (presText e.package) = true) :
    MasterReachable (rebuild e).package c!"p:notesMasterId" c!"notesMaster" ↔ e.slideCount = 4 := by
  obtain ⟨h1, h2, -⟩ := rebuild_texts e
  rw [hn] at h1 h2
  unfold MasterReachable
  rw [h1, h2, Option.bind_some, Option.bind_some, readRefs_notes_rebuilt,
    readRels_render (plain_presentationRels _ _ _), if_pos rfl]
  have key := notes_rel_iff e.slideCount (hasHandoutList (presText e.package)) c!"rId6"
  have h6 : c!"rId6" = c!"rId" ++ dec 6 := by decide
  constructor
  · rintro ⟨r, rels, t, hr, hrels, hm⟩
    simp only [Option.some.injEq, List.cons.injEq, and_true] at hr hrels
    subst hr hrels
    have := key.mp ⟨t, hm⟩
    rw [h6, List.append_cancel_left_eq] at this
    have := dec_inj this
    omega
  · intro hc
    obtain ⟨t, ht⟩ := key.mpr (by rw [hc, h6])
    exact ⟨_, _, t, rfl, rfl, ht⟩

theorem handout_reachable_iff (e : Editor) (hn : hasHandoutList (presText e.package) = true) :
    MasterReachable (rebuild e).package c!"p:handoutMasterId" c!"handoutMaster" ↔ e.slideCount = 4 := by
  obtain ⟨h1, h2, -⟩ := rebuild_texts e
  rw [hn] at h1 h2
  unfold MasterReachable
  rw [h1, h2, Option.bind_some, Option.bind_some, readRefs_handout_rebuilt,
    readRels_render (plain_presentationRels _ _ _), if_pos rfl]
  generalize hasNotesList (presText e.package) = a
  have key := handout_rel_iff e.slideCount a (c!"rId" ++ dec (if a then 7 else 6))
  constructor
  · rintro ⟨r, rels, t, hr, hrels, hm⟩
    simp only [Option.some.injEq, List.cons.injEq, and_true] at hr hrels
    subst hr hrels
    have := key.mp ⟨t, hm⟩
    rw [List.append_cancel_left_eq] at this
    have := dec_inj this
    cases a <;> simp at this <;> omega
  · intro hc
    obtain ⟨t, ht⟩ := key.mpr (by rw [hc]; cases a <;> rfl)
    exact ⟨_, _, t, rfl, rfl, ht⟩

/-- **C19** holds for exactly one size of deck: after a structural edit of a presentation with a notes
(handout) master, the reference to it leads to it only if there are now four slides. (Missing: all
other sizes.) -/
theorem C19_masters_after_edit_partial (e : Editor) (op : Op) (hs : Structural op)
    (h : (op.run e).2.isSome) (hc : (op.run e).1.slideCount = 4) :
    ∃ notes handout, (Package.getPartString (op.run e).1.package presPath).bind
        (fun x => some (hasNotesList x, hasHandoutList x)) = some (notes, handout) ∧
      (notes = true → MasterReachable (op.run e).1.package c!"p:notesMasterId" c!"notesMaster") ∧
      (handout = true → MasterReachable (op.run e).1.package c!"p:handoutMasterId" c!"handoutMaster") := by
  obtain ⟨e', he⟩ := structural_rebuild hs h
  rw [he] at hc ⊢
  rw [slideCount_rebuild] at hc
  obtain ⟨h1, -, -⟩ := rebuild_texts e'
  rw [h1]
  refine ⟨_, _, rfl, fun hn => ?_, fun hn => ?_⟩
  · rw [hasNotesList_rebuilt] at hn
    exact (notes_reachable_iff e' hn).mpr hc
  · rw [hasHandoutList_rebuilt] at hn
    exact (handout_reachable_iff e' hn).mpr hc

/-- **C19** fails: with any other number of slides the masters cannot be reached. -/
theorem C19_masters_after_edit_violated (e : Editor) (op : Op) (hs : Structural op)
    (h : (op.run e).2.isSome) (hc : (op.run e).1.slideCount ≠ 4) :
    ∃ notes handout, (Package.getPartString (op.run e).1.package presPath).bind
        (fun x => some (hasNotesList x, hasHandoutList x)) = some (notes, handout) ∧
      (notes = true → ¬ MasterReachable (op.run e).1.package c!"p:notesMasterId" c!"notesMaster") ∧
      (handout = true → ¬ MasterReachable (op.run e).1.package c!"p:handoutMasterId" c!"handoutMaster") := by
  obtain ⟨e', he⟩ := structural_rebuild hs h
  rw [he] at hc ⊢
  rw [slideCount_rebuild] at hc
  obtain ⟨h1, -, -⟩ := rebuild_texts e'
  rw [h1]
  refine ⟨_, _, rfl, fun hn => ?_, fun hn => ?_⟩
  · rw [hasNotesList_rebuilt] at hn
    exact fun hm => hc ((notes_reachable_iff e' hn).mp hm)
  · rw [hasHandoutList_rebuilt] at hn
    exact fun hm => hc ((handout_reachable_iff e' hn).mp hm)

/-- There are presentations with notes: for example inserting a slide into one. -/
example (c : SlideText) :
    ((Op.insert 0 c).run ⟨Package.addPart [] presPath (encode (rebuiltPresentation 0 true false)), 0⟩).2.isSome ∧
    hasNotesList (rebuiltPresentation 1 true false) = true := ⟨rfl, hasNotesList_rebuilt _ _ _⟩

/-! ## C69 -/

theorem slide_ne_of_ext {path : Str} (h : extensionOf path ≠ c!"xml") (a : Str) :
    '/' :: path ≠ '/' :: (a ++ c!".xml") := by
  intro e
  simp only [List.cons.injEq, true_and] at e
  exact h (by rw [e]; exact extensionOf_dot a c!"xml" (by decide))

/-- What a reader sees of the content types of a presentation of `n` slides after a structural edit. -/
def typesRead (n : Nat) : List (Option Str × Option Str) × List (Option Str × Option Str) := (
      [(some c!"rels", some c!"application/vnd.openxmlformats-package.relationships+xml"),
       (some c!"xml", some c!"application/xml")],
      [(some c!"/ppt/presentation.xml", some c!"application/vnd.openxmlformats-officedocument.presentationml.presentation.main+xml")]
      ++ (upTo n).map (fun i => (some (c!"/ppt/slides/slide" ++ dec i ++ c!".xml"),
        some c!"application/vnd.openxmlformats-officedocument.presentationml.slide+xml"))
      ++ [(some c!"/ppt/slideLayouts/slideLayout1.xml", some c!"application/vnd.openxmlformats-officedocument.presentationml.slideLayout+xml"),
       (some c!"/ppt/slideMasters/slideMaster1.xml", some c!"application/vnd.openxmlformats-officedocument.presentationml.slideMaster+xml"),
       (some c!"/ppt/theme/theme1.xml", some c!"application/vnd.openxmlformats-officedocument.theme+xml"),
       (some c!"/docProps/core.xml", some c!"application/vnd.openxmlformats-package.core-properties+xml"),
       (some c!"/docProps/app.xml", some c!"application/vnd.openxmlformats-officedocument.extended-properties+xml")])

theorem mem_typesRead {n : Nat} {x : Option Str × Option Str} (h : x ∈ (typesRead n).2) :
    (∃ j, x = (some (c!"/ppt/slides/slide" ++ dec j ++ c!".xml"),
      some c!"application/vnd.openxmlformats-officedocument.presentationml.slide+xml")) ∨
    ∃ y, x.1 = some y ∧ y ∈ [c!"/ppt/presentation.xml", c!"/ppt/slideLayouts/slideLayout1.xml",
        c!"/ppt/slideMasters/slideMaster1.xml", c!"/ppt/theme/theme1.xml", c!"/docProps/core.xml",
        c!"/docProps/app.xml"] := by
  unfold typesRead at h
  simp only [List.mem_append, List.mem_map] at h
  rcases h with (h | ⟨j, _, rfl⟩) | h
  · simp only [List.mem_cons, List.not_mem_nil, or_false] at h
    exact .inr ⟨_, by rw [h], by simp⟩
  · exact .inl ⟨j, rfl⟩
  · simp only [List.mem_cons, List.not_mem_nil, or_false] at h
    rcases h with h | h | h | h | h <;> exact .inr ⟨_, by rw [h], by simp⟩

theorem typeFor_typesRead_slide {n i : Nat} (hi : i < n) :
    typeFor (typesRead n) (c!"ppt/slides/slide" ++ dec (i + 1) ++ c!".xml") =
      some c!"application/vnd.openxmlformats-officedocument.presentationml.slide+xml" := by
  have hs : ((typesRead n).2.find? fun e => decide (e.1 =
      some ('/' :: (c!"ppt/slides/slide" ++ dec (i + 1) ++ c!".xml")))).isSome := by
    refine List.find?_isSome.mpr ⟨(some (c!"/ppt/slides/slide" ++ dec (i + 1) ++ c!".xml"),
      some c!"application/vnd.openxmlformats-officedocument.presentationml.slide+xml"), ?_, ?_⟩
    · exact List.mem_append_left _ (List.mem_append_right _ (List.mem_map.mpr
        ⟨i + 1, by rw [upTo_eq]; simp; omega, rfl⟩))
    · exact decide_eq_true rfl
  obtain ⟨x, hx⟩ := Option.isSome_iff_exists.mp hs
  unfold typeFor
  rw [hx, Option.some_or, Option.bind_some]
  have h1 := List.find?_some hx
  simp only [decide_eq_true_eq] at h1
  rcases mem_typesRead (List.mem_of_find?_eq_some hx) with ⟨j, rfl⟩ | ⟨y, hy, hm⟩
  · rfl
  · rw [hy] at h1
    simp only [Option.some.injEq] at h1
    rw [h1] at hm
    simp at hm

theorem typeFor_typesRead_other {n : Nat} {path : Str}
    (h1 : ∀ i, '/' :: path ≠ c!"/ppt/slides/slide" ++ dec i ++ c!".xml")
    (h2 : '/' :: path ∉ [c!"/ppt/presentation.xml", c!"/ppt/slideLayouts/slideLayout1.xml",
        c!"/ppt/slideMasters/slideMaster1.xml", c!"/ppt/theme/theme1.xml", c!"/docProps/core.xml",
        c!"/docProps/app.xml"]) :
    typeFor (typesRead n) path =
      ([(some c!"rels", some c!"application/vnd.openxmlformats-package.relationships+xml"),
        (some c!"xml", some c!"application/xml")].find? fun e => e.1 = some (extensionOf path)).bind (·.2) := by
  unfold typeFor
  rw [List.find?_eq_none.mpr, Option.none_or]
  · rfl
  intro x hx hp
  simp only [decide_eq_true_eq] at hp
  rcases mem_typesRead hx with ⟨j, rfl⟩ | ⟨y, hy, hm⟩
  · exact h1 j (Option.some.inj hp).symm
  · rw [hy] at hp
    rw [Option.some.inj hp] at hm
    exact h2 hm

theorem typeFor_typesRead_ext {n : Nat} {path : Str} (h1 : extensionOf path ≠ c!"xml")
    (h2 : extensionOf path ≠ c!"rels") : typeFor (typesRead n) path = none := by
  rw [typeFor_typesRead_other (fun i => slide_ne_of_ext h1 (c!"ppt/slides/slide" ++ dec i))]
  · simp [List.find?, h1.symm, h2.symm]
  · intro hm
    simp only [List.mem_cons, List.not_mem_nil, or_false] at hm
    rcases hm with e | e | e | e | e | e
    · exact slide_ne_of_ext h1 c!"ppt/presentation" e
    · exact slide_ne_of_ext h1 c!"ppt/slideLayouts/slideLayout1" e
    · exact slide_ne_of_ext h1 c!"ppt/slideMasters/slideMaster1" e
    · exact slide_ne_of_ext h1 c!"ppt/theme/theme1" e
    · exact slide_ne_of_ext h1 c!"docProps/core" e
    · exact slide_ne_of_ext h1 c!"docProps/app" e

theorem types_after_structural {e : Editor} {op : Op} (hs : Structural op) (h : (op.run e).2.isSome) :
    (Package.getPartString (op.run e).1.package typesPath).bind readTypes =
      some (typesRead (op.run e).1.slideCount) := by
  obtain ⟨e', he⟩ := structural_rebuild hs h
  rw [he, slideCount_rebuild]
  obtain ⟨-, -, h3⟩ := rebuild_texts e'
  rw [h3, Option.bind_some, readTypes_rebuilt]
  rfl

/-- **C69**, what does hold: after a structural edit each slide has the content type of slides. (Missing:
the types of all other parts, see below.) -/
theorem C69_types_after_edit_partial (e : Editor) (op : Op) (hs : Structural op)
    (h : (op.run e).2.isSome) (i : Nat) (hi : i < (op.run e).1.slideCount) :
    ∃ types, (Package.getPartString (op.run e).1.package typesPath).bind readTypes = some types ∧
      typeFor types (c!"ppt/slides/slide" ++ dec (i + 1) ++ c!".xml") =
        some c!"application/vnd.openxmlformats-officedocument.presentationml.slide+xml" :=
  ⟨_, types_after_structural hs h, typeFor_typesRead_slide hi⟩

/-- **C69** fails: after any structural edit, no part whose extension is not `xml` or `rels`, such as
an image, a chart's workbook or a font, has a content type, and the notes slides, the charts and all
slide layouts but the first have only the type `application/xml`. -/
theorem C69_types_after_edit_violated (e : Editor) (op : Op) (hs : Structural op)
    (h : (op.run e).2.isSome) :
    ∃ types, (Package.getPartString (op.run e).1.package typesPath).bind readTypes = some types ∧
      (∀ path, extensionOf path ≠ c!"xml" → extensionOf path ≠ c!"rels" → typeFor types path = none) ∧
      typeFor types c!"ppt/media/image1.png" = none ∧
      typeFor types c!"ppt/notesSlides/notesSlide1.xml" = some c!"application/xml" ∧
      typeFor types c!"ppt/charts/chart1.xml" = some c!"application/xml" ∧
      typeFor types c!"ppt/slideLayouts/slideLayout2.xml" = some c!"application/xml" := by
  have hx : ∀ (path : Str) (i : Nat), path.take 16 ≠ c!"ppt/slides/slide" →
      '/' :: path ≠ c!"/ppt/slides/slide" ++ dec i ++ c!".xml" := by
    intro path i h e
    simp only [List.cons_append, List.cons.injEq, true_and, List.nil_append] at e
    rw [e] at h
    exact h rfl
  refine ⟨_, types_after_structural hs h, fun path => typeFor_typesRead_ext,
    typeFor_typesRead_ext (by decide) (by decide), ?_, ?_, ?_⟩ <;>
  · rw [typeFor_typesRead_other (fun i => hx _ i (by decide)) (by decide)]
    decide

/-! ## C70 -/

theorem rels_newPos {l : List Slide} {op : Op} (h : (editList l op).2.isSome) {i i' : Nat}
    (hi : i < l.length) (hp : newPos op i = some i') :
    (editList l op).1[i']?.bind (·.rels) = l[i]?.bind (·.rels) := by
  cases op with
  | add c =>
    obtain rfl : i = i' := by simpa [newPos] using hp
    show ((l ++ [Slide.of c])[i]?).bind _ = _
    rw [List.getElem?_append_left hi]
  | insert k c =>
    have hk : k ≤ l.length := by
      by_contra hc
      have e2 : editList l (.insert k c) = (l, none) := if_neg hc
      rw [e2] at h
      exact absurd h (by simp)
    have e2 : editList l (.insert k c) = (l.take k ++ [.of c] ++ l.drop k, some k) := if_pos hk
    rw [e2]
    simp only [newPos, Option.some.injEq] at hp
    rw [getElem?_put _ _ hk]
    subst hp
    by_cases h1 : i < k
    · simp [h1]
    · simp [h1, show ¬ (i + 1 < k) by omega, show ¬ (i + 1 = k) by omega]
  | update k c =>
    obtain rfl : i = i' := by simpa [newPos] using hp
    cases hk : l[k]? with
    | none =>
      have e2 : editList l (.update k c) = (l, none) := by simp only [editList, hk]
      rw [e2]
    | some s =>
      have e2 : editList l (.update k c) = (l.set k { s with xml := encode c.xml }, some 0) := by
        simp only [editList, hk]
      rw [e2]
      show ((l.set k _)[i]?).bind _ = _
      rw [List.getElem?_set]
      by_cases hki : k = i
      · subst hki; rw [if_pos rfl, if_pos hi, hk]; rfl
      · rw [if_neg hki]
  | remove k =>
    have hk : k < l.length := by
      by_contra hc
      have e2 : editList l (.remove k) = (l, none) := if_neg hc
      rw [e2] at h
      exact absurd h (by simp)
    have e2 : editList l (.remove k) = (l.take k ++ l.drop (k + 1), some 0) := if_pos hk
    rw [e2]
    simp only [newPos] at hp
    congr 1
    rw [List.getElem?_append, List.length_take, Nat.min_eq_left (by omega), List.getElem?_take,
      List.getElem?_drop]
    split at hp
    · rename_i h1
      obtain rfl := Option.some.inj hp
      simp [h1]
    · split at hp
      · exact absurd hp (by simp)
      · obtain rfl := Option.some.inj hp
        rw [if_neg (by omega)]
        congr 1
        omega
  | duplicate k =>
    cases hk : l[k]? with
    | none =>
      have e2 : editList l (.duplicate k) = (l, none) := by simp only [editList, hk]
      rw [e2] at h
      exact absurd h (by simp)
    | some s =>
      have e2 : editList l (.duplicate k) = (l.take (k + 1) ++ [{ s with rels := some (s.rels.getD []) }]
          ++ l.drop (k + 1), some (k + 1)) := by simp only [editList, hk]
      rw [e2]
      have hkl := (List.getElem?_eq_some_iff.mp hk).1
      simp only [newPos, Option.some.injEq] at hp
      rw [getElem?_put _ _ (by omega)]
      subst hp
      by_cases h1 : i ≤ k
      · simp [h1, show i < k + 1 by omega]
      · simp [h1, show ¬ (i = k) by omega, show ¬ (i < k) by omega]
  | reorder a b =>
    cases ha : l[a]? with
    | none =>
      have e2 : editList l (.reorder a b) = (l, none) := by simp only [editList, ha]
      rw [e2] at h
      exact absurd h (by simp)
    | some s =>
      have hal := (List.getElem?_eq_some_iff.mp ha).1
      by_cases hb : b < l.length
      · have e2 : editList l (.reorder a b) = ((l.take a ++ l.drop (a + 1)).take b ++ [s] ++
            (l.take a ++ l.drop (a + 1)).drop b, some 0) := by simp only [editList, ha, if_pos hb]
        rw [e2]
        have hlen : (l.take a ++ l.drop (a + 1)).length = l.length - 1 := by simp; omega
        rw [getElem?_put _ _ (by omega)]
        have hrest : ∀ r, (l.take a ++ l.drop (a + 1))[r]? = l[if r < a then r else r + 1]? := by
          intro r
          rw [List.getElem?_append, List.length_take, Nat.min_eq_left (by omega), List.getElem?_take,
            List.getElem?_drop]
          split
          · rfl
          · congr 1; omega
        simp only [newPos] at hp
        split at hp
        · rename_i hia
          obtain rfl := Option.some.inj hp
          subst hia
          simp [ha]
        · rename_i hia
          obtain rfl := Option.some.inj hp
          congr 1
          by_cases h1 : i < a
          · simp only [h1, if_true]
            by_cases h2 : i < b
            · simp only [h2, if_true, hrest, h1]
            · simp only [h2, if_false, show ¬ (i + 1 < b) by omega, show ¬ (i + 1 = b) by omega,
                hrest, Nat.add_sub_cancel, h1, if_true]
          · simp only [h1, if_false]
            by_cases h2 : i - 1 < b
            · simp only [h2, if_true, hrest, show ¬ (i - 1 < a) by omega, if_false]
              congr 1; omega
            · simp only [h2, if_false, show ¬ (i - 1 + 1 < b) by omega, show ¬ (i - 1 + 1 = b) by omega,
                hrest, Nat.add_sub_cancel, show ¬ (i - 1 < a) by omega]
              congr 1; omega
      · have e2 : editList l (.reorder a b) = (l, none) := by simp only [editList, ha, if_neg hb]
        rw [e2] at h
        exact absurd h (by simp)

/-- After any accepted call the slide that was slide `i` links to the same slide *numbers* as before. -/
theorem links_keep_numbers {e : Editor} {l : List Slide} (hl : Inv e l) {op : Op}
    (h : (op.run e).2.isSome) {i i' : Nat} (hi : i < l.length) (hp : newPos op i = some i') (j : Nat) :
    LinksTo (op.run e).1.package i' j ↔ LinksTo e.package i j := by
  obtain ⟨h1, h2⟩ := run_correct hl op
  have k : Package.getPart (op.run e).1.package (c!"ppt/slides/_rels/slide" ++ dec (i' + 1) ++ c!".xml.rels")
      = Package.getPart e.package (c!"ppt/slides/_rels/slide" ++ dec (i + 1) ++ c!".xml.rels") := by
    rw [h1.are.rels, hl.are.rels]
    exact rels_newPos (h2 ▸ h) hi hp
  unfold LinksTo Package.getPartString
  rw [k]

/-- **C70**, what does hold: after an accepted call a link from a slide to a slide whose number does not
change still leads to it. (Missing: links to the slides that move.) -/
theorem C70_links_follow_partial (p : Package) (l : List Slide) (hp : AMap.Ok p)
    (hl : SlidesAre p l) (ht : NoTemps p) (op : Op) (h : (op.run (ofPackage p)).2.isSome)
    (i j i' : Nat) (hi : i < l.length) (h1 : newPos op i = some i') (h2 : newPos op j = some j)
    (hlink : LinksTo p i j) :
    ∃ j', newPos op j = some j' ∧ LinksTo (op.run (ofPackage p)).1.package i' j' :=
  ⟨j, h2, (links_keep_numbers (e := ofPackage p) ⟨hl, ht, countSlides_eq hp hl⟩ h hi h1 j).mpr hlink⟩

/-- **C70** fails: a slide whose only link leads to a slide that moves no longer links to that slide, in
every presentation and for every accepted call. -/
theorem C70_links_follow_violated (p : Package) (l : List Slide) (hp : AMap.Ok p)
    (hl : SlidesAre p l) (ht : NoTemps p) (op : Op) (h : (op.run (ofPackage p)).2.isSome)
    (i j i' j' : Nat) (hi : i < l.length) (h1 : newPos op i = some i') (h2 : newPos op j = some j')
    (hj : j' ≠ j) (honly : ∀ x, LinksTo p i x ↔ x = j) :
    ¬ LinksTo (op.run (ofPackage p)).1.package i' j' := by
  rw [links_keep_numbers (e := ofPackage p) ⟨hl, ht, countSlides_eq hp hl⟩ h hi h1 j']
  exact fun hc => hj ((honly j').mp hc)

/-- Slides do move: the slides after an inserted one, for example, and there are slides with one link. -/
example (c : SlideText) : newPos (.insert 1 c) 0 = some 0 ∧ newPos (.insert 1 c) 1 = some 2 := ⟨rfl, rfl⟩

example : ∃ (p : Package) (l : List Slide), AMap.Ok p ∧ NoTemps p ∧ SlidesAre p l ∧ l.length = 2 ∧
    ∀ x, LinksTo p 0 x ↔ x = 1 := by
  have hr : ∀ r ∈ [rel 2 c!"slide" (c!"slide" ++ dec 2 ++ c!".xml")], r.Plain := by
    intro r hr
    simp only [List.mem_singleton] at hr
    subst hr
    exact plain_rel ⟨by decide, by decide, by decide⟩ ⟨by decide, by decide, by decide⟩
  refine ⟨Package.addPart (Package.addPart (Package.addPart [] (slidePath 1) []) (slidePath 2) [])
    (slideRelsPath 1) (encode (renderRels [rel 2 c!"slide" (c!"slide" ++ dec 2 ++ c!".xml")])),
    [⟨[], some (encode (renderRels [rel 2 c!"slide" (c!"slide" ++ dec 2 ++ c!".xml")]))⟩, ⟨[], none⟩],
    AMap.Ok.insert (AMap.Ok.insert (AMap.Ok.insert (m := []) List.nodup_nil _ _) _ _) _ _, ⟨?_, ?_⟩, ⟨?_, ?_, ?_⟩, rfl, ?_⟩
  · rw [getPart_addPart, getPart_addPart, getPart_addPart]; decide
  · rw [getPart_addPart, getPart_addPart, getPart_addPart]; decide
  · intro i
    show Package.getPart _ (slidePath (i + 1)) = _
    rw [getPart_addPart, getPart_addPart, getPart_addPart, if_neg (slidePath_ne_rels _ _)]
    simp only [slidePath_inj]
    match i with
    | 0 => rfl
    | 1 => rfl
    | i + 2 => rfl
  · intro i
    show Package.getPart _ (slideRelsPath (i + 1)) = _
    rw [getPart_addPart, getPart_addPart, getPart_addPart, if_neg (slidePath_ne_rels _ _).symm,
      if_neg (slidePath_ne_rels _ _).symm]
    simp only [slideRelsPath_inj]
    match i with
    | 0 => rfl
    | 1 => rfl
    | i + 2 => rfl
  · intro path hp hs
    rw [getPart_addPart, getPart_addPart, getPart_addPart] at hs
    split at hs
    · rename_i h
      exact absurd h (fun h => (isSlideName_ne_rels hp _) h)
    · split at hs
      · exact ⟨1, by decide, by assumption⟩
      · split at hs
        · exact ⟨0, by decide, by assumption⟩
        · exact absurd hs (by simp [Package.getPart, AMap.get])
  · intro x
    have e : Package.getPartString (Package.addPart (Package.addPart (Package.addPart [] (slidePath 1) [])
        (slidePath 2) []) (slideRelsPath 1) (encode (renderRels [rel 2 c!"slide"
        (c!"slide" ++ dec 2 ++ c!".xml")]))) (c!"ppt/slides/_rels/slide" ++ dec (0 + 1) ++ c!".xml.rels") =
        some (renderRels [rel 2 c!"slide" (c!"slide" ++ dec 2 ++ c!".xml")]) := by
      show Package.getPartString _ (slideRelsPath 1) = _
      unfold Package.getPartString
      rw [getPart_addPart, if_pos rfl, Option.map_some, decodeLossy_encode]
    unfold LinksTo
    rw [e]
    constructor
    · rintro ⟨text, rels, r, h1, h2, h3, h4⟩
      obtain rfl := Option.some.inj h1
      rw [readRels_render hr] at h2
      obtain rfl := Option.some.inj h2
      simp only [List.map_cons, List.map_nil, List.mem_singleton] at h3
      subst h3
      simp only [relRead, rel, Option.some.injEq, List.append_cancel_right_eq,
        List.append_cancel_left_eq] at h4
      have := dec_inj h4
      omega
    · rintro rfl
      exact ⟨_, _, _, rfl, readRels_render hr, List.mem_singleton.mpr rfl, rfl⟩

/-! ## The text of `presentation.xml` -/

/-- **C08**, the text: reading `presentation.xml` as it is written gives the slide list and the
references to the masters, and reading its relationship part gives the relationships, about which
the theorems of `BuilderIds` speak. -/
theorem C08_text_reads_back (n : Nat) (notes handout : Bool) :
    readSlideList (presentationText n notes handout) =
      some ((presentationXml n notes handout []).slides.map fun s => (some (dec s.1), some s.2)) ∧
    readRefs c!"p:notesMasterId" (presentationText n notes handout) =
      some ((presentationXml n notes handout []).notesMaster.toList.map some) ∧
    readRefs c!"p:handoutMasterId" (presentationText n notes handout) =
      some ((presentationXml n notes handout []).handoutMaster.toList.map some) ∧
    readRefs c!"p:sldMasterId" (presentationText n notes handout) =
      some ((presentationXml n notes handout []).masters.map fun s => some s.2) ∧
    readRels (renderRels (presentationRels n notes handout)) =
      some ((presentationRels n notes handout).map fun r => (some r.id, some r.type, some r.target)) := by
  refine ⟨?_, ?_, ?_, ?_, readRels_render (plain_presentationRels n notes handout)⟩
  · rw [readSlideList_presentationText]
    simp [presentationXml, slideRefRead, slideIdValue, slideRelId, Function.comp_def]
  · rw [readRefs_notes_presentationText]
    cases notes <;> rfl
  · rw [readRefs_handout_presentationText]
    cases handout <;> rfl
  · have h := readMasters_presentationText n notes handout
    unfold readRefs
    rw [document_presentationText] at h ⊢
    simp only [Option.map_some, Option.some.injEq] at h ⊢
    have h2 := congrArg (List.map Prod.snd) h
    rw [List.map_map] at h2
    exact h2

end PptRs.Props
