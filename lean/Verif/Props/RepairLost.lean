import Verif.Props.WholeRepair
import Verif.Props.EditRepair

/-!
# Files that lost a required part

The repair rebuilds each of the four required parts from nothing but the names of the other parts.
-/

set_option maxRecDepth 8000

namespace PptRs.Spec

open PptRs PptRs.Whole

/-- A written file in which one entry is missing, opened. -/
def lost (d : Deck) (st : BuildSettings) (f : Entry → Bytes) (x : Str) : Package :=
  Package.openReader (((buildPackage d st).map fun e => (e.name.path, f e)).filter fun e => e.1 ≠ x)

end PptRs.Spec

namespace PptRs.Props

open PptRs PptRs.Whole PptRs.Repair PptRs.Spec PptRs.Import

/-! ### Opening a file without one of its entries -/

theorem has_remove (m : Package) {k x : Str} (h : k ≠ x) : AMap.has (AMap.remove m x) k = AMap.has m k := by
  rw [AMap.has_eq, AMap.has_eq, AMap.get_remove]
  simp [h]

theorem remove_insert_self (m : Package) (k : Str) (v : Bytes) : AMap.remove (AMap.insert m k v) k = AMap.remove m k := by
  have key : ∀ m : Package, (m.map fun e => if e.1 = k then (k, v) else e).filter (fun e => e.1 ≠ k) = m.filter fun e => e.1 ≠ k := by
    intro m
    induction m with
    | nil => rfl
    | cons e m ih => by_cases he : e.1 = k <;> simp [he, ih] at ih ⊢ <;> exact ih
  unfold AMap.remove AMap.insert
  split
  · exact key m
  · simp

theorem remove_insert_ne (m : Package) {k x : Str} (h : k ≠ x) (v : Bytes) :
    AMap.remove (AMap.insert m k v) x = AMap.insert (AMap.remove m x) k v := by
  have key : ∀ m : Package, (m.map fun e => if e.1 = k then (k, v) else e).filter (fun e => e.1 ≠ x) =
      (m.filter fun e => e.1 ≠ x).map fun e => if e.1 = k then (k, v) else e := by
    intro m
    induction m with
    | nil => rfl
    | cons e m ih =>
      by_cases he : e.1 = k
      · rw [List.map_cons, if_pos he, List.filter_cons_of_pos (by simp [h]), List.filter_cons_of_pos (by simp [he, h]),
          List.map_cons, if_pos he, ih]
      · rw [List.map_cons, if_neg he]
        by_cases hx : e.1 = x
        · rw [List.filter_cons_of_neg (by simp [hx]), List.filter_cons_of_neg (by simp [hx]), ih]
        · rw [List.filter_cons_of_pos (by simp [hx]), List.filter_cons_of_pos (by simp [hx]), List.map_cons, if_neg he, ih]
  unfold AMap.insert
  rw [has_remove m h]
  split
  · exact key m
  · unfold AMap.remove
    rw [List.filter_append, List.filter_cons_of_pos (by simp [h])]
    rfl

theorem openReader_without (a : List (Str × Bytes)) (x : Str) :
    Package.openReader (a.filter fun e => e.1 ≠ x) = AMap.remove (Package.openReader a) x := by
  unfold Package.openReader
  have key : ∀ m : Package, (a.filter fun e => e.1 ≠ x).foldl (fun p e => if Package.isDirName e.1 then p else AMap.insert p e.1 e.2)
      (AMap.remove m x) = AMap.remove (a.foldl (fun p e => if Package.isDirName e.1 then p else AMap.insert p e.1 e.2) m) x := by
    induction a with
    | nil => intro m; rfl
    | cons e a ih =>
      intro m
      rw [List.foldl_cons, ← ih]
      by_cases he : e.1 = x
      · rw [List.filter_cons_of_neg (by simp [he])]
        split
        · rfl
        · rw [he, remove_insert_self]
      · rw [List.filter_cons_of_pos (by simp [he]), List.foldl_cons]
        split
        · rfl
        · rw [remove_insert_ne m he]
  exact key []

/-! ### What the validator finds in a package with one part lost, or rebuilt -/

/-- The second package has the parts of the first, but for one, which may be missing or changed. -/
structure Beside (p r : Package) (x : Str) : Prop where
  fewer : ∀ k ∈ r.partPaths, k ∈ p.partPaths
  kept : ∀ k ∈ p.partPaths, k ≠ x → k ∈ r.partPaths
  same : ∀ k, k ≠ x → r.getPart k = p.getPart k

theorem Beside.text {p r : Package} {x : Str} (h : Beside p r x) {k : Str} (hk : k ≠ x) : r.getPartString k = p.getPartString k := by
  unfold Package.getPartString
  rw [h.same k hk]

theorem validate_parts {p : Package} (h : validate p = []) : checkRequiredParts p = [] ∧ checkXmlValidity p = [] ∧
    checkRelationships p = [] ∧ checkSlideReferences p = [] ∧ checkContentTypes p = [] := by
  unfold validate at h
  simp only [List.append_eq_nil_iff] at h
  tauto

theorem mem_paths {p : Package} {k : Str} : k ∈ p.partPaths ↔ p.hasPart k = true := by
  unfold Package.hasPart Package.partPaths
  rw [AMap.has_iff_mem]

theorem beside_xml {p r : Package} {x : Str} (h : Beside p r x) (h0 : checkXmlValidity p = [])
    (hx : ∀ t, r.getPartString x = some t → ∃ c ∈ t, isWs c = false) : checkXmlValidity r = [] := by
  unfold checkXmlValidity at h0 ⊢
  rw [List.flatMap_eq_nil_iff] at h0 ⊢
  intro path hp
  obtain ⟨hp, hs⟩ := List.mem_filter.mp hp
  by_cases e : path = x
  · subst e
    cases ht : r.getPartString path with
    | none => rfl
    | some t =>
      have : validateWellFormedXml t = true := by
        obtain ⟨c, hc, hw⟩ := hx t ht
        unfold validateWellFormedXml
        refine if_neg ?_
        intro e0
        have := trim_eq_nil.mp e0 c hc
        rw [hw] at this
        cases this
      simp only [this, if_true]
  · rw [h.text e]
    exact h0 path (List.mem_filter.mpr ⟨h.fewer _ hp, hs⟩)

theorem beside_slides {p r : Package} {x : Str} (h : Beside p r x) (h0 : checkSlideReferences p = [])
    (hr : x ≠ c!"ppt/_rels/presentation.xml.rels") (hs : ¬ c!"ppt/slides/slide" <+: x) : checkSlideReferences r = [] := by
  unfold checkSlideReferences at h0 ⊢
  have e1 : referencedSlides r = referencedSlides p := by
    unfold referencedSlides
    rw [h.text fun e => hr e.symm]
  have e2 : ∀ s, s ∈ actualSlides r ↔ s ∈ actualSlides p := by
    intro s
    unfold actualSlides
    rw [List.mem_filter, List.mem_filter]
    refine and_congr_left fun ht => ?_
    simp only [Bool.and_eq_true, startsWith_prefix] at ht
    exact ⟨h.fewer s, fun hp => h.kept s hp fun e => hs (e ▸ ht.1.1)⟩
  rw [List.append_eq_nil_iff, List.map_eq_nil_iff, List.map_eq_nil_iff, List.filter_eq_nil_iff, List.filter_eq_nil_iff] at h0 ⊢
  rw [e1]
  constructor
  · intro s hs
    have := h0.1 s hs
    simp only [Bool.not_eq_true, Bool.not_eq_false', List.contains_iff_mem] at this ⊢
    exact (e2 s).mpr this
  · intro s hs
    exact h0.2 s ((e2 s).mp hs)

theorem beside_types {p r : Package} {x : Str} (h : Beside p r x) (h0 : checkContentTypes p = [])
    (hx : x ≠ c!"[Content_Types].xml") : checkContentTypes r = [] := by
  unfold checkContentTypes at h0 ⊢
  rw [h.text fun e => hx e.symm]
  cases ht : p.getPartString c!"[Content_Types].xml" with
  | none => rfl
  | some t =>
    rw [ht] at h0
    simp only [List.map_eq_nil_iff, List.filter_eq_nil_iff] at h0 ⊢
    exact fun k hk => h0 k (h.fewer k hk)

theorem beside_remove (p : Package) (x : Str) : Beside p (AMap.remove p x) x where
  fewer k hk := by
    rw [mem_paths] at hk ⊢
    by_cases e : k = x
    · subst e
      unfold Package.hasPart at hk
      rw [AMap.has_eq, AMap.get_remove] at hk
      simp at hk
    · unfold Package.hasPart at hk ⊢
      rwa [has_remove p e] at hk
  kept k hk e := by
    rw [mem_paths] at hk ⊢
    unfold Package.hasPart at hk ⊢
    rwa [has_remove p e]
  same k e := by
    unfold Package.getPart
    rw [AMap.get_remove]
    simp [e]

theorem has_rebuilt (p : Package) (x k : Str) (b : Bytes) :
    (Package.addPart (AMap.remove p x) x b).hasPart k = (decide (k = x) || p.hasPart k) := by
  unfold Package.hasPart Package.addPart
  rw [AMap.has_eq, AMap.get_insert]
  by_cases e : k = x
  · simp [e]
  · rw [AMap.get_remove, AMap.has_eq]
    simp [e]

theorem has_lost (p : Package) (x k : Str) : Package.hasPart (AMap.remove p x) k = (decide (k ≠ x) && p.hasPart k) := by
  unfold Package.hasPart
  rw [AMap.has_eq, AMap.get_remove, AMap.has_eq]
  by_cases e : k = x <;> simp [e]

theorem beside_rebuilt {p : Package} {x : Str} (hx : p.hasPart x = true) (b : Bytes) :
    Beside p (Package.addPart (AMap.remove p x) x b) x where
  fewer k hk := by
    rw [mem_paths] at hk ⊢
    rw [has_rebuilt, Bool.or_eq_true, decide_eq_true_eq] at hk
    rcases hk with rfl | hk
    · exact hx
    · exact hk
  kept k hk _ := by
    rw [mem_paths] at hk ⊢
    rw [has_rebuilt, hk, Bool.or_true]
  same k e := by
    unfold Package.getPart Package.addPart
    rw [AMap.get_insert, AMap.get_remove]
    simp [e]

theorem rebuilt_text (p : Package) (x t : Str) : (Package.addPart (AMap.remove p x) x (encode t)).getPartString x = some t := by
  unfold Package.getPartString Package.getPart Package.addPart
  rw [AMap.get_insert]
  simp [decodeLossy_encode]

theorem replaced_text (p : Package) (x t : Str) : (p.addPart x (encode t)).getPartString x = some t := by
  unfold Package.getPartString Package.getPart Package.addPart
  rw [AMap.get_insert]
  simp [decodeLossy_encode]

theorem beside_replaced {p : Package} {x : Str} (hx : p.hasPart x = true) (b : Bytes) : Beside p (p.addPart x b) x := by
  have hh : ∀ k, (p.addPart x b).hasPart k = (decide (k = x) || p.hasPart k) := by
    intro k
    unfold Package.hasPart Package.addPart
    rw [AMap.has_eq, AMap.get_insert, AMap.has_eq]
    by_cases e : k = x <;> simp [e]
  refine ⟨fun k hk => ?_, fun k hk _ => ?_, fun k e => ?_⟩
  · rw [mem_paths] at hk ⊢
    rw [hh, Bool.or_eq_true, decide_eq_true_eq] at hk
    rcases hk with rfl | hk
    · exact hx
    · exact hk
  · rw [mem_paths] at hk ⊢
    rw [hh, hk, Bool.or_true]
  · unfold Package.getPart Package.addPart
    rw [AMap.get_insert]
    simp [e]

theorem lost_text (p : Package) (x : Str) : Package.getPartString (AMap.remove p x) x = none := by
  unfold Package.getPartString Package.getPart
  rw [AMap.get_remove]
  simp

theorem required_has {p : Package} (hv : validate p = []) {x : Str} (hx : x ∈ requiredParts) : p.hasPart x = true := by
  have h0 := (validate_parts hv).1
  unfold checkRequiredParts at h0
  rw [List.map_eq_nil_iff, List.filter_eq_nil_iff] at h0
  simpa using h0 x hx

theorem required_lost {p : Package} (hv : validate p = []) {x : Str} (hx : x ∈ requiredParts) :
    checkRequiredParts (AMap.remove p x) = [.missingPart x] := by
  have e : requiredParts.filter (fun y => !Package.hasPart (AMap.remove p x) y) = requiredParts.filter fun y => decide (y = x) := by
    refine List.filter_congr fun y hy => ?_
    rw [has_lost, required_has hv hy]
    by_cases e : y = x <;> simp [e]
  unfold checkRequiredParts
  rw [e]
  simp only [requiredParts, List.mem_cons, List.not_mem_nil, or_false] at hx
  rcases hx with rfl | rfl | rfl | rfl <;> decide

theorem required_rebuilt {p : Package} (hv : validate p = []) (x : Str) (b : Bytes) :
    checkRequiredParts (Package.addPart (AMap.remove p x) x b) = [] := by
  unfold checkRequiredParts
  rw [List.map_eq_nil_iff, List.filter_eq_nil_iff]
  intro y hy
  rw [has_rebuilt, required_has hv hy]
  simp

/-! ### The relationships of a package with one part lost, or rebuilt -/

section

variable {d : Deck} {st : BuildSettings} {f : Entry → Bytes}

theorem beside_targets (h : Openable d st) {r : Package} {q : PartName} (hq : q = .contentTypes ∨ q = .rootRels ∨ q = .presentation ∨ q = .presRels)
    (hb : Beside (generated d st f) r q.path) : HasTargets d st r := by
  intro x hx hne
  rw [← mem_paths]
  refine hb.kept _ (generated_mem h hx) ?_
  intro e
  have ho : q.Own := by rcases hq with rfl | rfl | rfl | rfl <;> trivial
  have := PartName.path_inj (expectedParts_own d st _ hx) ho e
  subst this
  tauto

theorem rels_of (h : NeedsNoRepair d st)
    (hf : ∀ p l, (⟨p, .rels l⟩ : Entry) ∈ buildPackage d st → f ⟨p, .rels l⟩ = encode (relsPartText d st l p)) {r : Package}
    (hh : HasTargets d st r) (hk : ∀ k ∈ r.partPaths, k ∈ (generated d st f).partPaths)
    (hs : ∀ k, c!"ppt/" <+: k → c!".rels" <:+ k → r.getPartString k = (generated d st f).getPartString k) :
    checkRelationships r = checkRelsFile r c!"_rels/.rels" := by
  have h1 : checkRelsFile r c!"ppt/_rels/presentation.xml.rels" = [] :=
    pres_fine_of h hh (by rw [hs _ (by decide) (by decide)]; exact pres_text h hf)
  unfold checkRelationships
  rw [h1, List.append_nil]
  refine (congrArg _ (List.flatMap_eq_nil_iff.mpr ?_)).trans (List.append_nil _)
  intro path hp
  obtain ⟨hp, ht⟩ := List.mem_filter.mp hp
  obtain ⟨e, he, rfl⟩ := generated_path (hk _ hp)
  rw [Bool.and_eq_true, startsWith_prefix] at ht
  refine slide_fine_of h hh ?_ he ht.1
  intro n l hm
  rw [hs _ ⟨c!"slides/_rels/slide" ++ dec n ++ c!".xml.rels", by simp [PartName.path]⟩
    ⟨c!"ppt/slides/_rels/slide" ++ dec n ++ c!".xml", by simp [PartName.path]⟩]
  exact generated_text h.openable hm (hf _ _ hm)

theorem beside_rels (h : NeedsNoRepair d st)
    (hf : ∀ p l, (⟨p, .rels l⟩ : Entry) ∈ buildPackage d st → f ⟨p, .rels l⟩ = encode (relsPartText d st l p)) {r : Package}
    {q : PartName} (hq : q = .contentTypes ∨ q = .rootRels ∨ q = .presentation) (hb : Beside (generated d st f) r q.path) :
    checkRelationships r = checkRelsFile r c!"_rels/.rels" := by
  refine rels_of h hf (beside_targets h.openable (by tauto) hb) hb.fewer fun k h1 h2 => hb.text ?_
  rintro rfl
  rcases hq with rfl | rfl | rfl <;> revert h1 h2 <;> decide

/-- What the validator says of the package's own relationships, if all that can be missing is a part of the four. -/
def rootIssue (r : Package) (target id : Str) : List RepairIssue :=
  if (!r.hasPart target && !false) = true then [.brokenRelationship c!"_rels/.rels" target id] else []

theorem rootIssue_nil {r : Package} {target : Str} (h : r.hasPart target = true) (id : Str) : rootIssue r target id = [] := by
  unfold rootIssue
  rw [h]
  rfl

theorem rootIssue_some {r : Package} {target : Str} (h : r.hasPart target = false) (id : Str) :
    rootIssue r target id = [.brokenRelationship c!"_rels/.rels" target id] := by
  unfold rootIssue
  rw [h]
  rfl

theorem root_rebuilt {r : Package} (h : r.getPartString c!"_rels/.rels" = some packageRels) :
    checkRelsFile r c!"_rels/.rels" = rootIssue r c!"ppt/presentation.xml" c!"rId1" ++ (rootIssue r c!"docProps/core.xml" c!"rId2" ++
      (rootIssue r c!"docProps/app.xml" c!"rId3" ++ [])) := by
  unfold checkRelsFile
  rw [h]
  krfl

/-- The text of the package's own relationships. -/
def rootText (signature : Bool) : Str := renderRelsWith ((rootRels signature).take 3) ((rootRels signature).drop 3)

theorem root_written {r : Package} {signature : Bool} (h : r.getPartString c!"_rels/.rels" = some (rootText signature)) :
    checkRelsFile r c!"_rels/.rels" = rootIssue r c!"ppt/presentation.xml" c!"rId1" ++ (rootIssue r c!"docProps/core.xml" c!"rId2" ++
      (rootIssue r c!"docProps/app.xml" c!"rId3" ++
        ((if signature = true then rootIssue r c!"_xmlsignatures/origin.sigs" c!"rId4" else []) ++ []))) := by
  unfold checkRelsFile
  rw [h]
  cases signature <;> krfl

theorem root_dropped {r : Package} {signature : Bool} (h : r.getPartString c!"_rels/.rels" = some (dropRelLines (rootText signature) c!"rId1")) :
    checkRelsFile r c!"_rels/.rels" = rootIssue r c!"docProps/core.xml" c!"rId2" ++
      (rootIssue r c!"docProps/app.xml" c!"rId3" ++
        ((if signature = true then rootIssue r c!"_xmlsignatures/origin.sigs" c!"rId4" else []) ++ [])) := by
  unfold checkRelsFile
  rw [h]
  cases signature <;> krfl

theorem root_text (h : Openable d st)
    (hf : ∀ p l, (⟨p, .rels l⟩ : Entry) ∈ buildPackage d st → f ⟨p, .rels l⟩ = encode (relsPartText d st l p)) :
    (generated d st f).getPartString c!"_rels/.rels" = some (rootText st.signature) := by
  obtain ⟨b, hb, rfl⟩ := entry_of_expected h (q := .rootRels) (by simp [expectedParts])
  exact generated_text h hb (hf _ _ hb)

theorem repair_lost {uni : Char → Bool} {p q : Package} {x : Str} (h1 : validate p = [.missingPart x])
    (h2 : repairMissingPart p x = (q, true)) :
    repair uni p = (q, ⟨[.missingPart x], [.missingPart x], [], (validate q).isEmpty⟩) := by
  unfold repair
  simp only [h1]
  rw [if_neg (by simp)]
  simp [repairStep, RepairIssue.isRepairable, repairIssue, h2]

theorem target_has {r : Package} (hh : HasTargets d st r) {q : PartName} (hq : q ∈ expectedParts d st)
    (hne : q ≠ .contentTypes ∧ q ≠ .rootRels ∧ q ≠ .presentation ∧ q ≠ .presRels) : r.hasPart q.path = true := hh q hq hne

theorem validate_of {r : Package} {a c : List RepairIssue} (h1 : checkRequiredParts r = a) (h2 : checkXmlValidity r = [])
    (h3 : checkRelationships r = c) (h4 : checkSlideReferences r = []) (h5 : checkContentTypes r = []) : validate r = a ++ c := by
  unfold validate
  rw [h1, h2, h3, h4, h5]
  simp

theorem lost_eq (x : Str) : lost d st f x = AMap.remove (generated d st f) x := openReader_without _ _

/-- A lost `_rels/.rels`. -/
theorem lost_root (uni : Char → Bool) (h : NeedsNoRepair d st) (hv : validate (generated d st f) = [])
    (hf : ∀ p l, (⟨p, .rels l⟩ : Entry) ∈ buildPackage d st → f ⟨p, .rels l⟩ = encode (relsPartText d st l p)) :
    repair uni (lost d st f c!"_rels/.rels") =
      ((lost d st f c!"_rels/.rels").addPart c!"_rels/.rels" (encode packageRels),
        ⟨[.missingPart c!"_rels/.rels"], [.missingPart c!"_rels/.rels"], [], true⟩) := by
  rw [lost_eq]
  have hb := beside_remove (generated d st f) c!"_rels/.rels"
  have hb2 := beside_rebuilt (required_has hv (x := c!"_rels/.rels") (by decide)) (encode packageRels)
  have h1 : validate (AMap.remove (generated d st f) c!"_rels/.rels") = [.missingPart c!"_rels/.rels"] := by
    refine validate_of (c := []) (required_lost hv (by decide)) (beside_xml hb (validate_parts hv).2.1 ?_) ?_ (beside_slides hb (validate_parts hv).2.2.2.1 (by decide) (by decide))
      (beside_types hb (validate_parts hv).2.2.2.2 (by decide))
    · rw [lost_text]; simp
    · rw [beside_rels h hf (q := .rootRels) (by simp) hb]
      unfold checkRelsFile
      rw [lost_text]
  have h2 : validate (Package.addPart (AMap.remove (generated d st f) c!"_rels/.rels") c!"_rels/.rels" (encode packageRels)) = [] := by
    refine validate_of (c := []) (required_rebuilt hv _ _) (beside_xml hb2 (validate_parts hv).2.1 ?_) ?_ (beside_slides hb2 (validate_parts hv).2.2.2.1 (by decide) (by decide))
      (beside_types hb2 (validate_parts hv).2.2.2.2 (by decide))
    · rw [rebuilt_text]
      rintro t ⟨⟩
      exact ⟨'<', by decide, by decide⟩
    · rw [beside_rels h hf (q := .rootRels) (by simp) hb2, root_rebuilt (rebuilt_text _ _ _)]
      have hh := beside_targets h.openable (q := .rootRels) (by simp) hb2
      rw [rootIssue_nil (by rw [has_rebuilt, required_has hv (by decide)]; simp), rootIssue_nil (target := c!"docProps/core.xml") (hh .core (by simp [expectedParts]) (by simp)),
        rootIssue_nil (target := c!"docProps/app.xml") (hh .app (by simp [expectedParts]) (by simp))]
      rfl
  have h3 := repair_lost (uni := uni) h1 (q := Package.addPart (AMap.remove (generated d st f) c!"_rels/.rels") c!"_rels/.rels" (encode packageRels)) rfl
  rw [h3, h2]
  rfl

/-- A lost `ppt/presentation.xml`. -/
theorem lost_presentation (uni : Char → Bool) (h : NeedsNoRepair d st) (hv : validate (generated d st f) = [])
    (hf : ∀ p l, (⟨p, .rels l⟩ : Entry) ∈ buildPackage d st → f ⟨p, .rels l⟩ = encode (relsPartText d st l p)) :
    repair uni (lost d st f c!"ppt/presentation.xml") =
      (((lost d st f c!"ppt/presentation.xml").addPart c!"ppt/presentation.xml" (encode Repair.presentationXml)).addPart c!"_rels/.rels"
          (encode (dropRelLines (rootText st.signature) c!"rId1")),
        ⟨[.missingPart c!"ppt/presentation.xml", .brokenRelationship c!"_rels/.rels" c!"ppt/presentation.xml" c!"rId1"],
          [.missingPart c!"ppt/presentation.xml", .brokenRelationship c!"_rels/.rels" c!"ppt/presentation.xml" c!"rId1"], [], true⟩) := by
  rw [lost_eq]
  have hb := beside_remove (generated d st f) c!"ppt/presentation.xml"
  have hb2 := beside_rebuilt (required_has hv (x := c!"ppt/presentation.xml") (by decide)) (encode Repair.presentationXml)
  have root := root_text h.openable hf
  have sig : st.signature = true → PartName.sigOrigin ∈ expectedParts d st := by
    intro e
    simp [expectedParts, e]
  have issues : ∀ {r : Package}, HasTargets d st r → rootIssue r c!"docProps/core.xml" c!"rId2" ++
      (rootIssue r c!"docProps/app.xml" c!"rId3" ++
        ((if st.signature = true then rootIssue r c!"_xmlsignatures/origin.sigs" c!"rId4" else []) ++ [])) = [] := by
    intro r hh
    rw [rootIssue_nil (target := c!"docProps/core.xml") (hh .core (by simp [expectedParts]) (by simp)),
      rootIssue_nil (target := c!"docProps/app.xml") (hh .app (by simp [expectedParts]) (by simp))]
    split
    · rename_i e
      rw [rootIssue_nil (target := c!"_xmlsignatures/origin.sigs") (hh .sigOrigin (sig e) (by simp))]
      rfl
    · rfl
  have h1 : validate (AMap.remove (generated d st f) c!"ppt/presentation.xml") =
      [.missingPart c!"ppt/presentation.xml"] ++ [.brokenRelationship c!"_rels/.rels" c!"ppt/presentation.xml" c!"rId1"] := by
    refine validate_of (required_lost hv (by decide)) (beside_xml hb (validate_parts hv).2.1 ?_) ?_ (beside_slides hb (validate_parts hv).2.2.2.1 (by decide) (by decide))
      (beside_types hb (validate_parts hv).2.2.2.2 (by decide))
    · rw [lost_text]; simp
    · rw [beside_rels h hf (q := .presentation) (by simp) hb, root_written (by rw [hb.text (by decide)]; exact root),
        rootIssue_some (by rw [has_lost]; simp), issues (beside_targets h.openable (q := .presentation) (by simp) hb), List.append_nil]
  have hh2 := beside_targets h.openable (q := .presentation) (by simp) hb2
  have ht2 : Package.getPartString _ c!"_rels/.rels" = _ := (hb2.text (by decide)).trans root
  have h2 : validate (Package.addPart (AMap.remove (generated d st f) c!"ppt/presentation.xml") c!"ppt/presentation.xml"
      (encode Repair.presentationXml)) = [] := by
    refine validate_of (c := []) (required_rebuilt hv _ _) (beside_xml hb2 (validate_parts hv).2.1 ?_) ?_ (beside_slides hb2 (validate_parts hv).2.2.2.1 (by decide) (by decide))
      (beside_types hb2 (validate_parts hv).2.2.2.2 (by decide))
    · rw [rebuilt_text]
      rintro t ⟨⟩
      exact ⟨'<', by decide, by decide⟩
    · rw [beside_rels h hf (q := .presentation) (by simp) hb2, root_written ht2, rootIssue_nil (by rw [has_rebuilt]; simp), issues hh2]
      rfl
  generalize hr : Package.addPart (AMap.remove (generated d st f) c!"ppt/presentation.xml") c!"ppt/presentation.xml"
    (encode Repair.presentationXml) = r at h2 hh2 ht2 hb2
  have hb3 := beside_replaced (p := r) (x := c!"_rels/.rels") (required_has h2 (by decide)) (encode (dropRelLines (rootText st.signature) c!"rId1"))
  have ht3 : (r.addPart c!"_rels/.rels" (encode (dropRelLines (rootText st.signature) c!"rId1"))).getPartString c!"_rels/.rels" =
      some (dropRelLines (rootText st.signature) c!"rId1") := replaced_text _ _ _
  have hh3 : HasTargets d st (r.addPart c!"_rels/.rels" (encode (dropRelLines (rootText st.signature) c!"rId1"))) := by
    intro q hq hne
    rw [← mem_paths]
    refine hb3.kept _ (mem_paths.mpr (hh2 q hq hne)) ?_
    intro e
    have := PartName.path_inj (expectedParts_own d st _ hq) (show PartName.rootRels.Own from trivial) e
    exact hne.2.1 this
  have h3 : validate (r.addPart c!"_rels/.rels" (encode (dropRelLines (rootText st.signature) c!"rId1"))) = [] := by
    refine validate_of (a := []) (c := []) ?_ (beside_xml hb3 (validate_parts h2).2.1 ?_) ?_ (beside_slides hb3 (validate_parts h2).2.2.2.1 (by decide) (by decide)) (beside_types hb3 (validate_parts h2).2.2.2.2 (by decide))
    · unfold checkRequiredParts
      rw [List.map_eq_nil_iff, List.filter_eq_nil_iff]
      intro y hy
      have := required_has h2 hy
      have : (r.addPart c!"_rels/.rels" (encode (dropRelLines (rootText st.signature) c!"rId1"))).hasPart y = true := by
        unfold Package.hasPart Package.addPart at *
        rw [AMap.has_eq, AMap.get_insert]
        split
        · rfl
        · rwa [AMap.has_eq] at this
      simp [this]
    · rw [ht3]
      rintro t ⟨⟩
      refine ⟨'<', ?_, by decide⟩
      cases st.signature <;> decide +kernel
    · rw [rels_of h hf hh3 (fun k hk => hb2.fewer k (hb3.fewer k hk)), root_dropped ht3, issues hh3]
      intro k k1 k2
      rw [hb3.text, hb2.text]
      · rintro rfl
        revert k2
        decide
      · rintro rfl
        revert k1
        decide
  unfold repair
  simp only [h1]
  rw [if_neg (by simp)]
  have e1 : repairMissingPart (AMap.remove (generated d st f) c!"ppt/presentation.xml") c!"ppt/presentation.xml" = (r, true) := by
    rw [← hr]
    rfl
  simp [repairStep, RepairIssue.isRepairable, repairIssue, e1, repairBrokenRelationship, ht2, h3]

/-- A lost `[Content_Types].xml`. -/
theorem lost_types (uni : Char → Bool) (h : NeedsNoRepair d st) (hv : validate (generated d st f) = [])
    (hf : ∀ p l, (⟨p, .rels l⟩ : Entry) ∈ buildPackage d st → f ⟨p, .rels l⟩ = encode (relsPartText d st l p))
    {q r : Package} (hq0 : q = lost d st f c!"[Content_Types].xml")
    (hr0 : r = q.addPart c!"[Content_Types].xml" (encode (generateContentTypes q))) :
    repair uni q = (r, ⟨[.missingPart c!"[Content_Types].xml"], [.missingPart c!"[Content_Types].xml"], [], (checkContentTypes r).isEmpty⟩) := by
  have hq : q = AMap.remove (generated d st f) c!"[Content_Types].xml" := hq0.trans (lost_eq _)
  have hr : r = Package.addPart (AMap.remove (generated d st f) c!"[Content_Types].xml") c!"[Content_Types].xml" (encode (generateContentTypes q)) := by
    rw [← hq, hr0]
  have hb : Beside (generated d st f) q c!"[Content_Types].xml" := hq ▸ beside_remove _ _
  have hb2 : Beside (generated d st f) r c!"[Content_Types].xml" := hr ▸ beside_rebuilt (required_has hv (by decide)) _
  have root := root_text h.openable hf
  have fine : ∀ {x : Package}, Beside (generated d st f) x c!"[Content_Types].xml" → checkRelationships x = [] := by
    intro x hx
    have hh := beside_targets h.openable (q := .contentTypes) (by simp) hx
    rw [beside_rels h hf (q := .contentTypes) (by simp) hx, root_written (by rw [hx.text (by decide)]; exact root),
      rootIssue_nil (mem_paths.mp (hx.kept _ (mem_paths.mpr (required_has hv (by decide))) (by decide))),
      rootIssue_nil (target := c!"docProps/core.xml") (hh .core (by simp [expectedParts]) (by simp)),
      rootIssue_nil (target := c!"docProps/app.xml") (hh .app (by simp [expectedParts]) (by simp))]
    split
    · rename_i e
      rw [rootIssue_nil (target := c!"_xmlsignatures/origin.sigs") (hh .sigOrigin (by simp [expectedParts, e]) (by simp))]
      rfl
    · rfl
  have h1 : validate q = [.missingPart c!"[Content_Types].xml"] := by
    refine validate_of (c := []) (hq ▸ required_lost hv (by decide)) (beside_xml hb (validate_parts hv).2.1 ?_) (fine hb)
      (beside_slides hb (validate_parts hv).2.2.2.1 (by decide) (by decide)) ?_
    · rw [hq, lost_text]; simp
    · unfold checkContentTypes
      rw [hq, lost_text]
  have h2 : validate r = checkContentTypes r := by
    have a1 : checkRequiredParts r = [] := hr ▸ required_rebuilt hv _ _
    have a2 : checkXmlValidity r = [] := by
      refine beside_xml hb2 (validate_parts hv).2.1 ?_
      rw [hr, rebuilt_text]
      rintro t ⟨⟩
      exact ⟨'<', List.mem_append_left _ (List.mem_append_left _ (by decide)), by decide⟩
    unfold validate
    rw [a1, a2, fine hb2, beside_slides hb2 (validate_parts hv).2.2.2.1 (by decide) (by decide)]
    simp only [List.nil_append]
  have h3 := repair_lost (uni := uni) h1 (q := r) (by rw [hr0]; rfl)
  rw [h3, h2]

end

/-! ### The types inferred for parts -/

theorem infix_digits {m a b ds : Str} (hm : ∀ c ∈ m, c.isDigit = false) (hd : ∀ c ∈ ds, c.isDigit = true) (h0 : ds ≠ [])
    (h : m <:+: a ++ (ds ++ b)) : m <:+: a ∨ m <:+: b := by
  induction ds generalizing a with
  | nil => exact absurd rfl h0
  | cons c ds ih =>
    have hc : c ∉ m := fun hx => by
      have := hm c hx
      rw [hd c (by simp)] at this
      cases this
    rcases infix_split hc h with h | h
    · exact .inl h
    · by_cases e : ds = []
      · subst e
        exact .inr h
      · rcases ih (a := []) (fun c hc => hd c (by simp [hc])) e h with h | h
        · exact .inl (h.trans (List.nil_infix))
        · exact .inr h

theorem contains_number {m a b : Str} (n : Nat) (hm : ∀ c ∈ m, c.isDigit = false) (ha : containsStr m a = false) (hb : containsStr m b = false) :
    containsStr m (a ++ dec n ++ b) = false := by
  rw [Bool.eq_false_iff] at ha hb ⊢
  intro hc
  rw [Ne, containsStr_iff_infix] at ha hb
  rw [containsStr_iff_infix, List.append_assoc] at hc
  rcases infix_digits hm (fun c hc => isDigit_of_mem_dec hc) (dec_ne_nil n) hc with h | h
  · exact ha h
  · exact hb h

theorem contains_before {m a b : Str} (n : Nat) (ha : containsStr m a = true) : containsStr m (a ++ dec n ++ b) = true := by
  rw [List.append_assoc]
  exact containsStr_append (.inl ha)

theorem prefix_number (a b : Str) (n : Nat) : startsWith a (a ++ dec n ++ b) = true := by
  rw [startsWith_prefix]
  exact ⟨dec n ++ b, by simp⟩

theorem suffix_number (a b : Str) (n : Nat) : endsWith b (a ++ dec n ++ b) = true := by
  rw [endsWith_suffix]
  exact ⟨a ++ dec n, by simp⟩

/-- **C160** (part): the type inferred from the name of a part is the type that the builder gives it, for slides, notes, layouts, themes,
the slide master and the presentation. Missing: all others, see `C160_types_violated`. -/
theorem C160_types_partial (n : Nat) : ∀ q ∈ [PartName.slide n, .notes n, .layout n, .theme n, .master, .presentation],
    ∃ t, expectedType q = some t ∧ inferContentType q.path = t.mime := by
  intro q hq
  simp only [List.mem_cons, List.not_mem_nil, or_false] at hq
  rcases hq with rfl | rfl | rfl | rfl | rfl | rfl
  · refine ⟨_, rfl, ?_⟩
    unfold inferContentType PartName.path
    rw [contains_number n (by decide) (by decide) (by decide), contains_number n (by decide) (by decide) (by decide),
      contains_number n (by decide) (by decide) (by decide), prefix_number, suffix_number]
    rfl
  · refine ⟨_, rfl, ?_⟩
    unfold inferContentType PartName.path
    rw [contains_number n (by decide) (by decide) (by decide), contains_number n (by decide) (by decide) (by decide),
      contains_before n (by decide)]
    rfl
  · refine ⟨_, rfl, ?_⟩
    unfold inferContentType PartName.path
    rw [contains_before n (by decide)]
    rfl
  · refine ⟨_, rfl, ?_⟩
    unfold inferContentType PartName.path
    rw [contains_number n (by decide) (by decide) (by decide), contains_number n (by decide) (by decide) (by decide),
      contains_number n (by decide) (by decide) (by decide),
      show startsWith c!"ppt/slides/slide" (c!"ppt/theme/theme" ++ dec n ++ c!".xml") = false from rfl,
      contains_before n (by decide)]
    rfl
  · exact ⟨_, rfl, by decide⟩
  · exact ⟨_, rfl, by decide⟩

/-- **C160 does not hold in full.** When `[Content_Types].xml` is rebuilt, the type of a part is guessed from its name, and the
guesses do not cover all parts that the builder writes: charts, ink, the notes and handout masters, the presentation, view and
document properties, table styles and signatures are given the type `application/xml` instead of their own. A reader that goes
by the types finds no charts, no notes master and no document properties in the repaired file. -/
theorem C160_types_violated (n : Nat) : ∀ q ∈ [PartName.chart n, .ink n, .notesMaster, .handoutMaster, .presProps, .viewProps, .tableStyles,
    .core, .app, .sig], ∃ t, expectedType q = some t ∧ inferContentType q.path = c!"application/xml" ∧ t.mime ≠ c!"application/xml" := by
  intro q hq
  simp only [List.mem_cons, List.not_mem_nil, or_false] at hq
  rcases hq with rfl | rfl | rfl | rfl | rfl | rfl | rfl | rfl | rfl | rfl
  · refine ⟨_, rfl, ?_, by decide⟩
    unfold inferContentType PartName.path
    rw [contains_number n (by decide) (by decide) (by decide), contains_number n (by decide) (by decide) (by decide),
      contains_number n (by decide) (by decide) (by decide),
      show startsWith c!"ppt/slides/slide" (c!"ppt/charts/chart" ++ dec n ++ c!".xml") = false from rfl,
      contains_number n (by decide) (by decide) (by decide), contains_number n (by decide) (by decide) (by decide), suffix_number]
    rfl
  · refine ⟨_, rfl, ?_, by decide⟩
    unfold inferContentType PartName.path
    rw [contains_number n (by decide) (by decide) (by decide), contains_number n (by decide) (by decide) (by decide),
      contains_number n (by decide) (by decide) (by decide),
      show startsWith c!"ppt/slides/slide" (c!"ppt/ink/ink" ++ dec n ++ c!".xml") = false from rfl,
      contains_number n (by decide) (by decide) (by decide), contains_number n (by decide) (by decide) (by decide), suffix_number]
    rfl
  all_goals exact ⟨_, rfl, by decide, by decide⟩

/-! ### The rebuilt relationships of the package -/

/-- **C160** (part): the relationships written in place of a lost `_rels/.rels` are those of a written file without signature. -/
theorem C160_relationships : ∃ root, XmlElement.parse packageRels = some root ∧
    (root.findAll c!"Relationship").map (fun e => (e.attr c!"Id", e.attr c!"Type", e.attr c!"Target")) =
      (rootRels false).map fun r => (some r.id, some r.type, some r.target) :=
  ⟨(XmlElement.parse packageRels).getD (.new []), by krfl, by krfl⟩

/-- **C160** (part): a written file that lost `_rels/.rels` is repaired: the missing part is the only thing found, it is written again,
all other parts are kept, and the result is valid. -/
theorem C160_root_partial (uni : Char → Bool) (d : Deck) (st : BuildSettings) (h : NeedsNoRepair d st) (desc : Str → Str)
    (texts : PartTexts) (other : PartName → Bytes)
    (hx : ∀ e ∈ buildPackage d st, ¬ Spelled e.body → c!".xml" <:+ e.name.path →
      ∃ c ∈ decodeLossy (entryBytes d st desc texts other e), isWs c = false) :
    let r := repair uni (lost d st (entryBytes d st desc texts other) c!"_rels/.rels")
    r.2 = ⟨[.missingPart c!"_rels/.rels"], [.missingPart c!"_rels/.rels"], [], true⟩ ∧
      r.1.getPartString c!"_rels/.rels" = some packageRels ∧
      ∀ e ∈ buildPackage d st, e.name ≠ .rootRels → r.1.getPart e.name.path = some (entryBytes d st desc texts other e) := by
  have hv := C148_valid_partial d st h desc texts other hx
  simp only [lost_root uni h hv fun _ _ _ => rfl]
  rw [lost_eq]
  refine ⟨trivial, rebuilt_text _ _ _, fun e he hne => ?_⟩
  have hb := beside_rebuilt (required_has hv (x := c!"_rels/.rels") (by decide)) (encode packageRels)
  refine (hb.same _ fun e0 => hne ?_).trans (generated_get h.openable he)
  exact PartName.path_inj (q := .rootRels) (expectedParts_own d st _ ((mem_names h.template).mp (List.mem_map.mpr ⟨e, he, rfl⟩))) trivial e0

/-- **C160 does not hold in full.** A signed file that lost `_rels/.rels` gets back the relationships of the presentation and of the
document properties, but not the one of the signature: the signature is still in the file, and nothing leads to it. The repair
reports the file as valid. -/
theorem C160_signature_violated (uni : Char → Bool) (d : Deck) (st : BuildSettings) (h : NeedsNoRepair d st) (hs : st.signature = true)
    (desc : Str → Str) (texts : PartTexts) (other : PartName → Bytes)
    (hx : ∀ e ∈ buildPackage d st, ¬ Spelled e.body → c!".xml" <:+ e.name.path →
      ∃ c ∈ decodeLossy (entryBytes d st desc texts other e), isWs c = false) :
    let r := repair uni (lost d st (entryBytes d st desc texts other) c!"_rels/.rels")
    r.2.isValid = true ∧ r.1.hasPart c!"_xmlsignatures/origin.sigs" = true ∧
      ∃ t, r.1.getPartString c!"_rels/.rels" = some t ∧ containsStr c!"origin.sigs" t = false := by
  have hv := C148_valid_partial d st h desc texts other hx
  simp only [lost_root uni h hv fun _ _ _ => rfl]
  rw [lost_eq]
  refine ⟨trivial, ?_, packageRels, rebuilt_text _ _ _, by decide +kernel⟩
  rw [has_rebuilt]
  have := generated_has (f := entryBytes d st desc texts other) h.openable (q := .sigOrigin) (by simp [expectedParts, hs])
  rw [show PartName.sigOrigin.path = c!"_xmlsignatures/origin.sigs" from rfl] at this
  rw [this, Bool.or_true]

/-- **C160 does not hold in full.** For a written file that lost `ppt/presentation.xml`, the repair finds two faults: the missing part,
and the relationship of the package that leads to it. It writes a presentation without slides, then removes the relationship
although its target is there again. It reports both faults as repaired and the file as valid, but no relationship of the package
leads to a presentation, and the presentation lists none of the slides. -/
theorem C160_presentation_violated (uni : Char → Bool) (d : Deck) (st : BuildSettings) (h : NeedsNoRepair d st) (desc : Str → Str)
    (texts : PartTexts) (other : PartName → Bytes)
    (hx : ∀ e ∈ buildPackage d st, ¬ Spelled e.body → c!".xml" <:+ e.name.path →
      ∃ c ∈ decodeLossy (entryBytes d st desc texts other e), isWs c = false) :
    let r := repair uni (lost d st (entryBytes d st desc texts other) c!"ppt/presentation.xml")
    r.2 = ⟨[.missingPart c!"ppt/presentation.xml", .brokenRelationship c!"_rels/.rels" c!"ppt/presentation.xml" c!"rId1"],
      [.missingPart c!"ppt/presentation.xml", .brokenRelationship c!"_rels/.rels" c!"ppt/presentation.xml" c!"rId1"], [], true⟩ ∧
      (∃ t, r.1.getPartString c!"_rels/.rels" = some t ∧ containsStr c!"presentation.xml" t = false) ∧
      ∃ t, r.1.getPartString c!"ppt/presentation.xml" = some t ∧ containsStr c!"<p:sldIdLst/>" t = true ∧
        containsStr c!"<p:sldId " t = false := by
  have hv := C148_valid_partial d st h desc texts other hx
  simp only [lost_presentation uni h hv fun _ _ _ => rfl]
  rw [lost_eq]
  refine ⟨trivial, ⟨_, replaced_text _ _ _, ?_⟩, Repair.presentationXml, ?_, by decide +kernel, by decide +kernel⟩
  · cases st.signature <;> decide +kernel
  · unfold Package.getPartString Package.getPart Package.addPart
    rw [AMap.get_insert, if_neg (by decide), AMap.get_insert]
    simp [decodeLossy_encode]

/-! ### The rebuilt list of types -/

theorem listed_aux {d : Deck} {st : BuildSettings} {f : Entry → Bytes} (h : NeedsNoRepair d st)
    (hv : validate (generated d st f) = []) {q r : Package} (hq0 : q = lost d st f c!"[Content_Types].xml")
    (hr0 : r = q.addPart c!"[Content_Types].xml" (encode (generateContentTypes q))) :
    (∀ e ∈ buildPackage d st, e.name ≠ .contentTypes → r.getPart e.name.path = some (f e)) ∧
      (∃ t, r.getPartString c!"[Content_Types].xml" = some t ∧ ∀ q ∈ expectedParts d st, q ≠ .contentTypes → c!".xml" <:+ q.path →
        c!"<Override PartName=\"/" ++ q.path ++ c!"\" ContentType=\"" ++ inferContentType q.path ++ c!"\"/>" <:+: t) ∧
      ((∀ q ∈ expectedParts d st, c!".xml" <:+ q.path ∨ c!".rels" <:+ q.path ∨ c!".png" <:+ q.path) → checkContentTypes r = []) := by
  have hq : q = AMap.remove (generated d st f) c!"[Content_Types].xml" := hq0.trans (lost_eq _)
  have hb : Beside (generated d st f) q c!"[Content_Types].xml" := hq ▸ beside_remove _ _
  have hb2 : Beside (generated d st f) r c!"[Content_Types].xml" := by
    rw [hr0]
    conv => arg 2; arg 1; rw [hq]
    exact beside_rebuilt (required_has hv (by decide)) _
  have text : r.getPartString c!"[Content_Types].xml" = some (generateContentTypes q) := by rw [hr0, replaced_text]
  have own : ∀ {q : PartName}, q ∈ expectedParts d st → q ≠ .contentTypes → q.path ≠ c!"[Content_Types].xml" := by
    intro q hq hne e0
    exact hne (PartName.path_inj (q := .contentTypes) (expectedParts_own d st _ hq) trivial e0)
  refine ⟨fun e he hne => ?_, ⟨_, text, fun x hx hne hs => ?_⟩, fun hall => ?_⟩
  · have hm := (mem_names h.template).mp (List.mem_map.mpr ⟨e, he, rfl⟩)
    rw [hb2.same _ (own hm hne), generated_get h.openable he]
  · unfold generateContentTypes
    refine infix_left (infix_right ?_)
    have hm := hb.kept _ (generated_mem h.openable hx) (own hx hne)
    have hm : x.path ∈ (q.partPaths.filter fun x => endsWith c!".xml" x && x ≠ c!"[Content_Types].xml") := by
      refine List.mem_filter.mpr ⟨hm, ?_⟩
      rw [Bool.and_eq_true, endsWith_suffix]
      exact ⟨hs, by simpa using own hx hne⟩
    obtain ⟨a, b, e⟩ := List.append_of_mem hm
    rw [e, List.flatMap_append, List.flatMap_cons]
    refine infix_right (infix_left (infix_left ?_))
    exact ⟨c!"  ", [], by simp [overrideLine]⟩
  · unfold checkContentTypes
    rw [text]
    simp only [List.map_eq_nil_iff, List.filter_eq_nil_iff]
    intro k hk
    obtain ⟨e, he, rfl⟩ := generated_path (hb2.fewer k hk)
    have hm := (mem_names h.template).mp (List.mem_map.mpr ⟨e, he, rfl⟩)
    have front : ∀ m, containsStr m c!"<Default Extension=\"xml\" ContentType=\"application/xml\"/>\n  <Default Extension=\"jpeg\" ContentType=\"image/jpeg\"/>\n  <Default Extension=\"png\"" = true →
        containsStr m (generateContentTypes q) = true := by
      intro m hm
      rw [containsStr_iff_infix] at hm ⊢
      refine hm.trans ?_
      unfold generateContentTypes
      exact infix_left (infix_left (containsStr_iff_infix.mp (by decide +kernel)))
    rcases hall _ hm with h1 | h1 | ⟨a, ha⟩
    · rw [lacks_xml (front _ (by decide)) h1]
      simp
    · rw [lacks_rels h1]
      simp
    · rw [lacks_not (a := a) (x := c!"png") ha.symm (by decide) (front _ (by decide))]
      simp

/-- **C160** (part): a written file that lost `[Content_Types].xml` gets a new one with an entry for every XML part; all other parts are
kept. The file is valid if it has no parts but XML, relationships and PNG images. Missing: other parts, see `C160_jpg_violated`. -/
theorem C160_listed_partial (uni : Char → Bool) (d : Deck) (st : BuildSettings) (h : NeedsNoRepair d st) (desc : Str → Str)
    (texts : PartTexts) (other : PartName → Bytes)
    (hx : ∀ e ∈ buildPackage d st, ¬ Spelled e.body → c!".xml" <:+ e.name.path →
      ∃ c ∈ decodeLossy (entryBytes d st desc texts other e), isWs c = false) :
    let r := repair uni (lost d st (entryBytes d st desc texts other) c!"[Content_Types].xml")
    r.2.found = [.missingPart c!"[Content_Types].xml"] ∧ r.2.repaired = r.2.found ∧ r.2.unrepaired = [] ∧
      (∀ e ∈ buildPackage d st, e.name ≠ .contentTypes → r.1.getPart e.name.path = some (entryBytes d st desc texts other e)) ∧
      (∃ t, r.1.getPartString c!"[Content_Types].xml" = some t ∧ ∀ q ∈ expectedParts d st, q ≠ .contentTypes → c!".xml" <:+ q.path →
        c!"<Override PartName=\"/" ++ q.path ++ c!"\" ContentType=\"" ++ inferContentType q.path ++ c!"\"/>" <:+: t) ∧
      ((∀ q ∈ expectedParts d st, c!".xml" <:+ q.path ∨ c!".rels" <:+ q.path ∨ c!".png" <:+ q.path) → r.2.isValid = true) := by
  have hv := C148_valid_partial d st h desc texts other hx
  obtain ⟨a1, a2, a3⟩ := listed_aux (d := d) (st := st) (f := entryBytes d st desc texts other) h hv rfl rfl
  simp only [lost_types (d := d) (st := st) (f := entryBytes d st desc texts other) uni h hv (fun _ _ _ => rfl) rfl rfl]
  exact ⟨trivial, trivial, trivial, a1, a2, fun hall => by rw [a3 hall]; rfl⟩

/-- **C160 does not hold in full.** A written file with a JPEG picture that lost `[Content_Types].xml` is not valid after the repair: the
rebuilt list of types knows the extension `jpeg`, while the library writes pictures of this kind as `.jpg`. -/
theorem C160_jpg_violated (uni : Char → Bool) (desc : Str → Str) (texts : PartTexts) (other : PartName → Bytes)
    (hx : ∀ e ∈ buildPackage (.custom [imageSlide c!"jpg"]) .none, ¬ Spelled e.body → c!".xml" <:+ e.name.path →
      ∃ c ∈ decodeLossy (entryBytes (.custom [imageSlide c!"jpg"]) .none desc texts other e), isWs c = false) :
    let r := repair uni (lost (.custom [imageSlide c!"jpg"]) .none (entryBytes (.custom [imageSlide c!"jpg"]) .none desc texts other)
      c!"[Content_Types].xml")
    r.2.found = [.missingPart c!"[Content_Types].xml"] ∧ r.2.isValid = false ∧
      .invalidContentType c!"ppt/media/image1.jpg" ∈ validate r.1 := by
  have h : NeedsNoRepair (.custom [imageSlide c!"jpg"]) .none := by
    refine ⟨rfl, by simp [BuildSettings.none], by simp [BuildSettings.none], by decide, ?_⟩
    intro s hs sh hsh
    rw [List.mem_singleton.mp (show s ∈ [imageSlide c!"jpg"] from hs)] at hsh
    cases hsh
  have hv := C148_valid_partial _ _ h desc texts other hx
  have hm : PartName.media 1 c!"jpg" ∈ expectedParts (.custom [imageSlide c!"jpg"]) .none := (mem_names rfl).mp (by decide)
  have key : RepairIssue.invalidContentType c!"ppt/media/image1.jpg" ∈ checkContentTypes
      ((lost (.custom [imageSlide c!"jpg"]) .none (entryBytes (.custom [imageSlide c!"jpg"]) .none desc texts other)
        c!"[Content_Types].xml").addPart c!"[Content_Types].xml" (encode (generateContentTypes
          (lost (.custom [imageSlide c!"jpg"]) .none (entryBytes (.custom [imageSlide c!"jpg"]) .none desc texts other)
            c!"[Content_Types].xml")))) := by
    unfold checkContentTypes
    rw [replaced_text]
    refine List.mem_map.mpr ⟨_, List.mem_filter.mpr ⟨?_, by krfl⟩, rfl⟩
    rw [lost_eq, mem_paths, has_rebuilt]
    have := generated_has (f := entryBytes (.custom [imageSlide c!"jpg"]) .none desc texts other) h.openable hm
    rw [show (PartName.media 1 c!"jpg").path = c!"ppt/media/image1.jpg" from rfl] at this
    rw [this, Bool.or_true]
  simp only [lost_types uni h hv (fun _ _ _ => rfl) rfl rfl]
  refine ⟨trivial, ?_, ?_⟩
  · rw [Bool.eq_false_iff]
    intro hc
    rw [List.isEmpty_iff.mp hc] at key
    cases key
  · unfold validate
    exact List.mem_append_right _ key

/-! ### Namespaces -/

theorem split_first {c : Char} {s a b : Str} (h : splitOnce? [c] s = some (a, b)) : c ∉ a := by
  intro hc
  obtain ⟨x, y, e, hx⟩ := List.eq_append_cons_of_mem hc
  have hs := splitOnce?_some h
  have h2 := splitOnce?_append_of_notMem (p := []) (b := y ++ [c] ++ b) hx
  rw [hs, e] at h
  have e3 : x ++ c :: y ++ [c] ++ b = x ++ [c] ++ (y ++ [c] ++ b) := by simp
  rw [e3, h2] at h
  have := congrArg (fun o => o.map fun p : Str × Str => p.1.length) h
  simp at this

/-- **C160** (part): a namespace that was declared by the repair is not declared again by a second repair. -/
theorem C160_namespace (p : Package) (path ns : Str) :
    repairMissingNamespace (repairMissingNamespace p path ns).1 path ns = repairMissingNamespace p path ns := by
  have fixed : ∀ {q : Package}, repairMissingNamespace p path ns = (q, true) → repairMissingNamespace q path ns = (q, true) →
      repairMissingNamespace (repairMissingNamespace p path ns).1 path ns = repairMissingNamespace p path ns := by
    intro q h1 h2
    rw [h1, h2]
  have same : ∀ h : repairMissingNamespace p path ns = (p, true),
      repairMissingNamespace (repairMissingNamespace p path ns).1 path ns = repairMissingNamespace p path ns := fun h => fixed h h
  cases ht : p.getPartString path with
  | none => exact same (by unfold repairMissingNamespace; rw [ht])
  | some xml =>
    cases hd : nsDecl ns with
    | none => exact same (by unfold repairMissingNamespace; rw [ht]; simp only [hd])
    | some decl =>
      cases hs : splitOnce? c!">" xml with
      | none => exact same (by unfold repairMissingNamespace; rw [ht]; simp only [hd, hs])
      | some ab =>
        obtain ⟨a, b⟩ := ab
        by_cases hc : containsStr decl a = true
        · exact same (by unfold repairMissingNamespace; rw [ht]; simp only [hd, hs, hc, if_true])
        · refine fixed (q := p.addPart path (encode (a ++ c!" " ++ decl ++ c!">" ++ b))) ?_ ?_
          · unfold repairMissingNamespace
            rw [ht]
            simp only [hd, hs, hc]
            rfl
          · have ha : '>' ∉ a := split_first hs
            have hg : '>' ∉ decl := by
              unfold nsDecl at hd
              repeat' split at hd
              all_goals first
                | (cases hd; decide)
                | cases hd
            have e : splitOnce? c!">" (a ++ c!" " ++ decl ++ c!">" ++ b) = some (a ++ c!" " ++ decl, b) :=
              splitOnce?_append_of_notMem (c := '>') (p := []) (by simp [ha, hg])
            unfold repairMissingNamespace
            rw [replaced_text]
            simp only [hd, e]
            rw [if_pos]
            exact containsStr_append (.inr (containsStr_iff_infix.mpr (List.infix_refl _)))

/-! ### The rebuilt relationships of the presentation -/

/-- A slide with a title. -/
def loneSlide : SlideIn := ⟨c!"T", .titleOnly, 0, false, [], [], none, 0, 0, 0, false⟩

theorem insert_twice (m : Package) (k : Str) (a b : Bytes) : AMap.insert (AMap.insert m k a) k b = AMap.insert m k b := by
  unfold AMap.insert
  by_cases h : AMap.has m k = true
  · have h2 : AMap.has (m.map fun e => if e.1 = k then (k, a) else e) k = true := by
      have : AMap.has (AMap.insert m k a) k = true := by rw [AMap.has_eq, AMap.get_insert]; simp
      unfold AMap.insert at this
      rwa [if_pos h] at this
    rw [if_pos h, if_pos h2, if_pos h, List.map_map]
    refine List.map_congr_left fun e _ => ?_
    by_cases he : e.1 = k <;> simp [he]
  · have h2 : AMap.has (m ++ [(k, a)]) k = true := by unfold AMap.has; simp
    rw [if_neg h, if_pos h2, if_neg h, List.map_append]
    have : m.map (fun e => if e.1 = k then (k, b) else e) = m := by
      conv_rhs => rw [← List.map_id m]
      refine List.map_congr_left fun e he => ?_
      have : e.1 ≠ k := by
        intro e0
        apply h
        unfold AMap.has
        rw [List.any_eq_true]
        exact ⟨e, he, by simp [e0]⟩
      simp [this]
    rw [this]
    simp

/-- What the validator says of a relationship of the presentation. -/
def presIssue (r : Package) (target id : Str) : List RepairIssue :=
  if (!r.hasPart target && !false) = true then [.brokenRelationship c!"ppt/_rels/presentation.xml.rels" target id] else []

theorem presIssue_nil {r : Package} {target : Str} (h : r.hasPart target = true) (id : Str) : presIssue r target id = [] := by
  unfold presIssue
  rw [h]
  rfl

/-- The rebuilt relationships with the slide added. -/
def rebuiltPresRels : Str := addRelText Repair.presentationRels c!"ppt/slides/slide1.xml"

theorem pres_rebuilt {r : Package} (h : r.getPartString c!"ppt/_rels/presentation.xml.rels" = some rebuiltPresRels) :
    checkRelsFile r c!"ppt/_rels/presentation.xml.rels" = presIssue r c!"ppt/slideMasters/slideMaster1.xml" c!"rId1" ++
      (presIssue r c!"ppt/theme/theme1.xml" c!"rId2" ++ (presIssue r c!"ppt/presProps.xml" c!"rId3" ++
      (presIssue r c!"ppt/viewProps.xml" c!"rId4" ++ (presIssue r c!"ppt/tableStyles.xml" c!"rId5" ++
      (presIssue r c!"ppt/slides/slide1.xml" c!"rId6" ++ []))))) := by
  unfold checkRelsFile
  rw [h]
  krfl

theorem lone_fine : NeedsNoRepair (.custom [loneSlide]) .none := by
  refine ⟨rfl, by simp [BuildSettings.none], by simp [BuildSettings.none], by decide, ?_⟩
  intro s hs sh hsh
  rw [List.mem_singleton.mp (show s ∈ [loneSlide] from hs)] at hsh
  cases hsh

theorem lone_text (desc : Str → Str) (texts : PartTexts) (other : PartName → Bytes) :
    (generated (.custom [loneSlide]) .none (entryBytes (.custom [loneSlide]) .none desc texts other)).getPartString c!"ppt/presentation.xml" =
      some (presentationText 1 false false) := by
  obtain ⟨b, hb, e⟩ := entry_of_expected lone_fine.openable (q := .presentation) (by simp [expectedParts])
  rw [← presText_noFonts desc]
  refine generated_text lone_fine.openable hb ?_
  simp only [BodyOk] at e
  subst e
  rfl

theorem required_of {p r : Package} {x : Str} (h : Beside p r x) (hx : r.hasPart x = true) (h0 : checkRequiredParts p = []) :
    checkRequiredParts r = [] := by
  unfold checkRequiredParts at h0 ⊢
  rw [List.map_eq_nil_iff, List.filter_eq_nil_iff] at h0 ⊢
  intro y hy
  have hp : p.hasPart y = true := by simpa using h0 y hy
  have : r.hasPart y = true := by
    by_cases e : y = x
    · exact e ▸ hx
    · exact mem_paths.mp (h.kept y (mem_paths.mpr hp) e)
  simp [this]

/-- The presentation with the slide added. -/
def rebuiltList : Str := addSlideText (presentationText 1 false false) c!"rId6"

/-- **C160 does not hold in full.** A written file that lost `ppt/_rels/presentation.xml.rels` gets relationships with fixed ids: `rId2` is
the theme. Slides are added behind them. But the presentation still lists its slides under the ids they had, so the first slide is listed twice: with
`rId2`, which is now the theme, and with the id it was given by the repair. All faults are reported as repaired, and the file as valid. Here for
a deck of one slide. -/
theorem C160_ids_violated (uni : Char → Bool) (desc : Str → Str) (texts : PartTexts) (other : PartName → Bytes)
    (hx : ∀ e ∈ buildPackage (.custom [loneSlide]) .none, ¬ Spelled e.body → c!".xml" <:+ e.name.path →
      ∃ c ∈ decodeLossy (entryBytes (.custom [loneSlide]) .none desc texts other e), isWs c = false) :
    let r := repair uni (lost (.custom [loneSlide]) .none (entryBytes (.custom [loneSlide]) .none desc texts other)
      c!"ppt/_rels/presentation.xml.rels")
    r.2 = ⟨[.missingPart c!"ppt/_rels/presentation.xml.rels", .missingSlideReference c!"ppt/slides/slide1.xml"],
      [.missingPart c!"ppt/_rels/presentation.xml.rels", .missingSlideReference c!"ppt/slides/slide1.xml"], [], true⟩ ∧
      (∃ t, r.1.getPartString c!"ppt/presentation.xml" = some t ∧ containsStr c!"<p:sldId id=\"256\" r:id=\"rId2\"/>" t = true ∧
        containsStr c!"<p:sldId id=\"257\" r:id=\"rId6\"/>" t = true) ∧
      ∃ t, r.1.getPartString c!"ppt/_rels/presentation.xml.rels" = some t ∧
        containsStr c!"Id=\"rId2\" Type=\"http://schemas.openxmlformats.org/officeDocument/2006/relationships/theme\"" t = true ∧
        containsStr c!"Id=\"rId6\" Type=\"http://schemas.openxmlformats.org/officeDocument/2006/relationships/slide\" Target=\"slides/slide1.xml\"" t = true := by
  have h := lone_fine
  have hv := C148_valid_partial _ _ h desc texts other hx
  have text := lone_text desc texts other
  have slides : actualSlides (lost (.custom [loneSlide]) .none (entryBytes (.custom [loneSlide]) .none desc texts other)
      c!"ppt/_rels/presentation.xml.rels") = [c!"ppt/slides/slide1.xml"] := by krfl
  have hf : ∀ p l, (⟨p, .rels l⟩ : Entry) ∈ buildPackage (.custom [loneSlide]) .none →
      entryBytes (.custom [loneSlide]) .none desc texts other ⟨p, .rels l⟩ = encode (relsPartText (.custom [loneSlide]) .none l p) :=
    fun _ _ _ => rfl
  rw [lost_eq] at slides ⊢
  change validate (generated (.custom [loneSlide]) .none (entryBytes (.custom [loneSlide]) .none desc texts other)) = [] at hv
  generalize entryBytes (.custom [loneSlide]) .none desc texts other = f at *
  have root := root_text h.openable hf
  have hb := beside_remove (generated (.custom [loneSlide]) .none f) c!"ppt/_rels/presentation.xml.rels"
  have rels : ∀ {r : Package}, HasTargets (.custom [loneSlide]) .none r → (∀ k ∈ r.partPaths, k ∈ (generated (.custom [loneSlide]) .none f).partPaths) →
      r.hasPart c!"ppt/presentation.xml" = true →
      (∀ k, k ≠ c!"ppt/presentation.xml" → k ≠ c!"ppt/_rels/presentation.xml.rels" → r.getPartString k = (generated (.custom [loneSlide]) .none f).getPartString k) →
      checkRelationships r = checkRelsFile r c!"ppt/_rels/presentation.xml.rels" := by
    intro r hh hk hp hs
    unfold checkRelationships
    rw [root_written (signature := false) (by rw [hs _ (by decide) (by decide)]; exact root), rootIssue_nil hp,
      rootIssue_nil (target := c!"docProps/core.xml") (hh .core (by simp [expectedParts]) (by simp)),
      rootIssue_nil (target := c!"docProps/app.xml") (hh .app (by simp [expectedParts]) (by simp))]
    refine (congrArg (checkRelsFile r c!"ppt/_rels/presentation.xml.rels" ++ ·) (List.flatMap_eq_nil_iff.mpr ?_)).trans (List.append_nil _)
    intro path hp
    obtain ⟨hp, ht⟩ := List.mem_filter.mp hp
    obtain ⟨e, he, rfl⟩ := generated_path (hk _ hp)
    rw [Bool.and_eq_true, startsWith_prefix] at ht
    refine slide_fine_of h hh ?_ he ht.1
    intro n l hm
    rw [hs _ (by simp [PartName.path]) (by simp [PartName.path])]
    exact generated_text h.openable hm (hf _ _ hm)
  have h1 : validate (AMap.remove (generated (.custom [loneSlide]) .none f) c!"ppt/_rels/presentation.xml.rels") =
      [.missingPart c!"ppt/_rels/presentation.xml.rels", .missingSlideReference c!"ppt/slides/slide1.xml"] := by
    have a3 := rels (beside_targets h.openable (q := .presRels) (by simp) hb) hb.fewer
      (mem_paths.mp (hb.kept _ (mem_paths.mpr (required_has hv (by decide))) (by decide))) (fun k _ hk => hb.text hk)
    have a3' : checkRelsFile (AMap.remove (generated (.custom [loneSlide]) .none f) c!"ppt/_rels/presentation.xml.rels")
        c!"ppt/_rels/presentation.xml.rels" = [] := by
      unfold checkRelsFile
      rw [lost_text]
    have a4 : checkSlideReferences (AMap.remove (generated (.custom [loneSlide]) .none f) c!"ppt/_rels/presentation.xml.rels") =
        [.missingSlideReference c!"ppt/slides/slide1.xml"] := by
      unfold checkSlideReferences referencedSlides
      rw [slides, lost_text]
      rfl
    unfold validate
    rw [required_lost hv (by decide), beside_xml hb (validate_parts hv).2.1 (by rw [lost_text]; simp), a3, a3', a4,
      beside_types hb (validate_parts hv).2.2.2.2 (by decide)]
    rfl
  have hb1 := beside_rebuilt (required_has hv (x := c!"ppt/_rels/presentation.xml.rels") (by decide)) (encode rebuiltPresRels)
  have text1 : Package.getPartString (Package.addPart (AMap.remove (generated (.custom [loneSlide]) .none f) c!"ppt/_rels/presentation.xml.rels")
      c!"ppt/_rels/presentation.xml.rels" (encode rebuiltPresRels)) c!"ppt/presentation.xml" = some (presentationText 1 false false) :=
    (hb1.text (by decide)).trans text
  have trels := rebuilt_text (generated (.custom [loneSlide]) .none f) c!"ppt/_rels/presentation.xml.rels" rebuiltPresRels
  have step : repairMissingSlideReference (Package.addPart (AMap.remove (generated (.custom [loneSlide]) .none f) c!"ppt/_rels/presentation.xml.rels")
      c!"ppt/_rels/presentation.xml.rels" (encode Repair.presentationRels)) c!"ppt/slides/slide1.xml" =
      (Package.addPart (Package.addPart (AMap.remove (generated (.custom [loneSlide]) .none f) c!"ppt/_rels/presentation.xml.rels")
        c!"ppt/_rels/presentation.xml.rels" (encode rebuiltPresRels)) c!"ppt/presentation.xml" (encode rebuiltList), true) := by
    unfold repairMissingSlideReference
    rw [rebuilt_text]
    simp only
    have e : Package.addPart (Package.addPart (AMap.remove (generated (.custom [loneSlide]) .none f) c!"ppt/_rels/presentation.xml.rels")
        c!"ppt/_rels/presentation.xml.rels" (encode Repair.presentationRels)) c!"ppt/_rels/presentation.xml.rels" (encode rebuiltPresRels) =
        Package.addPart (AMap.remove (generated (.custom [loneSlide]) .none f) c!"ppt/_rels/presentation.xml.rels")
        c!"ppt/_rels/presentation.xml.rels" (encode rebuiltPresRels) := insert_twice _ _ _ _
    have e6 : c!"rId" ++ dec (findMaxRelId Repair.presentationRels + 1) = c!"rId6" := by decide +kernel
    rw [show addRelText Repair.presentationRels c!"ppt/slides/slide1.xml" = rebuiltPresRels from rfl, e, e6]
    unfold addSlideToPresentation
    rw [text1]
    rfl
  have e1 : repairMissingPart (AMap.remove (generated (.custom [loneSlide]) .none f) c!"ppt/_rels/presentation.xml.rels")
      c!"ppt/_rels/presentation.xml.rels" = (Package.addPart (AMap.remove (generated (.custom [loneSlide]) .none f) c!"ppt/_rels/presentation.xml.rels")
      c!"ppt/_rels/presentation.xml.rels" (encode Repair.presentationRels), true) := rfl
  generalize Package.addPart (AMap.remove (generated (.custom [loneSlide]) .none f) c!"ppt/_rels/presentation.xml.rels")
      c!"ppt/_rels/presentation.xml.rels" (encode Repair.presentationRels) = r0 at step e1
  generalize Package.addPart (AMap.remove (generated (.custom [loneSlide]) .none f) c!"ppt/_rels/presentation.xml.rels")
      c!"ppt/_rels/presentation.xml.rels" (encode rebuiltPresRels) = r1 at hb1 text1 trels step
  have hp1 : r1.hasPart c!"ppt/presentation.xml" = true := text_has text1
  have hb2 := beside_replaced hp1 (encode rebuiltList)
  have text2 := replaced_text r1 c!"ppt/presentation.xml" rebuiltList
  have trels2 : (r1.addPart c!"ppt/presentation.xml" (encode rebuiltList)).getPartString c!"ppt/_rels/presentation.xml.rels" = some rebuiltPresRels :=
    (hb2.text (by decide)).trans trels
  generalize r1.addPart c!"ppt/presentation.xml" (encode rebuiltList) = r2 at step hb2 text2 trels2
  have fewer : ∀ k ∈ r2.partPaths, k ∈ (generated (.custom [loneSlide]) .none f).partPaths := fun k hk => hb1.fewer k (hb2.fewer k hk)
  have hh1 := beside_targets h.openable (q := .presRels) (by simp) hb1
  have hh2 : HasTargets (.custom [loneSlide]) .none r2 := by
    intro q hq hne
    rw [← mem_paths]
    refine hb2.kept _ (mem_paths.mpr (hh1 q hq hne)) ?_
    intro e
    have := PartName.path_inj (expectedParts_own _ _ _ hq) (show PartName.presentation.Own from trivial) e
    exact hne.2.2.1 this
  have h2 : validate r2 = [] := by
    refine validate_of (a := []) (c := []) ?_ (beside_xml hb2 (beside_xml hb1 (validate_parts hv).2.1 ?_) ?_) ?_ ?_
      (beside_types hb2 (beside_types hb1 (validate_parts hv).2.2.2.2 (by decide)) (by decide))
    · exact required_of hb2 (text_has text2) (required_of hb1 (text_has trels) (validate_parts hv).1)
    · rw [trels]
      intro t ht
      rw [← Option.some.inj ht]
      exact ⟨'<', by decide +kernel, by decide⟩
    · rw [text2]
      intro t ht
      rw [← Option.some.inj ht]
      exact ⟨'<', by decide +kernel, by decide⟩
    · rw [rels hh2 fewer (text_has text2) fun k a b => (hb2.text a).trans (hb1.text b), pres_rebuilt trels2,
        presIssue_nil (target := c!"ppt/slideMasters/slideMaster1.xml") (hh2 .master (by simp [expectedParts]) (by simp)),
        presIssue_nil (target := c!"ppt/theme/theme1.xml") (hh2 (.theme 1) (by simp [expectedParts]) (by simp)),
        presIssue_nil (target := c!"ppt/presProps.xml") (hh2 .presProps (by simp [expectedParts]) (by simp)),
        presIssue_nil (target := c!"ppt/viewProps.xml") (hh2 .viewProps (by simp [expectedParts]) (by simp)),
        presIssue_nil (target := c!"ppt/tableStyles.xml") (hh2 .tableStyles (by simp [expectedParts]) (by simp)),
        presIssue_nil (target := c!"ppt/slides/slide1.xml") (hh2 (.slide 1) (by rw [mem_expected_slide]; decide) (by simp))]
      rfl
    · have e : referencedSlides r2 = [c!"ppt/slides/slide1.xml"] := by
        unfold referencedSlides
        rw [trels2]
        krfl
      have hm : ∀ s, s ∈ actualSlides r2 ↔ s = c!"ppt/slides/slide1.xml" := by
        intro s
        rw [← List.mem_singleton, ← slides]
        unfold actualSlides
        rw [List.mem_filter, List.mem_filter]
        refine and_congr_left fun ht => ?_
        simp only [Bool.and_eq_true, startsWith_prefix] at ht
        have n1 : s ≠ c!"ppt/presentation.xml" := by rintro rfl; revert ht; decide
        have n2 : s ≠ c!"ppt/_rels/presentation.xml.rels" := by rintro rfl; revert ht; decide
        exact ⟨fun hs => hb.kept s (fewer s hs) n2, fun hs => hb2.kept s (hb1.kept s (hb.fewer s hs) n2) n1⟩
      unfold checkSlideReferences
      rw [e, List.append_eq_nil_iff, List.map_eq_nil_iff, List.map_eq_nil_iff, List.filter_eq_nil_iff, List.filter_eq_nil_iff]
      constructor
      · intro s hs
        have := (hm s).mpr (List.mem_singleton.mp hs)
        simp [this]
      · intro s hs
        rw [(hm s).mp hs]
        decide
  have final : repair uni (AMap.remove (generated (.custom [loneSlide]) .none f) c!"ppt/_rels/presentation.xml.rels") =
      (r2, ⟨[.missingPart c!"ppt/_rels/presentation.xml.rels", .missingSlideReference c!"ppt/slides/slide1.xml"],
      [.missingPart c!"ppt/_rels/presentation.xml.rels", .missingSlideReference c!"ppt/slides/slide1.xml"], [], true⟩) := by
    unfold repair
    simp only [h1]
    rw [if_neg (by simp)]
    simp [repairStep, RepairIssue.isRepairable, repairIssue, e1, step, h2]
  rw [final]
  exact ⟨rfl, ⟨_, text2, by decide +kernel, by decide +kernel⟩, _, trels2, by decide +kernel, by decide +kernel⟩

/-! ### Examples -/

theorem rich_nonblank : ∀ e ∈ buildPackage richDeck richSettings, ¬ Spelled e.body → c!".xml" <:+ e.name.path →
    ∃ c ∈ decodeLossy (entryBytes richDeck richSettings id (fun _ => some c!"<x/>") (fun _ => []) e), isWs c = false := by
  intro e _ hsp _
  unfold entryBytes
  rw [entryText_unspelled hsp]
  simp only
  rw [decodeLossy_encode]
  decide

example : (repair (fun _ => false) (lost richDeck richSettings (entryBytes richDeck richSettings id (fun _ => some c!"<x/>") fun _ => [])
    c!"_rels/.rels")).2.isValid = true :=
  (C160_signature_violated _ _ _ rich_fine rfl id _ _ rich_nonblank).1

example : (repair (fun _ => false) (lost richDeck richSettings (entryBytes richDeck richSettings id (fun _ => some c!"<x/>") fun _ => [])
    c!"ppt/presentation.xml")).2.unrepaired = [] := by
  rw [(C160_presentation_violated _ _ _ rich_fine id _ _ rich_nonblank).1]

example : (repair (fun _ => false) (lost (.custom [loneSlide]) .none (entryBytes (.custom [loneSlide]) .none id (fun _ => some c!"<x/>")
    fun _ => []) c!"[Content_Types].xml")).2.isValid = true := by
  refine (C160_listed_partial _ _ _ lone_fine id _ _ ?_).2.2.2.2.2 ?_
  · intro e _ hsp _
    unfold entryBytes
    rw [entryText_unspelled hsp]
    simp only
    rw [decodeLossy_encode]
    decide
  · intro q hq
    rw [← mem_names rfl] at hq
    revert hq q
    decide +kernel

example : (repair (fun _ => false) (lost (.custom [loneSlide]) .none (entryBytes (.custom [loneSlide]) .none id (fun _ => some c!"<x/>")
    fun _ => []) c!"ppt/_rels/presentation.xml.rels")).2.isValid = true := by
  refine (congrArg (·.isValid) (C160_ids_violated _ id _ _ ?_).1)
  intro e _ hsp _
  unfold entryBytes
  rw [entryText_unspelled hsp]
  simp only
  rw [decodeLossy_encode]
  decide

example : (repairMissingNamespace [(c!"a.xml", encode c!"<p:sld><p:cSld/></p:sld>")] c!"a.xml" c!"p").1.getPartString c!"a.xml" =
    some c!"<p:sld xmlns:p=\"http://schemas.openxmlformats.org/presentationml/2006/main\"><p:cSld/></p:sld>" := by decide +kernel

end PptRs.Props
