import Verif.Model.Report
import Verif.Lemmas.Rels
import Verif.Lemmas.AMap

/-!
# C39, C40: validation reports and dangling relationships
-/

namespace PptRs.Props

open PptRs PptRs.Spec

/-! ## C39 -/

/-- **C39**: a report is valid exactly when none of its issues is an error. -/
theorem C39_valid_iff_no_error (r : Report) :
    r.isValid = true ↔ r.errorCount = 0 := by
  simp [Report.isValid, Report.errorCount, List.filter_eq_nil_iff]

/-- **C39**: errors and warnings account for all issues. -/
theorem C39_counts (r : Report) : r.errorCount + r.warningCount = r.issues.length := by
  obtain ⟨l⟩ := r
  simp only [Report.errorCount, Report.warningCount]
  induction l with
  | nil => rfl
  | cons i l ih =>
    obtain ⟨c, s, m, p⟩ := i
    cases s <;> simp <;> omega

/-- **C39**: extending a report adds the counts, and it stays valid only if both were. -/
theorem C39_extend (r : Report) (l : List Issue) :
    (r.extend l).errorCount = r.errorCount + (Report.mk l).errorCount ∧
    (r.extend l).warningCount = r.warningCount + (Report.mk l).warningCount ∧
    (r.extend l).isValid = (r.isValid && (Report.mk l).isValid) := by
  simp [Report.extend, Report.errorCount, Report.warningCount, Report.isValid]

/-- **C39**: there is one error message per error, and pushing an error makes any report
invalid. -/
theorem C39_error_messages (r : Report) :
    r.errorMessages.length = r.errorCount ∧
    ∀ i : Issue, i.severity = .error → (r.push i).isValid = false := by
  constructor
  · simp [Report.errorMessages, Report.errorCount]
  · intro i hi; simp [Report.push, Report.isValid, hi]

/-- **C39**: a report is invalid exactly when one of its issues is an error, and the error messages are
those of its errors, in order. -/
theorem C39_valid_iff (r : Report) :
    (r.isValid = false ↔ ∃ i ∈ r.issues, i.severity = .error) ∧
    ∀ m, m ∈ r.errorMessages ↔ ∃ i ∈ r.issues, i.severity = .error ∧ i.message = m := by
  constructor
  · simp [Report.isValid]
  · intro m
    simp [Report.errorMessages, and_assoc]

/-- **C39**: the issues of a category are exactly the issues with that category, in the order of the
report, and every issue is among those of exactly one category. -/
theorem C39_in_category (r : Report) (c : Category) :
    (r.issuesInCategory c).Sublist r.issues ∧
    (∀ i, i ∈ r.issuesInCategory c ↔ i ∈ r.issues ∧ i.category = c) ∧
    ∀ i, (r.issuesInCategory c).count i = if i.category = c then r.issues.count i else 0 := by
  refine ⟨List.filter_sublist, fun i => by simp [Report.issuesInCategory], fun i => ?_⟩
  unfold Report.issuesInCategory
  split
  · rename_i h
    exact List.count_filter (by simpa using h)
  · rename_i h
    exact List.count_eq_zero.mpr (by simp [h])

example :
    let r : Report := ⟨[⟨.xml, .warning, [], none⟩, ⟨.slide, .error, [], none⟩]⟩
    r.issuesInCategory .slide = [⟨.slide, .error, [], none⟩] := by decide

example :
    let r : Report := ⟨[⟨.xml, .warning, [], none⟩, ⟨.slide, .error, [], none⟩]⟩
    r.isValid = false ∧ r.errorCount = 1 ∧ r.warningCount = 1 := by decide

/-! ## C40 -/

/-- A relationship is dangling when it is internal and its target, resolved against the folder
of its source part, is not a part of the package. -/
def Dangling (names : List Str) (relsPath : Str) (r : RelEntry) : Prop :=
  r.external = false ∧ resolveRelTarget (relsSourceDir relsPath) r.target ∉ names

instance (names : List Str) (p : Str) (r : RelEntry) : Decidable (Dangling names p r) :=
  inferInstanceAs (Decidable (_ ∧ _))

theorem checkTargets_eq (ctx : PackageContext) (rep : Report) :
    (checkRelationshipTargets ctx rep).issues = rep.issues ++
      ctx.relsByPath.flatMap fun e =>
        (e.2.filter fun rel => rel.targetMode ≠ c!"External" ∧ rel.resolved ∉ ctx.names).map
          (danglingIssue e.1) := by
  have inner : ∀ (p : Str) (l : List Relationship) (rep : Report),
      (l.foldl (fun rep rel =>
        if rel.targetMode = c!"External" then rep
        else if !ctx.hasPart rel.resolved then rep.push (danglingIssue p rel)
        else rep) rep).issues = rep.issues ++
        (l.filter fun rel => rel.targetMode ≠ c!"External" ∧ rel.resolved ∉ ctx.names).map
          (danglingIssue p) := by
    intro p l
    induction l with
    | nil => intro rep; simp
    | cons rel l ih =>
      intro rep
      rw [List.foldl_cons, ih]
      by_cases h1 : rel.targetMode = c!"External"
      · simp [h1]
      · by_cases h2 : rel.resolved ∈ ctx.names
        · simp [h1, h2, PackageContext.hasPart]
        · simp [h1, h2, PackageContext.hasPart, Report.push]
  unfold checkRelationshipTargets
  generalize ctx.relsByPath = m
  induction m generalizing rep with
  | nil => simp
  | cons e m ih =>
    rw [List.foldl_cons, ih, inner, List.flatMap_cons, List.append_assoc]

theorem fromArchive_rels (archive : AMap Str Str) (hok : archive.Ok) (p : Str)
    (rs : List Relationship) :
    (p, rs) ∈ (PackageContext.fromArchive archive).relsByPath ↔
      ∃ content, archive.get p = some content ∧ endsWith c!".rels" p = true ∧
        rs = parseRelationships content (relsSourceDir p) := by
  have gen : ∀ (l : List Str) (m : AMap Str (List Relationship)), m.Ok →
      let m' := l.foldl (fun m p =>
        match archive.get p with
        | some content => m.insert p (parseRelationships content (relsSourceDir p))
        | none => m) m
      m'.Ok ∧ ∀ p, m'.get p = if p ∈ l then
        ((archive.get p).map fun c => parseRelationships c (relsSourceDir p)).or (m.get p)
        else m.get p := by
    intro l
    induction l with
    | nil => intro m hm; exact ⟨hm, by simp⟩
    | cons q l ih =>
      intro m hm
      simp only [List.foldl_cons]
      cases hq : archive.get q with
      | none =>
        obtain ⟨h1, h2⟩ := ih m hm
        refine ⟨h1, fun p => ?_⟩
        rw [h2]
        by_cases hp : p = q
        · subst hp; simp [hq]
        · simp [hp]
      | some c =>
        obtain ⟨h1, h2⟩ := ih _ (hm.insert q (parseRelationships c (relsSourceDir q)))
        refine ⟨h1, fun p => ?_⟩
        rw [h2, AMap.get_insert]
        by_cases hp : p = q
        · subst hp; simp [hq]
        · simp [hp]
  obtain ⟨h1, h2⟩ := gen (archive.keys.filter (endsWith c!".rels")) [] AMap.Ok_nil
  have e : (PackageContext.fromArchive archive).relsByPath =
    (archive.keys.filter (endsWith c!".rels")).foldl
      (fun (m : AMap Str (List Relationship)) p =>
        match archive.get p with
        | some content => m.insert p (parseRelationships content (relsSourceDir p))
        | none => m) ([] : AMap Str (List Relationship)) := rfl
  rw [e, AMap.mem_iff_get h1, h2]
  have hk := AMap.get_isSome_iff archive p
  simp only [List.mem_filter, AMap.get_nil]
  constructor
  · intro h
    split at h
    · rename_i hm
      cases hg : archive.get p with
      | none => simp [hg] at h
      | some c =>
        simp only [hg, Option.map_some, Option.some_or, Option.some.injEq] at h
        exact ⟨c, rfl, hm.2, h.symm⟩
    · cases h
  · rintro ⟨c, hg, he, rfl⟩
    rw [if_pos ⟨hk.mp (by simp [hg]), he⟩]
    simp [hg]

/-- **C40**: for a package whose relationship parts are the given lists, the validator reports
an error for a relationship exactly when it is dangling. -/
theorem C40_dangling_reported (archive : AMap Str Str) (hok : archive.Ok)
    (rels : Str → List RelEntry)
    (hrels : ∀ p c, archive.get p = some c → endsWith c!".rels" p = true → c = renderRels (rels p))
    (hsafe : ∀ p, ∀ r ∈ rels p, '"' ∉ r.id ∧ 'T' ∉ r.type ∧ '"' ∉ r.target) (i : Issue) :
    i ∈ (checkRelationshipTargets (PackageContext.fromArchive archive) ⟨[]⟩).issues ↔
      ∃ p r, p ∈ archive.keys ∧ endsWith c!".rels" p = true ∧ r ∈ rels p ∧
        Dangling archive.keys p r ∧ i = danglingIssue p (r.scanned (relsSourceDir p)) := by
  rw [checkTargets_eq]
  simp only [List.nil_append, List.mem_flatMap, List.mem_map, List.mem_filter, decide_eq_true_eq]
  constructor
  · rintro ⟨⟨p, rs⟩, he, rel, ⟨hrel, hmode, hres⟩, rfl⟩
    obtain ⟨c, hg, hp, rfl⟩ := (fromArchive_rels archive hok p rs).mp he
    rw [hrels p c hg hp, parseRelationships_render _ _ (hsafe p)] at hrel
    obtain ⟨r, hr, rfl⟩ := List.mem_map.mp hrel
    refine ⟨p, r, (AMap.get_isSome_iff _ _).mp (by simp [hg]), hp, hr, ⟨?_, hres⟩, rfl⟩
    cases hx : r.external with
    | false => rfl
    | true => simp [RelEntry.scanned, hx] at hmode
  · rintro ⟨p, r, hk, hp, hr, ⟨hext, hres⟩, rfl⟩
    obtain ⟨c, hg⟩ := Option.isSome_iff_exists.mp ((AMap.get_isSome_iff _ _).mpr hk)
    refine ⟨(p, parseRelationships c (relsSourceDir p)),
      (fromArchive_rels archive hok p _).mpr ⟨c, hg, hp, rfl⟩, r.scanned (relsSourceDir p),
      ⟨?_, ?_, hres⟩, rfl⟩
    · rw [hrels p c hg hp, parseRelationships_render _ _ (hsafe p)]
      exact List.mem_map_of_mem hr
    · simp [RelEntry.scanned, hext]

/-- **C40**: the rule leaves a report valid exactly when nothing dangles. -/
theorem C40_valid_iff_no_dangling (archive : AMap Str Str) (hok : archive.Ok)
    (rels : Str → List RelEntry)
    (hrels : ∀ p c, archive.get p = some c → endsWith c!".rels" p = true → c = renderRels (rels p))
    (hsafe : ∀ p, ∀ r ∈ rels p, '"' ∉ r.id ∧ 'T' ∉ r.type ∧ '"' ∉ r.target) :
    (checkRelationshipTargets (PackageContext.fromArchive archive) ⟨[]⟩).isValid = true ↔
      ∀ p ∈ archive.keys, endsWith c!".rels" p = true → ∀ r ∈ rels p,
        ¬ Dangling archive.keys p r := by
  simp only [Report.isValid, List.all_eq_true, decide_eq_true_eq]
  constructor
  · intro h p hk hp r hr hd
    exact h _ ((C40_dangling_reported archive hok rels hrels hsafe _).mpr
      ⟨p, r, hk, hp, hr, hd, rfl⟩) rfl
  · intro h i hi
    obtain ⟨p, r, hk, hp, hr, hd, _⟩ :=
      (C40_dangling_reported archive hok rels hrels hsafe i).mp hi
    exact absurd hd (h p hk hp r hr)

/-- A package with one external, one resolvable and one dangling relationship. -/
def sampleArchiveRels : List RelEntry :=
  [⟨c!"rId1", relTypeBase ++ c!"hyperlink", c!"http://x", true⟩,
   ⟨c!"rId2", relTypeBase ++ c!"image", c!"../media/image1.png", false⟩,
   ⟨c!"rId3", relTypeBase ++ c!"image", c!"../media/image2.png", false⟩]

def sampleArchive : AMap Str Str :=
  [(c!"ppt/slides/_rels/slide1.xml.rels", renderRels sampleArchiveRels),
   (c!"ppt/media/image1.png", [])]

example : sampleArchive.Ok ∧
    (∀ r ∈ sampleArchiveRels, '"' ∉ r.id ∧ 'T' ∉ r.type ∧ '"' ∉ r.target) ∧
    sampleArchiveRels.map (fun r => decide
      (Dangling sampleArchive.keys c!"ppt/slides/_rels/slide1.xml.rels" r)) = [false, false, true] := by
  refine ⟨by simp [sampleArchive, AMap.Ok], by decide, by decide⟩

end PptRs.Props
