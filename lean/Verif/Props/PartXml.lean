import Verif.Model.PartXml
import Verif.Props.Relationships
import Verif.Props.Reader
import Verif.Lemmas.Parts

/-!
# C88 and C60: relationship parts and presentation parts as XML
-/

namespace PptRs.Props

instance (s : Str) : Decidable (Plain s) := by unfold Plain; infer_instance

open PptRs PptRs.Spec PptRs.Reader

/-! ## Relationships -/

/-- The ids, types and targets hold no markup. -/
def PlainRel (r : Rel) : Prop := Plain r.id ∧ Plain r.relType.uri ∧ Plain r.target

/-- A relationship as an entry of a part. -/
def entryOf (r : Rel) : RelEntry := ⟨r.id, r.relType.uri, r.target, false⟩

theorem fmt_relLine (r : Rel) : fmt (Relationships.relLine r) = '\n' :: (c!"    " ++ renderRel (entryOf r)) := by
  simp [Relationships.relLine, renderRel, entryOf, fmt, Part.render]

theorem relsText_toXml {r : Relationships} (h : ∀ x ∈ r.rels, PlainRel x) :
    RelsText r.toXml (r.rels.map entryOf) := by
  refine ⟨r.rels.map fun x => (c!"    ", entryOf x), true, ?_, by simp, ?_⟩
  · unfold Relationships.toXml relsText
    rw [fmt_append, fmt_append, fmt_append, fmt_append, fmt_flatMap, fmt_flatMap, List.flatMap_map]
    simp only [fmt_relLine, fmt_gapRel]
    simp [fmt, whenSet, Part.render]
  · intro g hg
    obtain ⟨x, hx, rfl⟩ := List.mem_map.mp hg
    obtain ⟨h1, h2, h3⟩ := h x hx
    exact ⟨show Plain c!"    " by decide, rfl, ⟨h1, h2, h3⟩⟩

theorem relOf_node (r : Rel) : (built (relNode (entryOf r))).filterMap Relationships.relOf =
    [⟨r.id, .fromUri r.relType.uri, r.target⟩] := by
  obtain ⟨i, t, u⟩ := r
  krfl

theorem read_relsText {x : Str} {l : List Rel} (h : RelsText x (l.map entryOf)) : ∃ root, XmlElement.parse x = some root ∧
    (root.findAll c!"Relationship").filterMap Relationships.relOf =
      l.map fun r => ⟨r.id, .fromUri r.relType.uri, r.target⟩ := by
  obtain ⟨gs, b, rfl, hl, hg⟩ := h
  refine ⟨_, parse_elem (document_relsText b fun g h => ⟨(hg g h).1, (hg g h).2.2⟩), ?_⟩
  show (namedIn c!"Relationship" _).filterMap _ = _
  rw [namedIn_append]
  have e1 : namedIn c!"Relationship" (if b then [nl] else []) = [] := by cases b <;> rfl
  rw [e1, List.append_nil]
  clear hg e1
  induction gs generalizing l with
  | nil =>
    obtain rfl : l = [] := by simpa using hl.symm
    rfl
  | cons g gs ih =>
    cases l with
    | nil => simp at hl
    | cons r l =>
      simp only [List.map_cons, List.cons.injEq] at hl
      have e2 : namedIn c!"Relationship" (gapNodes g) = built (relNode g.2) := by krfl
      rw [List.flatMap_cons, namedIn_append, List.filterMap_append, ih hl.2, e2, hl.1, relOf_node]
      rfl

theorem addAll_append (r : Relationships) (a b : List Rel) :
    r.addAll (a ++ b) = (r.addAll a).bind fun r' => r'.addAll b := by
  induction a generalizing r with
  | nil => rfl
  | cons x a ih =>
    simp only [List.cons_append, Relationships.addAll]
    cases r.addWithId x.id x.relType x.target with
    | none => rfl
    | some r' => exact ih r'

/-- Every history of calls can be repeated from the relationships it leads to. -/
theorem addAll_rels (ops : List RelOp) (r : Relationships) (h : runRelOps .new ops = some r) :
    Relationships.addAll .new r.rels = some r := by
  have key : ∀ (ops : List RelOp) (s r : Relationships), RelInv s → Relationships.addAll .new s.rels = some s →
      runRelOps s ops = some r → Relationships.addAll .new r.rels = some r := by
    intro ops
    induction ops with
    | nil =>
      intro s r _ hs hr
      obtain rfl : s = r := by simpa [runRelOps] using hr
      exact hs
    | cons o ops ih =>
      intro s r hlt hs hr
      simp only [runRelOps, Option.bind_eq_some_iff] at hr
      obtain ⟨s', h1, h2⟩ := hr
      have hstep : ∃ x, s'.rels = s.rels ++ [x] ∧ s.addWithId x.id x.relType x.target = some s' := by
        cases o with
        | add t target =>
          refine ⟨⟨c!"rId" ++ dec s.nextId, t, target⟩, ?_⟩
          simp only [RelOp.run, Relationships.add] at h1
          split at h1
          · rename_i hb
            simp only [Option.map_some, Option.some.injEq] at h1
            subst h1
            refine ⟨rfl, ?_⟩
            simp only [Relationships.addWithId, idNumber_canonical s.nextId hlt.1, ge_iff_le, le_refl, if_true, hb]
          · cases h1
        | addWithId id t target =>
          obtain ⟨x, e1, rfl⟩ := rels_of_step s s' (.addWithId id t target) h1
          exact ⟨_, e1, h1⟩
      obtain ⟨x, e1, e2⟩ := hstep
      refine ih s' r (relInv_step s s' o hlt h1) ?_ h2
      rw [e1, addAll_append, hs]
      simp [Relationships.addAll, e2]
  exact key ops .new r ⟨by decide, by simp [Relationships.new]⟩ rfl h

/-- A relationship with its type as it is recognised in a file. -/
def reread (r : Rel) : Rel := ⟨r.id, .fromUri r.relType.uri, r.target⟩

theorem addAll_reread (l : List Rel) (s : Relationships) :
    Relationships.addAll ⟨s.rels.map reread, s.nextId⟩ (l.map reread) =
      (Relationships.addAll s l).map fun r => ⟨r.rels.map reread, r.nextId⟩ := by
  induction l generalizing s with
  | nil => rfl
  | cons x l ih =>
    have e : Relationships.addWithId ⟨s.rels.map reread, s.nextId⟩ (reread x).id (reread x).relType (reread x).target =
        (s.addWithId x.id x.relType x.target).map fun r => ⟨r.rels.map reread, r.nextId⟩ := by
      unfold Relationships.addWithId
      simp only [reread]
      cases Relationships.idNumber x.id with
      | none => simp [reread]
      | some n =>
        simp only
        split
        · split <;> simp [reread]
        · simp [reread]
    rw [List.map_cons, Relationships.addAll, Relationships.addAll, e]
    cases s.addWithId x.id x.relType x.target with
    | none => rfl
    | some s' => exact ih s'

/-- **C88** (partial: ids, targets and custom types without markup). After any history of additions, writing the
relationships and reading them again gives the same ids and targets in order and the same counter, so that later
additions get the same ids; the types are those that the recognition of C11 gives. -/
theorem C88_relationships_read_back_partial (ops : List RelOp) (r : Relationships) (h : runRelOps .new ops = some r)
    (hp : ∀ x ∈ r.rels, PlainRel x) :
    Relationships.fromXml r.toXml =
      some (some ⟨r.rels.map fun x => ⟨x.id, .fromUri x.relType.uri, x.target⟩, r.nextId⟩) := by
  obtain ⟨root, h1, h2⟩ := read_relsText (relsText_toXml hp)
  unfold Relationships.fromXml
  rw [h1, Option.map_some, h2]
  have := addAll_reread r.rels .new
  rw [addAll_rels ops r h] at this
  exact congrArg some this

/-- **C88.** With the standard types other than extended properties nothing changes. -/
theorem C88_relationships_round_trip_partial (ops : List RelOp) (r : Relationships) (h : runRelOps .new ops = some r)
    (hp : ∀ x ∈ r.rels, Plain x.id ∧ Plain x.target)
    (ht : ∀ x ∈ r.rels, x.relType ∈ standardTypes ∧ x.relType ≠ .extendedProperties) :
    Relationships.fromXml r.toXml = some (some r) := by
  have hpl : ∀ t ∈ standardTypes, Plain t.uri := by decide +kernel
  rw [C88_relationships_read_back_partial ops r h fun x hx => ⟨(hp x hx).1, hpl _ (ht x hx).1, (hp x hx).2⟩]
  have : r.rels.map (fun x => (⟨x.id, .fromUri x.relType.uri, x.target⟩ : Rel)) = r.rels := by
    conv_rhs => rw [← List.map_id r.rels]
    refine List.map_congr_left fun x hx => ?_
    rw [C11_standard_partial _ (ht x hx).1 (ht x hx).2]
    rfl
  rw [this]

example : ∃ ops r, runRelOps .new ops = some r ∧ r.rels.length = 2 ∧ Relationships.fromXml r.toXml = some (some r) :=
  ⟨[.add .slide c!"slides/slide1.xml", .addWithId c!"rId9" .theme c!"theme/theme1.xml"], _, rfl, rfl,
    C88_relationships_round_trip_partial [.add .slide c!"slides/slide1.xml", .addWithId c!"rId9" .theme c!"theme/theme1.xml"] _
      rfl (by decide) (by decide)⟩

/-- A target with markup (a hyperlink with two parameters, say) makes the part unreadable. -/
theorem C88_target_violated :
    (runRelOps .new [.add (.custom c!"urn:link") c!"https://example.org/?a=1&b=2"]).map (fun r => Relationships.fromXml r.toXml) =
      some none := by
  krfl

/-! ## The presentation part -/

/-- An entry of the slide list. -/
def sldIdNode (s : SlideRef) : Node := E c!"p:sldId" [(c!"id", dec s.id), (c!"r:id", s.rId)] []

/-- The document of a presentation part. -/
def presFileDoc (p : PresentationFile) : Node :=
  E c!"p:presentation" [(c!"xmlns:a", c!"http://schemas.openxmlformats.org/drawingml/2006/main"),
    (c!"xmlns:r", c!"http://schemas.openxmlformats.org/officeDocument/2006/relationships"),
    (c!"xmlns:p", c!"http://schemas.openxmlformats.org/presentationml/2006/main"), (c!"saveSubsetFonts", c!"1")]
    [nl, E c!"p:sldMasterIdLst" [] [nl, E c!"p:sldMasterId"
        [(c!"id", c!"2147483648"), (c!"r:id", p.part.slideMasterRId.getD c!"rId1")] [], nl], nl,
     E c!"p:sldIdLst" [] ((p.part.slideRefs.flatMap fun s => [nl, sldIdNode s]) ++ [nl]), nl,
     E c!"p:sldSz" [(c!"cx", dec p.width), (c!"cy", dec p.height), (c!"type", c!"screen4x3")] [], nl,
     E c!"p:notesSz" [(c!"cx", dec p.height), (c!"cy", dec p.width)] [], nl]

/-- The relationship ids hold no markup. -/
structure PresentationFile.Safe (p : PresentationFile) : Prop where
  master : ∀ i ∈ p.part.slideMasterRId, Plain i
  slides : ∀ s ∈ p.part.slideRefs, Plain s.rId

set_option maxRecDepth 8000 in
theorem document_presFile {p : PresentationFile} (h : PresentationFile.Safe p) :
    document p.toXml = some [presFileDoc p] := by
  have hm : Plain (p.part.slideMasterRId.getD c!"rId1") := by
    cases hv : p.part.slideMasterRId with
    | none => decide
    | some i => exact h.master i hv
  have hs : ReadsNodes (p.part.slideRefs.flatMap PresentationFile.slideLine)
      (p.part.slideRefs.flatMap fun s => [nl, sldIdNode s]) :=
    readsNodes_flatMap fun s hs => (Splits.lit (by
      unfold PresentationFile.slideLine
      parts_ok
      exact h.slides s hs)).readsNodes (by krfl)
  unfold PresentationFile.toXml
  refine document_decl ?_ ⟨_, by rw [fmt_append, fmt_append]; rfl⟩
  exact ((Splits.lit (by parts_ok)).append (.nodes hs) |>.append (.lit (by parts_ok))).readsNodes (by krfl)

theorem collect_slides (l : List SlideRef) (hl : ∀ s ∈ l, s.id < 4294967296) :
    (XmlElement.collectIn c!"sldId" (builtIn ((l.flatMap fun s => [nl, sldIdNode s]) ++ [nl]))).filterMap
      PresentationFile.slideRefOf = l := by
  induction l with
  | nil => rfl
  | cons s l ih =>
    have e : ∀ r, XmlElement.collectIn c!"sldId" (builtIn ([nl, sldIdNode s] ++ r)) =
        .mk c!"p:sldId" [(c!"id", dec s.id), (c!"r:id", s.rId)] [] [] :: XmlElement.collectIn c!"sldId" (builtIn r) := by
      intro r
      krfl
    have e2 : PresentationFile.slideRefOf (.mk c!"p:sldId" [(c!"id", dec s.id), (c!"r:id", s.rId)] [] []) =
        (parseU32? (dec s.id)).map fun n => ⟨n, s.rId⟩ := by krfl
    rw [List.flatMap_cons, List.append_assoc, e, List.filterMap_cons, e2, parseU32_dec (hl s (by simp)),
      ih fun x hx => hl x (by simp [hx])]
    rfl

/-- The presentation as it is read, with the entries of the slide list. -/
def presElem (m w h T : Str) (K : List XmlElement) : XmlElement :=
  .mk c!"p:presentation" [(c!"saveSubsetFonts", c!"1")]
    [.mk c!"p:sldMasterIdLst" [] [.mk c!"p:sldMasterId" [(c!"id", c!"2147483648"), (c!"r:id", m)] [] []] [],
     (.mk c!"p:sldIdLst" [] K T),
     .mk c!"p:sldSz" [(c!"cx", w), (c!"cy", h), (c!"type", c!"screen4x3")] [] [],
     .mk c!"p:notesSz" [(c!"cx", h), (c!"cy", w)] [] []] []

theorem parse_presFile {p : PresentationFile} (h : PresentationFile.Safe p) :
    XmlElement.parse p.toXml = some (presElem (p.part.slideMasterRId.getD c!"rId1") (dec p.width) (dec p.height)
      (solidText ((p.part.slideRefs.flatMap fun s => [nl, sldIdNode s]) ++ [nl]))
      (builtIn ((p.part.slideRefs.flatMap fun s => [nl, sldIdNode s]) ++ [nl]))) := by
  rw [parse_elem (document_presFile h)]
  refine congrArg some ?_
  krfl

theorem findIn_slides (l : List SlideRef) : XmlElement.findIn c!"sldSz"
    (builtIn ((l.flatMap fun s => [nl, sldIdNode s]) ++ [nl])) = none := by
  induction l with
  | nil => rfl
  | cons s l ih =>
    rw [List.flatMap_cons, List.append_assoc]
    exact ih

theorem presElem_reads (m w h T : Str) (K : List XmlElement) :
    (presElem m w h T K).findAllDescendants c!"sldId" = XmlElement.collectIn c!"sldId" K ++ [] ∧
    ((presElem m w h T K).findDescendant c!"sldMasterId").bind (·.attr c!"r:id") = some m ∧
    (XmlElement.findIn c!"sldSz" K = none →
      ((presElem m w h T K).findDescendant c!"sldSz").bind (·.attr c!"cx") = some w ∧
      ((presElem m w h T K).findDescendant c!"sldSz").bind (·.attr c!"cy") = some h) := by
  refine ⟨by krfl, by krfl, fun hk => ?_⟩
  have : (presElem m w h T K).findDescendant c!"sldSz" =
      some (.mk c!"p:sldSz" [(c!"cx", w), (c!"cy", h), (c!"type", c!"screen4x3")] [] []) := by
    unfold presElem
    simp only [XmlElement.findDescendant, XmlElement.findIn, hk]
    krfl
  rw [this]
  exact ⟨by krfl, by krfl⟩

/-- **C88** (partial: relationship ids without markup, numbers that fit into 32 bits). The presentation part reads back:
slides in order with their ids, the master and the slide size; the theme's relationship id is forgotten. -/
theorem C88_presentation_reads_back_partial (p : PresentationFile) (h : PresentationFile.Safe p)
    (hs : ∀ s ∈ p.part.slideRefs, s.id < 4294967296) (hw : p.width < 4294967296) (hh : p.height < 4294967296) :
    PresentationFile.fromXml p.toXml = some
      ⟨⟨p.part.slideRefs, some (p.part.slideMasterRId.getD c!"rId1"), none⟩, p.width, p.height⟩ := by
  unfold PresentationFile.fromXml
  rw [parse_presFile h, Option.map_some]
  obtain ⟨h1, h2, h3⟩ := presElem_reads (p.part.slideMasterRId.getD c!"rId1") (dec p.width) (dec p.height)
    (solidText ((p.part.slideRefs.flatMap fun s => [nl, sldIdNode s]) ++ [nl]))
    (builtIn ((p.part.slideRefs.flatMap fun s => [nl, sldIdNode s]) ++ [nl]))
  obtain ⟨h3, h4⟩ := h3 (findIn_slides _)
  rw [h1, h2, h3, h4, List.append_nil, collect_slides _ hs, Option.bind_some, Option.bind_some, parseU32_dec hw,
    parseU32_dec hh]
  rfl

example : PresentationFile.fromXml (PresentationFile.mk ⟨[⟨257, c!"rId3"⟩, ⟨300, c!"rId4"⟩], some c!"rId1", some c!"rId2"⟩ 1 2).toXml =
    some (PresentationFile.mk ⟨[⟨257, c!"rId3"⟩, ⟨300, c!"rId4"⟩], some c!"rId1", none⟩ 1 2) :=
  C88_presentation_reads_back_partial _ ⟨by decide, by decide⟩ (by decide) (by decide) (by decide)

/-- **C60** with **C88**: a part with explicit ids, written and read again, names the same slides at the same
places. -/
theorem C60_reloaded_targets_partial (p : PresentationFile) (h : PresentationFile.Safe p)
    (hs : ∀ s ∈ p.part.slideRefs, s.id < 4294967296) (hw : p.width < 4294967296) (hh : p.height < 4294967296)
    (q : PresentationFile) (hq : PresentationFile.fromXml p.toXml = some q) (r : Relationships)
    (hr : q.part.createRelationships = some r) :
    (r.rels.filter fun x => x.relType = .slide).map (fun x => (x.id, x.target)) =
      p.part.slideRefs.mapIdx fun i s => (s.rId, c!"slides/slide" ++ dec (i + 1) ++ c!".xml") := by
  rw [C88_presentation_reads_back_partial p h hs hw hh, Option.some.injEq] at hq
  subst hq
  exact C60_targets_partial ⟨p.part.slideRefs, some (p.part.slideMasterRId.getD c!"rId1"), none⟩ r hr

/-! ### Reading a generated presentation -/

/-- The slide reference that is read of an entry of a generated slide list. -/
def generatedRef (n : Nat) : SlideRef := ⟨slideIdValue n, c!"rId" ++ dec (slideRelId n)⟩

theorem slideRefNode_eq (n : Nat) : slideRefNode n = sldIdNode (generatedRef n) := rfl

theorem read_generated (n : Nat) (a b : Bool) (hn : n < 4294967040) : ∃ q, PresentationFile.fromXml (presentationText n a b) = some q ∧
    q.part.slideRefs = (upTo n).map generatedRef ∧ q.part.slideMasterRId = some c!"rId1" ∧ q.part.themeRId = none := by
  unfold PresentationFile.fromXml
  have hd := document_presentationText n a b
  rw [parse_elem hd, Option.map_some]
  refine ⟨_, rfl, ?_, ?_, rfl⟩
  · have e : slideRefKids n ++ [nl] = (((upTo n).map generatedRef).flatMap fun s => [nl, sldIdNode s]) ++ [nl] := by
      rw [List.flatMap_map]
      rfl
    have hc := collect_slides ((upTo n).map generatedRef) (by
      intro s hs
      simp only [List.mem_map, upTo, List.mem_range] at hs
      obtain ⟨i, ⟨j, hj, rfl⟩, rfl⟩ := hs
      simp only [generatedRef, slideIdValue]
      omega)
    rw [← e] at hc
    rw [← List.append_nil ((upTo n).map generatedRef), ← hc]
    generalize slideRefKids n ++ [nl] = K
    have : ∀ l : List XmlElement, l.filterMap PresentationFile.slideRefOf ++ [] = (l ++ []).filterMap PresentationFile.slideRefOf := by
      simp
    rw [this]
    refine congrArg (List.filterMap PresentationFile.slideRefOf) ?_
    cases a <;> cases b <;> krfl
  · generalize slideRefKids n ++ [nl] = K
    krfl

theorem addSlideRels_ids (ss : List SlideRef) (i : Nat) (r r' : Relationships)
    (h : PresentationPart.addSlideRels ss i r = some r') :
    r'.rels.map (·.id) = r.rels.map (·.id) ++ ss.map (·.rId) := by
  induction ss generalizing i r with
  | nil => simp only [PresentationPart.addSlideRels, Option.some.injEq] at h; simp [h]
  | cons s ss ih =>
    simp only [PresentationPart.addSlideRels, Option.bind_eq_some_iff] at h
    obtain ⟨r1, h1, h2⟩ := h
    obtain ⟨x, hx, hx2⟩ := rels_of_step r r1 (.addWithId s.rId .slide _) h1
    simp only at hx2
    rw [ih _ _ h2, hx, hx2]
    simp

/-- **C60**: a generated presentation that is loaded into the low-level part does not keep distinct relationship ids: the
theme gets the id of the first slide. -/
theorem C60_generated_violated (n : Nat) (a b : Bool) (hn : n < 4294967040) (h0 : 0 < n) (r : Relationships)
    (hr : (PresentationFile.fromXml (presentationText n a b)).bind (fun q => q.part.createRelationships) = some r) :
    ¬ (r.rels.map (·.id)).Nodup := by
  obtain ⟨q, h1, h2, h3, h4⟩ := read_generated n a b hn
  rw [h1, Option.bind_some] at hr
  unfold PresentationPart.createRelationships at hr
  rw [h2, h3, h4] at hr
  have e : (Relationships.new.addWithId c!"rId1" .slideMaster c!"slideMasters/slideMaster1.xml").bind
      (fun r => ((r.add .theme c!"theme/theme1.xml").map Prod.fst).bind fun r =>
        PresentationPart.addSlideRels ((upTo n).map generatedRef) 0 r) =
      PresentationPart.addSlideRels ((upTo n).map generatedRef) 0
        ⟨[⟨c!"rId1", .slideMaster, c!"slideMasters/slideMaster1.xml"⟩, ⟨c!"rId2", .theme, c!"theme/theme1.xml"⟩], 3⟩ := by
    krfl
  have hr' := e.symm.trans hr
  rw [addSlideRels_ids _ _ _ _ hr']
  obtain ⟨m, rfl⟩ : ∃ m, n = m + 1 := ⟨n - 1, by omega⟩
  have hu : upTo (m + 1) = 1 :: (upTo (m + 1)).tail := by
    simp [upTo, List.range_succ_eq_map]
  rw [hu]
  have e2 : (generatedRef 1).rId = c!"rId2" := rfl
  simp [e2]

example : ((PresentationFile.fromXml (presentationText 2 true false)).bind fun q => q.part.createRelationships).map
    (fun r => r.rels.map (·.id)) = some [c!"rId1", c!"rId2", c!"rId2", c!"rId3"] := by
  krfl

/-- **C88.** A new presentation part is 10 by 7.5 inches and has no slides, and so large is one that is read from a text
without a size. -/
theorem C88_default_size (x : Str) (root : XmlElement) (h : XmlElement.parse x = some root) (hs : root.findDescendant c!"sldSz" = none) :
    (PresentationFile.new.width = 10 * 914400 ∧ 2 * PresentationFile.new.height = 15 * 914400 ∧ PresentationFile.new.part.slideRefs = []) ∧
    ∃ q, PresentationFile.fromXml x = some q ∧ q.width = 10 * 914400 ∧ 2 * q.height = 15 * 914400 := by
  refine ⟨⟨rfl, rfl, rfl⟩, ?_⟩
  unfold PresentationFile.fromXml
  rw [h]
  refine ⟨_, rfl, ?_, ?_⟩ <;> simp only [hs, Option.bind_none, Option.getD_none]

example : ((XmlElement.parse (xmlDecl ++ c!"<presentation/>")).map fun r => (r.findDescendant c!"sldSz").isNone) = some true := by krfl

end PptRs.Props
