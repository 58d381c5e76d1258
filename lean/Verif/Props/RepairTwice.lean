import Verif.Props.EditRepair

/-!
# C153: repairing a compressed file
-/

namespace PptRs.Props

open PptRs PptRs.Spec PptRs.Repair PptRs.Whole PptRs.Editor PptRs.Reader

/-! ### Relationships on one line -/

/-- The white space before a relationship. -/
inductive Gap where
  | none
  | two
  | line
deriving DecidableEq

def Gap.text : Gap → Str
  | .none => []
  | .two => c!"  "
  | .line => c!"\n  "

def flatHeader : Str :=
  c!"<?xml version=\"1.0\" encoding=\"UTF-8\" standalone=\"yes\"?><Relationships xmlns=\"http://schemas.openxmlformats.org/package/2006/relationships\">"

/-- A minified relationship part, with relationships that were added afterwards. -/
def flatText (gs : List (Gap × RelEntry)) (b : Bool) : Str :=
  flatHeader ++ (gs.flatMap fun g => g.1.text ++ renderRel g.2) ++ ((if b then c!"\n" else []) ++ c!"</Relationships>")

theorem min_verb {v : Str} (h : '"' ∉ v) (p : Char) (out : Str) :
    ∃ q, v.foldl MinState.step ⟨true, true, p, out⟩ = ⟨true, true, q, v.reverse ++ out⟩ := by
  induction v generalizing p out with
  | nil => exact ⟨p, rfl⟩
  | cons c v ih =>
    have hc : c ≠ '"' := by rintro rfl; exact h (by simp)
    rw [List.foldl_cons]
    have : MinState.step ⟨true, true, p, out⟩ c = ⟨true, true, c, c :: out⟩ := by simp [MinState.step, hc]
    rw [this]
    obtain ⟨q, hq⟩ := ih (fun hm => h (List.mem_cons_of_mem _ hm)) c (c :: out)
    exact ⟨q, by rw [hq]; simp⟩

theorem min_rel {r : RelEntry} (h : r.Plain) (out : Str) :
    ('\n' :: renderRel r).foldl MinState.step ⟨false, false, '>', out⟩ = ⟨false, false, '>', (renderRel r).reverse ++ out⟩ := by
  obtain ⟨id, ty, target, ext⟩ := r
  have e : '\n' :: renderRel ⟨id, ty, target, ext⟩ = c!"\n<Relationship Id=\"" ++ (id ++ (c!"\" Type=\"" ++ (ty ++ (c!"\" Target=\"" ++
      (target ++ (c!"\"" ++ ((if ext then c!" TargetMode=\"External\"" else []) ++ c!"/>"))))))) := by
    simp [renderRel]
  have e2 : renderRel ⟨id, ty, target, ext⟩ = c!"<Relationship Id=\"" ++ (id ++ (c!"\" Type=\"" ++ (ty ++ (c!"\" Target=\"" ++
      (target ++ (c!"\"" ++ ((if ext then c!" TargetMode=\"External\"" else []) ++ c!"/>"))))))) := by
    simp [renderRel]
  rw [e, e2]
  have s1 : (c!"\n<Relationship Id=\"").foldl MinState.step ⟨false, false, '>', out⟩ =
      ⟨true, true, '"', (c!"<Relationship Id=\"").reverse ++ out⟩ := rfl
  rw [List.foldl_append, s1]
  generalize o1 : (c!"<Relationship Id=\"").reverse ++ out = out1
  obtain ⟨q1, h1⟩ := min_verb (v := id) h.id.2.2 '"' out1
  rw [List.foldl_append, h1]
  generalize o2 : id.reverse ++ out1 = out2
  have s2 : (c!"\" Type=\"").foldl MinState.step ⟨true, true, q1, out2⟩ = ⟨true, true, '"', (c!"\" Type=\"").reverse ++ out2⟩ := rfl
  rw [List.foldl_append, s2]
  generalize o3 : (c!"\" Type=\"").reverse ++ out2 = out3
  obtain ⟨q2, h2⟩ := min_verb (v := ty) h.type.2.2 '"' out3
  rw [List.foldl_append, h2]
  generalize o4 : ty.reverse ++ out3 = out4
  have s3 : (c!"\" Target=\"").foldl MinState.step ⟨true, true, q2, out4⟩ = ⟨true, true, '"', (c!"\" Target=\"").reverse ++ out4⟩ := rfl
  rw [List.foldl_append, s3]
  generalize o5 : (c!"\" Target=\"").reverse ++ out4 = out5
  obtain ⟨q3, h3⟩ := min_verb (v := target) h.target.2.2 '"' out5
  rw [List.foldl_append, h3]
  generalize o6 : target.reverse ++ out5 = out6
  have s4 : (c!"\"" ++ ((if ext then c!" TargetMode=\"External\"" else []) ++ c!"/>")).foldl MinState.step ⟨true, true, q3, out6⟩ =
      ⟨false, false, '>', (c!"\"" ++ ((if ext then c!" TargetMode=\"External\"" else []) ++ c!"/>")).reverse ++ out6⟩ := by
    cases ext <;> rfl
  rw [s4, ← o6, ← o5, ← o4, ← o3, ← o2, ← o1]
  simp only [List.reverse_append, List.append_assoc]

/-- What minification makes of a relationship part. -/
theorem minimize_renderRels {l : List RelEntry} (h : ∀ r ∈ l, r.Plain) :
    minimizeXml (renderRels l) = flatText (l.map fun r => (.none, r)) false := by
  have e : renderRels l = relsHeader ++ ((l.flatMap fun r => '\n' :: renderRel r) ++ c!"\n</Relationships>") := by
    simp [renderRels]
  have hm : ∀ (k : List RelEntry) (out : Str), (∀ r ∈ k, r.Plain) →
      (k.flatMap fun r => '\n' :: renderRel r).foldl MinState.step ⟨false, false, '>', out⟩ =
        ⟨false, false, '>', (k.flatMap renderRel).reverse ++ out⟩ := by
    intro k
    induction k with
    | nil => intros; rfl
    | cons r k ih =>
      intro out hk
      rw [List.flatMap_cons, List.foldl_append, min_rel (hk r (by simp)), ih _ fun x hx => hk x (by simp [hx])]
      simp
  have s1 : relsHeader.foldl MinState.step MinState.init = ⟨false, false, '>', flatHeader.reverse⟩ := by decide +kernel
  have s2 : ∀ out, (c!"\n</Relationships>").foldl MinState.step ⟨false, false, '>', out⟩ =
      ⟨false, false, '>', (c!"</Relationships>").reverse ++ out⟩ := fun _ => rfl
  unfold minimizeXml
  rw [e, List.foldl_append, s1, List.foldl_append, hm l _ h, s2]
  unfold flatText
  rw [List.flatMap_map]
  simp [Gap.text]

/-! ### Adding a relationship -/

theorem noStart_gaps {gs : List (Gap × RelEntry)} (h : ∀ g ∈ gs, g.2.Plain) :
    noStart c!"</Relationships>" (gs.flatMap fun g => g.1.text ++ renderRel g.2) = true := by
  refine noStart_flatMap fun g hg => noStart_append ?_ (noStart_renderRel (h g hg))
  cases g.1 <;> decide

theorem addRelText_flat {gs : List (Gap × RelEntry)} (h : ∀ g ∈ gs, g.2.Plain) (b : Bool) (path : Str) :
    ∃ m, addRelText (flatText gs b) path =
      flatText (gs ++ [(if b then .line else .two, slideRelEntry (c!"rId" ++ dec m) (replaceStr c!"ppt/" [] path))]) true := by
  refine ⟨findMaxRelId (flatText gs b) + 1, ?_⟩
  unfold addRelText
  rw [newRelLine_eq]
  generalize c!"rId" ++ dec (findMaxRelId (flatText gs b) + 1) = id
  have hs : splitOnce? c!"</Relationships>" (flatText gs b) =
      some (flatHeader ++ (gs.flatMap fun g => g.1.text ++ renderRel g.2) ++ (if b then c!"\n" else []), []) := by
    have := splitOnce?_of_noStart (c := '<') (m := c!"/Relationships>") (t := [])
      (s := flatHeader ++ (gs.flatMap fun g => g.1.text ++ renderRel g.2) ++ (if b then c!"\n" else []))
      (noStart_append (noStart_append (by decide +kernel) (noStart_gaps h)) (by cases b <;> decide))
    rw [List.append_nil, List.append_assoc] at this
    exact this
  rw [replaceStr_of_some (by decide) hs, replaceStr_of_none (pat := c!"</Relationships>") (s := []) rfl]
  unfold flatText
  rw [List.flatMap_append]
  cases b <;> simp [Gap.text]

/-! ### Reading it -/

def Gap.parts : Gap → List Part
  | .none => []
  | .two => t!"  "
  | .line => t!"\n  "

def Gap.nodes : Gap → List Node
  | .none => []
  | .two => [.text c!"  "]
  | .line => [.text c!"\n  "]

theorem readsNodes_flatRel {g : Gap × RelEntry} (h : g.2.Plain) :
    ReadsNodes (g.1.parts ++ relParts g.2) (g.1.nodes ++ [relNode g.2]) := by
  obtain ⟨b, r⟩ := g
  cases b
  · show ReadsNodes (relParts r) [relNode r]
    exact (((Splits.lit (by parts_ok; exact ⟨h.id, h.type, h.target⟩)).append
      (.attrs (readsAttrs_whenSet (b := r.external) (as := [(c!"TargetMode", c!"External")])
        ((Splits.lit (by parts_ok)).readsAttrs (fun top st n as => by krfl)))) |>.append
      (.lit (by parts_ok)))).readsNodes (by krfl)
  · show ReadsNodes (t!"  " ++ relParts r) [.text c!"  ", relNode r]
    exact ((Splits.lit (by parts_ok)).append (((Splits.lit (by parts_ok; exact ⟨h.id, h.type, h.target⟩)).append
      (.attrs (readsAttrs_whenSet (b := r.external) (as := [(c!"TargetMode", c!"External")])
        ((Splits.lit (by parts_ok)).readsAttrs (fun top st n as => by krfl)))) |>.append
      (.lit (by parts_ok))))).readsNodes (by krfl)
  · show ReadsNodes (t!"\n  " ++ relParts r) [.text c!"\n  ", relNode r]
    exact ((Splits.lit (by parts_ok)).append (((Splits.lit (by parts_ok; exact ⟨h.id, h.type, h.target⟩)).append
      (.attrs (readsAttrs_whenSet (b := r.external) (as := [(c!"TargetMode", c!"External")])
        ((Splits.lit (by parts_ok)).readsAttrs (fun top st n as => by krfl)))) |>.append
      (.lit (by parts_ok))))).readsNodes (by krfl)

def flatBody (gs : List (Gap × RelEntry)) (b : Bool) : List Part :=
  t!"<Relationships xmlns=\"http://schemas.openxmlformats.org/package/2006/relationships\">"
    ++ (gs.flatMap fun g => g.1.parts ++ relParts g.2) ++ (whenSet b t!"\n" ++ t!"</Relationships>")

theorem flatText_eq (gs : List (Gap × RelEntry)) (b : Bool) :
    flatText gs b = c!"<?xml version=\"1.0\" encoding=\"UTF-8\" standalone=\"yes\"?>" ++ fmt (flatBody gs b) := by
  unfold flatText flatBody
  rw [fmt_append, fmt_append, fmt_flatMap]
  have e : (fun g : Gap × RelEntry => g.1.text ++ renderRel g.2) = fun g => fmt (g.1.parts ++ relParts g.2) := by
    funext g
    rw [fmt_append, fmt_relParts]
    cases g.1 <;> rfl
  rw [e]
  cases b <;> simp [flatHeader, fmt, whenSet, Part.render]

theorem document_flat {gs : List (Gap × RelEntry)} (b : Bool) (h : ∀ g ∈ gs, g.2.Plain) :
    document (flatText gs b) = some (relsDoc ((gs.flatMap fun g => g.1.nodes ++ [relNode g.2]) ++ (if b then [nl] else []))) := by
  have hn : ReadsNodes (gs.flatMap fun g => g.1.parts ++ relParts g.2) (gs.flatMap fun g => g.1.nodes ++ [relNode g.2]) :=
    readsNodes_flatMap fun g hg => readsNodes_flatRel (h g hg)
  rw [flatText_eq]
  have e : document (c!"<?xml version=\"1.0\" encoding=\"UTF-8\" standalone=\"yes\"?>" ++ fmt (flatBody gs b)) =
      parse (fmt (flatBody gs b)) := by
    krfl
  rw [e]
  unfold flatBody
  cases b
  · show parse (fmt (_ ++ _ ++ t!"</Relationships>")) = some (relsDoc (_ ++ []))
    rw [List.append_nil]
    exact parse_of_nodes (((Splits.lit (by parts_ok)).append (.nodes hn) |>.append (.lit (by parts_ok))).readsNodes (by krfl))
  · show parse (fmt (_ ++ _ ++ (t!"\n" ++ t!"</Relationships>"))) = _
    exact parse_of_nodes (((Splits.lit (by parts_ok)).append (.nodes hn) |>.append
      ((Splits.lit (by parts_ok)).append (.lit (by parts_ok)))).readsNodes (by krfl))

theorem parse_flat {gs : List (Gap × RelEntry)} (b : Bool) (h : ∀ g ∈ gs, g.2.Plain) :
    ∃ root, XmlElement.parse (flatText gs b) = some root ∧
      (root.findAll c!"Relationship").filterMap slideRelOf = (gs.map (·.2)).filterMap slideEntry := by
  refine ⟨_, parse_elem (document_flat b h), ?_⟩
  show (namedIn c!"Relationship" _).filterMap slideRelOf = _
  rw [namedIn_append]
  have e1 : namedIn c!"Relationship" (if b then [nl] else []) = [] := by cases b <;> rfl
  rw [e1, List.append_nil]
  clear h e1
  induction gs with
  | nil => rfl
  | cons g gs ih =>
    have e2 : namedIn c!"Relationship" (g.1.nodes ++ [relNode g.2]) = built (relNode g.2) := by
      obtain ⟨a, r⟩ := g
      cases a <;> krfl
    rw [List.flatMap_cons, namedIn_append, List.filterMap_append, ih, e2, slideRelOf_node, List.map_cons,
      List.filterMap_cons]
    cases slideEntry g.2 <;> rfl

theorem relSlides_flat {gs : List (Gap × RelEntry)} (b : Bool) (h : ∀ g ∈ gs, g.2.Plain) :
    ∃ root, XmlElement.parse (flatText gs b) = some root ∧
      (relSlides root).Perm (((gs.map (·.2)).filterMap slideEntry).map (·.2)) := by
  obtain ⟨root, h1, h2⟩ := parse_flat b h
  refine ⟨root, h1, ?_⟩
  unfold relSlides
  rw [← h2]
  exact (sortByKey_perm _ _).map _

/-! ### What the repair does -/

/-- Issues whose repair changes neither the relationships of the presentation nor a slide. -/
def Aside : RepairIssue → Prop
  | .missingPart path | .invalidXml path | .brokenRelationship path _ _ =>
    path ≠ c!"ppt/_rels/presentation.xml.rels" ∧ ¬ c!"ppt/slides/slide" <+: path
  | .invalidContentType _ => True
  | _ => False

/-- The parts that matter here. -/
def KeptPart (path : Str) : Prop := path = c!"ppt/_rels/presentation.xml.rels" ∨ c!"ppt/slides/slide" <+: path

theorem kept_text {p : Package} {path q : Str} {d : Bytes} (hk : KeptPart q) (hp : ¬ KeptPart path) :
    (p.addPart path d).getPartString q = p.getPartString q := by
  unfold Package.getPartString
  rw [getPart_addPart, if_neg]
  rintro rfl
  exact hp hk

theorem kept_text' {p : Package} {path q : Str} {d : Bytes} (h : q ≠ path) :
    (p.addPart path d).getPartString q = p.getPartString q := by
  unfold Package.getPartString
  rw [getPart_addPart, if_neg h]

theorem aside_step (uni : Char → Bool) (s : Package × RepairResult) {i : RepairIssue} (h : Aside i) {q : Str} (hk : KeptPart q) :
    (repairStep uni s i).1.getPartString q = s.1.getPartString q := by
  have hp : (repairStep uni s i).1 = s.1 ∨ (repairStep uni s i).1 = (repairIssue uni s.1 i).1 := by
    unfold repairStep
    split
    · right
      simp only
      split <;> rfl
    · exact .inl rfl
  rcases hp with e | e
  · rw [e]
  rw [e]
  have nk : ∀ {path : Str}, path ≠ c!"ppt/_rels/presentation.xml.rels" ∧ ¬ c!"ppt/slides/slide" <+: path → ¬ KeptPart path :=
    fun h k => k.elim h.1 h.2
  cases i with
  | missingPart path =>
    show (repairMissingPart s.1 path).1.getPartString q = _
    unfold repairMissingPart
    split
    · exact kept_text hk (nk h)
    split
    · exact kept_text hk (nk h)
    split
    · exact kept_text hk (nk h)
    split
    · exact kept_text hk (nk h)
    · rfl
  | invalidXml path =>
    show (repairInvalidXml uni s.1 path).1.getPartString q = _
    unfold repairInvalidXml
    split
    · exact kept_text hk (nk h)
    · rfl
  | brokenRelationship source target id =>
    show (repairBrokenRelationship s.1 source id).1.getPartString q = _
    unfold repairBrokenRelationship
    split
    · exact kept_text hk (nk h)
    · rfl
  | invalidContentType path =>
    show (repairInvalidContentType s.1 path).1.getPartString q = _
    unfold repairInvalidContentType
    split
    · exact kept_text hk (nk ⟨by decide, by decide⟩)
    · rfl
  | missingSlideReference _ => exact h.elim
  | orphanSlide _ => exact h.elim
  | missingNamespace _ _ => exact h.elim
  | emptyRequiredElement _ _ => exact h.elim
  | corruptedEntry _ => exact h.elim

theorem aside_foldl (uni : Char → Bool) {l : List RepairIssue} (h : ∀ i ∈ l, Aside i) (s : Package × RepairResult) {q : Str}
    (hk : KeptPart q) : (l.foldl (repairStep uni) s).1.getPartString q = s.1.getPartString q := by
  induction l generalizing s with
  | nil => rfl
  | cons i l ih =>
    rw [List.foldl_cons, ih (fun x hx => h x (by simp [hx])), aside_step uni s (h i (by simp)) hk]

/-- The relationship that is added for a slide. -/
def extraRel (a : Nat × Nat) : RelEntry := slideRelEntry (c!"rId" ++ dec a.1) (c!"slides/slide" ++ dec a.2 ++ c!".xml")

/-- The relationships that are added, the first of them without a new line. -/
def extraRels (b : Bool) : List (Nat × Nat) → List (Gap × RelEntry)
  | [] => []
  | a :: l => (if b then .line else .two, extraRel a) :: extraRels true l

theorem plain_extraRel (a : Nat × Nat) : (extraRel a).Plain :=
  ⟨plain_append ⟨by decide, by decide, by decide⟩ (plain_dec _), show Plain (relTypeBase ++ c!"slide") from ⟨by decide, by decide, by decide⟩,
    plain_append (plain_append ⟨by decide, by decide, by decide⟩ (plain_dec _)) ⟨by decide, by decide, by decide⟩⟩

theorem extraRels_snd (b : Bool) (l : List (Nat × Nat)) : (extraRels b l).map (·.2) = l.map extraRel := by
  induction l generalizing b with
  | nil => rfl
  | cons a l ih => simp [extraRels, ih]

theorem extra_entries (l : List (Nat × Nat)) : ((l.map extraRel).filterMap slideEntry).map (·.2) = l.map fun a => slidePath a.2 := by
  have h1 : isSlideType (relTypeBase ++ c!"slide") = true := by decide +kernel
  have h2 : ∀ k, slideFile (c!"slides/slide" ++ dec k ++ c!".xml") = slidePath k := fun _ => rfl
  induction l with
  | nil => rfl
  | cons a l ih =>
    simp only [List.map_cons, List.filterMap_cons, slideEntry, extraRel, slideRelEntry, h1, if_true, h2]
    rw [← ih]

/-- One slide after the other gets a further relationship. -/
theorem refer_foldl (uni : Char → Bool) {ks : List Nat} (s : Package × RepairResult) {gs : List (Gap × RelEntry)} {b : Bool}
    (h : ∀ g ∈ gs, g.2.Plain) (hr : s.1.getPartString c!"ppt/_rels/presentation.xml.rels" = some (flatText gs b)) :
    ∃ l : List (Nat × Nat), l.map (·.2) = ks ∧
      ((ks.map fun k => RepairIssue.missingSlideReference (slidePath k)).foldl (repairStep uni) s).1.getPartString
        c!"ppt/_rels/presentation.xml.rels" = some (flatText (gs ++ extraRels b l) (b || !l.isEmpty)) ∧
      ∀ q, c!"ppt/slides/slide" <+: q → ((ks.map fun k => RepairIssue.missingSlideReference (slidePath k)).foldl
        (repairStep uni) s).1.getPartString q = s.1.getPartString q := by
  induction ks generalizing s gs b with
  | nil => exact ⟨[], rfl, by simpa [extraRels] using hr, fun _ _ => rfl⟩
  | cons k ks ih =>
    obtain ⟨m, hadd⟩ := addRelText_flat h b (slidePath k)
    have hrep : replaceStr c!"ppt/" [] (slidePath k) = c!"slides/slide" ++ dec k ++ c!".xml" := by
      have hs : splitOnce? c!"ppt/" (slidePath k) = some ([], c!"slides/slide" ++ dec k ++ c!".xml") := rfl
      rw [replaceStr_of_some (by decide) hs, replaceStr_of_none]
      · rfl
      · rw [← Option.not_isSome_iff_eq_none]
        intro hc
        rw [show (splitOnce? c!"ppt/" (c!"slides/slide" ++ dec k ++ c!".xml")).isSome = containsStr c!"ppt/" (c!"slides/slide" ++ dec k ++ c!".xml") from rfl,
          containsStr_iff_infix] at hc
        have : 'p' ∈ c!"slides/slide" ++ dec k ++ c!".xml" := hc.subset (by decide)
        simp [not_mem_dec (c := 'p') (n := k) (by decide)] at this
    rw [hrep] at hadd
    have e1 : (repairStep uni s (.missingSlideReference (slidePath k))).1 = (repairMissingSlideReference s.1 (slidePath k)).1 := by
      unfold repairStep
      rw [if_pos (show RepairIssue.isRepairable (.missingSlideReference (slidePath k)) = true from rfl)]
      simp only
      split <;> rfl
    have e2 : ∀ q, KeptPart q → (repairMissingSlideReference s.1 (slidePath k)).1.getPartString q =
        (s.1.addPart c!"ppt/_rels/presentation.xml.rels" (encode (addRelText (flatText gs b) (slidePath k)))).getPartString q := by
      intro q hq
      unfold repairMissingSlideReference
      rw [hr]
      show (addSlideToPresentation _ _).getPartString q = _
      unfold addSlideToPresentation
      split
      · refine kept_text hq ?_
        rintro (e | e)
        · exact absurd e (by decide)
        · exact absurd e (by decide)
      · rfl
    have h3 : (repairStep uni s (.missingSlideReference (slidePath k))).1.getPartString c!"ppt/_rels/presentation.xml.rels" =
        some (flatText (gs ++ [(if b then .line else .two, extraRel (m, k))]) true) := by
      rw [e1, e2 _ (.inl rfl)]
      refine Eq.trans ?_ (congrArg some hadd)
      unfold Package.getPartString
      rw [getPart_addPart, if_pos rfl, Option.map_some, decodeLossy_encode]
    obtain ⟨l, t1, t2, t3⟩ := ih (repairStep uni s (.missingSlideReference (slidePath k))) (by
      intro g hg
      rw [List.mem_append, List.mem_singleton] at hg
      rcases hg with hg | rfl
      · exact h g hg
      · exact plain_extraRel _) h3
    refine ⟨(m, k) :: l, by rw [List.map_cons, t1], ?_, ?_⟩
    · rw [List.map_cons, List.foldl_cons, t2]
      simp [extraRels]
    · intro q hq
      rw [List.map_cons, List.foldl_cons, t3 q hq, e1, e2 q (.inr hq)]
      refine kept_text' ?_
      rintro rfl
      exact absurd hq (by decide)

theorem newline_rel {r : RelEntry} (h : OneLine r) : '\n' ∉ renderRel r := by
  unfold renderRel
  simp only [List.mem_append, not_or]
  refine ⟨⟨⟨⟨⟨⟨⟨⟨by decide, h.id.1⟩, by decide⟩, h.type.1⟩, by decide⟩, h.target⟩, by decide⟩, ?_⟩, by decide⟩
  split <;> decide

/-! ### Packages with minified relationships -/

/-- The first relationship of a presentation. -/
def firstRel : RelEntry := rel 1 c!"slideMaster" c!"slideMasters/slideMaster1.xml"

/-- A package with minified relationships of the presentation. -/
structure Flat (p : Package) (n : Nat) : Prop where
  ok : AMap.Ok p
  rels : ∃ rest, (∀ r ∈ firstRel :: rest, r.Plain ∧ '\n' ∉ renderRel r) ∧ (firstRel :: rest).filterMap slideEntry = slideRefs n ∧
    p.getPartString c!"ppt/_rels/presentation.xml.rels" = some (flatText ((firstRel :: rest).map fun r => (.none, r)) false)
  master : p.hasPart c!"ppt/slideMasters/slideMaster1.xml" = true
  only : ∀ path, (p.getPart path).isSome → c!"ppt/slides/slide" <+: path → ∃ k, 1 ≤ k ∧ k ≤ n ∧ path = slidePath k
  slides : ∀ k, 1 ≤ k → k ≤ n → ∃ x, p.getPartString (slidePath k) = some x ∧ '<' ∈ x

variable {p : Package} {n : Nat}

/-- The only line. -/
theorem flat_line {rest : List RelEntry} (h : ∀ r ∈ firstRel :: rest, r.Plain ∧ '\n' ∉ renderRel r) :
    ∃ t, flatText ((firstRel :: rest).map fun r => (.none, r)) false = flatHeader ++ renderRel firstRel ++ t ∧
      strLines (flatText ((firstRel :: rest).map fun r => (.none, r)) false) = [flatHeader ++ renderRel firstRel ++ t] := by
  have e : flatText ((firstRel :: rest).map fun r => (.none, r)) false =
      flatHeader ++ renderRel firstRel ++ (rest.flatMap renderRel ++ c!"</Relationships>") := by
    unfold flatText
    rw [List.flatMap_map]
    simp [Gap.text]
  refine ⟨_, e, ?_⟩
  rw [e]
  have hn : '\n' ∉ flatHeader ++ renderRel firstRel ++ (rest.flatMap renderRel ++ c!"</Relationships>") := by
    simp only [List.mem_append, List.mem_flatMap, not_or, not_exists, not_and]
    exact ⟨⟨by decide +kernel, (h _ (by simp)).2⟩, fun r hr => (h r (by simp [hr])).2, by decide⟩
  exact strLines_joinStr (ls := [flatHeader ++ renderRel firstRel ++ (rest.flatMap renderRel ++ c!"</Relationships>")]) (by simp)
    (by intro x hx; rw [List.mem_singleton.mp hx]; exact hn)
    (by intro x hx; rw [List.mem_singleton.mp hx, ← List.append_assoc, List.getLast?_append]; exact (by decide : some '>' ≠ some '\r'))
    (by rw [List.getLast_singleton]; exact fun e => by cases e)

theorem Flat.unreferenced (h : Flat p n) : referencedSlides p = [] := by
  obtain ⟨rest, h1, -, h3⟩ := h.rels
  obtain ⟨t, -, e⟩ := flat_line h1
  unfold referencedSlides
  rw [h3]
  simp only [e]
  have : referencedSlide (flatHeader ++ renderRel firstRel ++ t) = none := by
    unfold referencedSlide
    have : extractAttribute (flatHeader ++ renderRel firstRel ++ t) c!"Type" = some (relTypeBase ++ c!"slideMaster") := by krfl
    rw [this, Option.bind_some, if_pos (by decide +kernel)]
  rw [List.filterMap_cons, this]
  rfl

theorem Flat.unbroken (h : Flat p n) : checkRelsFile p c!"ppt/_rels/presentation.xml.rels" = [] := by
  obtain ⟨rest, h1, -, h3⟩ := h.rels
  obtain ⟨t, -, e⟩ := flat_line h1
  unfold checkRelsFile
  rw [h3]
  simp only [e]
  have e2 : extractAttribute (flatHeader ++ renderRel firstRel ++ t) c!"Target" = some c!"slideMasters/slideMaster1.xml" := by krfl
  have e3 : resolvePath c!"ppt/_rels/presentation.xml.rels" c!"slideMasters/slideMaster1.xml" = c!"ppt/slideMasters/slideMaster1.xml" := by
    decide +kernel
  rw [List.flatMap_cons, List.flatMap_nil, List.append_nil]
  unfold checkRelsLine
  split
  · rw [e2]
    simp only [e3, h.master]
    rw [if_neg (by decide)]
    simp
  · rfl

theorem slidePath_test (k : Nat) : (startsWith c!"ppt/slides/slide" (slidePath k) && endsWith c!".xml" (slidePath k) &&
    !containsStr c!"_rels" (slidePath k)) = true := by
  simp only [Bool.and_eq_true, startsWith_prefix, endsWith_suffix]
  refine ⟨⟨⟨dec k ++ c!".xml", by simp [slidePath]⟩, ⟨c!"ppt/slides/slide" ++ dec k, by simp [slidePath]⟩⟩, ?_⟩
  rw [Bool.not_eq_true', Bool.eq_false_iff]
  intro hc
  rw [containsStr_iff_infix] at hc
  exact underscore_slidePath k (hc.subset (by decide))

theorem Flat.actual (h : Flat p n) : ∃ ks : List Nat, actualSlides p = ks.map slidePath ∧ ks.Perm (upTo n) := by
  have hmem : ∀ path, path ∈ actualSlides p ↔ ∃ k, 1 ≤ k ∧ k ≤ n ∧ path = slidePath k := by
    intro path
    unfold actualSlides
    rw [List.mem_filter]
    constructor
    · rintro ⟨hp, hs⟩
      simp only [Bool.and_eq_true, startsWith_prefix] at hs
      exact h.only path ((AMap.get_isSome_iff p path).mpr hp) hs.1.1
    · rintro ⟨k, h1, h2, rfl⟩
      obtain ⟨x, hx, -⟩ := h.slides k h1 h2
      unfold Package.getPartString at hx
      obtain ⟨d, hd, -⟩ := Option.map_eq_some_iff.mp hx
      refine ⟨(AMap.get_isSome_iff p _).mp (by show (p.getPart _).isSome; rw [hd]; rfl), slidePath_test k⟩
  have hex : ∀ l : List Str, (∀ path ∈ l, ∃ k, path = slidePath k) → ∃ ks : List Nat, l = ks.map slidePath := by
    intro l
    induction l with
    | nil => exact fun _ => ⟨[], rfl⟩
    | cons a l ih =>
      intro hl
      obtain ⟨k, hk⟩ := hl a (by simp)
      obtain ⟨ks, hks⟩ := ih fun x hx => hl x (by simp [hx])
      exact ⟨k :: ks, by rw [hk, hks]; rfl⟩
  obtain ⟨ks, hks⟩ := hex (actualSlides p) fun path hp => by
    obtain ⟨k, -, -, e⟩ := (hmem path).mp hp
    exact ⟨k, e⟩
  refine ⟨ks, hks, ?_⟩
  have hnd : (actualSlides p).Nodup := List.Nodup.filter _ h.ok
  rw [hks] at hnd
  refine (List.perm_ext_iff_of_nodup (List.Nodup.of_map _ hnd) ?_).mpr fun k => ?_
  · rw [upTo_eq]
    exact List.nodup_range'
  · have := hmem (slidePath k)
    rw [hks, List.mem_map] at this
    rw [upTo_eq, List.mem_range'_1]
    constructor
    · intro hk
      obtain ⟨j, h1, h2, e⟩ := this.mp ⟨k, hk, rfl⟩
      rw [slidePath_inj.mp e]
      omega
    · intro hk
      obtain ⟨j, hj, e⟩ := this.mpr ⟨k, by omega, by omega, rfl⟩
      rw [← slidePath_inj.mp e]
      exact hj

/-- **C153** for a package: every slide is missing. -/
theorem Flat.reported (h : Flat p n) {k : Nat} (h1 : 1 ≤ k) (h2 : k ≤ n) :
    RepairIssue.missingSlideReference (slidePath k) ∈ validate p := by
  obtain ⟨ks, e, hp⟩ := h.actual
  unfold validate checkSlideReferences
  rw [h.unreferenced, e]
  simp only [List.mem_append, List.mem_map, List.mem_filter]
  refine .inl (.inr (.inr ⟨slidePath k, ⟨⟨k, hp.mem_iff.mpr ?_, rfl⟩, rfl⟩, rfl⟩))
  rw [upTo_eq, List.mem_range'_1]
  omega

theorem Flat.aside (h : Flat p n) : (∀ i ∈ checkRequiredParts p ++ checkXmlValidity p ++ checkRelationships p, Aside i) := by
  have hrel : p.hasPart c!"ppt/_rels/presentation.xml.rels" = true := by
    obtain ⟨rest, -, -, h3⟩ := h.rels
    exact text_has h3
  intro i hi
  rw [List.mem_append, List.mem_append] at hi
  rcases hi with (hi | hi) | hi
  · unfold checkRequiredParts at hi
    obtain ⟨path, hp, rfl⟩ := List.mem_map.mp hi
    rw [List.mem_filter] at hp
    refine ⟨?_, ?_⟩
    · rintro rfl
      rw [hrel] at hp
      exact absurd hp.2 (by decide)
    · have : ∀ path ∈ requiredParts, ¬ c!"ppt/slides/slide" <+: path := by decide
      exact this _ hp.1
  · unfold checkXmlValidity at hi
    obtain ⟨path, -, hi⟩ := List.mem_flatMap.mp hi
    have key : ∀ x, p.getPartString path = some x → '<' ∈ x → False := by
      intro x hx hc
      rw [hx] at hi
      simp only [nonblank_valid ⟨_, hc, show isWs '<' = false by decide⟩, if_true] at hi
      cases hi
    have hpath : i = .invalidXml path := by
      split at hi
      · split at hi
        · cases hi
        · exact List.mem_singleton.mp hi
      · cases hi
    rw [hpath]
    refine ⟨?_, fun hs => ?_⟩
    · rintro rfl
      obtain ⟨rest, -, -, h3⟩ := h.rels
      exact key _ h3 (List.mem_append_right _ (List.mem_append_right _ (by decide)))
    · cases hx : p.getPartString path with
      | none => rw [hx] at hi; cases hi
      | some x =>
        have hs2 : (p.getPart path).isSome := by
          unfold Package.getPartString at hx
          obtain ⟨d, hd, -⟩ := Option.map_eq_some_iff.mp hx
          rw [hd]; rfl
        obtain ⟨k, h1, h2, rfl⟩ := h.only path hs2 hs
        obtain ⟨y, hy, hc⟩ := h.slides k h1 h2
        exact key y hy hc
  · have src : ∀ relsPath, (∀ j ∈ checkRelsFile p relsPath, ∃ t r, j = .brokenRelationship relsPath t r) := by
      intro relsPath j hj
      unfold checkRelsFile at hj
      split at hj
      · cases hj
      · obtain ⟨line, -, hj⟩ := List.mem_flatMap.mp hj
        unfold checkRelsLine at hj
        split at hj
        · split at hj
          · cases hj
          · simp only at hj
            split at hj
            · cases hj
            · split at hj
              · exact ⟨_, _, List.mem_singleton.mp hj⟩
              · cases hj
        · cases hj
    unfold checkRelationships at hi
    rw [h.unbroken, List.append_nil, List.mem_append] at hi
    rcases hi with hi | hi
    · obtain ⟨t, r, rfl⟩ := src _ _ hi
      exact ⟨by decide, by decide⟩
    · obtain ⟨path, hp, hi⟩ := List.mem_flatMap.mp hi
      obtain ⟨t, r, rfl⟩ := src _ _ hi
      rw [List.mem_filter, Bool.and_eq_true, startsWith_prefix] at hp
      obtain ⟨u, rfl⟩ := hp.2.1
      refine ⟨?_, ?_⟩
      · intro e
        exact absurd (show c!"ppt/sl" = c!"ppt/_r" from congrArg (List.take 6) e) (by decide)
      · rintro ⟨v, e⟩
        exact absurd (show c!"ppt/slides/s" = c!"ppt/slides/_" from congrArg (List.take 12) e) (by decide)

theorem repair_foldl (uni : Char → Bool) (p : Package) :
    (repair uni p).1 = ((validate p).foldl (repairStep uni) (p, ⟨validate p, [], [], true⟩)).1 := by
  unfold repair
  simp only
  split
  · rename_i e
    rw [e]
    rfl
  · rfl

/-- What the repair leaves behind. -/
theorem Flat.repaired (uni : Char → Bool) (h : Flat p n) :
    ∃ (rest : List RelEntry) (l : List (Nat × Nat)), (∀ r ∈ firstRel :: rest, r.Plain ∧ '\n' ∉ renderRel r) ∧
      (firstRel :: rest).filterMap slideEntry = slideRefs n ∧ (l.map (·.2)).Perm (upTo n) ∧
      (repair uni p).1.getPartString c!"ppt/_rels/presentation.xml.rels" =
        some (flatText ((firstRel :: rest).map (fun r => (.none, r)) ++ extraRels false l) (!l.isEmpty)) ∧
      ∀ q, c!"ppt/slides/slide" <+: q → (repair uni p).1.getPartString q = p.getPartString q := by
  obtain ⟨ks, e, hp⟩ := h.actual
  have hv : validate p = (checkRequiredParts p ++ checkXmlValidity p ++ checkRelationships p) ++
      (ks.map fun k => RepairIssue.missingSlideReference (slidePath k)) ++ checkContentTypes p := by
    unfold validate checkSlideReferences
    rw [h.unreferenced, e]
    simp [Function.comp_def]
  have hct : ∀ i ∈ checkContentTypes p, Aside i := by
    intro i hi
    unfold checkContentTypes at hi
    split at hi
    · cases hi
    · obtain ⟨path, -, rfl⟩ := List.mem_map.mp hi
      trivial
  rw [repair_foldl]
  generalize (⟨validate p, [], [], true⟩ : RepairResult) = r0
  rw [hv, List.foldl_append, List.foldl_append]
  generalize hs : (checkRequiredParts p ++ checkXmlValidity p ++ checkRelationships p).foldl (repairStep uni) (p, r0) = s1
  have k1 : ∀ {q}, KeptPart q → s1.1.getPartString q = p.getPartString q := by
    intro q hq
    rw [← hs]
    exact aside_foldl uni h.aside (p, r0) hq
  obtain ⟨rest, g1, g2, g3⟩ := h.rels
  obtain ⟨l, t1, t2, t3⟩ := refer_foldl uni (ks := ks) s1 (gs := (firstRel :: rest).map fun r => (.none, r)) (b := false) (by
    intro g hg
    obtain ⟨r, hr, rfl⟩ := List.mem_map.mp hg
    exact (g1 r hr).1) ((k1 (.inl rfl)).trans g3)
  refine ⟨rest, l, g1, g2, t1 ▸ hp, ?_, ?_⟩
  · rw [aside_foldl uni hct _ (.inl rfl), t2]
    rfl
  · intro q hq
    rw [aside_foldl uni hct _ (.inr hq), t3 q hq, k1 (.inr hq)]

theorem plain_all {rest : List RelEntry} {l : List (Nat × Nat)} (h : ∀ r ∈ firstRel :: rest, r.Plain ∧ '\n' ∉ renderRel r) :
    ∀ g ∈ (firstRel :: rest).map (fun r => (Gap.none, r)) ++ extraRels false l, g.2.Plain := by
  intro g hg
  rcases List.mem_append.mp hg with hg | hg
  · obtain ⟨r, hr, rfl⟩ := List.mem_map.mp hg
    exact (h r hr).1
  · have := List.mem_map_of_mem (f := (·.2)) hg
    rw [extraRels_snd] at this
    obtain ⟨a, -, e⟩ := List.mem_map.mp this
    rw [← e]
    exact plain_extraRel a

theorem Flat.twice (uni : Char → Bool) (h : Flat p n) :
    (listedSlides (repair uni p).1).Perm ((upTo n).map slidePath ++ (upTo n).map slidePath) := by
  obtain ⟨rest, l, g1, g2, g3, g4, -⟩ := h.repaired uni
  obtain ⟨root, u1, u2⟩ := relSlides_flat (!l.isEmpty) (plain_all (l := l) g1)
  unfold listedSlides
  rw [g4, Option.bind_some, u1, Option.map_some, Option.getD_some]
  refine u2.trans ?_
  have e3 : (((firstRel :: rest).map fun r => (Gap.none, r)).map (·.2)) = firstRel :: rest := by
    rw [List.map_map]
    exact List.map_id _
  rw [List.map_append, e3, extraRels_snd, List.filterMap_append, List.map_append, g2, extra_entries]
  have : (slideRefs n).map (·.2) = (upTo n).map slidePath := by simp [slideRefs]
  rw [this]
  refine List.Perm.append (.refl _) ?_
  have := g3.map slidePath
  rw [List.map_map] at this
  exact this

/-! ### A second repair -/

theorem extra_line (a : Nat × Nat) : OneLine (extraRel a) := by
  have h : ∀ (c : Char) (m : Nat), c.isDigit = false → c ∉ dec m := fun c m hc => not_mem_dec hc
  have hr : ∀ c : Char, c.isDigit = false → c ∉ c!"rId" → c ∉ c!"rId" ++ dec a.1 := by
    intro c h1 h2
    rw [List.mem_append, not_or]
    exact ⟨h2, h c _ h1⟩
  have hs : ∀ c : Char, c.isDigit = false → c ∉ c!"slides/slide" → c ∉ c!".xml" → c ∉ c!"slides/slide" ++ dec a.2 ++ c!".xml" := by
    intro c h1 h2 h3
    rw [List.mem_append, List.mem_append, not_or, not_or]
    exact ⟨⟨h2, h c _ h1⟩, h3⟩
  have ht : ('"' ∉ relTypeBase ++ c!"slide") ∧ ('\n' ∉ relTypeBase ++ c!"slide") ∧ ('=' ∉ relTypeBase ++ c!"slide") := by decide
  exact ⟨⟨hr _ rfl (by decide), ht.1, hs _ rfl (by decide) (by decide)⟩, ⟨hr _ rfl (by decide), hr _ rfl (by decide)⟩,
    ⟨ht.2.1, ht.2.2⟩, hs _ rfl (by decide) (by decide)⟩

theorem extract_blank {attr : Str} (h : ∀ c ∈ attr.head?, c ≠ ' ') (ha : attr ≠ []) (s : Str) :
    extractAttribute (' ' :: s) attr = extractAttribute s attr := by
  cases attr with
  | nil => exact absurd rfl ha
  | cons c t =>
    have hc : c ≠ ' ' := h c rfl
    unfold extractAttribute
    have : stripPrefix? (c :: t ++ c!"=\"") (' ' :: s) = none := by
      rw [List.cons_append, stripPrefix?, if_neg hc]
    rw [splitOnce?, this]
    simp only
    cases splitOnce? (c :: t ++ c!"=\"") s <;> rfl

theorem extra_referenced (x : Nat × Nat) : referencedSlide (c!"  " ++ renderRel (extraRel x)) = some (slidePath x.2) := by
  have e : referencedSlide (c!"  " ++ renderRel (extraRel x)) = referencedSlide (renderRel (extraRel x) ++ []) := by
    rw [List.append_nil]
    unfold referencedSlide
    show (extractAttribute (' ' :: ' ' :: renderRel (extraRel x)) c!"Type").bind _ = _
    rw [extract_blank (by decide) (by decide), extract_blank (by decide) (by decide)]
    congr 1
    funext ty
    show (if _ then none else (extractAttribute (' ' :: ' ' :: renderRel (extraRel x)) c!"Target").map _) = _
    rw [extract_blank (by decide) (by decide), extract_blank (by decide) (by decide)]
  rw [e, referencedSlide_rel (extra_line x), if_pos (show (extraRel x).type = relTypeBase ++ c!"slide" from rfl)]
  simp [extraRel, slideRelEntry, stripPrefix?, slidePath]

/-- The lines of the repaired relationships. -/
theorem repaired_lines {rest : List RelEntry} (h : ∀ r ∈ firstRel :: rest, r.Plain ∧ '\n' ∉ renderRel r) (a : Nat × Nat) (l : List (Nat × Nat)) :
    ∃ t, strLines (flatText ((firstRel :: rest).map (fun r => (.none, r)) ++ extraRels false (a :: l)) true) =
      (flatHeader ++ renderRel firstRel ++ t) :: (l.map fun x => c!"  " ++ renderRel (extraRel x)) ++ [c!"</Relationships>"] := by
  refine ⟨rest.flatMap renderRel ++ c!"  " ++ renderRel (extraRel a), ?_⟩
  have hmore : ∀ l : List (Nat × Nat), ((extraRels true l).flatMap fun g => g.1.text ++ renderRel g.2) =
      (l.map fun x => c!"  " ++ renderRel (extraRel x)).flatMap fun x => '\n' :: x := by
    intro l
    induction l with
    | nil => rfl
    | cons x l ih =>
      rw [extraRels, List.flatMap_cons, ih, List.map_cons, List.flatMap_cons]
      rfl
  have e : flatText ((firstRel :: rest).map (fun r => (.none, r)) ++ extraRels false (a :: l)) true =
      joinStr c!"\n" ((flatHeader ++ renderRel firstRel ++ (rest.flatMap renderRel ++ c!"  " ++ renderRel (extraRel a))) ::
        (l.map fun x => c!"  " ++ renderRel (extraRel x)) ++ [c!"</Relationships>"]) := by
    rw [List.cons_append, joinStr_flatMap, List.flatMap_append, ← hmore]
    unfold flatText
    rw [List.flatMap_append, List.flatMap_map, extraRels]
    simp [Gap.text]
  rw [e]
  refine strLines_joinStr (by simp) ?_ ?_ ?_
  · intro x hx
    rw [List.cons_append, List.mem_cons, List.mem_append, List.mem_singleton] at hx
    rcases hx with rfl | hx | rfl
    · simp only [List.mem_append, List.mem_flatMap, not_or, not_exists, not_and]
      exact ⟨⟨by decide +kernel, (h _ (by simp)).2⟩, ⟨fun r hr => (h r (by simp [hr])).2, by decide⟩, newline_rel (extra_line a)⟩
    · obtain ⟨y, -, rfl⟩ := List.mem_map.mp hx
      rw [List.mem_append, not_or]
      exact ⟨by decide, newline_rel (extra_line y)⟩
    · decide
  · have ends : ∀ (u : Str) (r : RelEntry), (u ++ renderRel r).getLast? ≠ some '\r' := by
      intro u r
      unfold renderRel
      rw [← List.append_assoc, List.getLast?_append]
      exact (by decide : some '>' ≠ some '\r')
    intro x hx
    rw [List.cons_append, List.mem_cons, List.mem_append, List.mem_singleton] at hx
    rcases hx with rfl | hx | rfl
    · rw [← List.append_assoc]
      exact ends _ _
    · obtain ⟨y, -, rfl⟩ := List.mem_map.mp hx
      exact ends _ _
    · decide
  · rw [List.getLast_append_of_ne_nil _ (by simp)]
    exact fun e => by cases e

theorem Flat.stillMissing (uni : Char → Bool) (h : Flat p n) (hn : 1 ≤ n) :
    ∃ k, 1 ≤ k ∧ k ≤ n ∧ RepairIssue.missingSlideReference (slidePath k) ∈ validate (repair uni p).1 := by
  obtain ⟨rest, l, g1, g2, g3, g4, g5⟩ := h.repaired uni
  cases l with
  | nil =>
    have := g3.length_eq
    rw [upTo_eq] at this
    simp at this
    omega
  | cons a l =>
    have hk : a.2 ∈ upTo n := g3.mem_iff.mp (by simp)
    rw [upTo_eq, List.mem_range'_1] at hk
    refine ⟨a.2, by omega, by omega, ?_⟩
    have hnd : ((a :: l).map (·.2)).Nodup := g3.nodup_iff.mpr (by rw [upTo_eq]; exact List.nodup_range')
    rw [List.map_cons, List.nodup_cons] at hnd
    have href : slidePath a.2 ∉ referencedSlides (repair uni p).1 := by
      obtain ⟨t, e⟩ := repaired_lines g1 a l
      unfold referencedSlides
      rw [g4]
      simp only [List.isEmpty_cons, Bool.not_false, e]
      rw [List.mem_eraseDups, List.mem_filterMap]
      rintro ⟨y, hy, hr⟩
      rw [List.cons_append, List.mem_cons, List.mem_append, List.mem_singleton] at hy
      rcases hy with rfl | hy | rfl
      · have e1 : extractAttribute (flatHeader ++ renderRel firstRel ++ t) c!"Type" = some (relTypeBase ++ c!"slideMaster") := by krfl
        unfold referencedSlide at hr
        rw [e1, Option.bind_some, if_pos (by decide +kernel)] at hr
        cases hr
      · obtain ⟨x, hx, rfl⟩ := List.mem_map.mp hy
        rw [extra_referenced] at hr
        have := slidePath_inj.mp (Option.some.inj hr)
        exact hnd.1 (this ▸ List.mem_map_of_mem hx)
      · exact absurd hr (by
          rw [show referencedSlide c!"</Relationships>" = none by decide]
          exact fun e => by cases e)
    have hact : slidePath a.2 ∈ actualSlides (repair uni p).1 := by
      obtain ⟨x, hx, -⟩ := h.slides a.2 (by omega) (by omega)
      rw [← g5 _ ⟨dec a.2 ++ c!".xml", by simp [slidePath]⟩] at hx
      unfold Package.getPartString at hx
      obtain ⟨d, hd, -⟩ := Option.map_eq_some_iff.mp hx
      unfold actualSlides
      rw [List.mem_filter]
      exact ⟨(AMap.get_isSome_iff _ _).mp (Option.isSome_of_eq_some hd), slidePath_test a.2⟩
    unfold validate checkSlideReferences
    simp only [List.mem_append, List.mem_map, List.mem_filter]
    refine .inl (.inr (.inr ⟨_, ⟨hact, ?_⟩, rfl⟩))
    rw [Bool.not_eq_true', Bool.eq_false_iff]
    intro hc
    exact href (List.contains_iff_mem.mp hc)

/-! ### Compressed files -/

theorem ok_repairIssue (uni : Char → Bool) {p : Package} (h : AMap.Ok p) (i : RepairIssue) : AMap.Ok (repairIssue uni p i).1 := by
  have add : ∀ {q : Package} (path : Str) (d : Bytes), AMap.Ok q → AMap.Ok (q.addPart path d) := fun path d h => AMap.Ok.insert h path d
  cases i with
  | missingPart path =>
    show AMap.Ok (repairMissingPart p path).1
    unfold repairMissingPart
    repeat' split
    all_goals first | exact add _ _ h | exact h
  | invalidXml path =>
    show AMap.Ok (repairInvalidXml uni p path).1
    unfold repairInvalidXml
    split
    · exact add _ _ h
    · exact h
  | brokenRelationship source target id =>
    show AMap.Ok (repairBrokenRelationship p source id).1
    unfold repairBrokenRelationship
    split
    · exact add _ _ h
    · exact h
  | missingSlideReference path =>
    show AMap.Ok (repairMissingSlideReference p path).1
    unfold repairMissingSlideReference addSlideToPresentation
    split
    · dsimp only
      split
      · exact add _ _ (add _ _ h)
      · exact add _ _ h
    · exact h
  | orphanSlide path =>
    show AMap.Ok (repairOrphanSlide p path).1
    unfold repairOrphanSlide
    split
    · exact add _ _ h
    · exact h
  | invalidContentType path =>
    show AMap.Ok (repairInvalidContentType p path).1
    unfold repairInvalidContentType
    split
    · exact add _ _ h
    · exact h
  | missingNamespace path ns =>
    show AMap.Ok (repairMissingNamespace p path ns).1
    unfold repairMissingNamespace
    repeat' split
    all_goals first | exact add _ _ h | exact h
  | emptyRequiredElement path e =>
    show AMap.Ok (repairEmptyElement p path e).1
    unfold repairEmptyElement
    split
    · exact h
    · exact add _ _ h
  | corruptedEntry _ => exact h

theorem ok_repair (uni : Char → Bool) {p : Package} (h : AMap.Ok p) : AMap.Ok (repair uni p).1 := by
  have key : ∀ (l : List RepairIssue) (s : Package × RepairResult), AMap.Ok s.1 → AMap.Ok (l.foldl (repairStep uni) s).1 := by
    intro l
    induction l with
    | nil => exact fun _ h => h
    | cons i l ih =>
      intro s hs
      refine ih _ ?_
      unfold repairStep
      split
      · simp only
        split <;> exact ok_repairIssue uni hs i
      · exact hs
  unfold repair
  simp only
  split
  · exact h
  · exact key _ _ h

/-- After a blank the result ends with a blank. -/
def BlankTop (s : MinState) : Prop := isBlank s.prev = true → ∀ c ∈ s.out.head?, c ≠ '<'

theorem blankTop_step {s : MinState} (h : BlankTop s) (ch : Char) : BlankTop (s.step ch) := by
  unfold MinState.step
  split
  · rename_i e
    intro hb
    subst e
    cases hb
  split
  · rename_i e
    rw [Bool.and_eq_true, decide_eq_true_eq] at e
    intro hb
    obtain ⟨rfl, -⟩ := e
    cases hb
  split
  · rename_i e
    rw [Bool.and_eq_true, decide_eq_true_eq] at e
    intro hb
    obtain ⟨rfl, -⟩ := e
    cases hb
  split
  · intro _ c hc
    dsimp only at hc
    split at hc
    · simp only [List.head?_cons, Option.mem_some_iff] at hc
      subst hc
      decide
    · rename_i hp
      refine h ?_ c hc
      rw [Decidable.of_not_not hp]
      decide
  · intro hb c hc
    simp only [List.head?_cons, Option.mem_some_iff] at hc
    subst hc
    rintro rfl
    cases hb

theorem lt_popBlank {s : MinState} (h : BlankTop s) (hm : '<' ∈ s.out) : '<' ∈ s.popBlank := by
  unfold MinState.popBlank
  split
  · rename_i hp
    have hb : isBlank s.prev = true := by
      unfold isBlank
      simp only [Bool.or_eq_true] at hp ⊢
      exact .inl hp
    have := h hb
    cases ho : s.out with
    | nil => rw [ho] at hm; cases hm
    | cons c t =>
      rw [ho] at hm this
      rcases List.mem_cons.mp hm with e | e
      · exact absurd e.symm (this c (by simp))
      · exact e
  · exact hm

theorem lt_step {s : MinState} (h : BlankTop s) (ch : Char) (hm : '<' ∈ s.out ∨ ch = '<') : '<' ∈ (s.step ch).out := by
  unfold MinState.step
  split
  · rename_i e
    refine List.mem_cons_of_mem _ (hm.resolve_right ?_)
    rw [e]
    decide
  split
  · rename_i e
    rw [Bool.and_eq_true, decide_eq_true_eq] at e
    rw [e.1]
    exact List.mem_cons_self
  split
  · rename_i e
    rw [Bool.and_eq_true, decide_eq_true_eq] at e
    refine List.mem_cons_of_mem _ (hm.resolve_right ?_)
    rw [e.1]
    decide
  split
  · rename_i e
    have hne : ch ≠ '<' := by
      rintro rfl
      revert e
      simp [isBlank]
    have := hm.resolve_right hne
    dsimp only
    split
    · exact List.mem_cons_of_mem _ this
    · exact this
  · rcases hm with hm | rfl
    · exact List.mem_cons_of_mem _ hm
    · exact List.mem_cons_self

theorem lt_minimize {x : Str} (h : '<' ∈ x) : '<' ∈ minimizeXml x := by
  have key : ∀ (x : Str) (s : MinState), BlankTop s → '<' ∈ s.out ∨ '<' ∈ x → '<' ∈ (x.foldl MinState.step s).out := by
    intro x
    induction x with
    | nil => intro s _ h; exact h.resolve_right (by simp)
    | cons c x ih =>
      intro s hs h
      refine ih _ (blankTop_step hs c) ?_
      rcases h with h | h
      · exact .inl (lt_step hs c (.inl h))
      · rcases List.mem_cons.mp h with e | e
        · exact .inl (lt_step hs c (.inr e.symm))
        · exact .inr e
  unfold minimizeXml
  rw [List.mem_reverse]
  exact key x _ (by intro _ c hc; cases hc) (.inr h)

theorem not_dropped_slide {o : CompressionOptions} {p : Package} {path : Str} (h : c!"ppt/slides/slide" <+: path) : ¬ Dropped o p path := by
  obtain ⟨t, rfl⟩ := h
  refine not_dropped rfl ?_ rfl
  intro _ hm
  simp only [docPropParts, List.mem_cons, List.not_mem_nil, or_false] at hm
  rcases hm with h | h | h | h <;> cases h

theorem Flat.minified {a b : List (Str × Bytes)} {o : CompressionOptions} (ho : o.optimizeXml = true) (hc : Compressed o a b)
    {rest : List RelEntry} {n : Nat} (g1 : ∀ r ∈ firstRel :: rest, r.Plain ∧ '\n' ∉ renderRel r)
    (g2 : (firstRel :: rest).filterMap slideEntry = slideRefs n)
    (g3 : (Package.openReader a).getPart c!"ppt/_rels/presentation.xml.rels" = some (encode (renderRels (firstRel :: rest))))
    (g4 : ((Package.openReader a).getPart c!"ppt/slideMasters/slideMaster1.xml").isSome)
    (g5 : ∀ path, ((Package.openReader a).getPart path).isSome → c!"ppt/slides/slide" <+: path → ∃ k, 1 ≤ k ∧ k ≤ n ∧ path = slidePath k)
    (g6 : ∀ k, 1 ≤ k → k ≤ n → ∃ x, (Package.openReader a).getPart (slidePath k) = some (encode x) ∧ '<' ∈ x) :
    Flat (Package.openReader b) n ∧ ∀ k x, (Package.openReader a).getPart (slidePath k) = some (encode x) →
      (Package.openReader b).getPartString (slidePath k) = some (minimizeXml x) := by
  have text : ∀ k x, (Package.openReader a).getPart (slidePath k) = some (encode x) →
      (Package.openReader b).getPartString (slidePath k) = some (minimizeXml x) := by
    intro k x hx
    have c2 := compressed_part hc hx (slidePath_notDir _) (.inl ⟨c!"ppt/slides/slide" ++ dec k, rfl⟩)
      (not_dropped_slide ⟨dec k ++ c!".xml", by simp [slidePath]⟩)
    rw [if_pos ho] at c2
    exact c2
  refine ⟨⟨ok_openReader _, ?_, ?_, ?_, ?_⟩, text⟩
  · have c1 := compressed_part hc g3 (by decide) (by decide) (not_dropped (by decide) (by intro _; decide) (by decide))
    rw [if_pos ho, minimize_renderRels fun r hr => (g1 r hr).1] at c1
    exact ⟨rest, g1, g2, c1⟩
  · refine part_has ?_
    classical
    obtain ⟨entries, hperm, rfl⟩ := hc
    rw [saved_part (ok_compress (ok_openReader _)) hperm (by decide), C72_exact_partial o _ (ok_openReader _),
      if_neg (not_dropped (by decide) (by intro _; decide) (by decide)), if_pos ⟨ho, by decide⟩, Option.isSome_map]
    exact g4
  · intro path hp hs
    refine g5 path ?_ hs
    classical
    obtain ⟨entries, hperm, rfl⟩ := hc
    rw [saved_part (ok_compress (ok_openReader _)) hperm (openReader_notDir hp), C72_exact_partial o _ (ok_openReader _)] at hp
    split at hp
    · cases hp
    · split at hp
      · rwa [Option.isSome_map] at hp
      · exact hp
  · intro k h1 h2
    obtain ⟨x, hx, hm⟩ := g6 k h1 h2
    exact ⟨_, text k x hx, lt_minimize hm⟩

theorem generated_slides {d : Deck} {st : BuildSettings} {f : Entry → Bytes} (h : NeedsNoRepair d st) {path : Str}
    (hp : ((generated d st f).getPart path).isSome) (hs : c!"ppt/slides/slide" <+: path) :
    ∃ k, 1 ≤ k ∧ k ≤ d.count ∧ path = slidePath k := by
  obtain ⟨e, he, rfl⟩ := generated_path ((AMap.get_isSome_iff _ _).mp hp)
  have hm := (mem_names h.template).mp (List.mem_map.mpr ⟨e, he, rfl⟩)
  have hown := expectedParts_own d st _ hm
  obtain ⟨t, ht'⟩ := hs
  have hq : ∃ n, e.name = .slide n := by
    generalize e.name = q at ht' hown
    clear hp hm he
    cases q <;> simp [PartName.path, PartName.Own] at ht' hown ⊢
  obtain ⟨n, hn⟩ := hq
  rw [hn, mem_expected_slide] at hm
  exact ⟨n, by omega, by omega, by rw [hn]; rfl⟩

theorem Flat.compressed (secs : Nat) {title : Str} {l : List PageIn} {st : BuildSettings} (desc : Str → Str)
    (other : PartName → Bytes) (ht : st.template = none) (hf : st.fonts = none) {o : CompressionOptions} (ho : o.optimizeXml = true)
    {b : List (Str × Bytes)} (hc : Compressed o (written secs title l st desc other) b) :
    Flat (Package.openReader b) l.length ∧ ∀ i (hi : i < l.length),
      (Package.openReader b).getPartString (slidePath (i + 1)) = some (minimizeXml l[i].text.xml) := by
  have hfine := deckOf_fine (l := l) (st := st) ht hf
  have hcount : (deckOf l).count = l.length := by simp [deckOf, Deck.count]
  have part : ∀ e ∈ buildPackage (deckOf l) st, ∀ t, entryText (deckOf l) st desc (pageTexts secs title l) e = some t →
      (generated (deckOf l) st (entryBytes (deckOf l) st desc (pageTexts secs title l) other)).getPart e.name.path = some (encode t) := by
    intro e he t hx
    rw [generated_get hfine.openable he, entryBytes, hx]
  have hslide : ∀ i (hi : i < l.length), (generated (deckOf l) st (entryBytes (deckOf l) st desc (pageTexts secs title l) other)).getPart
      (slidePath (i + 1)) = some (encode l[i].text.xml) := by
    intro i hi
    obtain ⟨x, hx⟩ := mem_buildPackage_slide st hi
    exact part _ hx l[i].text.xml (by simp [entryText, pageTexts, hi])
  have hrel := part _ (mem_buildPackage_presRels (deckOf l) st hf) _ rfl
  have hr : relsPartText (deckOf l) st (PptRs.presentationRels (deckOf l).count (hasNotes (deckOf l).slides) st.handout) .presRels =
      renderRels (PptRs.presentationRels l.length (hasNotes (deckOf l).slides) st.handout) := by
    simp only [relsPartText, renderRelsWith, renderRels, hcount, List.take_length, List.drop_length, List.flatMap_nil,
      List.append_nil]
    simp
  rw [hr] at hrel
  have hmaster : ((generated (deckOf l) st (entryBytes (deckOf l) st desc (pageTexts secs title l) other)).getPart
      c!"ppt/slideMasters/slideMaster1.xml").isSome := by
    have hm : PartName.master ∈ expectedParts (deckOf l) st := by simp [expectedParts]
    obtain ⟨body, hb, -⟩ := entry_of_expected hfine.openable hm
    have := generated_get (f := entryBytes (deckOf l) st desc (pageTexts secs title l) other) hfine.openable hb
    exact Option.isSome_of_eq_some this
  have honly : ∀ path, ((generated (deckOf l) st (entryBytes (deckOf l) st desc (pageTexts secs title l) other)).getPart path).isSome →
      c!"ppt/slides/slide" <+: path → ∃ k, 1 ≤ k ∧ k ≤ l.length ∧ path = slidePath k := by
    intro path hp hs
    obtain ⟨k, k1, k2, e⟩ := generated_slides hfine hp hs
    exact ⟨k, k1, hcount ▸ k2, e⟩
  obtain ⟨h1, h2⟩ := Flat.minified ho hc (rest := (PptRs.presentationRels l.length (hasNotes (deckOf l).slides) st.handout).tail)
    (fun r hr => ⟨plain_presentationRels _ _ _ r hr, newline_rel (pres_oneLine r hr)⟩) (entries_presentationRels _ _ _) hrel hmaster honly (by
      intro k k1 k2
      have := hslide (k - 1) (by omega)
      rw [show k - 1 + 1 = k by omega] at this
      exact ⟨_, this, slideText_lt _⟩)
  exact ⟨h1, fun i hi => h2 _ _ (hslide i hi)⟩

/-! ### The slides that are read -/

/-- Slides are read in the order of the relationships. -/
theorem import_slides {p : Package} {ks : List Nat} (f : Nat → SlideText) (hp : slidePaths p = ks.map slidePath)
    (hs : ∀ k ∈ ks, (p.getPartString (slidePath k)).bind XmlElement.parse = XmlElement.parse (f k).xml ∧
      (f k).Safe ∧ SmallNumbers (f k) ∧ (f k).extra = []) :
    Import.importPptx p = some { title := (coreInfo p).title.getD [], slides := ks.map fun k => expectedSlide (f k) } := by
  have hlen : (slidePaths p).length = (ks.map fun k => seenSlide (f k)).length := by rw [hp]; simp
  have hget : ∀ i (hi : i < (ks.map fun k => seenSlide (f k)).length), Reader.getSlide p i = some (ks.map fun k => seenSlide (f k))[i] := by
    intro i hi
    have hi' : i < ks.length := by simpa using hi
    unfold Reader.getSlide
    have e : (slidePaths p)[i]? = some (slidePath ks[i]) := by
      rw [hp]
      simp [hi']
    obtain ⟨h0, h1, h2, h3⟩ := hs ks[i] (List.getElem_mem hi')
    have hx' : ReadsAs (fmt (f ks[i]).extra) [] := by
      rw [h3]
      intro top st
      simp [fmt, steps]
    have h4 := C86_slide_reads_back_partial h1 h2 hx' (by intro n as ks hm; simp at hm)
    rw [e, Option.bind_some]
    have h5 : (p.getPartString (slidePath ks[i])).bind parseSlide = parseSlide (f ks[i]).xml := by
      unfold parseSlide
      rw [← h0]
      cases p.getPartString (slidePath ks[i]) <;> rfl
    rw [h5, h4]
    simp
  unfold Import.importPptx
  rw [hlen, mapM_range_some hget, Option.map_some, List.map_map]
  congr 2
  exact List.map_congr_left fun k _ => import_seen (f k)

theorem perm_indices {l : List Str} {ks : List Nat} (h : l.Perm (ks.map slidePath)) : ∃ js : List Nat, l = js.map slidePath ∧ js.Perm ks := by
  have hex : ∀ l : List Str, (∀ path ∈ l, ∃ k, path = slidePath k) → ∃ js : List Nat, l = js.map slidePath := by
    intro l
    induction l with
    | nil => exact fun _ => ⟨[], rfl⟩
    | cons a l ih =>
      intro hl
      obtain ⟨k, hk⟩ := hl a (by simp)
      obtain ⟨js, hjs⟩ := ih fun x hx => hl x (by simp [hx])
      exact ⟨k :: js, by rw [hk, hjs]; rfl⟩
  obtain ⟨js, rfl⟩ := hex l fun path hp => by
    obtain ⟨k, -, e⟩ := List.mem_map.mp (h.mem_iff.mp hp)
    exact ⟨k, e.symm⟩
  refine ⟨js, rfl, ?_⟩
  rw [List.perm_iff_count] at h ⊢
  intro k
  have := h (slidePath k)
  have inj : Function.Injective slidePath := fun a b e => slidePath_inj.mp e
  rwa [List.count_map_of_injective _ _ inj, List.count_map_of_injective _ _ inj] at this

theorem twice_opened (uni : Char → Bool) {b file : List (Str × Bytes)} {l : List PageIn} (h : Flat (Package.openReader b) l.length)
    (h0 : l ≠ []) (hs : Readable l) {o : CompressionOptions} (ho : o.optimizeXml = true)
    (ht : ∀ i (hi : i < l.length), (Package.openReader b).getPartString (slidePath (i + 1)) = some (minimizeXml l[i].text.xml))
    (hr : Repaired uni b file) :
    ∃ d, opened file = some d ∧ d.slides.Perm ((l ++ l).map fun s => expectedSlide (mapSlide (keptText o) s.text)) := by
  obtain ⟨entries, hperm, rfl⟩ := hr
  have same : ∀ path, Package.isDirName path = false → (Package.openReader (Package.saveWriter entries)).getPartString path =
      (repair uni (Package.openReader b)).1.getPartString path := by
    intro path hd
    unfold Package.getPartString
    rw [saved_part (ok_repair uni (ok_openReader b)) hperm hd]
  have hlist : listedSlides (Package.openReader (Package.saveWriter entries)) = listedSlides (repair uni (Package.openReader b)).1 := by
    unfold listedSlides
    rw [same _ (by decide)]
  have hp := h.twice uni
  rw [← hlist, ← List.map_append] at hp
  obtain ⟨js, e, hj⟩ := perm_indices hp
  have hpos : 1 ≤ l.length := List.length_pos_iff.mpr h0
  have hup : upTo l.length ≠ [] := by
    rw [upTo_eq]
    intro e
    have := congrArg List.length e
    rw [List.length_range'] at this
    simp at this
    exact h0 this
  have hpaths : slidePaths (Package.openReader (Package.saveWriter entries)) = js.map slidePath := by
    unfold slidePaths
    rw [if_neg, e]
    rw [e]
    intro hn
    rw [List.map_eq_nil_iff] at hn
    rw [hn] at hj
    exact hup (List.append_eq_nil_iff.mp hj.symm.eq_nil).1
  have hmem : ∀ k ∈ js, 1 ≤ k ∧ k ≤ l.length := by
    intro k hk
    have := hj.mem_iff.mp hk
    rw [List.mem_append, or_self, upTo_eq, List.mem_range'_1] at this
    omega
  obtain ⟨-, -, -, -, -, -, hkeep⟩ := h.repaired uni
  have himp := import_slides (p := Package.openReader (Package.saveWriter entries)) (ks := js)
    (fun k => mapSlide (keptText o) (l[k - 1]?.getD ⟨SlideText.new [], none⟩).text) hpaths (by
      intro k hk
      obtain ⟨k1, k2⟩ := hmem k hk
      have hlt : k - 1 < l.length := by omega
      have e1 : l[k - 1]?.getD ⟨SlideText.new [], none⟩ = l[k - 1] := by simp [hlt]
      have e2 := ht (k - 1) hlt
      rw [show k - 1 + 1 = k by omega] at e2
      obtain ⟨s1, s2, s3⟩ := hs l[k - 1] (List.getElem_mem hlt)
      rw [e1, same _ (slidePath_notDir _), hkeep _ ⟨dec k ++ c!".xml", by simp [slidePath]⟩, e2, Option.bind_some]
      have := minimized_slide o s1 s3
      rw [if_pos ho] at this
      exact ⟨this, mapSlide_safe s1, mapSlide_small s2, s3⟩)
  refine ⟨_, himp, ?_⟩
  refine (hj.map _).trans ?_
  have : (upTo l.length).map (fun k => expectedSlide (mapSlide (keptText o) (l[k - 1]?.getD ⟨SlideText.new [], none⟩).text)) =
      l.map fun s => expectedSlide (mapSlide (keptText o) s.text) := by
    refine List.ext_getElem (by simp [upTo_eq]) fun i h1 h2 => ?_
    have hi : i < l.length := by simpa using h2
    simp [upTo_eq, hi]
  rw [List.map_append, this, List.map_append]

/-- **C153**, as far as it holds: a compression that neither minifies the parts nor drops the properties, followed by a repair, leaves a
file that is opened with the title and the slides of the presentation. -/
theorem C153_kept_partial (uni : Char → Bool) (secs : Nat) {title : Str} {l : List PageIn} {st : BuildSettings} (desc : Str → Str)
    (other : PartName → Bytes) (ht : st.template = none) (hf : st.fonts = none) (hsig : st.signature = false)
    (hx : ∀ q, c!".xml" <:+ q.path → ∃ c ∈ decodeLossy (other q), isWs c = false) (h1 : '&' ∉ title) (h2 : '<' ∉ title)
    (hn : l.length + 1 < 4294967296) (hs : Readable l) {o : CompressionOptions} (ho : o.optimizeXml = false)
    (hp : o.removeProperties = false) {file : List (Str × Bytes)}
    (hh : Handled uni (written secs title l st desc other) [.compress o, .repair] file) :
    opened file = some { title := visible title, slides := l.map fun s => expectedSlide s.text } := by
  have := C152_opened_partial uni secs desc other ht hf hsig hx h1 h2 hh
    (by
      intro s hs
      rw [List.mem_cons, List.mem_singleton] at hs
      rcases hs with rfl | rfl
      · exact ⟨hp, ho⟩
      · trivial)
    (by simpa [callsOf, editContentsAll] using hn)
    (by
      intro s hm
      have hm' : s ∈ l.map (·.text) := by simpa [callsOf, editContentsAll] using hm
      obtain ⟨x, hx, rfl⟩ := List.mem_map.mp hm'
      exact hs x hx)
  rw [this]
  simp [callsOf, editContentsAll, List.map_map, Function.comp_def]

/-- **C153 does not hold in full.** Every slide of a file with minified parts is reported as missing from the relationships of the
presentation, although it is in them: they are all on one line, and the validation reads one relationship per line. -/
theorem C153_reported_violated (secs : Nat) {title : Str} {l : List PageIn} {st : BuildSettings} (desc : Str → Str)
    (other : PartName → Bytes) (ht : st.template = none) (hf : st.fonts = none) {o : CompressionOptions} (ho : o.optimizeXml = true)
    {file : List (Str × Bytes)} (hc : Compressed o (written secs title l st desc other) file) {k : Nat} (h1 : 1 ≤ k) (h2 : k ≤ l.length) :
    .missingSlideReference (slidePath k) ∈ validate (Package.openReader file) :=
  (Flat.compressed secs desc other ht hf ho hc).1.reported h1 h2

/-- **C153 does not hold in full.** When the compression minifies the parts, all relationships of the presentation end up on one line,
and the validation, which reads the file line by line, takes every slide for unreferenced. The repair adds a second relationship for each
of them, and the repaired file is opened with every slide twice. -/
theorem C153_twice_violated (uni : Char → Bool) (secs : Nat) {title : Str} {l : List PageIn} {st : BuildSettings} (desc : Str → Str)
    (other : PartName → Bytes) (ht : st.template = none) (hf : st.fonts = none) (h0 : l ≠ []) (hs : Readable l)
    {o : CompressionOptions} (ho : o.optimizeXml = true) {file : List (Str × Bytes)}
    (hh : Handled uni (written secs title l st desc other) [.compress o, .repair] file) :
    ∃ d, opened file = some d ∧
      d.slides.Perm ((l ++ l).map fun s => expectedSlide (mapSlide (keptText o) s.text)) := by
  cases hh with
  | compress now later =>
  cases later with
  | repair now2 later2 =>
  cases later2
  obtain ⟨hflat, htext⟩ := Flat.compressed secs desc other ht hf ho now
  exact twice_opened uni hflat h0 hs ho htext now2

/-- **C153 does not hold in full.** The repair of a file with minified parts does not even settle what it reports: the first relationship
it adds is on the line of the old ones, so its slide is reported again, and repairing once more adds it once more. -/
theorem C153_again_violated (uni : Char → Bool) (secs : Nat) {title : Str} {l : List PageIn} {st : BuildSettings} (desc : Str → Str)
    (other : PartName → Bytes) (ht : st.template = none) (hf : st.fonts = none) (h0 : l ≠ []) {o : CompressionOptions}
    (ho : o.optimizeXml = true) {file : List (Str × Bytes)} (hc : Compressed o (written secs title l st desc other) file) :
    ∃ k, 1 ≤ k ∧ k ≤ l.length ∧
      .missingSlideReference (slidePath k) ∈ validate (repair uni (Package.openReader file)).1 :=
  (Flat.compressed secs desc other ht hf ho hc).1.stillMissing uni (List.length_pos_iff.mpr h0)

/-! ### Examples -/

example : ∃ file d, Handled (fun _ => false) (written 0 c!"Talk" talkPages .none id fun _ => encode c!"<x/>")
    [.compress .maximum, .repair] file ∧ opened file = some d ∧ d.slides.length = 2 * talkPages.length := by
  obtain ⟨file, hh⟩ := handled_exists (fun _ => false) [.compress .maximum, .repair]
    (written 0 c!"Talk" talkPages .none id fun _ => encode c!"<x/>")
  obtain ⟨d, hd, hp⟩ := C153_twice_violated _ 0 id _ rfl rfl (by decide) talk_readable rfl hh
  refine ⟨file, d, hh, hd, ?_⟩
  rw [hp.length_eq]
  decide

example : ∃ file, Handled (fun _ => false) (written 0 c!"Talk" talkPages .none id fun _ => encode c!"<x/>")
    [.compress ⟨true, false, true, true, false⟩, .repair] file ∧ (opened file).isSome := by
  obtain ⟨file, hh⟩ := handled_exists (fun _ => false) [.compress ⟨true, false, true, true, false⟩, .repair]
    (written 0 c!"Talk" talkPages .none id fun _ => encode c!"<x/>")
  refine ⟨file, hh, ?_⟩
  rw [C153_kept_partial _ 0 id _ rfl rfl rfl ?_ (by decide) (by decide) (by decide) talk_readable rfl rfl hh]
  · rfl
  · intro q _
    rw [decodeLossy_encode]
    decide

end PptRs.Props
