import Verif.Lemmas.Reader
import Verif.Lemmas.EditorXml
import Verif.Lemmas.Sort
import Verif.Lemmas.Builder
import Verif.Props.Editor

/-!
# The slide order that is read
-/

namespace PptRs

open PptRs.Spec PptRs.Reader PptRs.Props PptRs.Editor

/-- The parts of a relationship with white space before it. -/
def gapRel (g : Str × RelEntry) : List Part := t!"\n{.raw g.1}" ++ relParts g.2

/-- The nodes of a relationship with white space before it. -/
def gapNodes (g : Str × RelEntry) : List Node := [.text ('\n' :: g.1), relNode g.2]

theorem readsNodes_gapRel {g : Str × RelEntry} (h1 : Plain g.1) (h : g.2.Plain) : ReadsNodes (gapRel g) (gapNodes g) :=
  ((Splits.lit (by parts_ok)).append (((Splits.lit (by parts_ok; exact ⟨h.id, h.type, h.target⟩)).append
    (.attrs (readsAttrs_whenSet (b := g.2.external) (as := [(c!"TargetMode", c!"External")])
      ((Splits.lit (by parts_ok)).readsAttrs (fun top st n as => by krfl)))) |>.append
    (.lit (by parts_ok))))).readsNodes (by krfl)

/-- A relationship part with white space. -/
def relsText (l : List (Str × RelEntry)) (b : Bool) : Str :=
  xmlDecl ++ fmt (t!"<Relationships xmlns=\"http://schemas.openxmlformats.org/package/2006/relationships\">"
    ++ l.flatMap gapRel ++ (whenSet b t!"\n" ++ t!"</Relationships>"))

/-- `x` is a relationship part with the relationships `l`. -/
def RelsText (x : Str) (l : List RelEntry) : Prop :=
  ∃ gs b, x = relsText gs b ∧ gs.map (·.2) = l ∧ ∀ g ∈ gs, Plain g.1 ∧ noStart c!"</Relationships>" g.1 = true ∧ g.2.Plain

theorem fmt_gapRel (g : Str × RelEntry) : fmt (gapRel g) = '\n' :: (g.1 ++ renderRel g.2) := by
  unfold gapRel
  rw [fmt_append, fmt_relParts]
  simp [fmt, Part.render]

theorem relsText_renderRels {l : List RelEntry} (h : ∀ r ∈ l, r.Plain) : RelsText (renderRels l) l := by
  refine ⟨l.map fun r => ([], r), true, ?_, ?_, ?_⟩
  · unfold renderRels relsText
    rw [fmt_append, fmt_append, fmt_flatMap, List.flatMap_map]
    simp only [fmt_gapRel, List.nil_append]
    simp [relsHeader, xmlDecl, fmt, whenSet, Part.render]
  · rw [List.map_map]
    exact List.map_id _
  · intro g hg
    obtain ⟨r, hr, rfl⟩ := List.mem_map.mp hg
    exact ⟨by simp [Plain], rfl, h r hr⟩

theorem relsText_add {x : Str} {l : List RelEntry} (h : RelsText x l) (n : Nat) :
    RelsText (addToPresentationRels x n) (l ++ [addedRel n]) := by
  obtain ⟨gs, b, rfl, rfl, hg⟩ := h
  refine ⟨gs ++ [(if b then ['\n'] else [], addedRel n)], false, ?_, by simp, ?_⟩
  · unfold addToPresentationRels relsText
    have e : xmlDecl ++ fmt (t!"<Relationships xmlns=\"http://schemas.openxmlformats.org/package/2006/relationships\">"
        ++ gs.flatMap gapRel ++ (whenSet b t!"\n" ++ t!"</Relationships>")) =
      (xmlDecl ++ c!"<Relationships xmlns=\"http://schemas.openxmlformats.org/package/2006/relationships\">" ++
        (gs.flatMap fun g => '\n' :: (g.1 ++ renderRel g.2)) ++ (if b then c!"\n" else [])) ++ c!"</Relationships>" ++ [] := by
      rw [fmt_append, fmt_append, fmt_append, fmt_flatMap]
      simp only [fmt_gapRel]
      cases b <;> simp [fmt, whenSet, Part.render]
    rw [e, insertBefore_of_noStart]
    · rw [fmt_append, fmt_append, fmt_append, fmt_flatMap]
      simp only [fmt_gapRel]
      cases b <;> simp [fmt, whenSet, Part.render, addedRel]
    · refine noStart_append (noStart_append (by decide) (noStart_flatMap fun g h => ?_)) (by cases b <;> decide)
      obtain ⟨_, h2, h3⟩ := hg g h
      exact noStart_append (a := ['\n']) (by decide) (noStart_append h2 (noStart_renderRel h3))
  · intro g hm
    rw [List.mem_append, List.mem_singleton] at hm
    rcases hm with hm | rfl
    · exact hg g hm
    · refine ⟨?_, ?_, plain_addedRel n⟩ <;> cases b <;> simp [Plain] <;> decide

theorem document_relsText {gs : List (Str × RelEntry)} (b : Bool) (hg : ∀ g ∈ gs, Plain g.1 ∧ g.2.Plain) :
    document (relsText gs b) = some (relsDoc (gs.flatMap gapNodes ++ (if b then [nl] else []))) := by
  have hn : ReadsNodes (gs.flatMap gapRel) (gs.flatMap gapNodes) :=
    readsNodes_flatMap fun g h => readsNodes_gapRel (hg g h).1 (hg g h).2
  unfold relsText
  generalize hb : (t!"<Relationships xmlns=\"http://schemas.openxmlformats.org/package/2006/relationships\">"
    ++ gs.flatMap gapRel ++ (whenSet b t!"\n" ++ t!"</Relationships>")) = body
  have e : document (xmlDecl ++ fmt body) = parse (fmt body) := by rw [← hb]; krfl
  rw [e, ← hb]
  cases b
  · show parse (fmt (_ ++ _ ++ t!"</Relationships>")) = some (relsDoc (_ ++ []))
    rw [List.append_nil]
    exact parse_of_nodes (((Splits.lit (by parts_ok)).append (.nodes hn) |>.append (.lit (by parts_ok))).readsNodes (by krfl))
  · show parse (fmt (_ ++ _ ++ (t!"\n" ++ t!"</Relationships>"))) = _
    exact parse_of_nodes (((Splits.lit (by parts_ok)).append (.nodes hn) |>.append
      ((Splits.lit (by parts_ok)).append (.lit (by parts_ok)))).readsNodes (by krfl))

/-- What the reader takes from a relationship. -/
def slideEntry (r : RelEntry) : Option (Str × Str) :=
  if isSlideType r.type then some (r.id, slideFile r.target) else none

theorem slideRelOf_node (r : RelEntry) : (built (relNode r)).filterMap slideRelOf = (slideEntry r).toList := by
  have e : ∃ x, built (relNode r) = [x] ∧ x.attr c!"Type" = some r.type ∧ x.attr c!"Id" = some r.id ∧
      x.attr c!"Target" = some r.target := by
    obtain ⟨i, t, u, ext⟩ := r
    refine ⟨((built (relNode ⟨i, t, u, ext⟩)).head?).getD (.new []), by krfl, ?_⟩
    cases ext <;> exact ⟨by krfl, by krfl, by krfl⟩
  obtain ⟨x, e1, e2, e3, e4⟩ := e
  rw [e1]
  simp only [List.filterMap_cons, List.filterMap_nil, slideRelOf, slideEntry, e2, e3, e4, Option.getD_some, Option.bind_some,
    Option.map_some]
  by_cases h : isSlideType r.type = true <;> simp [h]

theorem parse_relsText {x : Str} {l : List RelEntry} (h : RelsText x l) : ∃ root, XmlElement.parse x = some root ∧
    (root.findAll c!"Relationship").filterMap slideRelOf = l.filterMap slideEntry := by
  obtain ⟨gs, b, rfl, rfl, hg⟩ := h
  refine ⟨_, parse_elem (document_relsText b fun g h => ⟨(hg g h).1, (hg g h).2.2⟩), ?_⟩
  show (namedIn c!"Relationship" _).filterMap slideRelOf = _
  rw [namedIn_append]
  have e1 : namedIn c!"Relationship" (if b then [nl] else []) = [] := by cases b <;> rfl
  rw [e1, List.append_nil]
  clear hg e1
  induction gs with
  | nil => rfl
  | cons g gs ih =>
    have e2 : namedIn c!"Relationship" (gapNodes g) = built (relNode g.2) := by krfl
    rw [List.flatMap_cons, namedIn_append, List.filterMap_append, ih, e2, slideRelOf_node, List.map_cons,
      List.filterMap_cons]
    cases slideEntry g.2 <;> rfl

theorem trimRId_dec (n : Nat) (k : Nat) : trimRId (k + 1) (c!"rId" ++ dec n) = dec n := by
  have h : ∀ k, trimRId k (dec n) = dec n := by
    intro k
    cases k with
    | zero => rfl
    | succ k =>
      unfold trimRId
      have : stripPrefix? c!"rId" (dec n) = none := by
        cases hd : dec n with
        | nil => exact absurd hd (dec_ne_nil n)
        | cons c r =>
          have hc : c ≠ 'r' := by
            rintro rfl
            exact not_mem_dec (n := n) (c := 'r') (by decide) (by rw [hd]; simp)
          simp [stripPrefix?, Ne.symm hc]
      rw [this]
  rw [trimRId, stripPrefix?_append]
  exact h k

theorem rIdNumber_dec {n : Nat} (h : n < 4294967296) : rIdNumber (c!"rId" ++ dec n) = n := by
  unfold rIdNumber
  rw [show (c!"rId" ++ dec n).length = ((dec n).length + 2) + 1 by simp, trimRId_dec, parseU32_dec h]
  rfl

/-- The entries of the slides `1`, ..., `n`. -/
def slideRefs (n : Nat) : List (Str × Str) := (upTo n).map fun i => (c!"rId" ++ dec (i + 1), slidePath i)

theorem entry_rel (n : Nat) (t u : Str) : slideEntry (rel n t u) =
    if isSlideType (relTypeBase ++ t) then some (c!"rId" ++ dec n, slideFile u) else none := rfl

theorem entry_slide (i : Nat) : slideEntry (addedRel i) = some (c!"rId" ++ dec (i + 1), slidePath i) := by
  have h1 : isSlideType (relTypeBase ++ c!"slide") = true := by decide +kernel
  have h2 : slideFile (c!"slides/slide" ++ dec i ++ c!".xml") = slidePath i := rfl
  unfold addedRel
  rw [entry_rel, h1, h2]
  rfl

theorem entries_presentationRels (n : Nat) (a b : Bool) :
    (presentationRels n a b).filterMap slideEntry = slideRefs n := by
  have no : ∀ (k : Nat) (t u : Str), isSlideType (relTypeBase ++ t) = false → slideEntry (rel k t u) = none := by
    intro k t u h
    rw [entry_rel, h]
    rfl
  have h1 : isSlideType (relTypeBase ++ c!"slideMaster") = false := by decide +kernel
  have h2 : isSlideType (relTypeBase ++ c!"notesMaster") = false := by decide +kernel
  have h3 : isSlideType (relTypeBase ++ c!"handoutMaster") = false := by decide +kernel
  have h4 : isSlideType (relTypeBase ++ c!"presProps") = false := by decide +kernel
  have h5 : isSlideType (relTypeBase ++ c!"viewProps") = false := by decide +kernel
  have h6 : isSlideType (relTypeBase ++ c!"theme") = false := by decide +kernel
  have h7 : isSlideType (relTypeBase ++ c!"tableStyles") = false := by decide +kernel
  have hs : ((upTo n).map fun i => rel (slideRelId i) c!"slide" (c!"slides/slide" ++ dec i ++ c!".xml")).filterMap slideEntry =
      slideRefs n := by
    rw [List.filterMap_map]
    have : slideEntry ∘ (fun i => rel (slideRelId i) c!"slide" (c!"slides/slide" ++ dec i ++ c!".xml")) =
        fun i => some (c!"rId" ++ dec (i + 1), slidePath i) := by
      funext i
      exact entry_slide i
    rw [this]
    simp [slideRefs]
  unfold presentationRels
  simp only [List.filterMap_append, hs]
  cases a <;> cases b <;>
    simp [no _ _ _ h1, no _ _ _ h2, no _ _ _ h3, no _ _ _ h4, no _ _ _ h5, no _ _ _ h6, no _ _ _ h7]

theorem sorted_entries {n : Nat} (h : n + 1 < 4294967296) :
    sortByKey (fun r : Str × Str => rIdNumber r.1) (slideRefs n) = slideRefs n := by
  refine sortByKey_of_sorted _ _ ?_
  unfold slideRefs
  rw [List.pairwise_map]
  unfold upTo
  rw [List.pairwise_map]
  have : (List.range n).Pairwise (fun a b => a < b ∧ b < n) := by
    have h1 : (List.range n).Pairwise (· < ·) := List.pairwise_lt_range
    refine h1.imp_of_mem fun ha hb hab => ⟨hab, by simpa using hb⟩
  refine this.imp fun {a b} hab => ?_
  simp only
  rw [rIdNumber_dec (by omega), rIdNumber_dec (by omega)]
  omega

theorem relSlides_text {x : Str} {l : List RelEntry} {n : Nat} (h : RelsText x l) (hl : l.filterMap slideEntry = slideRefs n)
    (hn : n + 1 < 4294967296) : (XmlElement.parse x).map relSlides = some ((upTo n).map slidePath) := by
  obtain ⟨root, h1, h2⟩ := parse_relsText h
  rw [h1, Option.map_some]
  unfold relSlides
  rw [h2, hl, sorted_entries hn]
  simp [slideRefs]

end PptRs
