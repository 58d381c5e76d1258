import Verif.Model.PresText
import Verif.Lemmas.EditorXml

/-!
# Reading `ppt/presentation.xml`
-/

namespace PptRs

open PptRs.Spec

/-- The elements of a default text level. -/
def levelNode (level : Nat) : Node :=
  E (c!"a:lvl" ++ dec (level + 1) ++ c!"pPr")
    [(c!"marL", dec (457200 * level)), (c!"algn", c!"l"), (c!"defTabSz", c!"457200"), (c!"rtl", c!"0"),
     (c!"eaLnBrk", c!"1"), (c!"latinLnBrk", c!"0"), (c!"hangingPunct", c!"1")]
    [E c!"a:defRPr" [(c!"sz", c!"1800"), (c!"kern", c!"1200")]
      [E c!"a:solidFill" [] [E c!"a:schemeClr" [(c!"val", c!"tx1")] []],
       E c!"a:latin" [(c!"typeface", c!"+mn-lt")] [], E c!"a:ea" [(c!"typeface", c!"+mn-ea")] [],
       E c!"a:cs" [(c!"typeface", c!"+mn-cs")] []]]

/-- The element of the default text style. -/
def defaultTextNode : Node :=
  E c!"p:defaultTextStyle" [] (E c!"a:defPPr" [] [E c!"a:defRPr" [(c!"lang", c!"en-US")] []]
    :: [0, 1, 2, 3, 4, 5, 6, 7, 8].map levelNode)

/-- All parts are literals. -/
def allLit : List Part → Bool
  | [] => true
  | .lit _ :: ps => allLit ps
  | _ :: _ => false

theorem parts_ok_of_allLit {ps : List Part} (h : allLit ps = true) : ∀ p ∈ ps, p.Ok := by
  induction ps with
  | nil => simp
  | cons p ps ih =>
    cases p with
    | lit s => exact List.forall_mem_cons.mpr ⟨trivial, ih h⟩
    | esc s => exact absurd h (by simp [allLit])
    | raw s => exact absurd h (by simp [allLit])

theorem readsNodes_defaultTextStyle : ReadsNodes defaultTextStyle [defaultTextNode] :=
  (Splits.lit (parts_ok_of_allLit rfl)).readsNodes (by krfl)

theorem readsNodes_slideListEntry (n : Nat) : ReadsNodes (slideListEntry n) [nl, slideRefNode n] :=
  (Splits.lit (by unfold slideListEntry; parts_ok)).readsNodes (by krfl)

/-- The document of a presentation: the last elements are given. -/
def presentationDoc (notes handout : List Node) (slides : List Node) : List Node :=
  [E c!"p:presentation" [(c!"xmlns:a", c!"http://schemas.openxmlformats.org/drawingml/2006/main"),
    (c!"xmlns:r", c!"http://schemas.openxmlformats.org/officeDocument/2006/relationships"),
    (c!"xmlns:p", c!"http://schemas.openxmlformats.org/presentationml/2006/main"),
    (c!"saveSubsetFonts", c!"1"), (c!"autoCompressPictures", c!"0")]
    ([nl, E c!"p:sldMasterIdLst" [] [nl, E c!"p:sldMasterId" [(c!"id", dec slideMasterId), (c!"r:id", c!"rId1")] [], nl]]
     ++ notes ++ handout
     ++ [nl] ++ [E c!"p:sldIdLst" [] slides] ++ [nl]
     ++ [E c!"p:sldSz" [(c!"cx", c!"9144000"), (c!"cy", c!"6858000"), (c!"type", c!"screen4x3")] []] ++ [nl]
     ++ [E c!"p:notesSz" [(c!"cx", c!"6858000"), (c!"cy", c!"9144000")] []] ++ [nl] ++ [defaultTextNode]
     ++ [E c!"p:extLst" [] [E c!"p:ext" [(c!"uri", c!"{EFAFB233-063F-42B5-8137-9DF3F51BA10A}")]
       [E c!"p15:sldGuideLst" [(c!"xmlns:p15", c!"http://schemas.microsoft.com/office/powerpoint/2012/main")] []]]])]

/-- The notes master reference. -/
def notesRefNodes (hasNotes : Bool) (id : Nat) : List Node :=
  if hasNotes then [nl, E c!"p:notesMasterIdLst" [] [nl, E c!"p:notesMasterId"
    [(c!"r:id", c!"rId" ++ dec id)] [], nl]] else []

/-- The handout master reference. -/
def handoutRefNodes (hasHandout : Bool) (id : Nat) : List Node :=
  if hasHandout then [nl, E c!"p:handoutMasterIdLst" [] [nl, E c!"p:handoutMasterId"
    [(c!"r:id", c!"rId" ++ dec id)] [], nl]] else []

set_option maxRecDepth 8000 in
theorem document_presentationText (count : Nat) (notes handout : Bool) :
    document (presentationText count notes handout) =
      some (presentationDoc (notesRefNodes notes (notesMasterRelId count))
        (handoutRefNodes handout (handoutMasterRelId count notes)) (slideRefKids count ++ [nl])) := by
  unfold presentationText
  generalize hb : (t!"<p:presentation xmlns:a=\"http://schemas.openxmlformats.org/drawingml/2006/main\" xmlns:r=\"http://schemas.openxmlformats.org/officeDocument/2006/relationships\" xmlns:p=\"http://schemas.openxmlformats.org/presentationml/2006/main\" saveSubsetFonts=\"1\" autoCompressPictures=\"0\">
<p:sldMasterIdLst>
<p:sldMasterId id=\"{.num slideMasterId}\" r:id=\"rId1\"/>
</p:sldMasterIdLst>" ++ _ ++ _ ++ _ ++ _ ++ _ ++ _ ++ _) = body
  have e : document (xmlDecl ++ fmt body) = parse (fmt body) := by rw [← hb]; krfl
  rw [e, ← hb]
  exact parse_of_nodes (((Splits.lit (by parts_ok)).append
    (.nodes (readsNodes_whenSet (b := notes) (ks := [nl, E c!"p:notesMasterIdLst" [] [nl, E c!"p:notesMasterId"
          [(c!"r:id", c!"rId" ++ dec (notesMasterRelId count))] [], nl]])
        ((Splits.lit (by parts_ok)).readsNodes (by krfl))))
    |>.append (.nodes (readsNodes_whenSet (b := handout) (ks := [nl, E c!"p:handoutMasterIdLst" [] [nl, E c!"p:handoutMasterId"
          [(c!"r:id", c!"rId" ++ dec (handoutMasterRelId count notes))] [], nl]])
        ((Splits.lit (by parts_ok)).readsNodes (by krfl))))
    |>.append (.lit (by parts_ok))
    |>.append (.nodes (readsNodes_flatMap (l := upTo count) fun i _ => readsNodes_slideListEntry i))
    |>.append (.lit (by parts_ok))
    |>.append (.tagged (readsNodes_defaultTextStyle.tagged ⟨_, rfl⟩))
    |>.append (.lit (by parts_ok))).readsNodes (by krfl))

/-- What can be read of the presentation. -/
theorem read_presentationDoc (notes handout : Bool) (n m : Nat) (slides : List Node) :
    let d := presentationDoc (notesRefNodes notes n) (handoutRefNodes handout m) slides
    elemsL c!"p:sldId" d = elemsL c!"p:sldId" slides ∧
    (elemsL c!"p:sldMasterId" d).map (fun r => (attrOf c!"id" r, attrOf c!"r:id" r)) =
      (some (dec slideMasterId), some c!"rId1") ::
        (elemsL c!"p:sldMasterId" slides).map (fun r => (attrOf c!"id" r, attrOf c!"r:id" r)) ∧
    (elemsL c!"p:notesMasterId" d).map (attrOf c!"r:id") =
      (if notes then [some (c!"rId" ++ dec n)] else []) ++
        (elemsL c!"p:notesMasterId" slides).map (attrOf c!"r:id") ∧
    (elemsL c!"p:handoutMasterId" d).map (attrOf c!"r:id") =
      (if handout then [some (c!"rId" ++ dec m)] else []) ++
        (elemsL c!"p:handoutMasterId" slides).map (attrOf c!"r:id") := by
  cases notes <;> cases handout <;>
  · refine ⟨?_, ?_, ?_, ?_⟩ <;>
    · simp [presentationDoc, notesRefNodes, handoutRefNodes, elemsL, elems, nl, attrOf, List.lookup,
        defaultTextNode, levelNode]

theorem elemsL_slideRefKids_other {n : Nat} {name : Str} (h : name ≠ c!"p:sldId") :
    elemsL name (slideRefKids n) = [] := by
  unfold slideRefKids
  induction upTo n with
  | nil => rfl
  | cons i l ih =>
    rw [List.flatMap_cons, elemsL_append, ih]
    simp [elemsL, elems, nl, slideRefNode, h.symm]

/-- What is read of the slide list entry of slide `n`. -/
def slideRefRead (n : Nat) : Option Str × Option Str :=
  (some (dec (255 + n)), some (c!"rId" ++ dec (n + 1)))

theorem readSlideList_presentationText (n : Nat) (a b : Bool) :
    readSlideList (presentationText n a b) = some ((upTo n).map slideRefRead) := by
  unfold readSlideList
  rw [document_presentationText, Option.map_some, (read_presentationDoc _ _ _ _ _).1, elemsL_append,
    elemsL_slideRefKids]
  show some (((upTo n).map slideRefNode ++ []).map _) = _
  rw [List.append_nil, List.map_map]
  rfl

theorem readRefs_notes_presentationText (n : Nat) (a b : Bool) :
    readRefs c!"p:notesMasterId" (presentationText n a b) =
      some (if a then [some (c!"rId" ++ dec (notesMasterRelId n))] else []) := by
  unfold readRefs
  rw [document_presentationText, Option.map_some, (read_presentationDoc _ _ _ _ _).2.2.1, elemsL_append,
    elemsL_slideRefKids_other (by decide)]
  simp [elemsL, elems, nl]

theorem readRefs_handout_presentationText (n : Nat) (a b : Bool) :
    readRefs c!"p:handoutMasterId" (presentationText n a b) =
      some (if b then [some (c!"rId" ++ dec (handoutMasterRelId n a))] else []) := by
  unfold readRefs
  rw [document_presentationText, Option.map_some, (read_presentationDoc _ _ _ _ _).2.2.2, elemsL_append,
    elemsL_slideRefKids_other (by decide)]
  simp [elemsL, elems, nl]

theorem readMasters_presentationText (n : Nat) (a b : Bool) :
    (document (presentationText n a b)).map (fun d => (elemsL c!"p:sldMasterId" d).map
      fun r => (attrOf c!"id" r, attrOf c!"r:id" r)) =
    some [(some (dec slideMasterId), some c!"rId1")] := by
  rw [document_presentationText, Option.map_some, (read_presentationDoc _ _ _ _ _).2.1, elemsL_append,
    elemsL_slideRefKids_other (by decide)]
  simp [elemsL, elems, nl]

/-! ### The rebuilt presentation -/

theorem read_rebuiltDoc (n : Nat) (notes handout : Bool) :
    elemsL c!"p:sldId" (rebuiltDoc n notes handout) = (upTo n).map slideRefNode ∧
    (elemsL c!"p:notesMasterId" (rebuiltDoc n notes handout)).map (attrOf c!"r:id") =
      (if notes then [some c!"rId6"] else []) ∧
    (elemsL c!"p:handoutMasterId" (rebuiltDoc n notes handout)).map (attrOf c!"r:id") =
      (if handout then [some (c!"rId" ++ dec (if notes then 7 else 6))] else []) := by
  refine ⟨?_, ?_, ?_⟩
  · have : elemsL c!"p:sldId" (slideRefKids n ++ [nl]) = (upTo n).map slideRefNode := by
      rw [elemsL_append, elemsL_slideRefKids]
      show _ ++ [] = _
      rw [List.append_nil]
    rw [← this]
    cases notes <;> cases handout <;> simp [rebuiltDoc, elemsL, elems, nl]
  · have : elemsL c!"p:notesMasterId" (slideRefKids n ++ [nl]) = [] := by
      rw [elemsL_append, elemsL_slideRefKids_other (by decide)]; rfl
    cases notes <;> cases handout <;> simp [rebuiltDoc, elemsL, elems, nl] at this ⊢ <;>
      simp [this, attrOf, List.lookup]
  · have : elemsL c!"p:handoutMasterId" (slideRefKids n ++ [nl]) = [] := by
      rw [elemsL_append, elemsL_slideRefKids_other (by decide)]; rfl
    cases notes <;> cases handout <;> simp [rebuiltDoc, elemsL, elems, nl] at this ⊢ <;>
      simp [this, attrOf, List.lookup]

theorem readSlideList_rebuilt (n : Nat) (a b : Bool) :
    readSlideList (Editor.rebuiltPresentation n a b) = some ((upTo n).map slideRefRead) := by
  unfold readSlideList
  rw [document_rebuilt, Option.map_some, (read_rebuiltDoc n a b).1, List.map_map]
  rfl

theorem readRefs_notes_rebuilt (n : Nat) (a b : Bool) :
    readRefs c!"p:notesMasterId" (Editor.rebuiltPresentation n a b) =
      some (if a then [some c!"rId6"] else []) := by
  unfold readRefs
  rw [document_rebuilt, Option.map_some, (read_rebuiltDoc n a b).2.1]

theorem readRefs_handout_rebuilt (n : Nat) (a b : Bool) :
    readRefs c!"p:handoutMasterId" (Editor.rebuiltPresentation n a b) =
      some (if b then [some (c!"rId" ++ dec (if a then 7 else 6))] else []) := by
  unfold readRefs
  rw [document_rebuilt, Option.map_some, (read_rebuiltDoc n a b).2.2]

/-! ### Adding to the slide list -/

/-- The text of a presentation in front of the end of the slide list. -/
def presentationFront (count : Nat) (notes handout : Bool) : List Part :=
  t!"<p:presentation xmlns:a=\"http://schemas.openxmlformats.org/drawingml/2006/main\" xmlns:r=\"http://schemas.openxmlformats.org/officeDocument/2006/relationships\" xmlns:p=\"http://schemas.openxmlformats.org/presentationml/2006/main\" saveSubsetFonts=\"1\" autoCompressPictures=\"0\">
<p:sldMasterIdLst>
<p:sldMasterId id=\"{.num slideMasterId}\" r:id=\"rId1\"/>
</p:sldMasterIdLst>"
    ++ whenSet notes t!"\n<p:notesMasterIdLst>\n<p:notesMasterId r:id=\"rId{.num (notesMasterRelId count)}\"/>\n</p:notesMasterIdLst>"
    ++ whenSet handout t!"\n<p:handoutMasterIdLst>\n<p:handoutMasterId r:id=\"rId{.num (handoutMasterRelId count notes)}\"/>\n</p:handoutMasterIdLst>"
    ++ t!"\n<p:sldIdLst>" ++ (upTo count).flatMap slideListEntry

/-- The text of a presentation after the slide list. -/
def presentationBack : List Part :=
  t!"
<p:sldSz cx=\"9144000\" cy=\"6858000\" type=\"screen4x3\"/>
<p:notesSz cx=\"6858000\" cy=\"9144000\"/>
" ++ defaultTextStyle
    ++ t!"<p:extLst><p:ext uri=\"\x7bEFAFB233-063F-42B5-8137-9DF3F51BA10A}\"><p15:sldGuideLst xmlns:p15=\"http://schemas.microsoft.com/office/powerpoint/2012/main\"/></p:ext></p:extLst></p:presentation>"

set_option maxRecDepth 8000 in
theorem presentationText_cut (n : Nat) (a b : Bool) :
    presentationText n a b = (xmlDecl ++ fmt (presentationFront n a b) ++ c!"\n") ++ c!"</p:sldIdLst>"
      ++ fmt presentationBack := by
  have e : fmt t!"
</p:sldIdLst>
<p:sldSz cx=\"9144000\" cy=\"6858000\" type=\"screen4x3\"/>
<p:notesSz cx=\"6858000\" cy=\"9144000\"/>
" = c!"\n" ++ c!"</p:sldIdLst>" ++ fmt t!"
<p:sldSz cx=\"9144000\" cy=\"6858000\" type=\"screen4x3\"/>
<p:notesSz cx=\"6858000\" cy=\"9144000\"/>
" := rfl
  unfold presentationText presentationFront presentationBack
  simp only [fmt_append, e, List.append_assoc]

/-- Deciding `noStart` for all parts, numbers being free of the first character of the mark. -/
theorem noStart_whenSet {m : Str} {b : Bool} {ps : List Part} (h : noStart m (fmt ps) = true) :
    noStart m (fmt (whenSet b ps)) = true := by
  cases b
  · rfl
  · exact h

theorem noStart_cons {m : Str} {p : Part} {ps : List Part} (h1 : noStart m p.render = true)
    (h2 : noStart m (fmt ps) = true) : noStart m (fmt (p :: ps)) = true := noStart_append h1 h2

set_option maxRecDepth 8000 in
theorem noStart_presentationFront (n : Nat) (a b : Bool) :
    noStart c!"</p:sldIdLst>" (xmlDecl ++ fmt (presentationFront n a b) ++ c!"\n") = true := by
  refine noStart_append (noStart_append (by decide) ?_) (by decide)
  unfold presentationFront
  simp only [fmt_append]
  refine noStart_append (noStart_append (noStart_append (noStart_append ?_ ?_) ?_) ?_) ?_
  · exact noStart_cons (by decide) (noStart_cons (noStart_dec _) (noStart_cons (by decide) rfl))
  · exact noStart_whenSet (noStart_cons (by decide) (noStart_cons (noStart_dec _)
      (noStart_cons (by decide) rfl)))
  · exact noStart_whenSet (noStart_cons (by decide) (noStart_cons (noStart_dec _)
      (noStart_cons (by decide) rfl)))
  · exact noStart_cons (by decide) rfl
  · rw [fmt_flatMap]
    exact noStart_flatMap fun i _ => noStart_cons (by decide) (noStart_cons (noStart_dec _)
      (noStart_cons (by decide) (noStart_cons (noStart_dec _) (noStart_cons (by decide) rfl))))

theorem addToPresentation_text (n m : Nat) (a b : Bool) :
    Editor.addToPresentation (presentationText n a b) m =
      xmlDecl ++ fmt (presentationFront n a b ++ t!"\n" ++ Editor.slideRef m ++ t!"</p:sldIdLst>"
        ++ presentationBack) := by
  unfold Editor.addToPresentation
  rw [presentationText_cut, insertBefore_of_noStart _ (noStart_presentationFront n a b)]
  simp only [fmt_append, List.append_assoc]
  rfl

set_option maxRecDepth 8000 in
/-- Adding a slide to a generated presentation. -/
theorem document_added (n m : Nat) (a b : Bool) :
    document (Editor.addToPresentation (presentationText n a b) m) =
      some (presentationDoc (notesRefNodes a (notesMasterRelId n))
        (handoutRefNodes b (handoutMasterRelId n a))
        (slideRefKids n ++ [.text c!"\n\n"] ++ [slideRefNode m])) := by
  rw [addToPresentation_text]
  generalize hb : presentationFront n a b ++ t!"\n" ++ Editor.slideRef m ++ t!"</p:sldIdLst>"
        ++ presentationBack = body
  have e : document (xmlDecl ++ fmt body) = parse (fmt body) := by rw [← hb]; krfl
  rw [e, ← hb]
  unfold presentationFront presentationBack
  exact parse_of_nodes (((Splits.lit (by parts_ok)).append
    (.nodes (readsNodes_whenSet (b := a) (ks := [nl, E c!"p:notesMasterIdLst" [] [nl, E c!"p:notesMasterId"
          [(c!"r:id", c!"rId" ++ dec (notesMasterRelId n))] [], nl]])
        ((Splits.lit (by parts_ok)).readsNodes (by krfl))))
    |>.append (.nodes (readsNodes_whenSet (b := b) (ks := [nl, E c!"p:handoutMasterIdLst" [] [nl, E c!"p:handoutMasterId"
          [(c!"r:id", c!"rId" ++ dec (handoutMasterRelId n a))] [], nl]])
        ((Splits.lit (by parts_ok)).readsNodes (by krfl))))
    |>.append (.lit (by parts_ok))
    |>.append (.nodes (readsNodes_flatMap (l := upTo n) fun i _ => readsNodes_slideListEntry i))
    |>.append (.lit (by parts_ok))
    |>.append (.lit (by unfold Editor.slideRef; parts_ok))
    |>.append (.lit (by parts_ok))
    |>.append ((Splits.lit (by parts_ok)).append (.tagged (readsNodes_defaultTextStyle.tagged ⟨_, rfl⟩))
      |>.append (.lit (by parts_ok)))).readsNodes (by krfl))

theorem readSlideList_added (n m : Nat) (a b : Bool) :
    readSlideList (Editor.addToPresentation (presentationText n a b) m) =
      some ((upTo n).map slideRefRead ++ [slideRefRead m]) := by
  unfold readSlideList
  rw [document_added, Option.map_some, (read_presentationDoc _ _ _ _ _).1, elemsL_append, elemsL_append,
    elemsL_slideRefKids, show elemsL c!"p:sldId" [Node.text c!"\n\n"] = [] from rfl, List.append_nil,
    List.map_append, List.map_map]
  rfl

/-! ### Searching the presentation for masters -/

theorem containsStr_of_noStart {c : Char} {m s : Str} (h : noStart (c :: m) s = true) :
    containsStr (c :: m) s = false := by
  rw [Bool.eq_false_iff]
  intro hc
  obtain ⟨a, b, e⟩ := containsStr_iff.mp hc
  have : ∀ a : Str, noStart (c :: m) (a ++ ((c :: m) ++ b)) = false := by
    intro a
    induction a with
    | nil =>
      have hp : comparable (c :: m) (c :: (m ++ b)) = true :=
        comparable_of_prefix (b := []) (by simp)
      simp [noStart, hp]
    | cons x a ih => simp only [List.cons_append, noStart] at ih ⊢; rw [ih]; simp
  rw [e, List.append_assoc, this a] at h
  exact absurd h (by decide)

theorem containsStr_append {m a b : Str} (h : containsStr m a = true ∨ containsStr m b = true) :
    containsStr m (a ++ b) = true := by
  rcases h with h | h
  · obtain ⟨x, y, rfl⟩ := containsStr_iff.mp h
    exact containsStr_iff.mpr ⟨x, y ++ b, by simp⟩
  · obtain ⟨x, y, rfl⟩ := containsStr_iff.mp h
    exact containsStr_iff.mpr ⟨a ++ x, y, by simp⟩

set_option maxRecDepth 8000 in
theorem noStart_rebuilt {m : Str} (h1 : noStart ('<' :: m) xmlDecl = true)
    (h2 : noStart ('<' :: m) (fmt t!"<p:presentation xmlns:a=\"http://schemas.openxmlformats.org/drawingml/2006/main\" xmlns:r=\"http://schemas.openxmlformats.org/officeDocument/2006/relationships\" xmlns:p=\"http://schemas.openxmlformats.org/presentationml/2006/main\" saveSubsetFonts=\"1\" autoCompressPictures=\"0\">
<p:sldMasterIdLst>
<p:sldMasterId id=\"2147483648\" r:id=\"rId1\"/>
</p:sldMasterIdLst>") = true)
    (h4 : noStart ('<' :: m) (fmt t!"
<p:sldIdLst>") = true)
    (h5 : noStart ('<' :: m) c!"\n<p:sldId id=\"" = true) (h6 : noStart ('<' :: m) c!"\" r:id=\"rId" = true)
    (h7 : noStart ('<' :: m) c!"\"/>" = true)
    (h8 : noStart ('<' :: m) (fmt t!"
</p:sldIdLst>
<p:sldSz cx=\"9144000\" cy=\"6858000\" type=\"screen4x3\"/>
<p:notesSz cx=\"6858000\" cy=\"9144000\"/>
</p:presentation>") = true) (n : Nat) (a b : Bool)
    (ha : a = true → noStart ('<' :: m) (fmt t!"
<p:notesMasterIdLst>
<p:notesMasterId id=\"2147483650\" r:id=\"rId6\"/>
</p:notesMasterIdLst>") = true)
    (hb : b = true → noStart ('<' :: m) c!"
<p:handoutMasterIdLst>
<p:handoutMasterId id=\"2147483651\" r:id=\"rId" = true ∧ noStart ('<' :: m) c!"\"/>
</p:handoutMasterIdLst>" = true) :
    noStart ('<' :: m) (Editor.rebuiltPresentation n a b) = true := by
  unfold Editor.rebuiltPresentation
  refine noStart_append h1 ?_
  simp only [fmt_append]
  refine noStart_append (noStart_append (noStart_append (noStart_append (noStart_append h2 ?_) ?_) h4) ?_) h8
  · cases a
    · rfl
    · exact ha rfl
  · cases b
    · rfl
    · exact noStart_cons (hb rfl).1 (noStart_cons (noStart_dec _) (noStart_cons (hb rfl).2 rfl))
  · rw [fmt_flatMap]
    exact noStart_flatMap fun i _ => noStart_cons h5 (noStart_cons (noStart_dec _)
      (noStart_cons h6 (noStart_cons (noStart_dec _) (noStart_cons h7 rfl))))

set_option maxRecDepth 8000 in
theorem hasNotesList_rebuilt (n : Nat) (a b : Bool) :
    Editor.hasNotesList (Editor.rebuiltPresentation n a b) = a := by
  unfold Editor.hasNotesList
  cases a with
  | false =>
    exact containsStr_of_noStart (noStart_rebuilt (by decide) (by decide) (by decide) (by decide)
      (by decide) (by decide) (by decide) n _ _ (by simp) (fun _ => ⟨by decide, by decide⟩))
  | true =>
    unfold Editor.rebuiltPresentation
    simp only [fmt_append]
    refine containsStr_append (.inr ?_)
    refine containsStr_append (.inl (containsStr_append (.inl (containsStr_append (.inl
      (containsStr_append (.inl (containsStr_append (.inr ?_)))))))))
    decide

set_option maxRecDepth 8000 in
theorem hasHandoutList_rebuilt (n : Nat) (a b : Bool) :
    Editor.hasHandoutList (Editor.rebuiltPresentation n a b) = b := by
  unfold Editor.hasHandoutList
  cases b with
  | false =>
    exact containsStr_of_noStart (noStart_rebuilt (by decide) (by decide) (by decide) (by decide)
      (by decide) (by decide) (by decide) n _ _ (fun _ => by decide) (by simp))
  | true =>
    unfold Editor.rebuiltPresentation
    simp only [fmt_append]
    refine containsStr_append (.inr ?_)
    refine containsStr_append (.inl (containsStr_append (.inl (containsStr_append (.inl
      (containsStr_append (.inr ?_)))))))
    cases a <;> decide

/-! ### The rebuilt content types -/

/-- The `Override` element of a slide. -/
def slideOverrideNode (n : Nat) : Node :=
  E c!"Override" [(c!"PartName", c!"/ppt/slides/slide" ++ dec n ++ c!".xml"),
    (c!"ContentType", c!"application/vnd.openxmlformats-officedocument.presentationml.slide+xml")] []

theorem readsNodes_slideOverride (n : Nat) :
    ReadsNodes (Editor.slideOverride n) [nl, slideOverrideNode n] := by
  have e : c!"/ppt/slides/slide" ++ dec n ++ c!".xml"
      = c!"/ppt/slides/slide" ++ dec n ++ ['.'] ++ ['x'] ++ ['m'] ++ ['l'] := by simp
  unfold slideOverrideNode
  rw [e]
  exact (Splits.lit (by unfold Editor.slideOverride; parts_ok)).readsNodes (by krfl)

/-- An `Override` element. -/
def overrideNode (part type : Str) : Node := E c!"Override" [(c!"PartName", part), (c!"ContentType", type)] []

/-- The other `Override` elements. -/
def fixedOverrides : List Node :=
  [overrideNode c!"/ppt/slideLayouts/slideLayout1.xml" c!"application/vnd.openxmlformats-officedocument.presentationml.slideLayout+xml",
   overrideNode c!"/ppt/slideMasters/slideMaster1.xml" c!"application/vnd.openxmlformats-officedocument.presentationml.slideMaster+xml",
   overrideNode c!"/ppt/theme/theme1.xml" c!"application/vnd.openxmlformats-officedocument.theme+xml",
   overrideNode c!"/docProps/core.xml" c!"application/vnd.openxmlformats-package.core-properties+xml",
   overrideNode c!"/docProps/app.xml" c!"application/vnd.openxmlformats-officedocument.extended-properties+xml"]

/-- The document of the rebuilt content types. -/
def rebuiltTypesDoc (n : Nat) : List Node :=
  [E c!"Types" [(c!"xmlns", c!"http://schemas.openxmlformats.org/package/2006/content-types")]
    ([nl, E c!"Default" [(c!"Extension", c!"rels"), (c!"ContentType", c!"application/vnd.openxmlformats-package.relationships+xml")] [],
      nl, E c!"Default" [(c!"Extension", c!"xml"), (c!"ContentType", c!"application/xml")] [],
      nl, overrideNode c!"/ppt/presentation.xml" c!"application/vnd.openxmlformats-officedocument.presentationml.presentation.main+xml"]
     ++ (upTo n).flatMap (fun i => [nl, slideOverrideNode i]) ++ [nl] ++ [fixedOverrides[0]] ++ [nl]
     ++ [fixedOverrides[1]] ++ [nl] ++ [fixedOverrides[2]] ++ [nl] ++ [fixedOverrides[3]] ++ [nl]
     ++ [fixedOverrides[4]] ++ [nl])]

set_option maxRecDepth 8000 in
theorem document_rebuiltTypes (n : Nat) :
    document (Editor.rebuiltContentTypes n) = some (rebuiltTypesDoc n) := by
  unfold Editor.rebuiltContentTypes
  generalize hb : (t!"<Types xmlns=\"http://schemas.openxmlformats.org/package/2006/content-types\">
<Default Extension=\"rels\" ContentType=\"application/vnd.openxmlformats-package.relationships+xml\"/>
<Default Extension=\"xml\" ContentType=\"application/xml\"/>
<Override PartName=\"/ppt/presentation.xml\" ContentType=\"application/vnd.openxmlformats-officedocument.presentationml.presentation.main+xml\"/>" ++ _ ++ _) = body
  have e : document (xmlDecl ++ fmt body) = parse (fmt body) := by rw [← hb]; krfl
  rw [e, ← hb]
  exact parse_of_nodes (((Splits.lit (by parts_ok)).append
    (.nodes (readsNodes_flatMap (l := upTo n) fun i _ => readsNodes_slideOverride i))
    |>.append (.lit (by parts_ok))).readsNodes (by krfl))

/-- The content types after a structural edit. -/
theorem readTypes_rebuilt (n : Nat) :
    readTypes (Editor.rebuiltContentTypes n) = some (
      [(some c!"rels", some c!"application/vnd.openxmlformats-package.relationships+xml"),
       (some c!"xml", some c!"application/xml")],
      [(some c!"/ppt/presentation.xml", some c!"application/vnd.openxmlformats-officedocument.presentationml.presentation.main+xml")]
      ++ (upTo n).map (fun i => (some (c!"/ppt/slides/slide" ++ dec i ++ c!".xml"),
        some c!"application/vnd.openxmlformats-officedocument.presentationml.slide+xml"))
      ++ [(some c!"/ppt/slideLayouts/slideLayout1.xml", some c!"application/vnd.openxmlformats-officedocument.presentationml.slideLayout+xml"),
       (some c!"/ppt/slideMasters/slideMaster1.xml", some c!"application/vnd.openxmlformats-officedocument.presentationml.slideMaster+xml"),
       (some c!"/ppt/theme/theme1.xml", some c!"application/vnd.openxmlformats-officedocument.theme+xml"),
       (some c!"/docProps/core.xml", some c!"application/vnd.openxmlformats-package.core-properties+xml"),
       (some c!"/docProps/app.xml", some c!"application/vnd.openxmlformats-officedocument.extended-properties+xml")]) := by
  unfold readTypes
  rw [document_rebuiltTypes, Option.map_some]
  have e1 : elemsL c!"Override" ((upTo n).flatMap fun i => [nl, slideOverrideNode i])
      = (upTo n).map slideOverrideNode := by
    induction upTo n with
    | nil => rfl
    | cons i l ih => rw [List.flatMap_cons, elemsL_append, ih]; rfl
  have e2 : elemsL c!"Default" ((upTo n).flatMap fun i => [nl, slideOverrideNode i]) = [] := by
    induction upTo n with
    | nil => rfl
    | cons i l ih => rw [List.flatMap_cons, elemsL_append, ih]; rfl
  have o : elemsL c!"Override" (rebuiltTypesDoc n) =
      [overrideNode c!"/ppt/presentation.xml" c!"application/vnd.openxmlformats-officedocument.presentationml.presentation.main+xml"]
      ++ (upTo n).map slideOverrideNode ++ fixedOverrides := by
    rw [← e1]
    show elemsL _ (_ ++ _ ++ _ ++ _ ++ _ ++ _ ++ _ ++ _ ++ _ ++ _ ++ _ ++ _ ++ _) ++ [] = _
    simp only [elemsL_append, List.append_nil]
    simp [elemsL, elems, nl, overrideNode, fixedOverrides]
  have d : elemsL c!"Default" (rebuiltTypesDoc n) =
      [E c!"Default" [(c!"Extension", c!"rels"), (c!"ContentType", c!"application/vnd.openxmlformats-package.relationships+xml")] [],
       E c!"Default" [(c!"Extension", c!"xml"), (c!"ContentType", c!"application/xml")] []] := by
    show elemsL _ (_ ++ _ ++ _ ++ _ ++ _ ++ _ ++ _ ++ _ ++ _ ++ _ ++ _ ++ _ ++ _) ++ [] = _
    simp only [elemsL_append, List.append_nil, e2]
    simp [elemsL, elems, nl, overrideNode, fixedOverrides]
  rw [o, d, List.map_append, List.map_append, List.map_map]
  rfl

end PptRs
