import Verif.Props.Validate
import Verif.Lemmas.Scan

/-!
# C64: the validator's view of the presentation part
-/

namespace PptRs.Props

open PptRs.Spec PptRs.Validate

/-! ### The text of the presentation -/

/-- In front of the slide list. -/
def presentationHead (count : Nat) (notes handout : Bool) : List Part :=
  t!"<p:presentation xmlns:a=\"http://schemas.openxmlformats.org/drawingml/2006/main\" xmlns:r=\"http://schemas.openxmlformats.org/officeDocument/2006/relationships\" xmlns:p=\"http://schemas.openxmlformats.org/presentationml/2006/main\" saveSubsetFonts=\"1\" autoCompressPictures=\"0\">
<p:sldMasterIdLst>
<p:sldMasterId id=\"{.num slideMasterId}\" r:id=\"rId1\"/>
</p:sldMasterIdLst>"
    ++ whenSet notes t!"\n<p:notesMasterIdLst>\n<p:notesMasterId r:id=\"rId{.num (notesMasterRelId count)}\"/>\n</p:notesMasterIdLst>"
    ++ whenSet handout t!"\n<p:handoutMasterIdLst>\n<p:handoutMasterId r:id=\"rId{.num (handoutMasterRelId count notes)}\"/>\n</p:handoutMasterIdLst>"
    ++ t!"\n"

/-- From the end of the slide list to the end of the extension list, after the slide sizes. -/
def presentationRest : List Part :=
  t!"
<p:notesSz cx=\"6858000\" cy=\"9144000\"/>
" ++ defaultTextStyle
    ++ t!"<p:extLst><p:ext uri=\"\x7bEFAFB233-063F-42B5-8137-9DF3F51BA10A}\"><p15:sldGuideLst xmlns:p15=\"http://schemas.microsoft.com/office/powerpoint/2012/main\"/></p:ext></p:extLst>"

/-- The end of the slide list and the slide size. -/
def slideSizeText : Str := c!"\n</p:sldIdLst>\n<p:sldSz cx=\"9144000\" cy=\"6858000\" type=\"screen4x3\""

/-- One slide of the list, after `<p:sldId `. -/
def slideRefTail (i : Nat) : Str :=
  c!"id=\"" ++ dec (slideIdValue i) ++ c!"\" r:id=\"" ++ (c!"rId" ++ dec (slideRelId i)) ++ c!"\"/>"

set_option maxRecDepth 8000 in
theorem presentationTextWithFonts_eq (desc : Str → Str) (n : Nat) (a b : Bool) (fonts : List EmbeddedFont) :
    presentationTextWithFonts desc n a b fonts =
      xmlDecl ++ fmt (presentationHead n a b) ++ c!"<p:sldIdLst>" ++
      ((upTo n).flatMap fun i => c!"\n" ++ c!"<p:sldId " ++ slideRefTail i) ++
      (slideSizeText ++ c!"/>" ++ fmt presentationRest ++ fontListText desc fonts ++ c!"</p:presentation>") := by
  have e1 : fmt (t!"
</p:sldIdLst>
<p:sldSz cx=\"9144000\" cy=\"6858000\" type=\"screen4x3\"/>
<p:notesSz cx=\"6858000\" cy=\"9144000\"/>
") = slideSizeText ++ c!"/>" ++ fmt t!"
<p:notesSz cx=\"6858000\" cy=\"9144000\"/>
" := rfl
  have e2 : fmt (t!"<p:extLst><p:ext uri=\"\x7bEFAFB233-063F-42B5-8137-9DF3F51BA10A}\"><p15:sldGuideLst xmlns:p15=\"http://schemas.microsoft.com/office/powerpoint/2012/main\"/></p:ext></p:extLst></p:presentation>") =
      fmt t!"<p:extLst><p:ext uri=\"\x7bEFAFB233-063F-42B5-8137-9DF3F51BA10A}\"><p15:sldGuideLst xmlns:p15=\"http://schemas.microsoft.com/office/powerpoint/2012/main\"/></p:ext></p:extLst>" ++ c!"</p:presentation>" := rfl
  have e3 : fmt t!"\n<p:sldIdLst>" = fmt t!"\n" ++ c!"<p:sldIdLst>" := rfl
  have e4 : ∀ i, fmt (slideListEntry i) = c!"\n" ++ c!"<p:sldId " ++ slideRefTail i := by
    intro i
    have : fmt (slideListEntry i) = c!"\n<p:sldId id=\"" ++ (dec (slideIdValue i) ++ (c!"\" r:id=\"rId" ++
      (dec (slideRelId i) ++ c!"\"/>"))) := rfl
    rw [this, slideRefTail]
    simp only [List.append_assoc]
    rfl
  have e : presentationText n a b = (xmlDecl ++ fmt (presentationHead n a b) ++ c!"<p:sldIdLst>" ++
      ((upTo n).flatMap fun i => c!"\n" ++ c!"<p:sldId " ++ slideRefTail i) ++
      (slideSizeText ++ c!"/>" ++ fmt presentationRest)) ++ c!"</p:presentation>" := by
    unfold presentationText presentationHead presentationRest
    simp only [fmt_append, e1, e2, e3, fmt_flatMap, e4, List.append_assoc]
  unfold presentationTextWithFonts
  rw [e, stripSuffix?_append]
  have assoc : ∀ a b c d : Str, a ++ b ++ c ++ d = a ++ (b ++ c ++ d) := by intros; simp
  exact assoc _ _ _ _

set_option maxRecDepth 8000 in
/-- Deciding `noStart` for the head of the presentation. -/
theorem noStart_head {c : Char} {m : Str} (n : Nat) (a b : Bool) (hc : c.isDigit = false)
    (h1 : noStart (c :: m) (c!"<p:presentation xmlns:a=\"http://schemas.openxmlformats.org/drawingml/2006/main\" xmlns:r=\"http://schemas.openxmlformats.org/officeDocument/2006/relationships\" xmlns:p=\"http://schemas.openxmlformats.org/presentationml/2006/main\" saveSubsetFonts=\"1\" autoCompressPictures=\"0\">
<p:sldMasterIdLst>
<p:sldMasterId id=\"") = true)
    (h2 : noStart (c :: m) c!"\" r:id=\"rId1\"/>\n</p:sldMasterIdLst>" = true)
    (h3 : noStart (c :: m) c!"\n<p:notesMasterIdLst>\n<p:notesMasterId r:id=\"rId" = true)
    (h4 : noStart (c :: m) c!"\"/>\n</p:notesMasterIdLst>" = true)
    (h5 : noStart (c :: m) c!"\n<p:handoutMasterIdLst>\n<p:handoutMasterId r:id=\"rId" = true)
    (h6 : noStart (c :: m) c!"\"/>\n</p:handoutMasterIdLst>" = true)
    (h7 : noStart (c :: m) c!"\n" = true) :
    noStart (c :: m) (fmt (presentationHead n a b)) = true := by
  unfold presentationHead
  simp only [fmt_append]
  have hd : ∀ k, noStart (c :: m) (dec k) = true := fun k => noStart_of_notMem (not_mem_dec hc)
  refine noStart_append (noStart_append (noStart_append ?_ ?_) ?_) ?_
  · exact noStart_cons h1 (noStart_cons (hd _) (noStart_cons h2 rfl))
  · exact noStart_whenSet (noStart_cons h3 (noStart_cons (hd _) (noStart_cons h4 rfl)))
  · exact noStart_whenSet (noStart_cons h5 (noStart_cons (hd _) (noStart_cons h6 rfl)))
  · exact noStart_cons h7 rfl

/-- The texts the font list is made of. -/
def fontListPieces : List Str :=
  [c!"<p:embeddedFontLst>", c!"</p:embeddedFontLst>", c!"<p:embeddedFont><p:font typeface=\"", c!"\"", c!"/>",
   c!"</p:embeddedFont>", c!"<p:regular r:id=\"rId", c!"<p:bold r:id=\"rId", c!"<p:italic r:id=\"rId",
   c!"<p:boldItalic r:id=\"rId", c!"\"/>"]

/-- The fonts add nothing that looks like a mark that none of the pieces looks like. -/
theorem noStart_fontList {desc : Str → Str} {fonts : List EmbeddedFont} {m : Str}
    (hp : ∀ x ∈ fontListPieces, noStart ('<' :: m) x = true)
    (hd : ∀ f ∈ fonts, '<' ∉ desc f.typeface) (hid : ∀ f ∈ fonts, ∃ n, f.relationshipId = c!"rId" ++ dec n) :
    noStart ('<' :: m) (fontListText desc fonts) = true := by
  unfold fontListText
  split
  · rfl
  · simp only
    have hseen : ∀ (l : List EmbeddedFont) (seen : List Str), (∀ t ∈ seen, '<' ∉ desc t) →
        (∀ f ∈ l, '<' ∉ desc f.typeface) →
        ∀ t ∈ l.foldl (fun seen f => if seen.contains f.typeface then seen else seen ++ [f.typeface]) seen,
          '<' ∉ desc t := by
      intro l
      induction l with
      | nil => intro seen h _; exact h
      | cons f l ih =>
        intro seen h hl
        rw [List.foldl_cons]
        refine ih _ ?_ (fun f hf => hl f (by simp [hf]))
        split
        · exact h
        · intro t ht
          rw [List.mem_append, List.mem_singleton] at ht
          rcases ht with ht | rfl
          · exact h t ht
          · exact hl f (by simp)
    refine noStart_append (noStart_append (hp _ (by decide)) ?_) (hp _ (by decide))
    refine noStart_flatMap fun t ht => ?_
    have hdt := hseen fonts [] (by simp) hd t ht
    unfold fontGroupText
    refine noStart_append (noStart_append (noStart_append (noStart_append (noStart_append (noStart_append
      (hp _ (by decide)) (noStart_of_notMem fun h => (mem_escapeXml h).1 rfl)) (hp _ (by decide))) (noStart_of_notMem hdt))
      (hp _ (by decide))) ?_) (hp _ (by decide))
    refine noStart_flatMap fun f hf => ?_
    obtain ⟨n, e⟩ := hid f (List.mem_of_mem_filter hf)
    rw [e]
    have e2 : ∀ a b c d e f : Str, a ++ b ++ c ++ (d ++ e) ++ f = (a ++ b ++ c ++ d) ++ e ++ f := by intros; simp
    rw [e2]
    refine noStart_append (noStart_append ?_ (noStart_of_notMem (not_mem_dec (by decide)))) (hp _ (by decide))
    cases f.style <;> exact hp _ (by decide)

set_option maxRecDepth 8000 in
theorem noStart_tail {desc : Str → Str} {fonts : List EmbeddedFont} {m : Str}
    (hp : ∀ x ∈ fontListPieces, noStart ('<' :: m) x = true)
    (hr : noStart ('<' :: m) (fmt presentationRest) = true) (he : noStart ('<' :: m) c!"</p:presentation>" = true)
    (hd : ∀ f ∈ fonts, '<' ∉ desc f.typeface) (hid : ∀ f ∈ fonts, ∃ n, f.relationshipId = c!"rId" ++ dec n) :
    noStart ('<' :: m) (c!"/>" ++ fmt presentationRest ++ fontListText desc fonts ++ c!"</p:presentation>") = true :=
  noStart_append (noStart_append (noStart_append (hp _ (by decide)) hr) (noStart_fontList hp hd hid)) he

theorem noStart_weaken {m k s : Str} (h : noStart m s = true) : noStart (m ++ k) s = true := by
  have key : ∀ {m s : Str}, comparable (m ++ k) s = true → comparable m s = true := by
    intro m
    induction m with
    | nil => intro s _; rfl
    | cons x m ih =>
      intro s h
      cases s with
      | nil => rfl
      | cons y s =>
        simp only [List.cons_append, comparable] at h ⊢
        split
        · rename_i e; rw [if_pos e] at h; exact ih h
        · rename_i e; rw [if_neg e] at h; exact absurd h (by decide)
  induction s with
  | nil => rfl
  | cons c s ih =>
    simp only [noStart, Bool.and_eq_true, Bool.not_eq_true'] at h ⊢
    refine ⟨?_, ih h.2⟩
    by_contra hc
    have := key (by simpa using hc)
    rw [h.1] at this
    exact absurd this (by decide)

theorem noStart_slideRef (i : Nat) : noStart c!"<p:sldId" (slideRefTail i) = true := by
  unfold slideRefTail
  exact noStart_append (noStart_append (noStart_append (noStart_append (by decide) (noStart_dec _)) (by decide))
    (noStart_append (by decide) (noStart_dec _))) (by decide)

theorem upTo_length (n : Nat) : (upTo n).length = n := by simp [upTo]

theorem refs_length (l : List Nat) :
    l.length ≤ (l.flatMap fun i => c!"\n" ++ c!"<p:sldId " ++ slideRefTail i).length := by
  induction l with
  | nil => simp
  | cons x l ih =>
    simp only [List.flatMap_cons, List.length_append, List.length_cons, List.length_nil] at ih ⊢
    omega

/-- The parts of the text as variables. -/
theorem count_refs (head fin : Str) (n : Nat) (h1 : noStart c!"<p:sldId " head = true)
    (h2 : noStart c!"<p:sldId" fin = true) (hne : head ≠ []) :
    matchCount c!"<p:sldId " (head ++ ((upTo n).flatMap fun i => c!"\n" ++ c!"<p:sldId " ++ slideRefTail i) ++ fin) = n := by
  unfold matchCount
  have hf : noStart (c!"<p:sldId" ++ c!" ") fin = true := noStart_weaken h2
  have hlen : (upTo n).length < (head ++ ((upTo n).flatMap fun i => c!"\n" ++ c!"<p:sldId " ++ slideRefTail i) ++ fin).length := by
    have := refs_length (upTo n)
    have := List.length_pos_of_ne_nil hne
    rw [List.length_append, List.length_append]
    omega
  have := countMatches_list (c := '<') (m := c!"p:sldId ") (pre := fun _ => c!"\n") (post := slideRefTail) (upTo n) fin
    (fun _ _ => by decide) (fun i _ => noStart_weaken (m := c!"<p:sldId") (k := c!" ") (noStart_slideRef i))
    _ head hlen h1 (fun start h => containsStr_of_noStart (noStart_append h hf))
  rwa [upTo_length] at this

/-- The presentation before and after the slides. -/
def presentationBefore (n : Nat) (a b : Bool) : Str := xmlDecl ++ fmt (presentationHead n a b)
def presentationAfter (desc : Str → Str) (fonts : List EmbeddedFont) : Str :=
  c!"/>" ++ fmt presentationRest ++ fontListText desc fonts ++ c!"</p:presentation>"

theorem presentation_parts (desc : Str → Str) (n : Nat) (a b : Bool) (fonts : List EmbeddedFont) :
    presentationTextWithFonts desc n a b fonts =
      (presentationBefore n a b ++ c!"<p:sldIdLst>") ++
      ((upTo n).flatMap fun i => c!"\n" ++ c!"<p:sldId " ++ slideRefTail i) ++
      (slideSizeText ++ presentationAfter desc fonts) := by
  rw [presentationTextWithFonts_eq, presentationBefore, presentationAfter]
  generalize fmt presentationRest = x
  generalize fontListText desc fonts = y
  generalize slideSizeText = z
  simp only [List.append_assoc]

theorem presentationAfter_eq (desc : Str → Str) (fonts : List EmbeddedFont) : presentationAfter desc fonts =
    c!"/>" ++ (fmt presentationRest ++ fontListText desc fonts ++ c!"</p:presentation>") := by
  unfold presentationAfter
  generalize fmt presentationRest = x
  simp only [List.append_assoc]

set_option maxRecDepth 8000 in
theorem noStart_before {c : Char} {m : Str} (n : Nat) (a b : Bool) (h0 : noStart (c :: m) xmlDecl = true)
    (hc : c.isDigit = false)
    (h1 : noStart (c :: m) (c!"<p:presentation xmlns:a=\"http://schemas.openxmlformats.org/drawingml/2006/main\" xmlns:r=\"http://schemas.openxmlformats.org/officeDocument/2006/relationships\" xmlns:p=\"http://schemas.openxmlformats.org/presentationml/2006/main\" saveSubsetFonts=\"1\" autoCompressPictures=\"0\">
<p:sldMasterIdLst>
<p:sldMasterId id=\"") = true)
    (h2 : noStart (c :: m) c!"\" r:id=\"rId1\"/>\n</p:sldMasterIdLst>" = true)
    (h3 : noStart (c :: m) c!"\n<p:notesMasterIdLst>\n<p:notesMasterId r:id=\"rId" = true)
    (h4 : noStart (c :: m) c!"\"/>\n</p:notesMasterIdLst>" = true)
    (h5 : noStart (c :: m) c!"\n<p:handoutMasterIdLst>\n<p:handoutMasterId r:id=\"rId" = true)
    (h6 : noStart (c :: m) c!"\"/>\n</p:handoutMasterIdLst>" = true)
    (h7 : noStart (c :: m) c!"\n" = true) : noStart (c :: m) (presentationBefore n a b) = true :=
  noStart_append h0 (noStart_head n a b hc h1 h2 h3 h4 h5 h6 h7)

set_option maxRecDepth 8000 in
/-- How many slides the validator counts. -/
theorem count_presentation {desc : Str → Str} {fonts : List EmbeddedFont} (n : Nat) (a b : Bool)
    (hd : ∀ f ∈ fonts, '<' ∉ desc f.typeface) (hid : ∀ f ∈ fonts, ∃ n, f.relationshipId = c!"rId" ++ dec n) :
    matchCount c!"<p:sldId " (presentationTextWithFonts desc n a b fonts) = n := by
  rw [presentation_parts]
  refine count_refs _ _ n (noStart_append (noStart_before n a b (by decide) (by decide) (by decide) (by decide) (by decide)
      (by decide) (by decide) (by decide) (by decide)) (by decide)) ?_ (by simp)
  exact noStart_append (by decide) (noStart_tail (by decide) (by decide +kernel) (by decide) hd hid)

/-- The attributes of a slide of the list in front of its relationship id. -/
def slideRefFront (i : Nat) : Str := c!" id=\"" ++ dec (slideIdValue i) ++ c!"\" "

def slideRefId (i : Nat) : Str := c!"rId" ++ dec (slideRelId i)

theorem slideRef_form (i : Nat) : c!"\n" ++ c!"<p:sldId " ++ slideRefTail i =
    c!"\n" ++ ('<' :: c!"p:sldId") ++ (slideRefFront i ++ (c!"r:id" ++ c!"=\"") ++ (slideRefId i ++ '"' :: [])) ++ c!"/>" := by
  unfold slideRefTail slideRefFront slideRefId
  generalize dec (slideIdValue i) = x
  generalize dec (slideRelId i) = y
  simp

theorem noStart_dec' {c : Char} {m : Str} (n : Nat) (hc : c.isDigit = false) : noStart (c :: m) (dec n) = true :=
  noStart_of_notMem (not_mem_dec hc)

theorem noStart_slideRef_close (i : Nat) : noStart c!"/>"
    (slideRefFront i ++ (c!"r:id" ++ c!"=\"") ++ (slideRefId i ++ '"' :: [])) = true :=
  noStart_append (noStart_append (noStart_append (noStart_append (by decide) (noStart_dec' _ (by decide))) (by decide))
    (by decide)) (noStart_append (noStart_append (by decide) (noStart_dec' _ (by decide))) (by decide))

theorem noStart_slideRef_attr (i : Nat) : noStart (c!"r:id" ++ c!"=\"") (slideRefFront i) = true :=
  noStart_append (noStart_append (by decide) (noStart_dec' _ (by decide))) (by decide)

/-- The relationship ids the validator finds in a list of slides. -/
theorem extract_refs (head fin : Str) (l : List Nat) (h1 : noStart ('<' :: c!"p:sldId") head = true)
    (h2 : noStart ('<' :: c!"p:sldId") (c!"/>" ++ fin) = true) (fuel : Nat) (hf : l.length < fuel) :
    extractLoop c!"p:sldId" c!"r:id" (fuel + 1) ((head ++ c!"<p:sldIdLst>") ++
      (l.flatMap fun i => c!"\n" ++ c!"<p:sldId " ++ slideRefTail i) ++ (slideSizeText ++ (c!"/>" ++ fin))) =
    l.map slideRefId := by
  simp only [slideRef_form]
  cases l with
  | nil =>
    have e : (head ++ c!"<p:sldIdLst>") ++ (([] : List Nat).flatMap fun i => c!"\n" ++ ('<' :: c!"p:sldId") ++
        (slideRefFront i ++ (c!"r:id" ++ c!"=\"") ++ (slideRefId i ++ '"' :: [])) ++ c!"/>") ++
        (slideSizeText ++ (c!"/>" ++ fin)) = head ++ ('<' :: c!"p:sldId") ++ ((c!"Lst>" ++ slideSizeText) ++ c!"/>" ++ fin) := by
      simp
    rw [e, extractLoop_cons fuel h1 (by decide), extractLoop_none _ (containsStr_of_noStart h2)]
    rw [List.append_nil]
    exact attrIn_none (by decide)
  | cons i l =>
    have e : (head ++ c!"<p:sldIdLst>") ++ ((i :: l).flatMap fun i => c!"\n" ++ ('<' :: c!"p:sldId") ++
        (slideRefFront i ++ (c!"r:id" ++ c!"=\"") ++ (slideRefId i ++ '"' :: [])) ++ c!"/>") ++
        (slideSizeText ++ (c!"/>" ++ fin)) = head ++ ('<' :: c!"p:sldId") ++
        ((c!"Lst>\n<p:sldId" ++ (slideRefFront i ++ (c!"r:id" ++ c!"=\"") ++ (slideRefId i ++ '"' :: []))) ++ c!"/>" ++
          ((l.flatMap fun i => c!"\n" ++ ('<' :: c!"p:sldId") ++
        (slideRefFront i ++ (c!"r:id" ++ c!"=\"") ++ (slideRefId i ++ '"' :: [])) ++ c!"/>") ++
        (slideSizeText ++ (c!"/>" ++ fin)))) := by
      simp
    have h3 : noStart c!"/>" ('<' :: c!"p:sldId" ++ (c!"Lst>\n<p:sldId" ++
        (slideRefFront i ++ (c!"r:id" ++ c!"=\"") ++ (slideRefId i ++ '"' :: [])))) = true :=
      noStart_append (by decide) (noStart_append (by decide) (noStart_slideRef_close i))
    rw [e, extractLoop_cons fuel h1 h3]
    have e2 : '<' :: c!"p:sldId" ++ (c!"Lst>\n<p:sldId" ++
        (slideRefFront i ++ (c!"r:id" ++ c!"=\"") ++ (slideRefId i ++ '"' :: []))) =
        (c!"<p:sldIdLst>\n<p:sldId" ++ slideRefFront i) ++ (c!"r:id" ++ c!"=\"") ++ (slideRefId i ++ '"' :: []) := by
      simp
    have h5 : noStart (c!"r:id" ++ c!"=\"") (c!"<p:sldIdLst>\n<p:sldId" ++ slideRefFront i) = true :=
      noStart_append (by decide) (noStart_slideRef_attr i)
    have h6 : '"' ∉ slideRefId i := quote_notMem_rid _
    rw [e2, attrIn_of h5 h6 (by decide), List.map_cons, List.singleton_append]
    congr 1
    have h4 : noStart ('<' :: c!"p:sldId") (slideSizeText ++ (c!"/>" ++ fin)) = true := noStart_append (by decide) h2
    have := extractLoop_list (element := c!"p:sldId") (attr := c!"r:id") (pre := fun _ => c!"\n") (before := slideRefFront)
      (value := slideRefId) (rest' := fun _ => []) l (slideSizeText ++ (c!"/>" ++ fin))
      (containsStr_of_noStart h4) (fun _ _ => by decide)
      (fun i _ => noStart_append (by decide) (noStart_slideRef_close i))
      (fun i _ => noStart_append (by decide) (noStart_slideRef_attr i))
      (fun i _ => quote_notMem_rid _) (by decide) fuel c!"/>" (by simp at hf; omega) (by decide)
      (containsStr_of_noStart (noStart_append (by decide) h4))
    rw [← List.append_assoc]
    exact this

set_option maxRecDepth 8000 in
/-- The slides the validator finds. -/
theorem extract_presentation {desc : Str → Str} {fonts : List EmbeddedFont} (n : Nat) (a b : Bool)
    (hd : ∀ f ∈ fonts, '<' ∉ desc f.typeface) (hid : ∀ f ∈ fonts, ∃ n, f.relationshipId = c!"rId" ++ dec n) :
    extractAttrValues (presentationTextWithFonts desc n a b fonts) c!"p:sldId" c!"r:id" = (upTo n).map slideRefId := by
  unfold extractAttrValues
  have hlen : (upTo n).length < (presentationTextWithFonts desc n a b fonts).length := by
    rw [presentation_parts]
    have := refs_length (upTo n)
    simp only [List.length_append, List.length_cons, List.length_nil] at this ⊢
    omega
  have h := extract_refs (presentationBefore n a b) (fmt presentationRest ++ fontListText desc fonts ++ c!"</p:presentation>")
    (upTo n) (noStart_before n a b (by decide) (by decide) (by decide) (by decide) (by decide) (by decide) (by decide)
      (by decide) (by decide)) (by rw [← presentationAfter_eq]; exact noStart_tail (by decide) (by decide +kernel) (by decide) hd hid) _ hlen
  rw [← h, ← presentationAfter_eq, ← presentation_parts]

/-! ### The relationships of the presentation -/

theorem lastById_of {l : List RelEntry} {base : Str} {r : RelEntry} (hn : (l.map (·.id)).Nodup) (hr : r ∈ l) :
    lastById (l.map (RelEntry.scanned base)) r.id = some (r.scanned base) := by
  unfold lastById
  have hn' : (l.reverse.map (·.id)).Nodup := by
    rw [List.map_reverse]; exact List.nodup_reverse.mpr hn
  have hr' : r ∈ l.reverse := List.mem_reverse.mpr hr
  rw [← List.map_reverse]
  generalize l.reverse = k at hn' hr'
  induction k with
  | nil => simp at hr'
  | cons x k ih =>
    rw [List.map_cons, List.nodup_cons] at hn'
    rcases List.mem_cons.mp hr' with rfl | hm
    · simp [RelEntry.scanned]
    · have : x.id ≠ r.id := fun e => hn'.1 (e ▸ List.mem_map_of_mem hm)
      rw [List.map_cons, List.find?_cons_of_neg (by simp [RelEntry.scanned, this])]
      exact ih hn'.2 hm

/-- The text in which the validator looks for the order of the relationships. -/
def orderLine (r : RelEntry) : Str := c!"Id=\"" ++ r.id ++ c!"\" Target=\"" ++ r.target ++ c!"\""

theorem noStart_orderLine {c : Char} {m : Str} {n : Nat} {ty t : Str} (hc : c.isDigit = false)
    (h1 : noStart (c :: m) c!" Id=\"rId" = true) (h2 : noStart (c :: m) c!"\" Target=\"" = true)
    (h3 : noStart (c :: m) (t ++ c!"\"") = true) : noStart (c :: m) (c!" " ++ orderLine (rel n ty t)) = true := by
  have e : c!" " ++ orderLine (rel n ty t) = c!" Id=\"rId" ++ dec n ++ c!"\" Target=\"" ++ (t ++ c!"\"") := by
    simp [orderLine, rel]
  rw [e]
  exact noStart_append (noStart_append (noStart_append h1 (noStart_dec' _ hc)) h2) h3

/-- The relationships up to the theme. -/
def relsToTheme (n : Nat) (a b : Bool) : List RelEntry :=
  (upTo n).map (fun i => rel (slideRelId i) c!"slide" (c!"slides/slide" ++ dec i ++ c!".xml")) ++
  (if a then [rel (notesMasterRelId n) c!"notesMaster" c!"notesMasters/notesMaster1.xml"] else []) ++
  (if b then [rel (handoutMasterRelId n a) c!"handoutMaster" c!"handoutMasters/handoutMaster1.xml"] else []) ++
  [rel (presPropsRelId n a b) c!"presProps" c!"presProps.xml",
   rel (viewPropsRelId n a b) c!"viewProps" c!"viewProps.xml",
   rel (themeRelId n a b) c!"theme" c!"theme/theme1.xml"]

theorem presentationRels_cut (n : Nat) (a b : Bool) (fonts : List EmbeddedFont) :
    presentationRelsWithFonts n a b fonts = rel 1 c!"slideMaster" c!"slideMasters/slideMaster1.xml" ::
      (relsToTheme n a b ++ (rel (tableStylesRelId n a b) c!"tableStyles" c!"tableStyles.xml" :: fonts.map fontRel)) := by
  simp [presentationRelsWithFonts, presentationRels, relsToTheme]

/-- **C64**: the relationships of the presentation are in the order the validator expects. -/
theorem order_ok (n : Nat) (a b : Bool) (fonts : List EmbeddedFont) (base : Str)
    (hf : ∀ f ∈ fonts, '/' ∉ f.fileName ∧ f.typeface.any needsEscape = false)
    (hid : ∀ f ∈ fonts, ∃ n, f.relationshipId = c!"rId" ++ dec n) :
    checkRelOrder ((presentationRelsWithFonts n a b fonts).map (RelEntry.scanned base)) = [] := by
  have ej : joinStr c!" " (((presentationRelsWithFonts n a b fonts).map (RelEntry.scanned base)).map
      fun r => c!"Id=\"" ++ r.id ++ c!"\" Target=\"" ++ r.target ++ c!"\"") =
      c!"Id=\"rId1\" Target=\"slideMasters/slideMaster1.xml\"" ++
        ((relsToTheme n a b).flatMap fun r => c!" " ++ orderLine r) ++
        ((rel (tableStylesRelId n a b) c!"tableStyles" c!"tableStyles.xml" :: fonts.map fontRel).flatMap
          fun r => c!" " ++ orderLine r) := by
    rw [presentationRels_cut, List.map_map, List.map_cons, joinStr_cons, List.flatMap_map, List.flatMap_append,
      List.append_assoc]
    rfl
  unfold checkRelOrder
  simp only
  rw [ej]
  have h1 : containsStr c!"Id=\"rId1\"" (c!"Id=\"rId1\" Target=\"slideMasters/slideMaster1.xml\"" ++
        ((relsToTheme n a b).flatMap fun r => c!" " ++ orderLine r) ++
        ((rel (tableStylesRelId n a b) c!"tableStyles" c!"tableStyles.xml" :: fonts.map fontRel).flatMap
          fun r => c!" " ++ orderLine r)) = true :=
    containsStr_append (.inl (containsStr_append (.inl (by decide))))
  have h2 : containsStr c!"slideMaster" (c!"Id=\"rId1\" Target=\"slideMasters/slideMaster1.xml\"" ++
        ((relsToTheme n a b).flatMap fun r => c!" " ++ orderLine r) ++
        ((rel (tableStylesRelId n a b) c!"tableStyles" c!"tableStyles.xml" :: fonts.map fontRel).flatMap
          fun r => c!" " ++ orderLine r)) = true :=
    containsStr_append (.inl (containsStr_append (.inl (by decide))))
  rw [h1, h2]
  have h3 : after (findAt c!"theme/theme1" (c!"Id=\"rId1\" Target=\"slideMasters/slideMaster1.xml\"" ++
        ((relsToTheme n a b).flatMap fun r => c!" " ++ orderLine r) ++
        ((rel (tableStylesRelId n a b) c!"tableStyles" c!"tableStyles.xml" :: fonts.map fontRel).flatMap
          fun r => c!" " ++ orderLine r)))
      (findAt c!"tableStyles" (c!"Id=\"rId1\" Target=\"slideMasters/slideMaster1.xml\"" ++
        ((relsToTheme n a b).flatMap fun r => c!" " ++ orderLine r) ++
        ((rel (tableStylesRelId n a b) c!"tableStyles" c!"tableStyles.xml" :: fonts.map fontRel).flatMap
          fun r => c!" " ++ orderLine r))) = false := by
    refine after_false (c := 't') (m := c!"ableStyles") rfl ?_ ?_
    · refine containsStr_append (.inr (containsStr_of_mem
        (a := rel (themeRelId n a b) c!"theme" c!"theme/theme1.xml") (by simp [relsToTheme]) ?_))
      exact containsStr_iff.mpr ⟨c!" Id=\"rId" ++ dec (themeRelId n a b) ++ c!"\" Target=\"", c!".xml\"", by simp [orderLine, rel]⟩
    · refine noStart_append (by decide) (noStart_flatMap fun r hr => ?_)
      simp only [relsToTheme, List.mem_append, List.mem_map, List.mem_cons, List.not_mem_nil, or_false] at hr
      rcases hr with ((⟨i, _, rfl⟩ | hr) | hr) | rfl | rfl | rfl
      · refine noStart_orderLine (by decide) (by decide) (by decide) ?_
        exact noStart_append (noStart_append (noStart_append (by decide) (noStart_dec' _ (by decide))) (by decide)) (by decide)
      · split at hr
        · rw [List.mem_singleton] at hr; subst hr
          exact noStart_orderLine (by decide) (by decide) (by decide) (by decide)
        · simp at hr
      · split at hr
        · rw [List.mem_singleton] at hr; subst hr
          exact noStart_orderLine (by decide) (by decide) (by decide) (by decide)
        · simp at hr
      · exact noStart_orderLine (by decide) (by decide) (by decide) (by decide)
      · exact noStart_orderLine (by decide) (by decide) (by decide) (by decide)
      · exact noStart_orderLine (by decide) (by decide) (by decide) (by decide)
  have h4 : after (findAt c!"slides/slide" (c!"Id=\"rId1\" Target=\"slideMasters/slideMaster1.xml\"" ++
        ((relsToTheme n a b).flatMap fun r => c!" " ++ orderLine r) ++
        ((rel (tableStylesRelId n a b) c!"tableStyles" c!"tableStyles.xml" :: fonts.map fontRel).flatMap
          fun r => c!" " ++ orderLine r)))
      (findAt c!"presProps" (c!"Id=\"rId1\" Target=\"slideMasters/slideMaster1.xml\"" ++
        ((relsToTheme n a b).flatMap fun r => c!" " ++ orderLine r) ++
        ((rel (tableStylesRelId n a b) c!"tableStyles" c!"tableStyles.xml" :: fonts.map fontRel).flatMap
          fun r => c!" " ++ orderLine r))) = false := by
    cases n with
    | zero =>
      rw [findAt_none]
      · rfl
      refine containsStr_of_noStart (noStart_append (noStart_append (by decide) (noStart_flatMap fun r hr => ?_))
        (noStart_flatMap fun r hr => ?_))
      · simp only [relsToTheme, upTo, List.range_zero, List.map_nil, List.nil_append, List.mem_append, List.mem_cons,
          List.not_mem_nil, or_false] at hr
        rcases hr with (hr | hr) | rfl | rfl | rfl
        · split at hr
          · rw [List.mem_singleton] at hr; subst hr
            exact noStart_orderLine (by decide) (by decide) (by decide) (by decide)
          · simp at hr
        · split at hr
          · rw [List.mem_singleton] at hr; subst hr
            exact noStart_orderLine (by decide) (by decide) (by decide) (by decide)
          · simp at hr
        · exact noStart_orderLine (by decide) (by decide) (by decide) (by decide)
        · exact noStart_orderLine (by decide) (by decide) (by decide) (by decide)
        · exact noStart_orderLine (by decide) (by decide) (by decide) (by decide)
      · rcases List.mem_cons.mp hr with rfl | hr
        · exact noStart_orderLine (by decide) (by decide) (by decide) (by decide)
        · obtain ⟨f, hfm, rfl⟩ := List.mem_map.mp hr
          obtain ⟨k, e⟩ := hid f hfm
          obtain ⟨hs, hp⟩ := hf f hfm
          have : fontRel f = rel k c!"font" (c!"fonts/" ++ f.fileName) := by
            rw [fontRel, escape_plain (fileName_noEscape hp), e]
            rfl
          rw [this]
          refine noStart_orderLine (by decide) (by decide) (by decide) ?_
          rw [List.append_assoc]
          exact noStart_append (by decide) (noStart_of_end (m1 := c!"slides") (m2 := c!"slide") hs (by decide) (by decide))
    | succ n =>
      have e : relsToTheme (n + 1) a b = rel 2 c!"slide" c!"slides/slide1.xml" :: (relsToTheme (n + 1) a b).tail := by
        simp only [relsToTheme, upTo, List.range_succ_eq_map, List.map_cons, List.cons_append, List.tail_cons]
        rfl
      rw [e, List.flatMap_cons]
      have e2 : ∀ x y z w : Str, x ++ (y ++ z) ++ w = (x ++ y) ++ (z ++ w) := by intros; simp
      rw [e2]
      exact after_false (c := 'p') (m := c!"resProps") rfl (by decide) (by decide)
  rw [h3, h4]
  rfl

/-! ### The slides of the package -/

def isSlideName : PartName → Bool
  | .slide _ => true
  | _ => false

theorem isSlidePart_path {p : PartName} (h : ∀ t, p ≠ .templatePart t) : isSlidePart p.path = isSlideName p := by
  cases p
  case templatePart t => exact absurd rfl (h t)
  case slide n =>
    have h1 : endsWith c!".xml" (c!"ppt/slides/slide" ++ dec n ++ c!".xml") = true := by
      rw [endsWith, List.isSuffixOf_iff_suffix]
      exact List.suffix_append _ _
    have h2 : containsStr c!"/_rels/" (c!"ppt/slides/slide" ++ dec n ++ c!".xml") = false :=
      containsStr_end (p1 := c!"/") (q := '_') (p2 := c!"rels/") (by
        simp [not_mem_dec (c := '_') (n := n) (by decide)])
    have h3 : startsWith c!"ppt/slides/slide" (c!"ppt/slides/slide" ++ dec n ++ c!".xml") = true := by
      rw [List.append_assoc]; simp [startsWith]
    simp only [isSlidePart, PartName.path, isSlideName, h1, h2, h3]
    rfl
  all_goals simp [isSlidePart, PartName.path, isSlideName, startsWith]

theorem slides_counted (d : Deck) (st : BuildSettings) (h : st.template = none) (desc : Str → Str) (texts : PartTexts) :
    ((packageArchive d st desc texts).filter fun e => isSlidePart e.1).length = d.count := by
  have e : ((packageArchive d st desc texts).filter fun e => isSlidePart e.1).length =
      ((names (buildPackage d st)).filter fun p => isSlidePart p.path).length := by
    simp only [packageArchive, names, List.filter_map, List.length_map]
    rfl
  rw [e, ((C31_exact_parts d st h).filter _).length_eq]
  have hx : (expectedParts d st).filter (fun p => isSlidePart p.path) = (expectedParts d st).filter isSlideName := by
    refine List.filter_congr fun p hp => isSlidePart_path fun t e => ?_
    subst e
    exact (expectedParts_own d st _ hp).elim
  rw [hx]
  have hmap : ∀ {α : Type} (l : List α) (c : α → PartName), (∀ n, isSlideName (c n) = false) →
      (l.map c).filter isSlideName = [] := by
    intro α l c hc
    rw [List.filter_eq_nil_iff]
    intro p hp
    obtain ⟨x, _, rfl⟩ := List.mem_map.mp hp
    simp [hc]
  have hslide : ((List.range' 1 d.count).map PartName.slide).filter isSlideName = (List.range' 1 d.count).map PartName.slide := by
    rw [List.filter_eq_self]
    intro p hp
    obtain ⟨x, _, rfl⟩ := List.mem_map.mp hp
    rfl
  have hmedia : (mediaParts (distinctImages d.slides)).filter isSlideName = [] := by
    rw [List.filter_eq_nil_iff]
    intro p hp
    simp only [mediaParts, List.mem_map, List.mem_zipIdx_iff_getElem?] at hp
    obtain ⟨x, _, rfl⟩ := hp
    simp [isSlideName]
  have h1 : (if numNotes d.slides = 0 then [] else [.notesMaster, .notesMasterRels, .theme 2]).filter isSlideName = [] := by
    split <;> rfl
  have h2 : (if st.handout then [.handoutMaster, .handoutRels, .theme 3] else []).filter isSlideName = [] := by
    split <;> rfl
  have h3 : (if st.signature then [.sigOrigin, .sig] else []).filter isSlideName = [] := by split <;> rfl
  unfold expectedParts
  simp only [List.filter_append, hslide, hmedia, h1, h2, h3, hmap _ _ (fun _ => (rfl : isSlideName (.layout _) = false)),
    hmap _ _ (fun _ => (rfl : isSlideName (.layoutRels _) = false)),
    hmap _ _ (fun _ => (rfl : isSlideName (.slideRels _) = false)),
    hmap _ _ (fun _ => (rfl : isSlideName (.notes _) = false)),
    hmap _ _ (fun _ => (rfl : isSlideName (.notesRels _) = false)),
    hmap _ _ (fun _ => (rfl : isSlideName (.chart _) = false)),
    hmap _ _ (fun _ => (rfl : isSlideName (.chartRels _) = false)),
    hmap _ _ (fun _ => (rfl : isSlideName (.embedding _) = false)),
    hmap _ _ (fun _ => (rfl : isSlideName (.ink _) = false)),
    hmap _ (fun f : EmbeddedFont => PartName.font f.fileName) (fun _ => rfl), List.append_nil]
  rw [List.length_append, List.length_map, List.length_range']
  simp [List.filter, isSlideName]

/-! ### The check -/

/-- **C64**: the check of the presentation finds nothing wrong with a generated deck. -/
theorem C64_presentation_partial (d : Deck) (st : BuildSettings) (h : DeckOk d st) (desc : Str → Str)
    (hd : ∀ f ∈ st.fonts.getD [], '<' ∉ desc f.typeface) (texts : PartTexts) :
    checkPresentationStructure (packageArchive d st desc texts) = [] := by
  have key : ∀ p, p ∈ expectedParts d st → ∃ b, (⟨p, b⟩ : Entry) ∈ buildPackage d st := fun p hp =>
    exists_entry (by rwa [mem_names h.links.template])
  obtain ⟨b1, hpres⟩ := key .presentation (by simp [expectedParts])
  obtain ⟨b2, hrels⟩ := key .presRels (by simp [expectedParts])
  have e1 := bodyOk d st _ hpres
  have e2 := bodyOk d st _ hrels
  simp only [BodyOk] at e1 e2
  subst e1 e2
  have hfont : ∀ f ∈ fontsOf d st, (∃ n, f.relationshipId = c!"rId" ++ dec n) ∧ ∃ g ∈ st.fonts.getD [],
      f.typeface = g.typeface ∧ f.fileName = g.fileName := by
    intro f hf
    rw [fontsOf_eq, assignFontIds] at hf
    exact ⟨mem_assign_id h.fontIds hf, mem_assign hf⟩
  have hd' : ∀ f ∈ fontsOf d st, '<' ∉ desc f.typeface := by
    intro f hf
    obtain ⟨_, g, hg, e, _⟩ := hfont f hf
    rw [e]; exact hd g hg
  have hid : ∀ f ∈ fontsOf d st, ∃ n, f.relationshipId = c!"rId" ++ dec n := fun f hf => (hfont f hf).1
  have hpt : readPart (packageArchive d st desc texts) c!"ppt/presentation.xml" =
      some (presentationTextWithFonts desc d.count (hasNotes d.slides) st.handout (fontsOf d st)) :=
    readPart_archive h desc texts hpres
  have hrl := relationships_archive h desc texts hrels rfl
  rw [show PartName.presRels.path = c!"ppt/_rels/presentation.xml.rels" from rfl,
    show relsSourceDir c!"ppt/_rels/presentation.xml.rels" = c!"ppt" by decide] at hrl
  unfold checkPresentationStructure
  rw [hpt]
  simp only
  rw [hrl, count_presentation _ _ _ hd' hid, extract_presentation _ _ _ hd' hid, slides_counted d st h.links.template]
  have hfirst : checkFirstSlide (presentationTextWithFonts desc d.count (hasNotes d.slides) st.handout (fontsOf d st))
      d.count = [] := by
    unfold checkFirstSlide
    split
    · rename_i hpos
      have h1 : 1 ∈ upTo d.count := by rw [upTo_eq]; simp; omega
      have hin : ∀ m, containsStr m (c!"\n" ++ c!"<p:sldId " ++ slideRefTail 1) = true →
          containsStr m (presentationTextWithFonts desc d.count (hasNotes d.slides) st.handout (fontsOf d st)) = true := by
        intro m hm
        rw [presentation_parts]
        exact containsStr_append (.inl (containsStr_append (.inr (containsStr_of_mem h1 hm))))
      rw [hin c!"id=\"256\"" (by decide), hin c!"r:id=\"rId2\"" (by decide)]
      simp [issueIf]
    · rfl
  have hlead : ∀ i ∈ upTo d.count, leadsInto ((presentationRelsWithFonts d.count (hasNotes d.slides) st.handout
      ((prepareFonts st d.count (hasNotes d.slides)).getD [])).map (RelEntry.scanned c!"ppt")) c!"/slides/slide"
      (slideRefId i) = true := by
    intro i hi
    have hm : rel (slideRelId i) c!"slide" (c!"slides/slide" ++ dec i ++ c!".xml") ∈
        presentationRelsWithFonts d.count (hasNotes d.slides) st.handout
          ((prepareFonts st d.count (hasNotes d.slides)).getD []) := by
      simp only [presentationRelsWithFonts, presentationRels, List.mem_append, List.mem_map]
      exact .inl (.inl (.inl (.inl (.inr ⟨i, hi, rfl⟩))))
    have hn := C08_ids_distinct d st h.fontIds _ hrels
    have := lastById_of (base := c!"ppt") hn hm
    unfold leadsInto
    rw [show slideRefId i = (rel (slideRelId i) c!"slide" (c!"slides/slide" ++ dec i ++ c!".xml")).id from rfl, this]
    simp only
    have hs := scanned_leads (p := .presRels) (relOk_of_mem h hrels _ hm) rfl (leadsTo_slide (slideRelId i) i)
    rw [show relsSourceDir PartName.presRels.path = c!"ppt" by decide] at hs
    rw [hs]
    exact containsStr_iff.mpr ⟨c!"ppt", dec i ++ c!".xml", by simp [PartName.path]⟩
  have horder := order_ok d.count (hasNotes d.slides) st.handout (fontsOf d st) c!"ppt" (by
    intro f hf
    obtain ⟨_, g, hg, e, e'⟩ := hfont f hf
    exact ⟨e' ▸ slash_notMem_fileName (h.links.fonts g hg), e ▸ h.typefaces g hg⟩) hid
  have hl : ((upTo d.count).map slideRefId).flatMap (fun id => issueIf (!leadsInto
      ((presentationRelsWithFonts d.count (hasNotes d.slides) st.handout
      ((prepareFonts st d.count (hasNotes d.slides)).getD [])).map (RelEntry.scanned c!"ppt")) c!"/slides/slide" id)
      .presentation c!"ppt/presentation.xml") = [] := by
    rw [List.flatMap_eq_nil_iff]
    intro id hid
    obtain ⟨i, hi, rfl⟩ := List.mem_map.mp hid
    rw [hlead i hi]
    rfl
  rw [hfirst, hl]
  have : checkRelOrder ((presentationRelsWithFonts d.count (hasNotes d.slides) st.handout
      ((prepareFonts st d.count (hasNotes d.slides)).getD [])).map (RelEntry.scanned c!"ppt")) = [] := horder
  rw [this]
  simp [issueIf]

end PptRs.Props
