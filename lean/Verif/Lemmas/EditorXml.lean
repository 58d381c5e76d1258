import Verif.Lemmas.Editor
import Verif.Lemmas.SlideText
import Verif.Lemmas.Rels

/-!
# The XML that the editor writes
-/

namespace PptRs

open PptRs.Spec

/-! ### Searching for a mark -/

/-- One of two strings begins with the other. -/
def comparable : Str → Str → Bool
  | [], _ => true
  | _, [] => true
  | a :: as, b :: bs => if a = b then comparable as bs else false

/-- The mark does not begin anywhere in the text, whatever follows the text. -/
def noStart (mark : Str) : Str → Bool
  | [] => true
  | c :: cs => !comparable mark (c :: cs) && noStart mark cs

theorem comparable_of_prefix {m a b : Str} (h : m.isPrefixOf (a ++ b) = true) : comparable m a = true := by
  induction m generalizing a with
  | nil => rfl
  | cons x m ih =>
    cases a with
    | nil => rfl
    | cons y a =>
      simp only [List.cons_append, List.isPrefixOf, Bool.and_eq_true, beq_iff_eq] at h
      simp only [comparable, h.1, if_true]
      exact ih h.2

theorem comparable_append {m a b : Str} (h : comparable m (a ++ b) = true) : comparable m a = true := by
  induction m generalizing a with
  | nil => rfl
  | cons x m ih =>
    cases a with
    | nil => rfl
    | cons y a =>
      simp only [List.cons_append, comparable] at h ⊢
      split
      · rename_i e; rw [if_pos e] at h; exact ih h
      · rename_i e; rw [if_neg e] at h; exact absurd h (by decide)

theorem noStart_append {m a b : Str} (ha : noStart m a = true) (hb : noStart m b = true) :
    noStart m (a ++ b) = true := by
  induction a with
  | nil => exact hb
  | cons c a ih =>
    simp only [noStart, Bool.and_eq_true, Bool.not_eq_true', List.cons_append] at ha ⊢
    refine ⟨?_, ih ha.2⟩
    by_contra hc
    have := comparable_append (m := m) (a := c :: a) (b := b) (by simpa using hc)
    rw [ha.1] at this
    exact absurd this (by decide)

theorem noStart_flatMap {α : Type} {m : Str} {f : α → Str} {l : List α}
    (h : ∀ a ∈ l, noStart m (f a) = true) : noStart m (l.flatMap f) = true := by
  induction l with
  | nil => rfl
  | cons a l ih =>
    rw [List.flatMap_cons]
    exact noStart_append (h a (by simp)) (ih fun x hx => h x (by simp [hx]))

theorem noStart_of_notMem {c : Char} {m s : Str} (h : c ∉ s) : noStart (c :: m) s = true := by
  induction s with
  | nil => rfl
  | cons d s ih =>
    have hd : c ≠ d := fun e => h (by simp [e])
    simp only [noStart, comparable, if_neg hd, Bool.not_false, Bool.true_and]
    exact ih fun e => h (by simp [e])

theorem splitOnce?_of_noStart {c : Char} {m s t : Str} (h : noStart (c :: m) s = true) :
    splitOnce? (c :: m) (s ++ (c :: m) ++ t) = some (s, t) := by
  induction s with
  | nil =>
    have : stripPrefix? (c :: m) (c :: (m ++ t)) = some t := by
      simpa using stripPrefix?_append (c :: m) t
    simp only [List.nil_append, List.cons_append, splitOnce?, this]
  | cons d s ih =>
    simp only [noStart, Bool.and_eq_true, Bool.not_eq_true'] at h
    have hn : stripPrefix? (c :: m) (d :: (s ++ (c :: m) ++ t)) = none := by
      rw [← Option.not_isSome_iff_eq_none, stripPrefix?_isSome]
      intro hs
      have := comparable_of_prefix (m := c :: m) (a := d :: s) (b := (c :: m) ++ t) (by
        simpa [startsWith] using hs)
      rw [h.1] at this
      exact absurd this (by decide)
    simp only [List.cons_append, splitOnce?] at hn ⊢
    rw [hn, show s ++ c :: m ++ t = s ++ (c :: m) ++ t by simp]
    simp only
    rw [ih h.2]
    rfl

theorem insertBefore_of_noStart {c : Char} {m s t : Str} (new : Str) (h : noStart (c :: m) s = true) :
    Editor.insertBefore (c :: m) new (s ++ (c :: m) ++ t) = s ++ new ++ (c :: m) ++ t := by
  unfold Editor.insertBefore
  rw [splitOnce?_of_noStart h]
  rfl

theorem noStart_fmt {m : Str} {ps : List Part} (h : ∀ p ∈ ps, noStart m p.render = true) :
    noStart m (fmt ps) = true := noStart_flatMap h

theorem noStart_dec {m : Str} (n : Nat) : noStart ('<' :: m) (dec n) = true :=
  noStart_of_notMem (not_mem_dec (by decide))

/-! ### Relationship parts -/

/-- A relationship whose fields are written without escaping. -/
structure RelEntry.Plain (r : RelEntry) : Prop where
  id : PptRs.Plain r.id
  type : PptRs.Plain r.type
  target : PptRs.Plain r.target

/-- The parts of a relationship. -/
def relParts (r : RelEntry) : List Part :=
  t!"<Relationship Id=\"{.raw r.id}\" Type=\"{.raw r.type}\" Target=\"{.raw r.target}\""
    ++ whenSet r.external t!" TargetMode=\"External\"" ++ t!"/>"

theorem fmt_relParts (r : RelEntry) : fmt (relParts r) = renderRel r := by
  unfold relParts renderRel whenSet fmt
  cases r.external <;>
    simp only [List.flatMap_cons, List.flatMap_nil, List.append_nil, Part.render, List.append_assoc,
      List.cons_append, List.nil_append, if_true, if_false, Bool.false_eq_true]

/-- The element of a relationship. -/
def relNode (r : RelEntry) : Node :=
  E c!"Relationship" ([(c!"Id", r.id), (c!"Type", r.type), (c!"Target", r.target)]
    ++ (if r.external then [(c!"TargetMode", c!"External")] else [])) []

theorem readsNodes_rel {r : RelEntry} (h : r.Plain) : ReadsNodes (relParts r) [relNode r] :=
  ((Splits.lit (by parts_ok; exact ⟨h.id, h.type, h.target⟩)).append
    (.attrs (readsAttrs_whenSet (b := r.external) (as := [(c!"TargetMode", c!"External")])
      ((Splits.lit (by parts_ok)).readsAttrs (fun top st n as => by krfl)))) |>.append
    (.lit (by parts_ok))).readsNodes (by krfl)

/-- The parts of a relationship part between its tags. -/
def relsInner (l : List RelEntry) : List Part := l.flatMap fun r => t!"\n" ++ relParts r

theorem fmt_flatMap {α : Type} (f : α → List Part) (l : List α) :
    fmt (l.flatMap f) = l.flatMap fun a => fmt (f a) := by
  induction l with
  | nil => rfl
  | cons a l ih => rw [List.flatMap_cons, fmt_append, ih, List.flatMap_cons]

theorem fmt_relsInner (l : List RelEntry) :
    fmt (relsInner l) = l.flatMap fun r => '\n' :: renderRel r := by
  unfold relsInner
  rw [fmt_flatMap]
  congr 1
  funext r
  rw [fmt_append, fmt_relParts]
  rfl

theorem readsNodes_nlRel {r : RelEntry} (h : r.Plain) :
    ReadsNodes (t!"\n" ++ relParts r) [nl, relNode r] := by
  exact ((Splits.lit (by parts_ok)).append (((Splits.lit (by parts_ok; exact ⟨h.id, h.type, h.target⟩)).append
    (.attrs (readsAttrs_whenSet (b := r.external) (as := [(c!"TargetMode", c!"External")])
      ((Splits.lit (by parts_ok)).readsAttrs (fun top st n as => by krfl)))) |>.append
    (.lit (by parts_ok))))).readsNodes (by krfl)

/-- The elements of a relationship part, on separate lines. -/
def relsKids (l : List RelEntry) : List Node := l.flatMap fun r => [nl, relNode r]

theorem readsNodes_relsInner {l : List RelEntry} (h : ∀ r ∈ l, r.Plain) :
    ReadsNodes (relsInner l) (relsKids l) := readsNodes_flatMap fun r hr => readsNodes_nlRel (h r hr)

/-- The document of relationships. -/
def relsDoc (kids : List Node) : List Node :=
  [E c!"Relationships" [(c!"xmlns", c!"http://schemas.openxmlformats.org/package/2006/relationships")] kids]

/-- The parts of a relationship part with given text between its tags. -/
def relsBody (inner : List Part) : List Part :=
  t!"<Relationships xmlns=\"http://schemas.openxmlformats.org/package/2006/relationships\">"
    ++ inner ++ t!"\n</Relationships>"

theorem document_rels {inner : List Part} {kids : List Node} (h : ReadsNodes inner kids) :
    document (xmlDecl ++ fmt (relsBody inner)) = some (relsDoc (kids ++ [nl])) := by
  have e : document (xmlDecl ++ fmt (relsBody inner)) = parse (fmt (relsBody inner)) := by krfl
  rw [e]
  exact parse_of_nodes (((Splits.lit (by parts_ok)).append (.nodes h) |>.append
    (.lit (by parts_ok))).readsNodes (by krfl))

theorem renderRels_eq (l : List RelEntry) : renderRels l = xmlDecl ++ fmt (relsBody (relsInner l)) := by
  unfold renderRels relsBody
  rw [fmt_append, fmt_append, fmt_relsInner]
  rfl

theorem elemsL_relsKids (l : List RelEntry) : elemsL c!"Relationship" (relsKids l) = l.map relNode := by
  induction l with
  | nil => rfl
  | cons r l ih =>
    show elemsL _ ([nl, relNode r] ++ relsKids l) = _
    rw [elemsL_append, ih]
    rfl

/-- What is read of a relationship. -/
def relRead (r : RelEntry) : Option Str × Option Str × Option Str := (some r.id, some r.type, some r.target)

theorem readRels_of {inner : List Part} {l : List RelEntry} {kids : List Node}
    (h : ReadsNodes inner kids) (hk : elemsL c!"Relationship" kids = l.map relNode) :
    readRels (xmlDecl ++ fmt (relsBody inner)) = some (l.map relRead) := by
  unfold readRels
  rw [document_rels h]
  have e : elemsL c!"Relationship" (relsDoc (kids ++ [nl])) = l.map relNode := by
    show elemsL _ (kids ++ [nl]) ++ [] = _
    rw [elemsL_append, hk]
    show _ ++ [] ++ [] = _
    simp
  rw [Option.map_some, e, List.map_map]
  rfl

/-- Relationship parts as they are written read back. -/
theorem readRels_render {l : List RelEntry} (h : ∀ r ∈ l, r.Plain) :
    readRels (renderRels l) = some (l.map relRead) := by
  rw [renderRels_eq]
  exact readRels_of (readsNodes_relsInner h) (elemsL_relsKids l)

/-- The relationship that is added for slide `n`. -/
def addedRel (n : Nat) : RelEntry :=
  rel (slideRelId n) c!"slide" (c!"slides/slide" ++ dec n ++ c!".xml")

theorem plain_append {a b : Str} (ha : Plain a) (hb : Plain b) : Plain (a ++ b) :=
  ⟨by simp [ha.1, hb.1], by simp [ha.2.1, hb.2.1], by simp [ha.2.2, hb.2.2]⟩

theorem plain_rel {n : Nat} {t u : Str} (ht : Plain t) (hu : Plain u) : (rel n t u).Plain :=
  ⟨plain_append ⟨by decide, by decide, by decide⟩ (plain_dec n),
   plain_append ⟨by decide, by decide, by decide⟩ ht, hu⟩

theorem plain_slideTarget (n : Nat) : Plain (c!"slides/slide" ++ dec n ++ c!".xml") :=
  plain_append (plain_append ⟨by decide, by decide, by decide⟩ (plain_dec n))
    ⟨by decide, by decide, by decide⟩

theorem plain_addedRel (n : Nat) : (addedRel n).Plain :=
  plain_rel ⟨by decide, by decide, by decide⟩ (plain_slideTarget n)

theorem noStart_renderRel {r : RelEntry} (h : r.Plain) :
    noStart c!"</Relationships>" (renderRel r) = true := by
  rw [← fmt_relParts]
  refine noStart_fmt fun p hp => ?_
  unfold relParts at hp
  simp only [List.mem_append, List.mem_cons, List.not_mem_nil, or_false] at hp
  rcases hp with ((rfl | rfl | rfl | rfl | rfl | rfl | rfl) | hp) | rfl
  · decide
  · exact noStart_of_notMem h.id.2.1
  · decide
  · exact noStart_of_notMem h.type.2.1
  · decide
  · exact noStart_of_notMem h.target.2.1
  · decide
  · unfold whenSet at hp
    split at hp
    · rw [List.mem_singleton] at hp
      subst hp
      decide
    · exact absurd hp (by simp)
  · decide

/-- The parts of a relationship part to which a relationship was added. -/
def addedInner (l : List RelEntry) (n : Nat) : Str :=
  xmlDecl ++ fmt (t!"<Relationships xmlns=\"http://schemas.openxmlformats.org/package/2006/relationships\">"
    ++ relsInner l ++ (t!"\n\n" ++ relParts (addedRel n)) ++ t!"</Relationships>")

theorem addToPresentationRels_render {l : List RelEntry} (h : ∀ r ∈ l, r.Plain) (n : Nat) :
    Editor.addToPresentationRels (renderRels l) n = addedInner l n := by
  unfold Editor.addToPresentationRels renderRels
  have e : relsHeader ++ (l.flatMap fun r => '\n' :: renderRel r) ++ c!"\n</Relationships>" =
      (relsHeader ++ (l.flatMap fun r => '\n' :: renderRel r) ++ c!"\n") ++ c!"</Relationships>" ++ [] := by
    simp
  rw [e, insertBefore_of_noStart]
  · unfold addedInner
    rw [fmt_append, fmt_append, fmt_append, fmt_append, fmt_relParts, fmt_relsInner]
    simp only [relsHeader, xmlDecl, fmt, List.flatMap_cons, List.flatMap_nil, Part.render,
      List.append_nil, List.append_assoc, List.cons_append, List.nil_append, addedRel]
  · refine noStart_append (noStart_append (by decide) (noStart_flatMap fun r hr => ?_)) (by decide)
    exact noStart_append (a := ['\n']) (by decide) (noStart_renderRel (h r hr))

theorem readRels_added {l : List RelEntry} (h : ∀ r ∈ l, r.Plain) (n : Nat) :
    readRels (Editor.addToPresentationRels (renderRels l) n) = some ((l ++ [addedRel n]).map relRead) := by
  rw [addToPresentationRels_render h]
  have hp := plain_addedRel n
  have e : document (addedInner l n) =
      some (relsDoc (relsKids l ++ [.text c!"\n\n"] ++ [relNode (addedRel n)])) := by
    unfold addedInner
    generalize hb : (t!"<Relationships xmlns=\"http://schemas.openxmlformats.org/package/2006/relationships\">"
      ++ relsInner l ++ (t!"\n\n" ++ relParts (addedRel n)) ++ t!"</Relationships>") = body
    have e : document (xmlDecl ++ fmt body) = parse (fmt body) := by rw [← hb]; krfl
    rw [e, ← hb]
    exact parse_of_nodes (((Splits.lit (by parts_ok)).append (.nodes (readsNodes_relsInner h))
      |>.append ((Splits.lit (by parts_ok)).append (((Splits.lit (by
          parts_ok; exact ⟨hp.id, hp.type, hp.target⟩)).append
        (.attrs (readsAttrs_whenSet (b := (addedRel n).external)
          (as := [(c!"TargetMode", c!"External")])
          ((Splits.lit (by parts_ok)).readsAttrs (fun top st n as => by krfl)))) |>.append
        (.lit (by parts_ok)))))
      |>.append (.lit (by parts_ok))).readsNodes (by krfl))
  unfold readRels
  rw [e]
  have e2 : elemsL c!"Relationship" (relsDoc (relsKids l ++ [.text c!"\n\n"] ++ [relNode (addedRel n)]))
      = (l ++ [addedRel n]).map relNode := by
    show elemsL _ (relsKids l ++ _ ++ _) ++ [] = _
    rw [elemsL_append, elemsL_append, elemsL_relsKids, List.map_append, List.append_nil,
      show elemsL c!"Relationship" [Node.text c!"\n\n"] = [] from rfl, List.append_nil]
    rfl
  rw [Option.map_some, e2, List.map_map]
  rfl

theorem plain_presentationRels (n : Nat) (a b : Bool) : ∀ r ∈ presentationRels n a b, r.Plain := by
  intro r hr
  simp only [presentationRels, List.mem_append, List.mem_map, List.mem_cons, List.not_mem_nil,
    or_false] at hr
  rcases hr with (((rfl | ⟨i, _, rfl⟩) | hr) | hr) | rfl | rfl | rfl | rfl
  · exact plain_rel ⟨by decide, by decide, by decide⟩ ⟨by decide, by decide, by decide⟩
  · exact plain_rel ⟨by decide, by decide, by decide⟩ (plain_slideTarget i)
  · cases a
    · simp at hr
    · simp only [if_true, List.mem_singleton] at hr
      subst hr
      exact plain_rel ⟨by decide, by decide, by decide⟩ ⟨by decide, by decide, by decide⟩
  · cases b
    · simp at hr
    · simp only [if_true, List.mem_singleton] at hr
      subst hr
      exact plain_rel ⟨by decide, by decide, by decide⟩ ⟨by decide, by decide, by decide⟩
  all_goals exact plain_rel ⟨by decide, by decide, by decide⟩ ⟨by decide, by decide, by decide⟩

/-! ### The rebuilt presentation -/

/-- The element of a slide in the slide list. -/
def slideRefNode (n : Nat) : Node :=
  E c!"p:sldId" [(c!"id", dec (slideIdValue n)), (c!"r:id", c!"rId" ++ dec (slideRelId n))] []

theorem readsNodes_slideRef (n : Nat) : ReadsNodes (Editor.slideRef n) [nl, slideRefNode n] :=
  (Splits.lit (by unfold Editor.slideRef; parts_ok)).readsNodes (by krfl)

/-- The slide list. -/
def slideRefKids (n : Nat) : List Node := (upTo n).flatMap fun i => [nl, slideRefNode i]

theorem elemsL_slideRefKids (n : Nat) : elemsL c!"p:sldId" (slideRefKids n) = (upTo n).map slideRefNode := by
  unfold slideRefKids
  induction upTo n with
  | nil => rfl
  | cons i l ih =>
    rw [List.flatMap_cons, elemsL_append, ih]
    rfl

/-- The document of a rebuilt presentation. -/
def rebuiltDoc (count : Nat) (notes handout : Bool) : List Node :=
  [E c!"p:presentation" [(c!"xmlns:a", c!"http://schemas.openxmlformats.org/drawingml/2006/main"),
    (c!"xmlns:r", c!"http://schemas.openxmlformats.org/officeDocument/2006/relationships"),
    (c!"xmlns:p", c!"http://schemas.openxmlformats.org/presentationml/2006/main"),
    (c!"saveSubsetFonts", c!"1"), (c!"autoCompressPictures", c!"0")]
    ([nl, E c!"p:sldMasterIdLst" [] [nl, E c!"p:sldMasterId" [(c!"id", c!"2147483648"), (c!"r:id", c!"rId1")] [], nl]]
     ++ (if notes then [nl, E c!"p:notesMasterIdLst" [] [nl, E c!"p:notesMasterId"
          [(c!"id", c!"2147483650"), (c!"r:id", c!"rId6")] [], nl]] else [])
     ++ (if handout then [nl, E c!"p:handoutMasterIdLst" [] [nl, E c!"p:handoutMasterId"
          [(c!"id", c!"2147483651"), (c!"r:id", c!"rId" ++ dec (if notes then 7 else 6))] [], nl]] else [])
     ++ [nl] ++ [E c!"p:sldIdLst" [] (slideRefKids count ++ [nl])] ++ [nl]
     ++ [E c!"p:sldSz" [(c!"cx", c!"9144000"), (c!"cy", c!"6858000"), (c!"type", c!"screen4x3")] []] ++ [nl]
     ++ [E c!"p:notesSz" [(c!"cx", c!"6858000"), (c!"cy", c!"9144000")] []] ++ [nl])]

theorem readsNodes_whenSet {b : Bool} {ps : List Part} {ks : List Node} (h : ReadsNodes ps ks) :
    ReadsNodes (whenSet b ps) (if b then ks else []) := by
  cases b
  · exact readsNodes_nil
  · exact h

set_option maxRecDepth 8000 in
theorem document_rebuilt (count : Nat) (notes handout : Bool) :
    document (Editor.rebuiltPresentation count notes handout) = some (rebuiltDoc count notes handout) := by
  unfold Editor.rebuiltPresentation
  generalize hb : (t!"<p:presentation xmlns:a=\"http://schemas.openxmlformats.org/drawingml/2006/main\" xmlns:r=\"http://schemas.openxmlformats.org/officeDocument/2006/relationships\" xmlns:p=\"http://schemas.openxmlformats.org/presentationml/2006/main\" saveSubsetFonts=\"1\" autoCompressPictures=\"0\">
<p:sldMasterIdLst>
<p:sldMasterId id=\"2147483648\" r:id=\"rId1\"/>
</p:sldMasterIdLst>" ++ _ ++ _ ++ _ ++ _ ++ _) = body
  have e : document (xmlDecl ++ fmt body) = parse (fmt body) := by rw [← hb]; krfl
  rw [e, ← hb]
  exact parse_of_nodes (((Splits.lit (by parts_ok)).append
    (.nodes (readsNodes_whenSet (b := notes) (ks := [nl, E c!"p:notesMasterIdLst" [] [nl, E c!"p:notesMasterId"
          [(c!"id", c!"2147483650"), (c!"r:id", c!"rId6")] [], nl]])
        ((Splits.lit (by parts_ok)).readsNodes (by krfl))))
    |>.append (.nodes (readsNodes_whenSet (b := handout) (ks := [nl, E c!"p:handoutMasterIdLst" [] [nl, E c!"p:handoutMasterId"
          [(c!"id", c!"2147483651"), (c!"r:id", c!"rId" ++ dec (if notes then 7 else 6))] [], nl]])
        ((Splits.lit (by parts_ok)).readsNodes (by krfl))))
    |>.append (.lit (by parts_ok))
    |>.append (.nodes (readsNodes_flatMap (l := upTo count) fun i _ => readsNodes_slideRef i))
    |>.append (.lit (by parts_ok))).readsNodes (by krfl))

end PptRs
