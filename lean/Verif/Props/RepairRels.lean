import Verif.Model.Repair
import Verif.Lemmas.Scan
import Verif.Lemmas.EditorXml
import Verif.Lemmas.Utf8

/-!
# C38, C73, C74: relationships and slide references added, removed and checked by the repair
-/

namespace PptRs.Spec

open PptRs

/-- A relationship part as this crate and its repair write it: each relationship on its own line, some
indented by two blanks. -/
def relsText (l : List (Bool × RelEntry)) : Str :=
  relsHeader ++ (l.flatMap fun r => '\n' :: ((if r.1 then c!"  " else []) ++ renderRel r.2)) ++ c!"\n</Relationships>"

end PptRs.Spec

namespace PptRs.Props

open PptRs PptRs.Spec PptRs.Repair

/-! ## Relationship elements between their quotation marks -/

/-- The text of a relationship behind its target. -/
def relTail (r : RelEntry) : Str :=
  if r.external then c!" TargetMode=" ++ '"' :: (c!"External" ++ '"' :: c!"/>") else c!"/>"

theorem renderRel_quotes (r : RelEntry) (t : Str) : renderRel r ++ t =
    c!"<Relationship Id=" ++ '"' :: (r.id ++ '"' :: (c!" Type=" ++ '"' :: (r.type ++ '"' :: (c!" Target=" ++ '"' ::
      (r.target ++ '"' :: (relTail r ++ t)))))) := by
  unfold renderRel relTail
  cases r.external <;> simp

/-! ## The largest relationship id -/

/-- The pattern of `find_max_rel_id`. -/
theorem relPat : c!"Id=\"rId" = c!"Id=" ++ '"' :: c!"rId" := rfl

theorem rid_prefix {s t : Str} (h : c!"rId" <+: s ++ '"' :: t) : c!"rId" <+: s := by
  obtain ⟨r, hr⟩ := h
  match s, hr with
  | [], hr => simp at hr
  | [_], hr => simp at hr
  | [_, _], hr => simp at hr
  | a :: b :: c :: s, hr =>
    simp only [List.cons_append, List.nil_append, List.cons.injEq] at hr
    obtain ⟨rfl, rfl, rfl, _⟩ := hr
    exact ⟨s, rfl⟩

/-- The maximum after the id of one more relationship. -/
def withRel (k : Nat) (r : RelEntry) : Nat :=
  match stripPrefix? c!"rId" r.id with
  | some num => maxWith k num
  | none => k

theorem maxId_rel {pre : Str} {r : RelEntry} (hpre : '"' ∉ pre) (h : r.Plain) (t : Str) (k : Nat) :
    maxId (c!"Id=" ++ '"' :: c!"rId") (pre ++ renderRel r ++ t) k =
      maxId (c!"Id=" ++ '"' :: c!"rId") (c!"/>" ++ t) (withRel k r) := by
  have hq : '"' ∉ c!"Id=" := by decide
  have tail : ∀ k, maxId (c!"Id=" ++ '"' :: c!"rId") (relTail r ++ t) k =
      maxId (c!"Id=" ++ '"' :: c!"rId") (c!"/>" ++ t) k := by
    intro k
    unfold relTail
    cases r.external
    · rfl
    · show maxId (c!"Id=" ++ '"' :: c!"rId") (c!" TargetMode=" ++ '"' :: (c!"External" ++ '"' :: (c!"/>" ++ t))) k = _
      rw [maxId_skip hq (by decide) (by rintro ⟨hx, _⟩; revert hx; decide),
        maxId_skip hq (by decide) (by rintro ⟨hx, _⟩; revert hx; decide)]
  have rest : ∀ k, maxId (c!"Id=" ++ '"' :: c!"rId") (c!" Type=" ++ '"' :: (r.type ++ '"' :: (c!" Target=" ++ '"' ::
      (r.target ++ '"' :: (relTail r ++ t))))) k = maxId (c!"Id=" ++ '"' :: c!"rId") (c!"/>" ++ t) k := by
    intro k
    rw [maxId_skip hq (by decide) (by rintro ⟨hx, _⟩; revert hx; decide),
      maxId_skip hq h.type.2.2 (by rintro ⟨_, hx⟩; simp at hx),
      maxId_skip hq (by decide) (by rintro ⟨hx, _⟩; revert hx; decide),
      maxId_skip hq h.target.2.2 (by
        rintro ⟨_, hx⟩
        unfold relTail at hx
        cases hr : r.external <;> simp [hr] at hx), tail]
  rw [List.append_assoc, renderRel_quotes, ← List.append_assoc]
  unfold withRel
  cases hs : stripPrefix? c!"rId" r.id with
  | some num =>
    have hid := stripPrefix?_eq_some.mp hs
    have hn : '"' ∉ num := fun hm => h.id.2.2 (by rw [hid]; simp [hm])
    rw [hid, show pre ++ c!"<Relationship Id=" = (pre ++ c!"<Relationship ") ++ c!"Id=" by simp, List.append_assoc c!"rId",
      maxId_hit hq (by simp [hpre]) hn, rest]
  | none =>
    have hno : ¬ c!"rId" <+: r.id := by
      rintro ⟨x, hx⟩
      rw [← hx] at hs
      rw [stripPrefix?_append] at hs
      cases hs
    rw [maxId_skip hq (by simp [hpre]) (by rintro ⟨_, hx⟩; exact hno (rid_prefix hx)),
      maxId_skip hq h.id.2.2 (by rintro ⟨_, hx⟩; simp at hx), rest]

/-- The text of the relationships of a list, each behind some text without quotation marks. -/
theorem maxId_rels {l : List (Str × RelEntry)} (hws : ∀ r ∈ l, '"' ∉ r.1) (h : ∀ r ∈ l, r.2.Plain) {pre fin : Str}
    (hpre : '"' ∉ pre) (hfin : '"' ∉ fin) (k : Nat) :
    maxId (c!"Id=" ++ '"' :: c!"rId") (pre ++ (l.flatMap fun r => r.1 ++ renderRel r.2) ++ fin) k =
      (l.map (·.2)).foldl withRel k := by
  induction l generalizing pre k with
  | nil =>
    simp only [List.flatMap_nil, List.append_nil, List.map_nil, List.foldl_nil]
    exact maxId_end (by simp [hpre, hfin]) k
  | cons r l ih =>
    rw [List.flatMap_cons, show pre ++ (r.1 ++ renderRel r.2 ++ l.flatMap fun r => r.1 ++ renderRel r.2) ++ fin =
      (pre ++ r.1) ++ renderRel r.2 ++ ((l.flatMap fun r => r.1 ++ renderRel r.2) ++ fin) by simp,
      maxId_rel (by simp [hpre, hws r (by simp)]) (h r (by simp)), ← List.append_assoc,
      ih (fun x hx => hws x (by simp [hx])) (fun x hx => h x (by simp [hx])) (by decide)]
    rfl

theorem le_maxWith (k : Nat) (num : Str) : k ≤ maxWith k num := by
  unfold maxWith
  split
  · exact Nat.le_max_left _ _
  · exact Nat.le_refl _

theorem le_withRel (k : Nat) (r : RelEntry) : k ≤ withRel k r := by
  unfold withRel
  split
  · exact le_maxWith _ _
  · exact Nat.le_refl _

theorem le_foldl_withRel (l : List RelEntry) (k : Nat) : k ≤ l.foldl withRel k := by
  induction l generalizing k with
  | nil => exact Nat.le_refl _
  | cons r l ih => exact Nat.le_trans (le_withRel k r) (ih _)

theorem mem_le_foldl {l : List RelEntry} {r : RelEntry} (hr : r ∈ l) {n : Nat} (hid : r.id = c!"rId" ++ dec n)
    (hn : n < 4294967296) (k : Nat) : n ≤ l.foldl withRel k := by
  induction l generalizing k with
  | nil => simp at hr
  | cons x l ih =>
    rw [List.foldl_cons]
    rcases List.mem_cons.mp hr with rfl | hr
    · refine Nat.le_trans ?_ (le_foldl_withRel l _)
      unfold withRel
      rw [hid, stripPrefix?_append]
      simp only
      unfold maxWith
      rw [parseU32_dec hn]
      exact Nat.le_max_right _ _
    · exact ih hr _

theorem findMaxRelId_eq {l : List (Str × RelEntry)} (hws : ∀ r ∈ l, '"' ∉ r.1) (h : ∀ r ∈ l, r.2.Plain) {fin : Str}
    (hfin : '"' ∉ fin) :
    findMaxRelId (relsHeader ++ (l.flatMap fun r => r.1 ++ renderRel r.2) ++ fin) = (l.map (·.2)).foldl withRel 0 := by
  show maxId (c!"Id=" ++ '"' :: c!"rId") _ 0 = _
  have hq : '"' ∉ c!"Id=" := by decide
  have e : ∀ t, relsHeader ++ t = c!"<?xml version=" ++ '"' :: (c!"1.0" ++ '"' :: (c!" encoding=" ++ '"' :: (c!"UTF-8" ++ '"' ::
      (c!" standalone=" ++ '"' :: (c!"yes" ++ '"' :: (c!"?>\n<Relationships xmlns=" ++ '"' ::
      (c!"http://schemas.openxmlformats.org/package/2006/relationships" ++ '"' :: (c!">" ++ t)))))))) := by
    intro t; rfl
  rw [List.append_assoc, e]
  rw [maxId_skip hq (by decide) (by rintro ⟨hx, _⟩; revert hx; decide),
    maxId_skip hq (by decide) (by rintro ⟨hx, _⟩; revert hx; decide),
    maxId_skip hq (by decide) (by rintro ⟨hx, _⟩; revert hx; decide),
    maxId_skip hq (by decide) (by rintro ⟨hx, _⟩; revert hx; decide),
    maxId_skip hq (by decide) (by rintro ⟨hx, _⟩; revert hx; decide),
    maxId_skip hq (by decide) (by rintro ⟨hx, _⟩; revert hx; decide),
    maxId_skip hq (by decide) (by rintro ⟨hx, _⟩; revert hx; decide),
    maxId_skip hq (by decide) (by rintro ⟨hx, _⟩; revert hx; decide), ← List.append_assoc]
  exact maxId_rels hws h (by decide) hfin 0

/-- **C38**: the id that the repair gives a new relationship is not the id of any relationship of the part,
whatever ids those have and however the elements are laid out. (The code panics or wraps if an id is
`rId4294967295`.) -/
theorem C38_rel_id_fresh (l : List (Str × RelEntry)) (fin : Str) (hws : ∀ r ∈ l, '"' ∉ r.1) (hfin : '"' ∉ fin)
    (h : ∀ r ∈ l, r.2.Plain) (xml : Str)
    (hx : xml = relsHeader ++ (l.flatMap fun r => r.1 ++ renderRel r.2) ++ fin)
    (hmax : findMaxRelId xml < 4294967295) :
    ∀ r ∈ l, r.2.id ≠ c!"rId" ++ dec (findMaxRelId xml + 1) := by
  intro r hr he
  subst hx
  rw [findMaxRelId_eq hws h hfin] at he hmax
  have := mem_le_foldl (List.mem_map_of_mem (f := (·.2)) hr) he (by omega) 0
  omega

/-! ## The relationship that the repair adds -/

/-- The relationship added for a slide. -/
def slideRelEntry (id target : Str) : RelEntry := ⟨id, relTypeBase ++ c!"slide", target, false⟩

theorem newRelLine_eq (id slidePath : Str) :
    newRelLine id slidePath = c!"  " ++ renderRel (slideRelEntry id (replaceStr c!"ppt/" [] slidePath)) := by
  unfold newRelLine renderRel slideRelEntry
  simp

theorem relsText_flat (l : List (Bool × RelEntry)) :
    (l.flatMap fun r => '\n' :: ((if r.1 then c!"  " else []) ++ renderRel r.2)) =
      (l.map fun r => ('\n' :: (if r.1 then c!"  " else []), r.2)).flatMap fun r => r.1 ++ renderRel r.2 := by
  rw [List.flatMap_map]
  congr 1

theorem noStart_relsText {l : List (Bool × RelEntry)} (h : ∀ r ∈ l, r.2.Plain) :
    noStart c!"</Relationships>" (relsHeader ++ (l.flatMap fun r => '\n' :: ((if r.1 then c!"  " else []) ++ renderRel r.2)) ++ c!"\n") = true := by
  refine noStart_append (noStart_append (by decide) (noStart_flatMap fun r hr => ?_)) (by decide)
  refine noStart_append (a := '\n' :: (if r.1 then c!"  " else [])) ?_ (noStart_renderRel (h r hr))
  cases r.1 <;> decide

theorem addRelText_relsText {l : List (Bool × RelEntry)} (h : ∀ r ∈ l, r.2.Plain) (slidePath : Str) :
    addRelText (relsText l) slidePath = relsText (l ++ [(true, slideRelEntry (c!"rId" ++ dec (findMaxRelId (relsText l) + 1))
      (replaceStr c!"ppt/" [] slidePath))]) := by
  unfold addRelText
  rw [newRelLine_eq]
  generalize c!"rId" ++ dec (findMaxRelId (relsText l) + 1) = id
  have hs : splitOnce? c!"</Relationships>" (relsText l) = some (relsHeader ++ (l.flatMap fun r => '\n' ::
      ((if r.1 then c!"  " else []) ++ renderRel r.2)) ++ c!"\n", []) := by
    have := splitOnce?_of_noStart (c := '<') (m := c!"/Relationships>") (t := []) (noStart_relsText h)
    rw [List.append_nil, List.append_assoc] at this
    exact this
  rw [replaceStr_of_some (by decide) hs, replaceStr_of_none (pat := c!"</Relationships>") (s := []) rfl]
  unfold relsText
  rw [List.flatMap_append]
  simp

theorem readsNodes_relLine {r : Bool × RelEntry} (h : r.2.Plain) :
    ReadsNodes ((if r.1 then t!"\n  " else t!"\n") ++ relParts r.2) [.text (if r.1 then c!"\n  " else c!"\n"), relNode r.2] := by
  obtain ⟨b, r⟩ := r
  cases b
  · show ReadsNodes (t!"\n" ++ relParts r) [.text c!"\n", relNode r]
    exact ((Splits.lit (by parts_ok)).append (((Splits.lit (by parts_ok; exact ⟨h.id, h.type, h.target⟩)).append
      (.attrs (readsAttrs_whenSet (b := r.external) (as := [(c!"TargetMode", c!"External")])
        ((Splits.lit (by parts_ok)).readsAttrs (fun top st n as => by krfl)))) |>.append
      (.lit (by parts_ok))))).readsNodes (by krfl)
  · show ReadsNodes (t!"\n  " ++ relParts r) [.text c!"\n  ", relNode r]
    exact ((Splits.lit (by parts_ok)).append (((Splits.lit (by parts_ok; exact ⟨h.id, h.type, h.target⟩)).append
      (.attrs (readsAttrs_whenSet (b := r.external) (as := [(c!"TargetMode", c!"External")])
        ((Splits.lit (by parts_ok)).readsAttrs (fun top st n as => by krfl)))) |>.append
      (.lit (by parts_ok))))).readsNodes (by krfl)

theorem relsText_eq (l : List (Bool × RelEntry)) :
    relsText l = xmlDecl ++ fmt (relsBody (l.flatMap fun r => (if r.1 then t!"\n  " else t!"\n") ++ relParts r.2)) := by
  unfold relsText relsBody
  rw [fmt_append, fmt_append, fmt_flatMap]
  have e : (fun r : Bool × RelEntry => '\n' :: ((if r.1 then c!"  " else []) ++ renderRel r.2)) =
      fun r => fmt ((if r.1 then t!"\n  " else t!"\n") ++ relParts r.2) := by
    funext r
    rw [fmt_append, fmt_relParts]
    cases r.1 <;> rfl
  rw [e]
  rfl

theorem readRels_relsText {l : List (Bool × RelEntry)} (h : ∀ r ∈ l, r.2.Plain) :
    readRels (relsText l) = some ((l.map (·.2)).map relRead) := by
  rw [relsText_eq]
  refine readRels_of (readsNodes_flatMap fun r hr => readsNodes_relLine (h r hr)) ?_
  clear h
  induction l with
  | nil => rfl
  | cons r l ih =>
    rw [List.flatMap_cons, elemsL_append, ih]
    rfl

/-- **C38**: for a slide that no relationship refers to, the repair adds to the presentation's relationships
exactly one, of type slide and with the slide as its target, under an id that was not used; the others stay
as they are. -/
theorem C38_relationship_added (l : List (Bool × RelEntry)) (h : ∀ r ∈ l, r.2.Plain) (target : Str) (ht : Plain target)
    (hp : ¬ c!"ppt/" <:+: target) (hmax : findMaxRelId (relsText l) < 4294967295) :
    ∃ id, (∀ r ∈ l, r.2.id ≠ id) ∧
      readRels (addRelText (relsText l) (c!"ppt/" ++ target)) =
        some ((l.map fun r => (some r.2.id, some r.2.type, some r.2.target)) ++
          [(some id, some c!"http://schemas.openxmlformats.org/officeDocument/2006/relationships/slide", some target)]) := by
  have hrep : replaceStr c!"ppt/" [] (c!"ppt/" ++ target) = target := by
    have hs : splitOnce? c!"ppt/" (c!"ppt/" ++ target) = some ([], target) := by
      show splitOnce? c!"ppt/" ('p' :: ('p' :: 't' :: '/' :: target)) = _
      rw [splitOnce?]
      rfl
    rw [replaceStr_of_some (by decide) hs, replaceStr_of_none]
    · rfl
    · rw [← Option.not_isSome_iff_eq_none]
      intro hc
      exact hp (containsStr_iff_infix.mp hc)
  refine ⟨c!"rId" ++ dec (findMaxRelId (relsText l) + 1), ?_, ?_⟩
  · intro r hr
    have := C38_rel_id_fresh (l.map fun r => ('\n' :: (if r.1 then c!"  " else []), r.2)) c!"\n</Relationships>" ?_ (by decide)
      ?_ (relsText l) (by unfold relsText; rw [relsText_flat]) hmax _ (List.mem_map_of_mem hr)
    · exact this
    · intro x hx
      obtain ⟨⟨b, y⟩, _, rfl⟩ := List.mem_map.mp hx
      show '"' ∉ '\n' :: (if b then c!"  " else [])
      cases b <;> decide
    · intro x hx
      obtain ⟨y, hy, rfl⟩ := List.mem_map.mp hx
      exact h y hy
  · rw [addRelText_relsText h, hrep, readRels_relsText]
    · simp only [List.map_append, List.map_map, List.map_cons, List.map_nil]
      rfl
    · intro r hr
      rcases List.mem_append.mp hr with hr | hr
      · exact h r hr
      · rw [List.mem_singleton] at hr
        subst hr
        exact ⟨plain_append ⟨by decide, by decide, by decide⟩ (plain_dec _), show Plain (relTypeBase ++ c!"slide") from ⟨by decide, by decide, by decide⟩, ht⟩

example : readRels (addRelText (relsText [(false, ⟨c!"rId9", c!"t", c!"slides/slide1.xml", false⟩)]) c!"ppt/slides/slide2.xml") =
    some [(some c!"rId9", some c!"t", some c!"slides/slide1.xml"), (some c!"rId10",
      some c!"http://schemas.openxmlformats.org/officeDocument/2006/relationships/slide", some c!"slides/slide2.xml")] := by
  decide +kernel

/-! ## The slide list -/

theorem splitOnce?_first {p s a0 b0 : Str} (h : splitOnce? p s = some (a0, b0)) {a b : Str} (e : s = a ++ p ++ b) :
    a0.length ≤ a.length := by
  induction s generalizing a0 b0 a with
  | nil =>
    have := splitOnce?_some h
    simp only [List.nil_eq, List.append_eq_nil_iff] at this
    rw [this.1.1]
    exact Nat.zero_le _
  | cons c s ih =>
    cases a with
    | nil =>
      rw [splitOnce?, e, List.nil_append, stripPrefix?_append] at h
      simp only [Option.some.injEq, Prod.mk.injEq] at h
      rw [← h.1]
      exact Nat.le_refl _
    | cons d a =>
      rw [splitOnce?] at h
      split at h
      · simp only [Option.some.injEq, Prod.mk.injEq] at h
        rw [← h.1]
        exact Nat.zero_le _
      · obtain ⟨⟨x, y⟩, h1, h2⟩ := Option.map_eq_some_iff.mp h
        simp only [Prod.mk.injEq] at h2
        rw [← h2.1]
        simp only [List.cons_append, List.cons.injEq] at e
        have := ih h1 (a := a) e.2
        simp only [List.length_cons]
        omega

/-- The text has its only occurrence of the pattern between the two given parts. -/
theorem splitOnce?_only {p s t : Str} (h : ¬ p <:+: s ++ p.dropLast) : splitOnce? p (s ++ p ++ t) = some (s, t) := by
  obtain ⟨⟨a, b⟩, hs⟩ := Option.isSome_iff_exists.mp (splitOnce?_isSome p s t)
  have hle := splitOnce?_first hs (a := s) rfl
  have e := splitOnce?_some hs
  by_cases hl : a.length = s.length
  · rw [List.append_assoc, List.append_assoc] at e
    obtain ⟨e1, e2⟩ := List.append_inj e hl.symm
    rw [hs, e1, List.append_cancel_left e2]
  · exfalso
    apply h
    by_cases hp : p = []
    · subst hp
      simp
    · have h1 : a ++ p <+: s ++ p ++ t := ⟨b, e.symm⟩
      have h2 : s ++ p.dropLast <+: s ++ p ++ t := by
        rw [List.append_assoc]
        exact (List.prefix_append_right_inj s).mpr ((List.dropLast_prefix p).trans (List.prefix_append p t))
      have h3 : a ++ p <+: s ++ p.dropLast := by
        refine List.prefix_of_prefix_length_le h1 h2 ?_
        have := List.length_pos_iff.mpr hp
        simp only [List.length_append, List.length_dropLast]
        omega
      exact (List.suffix_append a p).isInfix.trans h3.isInfix

theorem le_maxId (pat : Str) (hp : pat ≠ []) (s : Str) (k : Nat) : k ≤ maxId pat s k := by
  unfold maxId
  generalize s.length + 1 = n
  induction n generalizing s k with
  | zero => exact Nat.le_refl _
  | succ n ih =>
    rw [maxIdLoop]
    split
    · exact Nat.le_refl _
    · split
      · exact Nat.le_refl _
      · rename_i num rest _
        exact Nat.le_trans (le_maxWith k num) (ih rest _)

theorem quote_split {b : Str} (h : '"' ∈ b) : ∃ v r, b = v ++ '"' :: r ∧ '"' ∉ v := by
  obtain ⟨v, r, h1, h2⟩ := List.eq_append_cons_of_mem h
  exact ⟨v, r, h1, h2⟩

theorem sldId_le {n : Nat} (hn : n < 4294967296) : ∀ (len : Nat) (xml : Str), xml.length ≤ len →
    (∀ a v b, xml = a ++ c!"<p:sldId id=\"" ++ v ++ '"' :: b → '"' ∉ v → '<' ∉ v) →
    ∀ a b, xml = a ++ c!"<p:sldId id=\"" ++ dec n ++ '"' :: b → ∀ k, n ≤ maxId c!"<p:sldId id=\"" xml k := by
  have hpat : ∀ x w : Str, x ≠ [] → c!"<p:sldId id=\"" = x ++ '<' :: w → False := by
    intro x w hx e
    cases x with
    | nil => exact hx rfl
    | cons d x =>
      rw [List.cons_append, List.cons.injEq] at e
      have : '<' ∈ c!"p:sldId id=\"" := by rw [e.2]; simp
      revert this
      decide
  intro len
  induction len with
  | zero =>
    intro xml hl _ a b e
    have := congrArg List.length e
    simp at this
    omega
  | succ len ih =>
    intro xml hl hval a b e k
    obtain ⟨⟨a0, r0⟩, hs⟩ := Option.isSome_iff_exists.mp (splitOnce?_isSome c!"<p:sldId id=\"" a (dec n ++ '"' :: b))
    have hs : splitOnce? c!"<p:sldId id=\"" xml = some (a0, r0) := by
      rw [e, ← hs]; congr 1; simp
    have e0 := splitOnce?_some hs
    have hle := splitOnce?_first hs (a := a) (b := dec n ++ '"' :: b) (by rw [e]; simp)
    have ee : a0 ++ (c!"<p:sldId id=\"" ++ r0) = a ++ (c!"<p:sldId id=\"" ++ (dec n ++ '"' :: b)) := by
      rw [← List.append_assoc, ← e0, e]; simp
    rw [List.append_eq_append_iff] at ee
    have hax : ∃ x, a = a0 ++ x ∧ c!"<p:sldId id=\"" ++ r0 = x ++ (c!"<p:sldId id=\"" ++ (dec n ++ '"' :: b)) := by
      rcases ee with h | ⟨x, hx, h⟩
      · exact h
      · have : x = [] := by
          have := congrArg List.length hx
          rw [List.length_append] at this
          exact List.length_eq_zero_iff.mp (by omega)
        subst this
        exact ⟨[], by rw [hx]; simp, by rw [h]; rfl⟩
    obtain ⟨x, hx, h⟩ := hax
    by_cases hx0 : x = []
    · subst hx0
      rw [List.nil_append] at h
      have hr0 := List.append_cancel_left h
      rw [hr0] at hs
      rw [maxId_some (by decide) hs (not_mem_dec (by decide))]
      refine Nat.le_trans ?_ (le_maxId _ (by decide) _ _)
      unfold maxWith
      rw [parseU32_dec hn]
      exact Nat.le_max_right _ _
    · have hy : ∃ y, x = c!"<p:sldId id=\"" ++ y ∧ r0 = y ++ (c!"<p:sldId id=\"" ++ (dec n ++ '"' :: b)) := by
        rw [List.append_eq_append_iff] at h
        rcases h with h | ⟨w, hw, h⟩
        · exact h
        · cases w with
          | nil =>
            refine ⟨[], by rw [hw]; simp, ?_⟩
            rw [List.nil_append] at h ⊢
            exact h.symm
          | cons d w =>
            exfalso
            have hd : '<' = d := by simpa using congrArg List.head? h
            exact hpat x w hx0 (by rw [hw, hd])
      obtain ⟨y, hxy, hr0⟩ := hy
      have hq : '"' ∈ r0 := by rw [hr0]; simp
      obtain ⟨v, rest, hv, hvq⟩ := quote_split hq
      have hlt := hval a0 v rest (by rw [e0, hv]; simp) hvq
      have hyy : ∃ y', rest = y' ++ (c!"<p:sldId id=\"" ++ (dec n ++ '"' :: b)) := by
        rw [hv] at hr0
        rw [List.append_eq_append_iff] at hr0
        rcases hr0 with ⟨w, _, h2⟩ | ⟨w, h1, h2⟩
        · cases w with
          | nil => simp at h2
          | cons d w =>
            rw [List.cons_append, List.cons.injEq] at h2
            exact ⟨w, h2.2⟩
        · cases w with
          | nil => simp at h2
          | cons d w =>
            have hd : '<' = d := by simpa using congrArg List.head? h2
            exact absurd (by rw [h1, ← hd]; simp) hlt
      obtain ⟨y', hy'⟩ := hyy
      rw [hv] at hs
      rw [maxId_some (by decide) hs hvq]
      have hlen : rest.length ≤ len := by
        have h1 := congrArg List.length e0
        have h2 := congrArg List.length hv
        simp only [List.length_append, List.length_cons, List.length_nil] at h1 h2
        omega
      refine ih rest hlen ?_ y' b (by rw [hy']; simp) _
      intro a' v' b' e' hv'
      refine hval (a0 ++ c!"<p:sldId id=\"" ++ v ++ '"' :: a') v' b' ?_ hv'
      rw [e0, hv, e']
      simp

/-- **C38**: the slide id that the repair gives a slide is larger than every slide id of the presentation.
The hypothesis says that no slide id contains a `<`, as in every well-formed document. -/
theorem C38_slide_id_fresh (xml : Str)
    (hval : ∀ a v b, xml = a ++ c!"<p:sldId id=\"" ++ v ++ '"' :: b → '"' ∉ v → '<' ∉ v)
    (n : Nat) (hn : n < 4294967296) (h : c!"<p:sldId id=\"" ++ dec n ++ c!"\"" <:+: xml) :
    n < findMaxSlideId xml + 1 := by
  obtain ⟨a, b, e⟩ := h
  have := sldId_le hn xml.length xml (Nat.le_refl _) hval a b (by rw [← e]; simp) 0
  exact Nat.lt_succ_of_le this

/-- **C38**: the reference to the slide is written at the end of the slide list, and nothing else of the
presentation changes. -/
theorem C38_slide_listed (s t relId : Str) (hs : ¬ c!"</p:sldIdLst>" <:+: s ++ c!"</p:sldIdLst") (ht : ¬ c!"</p:sldIdLst>" <:+: t) :
    addSlideText (s ++ c!"</p:sldIdLst>" ++ t) relId =
      s ++ (c!"<p:sldId id=\"" ++ dec (findMaxSlideId (s ++ c!"</p:sldIdLst>" ++ t) + 1) ++ c!"\" r:id=\"" ++ relId ++ c!"\"/>\n")
        ++ c!"</p:sldIdLst>" ++ t := by
  unfold addSlideText
  simp only
  generalize dec (findMaxSlideId (s ++ c!"</p:sldIdLst>" ++ t) + 1) = d
  have hsp := splitOnce?_only (p := c!"</p:sldIdLst>") (s := s) (t := t) hs
  rw [if_pos (containsStr_iff.mpr ⟨s, t, rfl⟩), replaceStr_of_some (by decide) hsp, replaceStr_of_none]
  · simp
  · rw [← Option.not_isSome_iff_eq_none]
    intro hc
    exact ht (containsStr_iff_infix.mp hc)

/-- A presentation with one slide. -/
def samplePresentation : Str :=
  c!"<p:presentation><p:sldIdLst><p:sldId id=\"300\" r:id=\"rId2\"/></p:sldIdLst></p:presentation>"

example : addSlideText samplePresentation c!"rId3" =
    c!"<p:presentation><p:sldIdLst><p:sldId id=\"300\" r:id=\"rId2\"/><p:sldId id=\"301\" r:id=\"rId3\"/>\n</p:sldIdLst></p:presentation>" := by
  decide +kernel

/-- **C38** fails as stated: in a presentation without slides, such as the one that the repair itself
creates, the new slide gets the id 1, although slide ids below 256 are not allowed. -/
theorem C38_slide_id_legal_violated :
    addSlideText c!"<p:presentation><p:sldIdLst/></p:presentation>" c!"rId6" =
      c!"<p:presentation><p:sldIdLst><p:sldId id=\"1\" r:id=\"rId6\"/></p:sldIdLst></p:presentation>" ∧
    c!"<p:sldId id=\"1\" r:id=\"rId6\"/>" <:+: addSlideText Repair.presentationXml c!"rId6" := by
  refine ⟨by decide +kernel, ?_⟩
  rw [← containsStr_iff_infix]
  decide +kernel

/-- **C38**: repairing an unreferenced slide writes the same new relationship id into both parts and touches
no other part. -/
theorem C38_both_parts (p : Package) (slidePath rels pres : Str)
    (hr : p.getPartString c!"ppt/_rels/presentation.xml.rels" = some rels)
    (hp : p.getPartString c!"ppt/presentation.xml" = some pres) :
    let q := (repairMissingSlideReference p slidePath).1
    q.getPartString c!"ppt/_rels/presentation.xml.rels" = some (addRelText rels slidePath) ∧
    q.getPartString c!"ppt/presentation.xml" = some (addSlideText pres (c!"rId" ++ dec (findMaxRelId rels + 1))) ∧
    ∀ path, path ≠ c!"ppt/_rels/presentation.xml.rels" → path ≠ c!"ppt/presentation.xml" → q.getPart path = p.getPart path := by
  have add : ∀ (p : Package) (a b : Str) (d : Bytes), (p.addPart a d).getPart b = if b = a then some d else p.getPart b := by
    intro p a b d
    exact AMap.get_insert p a d b
  have hp1 : (p.addPart c!"ppt/_rels/presentation.xml.rels" (encode (addRelText rels slidePath))).getPartString c!"ppt/presentation.xml" = some pres := by
    unfold Package.getPartString at hp ⊢
    rw [add, if_neg (by decide)]
    exact hp
  simp only
  unfold repairMissingSlideReference
  rw [hr]
  simp only
  unfold addSlideToPresentation
  rw [hp1]
  simp only
  refine ⟨?_, ?_, ?_⟩
  · unfold Package.getPartString
    rw [add, if_neg (by decide), add, if_pos rfl, Option.map_some, decodeLossy_encode]
  · unfold Package.getPartString
    rw [add, if_pos rfl, Option.map_some, decodeLossy_encode]
  · intro path h1 h2
    rw [add, if_neg h2, add, if_neg h1]

end PptRs.Props
