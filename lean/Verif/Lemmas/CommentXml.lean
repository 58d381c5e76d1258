import Verif.Spec.Comments
import Verif.Lemmas.Settings
import Verif.Lemmas.DrawingRead

/-!
# Reading comments, comment authors and sections
-/

namespace PptRs

open PptRs.Spec PptRs.Settings PptRs.Draw

theorem path_one {n m : Str} {as : List (Str × Str)} (ks : List Node) : path [n] (E m as ks) = named n ks := by
  show (named n ks).flatMap (path []) = _
  exact flatMap_path_nil _

theorem path_down {n m : Str} {as : List (Str × Str)} {r : List Str} {k : Node} {ks : List Node} (h : named n ks = [k]) :
    path (n :: r) (E m as ks) = path r k := by
  show (named n ks).flatMap (path r) = _
  rw [h, List.flatMap_singleton]

/-- The attributes that declare the namespaces of a part. -/
def nsAttrs : List (Str × Str) :=
  [(c!"xmlns:a", c!"http://schemas.openxmlformats.org/drawingml/2006/main"),
   (c!"xmlns:r", c!"http://schemas.openxmlformats.org/officeDocument/2006/relationships"),
   (c!"xmlns:p", c!"http://schemas.openxmlformats.org/presentationml/2006/main")]

/-! ### Authors -/

def CommentAuthor.node (a : CommentAuthor) : Node :=
  E c!"p:cmAuthor" [(c!"id", dec a.id), (c!"name", a.name), (c!"initials", a.initials), (c!"lastIdx", c!"1"), (c!"clrIdx", dec a.colorIndex)] []

theorem readsNodes_author (a : CommentAuthor) : ReadsNodes a.xml [a.node] :=
  (Splits.lit (by unfold CommentAuthor.xml; parts_ok)).readsNodes (by krfl)

def CommentAuthorList.node (l : CommentAuthorList) : Node := E c!"p:cmAuthorLst" nsAttrs (l.authors.map CommentAuthor.node)

theorem readsNodes_map {α : Type} {f : α → List Part} {g : α → Node} (l : List α) (h : ∀ a ∈ l, ReadsNodes (f a) [g a]) :
    ReadsNodes (l.flatMap f) (l.map g) := by
  have : l.map g = l.flatMap fun a => [g a] := by
    induction l with
    | nil => rfl
    | cons a l ih => rw [List.map_cons, List.flatMap_cons, ih fun b hb => h b (List.mem_cons_of_mem _ hb)]; rfl
  rw [this]
  exact readsNodes_flatMap h

theorem document_authors (l : CommentAuthorList) : document l.xml = some [l.node] :=
  document_tight (Splits.readsNodes (((Splits.lit (by parts_ok)).append
    (.nodes (readsNodes_map l.authors fun a _ => readsNodes_author a))).append (.lit (by parts_ok))) (by krfl))
    ⟨_, rfl⟩

theorem readAuthors_node (l : CommentAuthorList) : readAuthors l.node
    = l.authors.map fun a => ⟨some (dec a.id), some a.name, some a.initials, some c!"1", some (dec a.colorIndex)⟩ := by
  unfold readAuthors CommentAuthorList.node
  rw [path_one, named_map (g := CommentAuthor.node) fun a _ => ⟨_, _, rfl⟩, List.map_map]
  rfl

/-! ### Comments -/

def Comment.node (c : Comment) : Node :=
  E c!"p:cm" [(c!"authorId", dec c.authorId), (c!"dt", c.date), (c!"idx", dec c.index)]
    [E c!"p:pos" [(c!"x", dec c.x), (c!"y", dec c.y)] [], E c!"p:text" [] (addText [] c.text)]

theorem readsNodes_comment (c : Comment) : ReadsNodes c.xml [c.node] :=
  (Splits.lit (by unfold Comment.xml; parts_ok)).readsNodes (by krfl)

def commentsNode (l : SlideComments) : Node := E c!"p:cmLst" nsAttrs (l.map Comment.node)

theorem document_comments (l : SlideComments) : document (SlideComments.xml l) = some [commentsNode l] :=
  document_tight (Splits.readsNodes (((Splits.lit (by parts_ok)).append
    (.nodes (readsNodes_map l fun a _ => readsNodes_comment a))).append (.lit (by parts_ok))) (by krfl))
    ⟨_, rfl⟩

theorem readComments_node (l : SlideComments) : readComments (commentsNode l)
    = l.map fun c => ⟨some (dec c.authorId), some c.date, some (dec c.index), some (dec c.x), some (dec c.y), [c.text]⟩ := by
  unfold readComments commentsNode
  rw [path_one, named_map (g := Comment.node) fun a _ => ⟨_, _, rfl⟩, List.map_map]
  congr 1
  funext c
  have e : path [c!"p:text"] c.node = [E c!"p:text" [] (addText [] c.text)] := by krfl
  simp only [Function.comp_apply, e]
  have : contentOf (E c!"p:text" [] (addText [] c.text)) = c.text := textOf_addText c.text
  simp only [List.map_cons, List.map_nil, this]
  rfl

/-! ### Sections -/

theorem mem_hexU {c : Char} {w n : Nat} (h : c ∈ hexU w n) : isGuidDigit c = true := by
  have hd : ∀ m < 16, isGuidDigit (hexDigitU m) = true := by decide
  induction w generalizing n with
  | zero => exact absurd h (by simp [hexU])
  | succ w ih =>
    rcases List.mem_append.mp h with h | h
    · exact ih h
    · rw [List.mem_singleton.mp h]
      exact hd _ (Nat.mod_lt _ (by decide))

theorem length_hexU (w n : Nat) : (hexU w n).length = w := by
  induction w generalizing n with
  | zero => rfl
  | succ w ih => simp [hexU, ih]

theorem hexU_inj {w a b : Nat} (ha : a < 16 ^ w) (hb : b < 16 ^ w) (h : hexU w a = hexU w b) : a = b := by
  have hd : ∀ m < 16, ∀ k < 16, hexDigitU m = hexDigitU k → m = k := by decide
  induction w generalizing a b with
  | zero => simp at ha hb; omega
  | succ w ih =>
    obtain ⟨h1, h2⟩ := List.append_inj h (by simp [length_hexU])
    have e1 := ih (by rw [pow_succ] at ha; omega) (by rw [pow_succ] at hb; omega) h1
    have e2 := hd _ (Nat.mod_lt _ (by decide)) _ (Nat.mod_lt _ (by decide)) (List.singleton_inj.mp h2)
    omega

theorem guid_section (h : UInt64) : IsGuid (c!"{" ++ sectionIdOf h ++ c!"}") := by
  refine ⟨_, _, _, _, _, ?_, length_hexU 8 (h.toNat / 2 ^ 32), length_hexU 4 (h.toNat % 2 ^ 16), length_hexU 4 (h.toNat / 2 ^ 16 % 2 ^ 16),
    length_hexU 4 ((h * 0x9e3779b97f4a7c15).toNat % 2 ^ 16), length_hexU 12 ((h * 0x9e3779b97f4a7c15).toNat / 2 ^ 16), ?_⟩
  · simp only [sectionIdOf, List.append_assoc]
  · rw [List.all_eq_true]
    intro c hc
    simp only [List.mem_append] at hc
    rcases hc with (((hc | hc) | hc) | hc) | hc <;> exact mem_hexU hc

theorem plain_sectionId (n : Str) : Plain (sectionId n) := by
  have key : ∀ c ∈ sectionId n, isGuidDigit c = true ∨ c = '-' := by
    intro c hc
    unfold sectionId sectionIdOf at hc
    simp only [List.mem_append, List.mem_singleton] at hc
    rcases hc with (((((((hc | hc) | hc) | hc) | hc) | hc) | hc) | hc) | hc <;>
      first | exact .inl (mem_hexU hc) | exact .inr hc
  refine ⟨fun h => ?_, fun h => ?_, fun h => ?_⟩ <;> exact absurd (key _ h) (by decide)

def slideIdNode (n : Nat) : Node := E c!"p14:sldId" [(c!"id", dec n)] []

def SlideSection.node (total : Nat) (s : SlideSection) : Node :=
  E c!"p14:section" [(c!"name", s.name), (c!"id", c!"{" ++ sectionId s.name ++ c!"}")]
    [E c!"p14:sldIdLst" [] ((SectionManager.sectionIds total s).map slideIdNode)]

theorem readsNodes_section (total : Nat) (s : SlideSection) : ReadsNodes (s.xml total) [s.node total] :=
  have hp := plain_sectionId s.name
  Splits.readsNodes (((Splits.lit (by parts_ok)).append
    (.nodes (readsNodes_map (g := slideIdNode) _ fun n _ => (Splits.lit (by parts_ok)).readsNodes (by krfl)))).append
    (.lit (by parts_ok))) (by krfl)

def SectionManager.node (m : SectionManager) (total : Nat) : Node :=
  E c!"p:extLst" [] [E c!"p:ext" [(c!"uri", c!"{521415D9-36F7-43E2-AB2F-B90AF26B5E84}")]
    [E c!"p14:sectionLst" [(c!"xmlns:p14", c!"http://schemas.microsoft.com/office/powerpoint/2010/main")]
      (m.sections.map (SlideSection.node total))]]

theorem parse_sections {m : SectionManager} (h : m.sections ≠ []) (total : Nat) : parse (m.xml total) = some [m.node total] := by
  unfold SectionManager.xml
  rw [if_neg h]
  exact parse_of_nodes (Splits.readsNodes (((Splits.lit (by parts_ok)).append
    (.nodes (readsNodes_map m.sections fun a _ => readsNodes_section total a))).append (.lit (by parts_ok))) (by krfl))

theorem readSections_node (m : SectionManager) (total : Nat) : readSections (m.node total)
    = m.sections.map fun s => ⟨some s.name, some (c!"{" ++ sectionId s.name ++ c!"}"),
        (SectionManager.sectionIds total s).map fun n => some (dec n)⟩ := by
  unfold readSections SectionManager.node
  rw [path_down rfl, path_down rfl, path_one, named_map (g := SlideSection.node total) fun a _ => ⟨_, _, rfl⟩, List.map_map]
  congr 1
  funext s
  simp only [Function.comp_apply]
  have e : path [c!"p14:sldIdLst", c!"p14:sldId"] (s.node total) = (SectionManager.sectionIds total s).map slideIdNode := by
    unfold SlideSection.node
    rw [path_down rfl, path_one, named_map (g := slideIdNode) fun a _ => ⟨_, _, rfl⟩]
  rw [e, List.map_map]
  rfl

end PptRs
