import Verif.Lemmas.CommentXml
import Verif.Props.Comments
import Mathlib.Data.List.Nodup

/-!
# Comments and sections as XML (C137, C138)
-/

namespace PptRs.Props

open PptRs PptRs.Spec

/-- Somebody comments on a slide. -/
structure Remark where
  name : Str
  initials : Str
  text : Str
  x : Nat
  y : Nat

/-- A comment is added the way the interface is meant to be used: the author is looked up or added, and the comment is
made with the id. -/
def remark (s : CommentAuthorList × SlideComments) (r : Remark) : CommentAuthorList × SlideComments :=
  ((s.1.getOrAdd r.name r.initials).1, SlideComments.addComment s.2 (s.1.getOrAdd r.name r.initials).2 r.text r.x r.y)

/-- Any number of comments. -/
def remarks (rs : List Remark) : CommentAuthorList × SlideComments := rs.foldl remark (.new, [])

/-- The comment that a remark becomes. -/
def commentOf (names : List Str) (i : Nat) (r : Remark) : Comment :=
  ⟨names.idxOf r.name, r.text, c!"2025-01-01T00:00:00.000", r.x, r.y, i + 1⟩

structure RemarkInv (s : CommentAuthorList × SlideComments) (names : List Str) (rs : List Remark) : Prop where
  authors : AuthorInv s.1 names
  comments : s.2 = rs.mapIdx (commentOf names)
  known : ∀ r ∈ rs, r.name ∈ names

theorem remark_step {s : CommentAuthorList × SlideComments} {names : List Str} {rs : List Remark} (h : RemarkInv s names rs)
    (r : Remark) : RemarkInv (remark s r) (if r.name ∈ names then names else names ++ [r.name]) (rs ++ [r]) := by
  have hl : s.2.length = rs.length := by rw [h.comments, List.length_mapIdx]
  refine ⟨authorInv_step _ _ h.authors _ _, ?_, ?_⟩
  · have hid : (s.1.getOrAdd r.name r.initials).2 = (if r.name ∈ names then names else names ++ [r.name]).idxOf r.name := by
      unfold CommentAuthorList.getOrAdd
      have hm := h.authors.map r.name
      by_cases hn : r.name ∈ names
      · rw [if_pos hn] at hm ⊢
        rw [hm]
      · rw [if_neg hn] at hm ⊢
        rw [hm]
        show s.1.nextId = _
        rw [h.authors.next, List.idxOf_append_of_notMem hn]
        simp
    show s.2 ++ [_] = _
    rw [List.mapIdx_append, hid, hl]
    refine congrArg₂ _ ?_ ?_
    · rw [h.comments]
      apply List.ext_getElem (by simp)
      intro i h1 h2
      simp only [List.getElem_mapIdx, commentOf]
      split
      · rfl
      · rw [List.idxOf_append_of_mem (h.known _ (List.getElem_mem _))]
    · show _ = [commentOf _ (0 + rs.length) r]
      rw [Nat.zero_add]
      rfl
  · intro q hq
    rcases List.mem_append.mp hq with hq | hq
    · split
      · exact h.known q hq
      · exact List.mem_append_left _ (h.known q hq)
    · rw [List.mem_singleton.mp hq]
      split
      · assumption
      · simp

theorem remarks_inv (rs : List Remark) : ∃ names, RemarkInv (remarks rs) names rs := by
  have key : ∀ (rs done : List Remark) (s : CommentAuthorList × SlideComments) (names : List Str), RemarkInv s names done →
      ∃ names', RemarkInv (rs.foldl remark s) names' (done ++ rs) := by
    intro rs
    induction rs with
    | nil => intro done s names h; exact ⟨names, by simpa using h⟩
    | cons r rs ih =>
      intro done s names h
      obtain ⟨names', h'⟩ := ih _ _ _ (remark_step h r)
      exact ⟨names', by simpa using h'⟩
  exact key rs [] _ [] ⟨authorInv_new, rfl, by simp⟩

/-- **C137.** Whatever comments are made by whatever people, a reader of the two parts finds the comments in their order,
numbered from 1, with their texts and positions, and for each exactly one author with the id that the comment refers
to, who has the name given. What is missing: the findings below. -/
theorem C137_read_back_partial (rs : List Remark) : ∃ ka kc, document (remarks rs).1.xml = some [ka] ∧
    document (SlideComments.xml (remarks rs).2) = some [kc] ∧ (readComments kc).length = rs.length ∧
    ∀ (i : Nat) (r : Remark), rs[i]? = some r → ∃ a, (readComments kc)[i]? =
        some ⟨a, some c!"2025-01-01T00:00:00.000", some (dec (i + 1)), some (dec r.x), some (dec r.y), [r.text]⟩ ∧
      ((readAuthors ka).filter (·.id = a)).map (·.name) = [some r.name] := by
  obtain ⟨names, h⟩ := remarks_inv rs
  refine ⟨_, _, document_authors _, document_comments _, ?_, ?_⟩
  · rw [readComments_node, h.comments]; simp
  · intro i r hr
    have hmem : r.name ∈ names := h.known r (List.mem_of_getElem? hr)
    refine ⟨some (dec (names.idxOf r.name)), ?_, ?_⟩
    · rw [readComments_node, h.comments, List.getElem?_map, List.getElem?_mapIdx, hr]
      rfl
    · rw [readAuthors_node, List.filter_map, List.map_map]
      have hids := h.authors.ids
      have hnames := h.authors.names_eq
      have hn : (remarks rs).1.authors.map (fun a => (a.id, a.name)) = (List.range names.length).zip names := by
        rw [← hids, ← hnames, ← List.zip_map']
      have hf : ((remarks rs).1.authors.filter ((fun a : AuthorRead => decide (a.id = some (dec (names.idxOf r.name))))
          ∘ fun a => ⟨some (dec a.id), some a.name, some a.initials, some c!"1", some (dec a.colorIndex)⟩))
          = (remarks rs).1.authors.filter fun a => decide (a.id = names.idxOf r.name) := by
        apply List.filter_congr
        intro a _
        simp only [Function.comp_apply, Option.some.injEq, decide_eq_decide]
        exact ⟨dec_inj, fun e => by rw [e]⟩
      rw [hf]
      have hm : ((remarks rs).1.authors.filter fun a => decide (a.id = names.idxOf r.name)).map (fun a => (a.id, a.name))
          = (((List.range names.length).zip names).filter fun p => decide (p.1 = names.idxOf r.name)) := by
        rw [← hn, List.filter_map]
        rfl
      have hz : (((List.range names.length).zip names).filter fun p => decide (p.1 = names.idxOf r.name))
          = [(names.idxOf r.name, r.name)] := by
        have gen : ∀ (l : List Str) (s k : Nat) (hk : k < l.length),
            ((List.range' s l.length).zip l).filter (fun p => decide (p.1 = s + k)) = [(s + k, l[k])] := by
          intro l
          induction l with
          | nil => intro s k hk; exact absurd hk (by simp)
          | cons x l ih =>
            intro s k hk
            rw [List.length_cons, List.range'_succ, List.zip_cons_cons]
            cases k with
            | zero =>
              rw [List.filter_cons_of_pos (by simp)]
              have : ((List.range' (s + 1) l.length).zip l).filter (fun p => decide (p.1 = s + 0)) = [] := by
                rw [List.filter_eq_nil_iff]
                intro p hp
                have := (List.mem_range'_1.mp (List.of_mem_zip hp).1).1
                simp
                omega
              rw [this]
              rfl
            | succ k =>
              rw [List.filter_cons_of_neg (by simp)]
              have := ih (s + 1) k (by simpa using hk)
              rw [show s + 1 + k = s + (k + 1) by omega] at this
              rw [this]
              rfl
        have hlt := List.idxOf_lt_length_iff.mpr hmem
        have := gen names 0 _ hlt
        rw [← List.range_eq_range', Nat.zero_add] at this
        rw [this, List.getElem_idxOf hlt]
      rw [hz] at hm
      have := congrArg (List.map fun p : Nat × Str => some p.2) hm
      rw [List.map_map] at this
      exact this

/-- **C137** for parts put together in any way: authors and comments are read with all their fields. -/
theorem C137_fields (l : CommentAuthorList) (cs : SlideComments) : ∃ ka kc, document l.xml = some [ka] ∧
    document (SlideComments.xml cs) = some [kc] ∧
    (readAuthors ka).map (fun a => (a.id, a.name, a.initials, a.color))
      = l.authors.map (fun a => (some (dec a.id), some a.name, some a.initials, some (dec a.colorIndex))) ∧
    readComments kc = cs.map fun c =>
      ⟨some (dec c.authorId), some c.date, some (dec c.index), some (dec c.x), some (dec c.y), [c.text]⟩ := by
  refine ⟨_, _, document_authors _, document_comments _, ?_, readComments_node _⟩
  rw [readAuthors_node, List.map_map]
  rfl

/-- A call on a comment. -/
inductive CommentCall where
  | position (x y : Nat)
  | date (d : Str)
  | index (i : Nat)

/-- The call. -/
def CommentCall.run (c : Comment) : CommentCall → Comment
  | .position x y => c.position x y
  | .date d => c.withDate d
  | .index i => c.withIndex i

/-- The last of the values that the calls set. -/
def lastGiven {α β : Type} (f : α → Option β) (d : β) (l : List α) : β := ((l.filterMap f).getLast?).getD d

theorem lastGiven_cons {α β : Type} (f : α → Option β) (d : β) (a : α) (l : List α) :
    lastGiven f d (a :: l) = lastGiven f ((f a).getD d) l := by
  unfold lastGiven
  cases h : f a with
  | none => rw [List.filterMap_cons_none h]; rfl
  | some b => rw [List.filterMap_cons_some h, List.getLast?_cons]; simp

/-- **C137.** A comment that was made and changed by any calls is read with its author and text, and with the date, the number
and the place that were given last. -/
theorem C137_changed (author : Nat) (text : Str) (calls : List CommentCall) :
    ∃ kc, document (SlideComments.xml (SlideComments.add [] (calls.foldl CommentCall.run (Comment.new author text)))) = some [kc] ∧
    readComments kc = [⟨some (dec author),
      some (lastGiven (fun | .date d => some d | _ => none) c!"2025-01-01T00:00:00.000" calls),
      some (dec (lastGiven (fun | .index i => some i | _ => none) 1 calls)),
      some (dec (lastGiven (fun | .position x _ => some x | _ => none) 0 calls)),
      some (dec (lastGiven (fun | .position _ y => some y | _ => none) 0 calls)), [text]⟩] := by
  refine ⟨_, document_comments _, ?_⟩
  rw [readComments_node]
  have key : ∀ (calls : List CommentCall) (c : Comment), calls.foldl CommentCall.run c =
      ⟨c.authorId, c.text, lastGiven (fun | .date d => some d | _ => none) c.date calls,
        lastGiven (fun | .position x _ => some x | _ => none) c.x calls,
        lastGiven (fun | .position _ y => some y | _ => none) c.y calls,
        lastGiven (fun | .index i => some i | _ => none) c.index calls⟩ := by
    intro calls
    induction calls with
    | nil => intro c; rfl
    | cons o calls ih =>
      intro c
      rw [List.foldl_cons, ih]
      simp only [lastGiven_cons]
      cases o <;> rfl
  rw [key]
  rfl

example : ([CommentCall.date c!"2024-05-06", .position 3 4, .index 7, .position 5 6].foldl CommentCall.run (Comment.new 1 c!"t")) =
    ⟨1, c!"t", c!"2024-05-06", 5, 6, 7⟩ := by decide

/-- **C137 does not hold for the number of an author's last comment**: `lastIdx` is 1 for every author, also for authors
with later comments, so the next comment made in an editor gets a number that is already in use. -/
theorem C137_last_violated (l : CommentAuthorList) : ∃ ka, document l.xml = some [ka] ∧
    ∀ a ∈ readAuthors ka, a.last = some c!"1" := by
  refine ⟨_, document_authors _, ?_⟩
  rw [readAuthors_node]
  intro a ha
  obtain ⟨_, _, rfl⟩ := List.mem_map.mp ha
  rfl

/-- **C137 does not hold for comments made apart from the list**: `Comment::new` gives every comment the number 1 and
`add` keeps it, so two of them by one author have the same number. -/
theorem C137_index_violated (a : Nat) (t u : Str) : ∃ kc,
    document (SlideComments.xml (SlideComments.add (SlideComments.add [] (Comment.new a t)) (Comment.new a u))) = some [kc] ∧
    (readComments kc).map (fun c => (c.author, c.index)) = [(some (dec a), some (dec 1)), (some (dec a), some (dec 1))] := by
  refine ⟨_, document_comments _, ?_⟩
  rw [readComments_node]
  rfl

/-- Two people, three comments, one of them with markup. -/
example : ((remarks [⟨c!"Ann", c!"A", c!"a < b", 1, 2⟩, ⟨c!"Bo", c!"B", c!"", 3, 4⟩, ⟨c!"Ann", c!"X", c!"c", 5, 6⟩]).2.map (·.authorId)
    = [0, 1, 0]) := by decide

/-! ### Sections -/

/-- **C138.** A section list is read as it is: the sections in their order, each with its name, an id in the form of a GUID
and the ids of those of its slides that exist, slide `i` having the id `256 + i`. What is missing: the finding below. -/
theorem C138_read_back_partial {m : SectionManager} (h : m.sections ≠ []) (total : Nat) :
    ∃ k, parse (m.xml total) = some [k] ∧ (readSections k).map (·.name) = m.sections.map (fun s => some s.name) ∧
      (∀ s ∈ readSections k, ∃ g, s.id = some g ∧ IsGuid g) ∧
      (readSections k).map (·.slides) = m.sections.map fun s =>
        ((List.range' s.firstSlide s.slideCount).filter (· < total)).map fun i => some (dec (256 + i)) := by
  refine ⟨_, parse_sections h total, ?_, ?_, ?_⟩
  · rw [readSections_node, List.map_map]; rfl
  · rw [readSections_node]
    intro s hs
    obtain ⟨x, _, rfl⟩ := List.mem_map.mp hs
    exact ⟨_, rfl, guid_section _⟩
  · rw [readSections_node, List.map_map]
    congr 1
    funext s
    simp only [Function.comp_apply, SectionManager.sectionIds]
    rw [List.range'_eq_map_range, List.filter_map, List.map_map, List.map_map]
    congr 1
    funext i
    simp only [Function.comp_apply, Nat.add_assoc]

/-- No sections, no text. -/
theorem C138_empty (total : Nat) : SectionManager.new.xml total = [] := rfl

/-- The id of a section shows the whole hash. -/
theorem C138_hash {g h : UInt64} : sectionIdOf g = sectionIdOf h ↔ g = h := by
  refine ⟨fun e => ?_, fun e => by rw [e]⟩
  unfold sectionIdOf at e
  simp only [List.append_assoc] at e
  obtain ⟨e1, e⟩ := List.append_inj e (by simp [length_hexU])
  obtain ⟨_, e⟩ := List.append_inj e rfl
  obtain ⟨e2, e⟩ := List.append_inj e (by simp [length_hexU])
  obtain ⟨_, e⟩ := List.append_inj e rfl
  obtain ⟨e3, e⟩ := List.append_inj e (by simp [length_hexU])
  have bg := g.toNat_lt
  have bh := h.toNat_lt
  have q1 := hexU_inj (by omega) (by omega) e1
  have q2 := hexU_inj (by omega) (by omega) e2
  have q3 := hexU_inj (by omega) (by omega) e3
  apply UInt64.toNat_inj.mp
  omega

theorem fnv_step_inj {g h : UInt64} {a b : UInt8}
    (e : (g ^^^ a.toUInt64) * 0x100000001b3 = (h ^^^ b.toUInt64) * 0x100000001b3) : g ^^^ a.toUInt64 = h ^^^ b.toUInt64 := by
  have := congrArg (· * (14886173955864302971 : UInt64)) e
  simp only [UInt64.mul_assoc] at this
  rw [show (0x100000001b3 : UInt64) * 14886173955864302971 = 1 by decide +kernel] at this
  simpa only [UInt64.mul_one] using this

theorem xor_cancel {g h x : UInt64} (e : g ^^^ x = h ^^^ x) : g = h := by
  have := congrArg (· ^^^ x) e
  simpa only [UInt64.xor_assoc, UInt64.xor_self, UInt64.xor_zero] using this

theorem fold_inj {g h : UInt64} (l : Bytes) (e : l.foldl (fun h b => (h ^^^ b.toUInt64) * 0x100000001b3) g
    = l.foldl (fun h b => (h ^^^ b.toUInt64) * 0x100000001b3) h) : g = h := by
  induction l generalizing g h with
  | nil => exact e
  | cons b l ih => exact xor_cancel (fnv_step_inj (ih e))

/-- **C138**, names that differ in one byte (of their UTF-8 form) have different ids. -/
theorem C138_one_byte {m n : Str} {p q : Bytes} {a b : UInt8} (hm : encode m = p ++ a :: q) (hn : encode n = p ++ b :: q)
    (h : a ≠ b) : sectionId m ≠ sectionId n := by
  intro e
  have e := C138_hash.mp e
  unfold sectionHash at e
  rw [hm, hn, List.foldl_append, List.foldl_append, List.foldl_cons, List.foldl_cons] at e
  have e := fnv_step_inj (fold_inj q e)
  rw [UInt64.xor_comm _ a.toUInt64, UInt64.xor_comm _ b.toUInt64] at e
  have e := xor_cancel e
  apply h
  have := congrArg UInt64.toUInt8 e
  simpa using this

/-- **C138**, sections "A" and "B" as examples of names that differ in one byte. -/
example : sectionId c!"Part A" ≠ sectionId c!"Part B" :=
  C138_one_byte (p := encode c!"Part ") (q := []) (a := 65) (b := 66) (by decide) (by decide) (by decide)

/-- **C138 does not hold for sections of the same name**, which can be added as long as their slides differ: the id is made
from the name alone, so both sections have the same id. -/
theorem C138_same_name_violated (n : Str) : ∃ m : SectionManager,
    m = ((SectionManager.new.addSection n 0 1).1.addSection n 1 1).1 ∧ ∃ k, parse (m.xml 2) = some [k] ∧
    (readSections k).map (·.id) = [some (c!"{" ++ sectionId n ++ c!"}"), some (c!"{" ++ sectionId n ++ c!"}")] ∧
    (readSections k).map (·.slides) = [[some (dec 256)], [some (dec 257)]] := by
  have e : ((SectionManager.new.addSection n 0 1).1.addSection n 1 1).1 = ⟨[⟨n, 0, 1⟩, ⟨n, 1, 1⟩]⟩ := by rfl
  refine ⟨_, rfl, ?_⟩
  rw [e]
  refine ⟨_, parse_sections (by simp) 2, ?_, ?_⟩ <;> rw [readSections_node] <;> rfl

end PptRs.Props
