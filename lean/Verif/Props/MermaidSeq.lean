import Verif.Model.Mermaid
import Verif.Props.FlowSource

/-!
# Mermaid: kinds of diagrams (C114), sequence diagrams (C115)
-/

namespace PptRs.Props

open PptRs PptRs.Mermaid

/-! ### Kinds -/

/-- Converting to lower case changes ASCII characters at the beginning of a text on their own. -/
def AsciiLower (low : Str → Str) : Prop :=
  ∀ s t : Str, (∀ c ∈ s, c.toNat < 128) → ∃ u, low (s ++ t) = s.map Char.toLower ++ u

/-- The first words of diagrams, as in the documentation of Mermaid. -/
def diagramWords : List (Str × Kind) :=
  [(c!"graph", .flowchart), (c!"flowchart", .flowchart), (c!"sequenceDiagram", .sequence), (c!"pie", .pie), (c!"gantt", .gantt),
   (c!"classDiagram", .classDiagram), (c!"classDiagram-v2", .classDiagram), (c!"stateDiagram", .stateDiagram), (c!"stateDiagram-v2", .stateDiagram),
   (c!"erDiagram", .erDiagram), (c!"mindmap", .mindmap), (c!"timeline", .timeline), (c!"journey", .journey), (c!"quadrantChart", .quadrant),
   (c!"gitGraph", .gitGraph)]

theorem trimEnd_append_keep {s t : Str} (h : ∀ c, s.getLast? = some c → isWs c = false) (hs : s ≠ []) : ∃ u, trimEnd (s ++ t) = s ++ u := by
  unfold trimEnd
  rw [List.reverse_append]
  by_cases ht : ∀ c ∈ t.reverse, isWs c = true
  · refine ⟨[], ?_⟩
    rw [List.dropWhile_append_of_pos ht]
    cases hr : s.reverse with
    | nil => simp at hr; exact absurd hr hs
    | cons c r =>
      have : isWs c = false := h c (by rw [← List.head?_reverse, hr]; rfl)
      rw [List.dropWhile_cons_of_neg (by simp [this]), ← hr, List.reverse_reverse, List.append_nil]
  · obtain ⟨u, hu⟩ : ∃ u, (t.reverse ++ s.reverse).dropWhile isWs = u ++ s.reverse := by
      generalize t.reverse = r at ht
      induction r with
      | nil => exact absurd (by simp) ht
      | cons c r ih =>
        rw [List.cons_append, List.dropWhile_cons]
        split
        · rename_i hc
          exact ih (fun hh => ht (by simpa [hc] using hh))
        · exact ⟨c :: r, rfl⟩
    rw [hu]
    exact ⟨u.reverse, by simp⟩

theorem headD_splitChar {a r : Str} (h : '\n' ∉ a) : ∃ t, (splitChar '\n' (a ++ r)).headD [] = a ++ t := by
  induction a with
  | nil => exact ⟨_, rfl⟩
  | cons c a ih =>
    obtain ⟨t, ht⟩ := ih (by simp_all)
    have hc : c ≠ '\n' := by intro hh; simp_all
    refine ⟨t, ?_⟩
    rw [List.cons_append, splitChar, if_neg hc]
    split
    · rename_i e; exact absurd e (splitChar_ne_nil _ _)
    · rename_i x xs e
      rw [e] at ht
      simp only [List.headD_cons] at ht ⊢
      rw [ht]; rfl

theorem startsWith_lower {w p u : Str} (h : startsWith p w = true) : startsWith p (w ++ u) = true := by
  obtain ⟨r, hr⟩ := startsWith_iff.mp h
  exact startsWith_iff.mpr ⟨r ++ u, by rw [hr, List.append_assoc]⟩

theorem startsWith_longer {w p u : Str} (h : p.length ≤ w.length) : startsWith p (w ++ u) = startsWith p w := by
  rw [Bool.eq_iff_iff, startsWith_iff, startsWith_iff]
  constructor
  · rintro ⟨r, hr⟩
    refine ⟨w.drop p.length, ?_⟩
    have := congrArg (List.take p.length) hr
    rw [List.take_append_of_le_length h, List.take_left'  rfl] at this
    rw [← List.take_append_drop p.length w, this]
    simp
  · rintro ⟨r, hr⟩; exact ⟨r ++ u, by rw [hr, List.append_assoc]⟩

/-- **C114.** The kind of a diagram is recognised by its first word, whatever stands before it on the line as white space and
whatever follows. -/
theorem C114_kinds {low : Str → Str} (hl : AsciiLower low) {w : Str} {k : Kind} (hw : (w, k) ∈ diagramWords) {p r : Str}
    (hp : ∀ c ∈ p, isWs c = true ∧ c ≠ '\n') : detectType low (p ++ w ++ r) = k := by
  have hw2 : (∀ c ∈ w, isWs c = false ∧ c.toNat < 128) ∧ w ≠ [] := by
    have : ∀ q ∈ diagramWords, (∀ c ∈ q.1, isWs c = false ∧ c.toNat < 128) ∧ q.1 ≠ [] := by decide
    exact this _ hw
  have hnl : '\n' ∉ p ++ w := by
    simp only [List.mem_append, not_or]
    exact ⟨fun h => (hp _ h).2 rfl, fun h => by have := (hw2.1 _ h).1; revert this; decide⟩
  obtain ⟨t, ht⟩ := headD_splitChar (r := r) hnl
  have e1 : trim (p ++ w ++ t) = trimEnd (w ++ t) := by
    unfold trim trimStart
    rw [List.append_assoc, List.dropWhile_append_of_pos (fun c hc => (hp c hc).1)]
    cases w with
    | nil => exact absurd rfl hw2.2
    | cons c w => rw [List.cons_append, List.dropWhile_cons_of_neg (by simp [(hw2.1 c (by simp)).1])]
  obtain ⟨u, hu⟩ := trimEnd_append_keep (s := w) (t := t) (fun c hc => (hw2.1 c (List.mem_of_mem_getLast? hc)).1) hw2.2
  obtain ⟨v, hv⟩ : ∃ v, lowerStr low (w ++ u) = w.map Char.toLower ++ v := by
    unfold lowerStr
    split
    · exact ⟨u.map Char.toLower, by simp⟩
    · exact hl w u (fun c hc => (hw2.1 c hc).2)
  unfold detectType
  rw [ht, e1, hu, hv]
  revert hw
  clear hw2 hnl ht e1 hu hv
  intro hw
  simp only [diagramWords, List.mem_cons, Prod.mk.injEq, List.not_mem_nil, or_false] at hw
  rcases hw with h | h | h | h | h | h | h | h | h | h | h | h | h | h | h <;> (obtain ⟨rfl, rfl⟩ := h; rfl)

/-- Non-vacuity: an indented header in mixed case with text after it. -/
example : detectType id c!"  stateDiagram-v2\n  A --> B" = .stateDiagram := by decide

/-- The beginnings by which the kinds are recognised. -/
def kindWords : List (Str × Kind) :=
  [(c!"graph", .flowchart), (c!"flowchart", .flowchart), (c!"sequence", .sequence), (c!"pie", .pie), (c!"gantt", .gantt),
   (c!"class", .classDiagram), (c!"state", .stateDiagram), (c!"er", .erDiagram), (c!"mindmap", .mindmap), (c!"timeline", .timeline),
   (c!"journey", .journey), (c!"quadrant", .quadrant), (c!"git", .gitGraph)]

/-- **C114.** A kind is recognised only if the first line begins with a word for it. -/
theorem C114_only (low : Str → Str) (code : Str) {k : Kind} (hk : k ≠ .unknown) (h : detectType low code = k) :
    ∃ w r, (w, k) ∈ kindWords ∧ lowerStr low (trim ((splitChar '\n' code).headD [])) = w ++ r := by
  unfold detectType at h
  dsimp only at h
  generalize lowerStr low (trim ((splitChar '\n' code).headD [])) = first at h ⊢
  have key : ∀ w : Str, (w, k) ∈ kindWords → startsWith w first = true → ∃ w r, (w, k) ∈ kindWords ∧ first = w ++ r := by
    intro w hw hs
    obtain ⟨r, hr⟩ := startsWith_iff.mp hs
    exact ⟨w, r, hw, hr⟩
  have short : ∀ {p : Str} (w : Str), w <+: p → startsWith p first = true → startsWith w first = true := by
    intro p w ⟨t, ht⟩ hs
    obtain ⟨r, hr⟩ := startsWith_iff.mp hs
    exact startsWith_iff.mpr ⟨t ++ r, by rw [hr, ← ht, List.append_assoc]⟩
  have pick : ∀ {c : Bool} {a b : Kind}, (if c = true then a else b) = k → (c = true ∧ a = k) ∨ b = k := by
    intro c a b h
    cases c
    · exact .inr h
    · exact .inl ⟨rfl, h⟩
  rcases pick h with ⟨hc, rfl⟩ | h
  · rcases (Bool.or_eq_true _ _).mp hc with hc | hc
    · exact key c!"graph" (by decide) hc
    · exact key c!"flowchart" (by decide) hc
  rcases pick h with ⟨hc, rfl⟩ | h
  · rcases (Bool.or_eq_true _ _).mp hc with hc | hc
    · exact key c!"sequence" (by decide) (short _ ⟨c!"diagram", rfl⟩ hc)
    · exact key c!"sequence" (by decide) hc
  rcases pick h with ⟨hc, rfl⟩ | h
  · exact key c!"pie" (by decide) hc
  rcases pick h with ⟨hc, rfl⟩ | h
  · exact key c!"gantt" (by decide) hc
  rcases pick h with ⟨hc, rfl⟩ | h
  · rcases (Bool.or_eq_true _ _).mp hc with hc | hc
    · exact key c!"class" (by decide) (short _ ⟨c!"diagram", rfl⟩ hc)
    · exact key c!"class" (by decide) hc
  rcases pick h with ⟨hc, rfl⟩ | h
  · rcases (Bool.or_eq_true _ _).mp hc with hc | hc
    · exact key c!"state" (by decide) (short _ ⟨c!"diagram", rfl⟩ hc)
    · exact key c!"state" (by decide) hc
  rcases pick h with ⟨hc, rfl⟩ | h
  · rcases (Bool.or_eq_true _ _).mp hc with hc | hc
    · exact key c!"er" (by decide) (short _ ⟨c!"diagram", rfl⟩ hc)
    · exact key c!"er" (by decide) hc
  rcases pick h with ⟨hc, rfl⟩ | h
  · exact key c!"mindmap" (by decide) hc
  rcases pick h with ⟨hc, rfl⟩ | h
  · exact key c!"timeline" (by decide) hc
  rcases pick h with ⟨hc, rfl⟩ | h
  · exact key c!"journey" (by decide) hc
  rcases pick h with ⟨hc, rfl⟩ | h
  · rcases (Bool.or_eq_true _ _).mp hc with hc | hc
    · exact key c!"quadrant" (by decide) (short _ ⟨c!"chart", rfl⟩ hc)
    · exact key c!"quadrant" (by decide) hc
  rcases pick h with ⟨hc, rfl⟩ | h
  · rcases (Bool.or_eq_true _ _).mp hc with hc | hc
    · exact key c!"git" (by decide) (short _ ⟨c!"graph", rfl⟩ hc)
    · exact key c!"git" (by decide) hc
  exact absurd h.symm hk

example : detectType id c!"pixel\n" = .unknown ∧ detectType id c!"pie title x" = .pie := by decide

/-- **C114 does not hold in full**: a text that begins with a comment, as `%% overview`, or with settings, as
`%%{init: ...}%%` or `---`, is of unknown kind, whatever diagram follows. -/
theorem C114_comment_violated (low : Str → Str) (a r : Str) (h : ∀ c ∈ a, c.toNat < 128 ∧ c ≠ '\n') :
    detectType low (c!"%%" ++ a ++ c!"\n" ++ r) = .unknown ∧ detectType low (c!"---\n" ++ r) = .unknown := by
  constructor
  · have h1 : '\n' ∉ c!"%%" ++ a := by
      simp only [List.mem_append, not_or]
      exact ⟨by decide, fun hh => (h _ hh).2 rfl⟩
    have e : c!"%%" ++ a ++ c!"\n" ++ r = (c!"%%" ++ a) ++ '\n' :: r := by simp
    unfold detectType
    rw [e, splitChar_append_sep h1]
    obtain ⟨u, hu⟩ := trimEnd_append_keep (s := c!"%%") (t := a) (by intro c hc; cases hc; rfl) (by decide)
    have e2 : trim (c!"%%" ++ a) = c!"%%" ++ u := hu
    have hu3 : ∀ c ∈ u, c.toNat < 128 := by
      intro c hc
      have : c ∈ trimEnd (c!"%%" ++ a) := by rw [hu]; simp [hc]
      have := List.mem_reverse.mp ((List.dropWhile_sublist _).subset (List.mem_reverse.mp this))
      simp only [List.cons_append, List.nil_append, List.mem_cons] at this
      rcases this with rfl | rfl | h'
      · decide
      · decide
      · exact (h c h').1
    simp only [List.headD_cons, e2]
    have e3 : lowerStr low (c!"%%" ++ u) = c!"%%" ++ u.map Char.toLower := by
      unfold lowerStr
      rw [if_pos]
      · rfl
      · simp only [List.all_eq_true, decide_eq_true_eq]
        intro c hc
        simp only [List.cons_append, List.nil_append, List.mem_cons] at hc
        rcases hc with rfl | rfl | h'
        · decide
        · decide
        · exact hu3 c h'
    rw [e3]
    rfl
  · have e : c!"---\n" ++ r = c!"---" ++ '\n' :: r := by simp
    unfold detectType
    rw [e, splitChar_append_sep (by decide)]
    rfl

/-! ### Source texts -/

/-- A diagram with a header and indented lines. -/
def diagramText (header : Str) (ls : List (Str × Str)) : Str := joinStr c!"\n" (header :: ls.map fun p => p.1 ++ p.2)

theorem body_diagramText {header : Str} {ls : List (Str × Str)} (hh : '\n' ∉ header)
    (hl : ∀ p ∈ ls, (∀ c ∈ p.1, isWs c = true ∧ c ≠ '\n') ∧ '\n' ∉ p.2 ∧ Tight p.2) : body (diagramText header ls) = ls.map (·.2) := by
  unfold body diagramText
  rw [splitChar_joinStr (by simp)]
  · rw [List.tail_cons, List.map_map]
    apply List.map_congr_left
    intro p hp
    exact trim_indent (fun c hc => ((hl p hp).1 c hc).1) (hl p hp).2.2
  · intro x hx
    rcases List.mem_cons.mp hx with rfl | hx
    · exact hh
    · obtain ⟨p, hp, rfl⟩ := List.mem_map.mp hx
      simp only [List.mem_append, not_or]
      exact ⟨fun h => ((hl p hp).1 _ h).2 rfl, (hl p hp).2.1⟩

/-- A word of letters, digits and underscores. -/
def Word (s : Str) : Prop := s ≠ [] ∧ ∀ c ∈ s, c.isAlphanum = true ∨ c = '_'

theorem Word.notMem {s : Str} (h : Word s) {c : Char} (hc : c.isAlphanum = false) (hc' : c ≠ '_') : c ∉ s := by
  intro hm
  rcases h.2 c hm with h | h
  · rw [h] at hc; cases hc
  · exact hc' h

theorem Word.tight {s : Str} (h : Word s) : Tight s :=
  ⟨fun c hc => isWs_word (h.2 c (List.mem_of_mem_head? hc)), fun c hc => isWs_word (h.2 c (List.mem_of_mem_getLast? hc)), h.1⟩

/-! ### Sequence diagrams -/

/-- A statement of a sequence diagram. -/
inductive SeqStmt where
  /-- `participant id` or `participant id as name`. -/
  | who (id : Str) (name : Option Str)
  /-- `a->>b: text` or `a-->>b: text`. -/
  | msg (a b : Str) (dashed : Bool) (text : Str)

/-- The written statement. -/
def SeqStmt.text : SeqStmt → Str
  | .who id none => c!"participant " ++ id
  | .who id (some n) => c!"participant " ++ id ++ c!" as " ++ n
  | .msg a b d t => a ++ (if d then c!"-->>" else c!"->>") ++ b ++ c!": " ++ t

/-- A line of text without white space around it. -/
def LineText (s : Str) : Prop := '\n' ∉ s ∧ Tight s

/-- Well-formed statements. -/
def SeqStmt.Ok : SeqStmt → Prop
  | .who id n => Word id ∧ ∀ x, n = some x → LineText x
  | .msg a b d t => Word a ∧ ¬ c!"participant" <+: a ∧ Word b ∧ LineText t ∧ (d = false → containsStr c!"-->>" t = false)

/-- Who is mentioned, with the name to be shown. -/
def SeqStmt.mentions : SeqStmt → List (Str × Str)
  | .who id n => [(id, n.getD id)]
  | .msg a b _ _ => [(a, a), (b, b)]

/-- The message of a statement. -/
def SeqStmt.message : SeqStmt → List (Str × Str × Str)
  | .who _ _ => []
  | .msg a b _ t => [(a, b, t)]

/-- Of several mentions the first one counts. -/
def firstById : List (Str × Str) → List (Str × Str)
  | [] => []
  | p :: l => p :: (firstById l).filter fun q => q.1 ≠ p.1

theorem seq_add_fold (l : List (Str × Str)) (s : Seq) :
    (l.foldl (fun s p => s.add p.1 p.2) s) =
      { s with participants := s.participants ++ (firstById l).filter fun q => s.participants.all (·.1 ≠ q.1) } := by
  induction l generalizing s with
  | nil => simp [firstById]
  | cons p l ih =>
    rw [List.foldl_cons, ih]
    unfold Seq.add
    by_cases h : s.participants.any (·.1 = p.1) = true
    · rw [if_pos h]
      simp only [firstById]
      congr 2
      rw [List.filter_cons, if_neg]
      · rw [List.filter_filter]
        apply List.filter_congr
        intro q _
        by_cases hq : q.1 = p.1
        · simp only [hq, ne_eq, not_true_eq_false, decide_false, Bool.and_false]
          obtain ⟨x, hx, hx2⟩ := List.any_eq_true.mp h
          rw [List.all_eq_false]
          exact ⟨x, hx, by simpa using hx2⟩
        · simp [hq]
      · rw [Bool.not_eq_true, List.all_eq_false]
        obtain ⟨x, hx, hx2⟩ := List.any_eq_true.mp h
        exact ⟨x, hx, by simpa using hx2⟩
    · rw [if_neg h]
      simp only [firstById, List.append_assoc]
      congr 2
      rw [List.filter_cons, if_pos]
      · rw [List.singleton_append, List.filter_filter]
        congr 1
        apply List.filter_congr
        intro q _
        rw [List.all_append]
        simp [eq_comm, ne_comm]
      · rw [List.all_eq_true]
        intro x hx
        rw [Bool.not_eq_true, List.any_eq_false] at h
        simpa using h x hx

theorem SeqStmt.lineText {s : SeqStmt} (h : s.Ok) : LineText s.text := by
  have pt : ∀ r, LineText r → LineText (c!"participant " ++ r) := by
    intro r hr
    refine ⟨by simp only [List.mem_append, not_or]; exact ⟨by decide, hr.1⟩, ?_⟩
    have : Tight c!"participant" := ⟨by intro c hc; cases hc; rfl, by intro c hc; cases hc; rfl, by decide⟩
    exact this.append c!" " hr.2
  have wl : ∀ r, Word r → LineText r := fun r hr => ⟨hr.notMem rfl (by decide), hr.tight⟩
  cases s with
  | who id n =>
    cases n with
    | none => exact pt _ (wl _ h.1)
    | some n =>
      have hn := h.2 n rfl
      have : LineText (id ++ c!" as " ++ n) := by
        refine ⟨?_, (h.1.tight).append _ hn.2⟩
        simp only [List.mem_append, not_or]
        exact ⟨⟨(wl _ h.1).1, by decide⟩, hn.1⟩
      have := pt _ this
      simpa [SeqStmt.text] using this
  | msg a b d t =>
    obtain ⟨ha, _, hb, ht, _⟩ := h
    have e : SeqStmt.text (.msg a b d t) = a ++ ((if d then c!"-->>" else c!"->>") ++ b ++ c!": ") ++ t := by simp [SeqStmt.text]
    rw [e]
    refine ⟨?_, ha.tight.append _ ht.2⟩
    simp only [List.mem_append, not_or]
    exact ⟨⟨(wl _ ha).1, ⟨by cases d <;> decide, (wl _ hb).1⟩, by decide⟩, ht.1⟩

theorem split_past {c : Char} {p a t : Str} (h : c ∉ a) :
    splitOnce? (c :: p) (a ++ t) = (splitOnce? (c :: p) t).map fun r => (a ++ r.1, r.2) := by
  induction a with
  | nil => rw [List.nil_append]; cases splitOnce? (c :: p) t <;> rfl
  | cons d a ih =>
    have hd : c ≠ d := by intro hh; simp_all
    simp only [List.cons_append, splitOnce?, stripPrefix?, hd, if_false]
    rw [ih (by simp_all), Option.map_map]
    rfl

theorem takeWhile_whole {f : Char → Bool} {s : Str} (h : ∀ c ∈ s, f c = true) : s.takeWhile f = s := by
  induction s with
  | nil => rfl
  | cons c s ih => rw [List.takeWhile_cons, if_pos (h c (by simp)), ih (fun x hx => h x (by simp [hx]))]

/-- A prefix without the character at which the first word ends is a prefix of the word. -/
theorem prefix_word {p a r : Str} {c : Char} (hc : c ∉ p) (h : p <+: a ++ c :: r) : p <+: a := by
  have h2 : a ++ [c] <+: a ++ c :: r := ⟨r, by simp⟩
  rcases List.prefix_or_prefix_of_prefix h h2 with h3 | h3
  · rcases List.prefix_concat_iff.mp h3 with h4 | h4
    · exact absurd (by rw [h4]; simp) hc
    · exact h4
  · exact absurd (h3.subset (by simp)) hc

theorem containsStr_false_of_notMem {c : Char} {p s : Str} (h : c ∉ s) : containsStr (c :: p) s = false := by
  unfold containsStr
  rw [split_none rfl h]
  rfl

theorem seq_line {s : SeqStmt} (h : s.Ok) (st : Seq) :
    st.line s.text = { (s.mentions.foldl (fun s p => s.add p.1 p.2) st) with
      messages := (s.mentions.foldl (fun s p => s.add p.1 p.2) st).messages ++ s.message } := by
  cases s with
  | who id n =>
    have e0 : ∀ r : Str, stripPrefix? c!"participant" (c!"participant " ++ r) = some (c!" " ++ r) := by
      intro r; rw [stripPrefix?_eq_some]; simp
    have hid : trim (c!" " ++ id) = id := trim_indent (by decide) h.1.tight
    cases n with
    | none =>
      unfold Seq.line
      simp only [SeqStmt.text, e0, hid]
      have e1 : participant id = (id, id) := by
        unfold participant
        rw [split_none (c := ' ') rfl (h.1.notMem rfl (by decide))]
        have : firstWord id = id := by
          unfold firstWord trimStart
          have hw : ∀ c ∈ id, isWs c = false := fun c hc => isWs_word (h.1.2 c hc)
          cases hid' : id with
          | nil => rfl
          | cons c r =>
            rw [← hid']
            have : id.dropWhile isWs = id := by
              rw [hid', List.dropWhile_cons_of_neg]
              simp [hw c (by simp [hid'])]
            rw [this]
            exact takeWhile_whole (fun c hc => by simp [hw c hc])
        simp only [this]
      rw [e1]
      simp only [h.1.1, if_false, SeqStmt.mentions, SeqStmt.message, List.append_nil, Option.getD_none, List.foldl_cons, List.foldl_nil]
    | some n =>
      have hn := h.2 n rfl
      have ht : Tight (id ++ c!" as " ++ n) := h.1.tight.append _ hn.2
      unfold Seq.line
      have e0' : stripPrefix? c!"participant" (SeqStmt.text (.who id (some n))) = some (c!" " ++ (id ++ c!" as " ++ n)) := by
        rw [stripPrefix?_eq_some]; simp [SeqStmt.text]
      have e2 : trim (c!" " ++ (id ++ c!" as " ++ n)) = id ++ c!" as " ++ n := trim_indent (by decide) ht
      simp only [e0', e2]
      have e1 : participant (id ++ c!" as " ++ n) = (id, n) := by
        unfold participant
        have := split_hit (c := ' ') (p := c!"as ") (s := id) (t := n) (h.1.notMem rfl (by decide))
        rw [List.append_assoc, this]
        simp only [trim_tight h.1.tight, trim_tight hn.2]
      rw [e1]
      simp only [h.1.1, if_false, SeqStmt.mentions, SeqStmt.message, List.append_nil, Option.getD_some, List.foldl_cons, List.foldl_nil]
  | msg a b d t =>
    obtain ⟨ha, hp, hb, ht, hd⟩ := h
    have da : '-' ∉ a := ha.notMem rfl (by decide)
    have db : '-' ∉ b := hb.notMem rfl (by decide)
    unfold Seq.line
    have e0 : stripPrefix? c!"participant" (SeqStmt.text (.msg a b d t)) = none := by
      rw [← Option.not_isSome_iff_eq_none, stripPrefix?_isSome, startsWith_iff]
      rintro ⟨r, hr⟩
      apply hp
      have hpre : c!"participant" <+: SeqStmt.text (.msg a b d t) := ⟨r, hr.symm⟩
      cases d
      · exact prefix_word (c := '-') (r := c!">>" ++ b ++ c!": " ++ t) (by decide) (by simpa [SeqStmt.text] using hpre)
      · exact prefix_word (c := '-') (r := c!"->>" ++ b ++ c!": " ++ t) (by decide) (by simpa [SeqStmt.text] using hpre)
    simp only [e0]
    have h1 : containsStr c!"->>" (SeqStmt.text (.msg a b d t)) = true := by
      rw [containsStr_iff]
      cases d
      · exact ⟨a, b ++ c!": " ++ t, by simp [SeqStmt.text]⟩
      · exact ⟨a ++ c!"-", b ++ c!": " ++ t, by simp [SeqStmt.text]⟩
    have h2 : containsStr c!"-->>" (SeqStmt.text (.msg a b d t)) = d := by
      cases d
      · have e : SeqStmt.text (.msg a b false t) = a ++ '-' :: (c!">>" ++ b ++ c!": " ++ t) := by simp [SeqStmt.text]
        unfold containsStr
        rw [e, split_skip (p := c!"->>") da (by rintro ⟨x, hx⟩; cases hx)]
        rw [split_past (by
          simp only [List.mem_append, not_or]
          exact ⟨⟨by decide, db⟩, by decide⟩)]
        have := hd rfl
        unfold containsStr at this
        rw [Option.isSome_map, Option.isSome_map]
        exact this
      · rw [containsStr_iff]
        exact ⟨a, b ++ c!": " ++ t, by simp [SeqStmt.text]⟩
    have h3 : splitOnce? (if d = true then c!"-->>" else c!"->>") (SeqStmt.text (.msg a b d t)) = some (a, b ++ c!": " ++ t) := by
      cases d
      · have := split_hit (c := '-') (p := c!">>") (t := b ++ c!": " ++ t) da
        simpa [SeqStmt.text] using this
      · have := split_hit (c := '-') (p := c!"->>") (t := b ++ c!": " ++ t) da
        simpa [SeqStmt.text] using this
    have h4 : splitOnce? c!":" (b ++ c!": " ++ t) = some (b, c!" " ++ t) := by
      have := split_hit (c := ':') (p := []) (s := b) (t := c!" " ++ t) (hb.notMem rfl (by decide))
      simpa using this
    have h5 : trim (c!" " ++ t) = t := trim_indent (by decide) ht.2
    simp only [h1, h2, h3, h4, h5, Bool.true_or, if_true, trim_tight ha.tight, trim_tight hb.tight, SeqStmt.mentions, SeqStmt.message,
      List.foldl_cons, List.foldl_nil]

theorem seq_parse_fold (l : List SeqStmt) (h : ∀ s ∈ l, s.Ok) (st : Seq) :
    (l.map SeqStmt.text).foldl Seq.line st =
      { ((l.flatMap SeqStmt.mentions).foldl (fun s p => s.add p.1 p.2) st) with messages := st.messages ++ l.flatMap SeqStmt.message } := by
  induction l generalizing st with
  | nil => simp
  | cons s l ih =>
    rw [List.map_cons, List.foldl_cons, seq_line (h s (by simp)), ih (fun x hx => h x (by simp [hx]))]
    simp only [List.flatMap_cons, List.foldl_append, seq_add_fold]
    simp

/-- A written sequence diagram is read as it is meant. -/
theorem C115_read {header : Str} {ls : List (Str × SeqStmt)} (hh : '\n' ∉ header) (hi : ∀ p ∈ ls, ∀ c ∈ p.1, isWs c = true ∧ c ≠ '\n')
    (h : ∀ p ∈ ls, p.2.Ok) :
    Seq.parse (diagramText header (ls.map fun p => (p.1, p.2.text))) =
      ⟨firstById (ls.flatMap fun p => p.2.mentions), ls.flatMap fun p => p.2.message⟩ := by
  unfold Seq.parse
  rw [body_diagramText hh]
  · have := seq_parse_fold (ls.map (·.2)) (by
      intro s hs
      obtain ⟨p, hp, rfl⟩ := List.mem_map.mp hs
      exact h p hp) {}
    simp only [List.map_map, Function.comp_def] at this ⊢
    rw [this, seq_add_fold]
    simp [List.flatMap_map]
  · intro q hq
    obtain ⟨p, hp, rfl⟩ := List.mem_map.mp hq
    exact ⟨hi p hp, (SeqStmt.lineText (h p hp)).1, (SeqStmt.lineText (h p hp)).2⟩


/-! ### What is drawn -/

theorem flatten_block {α β : Type} {n : Nat} (f : Nat → α → List β) (hf : ∀ i a, (f i a).length = n) (l : List α) (i r : Nat) (hr : r < n) :
    (l.mapIdx f).flatten[n * i + r]? = (l[i]?).bind fun a => (f i a)[r]? := by
  induction l generalizing f i with
  | nil => simp
  | cons a l ih =>
    rw [List.mapIdx_cons, List.flatten_cons]
    cases i with
    | zero =>
      rw [List.getElem?_append_left (by rw [hf]; omega)]
      simp
    | succ i =>
      rw [List.getElem?_append_right (by rw [hf, Nat.mul_succ]; omega), hf]
      have e : n * (i + 1) + r - n = n * i + r := by rw [Nat.mul_succ]; omega
      rw [e, ih (fun i a => f (i + 1) a) (fun i a => hf _ a)]
      simp

theorem flatten_length {α β : Type} {n : Nat} (f : Nat → α → List β) (hf : ∀ i a, (f i a).length = n) (l : List α) :
    (l.mapIdx f).flatten.length = n * l.length := by
  induction l generalizing f with
  | nil => simp
  | cons a l ih =>
    rw [List.mapIdx_cons, List.flatten_cons, List.length_append, hf, ih (fun i a => f (i + 1) a) (fun i a => hf _ a), List.length_cons]
    rw [Nat.mul_succ]; omega

/-- Every participant once, and the participants of all messages. -/
def SeqOk (s : Seq) : Prop :=
  (s.participants.map (·.1)).Nodup ∧ ∀ m ∈ s.messages, m.1 ∈ s.participants.map (·.1) ∧ m.2.1 ∈ s.participants.map (·.1)

theorem mem_add (s : Seq) (id name : Str) : id ∈ (s.add id name).participants.map (·.1) := by
  unfold Seq.add
  split
  · rename_i h
    obtain ⟨p, hp, h2⟩ := List.any_eq_true.mp h
    exact List.mem_map.mpr ⟨p, hp, by simpa using h2⟩
  · simp

theorem mem_add_of_mem {s : Seq} {a : Str} (h : a ∈ s.participants.map (·.1)) (id name : Str) : a ∈ (s.add id name).participants.map (·.1) := by
  unfold Seq.add
  split
  · exact h
  · rw [List.map_append]; exact List.mem_append_left _ h

theorem add_messages (s : Seq) (id name : Str) : (s.add id name).messages = s.messages := by unfold Seq.add; split <;> rfl

theorem seqOk_add {s : Seq} (h : SeqOk s) (id name : Str) : SeqOk (s.add id name) := by
  refine ⟨?_, fun m hm => ?_⟩
  · unfold Seq.add
    split
    · exact h.1
    · rename_i hn
      rw [List.map_append]
      refine List.nodup_append.mpr ⟨h.1, by simp, ?_⟩
      rintro a ha b hb rfl
      simp only [List.map_cons, List.map_nil, List.mem_singleton] at hb
      subst hb
      apply hn
      obtain ⟨p, hp, hp2⟩ := List.mem_map.mp ha
      exact List.any_eq_true.mpr ⟨p, hp, by simpa using hp2⟩
  · rw [add_messages] at hm
    exact ⟨mem_add_of_mem (h.2 m hm).1 _ _, mem_add_of_mem (h.2 m hm).2 _ _⟩

theorem seqOk_line {s : Seq} (h : SeqOk s) (l : Str) : SeqOk (s.line l) := by
  unfold Seq.line
  split
  · split
    · exact h
    · exact seqOk_add h _ _
  · split
    · split
      · rename_i a rest e
        split
        · rename_i b m e2
          have h2 := seqOk_add (seqOk_add h (trim a) (trim a)) (trim b) (trim b)
          refine ⟨h2.1, fun x hx => ?_⟩
          rcases List.mem_append.mp hx with hx | hx
          · exact h2.2 x hx
          · rw [List.mem_singleton] at hx
            subst hx
            exact ⟨mem_add_of_mem (mem_add _ _ _) _ _, mem_add _ _ _⟩
        · exact h
      · exact h
    · exact h

theorem seqOk_parse (code : Str) : SeqOk (Seq.parse code) := by
  unfold Seq.parse
  have : ∀ (l : List Str) (s : Seq), SeqOk s → SeqOk (l.foldl Seq.line s) := by
    intro l
    induction l with
    | nil => exact fun s h => h
    | cons x l ih => exact fun s h => ih _ (seqOk_line h x)
  exact this _ _ ⟨by simp, by simp⟩

theorem index_of_mem {s : Seq} {a : Str} (h : a ∈ s.participants.map (·.1)) : ∃ i p, s.index a = some i ∧ s.participants[i]? = some p ∧ p.1 = a := by
  obtain ⟨p, hp, rfl⟩ := List.mem_map.mp h
  unfold Seq.index
  cases hi : s.participants.findIdx? (fun q => decide (q.1 = p.1)) with
  | none =>
    rw [List.findIdx?_eq_none_iff] at hi
    exact absurd (hi p hp) (by simp)
  | some i =>
    obtain ⟨h1, h2, _⟩ := List.findIdx?_eq_some_iff_getElem.mp hi
    exact ⟨i, _, rfl, List.getElem?_eq_getElem h1, by simpa using h2⟩

theorem arrows_length {s : Seq} (h : SeqOk s) : (s.messages.mapIdx s.arrow).flatten.length = 2 * s.messages.length := by
  have : ∀ (l : List (Str × Str × Str)) (k : Nat), (∀ m ∈ l, m ∈ s.messages) →
      (l.mapIdx fun i m => s.arrow (i + k) m).flatten.length = 2 * l.length := by
    intro l
    induction l with
    | nil => simp
    | cons m l ih =>
      intro k hm
      have e := ih (k + 1) (fun x hx => hm x (by simp [hx]))
      rw [List.mapIdx_cons, List.flatten_cons, List.length_append]
      obtain ⟨i, _, hi, _⟩ := index_of_mem (h.2 m (hm m (by simp))).1
      obtain ⟨j, _, hj, _⟩ := index_of_mem (h.2 m (hm m (by simp))).2
      have e2 : (s.arrow (0 + k) m).length = 2 := by unfold Seq.arrow; rw [hi, hj]; rfl
      have e3 : (fun i m => s.arrow (i + 1 + k) m) = fun i m => s.arrow (i + (k + 1)) m := by
        funext i m; rw [Nat.add_right_comm, Nat.add_assoc]
      rw [e2, e3, e, List.length_cons]
      omega
  exact this s.messages 0 (fun _ h => h)

theorem arrows_get {s : Seq} (h : SeqOk s) (k : Nat) {m : Str × Str × Str} (hm : s.messages[k]? = some m) (r : Nat) (hr : r < 2) :
    (s.messages.mapIdx s.arrow).flatten[2 * k + r]? = (s.arrow k m)[r]? := by
  have key : ∀ (l : List (Str × Str × Str)) (k d : Nat), (∀ m ∈ l, m ∈ s.messages) → l[k]? = some m →
      (l.mapIdx fun i m => s.arrow (i + d) m).flatten[2 * k + r]? = (s.arrow (k + d) m)[r]? := by
    intro l
    induction l with
    | nil => intro k d _ hk; cases hk
    | cons x l ih =>
      intro k d hx hk
      rw [List.mapIdx_cons, List.flatten_cons]
      obtain ⟨i, _, hi, _⟩ := index_of_mem (h.2 x (hx x (by simp))).1
      obtain ⟨j, _, hj, _⟩ := index_of_mem (h.2 x (hx x (by simp))).2
      have e2 : (s.arrow (0 + d) x).length = 2 := by unfold Seq.arrow; rw [hi, hj]; rfl
      cases k with
      | zero =>
        cases hk
        rw [List.getElem?_append_left (by rw [e2]; omega)]
        simp
      | succ k =>
        rw [List.getElem?_append_right (by rw [e2]; omega), e2]
        have e3 : (fun i m => s.arrow (i + 1 + d) m) = fun i m => s.arrow (i + (d + 1)) m := by
          funext i m; rw [Nat.add_right_comm, Nat.add_assoc]
        have e4 : 2 * (k + 1) + r - 2 = 2 * k + r := by omega
        rw [e3, e4, ih k (d + 1) (fun y hy => hx y (by simp [hy])) (by simpa using hk), Nat.add_right_comm, Nat.add_assoc]
  exact key s.messages k 0 (fun _ h => h) hm

/-- The middle of a figure. -/
def Fig.middle (f : Fig) : Nat := f.x + f.width / 2

/-- What belongs to a participant: a box at the top, a line from there to a box at the bottom, in the same column, both
boxes with the name. -/
structure Column (F : List Fig) (i : Nat) (name : Str) (top line bottom : Fig) : Prop where
  here : F[3 * i]? = some top ∧ F[3 * i + 1]? = some line ∧ F[3 * i + 2]? = some bottom
  named : top.text = some name ∧ line.text = none ∧ bottom.text = some name
  centred : Fig.middle top = Fig.middle line ∧ Fig.middle bottom = Fig.middle line
  joined : top.y + top.height = line.y ∧ line.y + line.height = bottom.y
  sized : bottom.width = top.width ∧ line.width < top.width

theorem column_of {s : Seq} {i : Nat} {p : Str × Str} (h : s.participants[i]? = some p) :
    ∃ top line bottom, Column s.figures i p.2 top line bottom ∧ top.x = Seq.left i ∧ top.width = 1400000 ∧ top.y = 1600000 ∧
      Fig.middle line = Seq.left i + 700000 ∧ line.y = 2000000 := by
  have hl : i < s.participants.length := by
    rw [List.getElem?_eq_some_iff] at h
    exact h.1
  have get : ∀ r, r < 3 → s.figures[3 * i + r]? = (Seq.column i p)[r]? := by
    intro r hr
    unfold Seq.figures
    rw [List.getElem?_append_left (by rw [flatten_length (n := 3) Seq.column (fun _ _ => rfl)]; omega),
      flatten_block (n := 3) Seq.column (fun _ _ => rfl) _ _ _ hr, h]
    rfl
  have g0 := get 0 (by decide)
  have g1 := get 1 (by decide)
  have g2 := get 2 (by decide)
  simp only [Seq.column, List.getElem?_cons_zero, List.getElem?_cons_succ, Nat.add_zero] at g0 g1 g2
  refine ⟨_, _, _, ⟨⟨g0, g1, g2⟩, ?_, ?_, ?_, ?_⟩, ?_, ?_, ?_, ?_, ?_⟩ <;> simp only [Fig.middle] 
  · simp
  · omega
  · constructor <;> first | omega | exact True.intro
  · exact ⟨True.intro, by omega⟩
  all_goals first | omega | exact True.intro

/-- **C115** (partial). From every text of participants and messages the drawing has, and has nothing besides: a column for
every participant in the order in which they are first mentioned, with the name given there, side by side; and an arrow with
its text for every message, in the order of the messages from top to bottom, from the middle of the column of the sender to that
of the receiver and pointing to the receiver. What is missing: messages to oneself, other arrows, long diagrams, see below. -/
theorem C115_partial {header : Str} {ls : List (Str × SeqStmt)} (hh : '\n' ∉ header) (hi : ∀ p ∈ ls, ∀ c ∈ p.1, isWs c = true ∧ c ≠ '\n')
    (h : ∀ p ∈ ls, p.2.Ok) :
    let F := (Seq.parse (diagramText header (ls.map fun p => (p.1, p.2.text)))).figures
    let P := firstById (ls.flatMap fun p => p.2.mentions)
    let M := ls.flatMap fun p => p.2.message
    F.length = 3 * P.length + 2 * M.length ∧ (P.map (·.1)).Nodup ∧
    (∀ (i : Nat) (p : Str × Str), P[i]? = some p → ∃ top line bottom, Column F i p.2 top line bottom ∧
      ∀ (j : Nat) (q : Str × Str), P[j]? = some q → i < j → ∃ top2 line2 bottom2, Column F j q.2 top2 line2 bottom2 ∧
        top2.y = top.y ∧ top.x + top.width < top2.x) ∧
    (∀ (k : Nat) (a b t : Str), M[k]? = some (a, b, t) → ∃ (i j : Nat) (p q : Str × Str), P[i]? = some p ∧ P[j]? = some q ∧ p.1 = a ∧ q.1 = b ∧
      ∃ top line bottom top2 line2 bottom2 arrow label, Column F i p.2 top line bottom ∧ Column F j q.2 top2 line2 bottom2 ∧
        F[3 * P.length + 2 * k]? = some arrow ∧ F[3 * P.length + 2 * k + 1]? = some label ∧
        label.text = some t ∧ label.x = arrow.x ∧ label.width = arrow.width ∧ label.y + label.height < arrow.y ∧ arrow.y = line.y + 200000 + k * 450000 ∧
        (i < j → arrow.kind = c!"rightArrow" ∧ arrow.x = Fig.middle line ∧ arrow.x + arrow.width = Fig.middle line2) ∧
        (j < i → arrow.kind = c!"leftArrow" ∧ arrow.x = Fig.middle line2 ∧ arrow.x + arrow.width = Fig.middle line)) := by
  intro F P M
  have hok := seqOk_parse (diagramText header (ls.map fun p => (p.1, p.2.text)))
  have hp := C115_read hh hi h
  have hF : F = Seq.figures ⟨P, M⟩ := by show Seq.figures (Seq.parse _) = _; rw [hp]
  rw [hp] at hok
  refine ⟨?_, hok.1, ?_, ?_⟩
  · rw [hF]
    unfold Seq.figures
    rw [List.length_append, flatten_length (n := 3) Seq.column (fun _ _ => rfl), arrows_length hok]
  · intro i p hi
    rw [hF]
    obtain ⟨top, line, bottom, hc, h1, h2, h3, _⟩ := column_of (s := ⟨P, M⟩) hi
    refine ⟨top, line, bottom, hc, fun j q hj hij => ?_⟩
    obtain ⟨top2, line2, bottom2, hc2, k1, k2, k3, _⟩ := column_of (s := ⟨P, M⟩) hj
    refine ⟨top2, line2, bottom2, hc2, by rw [h3, k3], ?_⟩
    rw [h1, h2, k1]
    unfold Seq.left
    omega
  · intro k a b t hk
    rw [hF]
    have hm := List.mem_of_getElem? hk
    obtain ⟨i, p, hi, hpi, rfl⟩ := index_of_mem (hok.2 _ hm).1
    obtain ⟨j, q, hj, hqj, rfl⟩ := index_of_mem (hok.2 _ hm).2
    obtain ⟨top, line, bottom, hc, _, _, h3, h4, h5⟩ := column_of (s := ⟨P, M⟩) hpi
    obtain ⟨top2, line2, bottom2, hc2, _, _, _, k4, _⟩ := column_of (s := ⟨P, M⟩) hqj
    have get : ∀ r, r < 2 → (Seq.figures ⟨P, M⟩)[3 * P.length + (2 * k + r)]? = (Seq.arrow ⟨P, M⟩ k (p.1, q.1, t))[r]? := by
      intro r hr
      unfold Seq.figures
      have e : (P.mapIdx Seq.column).flatten.length = 3 * P.length := flatten_length (n := 3) Seq.column (fun _ _ => rfl) _
      rw [List.getElem?_append_right (by rw [e]; omega), e, Nat.add_sub_cancel_left]
      exact arrows_get hok k hk r hr
    have hi' : Seq.index ⟨P, M⟩ p.1 = some i := hi
    have hj' : Seq.index ⟨P, M⟩ q.1 = some j := hj
    unfold Seq.arrow at get
    rw [hi', hj'] at get
    have g0 := get 0 (by decide)
    have g1 := get 1 (by decide)
    refine ⟨i, j, p, q, hpi, hqj, rfl, rfl, top, line, bottom, top2, line2, bottom2, _, _, hc, hc2, g0, g1, rfl, rfl, rfl, ?_, ?_, ?_, ?_⟩
    · simp only; omega
    · simp only; omega
    · intro hij
      have : Seq.left i + 1400000 / 2 < Seq.left j + 1400000 / 2 := by unfold Seq.left; omega
      simp only [this, if_true]
      rw [h4, k4]
      refine ⟨trivial, by omega, by omega⟩
    · intro hij
      have : ¬ Seq.left i + 1400000 / 2 < Seq.left j + 1400000 / 2 := by unfold Seq.left; omega
      have e2 : Seq.left j < Seq.left i := by unfold Seq.left; omega
      simp only [this, if_false]
      rw [h4, k4]
      refine ⟨trivial, by omega, by omega⟩

/-- Non-vacuity: three participants, one of them with a name of its own and one that is only mentioned in a message. -/
example : let ls := [(c!"  ", SeqStmt.who c!"A" (some c!"Alice B.")), ([], .who c!"B" none), (c!"\t", .msg c!"A" c!"C" true c!"is B: there?"), ([], .msg c!"C" c!"B" false c!"hi")]
    (∀ p ∈ ls, p.2.Ok) ∧ diagramText c!"sequenceDiagram" (ls.map fun p => (p.1, p.2.text)) =
      c!"sequenceDiagram\n  participant A as Alice B.\nparticipant B\n\tA-->>C: is B: there?\nC->>B: hi" ∧
    firstById (ls.flatMap fun p => p.2.mentions) = [(c!"A", c!"Alice B."), (c!"B", c!"B"), (c!"C", c!"C")] := by
  refine ⟨?_, by decide, by decide⟩
  intro p hp
  simp only [List.mem_cons, List.not_mem_nil, or_false] at hp
  rcases hp with rfl | rfl | rfl | rfl
  · exact ⟨⟨by decide, by decide⟩, by rintro x ⟨⟩; exact ⟨by decide, by simp [Tight, isWs]⟩⟩
  · exact ⟨⟨by decide, by decide⟩, by simp⟩
  · exact ⟨⟨by decide, by decide⟩, by decide, ⟨by decide, by decide⟩, ⟨by decide, by simp [Tight, isWs]⟩, by decide⟩
  · exact ⟨⟨by decide, by decide⟩, by decide, ⟨by decide, by decide⟩, ⟨by decide, by simp [Tight, isWs]⟩, by decide⟩

/-- For every text, whatever it is: no participant has two columns, and every message that was read is drawn, between two
participants. -/
theorem C115_complete (code : Str) : SeqOk (Seq.parse code) ∧
    (Seq.parse code).figures.length = 3 * (Seq.parse code).participants.length + 2 * (Seq.parse code).messages.length := by
  refine ⟨seqOk_parse code, ?_⟩
  unfold Seq.figures
  rw [List.length_append, flatten_length (n := 3) Seq.column (fun _ _ => rfl), arrows_length (seqOk_parse code)]

/-- **C115 does not hold in full**: in a sequence diagram, the arrow of a message from a participant to themself, and the box of
its text, have no width. -/
theorem C115_self_violated {s : Seq} (h : SeqOk s) {k : Nat} {a t : Str} (hk : s.messages[k]? = some (a, a, t)) :
    ∃ arrow label, s.figures[3 * s.participants.length + 2 * k]? = some arrow ∧ s.figures[3 * s.participants.length + 2 * k + 1]? = some label ∧
      label.text = some t ∧ arrow.width = 0 ∧ label.width = 0 := by
  have get : ∀ r, r < 2 → s.figures[3 * s.participants.length + (2 * k + r)]? = (s.arrow k (a, a, t))[r]? := by
    intro r hr
    unfold Seq.figures
    have e : (s.participants.mapIdx Seq.column).flatten.length = 3 * s.participants.length := flatten_length (n := 3) Seq.column (fun _ _ => rfl) _
    rw [List.getElem?_append_right (by rw [e]; omega), e, Nat.add_sub_cancel_left]
    exact arrows_get h k hk r hr
  obtain ⟨i, p, hi, _, rfl⟩ := index_of_mem (h.2 _ (List.mem_of_getElem? hk)).1
  have hi' : s.index p.1 = some i := hi
  unfold Seq.arrow at get
  rw [hi'] at get
  have g0 := get 0 (by decide)
  have g1 := get 1 (by decide)
  refine ⟨_, _, g0, g1, rfl, ?_, ?_⟩ <;> simp

/-- **C115 does not hold in full**: the lifelines of a sequence diagram have room for six messages. From the seventh message on
arrows are drawn across the boxes at the bottom, from the ninth on below everything else. -/
theorem C115_long_violated {s : Seq} {k : Nat} {m : Str × Str × Str} {arrow : Fig} (h : (s.arrow k m)[0]? = some arrow) {i : Nat} {p : Str × Str}
    (hp : s.participants[i]? = some p) :
    ∃ top line bottom, Column s.figures i p.2 top line bottom ∧
      (6 ≤ k → line.y + line.height < arrow.y + arrow.height) ∧ (8 ≤ k → bottom.y + bottom.height < arrow.y) := by
  obtain ⟨top, line, bottom, hc, h1, h2, h3, h4, h5⟩ := column_of hp
  have hy : arrow.y = 2200000 + k * 450000 ∧ arrow.height = 120000 := by
    unfold Seq.arrow at h
    split at h
    · simp only [List.getElem?_cons_zero, Option.some.injEq] at h
      subst h
      exact ⟨by dsimp only, by dsimp only⟩
    · simp at h
  have hb : line.height = 3000000 ∧ bottom.height = 400000 := by
    have hl : i < s.participants.length := (List.getElem?_eq_some_iff.mp hp).1
    have get : ∀ r, r < 3 → s.figures[3 * i + r]? = (Seq.column i p)[r]? := by
      intro r hr
      unfold Seq.figures
      rw [List.getElem?_append_left (by rw [flatten_length (n := 3) Seq.column (fun _ _ => rfl)]; omega),
        flatten_block (n := 3) Seq.column (fun _ _ => rfl) _ _ _ hr, hp]
      rfl
    have g1 := get 1 (by decide)
    have g2 := get 2 (by decide)
    rw [hc.here.2.1] at g1
    rw [hc.here.2.2] at g2
    simp only [Seq.column, List.getElem?_cons_zero, List.getElem?_cons_succ, Option.some.injEq] at g1 g2
    rw [g1, g2]
    exact ⟨by dsimp only, by dsimp only⟩
  have hj := hc.joined
  refine ⟨top, line, bottom, hc, fun hk => by omega, fun hk => by omega⟩

/-- **C115 does not hold in full**: of the arrows of sequence diagrams only `->>` and `-->>` are understood, and they look the same;
messages written with `->`, `-->`, `-x` or `-)` are lost. -/
theorem C115_arrows_violated :
    (Seq.parse c!"sequenceDiagram\nA->>B: x").figures = (Seq.parse c!"sequenceDiagram\nA-->>B: x").figures ∧
    ∀ arrow ∈ [c!"->", c!"-->", c!"-x", c!"--x", c!"-)", c!"--)"], (Seq.parse (c!"sequenceDiagram\nA" ++ arrow ++ c!"B: x")).figures = [] := by
  decide

/-- **C115 does not hold in full**: in a sequence diagram, the marks `+` and `-` of activations become part of the names: after
`A->>+B: x` and `B-->>-A: y` there are four participants, `A`, `+B`, `B` and `-A`. -/
theorem C115_activation_violated :
    (Seq.parse c!"sequenceDiagram\nA->>+B: x\nB-->>-A: y").participants.map (·.2) = [c!"A", c!"+B", c!"B", c!"-A"] := by decide

/-- **C115 does not hold in full**: messages in comments of sequence diagrams are drawn, with a participant that is called `%% A`, and
a message whose text contains `-->>` is lost. -/
theorem C115_comment_violated :
    (Seq.parse c!"sequenceDiagram\n%% A->>B: x").participants.map (·.2) = [c!"%% A", c!"B"] ∧
    (Seq.parse c!"sequenceDiagram\nA->>B: use -->> here").figures = [] := by decide

end PptRs.Props
