import Verif.Props.Flowchart
import Verif.Lemmas.Scan
import Verif.Props.BuilderIds
import Verif.Lemmas.Template
import Mathlib.Tactic.Tauto

/-!
# C61: from the text of a flowchart to its shapes
-/

namespace PptRs.Props

open PptRs PptRs.Flow

/-! ### The text of a flowchart -/

/-- A node as written: a name, and an outline with a label or nothing. -/
structure NodeText where
  name : Str
  body : Option (NodeShape × Str)
deriving DecidableEq, Repr

/-- Opening bracket of an outline. -/
def opening : NodeShape → Str
  | .rectangle => c!"["
  | .roundedRect => c!"("
  | .stadium => c!"(["
  | .diamond => c!"{"
  | .circle => c!"(("
  | .hexagon => c!"{{"

/-- Closing bracket of an outline. -/
def closing : NodeShape → Str
  | .rectangle => c!"]"
  | .roundedRect => c!")"
  | .stadium => c!"])"
  | .diamond => c!"}"
  | .circle => c!"))"
  | .hexagon => c!"}}"

/-- What is written after the name. -/
def bodyText : Option (NodeShape × Str) → Str
  | none => []
  | some (s, l) => opening s ++ l ++ closing s

/-- The written node. -/
def NodeText.text (n : NodeText) : Str := n.name ++ bodyText n.body

/-- The node that is meant: without a label it shows its name in a rectangle. -/
def NodeText.node (n : NodeText) : Node :=
  match n.body with
  | none => ⟨n.name, n.name, .rectangle⟩
  | some (s, l) => ⟨n.name, l, s⟩

/-- The ways to write an arrow. -/
inductive ArrowText where
  | long | short | line | dotted | thick
deriving DecidableEq, Repr

/-- The written arrow. -/
def ArrowText.text : ArrowText → Str
  | .long => c!"-->"
  | .short => c!"->"
  | .line => c!"---"
  | .dotted => c!"-.->"
  | .thick => c!"==>"

/-- The arrow that is meant. -/
def ArrowText.style : ArrowText → ArrowStyle
  | .long | .short => .arrow
  | .line => .open
  | .dotted => .dotted
  | .thick => .thick

/-- A line: a node or an arrow between two nodes, with a label or without. -/
inductive FlowLine where
  | node (n : NodeText)
  | edge (a : NodeText) (arrow : ArrowText) (label : Option Str) (b : NodeText)
deriving DecidableEq, Repr

/-- The label of an arrow. -/
def arrowLabel : Option Str → Str
  | none => []
  | some l => c!"|" ++ l ++ c!"|"

/-- The written line. -/
def FlowLine.text : FlowLine → Str
  | .node n => n.text
  | .edge a r l b => a.text ++ c!" " ++ r.text ++ (arrowLabel l ++ c!" " ++ b.text)

/-- Nodes mentioned in a line. -/
def FlowLine.mentions : FlowLine → List NodeText
  | .node n => [n]
  | .edge a _ _ b => [a, b]

/-- The connection of a line. -/
def FlowLine.edge? : FlowLine → List Connection
  | .node _ => []
  | .edge a r l b => [⟨a.name, b.name, l, r.style⟩]

/-- A line outside subgraphs, or a subgraph. -/
inductive FlowItem where
  | line (l : FlowLine)
  | block (name : Str) (ls : List FlowLine)
deriving Repr

/-- The lines of an item. -/
def FlowItem.inner : FlowItem → List FlowLine
  | .line l => [l]
  | .block _ ls => ls

/-- The written lines, indented. -/
def FlowItem.text (indent : Str) : FlowItem → List Str
  | .line l => [indent ++ l.text]
  | .block name ls => [indent ++ (c!"subgraph " ++ name)] ++ ls.map (fun l => indent ++ l.text) ++ [indent ++ c!"end"]

/-- The text of a flowchart. -/
def flowText (indent header : Str) (items : List FlowItem) : Str :=
  joinStr c!"\n" (header :: items.flatMap (FlowItem.text indent))

/-- Of several mentions of a node the first one counts. -/
def firstMentions : List NodeText → List Node
  | [] => []
  | n :: ns => n.node :: (firstMentions ns).filter fun m => m.id ≠ n.name

/-- The subgraph of an item. -/
def FlowItem.subgraph? : FlowItem → List Subgraph
  | .line _ => []
  | .block name ls => [⟨name, (firstMentions (ls.flatMap FlowLine.mentions)).map (·.id)⟩]

/-- A name: letters, digits and underscores, not a key word. -/
def NameOk (s : Str) : Prop :=
  s ≠ [] ∧ (∀ c ∈ s, c.isAlphanum = true ∨ c = '_') ∧ s ≠ c!"end" ∧ ¬ c!"subgraph" <+: s

/-- A label: without brackets, bars, dashes, equals signs and line ends. -/
def LabelOk (s : Str) : Prop := ∀ c ∈ s, c ∉ c!"()[]{}|-=\n"

/-- A well-formed node. -/
def NodeText.Ok (n : NodeText) : Prop := NameOk n.name ∧ ∀ s l, n.body = some (s, l) → LabelOk l

/-- A well-formed line. -/
def FlowLine.Ok : FlowLine → Prop
  | .node n => n.Ok
  | .edge a _ l b => a.Ok ∧ (∀ x, l = some x → LabelOk x) ∧ b.Ok

/-- A text that does not begin or end with white space. -/
def Tight (s : Str) : Prop := (∀ c, s.head? = some c → isWs c = false) ∧ (∀ c, s.getLast? = some c → isWs c = false) ∧ s ≠ []

/-- A well-formed item. The name of a subgraph is a line without blanks around it. -/
def FlowItem.Ok : FlowItem → Prop
  | .line l => l.Ok
  | .block name ls => ('\n' ∉ name ∧ Tight name) ∧ ∀ l ∈ ls, l.Ok

/-! ### Trimming -/

theorem trim_tight {s : Str} (h : Tight s) : trim s = s := by
  obtain ⟨h1, h2, h3⟩ := h
  have e1 : trimStart s = s := by
    cases s with
    | nil => rfl
    | cons c s =>
      unfold trimStart
      rw [List.dropWhile_cons_of_neg (by simp [h1 c rfl])]
  unfold trim
  rw [e1]
  unfold trimEnd
  have h4 : ∀ c, s.reverse.head? = some c → isWs c = false := by
    intro c hc
    rw [List.head?_reverse] at hc
    exact h2 c hc
  cases hr : s.reverse with
  | nil => simp at hr; exact absurd hr h3
  | cons c t =>
    rw [hr] at h4
    rw [List.dropWhile_cons_of_neg (by simp [h4 c rfl]), ← hr, List.reverse_reverse]

theorem trim_indent {p s : Str} (hp : ∀ c ∈ p, isWs c = true) (h : Tight s) : trim (p ++ s) = s := by
  have : trimStart (p ++ s) = trimStart s := by
    unfold trimStart
    rw [List.dropWhile_append_of_pos hp]
  have h' := trim_tight h
  unfold trim at h' ⊢
  rw [this, h']

theorem Tight.append {a b : Str} (m : Str) (ha : Tight a) (hb : Tight b) : Tight (a ++ m ++ b) := by
  refine ⟨?_, ?_, by simp [ha.2.2]⟩
  · intro c hc
    cases a with
    | nil => exact absurd rfl ha.2.2
    | cons x a => exact ha.1 c (by simpa using hc)
  · intro c hc
    rw [List.getLast?_append] at hc
    have := hb.2.2
    cases hl : b.getLast? with
    | none => exact absurd (List.getLast?_eq_none_iff.mp hl) this
    | some d =>
      rw [hl] at hc
      exact hb.2.1 c (hl.trans hc)

theorem isWs_word {c : Char} (h : c.isAlphanum = true ∨ c = '_') : isWs c = false := by
  rcases h with h | rfl
  · simp only [Char.isAlphanum, Char.isAlpha, Char.isUpper, Char.isLower, Char.isDigit, Bool.or_eq_true, decide_eq_true_eq,
      Bool.and_eq_true, ge_iff_le, UInt32.le_iff_toNat_le] at h
    have : c.val.toNat = c.toNat := rfl
    have hb : 48 ≤ c.toNat ∧ c.toNat ≤ 122 := by
      have e1 : (97 : UInt32).toNat = 97 := rfl
      have e2 : (122 : UInt32).toNat = 122 := rfl
      have e3 : (65 : UInt32).toNat = 65 := rfl
      have e4 : (90 : UInt32).toNat = 90 := rfl
      have e5 : (48 : UInt32).toNat = 48 := rfl
      have e6 : (57 : UInt32).toNat = 57 := rfl
      rw [this] at h
      simp only [Char.reduceVal] at h
      omega
    unfold isWs
    simp
    omega
  · rfl

theorem tight_name {s : Str} (h : NameOk s) : Tight s :=
  ⟨fun c hc => isWs_word (h.2.1 c (List.mem_of_mem_head? hc)), fun c hc => isWs_word (h.2.1 c (List.mem_of_mem_getLast? hc)), h.1⟩

theorem tight_closing (s : NodeShape) : Tight (closing s) := by
  cases s <;> exact ⟨by simp [closing, isWs], by simp [closing, isWs], by simp [closing]⟩

theorem tight_node {n : NodeText} (h : n.Ok) : Tight n.text := by
  unfold NodeText.text
  cases hb : n.body with
  | none => simpa [bodyText] using tight_name h.1
  | some b =>
    have := (tight_name h.1).append (opening b.1 ++ b.2) (tight_closing b.1)
    simpa [bodyText] using this

theorem tight_line {l : FlowLine} (h : l.Ok) : Tight l.text := by
  cases l with
  | node n => exact tight_node h
  | edge a r l b =>
    have := (tight_node h.1).append (c!" " ++ r.text ++ (arrowLabel l ++ c!" ")) (tight_node h.2.2)
    simpa [FlowLine.text] using this

/-! ### Nodes -/

theorem not_mem_name {s : Str} (h : NameOk s) {c : Char} (hc : c.isAlphanum = false) (hc' : c ≠ '_') : c ∉ s := by
  intro hm
  rcases h.2.1 c hm with h | h
  · rw [h] at hc; cases hc
  · exact hc' h

theorem not_mem_label {s : Str} (h : LabelOk s) {c : Char} (hc : c ∈ c!"()[]{}|-=\n") : c ∉ s := fun hm => h c hm hc

theorem split_none {o s : Str} {c : Char} {p : Str} (ho : o = c :: p) (h : c ∉ s) : splitOnce? o s = none := by
  subst ho
  exact splitOnce?_end (p1 := []) (p2 := p) h

theorem split_hit {c : Char} {p s t : Str} (h : c ∉ s) : splitOnce? (c :: p) (s ++ (c :: p ++ t)) = some (s, t) := by
  have := splitOnce?_hit (q := c) (p1 := []) (p2 := p) (s := s) (t := t) (by simp) h
  simpa using this

theorem split_skip {c : Char} {p s t : Str} (h : c ∉ s) (hp : ¬ p <+: t) :
    splitOnce? (c :: p) (s ++ c :: t) = (splitOnce? (c :: p) t).map fun r => (s ++ c :: r.1, r.2) := by
  have := splitOnce?_skip (q := c) (p1 := []) (p2 := p) (s := s) (t := t) (by simp) h (fun hx => hp hx.2)
  simpa using this

theorem split_skip_none {c : Char} {p s t : Str} (h : c ∉ s) (hp : ¬ p <+: t) (ht : c ∉ t) :
    splitOnce? (c :: p) (s ++ c :: t) = none := by
  rw [split_skip h hp, split_none rfl ht]
  rfl

theorem not_prefix_label {c : Char} {l r : Str} (h : c ∉ l) (hr : r.head? ≠ some c) : ¬ [c] <+: l ++ r := by
  rintro ⟨t, ht⟩
  cases l with
  | nil =>
    cases r with
    | nil => cases ht
    | cons x r =>
      simp only [List.nil_append, List.cons_append, List.cons.injEq] at ht
      exact hr (by rw [List.head?_cons, ht.1])
  | cons x l =>
    simp only [List.cons_append, List.cons.injEq] at ht
    exact h (by simp [ht.1])

theorem parseBrackets_none {s : Str} (h1 : '(' ∉ s) (h2 : '[' ∉ s) (h3 : '{' ∉ s) : parseBrackets s brackets = none := by
  unfold brackets
  simp only [parseBrackets, split_none rfl h1, split_none rfl h2, split_none rfl h3]

theorem parseBrackets_node {n : NodeText} (h : n.Ok) {s : NodeShape} {l : Str} (hb : n.body = some (s, l)) :
    parseBrackets n.text brackets = some n.node := by
  have hl := h.2 s l hb
  have ht : trim n.name = n.name := trim_tight (tight_name h.1)
  have n1 : '(' ∉ n.name := not_mem_name h.1 rfl (by decide)
  have n2 : '[' ∉ n.name := not_mem_name h.1 rfl (by decide)
  have n3 : '{' ∉ n.name := not_mem_name h.1 rfl (by decide)
  have l1 : '(' ∉ l := not_mem_label hl (by decide)
  have l2 : '[' ∉ l := not_mem_label hl (by decide)
  have l3 : '{' ∉ l := not_mem_label hl (by decide)
  have l4 : ')' ∉ l := not_mem_label hl (by decide)
  have l5 : ']' ∉ l := not_mem_label hl (by decide)
  have l6 : '}' ∉ l := not_mem_label hl (by decide)
  have hnode : n.node = ⟨n.name, l, s⟩ := by unfold NodeText.node; rw [hb]
  have htext : n.text = n.name ++ (opening s ++ (l ++ (closing s ++ []))) := by
    unfold NodeText.text; rw [hb]; simp [bodyText]
  rw [hnode, htext]
  unfold brackets
  cases s with
  | circle =>
    simp only [opening, closing, parseBrackets]
    rw [split_hit n1]
    simp only
    rw [split_hit l4]
    simp only [ht]
  | stadium =>
    simp only [opening, closing, parseBrackets]
    have e : splitOnce? c!"((" (n.name ++ (c!"([" ++ (l ++ (c!"])" ++ [])))) = none := by
      have := split_skip_none (p := ['(']) (t := '[' :: (l ++ (c!"])" ++ []))) n1 (by simp) (by simp [l1])
      simpa using this
    rw [e]
    simp only
    rw [split_hit n1]
    simp only
    rw [split_hit l5]
    simp only [ht]
  | hexagon =>
    simp only [opening, closing, parseBrackets]
    rw [split_none rfl (by simp [n1, l1]), split_none rfl (by simp [n1, l1])]
    simp only
    rw [split_hit n3]
    simp only
    rw [split_hit l6]
    simp only [ht]
  | rectangle =>
    simp only [opening, closing, parseBrackets]
    rw [split_none rfl (by simp [n1, l1]), split_none rfl (by simp [n1, l1]), split_none rfl (by simp [n3, l3])]
    simp only
    rw [split_hit n2]
    simp only
    rw [split_hit l5]
    simp only [ht]
  | roundedRect =>
    simp only [opening, closing, parseBrackets]
    have e1 : splitOnce? c!"((" (n.name ++ (c!"(" ++ (l ++ (c!")" ++ [])))) = none := by
      have := split_skip_none (p := ['(']) (t := l ++ (c!")" ++ [])) n1 (not_prefix_label l1 (by simp)) (by simp [l1])
      simpa using this
    have e2 : splitOnce? c!"([" (n.name ++ (c!"(" ++ (l ++ (c!")" ++ [])))) = none := by
      have := split_skip_none (p := ['[']) (t := l ++ (c!")" ++ [])) n1 (not_prefix_label l2 (by simp)) (by simp [l1])
      simpa using this
    rw [e1, e2, split_none rfl (by simp [n3, l3]), split_none rfl (by simp [n2, l2])]
    simp only
    rw [split_hit n1]
    simp only
    rw [split_hit l4]
    simp only [ht]
  | diamond =>
    simp only [opening, closing, parseBrackets]
    have e1 : splitOnce? c!"{{" (n.name ++ (c!"{" ++ (l ++ (c!"}" ++ [])))) = none := by
      have := split_skip_none (p := ['{']) (t := l ++ (c!"}" ++ [])) n3 (not_prefix_label l3 (by simp)) (by simp [l3])
      simpa using this
    rw [split_none rfl (by simp [n1, l1]), split_none rfl (by simp [n1, l1]), e1, split_none rfl (by simp [n2, l2]),
      split_none rfl (by simp [n1, l1])]
    simp only
    rw [split_hit n3]
    simp only
    rw [split_hit l6]
    simp only [ht]

theorem node_id (n : NodeText) : n.node.id = n.name := by
  unfold NodeText.node
  cases n.body <;> rfl

theorem isWord_name {uni : Char → Bool} {s : Str} (h : NameOk s) : isWord uni s = true := by
  unfold isWord
  simp only [Bool.and_eq_true, decide_eq_true_eq, List.all_eq_true, Bool.or_eq_true]
  refine ⟨h.1, fun c hc => ?_⟩
  rcases h.2.1 c hc with h | h
  · left
    unfold Repair.isAlnum
    have : c.toNat < 128 := by
      have hb := h
      simp only [Char.isAlphanum, Char.isAlpha, Char.isUpper, Char.isLower, Char.isDigit, Bool.or_eq_true, decide_eq_true_eq,
        Bool.and_eq_true, ge_iff_le, UInt32.le_iff_toNat_le] at hb
      have e : c.val.toNat = c.toNat := rfl
      have e2 : (122 : UInt32).toNat = 122 := rfl
      have e4 : (90 : UInt32).toNat = 90 := rfl
      have e6 : (57 : UInt32).toNat = 57 := rfl
      rw [e] at hb
      simp only [Char.reduceVal] at hb
      omega
    rw [if_pos this]
    exact h
  · right; exact h

/-- A written node is read as the node that is meant. -/
theorem parseNodeDef_node (uni : Char → Bool) {n : NodeText} (h : n.Ok) : parseNodeDef uni n.text = (n.name, some n.node) := by
  unfold parseNodeDef
  rw [trim_tight (tight_node h)]
  cases hb : n.body with
  | none =>
    have ht : n.text = n.name := by unfold NodeText.text; rw [hb]; simp [bodyText]
    rw [ht, parseBrackets_none (not_mem_name h.1 rfl (by decide)) (not_mem_name h.1 rfl (by decide))
      (not_mem_name h.1 rfl (by decide))]
    simp only [isWord_name h.1, if_true]
    unfold NodeText.node
    rw [hb]
  | some b =>
    rw [parseBrackets_node h hb]
    simp only [node_id]

/-! ### Lines -/

theorem not_mem_body {b : Option (NodeShape × Str)} (h : ∀ s l, b = some (s, l) → LabelOk l) {c : Char}
    (hc : c ∈ c!"|-=\n") : c ∉ bodyText b := by
  cases b with
  | none => simp [bodyText]
  | some x =>
    obtain ⟨s, l⟩ := x
    have hl := h s l rfl
    have : c ∉ l := fun hm => hl c hm (by
      simp only [List.mem_cons, List.not_mem_nil, or_false] at hc ⊢
      tauto)
    simp only [bodyText, List.mem_append, not_or]
    simp only [List.mem_cons, List.not_mem_nil, or_false] at hc
    refine ⟨⟨?_, this⟩, ?_⟩ <;> cases s <;> rcases hc with rfl | rfl | rfl | rfl <;> simp [opening, closing]

theorem not_mem_node {n : NodeText} (h : n.Ok) {c : Char} (hc : c ∈ c!"|-=\n") : c ∉ n.text := by
  unfold NodeText.text
  simp only [List.mem_append, not_or]
  refine ⟨?_, not_mem_body h.2 hc⟩
  simp only [List.mem_cons, List.not_mem_nil, or_false] at hc
  rcases hc with rfl | rfl | rfl | rfl <;> exact not_mem_name h.1 rfl (by decide)

theorem not_mem_arrowLabel {l : Option Str} (h : ∀ x, l = some x → LabelOk x) {c : Char} (hc : c ∈ c!"-=\n") : c ∉ arrowLabel l := by
  cases l with
  | none => simp [arrowLabel]
  | some x =>
    have : c ∉ x := fun hm => h x rfl c hm (by
      simp only [List.mem_cons, List.not_mem_nil, or_false] at hc ⊢
      tauto)
    simp only [List.mem_cons, List.not_mem_nil, or_false] at hc
    simp only [arrowLabel, List.mem_append, not_or]
    refine ⟨⟨?_, this⟩, ?_⟩ <;> rcases hc with rfl | rfl | rfl <;> simp

/-- What follows an arrow begins with a bar or a blank. -/
theorem after_arrow (l : Option Str) (t : Str) : ∃ r, arrowLabel l ++ c!" " ++ t = '|' :: r ∨ arrowLabel l ++ c!" " ++ t = ' ' :: r := by
  cases l with
  | none => exact ⟨t, .inr rfl⟩
  | some x => exact ⟨x ++ c!"|" ++ c!" " ++ t, .inl (by simp [arrowLabel])⟩

/-- The line is split at the arrow. -/
theorem splitConnection_edge {u v : Str} (r : ArrowText) (hu : '-' ∉ u ∧ '=' ∉ u) (hv : '-' ∉ v ∧ '=' ∉ v)
    (hv' : ∃ t, v = '|' :: t ∨ v = ' ' :: t) : splitConnection (u ++ r.text ++ v) = some (trim u, r.text ++ v) := by
  have hgt : v.head? ≠ some '>' := by
    obtain ⟨t, rfl | rfl⟩ := hv' <;> simp
  have hgt' : ∀ p, ¬ '>' :: p <+: v := by
    rintro p ⟨t, rfl⟩
    exact hgt rfl
  have hm' : ∀ p, ¬ '-' :: p <+: v := by
    rintro p ⟨t, rfl⟩
    exact hv.1 (by simp)
  unfold splitConnection arrows
  cases r with
  | thick =>
    have := split_hit (c := '=') (p := c!"=>") (s := u) (t := v) hu.2
    simp only [ArrowText.text, List.append_assoc]
    unfold splitAtArrow
    rw [this]
  | dotted =>
    have e1 : splitOnce? c!"==>" (u ++ (c!"-.->" ++ v)) = none := split_none rfl (by simp [hu.2, hv.2])
    have := split_hit (c := '-') (p := c!".->") (s := u) (t := v) hu.1
    simp only [ArrowText.text, List.append_assoc]
    simp only [splitAtArrow]
    rw [e1]
    simp only
    rw [this]
  | long =>
    have e1 : splitOnce? c!"==>" (u ++ (c!"-->" ++ v)) = none := split_none rfl (by simp [hu.2, hv.2])
    have e2 : splitOnce? c!"-.->" (u ++ (c!"-->" ++ v)) = none := by
      have a1 := split_skip (c := '-') (p := c!".->") (s := u) (t := c!"->" ++ v) hu.1 (by simp)
      have a2 := split_skip_none (c := '-') (p := c!".->") (s := []) (t := '>' :: v) (by simp) (by simp) (by simp [hv.1])
      simp only [List.nil_append] at a2
      simp only [List.cons_append, List.nil_append] at a1 ⊢
      rw [a1, a2]
      rfl
    have := split_hit (c := '-') (p := c!"->") (s := u) (t := v) hu.1
    simp only [ArrowText.text, List.append_assoc]
    simp only [splitAtArrow]
    rw [e1, e2]
    simp only
    rw [this]
  | line =>
    have e1 : splitOnce? c!"==>" (u ++ (c!"---" ++ v)) = none := split_none rfl (by simp [hu.2, hv.2])
    have e2 : splitOnce? c!"-.->" (u ++ (c!"---" ++ v)) = none := by
      have a1 := split_skip (c := '-') (p := c!".->") (s := u) (t := c!"--" ++ v) hu.1 (by simp)
      have a2 := split_skip (c := '-') (p := c!".->") (s := []) (t := '-' :: v) (by simp) (by simp)
      have a3 := split_skip_none (c := '-') (p := c!".->") (s := []) (t := v) (by simp) (by
        rintro ⟨t, rfl⟩
        obtain ⟨t', h | h⟩ := hv' <;> cases h) hv.1
      simp only [List.nil_append] at a2 a3
      simp only [List.cons_append, List.nil_append] at a1 ⊢
      rw [a1, a2, a3]
      rfl
    have e3 : splitOnce? c!"-->" (u ++ (c!"---" ++ v)) = none := by
      have a1 := split_skip (c := '-') (p := c!"->") (s := u) (t := c!"--" ++ v) hu.1 (by simp)
      have a2 := split_skip (c := '-') (p := c!"->") (s := []) (t := '-' :: v) (by simp) (by simpa using hgt' [])
      have a3 := split_skip_none (c := '-') (p := c!"->") (s := []) (t := v) (by simp) (hm' _) hv.1
      simp only [List.nil_append] at a2 a3
      simp only [List.cons_append, List.nil_append] at a1 ⊢
      rw [a1, a2, a3]
      rfl
    have := split_hit (c := '-') (p := c!"--") (s := u) (t := v) hu.1
    simp only [ArrowText.text, List.append_assoc]
    simp only [splitAtArrow]
    rw [e1, e2, e3]
    simp only
    rw [this]
  | short =>
    have e1 : splitOnce? c!"==>" (u ++ (c!"->" ++ v)) = none := split_none rfl (by simp [hu.2, hv.2])
    have e2 : splitOnce? c!"-.->" (u ++ (c!"->" ++ v)) = none :=
      split_skip_none (c := '-') (p := c!".->") (s := u) (t := '>' :: v) hu.1 (by simp) (by simp [hv.1])
    have e3 : splitOnce? c!"-->" (u ++ (c!"->" ++ v)) = none :=
      split_skip_none (c := '-') (p := c!"->") (s := u) (t := '>' :: v) hu.1 (by simp) (by simp [hv.1])
    have e4 : splitOnce? c!"---" (u ++ (c!"->" ++ v)) = none :=
      split_skip_none (c := '-') (p := c!"--") (s := u) (t := '>' :: v) hu.1 (by simp) (by simp [hv.1])
    have := split_hit (c := '-') (p := c!">") (s := u) (t := v) hu.1
    simp only [ArrowText.text, List.append_assoc]
    simp only [splitAtArrow]
    rw [e1, e2, e3, e4]
    simp only
    rw [this]

theorem parseArrow_edge (r : ArrowText) (v : Str) : parseArrowAndRest (r.text ++ v) = (r.style, trim v) := by
  unfold parseArrowAndRest
  cases r <;> simp [ArrowText.text, ArrowText.style, stripPrefix?]

theorem arrowLabel_read {l : Option Str} (hl : ∀ x, l = some x → LabelOk x) {b : NodeText} (hb : b.Ok) :
    extractArrowLabel (trim (arrowLabel l ++ c!" " ++ b.text)) = (b.text, l) := by
  have hb' : '|' ∉ b.text := not_mem_node hb (by decide)
  have htb : trim (c!" " ++ b.text) = b.text := trim_indent (by simp [isWs]) (tight_node hb)
  unfold extractArrowLabel
  cases l with
  | none =>
    simp only [arrowLabel, List.nil_append]
    rw [htb, split_none rfl hb']
  | some x =>
    have hx : '|' ∉ x := fun hm => hl x rfl _ hm (by decide)
    have ht : trim (arrowLabel (some x) ++ c!" " ++ b.text) = arrowLabel (some x) ++ c!" " ++ b.text := by
      refine trim_tight ?_
      have : Tight c!"|" := ⟨by simp [isWs], by simp [isWs], by simp⟩
      have := this.append (x ++ c!"|" ++ c!" ") (tight_node hb)
      simpa [arrowLabel] using this
    rw [ht]
    have e1 : splitOnce? c!"|" (arrowLabel (some x) ++ c!" " ++ b.text) = some ([], x ++ (c!"|" ++ (c!" " ++ b.text))) := by
      have := split_hit (c := '|') (p := []) (s := []) (t := x ++ (c!"|" ++ (c!" " ++ b.text))) (by simp)
      simpa [arrowLabel] using this
    have e2 : splitOnce? c!"|" (x ++ (c!"|" ++ (c!" " ++ b.text))) = some (x, c!" " ++ b.text) :=
      split_hit (c := '|') (p := []) hx
    rw [e1]
    simp only
    rw [e2]
    simp only
    rw [htb]

/-! ### Reading a line -/

/-- What a line adds. -/
def addLine (st : Reading) (l : FlowLine) : Reading :=
  let st' := l.mentions.foldl (fun st n => st.declare (n.name, some n.node)) st
  { st' with connections := st'.connections ++ l.edge? }

theorem prefix_of_append {p a b : Str} {c : Char} (hc : c ∉ p) (h : p <+: a ++ c :: b) : p <+: a := by
  obtain ⟨t, ht⟩ := h
  rcases List.append_eq_append_iff.mp ht with ⟨x, e1, e2⟩ | ⟨x, e1, e2⟩
  · exact ⟨x, e1.symm⟩
  · cases x with
    | nil => exact ⟨[], by simpa using e1⟩
    | cons y x =>
      simp only [List.cons_append, List.cons.injEq] at e2
      exact absurd (by rw [e1, e2.1]; simp) hc

theorem opening_cons (s : NodeShape) : ∃ c t, opening s = c :: t ∧ c ∉ c!"subgraph" ∧ c ∉ c!"end" := by
  cases s <;> exact ⟨_, _, rfl, by decide, by decide⟩

/-- The beginning of a line. -/
theorem line_start {l : FlowLine} (h : l.Ok) : l.text ≠ [] ∧ startsWith c!"%%" l.text = false ∧
    stripPrefix? c!"subgraph" l.text = none ∧ l.text ≠ c!"end" := by
  obtain ⟨n, r, hn, hlt⟩ : ∃ (n : Str) (r : Str), NameOk n ∧ (l.text = n ∧ r = [] ∨ ∃ c t, l.text = n ++ c :: t ∧ r = c :: t ∧
      c ∉ c!"subgraph" ∧ c ∉ c!"end") := by
    have key : ∀ (m : NodeText) (x : Str), m.Ok → (x = [] ∨ ∃ c t, x = c :: t ∧ c ∉ c!"subgraph" ∧ c ∉ c!"end") →
        ∃ (n : Str) (r : Str), NameOk n ∧ (m.text ++ x = n ∧ r = [] ∨ ∃ c t, m.text ++ x = n ++ c :: t ∧ r = c :: t ∧
          c ∉ c!"subgraph" ∧ c ∉ c!"end") := by
      intro m x hm hx
      cases hb : m.body with
      | none =>
        have ht : m.text = m.name := by unfold NodeText.text; rw [hb]; simp [bodyText]
        rw [ht]
        rcases hx with rfl | ⟨c, t, rfl, hc⟩
        · exact ⟨m.name, [], hm.1, .inl ⟨by simp, rfl⟩⟩
        · exact ⟨m.name, c :: t, hm.1, .inr ⟨c, t, rfl, rfl, hc⟩⟩
      | some b =>
        obtain ⟨c, t, ho, hc⟩ := opening_cons b.1
        refine ⟨m.name, c :: (t ++ b.2 ++ closing b.1 ++ x), hm.1, .inr ⟨c, t ++ b.2 ++ closing b.1 ++ x, ?_, rfl, hc⟩⟩
        unfold NodeText.text
        rw [hb]
        simp [bodyText, ho]
    cases l with
    | node m =>
      have := key m [] h (.inl rfl)
      simpa [FlowLine.text] using this
    | edge a r l b =>
      have := key a (c!" " ++ r.text ++ (arrowLabel l ++ c!" " ++ b.text)) h.1
        (.inr ⟨' ', r.text ++ (arrowLabel l ++ c!" " ++ b.text), by simp, by decide, by decide⟩)
      simpa [FlowLine.text] using this
  have hpre : ∀ p : Str, (∀ c, c ∉ c!"subgraph" → c ∉ p) → p <+: l.text → p <+: n := by
    intro p hp hpre
    rcases hlt with ⟨e, _⟩ | ⟨c, t, e, _, hc, _⟩
    · rwa [e] at hpre
    · rw [e] at hpre
      exact prefix_of_append (hp c hc) hpre
  refine ⟨(tight_line h).2.2, ?_, ?_, ?_⟩
  · rw [Bool.eq_false_iff]
    intro hs
    obtain ⟨t, ht⟩ := startsWith_iff.mp hs
    cases n with
    | nil => exact hn.1 rfl
    | cons x n =>
      have : x = '%' := by
        rcases hlt with ⟨e, _⟩ | ⟨c, t', e, _⟩
        · rw [e] at ht
          simpa using congrArg List.head? ht
        · rw [e] at ht
          simpa using congrArg List.head? ht
      subst this
      exact not_mem_name hn (c := '%') rfl (by decide) (by simp)
  · cases hsp : stripPrefix? c!"subgraph" l.text with
    | none => rfl
    | some t =>
      exact absurd (hpre c!"subgraph" (fun c hc => hc) ⟨t, (stripPrefix?_eq_some.mp hsp).symm⟩) hn.2.2.2
  · intro he
    rcases hlt with ⟨e, _⟩ | ⟨c, t, e, _, _, hc⟩
    · exact hn.2.2.1 (e.symm.trans he)
    · rw [he] at e
      exact hc (by rw [e]; simp)

theorem line_read (uni : Char → Bool) {indent : Str} (hi : ∀ c ∈ indent, isWs c = true) {l : FlowLine} (h : l.Ok) (st : Reading) :
    st.line uni (indent ++ l.text) = addLine st l := by
  obtain ⟨h1, h2, h3, h4⟩ := line_start h
  unfold Reading.line
  rw [trim_indent hi (tight_line h), if_neg (by simp [h1, h2]), h3]
  simp only
  rw [if_neg h4]
  cases l with
  | node n =>
    have hs : splitConnection n.text = none := by
      unfold splitConnection arrows
      simp only [splitAtArrow, split_none rfl (not_mem_node h (c := '=') (by decide)),
        split_none rfl (not_mem_node h (c := '-') (by decide))]
    show (match splitConnection n.text with
      | some (u, v) => st.edge uni u v
      | none => st.declare (parseNodeDef uni n.text)) = _
    rw [hs]
    simp only [parseNodeDef_node uni h]
    unfold addLine
    simp [FlowLine.mentions, FlowLine.edge?]
  | edge a r l b =>
    have hu : ∀ c ∈ c!"-=", c ∉ a.text ++ c!" " := by
      intro c hc
      simp only [List.mem_append, not_or]
      simp only [List.mem_cons, List.not_mem_nil, or_false] at hc
      rcases hc with rfl | rfl
      · exact ⟨not_mem_node h.1 (by decide), by decide⟩
      · exact ⟨not_mem_node h.1 (by decide), by decide⟩
    have hv : ∀ c ∈ c!"-=", c ∉ arrowLabel l ++ c!" " ++ b.text := by
      intro c hc
      simp only [List.mem_append, not_or]
      simp only [List.mem_cons, List.not_mem_nil, or_false] at hc
      rcases hc with rfl | rfl
      · exact ⟨⟨not_mem_arrowLabel h.2.1 (by decide), by decide⟩, not_mem_node h.2.2 (by decide)⟩
      · exact ⟨⟨not_mem_arrowLabel h.2.1 (by decide), by decide⟩, not_mem_node h.2.2 (by decide)⟩
    have hs := splitConnection_edge r ⟨hu '-' (by decide), hu '=' (by decide)⟩ ⟨hv '-' (by decide), hv '=' (by decide)⟩
      (after_arrow l b.text)
    have hta : parseNodeDef uni (trim (a.text ++ c!" ")) = (a.name, some a.node) := by
      have : trim (a.text ++ c!" ") = a.text := by
        have hta := trim_tight (tight_node h.1)
        unfold trim trimEnd trimStart at hta ⊢
        have hd : List.dropWhile isWs (a.text ++ c!" ") = a.text ++ c!" " := by
          have ht := tight_node h.1
          cases hx : a.text with
          | nil => exact absurd hx ht.2.2
          | cons x t =>
            rw [List.cons_append, List.dropWhile_cons_of_neg]
            have := ht.1 x (by rw [hx]; rfl)
            simp [this]
        have hd' : List.dropWhile isWs a.text = a.text := by
          have ht := tight_node h.1
          cases hx : a.text with
          | nil => exact absurd hx ht.2.2
          | cons x t =>
            rw [List.dropWhile_cons_of_neg]
            have := ht.1 x (by rw [hx]; rfl)
            simp [this]
        rw [hd]
        rw [hd'] at hta
        rw [List.reverse_append]
        show (List.dropWhile isWs (' ' :: a.text.reverse)).reverse = _
        rw [List.dropWhile_cons_of_pos (by decide)]
        exact hta
      rw [this, parseNodeDef_node uni h.1]
    show (match splitConnection (a.text ++ c!" " ++ r.text ++ (arrowLabel l ++ c!" " ++ b.text)) with
      | some (u, v) => st.edge uni u v
      | none => st.declare (parseNodeDef uni (a.text ++ c!" " ++ r.text ++ (arrowLabel l ++ c!" " ++ b.text)))) = _
    rw [hs]
    simp only [Reading.edge, parseArrow_edge, arrowLabel_read h.2.1 h.2.2, hta, parseNodeDef_node uni h.2.2]
    rfl

/-! ### Reading all lines -/

/-- Nodes declared one after the other. -/
def declared (N : AMap Str Node) (ms : List NodeText) : AMap Str Node :=
  ms.foldl (fun N n => if N.has n.name then N else N ++ [(n.name, n.node)]) N

/-- Members of a subgraph, one after the other. -/
def members (sg : Subgraph) (ms : List NodeText) : Subgraph := ms.foldl (fun sg n => sg.add n.name) sg

theorem addLines_eq (ls : List FlowLine) (st : Reading) : ls.foldl addLine st =
    { nodes := declared st.nodes (ls.flatMap FlowLine.mentions), connections := st.connections ++ ls.flatMap FlowLine.edge?,
      subgraphs := st.subgraphs, current := st.current.map fun sg => members sg (ls.flatMap FlowLine.mentions) } := by
  have hd : ∀ (ms : List NodeText) (st : Reading), ms.foldl (fun st n => st.declare (n.name, some n.node)) st =
      { nodes := declared st.nodes ms, connections := st.connections, subgraphs := st.subgraphs,
        current := st.current.map fun sg => members sg ms } := by
    intro ms
    induction ms with
    | nil =>
      intro st
      obtain ⟨N, C, S, cur⟩ := st
      cases cur <;> rfl
    | cons m ms ih =>
      intro st
      rw [List.foldl_cons, ih]
      obtain ⟨N, C, S, cur⟩ := st
      cases cur <;> rfl
  induction ls generalizing st with
  | nil =>
    obtain ⟨N, C, S, cur⟩ := st
    cases cur <;> simp [declared, members]
  | cons l ls ih =>
    rw [List.foldl_cons, ih]
    unfold addLine
    simp only [hd]
    obtain ⟨N, C, S, cur⟩ := st
    cases cur <;> simp [declared, members, List.foldl_append]

theorem lines_read (uni : Char → Bool) {indent : Str} (hi : ∀ c ∈ indent, isWs c = true) (ls : List FlowLine)
    (h : ∀ l ∈ ls, l.Ok) (st : Reading) :
    (ls.map fun l => indent ++ l.text).foldl (Reading.line uni) st = ls.foldl addLine st := by
  induction ls generalizing st with
  | nil => rfl
  | cons l ls ih =>
    rw [List.map_cons, List.foldl_cons, line_read uni hi (h l (by simp)), List.foldl_cons,
      ih fun x hx => h x (by simp [hx])]

theorem firstMentions_append (a b : List NodeText) :
    firstMentions (a ++ b) = firstMentions a ++ (firstMentions b).filter fun m => m.id ∉ a.map (·.name) := by
  induction a with
  | nil => simp [firstMentions]
  | cons n a ih =>
    rw [List.cons_append, firstMentions, ih, List.filter_append, List.filter_filter]
    simp only [firstMentions, List.cons_append, List.map_cons, List.mem_cons, not_or]
    congr 2
    refine List.filter_congr fun m _ => ?_
    simp

theorem mem_firstMentions_ids (ms : List NodeText) (k : Str) : k ∈ (firstMentions ms).map (·.id) ↔ k ∈ ms.map (·.name) := by
  induction ms with
  | nil => simp [firstMentions]
  | cons n ms ih =>
    simp only [firstMentions, List.map_cons, List.mem_cons, node_id]
    rw [← ih]
    simp only [List.mem_map, List.mem_filter, decide_eq_true_eq]
    constructor
    · rintro (h | ⟨m, ⟨hm, _⟩, rfl⟩)
      · exact .inl h
      · exact .inr ⟨m, hm, rfl⟩
    · rintro (h | ⟨m, hm, rfl⟩)
      · exact .inl h
      · by_cases he : m.id = n.name
        · exact .inl he
        · exact .inr ⟨m, ⟨hm, he⟩, rfl⟩

theorem declared_eq (ms : List NodeText) (N : AMap Str Node) :
    declared N ms = N ++ ((firstMentions ms).filter fun m => m.id ∉ N.keys).map fun m => (m.id, m) := by
  induction ms generalizing N with
  | nil => simp [declared, firstMentions]
  | cons n ms ih =>
    have hunf : declared N (n :: ms) = declared (if N.has n.name then N else N ++ [(n.name, n.node)]) ms := rfl
    rw [hunf, ih]
    by_cases hk : n.name ∈ N.keys
    · rw [if_pos ((AMap.has_iff_mem _ _).mpr hk)]
      simp only [firstMentions]
      rw [List.filter_cons_of_neg (by simpa [node_id] using hk), List.filter_filter]
      congr 2
      refine List.filter_congr fun m _ => ?_
      by_cases hm : m.id = n.name
      · simp [hm, hk]
      · simp [hm]
    · rw [if_neg (fun hc => hk ((AMap.has_iff_mem _ _).mp hc))]
      simp only [firstMentions]
      rw [List.filter_cons_of_pos (by simpa [node_id] using hk), List.filter_filter, List.map_cons, List.append_assoc,
        List.singleton_append, node_id]
      congr 3
      refine List.filter_congr fun m _ => ?_
      have hkeys : AMap.keys (N ++ [(n.name, n.node)]) = N.keys ++ [n.name] := List.map_append
      rw [hkeys]
      by_cases hm : m.id = n.name
      · simp [hm]
      · simp [hm]

theorem members_eq (ms : List NodeText) (sg : Subgraph) :
    members sg ms = ⟨sg.name, sg.nodes ++ ((firstMentions ms).map (·.id)).filter fun k => k ∉ sg.nodes⟩ := by
  induction ms generalizing sg with
  | nil => simp [members, firstMentions]
  | cons n ms ih =>
    have hunf : members sg (n :: ms) = members (sg.add n.name) ms := rfl
    rw [hunf, ih]
    unfold Subgraph.add
    by_cases hk : n.name ∈ sg.nodes
    · rw [if_pos hk]
      simp only [firstMentions, List.map_cons, node_id]
      rw [List.filter_cons_of_neg (by simpa using hk)]
      congr 2
      rw [List.filter_map, List.filter_map, List.filter_filter]
      congr 1
      refine List.filter_congr fun m _ => ?_
      by_cases hm : m.id = n.name
      · simp [hm, hk]
      · simp [hm]
    · rw [if_neg hk]
      simp only [firstMentions, List.map_cons, node_id]
      rw [List.filter_cons_of_pos (by simpa using hk), List.append_assoc, List.singleton_append]
      congr 3
      rw [List.filter_map, List.filter_map, List.filter_filter]
      congr 1
      refine List.filter_congr fun m _ => ?_
      simp [not_or, Bool.and_comm]

theorem item_read (uni : Char → Bool) {indent : Str} (hi : ∀ c ∈ indent, isWs c = true) {it : FlowItem} (h : it.Ok)
    (N : AMap Str Node) (C : List Connection) (S : List Subgraph) :
    (it.text indent).foldl (Reading.line uni) ⟨N, C, S, none⟩ =
      ⟨declared N (it.inner.flatMap FlowLine.mentions), C ++ it.inner.flatMap FlowLine.edge?, S ++ it.subgraph?, none⟩ := by
  cases it with
  | line l =>
    have := lines_read uni hi [l] (by intro x hx; rw [List.mem_singleton] at hx; subst hx; exact h) ⟨N, C, S, none⟩
    simp only [List.map_cons, List.map_nil] at this
    rw [FlowItem.text, this, addLines_eq]
    simp [FlowItem.inner, FlowItem.subgraph?]
  | block name ls =>
    have ht : Tight (c!"subgraph " ++ name) := by
      have : Tight c!"subgraph" := ⟨by simp [isWs], by simp [isWs], by simp⟩
      have := this.append c!" " h.1.2
      simpa using this
    have h1 : Reading.line uni ⟨N, C, S, none⟩ (indent ++ (c!"subgraph " ++ name)) = ⟨N, C, S, some ⟨name, []⟩⟩ := by
      unfold Reading.line
      rw [trim_indent hi ht, if_neg (by simp [startsWith])]
      have e : stripPrefix? c!"subgraph" (c!"subgraph " ++ name) = some (c!" " ++ name) :=
        stripPrefix?_eq_some.mpr rfl
      rw [e]
      simp only
      rw [trim_indent (p := c!" ") (by simp [isWs]) h.1.2]
    have h3 : ∀ st : Reading, Reading.line uni st (indent ++ c!"end") = st.close := by
      intro st
      have : Tight c!"end" := ⟨by simp [isWs], by simp [isWs], by simp⟩
      unfold Reading.line
      rw [trim_indent hi this]
      rfl
    rw [FlowItem.text, List.foldl_append, List.foldl_append]
    simp only [List.foldl_cons, List.foldl_nil]
    rw [h3, h1, lines_read uni hi ls h.2, addLines_eq]
    simp only [Reading.close, Option.map_some, FlowItem.inner, FlowItem.subgraph?, members_eq]
    simp

theorem items_read (uni : Char → Bool) {indent : Str} (hi : ∀ c ∈ indent, isWs c = true) (items : List FlowItem)
    (h : ∀ it ∈ items, it.Ok) (N : AMap Str Node) (C : List Connection) (S : List Subgraph) :
    (items.flatMap (FlowItem.text indent)).foldl (Reading.line uni) ⟨N, C, S, none⟩ =
      ⟨declared N ((items.flatMap FlowItem.inner).flatMap FlowLine.mentions),
        C ++ (items.flatMap FlowItem.inner).flatMap FlowLine.edge?, S ++ items.flatMap FlowItem.subgraph?, none⟩ := by
  induction items generalizing N C S with
  | nil => simp [declared]
  | cons it items ih =>
    rw [List.flatMap_cons, List.foldl_append, item_read uni hi (h it (by simp)), ih fun x hx => h x (by simp [hx])]
    simp [declared, List.foldl_append]

theorem newline_line {l : FlowLine} (h : l.Ok) : '\n' ∉ l.text := by
  cases l with
  | node n => exact not_mem_node h (by decide)
  | edge a r l b =>
    simp only [FlowLine.text, List.mem_append, not_or]
    refine ⟨⟨⟨not_mem_node h.1 (by decide), by decide⟩, ?_⟩, ⟨⟨not_mem_arrowLabel h.2.1 (by decide), by decide⟩,
      not_mem_node h.2.2 (by decide)⟩⟩
    cases r <;> decide

theorem newline_item {indent : Str} (hi : '\n' ∉ indent) {it : FlowItem} (h : it.Ok) : ∀ x ∈ it.text indent, '\n' ∉ x := by
  intro x hx
  cases it with
  | line l =>
    simp only [FlowItem.text, List.mem_singleton] at hx
    subst hx
    simp only [List.mem_append, not_or]
    exact ⟨hi, newline_line h⟩
  | block name ls =>
    simp only [FlowItem.text, List.mem_append, List.mem_singleton, List.mem_map] at hx
    rcases hx with (rfl | ⟨l, hl, rfl⟩) | rfl
    · simp only [List.mem_append, not_or]
      exact ⟨hi, by decide, h.1.1⟩
    · simp only [List.mem_append, not_or]
      exact ⟨hi, newline_line (h.2 l hl)⟩
    · simp only [List.mem_append, not_or]
      exact ⟨hi, by decide⟩

/-- Blanks and tabs. -/
def IndentOk (s : Str) : Prop := ∀ c ∈ s, c = ' ' ∨ c = '\t'

/-- Nodes mentioned in a flowchart; the first mention of each counts. -/
def meantNodes (items : List FlowItem) : List Node :=
  firstMentions ((items.flatMap FlowItem.inner).flatMap FlowLine.mentions)

/-- The connections written in a flowchart. -/
def meantEdges (items : List FlowItem) : List Connection := (items.flatMap FlowItem.inner).flatMap FlowLine.edge?

/-- The subgraphs written in a flowchart. -/
def meantGroups (items : List FlowItem) : List Subgraph := items.flatMap FlowItem.subgraph?

/-- **C61.** The text of a flowchart is read as the nodes, connections and subgraphs that are written in it. -/
theorem C61_reading_partial (uni : Char → Bool) (indent header : Str) (items : List FlowItem) (hi : IndentOk indent)
    (hh : '\n' ∉ header) (h : ∀ it ∈ items, it.Ok) :
    parse uni (flowText indent header items) =
      ⟨parseDirection header, meantNodes items, meantEdges items, meantGroups items⟩ := by
  have hi' : ∀ c ∈ indent, isWs c = true := by
    intro c hc
    rcases hi c hc with rfl | rfl <;> rfl
  have hn : '\n' ∉ indent := fun hm => by
    rcases hi _ hm with h | h <;> cases h
  unfold parse flowText
  rw [splitChar_joinStr (by simp) (by
    intro x hx
    rcases List.mem_cons.mp hx with rfl | hx
    · exact hh
    · obtain ⟨it, hit, hx⟩ := List.mem_flatMap.mp hx
      exact newline_item hn (h it hit) x hx)]
  simp only [List.tail_cons, List.headD_cons]
  have := items_read uni hi' items h [] [] []
  rw [this]
  simp only [declared_eq, List.nil_append, meantNodes, meantEdges, meantGroups]
  simp [AMap.keys, Function.comp_def]

theorem C61_header (kind : Str) (hk : kind = c!"graph" ∨ kind = c!"flowchart") :
    parseDirection (kind ++ c!" LR") = .leftToRight ∧ parseDirection (kind ++ c!" RL") = .rightToLeft ∧
    parseDirection (kind ++ c!" TD") = .topToBottom ∧ parseDirection (kind ++ c!" TB") = .topToBottom ∧
    parseDirection (kind ++ c!" BT") = .bottomToTop := by
  rcases hk with rfl | rfl <;> decide +kernel

theorem firstMentions_nodup (ms : List NodeText) : ((firstMentions ms).map (·.id)).Nodup := by
  induction ms with
  | nil => simp [firstMentions]
  | cons n ms ih =>
    simp only [firstMentions, List.map_cons, List.nodup_cons, node_id]
    refine ⟨?_, ?_⟩
    · simp only [List.mem_map, List.mem_filter, decide_eq_true_eq, not_exists, not_and]
      rintro m ⟨_, h⟩ he
      exact h he
    · exact ih.sublist (List.Sublist.map _ List.filter_sublist)

theorem meantGroups_nodup {items : List FlowItem}
    (hd : (meantGroups items).Pairwise fun a b => ∀ k ∈ a.nodes, k ∉ b.nodes) :
    ((meantGroups items).flatMap (·.nodes)).Nodup := by
  refine List.nodup_flatMap.mpr ⟨?_, ?_⟩
  · intro sg hsg
    obtain ⟨it, _, hsg⟩ := List.mem_flatMap.mp hsg
    cases it with
    | line l => simp [FlowItem.subgraph?] at hsg
    | block name ls =>
      simp only [FlowItem.subgraph?, List.mem_singleton] at hsg
      subst hsg
      exact firstMentions_nodup _
  · exact hd.imp fun h k hk hk' => h k hk hk'

theorem edge_mentioned {items : List FlowItem} {c : Connection} (hc : c ∈ meantEdges items) :
    c.source ∈ (meantNodes items).map (·.id) ∧ c.target ∈ (meantNodes items).map (·.id) := by
  unfold meantEdges at hc
  unfold meantNodes
  rw [mem_firstMentions_ids, mem_firstMentions_ids]
  obtain ⟨l, hl, hc⟩ := List.mem_flatMap.mp hc
  cases l with
  | node n => simp [FlowLine.edge?] at hc
  | edge a r l b =>
    simp only [FlowLine.edge?, List.mem_singleton] at hc
    subst hc
    exact ⟨List.mem_map.mpr ⟨a, List.mem_flatMap.mpr ⟨_, hl, by simp [FlowLine.mentions]⟩, rfl⟩,
      List.mem_map.mpr ⟨b, List.mem_flatMap.mpr ⟨_, hl, by simp [FlowLine.mentions]⟩, rfl⟩⟩

/-- **C61**, from text to shapes: every node mentioned in the text has exactly one shape, with the outline and label of
its first mention, whatever the order of the node map; every written connection is drawn, in order, from the shape of
its source to the shape of its target. -/
theorem C61_source_partial (uni : Char → Bool) (indent header : Str) (items : List FlowItem) (hi : IndentOk indent)
    (hh : '\n' ∉ header) (h : ∀ it ∈ items, it.Ok) (hne : meantNodes items ≠ [])
    (hd : (meantGroups items).Pairwise fun a b => ∀ k ∈ a.nodes, k ∉ b.nodes)
    (f : Flowchart) (hf : f.nodes.Perm (parse uni (flowText indent header items)).nodes)
    (hf' : f = { parse uni (flowText indent header items) with nodes := f.nodes }) :
    ∃ (num : Str → Nat) (pos : Str → Nat × Nat),
      (∀ n ∈ meantNodes items,
        (elements f).shapes.filter (fun s => s.id = some (num n.id)) = [nodeBox n (pos n.id) (num n.id)]) ∧
      (∀ n ∈ meantNodes items, ∀ m ∈ meantNodes items, num n.id = num m.id → n = m) ∧
      ((elements f).shapes.filterMap (·.id)).Nodup ∧
      (elements f).shapes.length = (meantNodes items).length + 2 * (meantGroups items).length +
        ((meantEdges items).filterMap (·.label)).length ∧
      (elements f).connectors.map attached = (meantEdges items).map fun c =>
        ((some (num c.source), some (num c.target)), touches (parseDirection header) (pos c.source) (pos c.target)) := by
  rw [C61_reading_partial uni indent header items hi hh h] at hf hf'
  have hdir : f.direction = parseDirection header := by rw [hf']
  have hcon : f.connections = meantEdges items := by rw [hf']
  have hsub : f.subgraphs = meantGroups items := by rw [hf']
  have hnd : (f.nodes.map (·.id)).Nodup := (hf.map _).nodup_iff.mpr (firstMentions_nodup _)
  obtain ⟨num, pos, h1, h2, h3, h4, h5⟩ := C61_layout_partial f hnd (by rw [hsub]; exact meantGroups_nodup hd)
    (fun he => hne (by rw [he] at hf; exact hf.nil_eq.symm))
  have hdr : drawn f = meantEdges items := by
    unfold drawn
    rw [hcon, List.filter_eq_self]
    intro c hc
    obtain ⟨e1, e2⟩ := edge_mentioned hc
    simp only [decide_eq_true_eq]
    exact ⟨(hf.map _).mem_iff.mpr e1, (hf.map _).mem_iff.mpr e2⟩
  refine ⟨num, pos, fun n hn => h1 n (hf.mem_iff.mpr hn), fun n hn m hm => h2 n (hf.mem_iff.mpr hn) m (hf.mem_iff.mpr hm),
    h3, ?_, ?_⟩
  · rw [h4, hf.length_eq, hsub, hdr]
  · rw [h5, hdr, hdir]

/-! ### Every text -/

structure ReadInv (st : Reading) : Prop where
  ok : (st.nodes.map (·.1)).Nodup
  ids : ∀ e ∈ st.nodes, e.2.id = e.1
  groups : ∀ sg ∈ st.subgraphs ++ st.current.toList, sg.nodes.Nodup ∧ ∀ k ∈ sg.nodes, k ∈ st.nodes.map (·.1)

theorem parseNodeDef_id (uni : Char → Bool) (s : Str) (n : Node) (h : (parseNodeDef uni s).2 = some n) :
    n.id = (parseNodeDef uni s).1 := by
  unfold parseNodeDef at h ⊢
  cases hb : parseBrackets (trim s) brackets with
  | some m =>
    rw [hb] at h
    simp only [Option.some.injEq] at h ⊢
    rw [h]
  | none =>
    rw [hb] at h
    simp only at h ⊢
    split at h
    · simp only [Option.some.injEq] at h
      rename_i hw
      rw [if_pos hw, ← h]
    · cases h

theorem ReadInv.declare {st : Reading} (h : ReadInv st) (d : Str × Option Node) (hd : ∀ n, d.2 = some n → n.id = d.1) :
    ReadInv (st.declare d) := by
  unfold Reading.declare
  obtain ⟨k, n⟩ := d
  cases n with
  | none => exact h
  | some n =>
    simp only
    have hid : n.id = k := hd n rfl
    have hsub : ∀ x, x ∈ st.nodes.map (·.1) → x ∈ (if st.nodes.has k = true then st.nodes else st.nodes ++ [(k, n)]).map (·.1) := by
      intro x hx
      split
      · exact hx
      · rw [List.map_append]
        exact List.mem_append_left _ hx
    have hself : k ∈ (if st.nodes.has k = true then st.nodes else st.nodes ++ [(k, n)]).map (·.1) := by
      split
      · rename_i hk
        exact (AMap.has_iff_mem _ _).mp hk
      · rw [List.map_append]
        exact List.mem_append_right _ (by simp)
    refine ⟨?_, ?_, ?_⟩
    · simp only
      split
      · exact h.ok
      · rename_i hk
        rw [List.map_append]
        refine List.nodup_append.mpr ⟨h.ok, by simp, ?_⟩
        intro a ha b hb he
        simp only [List.map_cons, List.map_nil, List.mem_singleton] at hb
        subst hb he
        exact hk ((AMap.has_iff_mem _ _).mpr ha)
    · simp only
      split
      · exact h.ids
      · intro e he
        rcases List.mem_append.mp he with he | he
        · exact h.ids e he
        · rw [List.mem_singleton] at he
          subst he
          exact hid
    · intro sg hsg
      simp only [List.mem_append] at hsg
      rcases hsg with hsg | hsg
      · obtain ⟨g1, g2⟩ := h.groups sg (List.mem_append_left _ hsg)
        exact ⟨g1, fun x hx => hsub x (g2 x hx)⟩
      · cases hc : st.current with
        | none => rw [hc] at hsg; simp at hsg
        | some cur =>
          rw [hc] at hsg
          simp only [Option.map_some, Option.toList_some, List.mem_singleton] at hsg
          obtain ⟨g1, g2⟩ := h.groups cur (List.mem_append_right _ (by rw [hc]; simp))
          subst hsg
          unfold Subgraph.add
          split
          · exact ⟨g1, fun x hx => hsub x (g2 x hx)⟩
          · rename_i hk
            refine ⟨List.nodup_append.mpr ⟨g1, by simp, ?_⟩, ?_⟩
            · intro a ha b hb he
              rw [List.mem_singleton] at hb
              subst hb he
              exact hk ha
            · intro x hx
              rcases List.mem_append.mp hx with hx | hx
              · exact hsub x (g2 x hx)
              · rw [List.mem_singleton] at hx
                subst hx
                exact hself

theorem ReadInv.line {st : Reading} (h : ReadInv st) (uni : Char → Bool) (l : Str) : ReadInv (st.line uni l) := by
  unfold Reading.line
  split
  · exact h
  · split
    · refine ⟨h.ok, h.ids, ?_⟩
      intro sg hsg
      simp only [Option.toList_some, List.mem_append, List.mem_singleton] at hsg
      rcases hsg with hsg | rfl
      · exact h.groups sg (List.mem_append_left _ hsg)
      · simp
    · split
      · unfold Reading.close
        split
        · rename_i sg hsg
          refine ⟨h.ok, h.ids, ?_⟩
          intro x hx
          refine h.groups x ?_
          rw [hsg]
          simpa using hx
        · exact h
      · split
        · rename_i u v _
          have := (h.declare (parseNodeDef uni u) fun n hn => parseNodeDef_id uni _ n hn).declare
            (parseNodeDef uni (extractArrowLabel (parseArrowAndRest v).2).1) fun n hn => parseNodeDef_id uni _ n hn
          exact ⟨this.ok, this.ids, this.groups⟩
        · exact h.declare _ fun n hn => parseNodeDef_id uni _ n hn

/-- **C61**, for every text: what is read from it has distinct nodes, and each subgraph lists nodes, each once. So
`C61_layout_partial` applies to every text in which no node is in two subgraphs. -/
theorem C61_any_text (uni : Char → Bool) (code : Str) :
    ((parse uni code).nodes.map (·.id)).Nodup ∧
    ∀ sg ∈ (parse uni code).subgraphs, sg.nodes.Nodup ∧ ∀ k ∈ sg.nodes, k ∈ (parse uni code).nodes.map (·.id) := by
  have key : ∀ (ls : List Str) (st : Reading), ReadInv st → ReadInv (ls.foldl (Reading.line uni) st) := by
    intro ls
    induction ls with
    | nil => exact fun st h => h
    | cons l ls ih => exact fun st h => ih _ (h.line uni l)
  have h := key (splitChar '\n' code).tail {} ⟨by simp, by simp, by simp⟩
  unfold parse
  simp only
  have hm : ∀ N : AMap Str Node, (∀ e ∈ N, e.2.id = e.1) → (N.map (·.2)).map (·.id) = N.map (·.1) := by
    intro N hN
    rw [List.map_map]
    exact List.map_congr_left fun e he => hN e he
  rw [hm _ h.ids]
  exact ⟨h.ok, fun sg hsg => h.groups sg (List.mem_append_left _ hsg)⟩

/-! ### Violations -/

/-- A node mentioned in two subgraphs gets two shapes. -/
theorem C61_two_subgraphs_violated (uni : Char → Bool) :
    ((elements (parse uni c!"graph TD\nsubgraph X\nA[a]\nend\nsubgraph Y\nA\nend")).shapes.filter
      fun s => s.text = some c!"a").length = 2 := by
  krfl

/-- The second and later arrows of a chain are lost, together with their nodes. -/
theorem C61_chain_violated (uni : Char → Bool) :
    (elements (parse uni c!"graph TD\nA --> B --> C")).connectors = [] ∧
    (elements (parse uni c!"graph TD\nA --> B --> C")).shapes.map (·.text) = [some c!"A"] := by
  constructor <;> krfl

theorem place_prefix (d : Drawing) (n : Node) (x y : Nat) : d.shapes <+: (d.place n x y).shapes := ⟨_, rfl⟩

theorem members_prefix {all : List Node} {x y : Nat} (ids : List Str) (i : Nat) (d : Drawing) :
    d.shapes <+: (placeMembers all x y i ids d).shapes := by
  induction ids generalizing i d with
  | nil => exact List.prefix_refl _
  | cons k ks ih =>
    unfold placeMembers
    cases all.find? (fun n => n.id = k) with
    | none => exact ih _ _
    | some n => exact (place_prefix ..).trans (ih _ _)

theorem subgraphs_prefix {all : List Node} (sgs : List Subgraph) (x : Nat) (d : Drawing) :
    d.shapes <+: (placeSubgraphs all sgs x d).1.shapes := by
  induction sgs generalizing x d with
  | nil => exact List.prefix_refl _
  | cons sg sgs ih =>
    unfold placeSubgraphs
    have h1 : d.shapes <+: (d.frame sg x 1600000).shapes := ⟨_, rfl⟩
    exact h1.trans ((members_prefix ..).trans (ih _ _))

theorem orphans_prefix {x : Nat} (ns : List Node) (y : Nat) (d : Drawing) : d.shapes <+: (placeOrphans x ns y d).shapes := by
  induction ns generalizing y d with
  | nil => exact List.prefix_refl _
  | cons n ns ih =>
    unfold placeOrphans
    split
    · exact ih _ _
    · exact (place_prefix ..).trans (ih _ _)

theorem connect_prefix (b : Bool) (d : Drawing) (c : Connection) : d.shapes <+: (d.connect b c).shapes := by
  unfold Drawing.connect
  split
  · unfold Drawing.label
    cases c.label
    · exact List.prefix_refl _
    · exact ⟨_, rfl⟩
  · exact List.prefix_refl _

theorem connects_prefix (b : Bool) (cs : List Connection) (d : Drawing) :
    d.shapes <+: (cs.foldl (Drawing.connect b) d).shapes := by
  induction cs generalizing d with
  | nil => exact List.prefix_refl _
  | cons c cs ih => exact (connect_prefix b d c).trans (ih _)

/-- Every flowchart with subgraphs gives the slide two shapes numbered 10: the background of the first subgraph has no
number of its own and is given that of its place on the slide, which the title of the subgraph already has. -/
theorem C61_slide_numbers_violated (f : Flowchart) (hn : f.nodes ≠ []) (hs : f.subgraphs ≠ []) (sl : SlideIn)
    (hsl : sl.shapes = (elements f).shapes.map fun s => ⟨s.id, none⟩) (c : Nat) : ¬ (drawingIds sl c).Nodup := by
  have hpre : ∃ a b rest, (elements f).shapes = a :: b :: rest ∧ a.id = none ∧ b.id = some 10 := by
    have hsh : (elements f).shapes = (f.connections.foldl (Drawing.connect f.direction.horizontal) (layout f)).shapes := by
      unfold elements
      rw [if_neg hn]
    obtain ⟨sg, sgs, hsg⟩ := List.exists_cons_of_ne_nil hs
    have h1 : (Drawing.frame {} sg 500000 1600000).shapes <+: (layout f).shapes := by
      unfold layout
      rw [if_pos hs, hsg]
      unfold placeSubgraphs
      exact (members_prefix ..).trans ((subgraphs_prefix ..).trans (orphans_prefix ..))
    obtain ⟨rest, hr⟩ := h1.trans (connects_prefix f.direction.horizontal f.connections (layout f))
    rw [hsh, ← hr]
    exact ⟨_, _, rest, rfl, rfl, rfl⟩
  obtain ⟨a, b, rest, e, ha, hb⟩ := hpre
  intro hnd
  unfold drawingIds at hnd
  have h2 := (List.nodup_append.mp (List.nodup_append.mp (List.nodup_append.mp (List.nodup_append.mp
    (List.nodup_append.mp hnd).1).1).1).1).2.1
  rw [hsl, e] at h2
  simp [shapeIdsFrom, ha, hb] at h2

/-- Two diagrams on one slide use the same numbers. -/
theorem C61_two_diagrams_violated (f g : Flowchart) (hf : f.nodes ≠ []) (hg : g.nodes ≠ []) (hf' : f.subgraphs = [])
    (hg' : g.subgraphs = []) :
    ∃ s ∈ (elements f).shapes, ∃ t ∈ (elements g).shapes, s.id = some 10 ∧ t.id = some 10 := by
  have key : ∀ f : Flowchart, f.nodes ≠ [] → f.subgraphs = [] → ∃ s ∈ (elements f).shapes, s.id = some 10 := by
    intro f hn hs
    have hsh : (elements f).shapes = (f.connections.foldl (Drawing.connect f.direction.horizontal) (layout f)).shapes := by
      unfold elements
      rw [if_neg hn]
    obtain ⟨n, ns, hns⟩ := List.exists_cons_of_ne_nil hn
    have grid_prefix : ∀ (b : Bool) (c : Nat) (ns : List Node) (i : Nat) (d : Drawing),
        d.shapes <+: (placeGrid b c i ns d).shapes := by
      intro b c ns
      induction ns with
      | nil => exact fun _ _ => List.prefix_refl _
      | cons n ns ih => exact fun i d => (place_prefix ..).trans (ih _ _)
    have h1 : ∃ p q, (Drawing.place {} n p q).shapes <+: (layout f).shapes := by
      unfold layout
      rw [if_neg (by simp [hs]), hns]
      unfold placeGrid
      exact ⟨_, _, grid_prefix ..⟩
    obtain ⟨p, q, h1⟩ := h1
    have h2 := h1.trans (connects_prefix f.direction.horizontal f.connections (layout f))
    rw [← hsh] at h2
    exact ⟨nodeShape n p q 10, h2.subset (by simp [Drawing.place]), rfl⟩
  obtain ⟨s, h1, h2⟩ := key f hf hf'
  obtain ⟨t, h3, h4⟩ := key g hg hg'
  exact ⟨s, h1, t, h3, h2, h4⟩

/-! ### Examples -/

/-- A chart with a subgraph, outlines and labels. -/
def exampleChart : List FlowItem :=
  [.line (.edge ⟨c!"A", some (.circle, c!"Start")⟩ .long (some c!"go on") ⟨c!"B", none⟩),
   .block c!"Inner part" [.edge ⟨c!"C", some (.diamond, c!"Yes or no?")⟩ .dotted none ⟨c!"D_1", some (.stadium, c!"x")⟩, .node ⟨c!"C", none⟩],
   .line (.edge ⟨c!"B", none⟩ .thick none ⟨c!"C", none⟩)]

example : flowText c!"  " c!"graph LR" exampleChart =
    c!"graph LR\n  A((Start)) -->|go on| B\n  subgraph Inner part\n  C{Yes or no?} -.-> D_1([x])\n  C\n  end\n  B ==> C" := by
  decide +kernel

example : meantNodes exampleChart = [⟨c!"A", c!"Start", .circle⟩, ⟨c!"B", c!"B", .rectangle⟩, ⟨c!"C", c!"Yes or no?", .diamond⟩,
    ⟨c!"D_1", c!"x", .stadium⟩] := by decide +kernel

example : meantGroups exampleChart = [⟨c!"Inner part", [c!"C", c!"D_1"]⟩] ∧ (meantEdges exampleChart).length = 3 := by decide +kernel

instance (s : Str) : Decidable (NameOk s) := by unfold NameOk; infer_instance
instance (s : Str) : Decidable (LabelOk s) := by unfold LabelOk; infer_instance
instance (s : Str) : Decidable (Tight s) :=
  decidable_of_iff ((s.head?.all fun c => !isWs c) = true ∧ (s.getLast?.all fun c => !isWs c) = true ∧ s ≠ []) (by
    unfold Tight
    simp only [Option.all_eq_true, Bool.not_eq_eq_eq_not, Bool.not_true])
instance (n : NodeText) : Decidable n.Ok :=
  decidable_of_iff (NameOk n.name ∧ ∀ x ∈ n.body.toList, LabelOk x.2) (by
    unfold NodeText.Ok
    refine and_congr_right fun _ => ⟨fun h s l hb => h (s, l) (by simp [hb]), fun h x hx => ?_⟩
    exact h x.1 x.2 (by simpa using hx))
instance (l : FlowLine) : Decidable l.Ok := by
  cases l with
  | node n => unfold FlowLine.Ok; infer_instance
  | edge a r l b =>
    refine decidable_of_iff (a.Ok ∧ (∀ x ∈ l.toList, LabelOk x) ∧ b.Ok) ?_
    simp [FlowLine.Ok]
instance (it : FlowItem) : Decidable it.Ok := by
  cases it <;> (unfold FlowItem.Ok; infer_instance)

example : ∀ it ∈ exampleChart, it.Ok := by decide +kernel

end PptRs.Props
