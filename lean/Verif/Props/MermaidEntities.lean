import Verif.Props.MermaidStates

/-!
# Mermaid: ER diagrams and class diagrams (C116)
-/

namespace PptRs.Props

open PptRs PptRs.Mermaid

/-! ### Splitting -/

theorem splitAny_ne_nil (cs : List Char) (s : Str) : splitAny cs s ≠ [] := by
  cases s with
  | nil => simp [splitAny]
  | cons c s =>
    rw [splitAny]
    split
    · simp
    · split <;> simp

theorem splitAny_free {cs : List Char} {s : Str} (h : ∀ c ∈ s, c ∉ cs) : splitAny cs s = [s] := by
  induction s with
  | nil => rfl
  | cons c s ih => rw [splitAny, if_neg (h c (by simp)), ih (fun x hx => h x (by simp [hx]))]

theorem splitAny_sep {cs : List Char} {a : Str} {c : Char} (hc : c ∈ cs) (b : Str) : splitAny cs (a ++ c :: b) = splitAny cs a ++ splitAny cs b := by
  induction a with
  | nil => simp [splitAny, hc]
  | cons d a ih =>
    rw [List.cons_append, splitAny, splitAny, ih]
    split
    · rfl
    · cases e : splitAny cs a with
      | nil => exact absurd e (splitAny_ne_nil _ _)
      | cons x xs => rfl

theorem splitAny_mem {cs : List Char} {s p : Str} (h : p ∈ splitAny cs s) : ∀ c ∈ p, c ∈ s := by
  induction s generalizing p with
  | nil => simp [splitAny] at h; simp [h]
  | cons d s ih =>
    rw [splitAny] at h
    split at h
    · rcases List.mem_cons.mp h with rfl | h
      · simp
      · intro c hc; exact List.mem_cons_of_mem _ (ih h c hc)
    · cases e : splitAny cs s with
      | nil => exact absurd e (splitAny_ne_nil _ _)
      | cons x xs =>
        rw [e] at h
        rcases List.mem_cons.mp h with rfl | h
        · intro c hc
          rcases List.mem_cons.mp hc with rfl | hc
          · simp
          · exact List.mem_cons_of_mem _ (ih (by rw [e]; simp) c hc)
        · intro c hc; exact List.mem_cons_of_mem _ (ih (by rw [e]; simp [h]) c hc)

/-- Two names around a sign that begins and ends with separators. -/
theorem splitAny_two {cs : List Char} {x y m : Str} {c d : Char} (hc : c ∈ cs) (hd : d ∈ cs) (hx : ∀ c ∈ x, c ∉ cs) (hy : ∀ c ∈ y, c ∉ cs)
    {f : Str → Bool} (fx : f x = true) (fy : f y = true) (fm : ∀ p ∈ splitAny cs m, f p = false) :
    (splitAny cs (x ++ (c :: (m ++ d :: y)))).filter f = [x, y] := by
  rw [splitAny_sep hc, splitAny_sep hd, splitAny_free hx, splitAny_free hy, List.filter_append, List.filter_append]
  have : (splitAny cs m).filter f = [] := List.filter_eq_nil_iff.mpr (fun p hp => by simp [fm p hp])
  rw [this]
  simp [fx, fy]

/-! ### ER diagrams: source texts -/

/-- How many of the entities on a side belong to the relationship. -/
inductive Card where
  | one | zeroOne | oneMany | zeroMany
deriving DecidableEq

/-- The sign on the left and on the right. -/
def Card.left : Card → Str
  | .one => c!"||"
  | .zeroOne => c!"|o"
  | .oneMany => c!"}|"
  | .zeroMany => c!"}o"

/-- See `Card.left`. -/
def Card.right : Card → Str
  | .one => c!"||"
  | .zeroOne => c!"o|"
  | .oneMany => c!"|{"
  | .zeroMany => c!"o{"

/-- A statement of an ER diagram. -/
inductive ErStmt where
  /-- `A ||--o{ B : label`, with `..` for relationships that do not identify. -/
  | rel (a : Str) (l : Card) (dotted : Bool) (r : Card) (b : Str) (label : Option Str)
  /-- `A {`, the attributes, one on each line, `}`. -/
  | entity (a : Str) (attrs : List Str)

/-- The written lines. -/
def ErStmt.lines : ErStmt → List Str
  | .rel a l d r b label => [a ++ c!" " ++ l.left ++ (if d then c!".." else c!"--") ++ r.right ++ c!" " ++ b ++
      (match label with | none => [] | some t => c!" : " ++ t)]
  | .entity a attrs => (a ++ c!" {") :: attrs ++ [c!"}"]

/-- The name of an entity: letters, digits and underscores without `o`, with a letter. -/
def EntityName (alpha : Char → Bool) (a : Str) : Prop := Word a ∧ 'o' ∉ a ∧ a.any alpha = true

/-- A line with an attribute, without the signs of relationships. -/
structure AttrLine (s : Str) : Prop where
  line : LineText s
  noOpen : '{' ∉ s
  noClose : '}' ∉ s
  noBar : '|' ∉ s
  noComment : ¬ c!"%%" <+: s

/-- Well-formed statements. One of the two cardinalities has to be understood. -/
def ErStmt.Ok (alpha : Char → Bool) : ErStmt → Prop
  | .rel a l _ r b label => EntityName alpha a ∧ EntityName alpha b ∧ (l = .one ∨ l = .oneMany ∨ r ≠ .zeroOne) ∧
      ∀ t, label = some t → LineText t ∧ t.head? ≠ some '"' ∧ t.getLast? ≠ some '"' ∧ t.head? ≠ some '\'' ∧ t.getLast? ≠ some '\''
  | .entity a attrs => EntityName alpha a ∧ ∀ x ∈ attrs, AttrLine x

/-- The entities that are mentioned. -/
def ErStmt.names : ErStmt → List Str
  | .rel a _ _ _ b _ => [a, b]
  | .entity a _ => [a]

/-- The attributes given for an entity. -/
def ErStmt.attrsOf (n : Str) : ErStmt → List Str
  | .rel _ _ _ _ _ _ => []
  | .entity a attrs => if a = n then attrs else []

/-- The relationships. -/
def ErStmt.relations : ErStmt → List (Str × Str × Str)
  | .rel a _ _ _ b label => [(a, b, label.getD [])]
  | .entity _ _ => []

/-- What the statements mean. -/
def erMeaning (l : List ErStmt) : Entities :=
  ⟨(firsts (l.flatMap ErStmt.names)).map fun n => (n, l.flatMap (ErStmt.attrsOf n)), l.flatMap ErStmt.relations, []⟩

/-- Entities with their attributes. -/
def entitySpec (N : List Str) (A : Str → List Str) : List (Str × List Str) := (firsts N).map fun n => (n, A n)

theorem firsts_snoc (l : List Str) (a : Str) : firsts (l ++ [a]) = if a ∈ l then firsts l else firsts l ++ [a] := by
  induction l with
  | nil => rfl
  | cons b l ih =>
    rw [List.cons_append, firsts, ih]
    by_cases h : a ∈ l
    · rw [if_pos h, if_pos (by simp [h])]; rfl
    · rw [if_neg h]
      by_cases hb : a = b
      · subst hb
        rw [if_pos (by simp)]
        simp [firsts]
      · rw [if_neg (by simp [h, hb])]
        simp [firsts, hb]

theorem has_spec (N : List Str) (A : Str → List Str) (a : Str) : AMap.has (entitySpec N A) a = decide (a ∈ N) := by
  rw [Bool.eq_iff_iff]
  simp only [AMap.has, entitySpec, List.any_map, List.any_eq_true, Function.comp_apply, decide_eq_true_eq, mem_firsts]
  constructor
  · rintro ⟨x, hx, rfl⟩; exact hx
  · intro h; exact ⟨a, h, rfl⟩

theorem add_spec {N : List Str} {A : Str → List Str} {a : Str} (h : a ∉ N → A a = []) (R : List (Str × Str × Str)) (c : Str) :
    Entities.add ⟨entitySpec N A, R, c⟩ a = ⟨entitySpec (N ++ [a]) A, R, c⟩ := by
  unfold Entities.add
  simp only [has_spec, decide_eq_true_eq]
  by_cases ha : a ∈ N
  · rw [if_pos ha]
    simp only [entitySpec, firsts_snoc, if_pos ha]
  · rw [if_neg ha]
    simp [entitySpec, firsts_snoc, if_neg ha, h ha]

theorem attrs_empty {l : List ErStmt} {a : Str} (h : a ∉ l.flatMap ErStmt.names) : l.flatMap (ErStmt.attrsOf a) = [] := by
  rw [List.flatMap_eq_nil_iff]
  intro s hs
  cases s with
  | rel => rfl
  | entity n attrs =>
    refine if_neg ?_
    rintro rfl
    exact h (List.mem_flatMap.mpr ⟨_, hs, by simp [ErStmt.names]⟩)

theorem AttrLine.step {alpha : Char → Bool} {x : Str} (h : AttrLine x) {N : List Str} {A : Str → List Str} {R : List (Str × Str × Str)} {n : Str} (hn : n ≠ []) :
    Entities.line alpha ⟨entitySpec N A, R, n⟩ x = ⟨entitySpec N fun m => if n = m then A m ++ [x] else A m, R, n⟩ := by
  have h1 : ¬ (x = [] ∨ startsWith c!"%%" x = true) := by
    rw [not_or, startsWith_iff]
    exact ⟨h.line.2.2.2, fun ⟨r, hr⟩ => h.noComment ⟨r, hr.symm⟩⟩
  have h2 : ∀ p : Str, ('{' ∈ p ∨ '}' ∈ p ∨ '|' ∈ p) → containsStr p x = false := by
    intro p hp
    rw [Bool.eq_false_iff]
    intro hc
    rw [containsStr_iff] at hc
    obtain ⟨a, b, rfl⟩ := hc
    rcases hp with hp | hp | hp
    · exact h.noOpen (by simp [hp])
    · exact h.noClose (by simp [hp])
    · exact h.noBar (by simp [hp])
  have h3 : x ≠ c!"}" := by rintro rfl; exact h.noClose (by decide)
  unfold Entities.line
  rw [if_neg h1, h2 _ (by decide), h2 _ (by decide), h2 _ (by decide), h2 _ (by decide), h2 _ (by decide)]
  simp only [Bool.or_self, Bool.false_eq_true, if_false, h3, hn, entitySpec, List.map_map]
  congr 1
  apply List.map_congr_left
  intro m _
  simp only [Function.comp_apply]
  by_cases e : n = m
  · subst e; simp
  · rw [if_neg (Ne.symm e), if_neg e]

theorem attr_fold {alpha : Char → Bool} {attrs : List Str} (h : ∀ x ∈ attrs, AttrLine x) {N : List Str} {A : Str → List Str}
    {R : List (Str × Str × Str)} {n : Str} (hn : n ≠ []) :
    attrs.foldl (Entities.line alpha) ⟨entitySpec N A, R, n⟩ = ⟨entitySpec N fun m => if n = m then A m ++ attrs else A m, R, n⟩ := by
  induction attrs generalizing A with
  | nil => simp
  | cons x attrs ih =>
    rw [List.foldl_cons, (h x (by simp)).step hn, ih (fun y hy => h y (by simp [hy]))]
    congr 2
    funext m
    by_cases e : n = m
    · simp [e]
    · simp [e]

theorem EntityName.lineText {alpha : Char → Bool} {a : Str} (h : EntityName alpha a) : LineText a := ⟨h.1.notMem rfl (by decide), h.1.tight⟩

theorem EntityName.free {alpha : Char → Bool} {a : Str} (h : EntityName alpha a) : ∀ c ∈ a, c ∉ c!"|{}o-" := by
  intro c hc hm
  simp only [List.mem_cons, List.not_mem_nil, or_false] at hm
  rcases hm with rfl | rfl | rfl | rfl | rfl
  · exact h.1.notMem rfl (by decide) hc
  · exact h.1.notMem rfl (by decide) hc
  · exact h.1.notMem rfl (by decide) hc
  · exact h.2.1 hc
  · exact h.1.notMem rfl (by decide) hc

theorem trimChar_keep {c : Char} {s : Str} (h1 : s.head? ≠ some c) (h2 : s.getLast? ≠ some c) : trimChar c s = s := by
  have key : ∀ t : Str, t.head? ≠ some c → trimStartChar c t = t := by
    intro t ht
    cases t with
    | nil => rfl
    | cons d t =>
      unfold trimStartChar
      refine if_neg ?_
      simpa using ht
  unfold trimChar
  rw [key s h1, key _ (by rw [List.head?_reverse]; exact h2), List.reverse_reverse]

/-- The characters of signs are no letters. -/
structure Letters (alpha : Char → Bool) : Prop where
  signs : ∀ c ∈ c!"|{}-. ", alpha c = false

theorem ErStmt.step {alpha : Char → Bool} (ha : Letters alpha) {s : ErStmt} (h : s.Ok alpha) (l : List ErStmt) :
    s.lines.foldl (Entities.line alpha) (erMeaning l) = erMeaning (l ++ [s]) := by
  cases s with
  | entity a attrs =>
    obtain ⟨h1, h2⟩ := h
    have hl : Entities.line alpha (erMeaning l) (a ++ c!" {") =
        ⟨entitySpec (l.flatMap ErStmt.names ++ [a]) (fun n => l.flatMap (ErStmt.attrsOf n)), l.flatMap ErStmt.relations, a⟩ := by
      have e1 : ¬ (a ++ c!" {" = [] ∨ startsWith c!"%%" (a ++ c!" {") = true) := by
        rw [not_or, startsWith_iff]
        refine ⟨by simp, fun ⟨r, hr⟩ => ?_⟩
        have := prefix_word (a := a) (c := ' ') (r := c!"{") (by decide) ⟨r, hr.symm⟩
        exact h1.1.notMem (c := '%') rfl (by decide) (this.subset (by simp))
      have hb : ∀ c, c = '|' ∨ c = '}' → c ∉ a ++ c!" {" := by
        intro c hc
        rw [List.mem_append, not_or]
        rcases hc with rfl | rfl
        · exact ⟨h1.1.notMem rfl (by decide), by decide⟩
        · exact ⟨h1.1.notMem rfl (by decide), by decide⟩
      have e2 : containsStr c!"|{" (a ++ c!" {") = false := containsStr_false_of_notMem (hb _ (.inl rfl))
      have e3 : containsStr c!"||" (a ++ c!" {") = false := containsStr_false_of_notMem (hb _ (.inl rfl))
      have e4 : containsStr c!"}|" (a ++ c!" {") = false := containsStr_false_of_notMem (hb _ (.inr rfl))
      have e5 : containsStr c!"o{" (a ++ c!" {") = false := containsStr_false_of_notMem (by
        rw [List.mem_append, not_or]; exact ⟨h1.2.1, by decide⟩)
      have e6 : containsStr c!"{" (a ++ c!" {") = true := by rw [containsStr_iff]; exact ⟨a ++ c!" ", [], by simp⟩
      have e7 : trim ((splitChar '{' (a ++ c!" {")).headD []) = a := by
        have : a ++ c!" {" = (a ++ c!" ") ++ '{' :: [] := by simp
        rw [this, splitChar_append_sep (by rw [List.mem_append, not_or]; exact ⟨h1.1.notMem rfl (by decide), by decide⟩)]
        have := trim_pad (p := []) (q := c!" ") (by simp) (by decide) h1.1.tight
        simpa using this
      unfold Entities.line
      rw [if_neg e1, e2, e3, e4, e5, e6, e7]
      simp only [Bool.or_self, Bool.false_eq_true, if_false, if_true]
      have := add_spec (N := l.flatMap ErStmt.names) (A := fun n => l.flatMap (ErStmt.attrsOf n)) (a := a) attrs_empty (l.flatMap ErStmt.relations) []
      unfold erMeaning
      unfold entitySpec at this ⊢
      rw [this]
    have hend : ∀ E R c, Entities.line alpha ⟨E, R, c⟩ c!"}" = ⟨E, R, []⟩ := fun E R c => rfl
    have e0 : (ErStmt.entity a attrs).lines = (a ++ c!" {") :: (attrs ++ [c!"}"]) := rfl
    rw [e0, List.foldl_cons, hl, List.foldl_append, attr_fold h2 h1.1.1, List.foldl_cons, List.foldl_nil, hend]
    unfold erMeaning entitySpec
    simp only [List.flatMap_append, List.flatMap_cons, List.flatMap_nil, List.append_nil, ErStmt.names, ErStmt.relations]
    congr 1
    apply List.map_congr_left
    intro n _
    by_cases e : a = n
    · simp [ErStmt.attrsOf, e]
    · simp [ErStmt.attrsOf, e]
  | rel a L d r b label =>
    obtain ⟨h1, h2, h3, h4⟩ := h
    obtain ⟨M, hM, x, m, y, hx, hy, hm, hsign, hcolon, hk⟩ : ∃ M, M = L.left ++ (if d then c!".." else c!"--") ++ r.right ∧ ∃ (x : Char) (m : Str) (y : Char),
        x ∈ c!"|{}o-" ∧ y ∈ c!"|{}o-" ∧ (∀ p ∈ splitAny c!"|{}o-" m, ∀ e ∈ p, e = '.') ∧ M = x :: (m ++ [y]) ∧ ':' ∉ M ∧
        (containsStr c!"||" M || containsStr c!"}|" M || containsStr c!"|{" M || containsStr c!"o{" M) = true := by
      refine ⟨_, rfl, ?_⟩
      have h5 : ∀ L r d, (L = Card.one ∨ L = Card.oneMany ∨ r ≠ Card.zeroOne) → ∃ (x y : Char) (m : Str), L.left ++ (if d = true then c!".." else c!"--") ++ r.right = x :: (m ++ [y]) ∧
          x ∈ c!"|{}o-" ∧ y ∈ c!"|{}o-" ∧ (∀ p ∈ splitAny c!"|{}o-" m, ∀ e ∈ p, e = '.') ∧ ':' ∉ L.left ++ (if d = true then c!".." else c!"--") ++ r.right ∧
          (containsStr c!"||" (L.left ++ (if d = true then c!".." else c!"--") ++ r.right) || containsStr c!"}|" (L.left ++ (if d = true then c!".." else c!"--") ++ r.right) ||
            containsStr c!"|{" (L.left ++ (if d = true then c!".." else c!"--") ++ r.right) || containsStr c!"o{" (L.left ++ (if d = true then c!".." else c!"--") ++ r.right)) = true := by
        intro L r d h
        have e : ∀ w : Str, w ≠ [] → w.tail ≠ [] → w = w.headD ' ' :: (w.tail.dropLast ++ [w.tail.getLastD ' ']) := by
          intro w h1 h2
          cases w with
          | nil => exact absurd rfl h1
          | cons c w =>
            simp only [List.tail_cons, List.headD_cons] at h2 ⊢
            have hl := List.getLast?_eq_some_getLast h2
            rw [List.getLastD_eq_getLast?, hl, Option.getD_some, List.dropLast_append_getLast h2]
        refine ⟨_, _, _, e _ ?_ ?_, ?_⟩
        · cases L <;> cases r <;> cases d <;> decide
        · cases L <;> cases r <;> cases d <;> decide
        · cases L <;> cases r <;> cases d <;> first | (revert h; decide) | decide
      obtain ⟨x, y, m, q1, q2, q3, q4, q5, q6⟩ := h5 L r d h3
      exact ⟨x, m, y, q2, q3, q4, q1, q5, q6⟩
    have hlines : (ErStmt.rel a L d r b label).lines = [a ++ c!" " ++ M ++ c!" " ++ b ++ (match label with | none => [] | some t => c!" : " ++ t)] := by
      rw [hM]; cases label <;> simp [ErStmt.lines]
    rw [hlines, List.foldl_cons, List.foldl_nil]
    clear hM hlines
    -- what is read
    have hk' : ∀ u v : Str, (containsStr c!"||" (u ++ M ++ v) || containsStr c!"}|" (u ++ M ++ v) || containsStr c!"|{" (u ++ M ++ v) || containsStr c!"o{" (u ++ M ++ v)) = true := by
      intro u v
      have up : ∀ q : Str, containsStr q M = true → containsStr q (u ++ M ++ v) = true := by
        intro q hq
        obtain ⟨z, w, rfl⟩ := containsStr_iff.mp hq
        exact containsStr_iff.mpr ⟨u ++ z, w ++ v, by simp⟩
      simp only [Bool.or_eq_true] at hk ⊢
      rcases hk with ((hk | hk) | hk) | hk
      · exact .inl (.inl (.inl (up _ hk)))
      · exact .inl (.inl (.inr (up _ hk)))
      · exact .inl (.inr (up _ hk))
      · exact .inr (up _ hk)
    have hsk : ∀ u : Str, ¬ (a ++ c!" " ++ u = [] ∨ startsWith c!"%%" (a ++ c!" " ++ u) = true) := by
      intro u
      rw [not_or, startsWith_iff]
      refine ⟨by simp, fun ⟨r, hr⟩ => ?_⟩
      have := prefix_word (p := c!"%%") (a := a) (c := ' ') (r := u) (by decide) ⟨r, by rw [← hr]; simp⟩
      exact h1.1.notMem (c := '%') rfl (by decide) (this.subset (by simp))
    have hsplit : ∀ q : Str, (∀ c ∈ q, c = ' ') → (splitAny c!"|{}o-" (a ++ c!" " ++ M ++ c!" " ++ b ++ q)).filter (fun w => w.any alpha) = [a ++ c!" ", c!" " ++ b ++ q] := by
      intro q hq
      have e : a ++ c!" " ++ M ++ c!" " ++ b ++ q = (a ++ c!" ") ++ (x :: (m ++ y :: (c!" " ++ b ++ q))) := by rw [hsign]; simp
      rw [e]
      refine splitAny_two hx hy ?_ ?_ ?_ ?_ ?_
      · intro c hc
        rcases List.mem_append.mp hc with hc | hc
        · exact h1.free c hc
        · rw [List.mem_singleton.mp hc]; decide
      · intro c hc
        rcases List.mem_append.mp hc with hc | hc
        · rcases List.mem_append.mp hc with hc | hc
          · rw [List.mem_singleton.mp hc]; decide
          · exact h2.free c hc
        · rw [hq c hc]; decide
      · rw [List.any_append, h1.2.2, Bool.true_or]
      · rw [List.any_append, List.any_append, h2.2.2, Bool.or_true, Bool.true_or]
      · intro p hp
        rw [List.any_eq_false]
        intro c hc
        rw [hm p hp c hc, ha.signs '.' (by decide)]
        decide
    have t1 : trim (a ++ c!" ") = a := by
      have := trim_pad (p := []) (q := c!" ") (by simp) (by decide) h1.1.tight
      simpa using this
    have hadd : ((erMeaning l).add a).add b = ⟨entitySpec (l.flatMap ErStmt.names ++ [a] ++ [b]) (fun n => l.flatMap (ErStmt.attrsOf n)), l.flatMap ErStmt.relations, []⟩ := by
      have e1 := add_spec (N := l.flatMap ErStmt.names) (A := fun n => l.flatMap (ErStmt.attrsOf n)) (a := a) attrs_empty (l.flatMap ErStmt.relations) []
      have e2 := add_spec (N := l.flatMap ErStmt.names ++ [a]) (A := fun n => l.flatMap (ErStmt.attrsOf n)) (a := b)
        (fun hb => attrs_empty (fun hc => hb (by simp only [List.mem_append]; exact .inl hc))) (l.flatMap ErStmt.relations) []
      have e3 : erMeaning l = ⟨entitySpec (l.flatMap ErStmt.names) (fun n => l.flatMap (ErStmt.attrsOf n)), l.flatMap ErStmt.relations, []⟩ := rfl
      rw [e3, e1, e2]
    have hfin : erMeaning (l ++ [.rel a L d r b label]) =
        ⟨entitySpec (l.flatMap ErStmt.names ++ [a] ++ [b]) (fun n => l.flatMap (ErStmt.attrsOf n)), l.flatMap ErStmt.relations ++ [(a, b, label.getD [])], []⟩ := by
      simp [erMeaning, entitySpec, ErStmt.names, ErStmt.relations, ErStmt.attrsOf]
    have hnc : ∀ q : Str, (∀ c ∈ q, c = ' ') → ':' ∉ a ++ c!" " ++ M ++ c!" " ++ b ++ q := by
      intro q hq
      simp only [List.mem_append, not_or]
      exact ⟨⟨⟨⟨⟨h1.1.notMem rfl (by decide), by decide⟩, hcolon⟩, by decide⟩, h2.1.notMem rfl (by decide)⟩, fun hc => by have := hq _ hc; revert this; decide⟩
    cases label with
    | none =>
      unfold Entities.line
      have e0 : a ++ c!" " ++ M ++ c!" " ++ b ++ [] = (a ++ c!" ") ++ M ++ (c!" " ++ b ++ []) := by simp
      have e1 : splitOnce? c!":" (a ++ c!" " ++ M ++ c!" " ++ b ++ []) = none := split_none (c := ':') rfl (hnc [] (by simp))
      have e2 := hsk (M ++ c!" " ++ b ++ [])
      have e3 : a ++ c!" " ++ (M ++ c!" " ++ b ++ []) = a ++ c!" " ++ M ++ c!" " ++ b ++ [] := by simp
      rw [e3] at e2
      have e4 := hk' (a ++ c!" ") (c!" " ++ b ++ [])
      rw [← e0] at e4
      have t2 : trim (c!" " ++ b ++ []) = b := trim_pad (by decide) (by simp) h2.1.tight
      rw [if_neg e2, if_pos e4, e1]
      simp only [hsplit [] (by simp), t1, List.getLastD_cons, List.getLastD_nil, t2]
      rw [hadd, hfin]
      simp
    | some t =>
      obtain ⟨k1, k2, k3, k4, k5⟩ := h4 t rfl
      unfold Entities.line
      have e0 : a ++ c!" " ++ M ++ c!" " ++ b ++ (c!" : " ++ t) = (a ++ c!" ") ++ M ++ (c!" " ++ b ++ (c!" : " ++ t)) := by simp
      have e1 : splitOnce? c!":" (a ++ c!" " ++ M ++ c!" " ++ b ++ (c!" : " ++ t)) = some (a ++ c!" " ++ M ++ c!" " ++ b ++ c!" ", c!" " ++ t) := by
        have := split_hit (c := ':') (p := []) (t := c!" " ++ t) (hnc c!" " (by decide))
        rw [← this]
        simp
      have e2 := hsk (M ++ c!" " ++ b ++ (c!" : " ++ t))
      have e3 : a ++ c!" " ++ (M ++ c!" " ++ b ++ (c!" : " ++ t)) = a ++ c!" " ++ M ++ c!" " ++ b ++ (c!" : " ++ t) := by simp
      rw [e3] at e2
      have e4 := hk' (a ++ c!" ") (c!" " ++ b ++ (c!" : " ++ t))
      rw [← e0] at e4
      have t2 : trim (c!" " ++ b ++ c!" ") = b := trim_pad (by decide) (by decide) h2.1.tight
      have t3 : trim (c!" " ++ t) = t := trim_indent (by decide) k1.2
      rw [if_neg e2, if_pos e4, e1]
      simp only [hsplit c!" " (by decide), t1, List.getLastD_cons, List.getLastD_nil, t2, t3, trimChar_keep k2 k3, trimChar_keep k4 k5]
      rw [hadd, hfin]
      simp

theorem ErStmt.lineTexts {alpha : Char → Bool} {s : ErStmt} (h : s.Ok alpha) : ∀ x ∈ s.lines, LineText x := by
  cases s with
  | entity a attrs =>
    intro x hx
    have e0 : (ErStmt.entity a attrs).lines = (a ++ c!" {") :: (attrs ++ [c!"}"]) := rfl
    rw [e0] at hx
    rcases List.mem_cons.mp hx with rfl | hx
    · refine ⟨by rw [List.mem_append, not_or]; exact ⟨h.1.lineText.1, by decide⟩, ?_⟩
      have := (h.1.lineText.2).append c!" " (b := c!"{") (by simp [Tight, isWs])
      simpa using this
    · rcases List.mem_append.mp hx with hx | hx
      · exact (h.2 x hx).line
      · rw [List.mem_singleton.mp hx]; exact ⟨by decide, by simp [Tight, isWs]⟩
  | rel a L d r b label =>
    obtain ⟨h1, h2, _, h4⟩ := h
    have hM : '\n' ∉ L.left ++ (if d then c!".." else c!"--") ++ r.right := by cases L <;> cases d <;> cases r <;> decide
    have e0 : (ErStmt.rel a L d r b label).lines = [a ++ c!" " ++ (L.left ++ (if d then c!".." else c!"--") ++ r.right) ++ c!" " ++ b ++
        (match label with | none => [] | some t => c!" : " ++ t)] := by cases label <;> simp [ErStmt.lines]
    rw [e0]
    generalize L.left ++ (if d then c!".." else c!"--") ++ r.right = M at hM
    intro x hx
    rw [List.mem_singleton.mp hx]
    cases label with
    | none =>
      refine ⟨?_, ?_⟩
      · simp only [List.mem_append, not_or]
        exact ⟨⟨⟨⟨⟨h1.lineText.1, by decide⟩, hM⟩, by decide⟩, h2.lineText.1⟩, by simp⟩
      · have := h1.lineText.2.append (c!" " ++ M ++ c!" ") h2.lineText.2
        simpa using this
    | some t =>
      have ht := (h4 t rfl).1
      refine ⟨?_, ?_⟩
      · simp only [List.mem_append, not_or]
        exact ⟨⟨⟨⟨⟨h1.lineText.1, by decide⟩, hM⟩, by decide⟩, h2.lineText.1⟩, by decide, ht.1⟩
      · have := h1.lineText.2.append (c!" " ++ M ++ c!" " ++ b ++ c!" : ") ht.2
        simpa using this

theorem erMeaning_fold {alpha : Char → Bool} (ha : Letters alpha) (l : List ErStmt) (h : ∀ s ∈ l, s.Ok alpha) (k : List ErStmt) :
    (l.flatMap ErStmt.lines).foldl (Entities.line alpha) (erMeaning k) = erMeaning (k ++ l) := by
  induction l generalizing k with
  | nil => simp
  | cons s l ih =>
    rw [List.flatMap_cons, List.foldl_append, ErStmt.step ha (h s (by simp)), ih (fun x hx => h x (by simp [hx]))]
    simp

/-- A written ER diagram is read as it is meant: the entities in the order in which they are mentioned, each with all its attributes, and the
relationships. -/
theorem C116_er_read {alpha : Char → Bool} (ha : Letters alpha) {header : Str} {l : List ErStmt} {ts : List (Str × Str)} (hh : '\n' ∉ header)
    (hi : ∀ p ∈ ts, ∀ c ∈ p.1, isWs c = true ∧ c ≠ '\n') (h : ∀ s ∈ l, s.Ok alpha) (ht : ts.map (·.2) = l.flatMap ErStmt.lines) :
    Entities.parse alpha (diagramText header ts) = erMeaning l := by
  unfold Entities.parse
  rw [body_diagramText hh, ht]
  · have := erMeaning_fold ha l h []
    simpa [erMeaning, firsts] using this
  · intro p hp
    have : p.2 ∈ l.flatMap ErStmt.lines := by rw [← ht]; exact List.mem_map_of_mem hp
    obtain ⟨s, hs, hx⟩ := List.mem_flatMap.mp this
    exact ⟨hi p hp, (ErStmt.lineTexts (h s hs) _ hx).1, (ErStmt.lineTexts (h s hs) _ hx).2⟩

/-- Non-vacuity. -/
example : let l := [ErStmt.rel c!"USER" .one false .zeroMany c!"BASKET" (some c!"has"), .entity c!"USER" [c!"string name", c!"int age"]]
    (∀ s ∈ l, s.Ok Char.isAlpha) ∧ Letters Char.isAlpha ∧
    l.flatMap ErStmt.lines = [c!"USER ||--o{ BASKET : has", c!"USER {", c!"string name", c!"int age", c!"}"] ∧
    (erMeaning l).entities = [(c!"USER", [c!"string name", c!"int age"]), (c!"BASKET", [])] := by
  refine ⟨?_, ⟨by decide⟩, by decide, by decide⟩
  intro s hs
  simp only [List.mem_cons, List.not_mem_nil, or_false] at hs
  rcases hs with rfl | rfl
  · exact ⟨⟨⟨by decide, by decide⟩, by decide, by decide⟩, ⟨⟨by decide, by decide⟩, by decide, by decide⟩, by decide,
      by rintro t ⟨⟩; exact ⟨⟨by decide, by simp [Tight, isWs]⟩, by decide⟩⟩
  · refine ⟨⟨⟨by decide, by decide⟩, by decide, by decide⟩, ?_⟩
    intro x hx
    simp only [List.mem_cons, List.not_mem_nil, or_false] at hx
    rcases hx with rfl | rfl
    · exact ⟨⟨by decide, by simp [Tight, isWs]⟩, by decide, by decide, by decide, by decide⟩
    · exact ⟨⟨by decide, by simp [Tight, isWs]⟩, by decide, by decide, by decide, by decide⟩

/-! ### ER diagrams: what is drawn -/

theorem labels_gen {α : Type} {f : α → Option (Link × Option (Nat → Fig))} (label : α → Str) (T : List α)
    (h : ∀ t ∈ T, ∃ l o, f t = some (l, o) ∧ ((label t = [] ∧ o = none) ∨ (label t ≠ [] ∧ ∃ g, o = some g ∧ ∀ n, (g n).text = some (label t) ∧ (g n).id = some n)))
    (n : Nat) :
    (numbered n ((T.filterMap f).filterMap (·.2))).map (·.text) = (T.filter (label · ≠ [])).map (fun t => some (label t)) ∧
    (numbered n ((T.filterMap f).filterMap (·.2))).map (·.id) = (List.range' n (T.filter (label · ≠ [])).length).map some := by
  induction T generalizing n with
  | nil => exact ⟨rfl, rfl⟩
  | cons t T ih =>
    obtain ⟨l, o, hl, ho⟩ := h t (by simp)
    rw [List.filterMap_cons_some hl]
    rcases ho with ⟨h1, rfl⟩ | ⟨h1, g, rfl, hf⟩
    · rw [List.filterMap_cons_none rfl, List.filter_cons_of_neg (by simpa using h1)]
      exact ih (fun x hx => h x (by simp [hx])) n
    · rw [List.filterMap_cons_some (f := fun x : Link × Option (Nat → Fig) => x.2) (b := g) rfl, List.filter_cons_of_pos (by simpa using h1), numbered_cons]
      obtain ⟨i1, i2⟩ := ih (fun x hx => h x (by simp [hx])) (n + 1)
      rw [List.map_cons, List.map_cons, List.map_cons, i1, i2, (hf n).1, (hf n).2, List.length_cons, List.range'_succ]
      exact ⟨rfl, rfl⟩

theorem erLink_some {S : List Str} {t : Str × Str × Str} (h : t.1 ∈ S ∧ t.2.1 ∈ S) :
    ∃ (i j : Nat) (l : Link) (o : Option (Nat → Fig)), S[i]? = some t.1 ∧ S[j]? = some t.2.1 ∧ erLink S t = some (l, o) ∧
      l.start.1 = 10 + 2 * i ∧ l.finish.1 = 10 + 2 * j ∧ l.head = c!"diamond" ∧
      ((t.2.2 = [] ∧ o = none) ∨ (t.2.2 ≠ [] ∧ ∃ f, o = some f ∧ ∀ n, (f n).text = some t.2.2 ∧ (f n).id = some n)) := by
  obtain ⟨i, hi, hi2⟩ := findIdx_mem h.1
  obtain ⟨j, hj, hj2⟩ := findIdx_mem h.2
  unfold erLink
  rw [hi, hj]
  refine ⟨i, j, _, _, hi2, hj2, rfl, rfl, rfl, rfl, ?_⟩
  by_cases e : t.2.2 = []
  · exact .inl ⟨e, if_pos e⟩
  · exact .inr ⟨e, _, if_neg e, fun n => ⟨rfl, rfl⟩⟩

theorem entity_at {E : List (Str × List Str)} (R : List (Str × Str × Str)) {i : Nat} {e : Str × List Str} (h : E[i]? = some e) (r : Nat) (hr : r < 2) :
    (erFigures E R)[2 * i + r]? = (erBoxes i e)[r]? := by
  have hl : i < E.length := (List.getElem?_eq_some_iff.mp h).1
  unfold erFigures
  rw [List.getElem?_append_left (by rw [flatten_length (n := 2) erBoxes (fun _ _ => rfl)]; omega), flatten_block (n := 2) erBoxes (fun _ _ => rfl) _ _ _ hr, h]
  rfl

/-- **C116**, ER diagrams (partial). Whatever the order is in which the hash map lists the entities: the drawing has for every entity a box with its name
and directly below it, as wide, a box with its attributes, no two entities overlapping if they have at most seven attributes; a connector for
every relationship, attached to the boxes with the names of its two entities; and the labels in order. What is missing: the
order, where connectors begin and end, cardinalities and the names below. -/
theorem C116_er_partial {alpha : Char → Bool} (ha : Letters alpha) {header : Str} {l : List ErStmt} {ts : List (Str × Str)} (hh : '\n' ∉ header)
    (hi : ∀ p ∈ ts, ∀ c ∈ p.1, isWs c = true ∧ c ≠ '\n') (h : ∀ s ∈ l, s.Ok alpha) (ht : ts.map (·.2) = l.flatMap ErStmt.lines)
    {E : List (Str × List Str)} (hE : E.Perm (Entities.parse alpha (diagramText header ts)).entities) :
    let R := (Entities.parse alpha (diagramText header ts)).relations
    let F := erFigures E R
    R = l.flatMap ErStmt.relations ∧
    (∀ n ∈ l.flatMap ErStmt.names, (n, l.flatMap (ErStmt.attrsOf n)) ∈ E) ∧ E.length = (firsts (l.flatMap ErStmt.names)).length ∧
    (∀ (i : Nat) (e : Str × List Str), E[i]? = some e → ∃ top box, F[2 * i]? = some top ∧ F[2 * i + 1]? = some box ∧
      top.text = some e.1 ∧ box.text = some (joinStr c!"\n" e.2) ∧ box.x = top.x ∧ box.width = top.width ∧ box.y = top.y + top.height ∧
      ∀ (j : Nat) (e' : Str × List Str), E[j]? = some e' → i ≠ j → ∃ top' box', F[2 * j]? = some top' ∧ F[2 * j + 1]? = some box' ∧
        (e.2.length ≤ 7 → e'.2.length ≤ 7 → FigsApart top top' ∧ FigsApart top box' ∧ FigsApart box top' ∧ FigsApart box box')) ∧
    (F.drop (2 * E.length)).map (·.text) = (R.filter (·.2.2 ≠ [])).map (fun r => some r.2.2) ∧
    (erLinks E R).length = R.length ∧
    (∀ (k : Nat) (a b m : Str), R[k]? = some (a, b, m) → ∃ (i j : Nat) (e e' : Str × List Str) (top top' : Fig) (c : Link), E[i]? = some e ∧ E[j]? = some e' ∧
      e.1 = a ∧ e'.1 = b ∧ F[2 * i]? = some top ∧ F[2 * j]? = some top' ∧ (erLinks E R)[k]? = some c ∧ top.id = some c.start.1 ∧ top'.id = some c.finish.1) := by
  rw [C116_er_read ha hh hi h ht] at hE ⊢
  intro R F
  refine ⟨rfl, ?_⟩
  have hmem : ∀ n ∈ l.flatMap ErStmt.names, (n, l.flatMap (ErStmt.attrsOf n)) ∈ E := by
    intro n hn
    exact hE.mem_iff.mpr (List.mem_map.mpr ⟨n, mem_firsts.mpr hn, rfl⟩)
  have hR : ∀ t ∈ R, t.1 ∈ E.map (·.1) ∧ t.2.1 ∈ E.map (·.1) := by
    intro t ht
    obtain ⟨s, hs, hx⟩ := List.mem_flatMap.mp ht
    cases s with
    | entity => cases hx
    | rel a L d r b label =>
      rw [List.mem_singleton.mp hx]
      have h1 : a ∈ l.flatMap ErStmt.names := List.mem_flatMap.mpr ⟨_, hs, by simp [ErStmt.names]⟩
      have h2 : b ∈ l.flatMap ErStmt.names := List.mem_flatMap.mpr ⟨_, hs, by simp [ErStmt.names]⟩
      exact ⟨List.mem_map.mpr ⟨_, hmem a h1, rfl⟩, List.mem_map.mpr ⟨_, hmem b h2, rfl⟩⟩
  have hsome : ∀ t ∈ R, (erLink (E.map (·.1)) t).isSome := by
    intro t ht
    obtain ⟨_, _, _, _, _, _, e, _⟩ := erLink_some (hR t ht)
    rw [e]; rfl
  obtain ⟨lt, li⟩ := labels_gen (f := erLink (E.map (·.1))) (·.2.2) R (fun t ht => by
    obtain ⟨_, _, c, o, _, _, e, _, _, _, ho⟩ := erLink_some (hR t ht)
    exact ⟨c, o, e, ho⟩) (10 + 2 * E.length)
  refine ⟨hmem, ?_, ?_, ?_, ?_, ?_⟩
  · rw [hE.length_eq]; simp [erMeaning]
  · intro i e hi
    refine ⟨_, _, entity_at R hi 0 (by decide), entity_at R hi 1 (by decide), rfl, rfl, rfl, rfl, rfl, fun j e' hj hij => ?_⟩
    refine ⟨_, _, entity_at R hj 0 (by decide), entity_at R hj 1 (by decide), fun h1 h2 => ?_⟩
    unfold FigsApart erPlace gridCell
    dsimp only
    refine ⟨?_, ?_, ?_, ?_⟩ <;> omega
  · have : F.drop (2 * E.length) = numbered (10 + 2 * E.length) ((R.filterMap (erLink (E.map (·.1)))).filterMap (·.2)) :=
      List.drop_left' (flatten_length (n := 2) erBoxes (fun _ _ => rfl) _)
    rw [this, lt]
  · unfold erLinks
    rw [List.length_map, filterMap_len hsome]
  · intro k a b m hk
    obtain ⟨i, j, c, o, h1, h2, h3, h4, h5, _, _⟩ := erLink_some (hR _ (List.mem_of_getElem? hk))
    rw [List.getElem?_map, Option.map_eq_some_iff] at h1 h2
    obtain ⟨e, hi, he⟩ := h1
    obtain ⟨e', hj, he'⟩ := h2
    refine ⟨i, j, e, e', _, _, c, hi, hj, he, he', entity_at R hi 0 (by decide), entity_at R hj 0 (by decide), ?_, ?_, ?_⟩
    · unfold erLinks
      rw [List.getElem?_map, filterMap_get hsome, hk, Option.bind_some, h3]
      rfl
    · rw [h4]
    · rw [h5]

/-- **C116 does not hold in full**: where the entities of an ER diagram are drawn depends on the order in which a hash map lists them. The order differs from run to run,
and so does the drawing. -/
theorem C116_er_order_violated : ∃ E E' : List (Str × List Str), E.Perm (Entities.parse Char.isAlpha c!"erDiagram\nA ||--|| B").entities ∧
    E'.Perm (Entities.parse Char.isAlpha c!"erDiagram\nA ||--|| B").entities ∧
    (erFigures E []).find? (·.text = some c!"A") ≠ (erFigures E' []).find? (·.text = some c!"A") := by
  refine ⟨[(c!"A", []), (c!"B", [])], [(c!"B", []), (c!"A", [])], ?_, ?_, by decide⟩
  · have : (Entities.parse Char.isAlpha c!"erDiagram\nA ||--|| B").entities = [(c!"A", []), (c!"B", [])] := by decide
    rw [this]
  · have : (Entities.parse Char.isAlpha c!"erDiagram\nA ||--|| B").entities = [(c!"A", []), (c!"B", [])] := by decide
    rw [this]
    exact List.Perm.swap _ _ _

/-- **C116 does not hold in full**: in the relationships of an ER diagram, names are cut at `o` and `-`: `Book` becomes `k`, `LINE-ITEM` on the right becomes `ITEM` and on the left
`LINE`. Relationships between `zero or one` and `zero or one` or `zero or many` are lost. -/
theorem C116_er_names_violated :
    (Entities.parse Char.isAlpha c!"erDiagram\nUSER ||--o{ Book : has").relations = [(c!"USER", c!"k", c!"has")] ∧
    (Entities.parse Char.isAlpha c!"erDiagram\nORDER ||--|{ LINE-ITEM : has").relations = [(c!"ORDER", c!"ITEM", c!"has")] ∧
    (Entities.parse Char.isAlpha c!"erDiagram\nLINE-ITEM ||--|{ ORDER : in").relations = [(c!"LINE", c!"ORDER", c!"in")] ∧
    (Entities.parse Char.isAlpha c!"erDiagram\nA |o--o| B").entities = [] ∧ (Entities.parse Char.isAlpha c!"erDiagram\nA }o--o| B").entities = [] := by
  decide

/-- **C116 does not hold in full**: cardinalities of ER diagrams are not shown, every relationship looks the same. -/
theorem C116_er_cardinality_violated : ∀ l ∈ [Card.one, .zeroOne, .oneMany, .zeroMany], ∀ d ∈ [true, false], ∀ r ∈ [Card.one, .oneMany, .zeroMany],
    (Entities.parse Char.isAlpha (c!"erDiagram\n" ++ joinStr c!"\n" (ErStmt.rel c!"A" l d r c!"B" none).lines)).relations =
      (Entities.parse Char.isAlpha c!"erDiagram\nA ||--|| B").relations := by
  decide

/-! ### Class diagrams -/

/-- A statement of a class diagram. -/
inductive ClassStmt where
  /-- `class A {`, the members, one on each line, `}`. -/
  | cls (a : Str) (members : List Str)
  /-- `A <|-- B` and the like. -/
  | rel (a : Str) (op : Str) (b : Str)

/-- The arrows that are understood. -/
def classOps : List Str := [c!"<|--", c!"--|>", c!"-->", c!"<--", c!"--"]

/-- The written lines. -/
def ClassStmt.lines : ClassStmt → List Str
  | .cls a members => (c!"class " ++ a ++ c!" {") :: (members ++ [c!"}"])
  | .rel a op b => [a ++ c!" " ++ op ++ c!" " ++ b]

/-- A line with a member of a class. -/
structure MemberLine (s : Str) : Prop where
  line : LineText s
  noOpen : '{' ∉ s
  noClose : '}' ∉ s
  noComment : ¬ c!"%%" <+: s

/-- Well-formed statements. -/
def ClassStmt.Ok : ClassStmt → Prop
  | .cls a members => Word a ∧ ∀ m ∈ members, MemberLine m
  | .rel a op b => Word a ∧ op ∈ classOps ∧ Word b

/-- A class with its attributes and its methods: members with parentheses are methods. -/
def ClassStmt.classes : ClassStmt → List (Str × List Str × List Str)
  | .cls a members => [(a, members.filter (fun m => !m.contains '('), members.filter (fun m => m.contains '('))]
  | .rel _ _ _ => []

/-- The relations. -/
def ClassStmt.relations : ClassStmt → List (Str × Str)
  | .cls _ _ => []
  | .rel a _ b => [(a, b)]

theorem contains_paren (m : Str) : containsStr c!"(" m = m.contains '(' := by
  rw [Bool.eq_iff_iff, containsStr_iff, List.contains_iff_mem]
  constructor
  · rintro ⟨a, b, rfl⟩; simp
  · intro h
    obtain ⟨a, b, rfl⟩ := List.append_of_mem h
    exact ⟨a, b, by simp⟩

theorem MemberLine.step {m : Str} (h : MemberLine m) {s : Classes} (hs : s.inside = true) :
    s.line m = { s with attrs := s.attrs ++ (if m.contains '(' then [] else [m]), methods := s.methods ++ (if m.contains '(' then [m] else []) } := by
  have h1 : ¬ (m = [] ∨ startsWith c!"%%" m = true) := by
    rw [not_or, startsWith_iff]
    exact ⟨h.line.2.2.2, fun ⟨r, hr⟩ => h.noComment ⟨r, hr.symm⟩⟩
  have h2 : containsStr c!"{" m = false := containsStr_false_of_notMem h.noOpen
  have h3 : m ≠ c!"}" := by rintro rfl; exact h.noClose (by decide)
  unfold Classes.line
  rw [if_neg h1, h2, if_neg (by simp), if_neg (by simp [h3]), if_pos hs, contains_paren]
  by_cases e : m.contains '(' = true
  · simp only [if_pos e, List.append_nil]
  · simp only [if_neg e, List.append_nil]

theorem members_fold {members : List Str} (h : ∀ m ∈ members, MemberLine m) {s : Classes} (hs : s.inside = true) :
    members.foldl Classes.line s = { s with
      attrs := s.attrs ++ members.filter (fun m => !m.contains '('), methods := s.methods ++ members.filter (fun m => m.contains '(') } := by
  induction members generalizing s with
  | nil => simp
  | cons m members ih =>
    rw [List.foldl_cons, (h m (by simp)).step hs, ih (fun x hx => h x (by simp [hx]))]
    rotate_left
    · exact hs
    by_cases e : m.contains '(' = true
    · simp only [if_pos e, List.append_nil, List.filter_cons, e, Bool.not_true, Bool.false_eq_true, if_false, if_true, List.append_assoc, List.singleton_append]
    · have e' : m.contains '(' = false := by simpa using e
      simp only [if_neg e, List.append_nil, List.filter_cons, e', Bool.not_false, Bool.false_eq_true, if_false, if_true, List.append_assoc, List.singleton_append]

theorem ClassStmt.step {t : ClassStmt} (h : t.Ok) {s : Classes} (hs : s.inside = false) :
    (t.lines.foldl Classes.line s).inside = false ∧ (t.lines.foldl Classes.line s).classes = s.classes ++ t.classes ∧
    (t.lines.foldl Classes.line s).relations = s.relations ++ t.relations := by
  cases t with
  | cls a members =>
    obtain ⟨h1, h2⟩ := h
    have e1 : s.line (c!"class " ++ a ++ c!" {") = { s with name := a, inside := true, attrs := [], methods := [] } := by
      have s0 : startsWith c!"class " (c!"class " ++ a ++ c!" {") = true := startsWith_iff.mpr ⟨a ++ c!" {", by simp⟩
      have s1 : containsStr c!"{" (c!"class " ++ a ++ c!" {") = true := containsStr_iff.mpr ⟨c!"class " ++ a ++ c!" ", [], by simp⟩
      have s2 : ¬ (c!"class " ++ a ++ c!" {" = [] ∨ startsWith c!"%%" (c!"class " ++ a ++ c!" {") = true) := by
        rw [not_or]; exact ⟨by simp, by simp [startsWith]⟩
      have s3 : stripPrefix? c!"class " (c!"class " ++ a ++ c!" {") = some (a ++ c!" {") := by rw [stripPrefix?_eq_some]; simp
      unfold Classes.line
      rw [if_neg s2, if_pos ⟨s0, s1⟩, s3, Option.getD_some]
      have : a ++ c!" {" = (a ++ c!" ") ++ '{' :: [] := by simp
      rw [this, splitChar_append_sep (by rw [List.mem_append, not_or]; exact ⟨h1.notMem rfl (by decide), by decide⟩), List.headD_cons]
      have := trim_pad (p := []) (q := c!" ") (by simp) (by decide) h1.tight
      rw [List.nil_append] at this
      rw [this]
    have e2 : ∀ u : Classes, u.inside = true → u.line c!"}" = { u with classes := u.classes ++ [(u.name, u.attrs, u.methods)], inside := false } := by
      intro u hu
      unfold Classes.line
      rw [if_neg (by decide), if_neg (by decide), if_pos ⟨rfl, hu⟩]
    rw [ClassStmt.lines, List.foldl_cons, e1, List.foldl_append, members_fold h2 rfl, List.foldl_cons, List.foldl_nil, e2 _ rfl]
    exact ⟨rfl, rfl, by simp [ClassStmt.relations]⟩
  | rel a op b =>
    obtain ⟨h1, h2, h3⟩ := h
    have hop : (∃ (x : Char) (m : Str) (y : Char), op = x :: (m ++ [y]) ∧ x ∈ c!"<|->" ∧ y ∈ c!"<|->" ∧ ∀ p ∈ splitAny c!"<|->" m, p = []) ∧
        containsStr c!"--" op = true ∧ '{' ∉ op := by
      revert h2
      simp only [classOps, List.mem_cons, List.not_mem_nil, or_false]
      rintro (rfl | rfl | rfl | rfl | rfl)
      · exact ⟨⟨'<', c!"|-", '-', rfl, by decide, by decide, by decide⟩, by decide, by decide⟩
      · exact ⟨⟨'-', c!"-|", '>', rfl, by decide, by decide, by decide⟩, by decide, by decide⟩
      · exact ⟨⟨'-', c!"-", '>', rfl, by decide, by decide, by decide⟩, by decide, by decide⟩
      · exact ⟨⟨'<', c!"-", '-', rfl, by decide, by decide, by decide⟩, by decide, by decide⟩
      · exact ⟨⟨'-', c!"", '-', rfl, by decide, by decide, by decide⟩, by decide, by decide⟩
    obtain ⟨⟨x, m, y, hsign, hx, hy, hm⟩, hdash, hbr⟩ := hop
    have free : ∀ a : Str, Word a → ∀ c ∈ a, c ∉ c!"<|->" := by
      intro a ha c hc hm
      simp only [List.mem_cons, List.not_mem_nil, or_false] at hm
      rcases hm with rfl | rfl | rfl | rfl <;> exact ha.notMem rfl (by decide) hc
    have hsplit : (splitAny c!"<|->" (a ++ c!" " ++ op ++ c!" " ++ b)).filter (fun w => decide (w ≠ [])) = [a ++ c!" ", c!" " ++ b] := by
      have e : a ++ c!" " ++ op ++ c!" " ++ b = (a ++ c!" ") ++ (x :: (m ++ y :: (c!" " ++ b))) := by rw [hsign]; simp
      rw [e]
      refine splitAny_two hx hy ?_ ?_ (by simp) (by simp) (fun p hp => by simp [hm p hp])
      · intro c hc
        rcases List.mem_append.mp hc with hc | hc
        · exact free a h1 c hc
        · rw [List.mem_singleton.mp hc]; decide
      · intro c hc
        rcases List.mem_append.mp hc with hc | hc
        · rw [List.mem_singleton.mp hc]; decide
        · exact free b h3 c hc
    have s1 : ¬ (a ++ c!" " ++ op ++ c!" " ++ b = [] ∨ startsWith c!"%%" (a ++ c!" " ++ op ++ c!" " ++ b) = true) := by
      rw [not_or, startsWith_iff]
      refine ⟨by simp, fun ⟨r, hr⟩ => ?_⟩
      have := prefix_word (p := c!"%%") (a := a) (c := ' ') (r := op ++ c!" " ++ b) (by decide) ⟨r, by rw [← hr]; simp⟩
      exact h1.notMem (c := '%') rfl (by decide) (this.subset (by simp))
    have s2 : containsStr c!"{" (a ++ c!" " ++ op ++ c!" " ++ b) = false := containsStr_false_of_notMem (by
      simp only [List.mem_append, not_or]
      exact ⟨⟨⟨⟨h1.notMem rfl (by decide), by decide⟩, hbr⟩, by decide⟩, h3.notMem rfl (by decide)⟩)
    have s3 : containsStr c!"--" (a ++ c!" " ++ op ++ c!" " ++ b) = true := by
      obtain ⟨u, v, e⟩ := containsStr_iff.mp hdash
      exact containsStr_iff.mpr ⟨a ++ c!" " ++ u, v ++ c!" " ++ b, by rw [e]; simp⟩
    have t1 : trim (a ++ c!" ") = a := by
      have := trim_pad (p := []) (q := c!" ") (by simp) (by decide) h1.tight
      simpa using this
    have t2 : trim (c!" " ++ b) = b := trim_indent (by decide) h3.tight
    have e : s.line (a ++ c!" " ++ op ++ c!" " ++ b) = { s with relations := s.relations ++ [(a, b)] } := by
      unfold Classes.line
      rw [if_neg s1, s2, if_neg (by simp), if_neg (by simp [hs]), if_neg (by simp [hs]), s3, Bool.or_true, if_pos rfl, hsplit]
      simp only [t1, List.getLastD_cons, List.getLastD_nil, t2]
    rw [ClassStmt.lines, List.foldl_cons, List.foldl_nil, e]
    exact ⟨hs, by simp [ClassStmt.classes], rfl⟩

theorem ClassStmt.lineTexts {t : ClassStmt} (h : t.Ok) : ∀ x ∈ t.lines, LineText x := by
  cases t with
  | cls a members =>
    intro x hx
    rcases List.mem_cons.mp hx with rfl | hx
    · refine ⟨by simp only [List.mem_append, not_or]; exact ⟨⟨by decide, h.1.notMem rfl (by decide)⟩, by decide⟩, ?_⟩
      have ht : Tight c!"class" := by simp [Tight, isWs]
      have := ht.append (c!" " ++ a ++ c!" ") (b := c!"{") (by simp [Tight, isWs])
      simpa using this
    · rcases List.mem_append.mp hx with hx | hx
      · exact (h.2 x hx).line
      · rw [List.mem_singleton.mp hx]; exact ⟨by decide, by simp [Tight, isWs]⟩
  | rel a op b =>
    obtain ⟨h1, h2, h3⟩ := h
    intro x hx
    rw [List.mem_singleton.mp hx]
    have hnl : ∀ op ∈ classOps, '\n' ∉ op := by decide
    refine ⟨?_, ?_⟩
    · simp only [List.mem_append, not_or]
      exact ⟨⟨⟨⟨h1.notMem rfl (by decide), by decide⟩, hnl op h2⟩, by decide⟩, h3.notMem rfl (by decide)⟩
    · have := h1.tight.append (c!" " ++ op ++ c!" ") h3.tight
      simpa using this

/-- A written class diagram is read as it is meant: classes with their attributes and methods, and relations, in their order. -/
theorem C116_class_read {header : Str} {l : List ClassStmt} {ts : List (Str × Str)} (hh : '\n' ∉ header)
    (hi : ∀ p ∈ ts, ∀ c ∈ p.1, isWs c = true ∧ c ≠ '\n') (h : ∀ s ∈ l, s.Ok) (ht : ts.map (·.2) = l.flatMap ClassStmt.lines) :
    (Classes.parse (diagramText header ts)).classes = l.flatMap ClassStmt.classes ∧
    (Classes.parse (diagramText header ts)).relations = l.flatMap ClassStmt.relations := by
  have key : ∀ (l : List ClassStmt) (s : Classes), (∀ t ∈ l, t.Ok) → s.inside = false →
      ((l.flatMap ClassStmt.lines).foldl Classes.line s).classes = s.classes ++ l.flatMap ClassStmt.classes ∧
      ((l.flatMap ClassStmt.lines).foldl Classes.line s).relations = s.relations ++ l.flatMap ClassStmt.relations := by
    intro l
    induction l with
    | nil => intro s _ _; simp
    | cons t l ih =>
      intro s ht hs
      obtain ⟨e1, e2, e3⟩ := ClassStmt.step (ht t (by simp)) hs
      obtain ⟨i1, i2⟩ := ih _ (fun x hx => ht x (by simp [hx])) e1
      rw [List.flatMap_cons, List.foldl_append, i1, i2, e2, e3]
      simp
  unfold Classes.parse
  rw [body_diagramText hh, ht]
  · have := key l {} h rfl
    simpa using this
  · intro p hp
    have : p.2 ∈ l.flatMap ClassStmt.lines := by rw [← ht]; exact List.mem_map_of_mem hp
    obtain ⟨s, hs, hx⟩ := List.mem_flatMap.mp this
    exact ⟨hi p hp, (ClassStmt.lineTexts (h s hs) _ hx).1, (ClassStmt.lineTexts (h s hs) _ hx).2⟩

/-- Non-vacuity. -/
example : let l := [ClassStmt.cls c!"Animal" [c!"+String name", c!"+eat(food) void"], .cls c!"Dog" [], .rel c!"Animal" c!"<|--" c!"Dog"]
    (∀ s ∈ l, s.Ok) ∧ l.flatMap ClassStmt.lines = [c!"class Animal {", c!"+String name", c!"+eat(food) void", c!"}", c!"class Dog {", c!"}", c!"Animal <|-- Dog"] ∧
    l.flatMap ClassStmt.classes = [(c!"Animal", [c!"+String name"], [c!"+eat(food) void"]), (c!"Dog", [], [])] := by
  refine ⟨?_, by decide, by decide⟩
  intro s hs
  simp only [List.mem_cons, List.not_mem_nil, or_false] at hs
  rcases hs with rfl | rfl | rfl
  · refine ⟨⟨by decide, by decide⟩, ?_⟩
    intro x hx
    simp only [List.mem_cons, List.not_mem_nil, or_false] at hx
    rcases hx with rfl | rfl
    · exact ⟨⟨by decide, by simp [Tight, isWs]⟩, by decide, by decide, by decide⟩
    · exact ⟨⟨by decide, by simp [Tight, isWs]⟩, by decide, by decide, by decide⟩
  · exact ⟨⟨by decide, by decide⟩, by simp⟩
  · exact ⟨⟨by decide, by decide⟩, by decide, ⟨by decide, by decide⟩⟩

theorem class_at {s : Classes} {i : Nat} {c : Str × List Str × List Str} (h : s.classes[i]? = some c) (r : Nat) (hr : r < 3) :
    s.figures[3 * i + r]? = (classBoxes i c)[r]? := by
  unfold Classes.figures
  rw [flatten_block (n := 3) classBoxes (fun _ _ => rfl) _ _ _ hr, h]
  rfl

theorem lastIdx_mem {l : List Str} {a : Str} (h : a ∈ l) : ∃ i, lastIdx? l a = some i ∧ l[i]? = some a := by
  obtain ⟨i, hi, hi2⟩ := findIdx_mem (l := l.reverse) (by simpa using h)
  have hl : i < l.length := by simpa using (List.getElem?_eq_some_iff.mp hi2).1
  refine ⟨l.length - 1 - i, by unfold lastIdx?; rw [hi]; rfl, ?_⟩
  rw [List.getElem?_reverse hl] at hi2
  exact hi2

/-- **C116**, class diagrams (partial). The drawing of the classes with their members and relations has for every class, in order, a box with its name, one with
its attributes and one with its methods, each directly below the one before and as wide, no two classes overlapping if each has at most six members (an empty compartment
counting as one); and for every relation between classes that are given a connector attached to the boxes with their names. What is missing: direction and kind of
the relation, where connectors begin and end, and the statements below. -/
theorem C116_class_partial {header : Str} {l : List ClassStmt} {ts : List (Str × Str)} (hh : '\n' ∉ header)
    (hi : ∀ p ∈ ts, ∀ c ∈ p.1, isWs c = true ∧ c ≠ '\n') (h : ∀ s ∈ l, s.Ok) (ht : ts.map (·.2) = l.flatMap ClassStmt.lines)
    (hdecl : ∀ r ∈ l.flatMap ClassStmt.relations, r.1 ∈ (l.flatMap ClassStmt.classes).map (·.1) ∧ r.2 ∈ (l.flatMap ClassStmt.classes).map (·.1)) :
    let s := Classes.parse (diagramText header ts)
    let C := l.flatMap ClassStmt.classes
    let R := l.flatMap ClassStmt.relations
    let size := fun c : Str × List Str × List Str => max c.2.1.length 1 + max c.2.2.length 1
    s.figures.length = 3 * C.length ∧
    (∀ (i : Nat) (c : Str × List Str × List Str), C[i]? = some c → ∃ top attrs methods, s.figures[3 * i]? = some top ∧ s.figures[3 * i + 1]? = some attrs ∧
      s.figures[3 * i + 2]? = some methods ∧ top.text = some c.1 ∧ attrs.text = some (joinStr c!"\n" c.2.1) ∧ methods.text = some (joinStr c!"\n" c.2.2) ∧
      attrs.x = top.x ∧ methods.x = top.x ∧ attrs.width = top.width ∧ methods.width = top.width ∧ attrs.y = top.y + top.height ∧ methods.y = attrs.y + attrs.height ∧
      ∀ (j : Nat) (c' : Str × List Str × List Str), C[j]? = some c' → i ≠ j → size c ≤ 6 → size c' ≤ 6 → ∀ f ∈ [top, attrs, methods],
        ∀ r < 3, ∀ g, s.figures[3 * j + r]? = some g → FigsApart f g) ∧
    s.links.length = R.length ∧
    (∀ (k : Nat) (a b : Str), R[k]? = some (a, b) → ∃ (i j : Nat) (top top' : Fig) (c : Link), s.figures[3 * i]? = some top ∧ s.figures[3 * j]? = some top' ∧
      top.text = some a ∧ top'.text = some b ∧ s.links[k]? = some c ∧ top.id = some c.start.1 ∧ top'.id = some c.finish.1) := by
  intro s C R size
  obtain ⟨hC, hR⟩ := C116_class_read hh hi h ht
  have hC : s.classes = C := hC
  have hR : s.relations = R := hR
  have hlink : ∀ r ∈ R, ∃ i j c, (C.map (·.1))[i]? = some r.1 ∧ (C.map (·.1))[j]? = some r.2 ∧ classLink (C.map (·.1)) r = some c ∧
      c.start.1 = 10 + 3 * i ∧ c.finish.1 = 10 + 3 * j := by
    intro r hr
    obtain ⟨i, h1, h2⟩ := lastIdx_mem (hdecl r hr).1
    obtain ⟨j, h3, h4⟩ := lastIdx_mem (hdecl r hr).2
    unfold classLink
    rw [h1, h3]
    exact ⟨i, j, _, h2, h4, rfl, rfl, rfl⟩
  have hsome : ∀ r ∈ R, (classLink (C.map (·.1)) r).isSome := by
    intro r hr
    obtain ⟨_, _, _, _, _, e, _⟩ := hlink r hr
    rw [e]; rfl
  refine ⟨?_, ?_, ?_, ?_⟩
  · rw [← hC]; exact flatten_length (n := 3) classBoxes (fun _ _ => rfl) _
  · intro i c hi
    rw [← hC] at hi
    refine ⟨_, _, _, class_at hi 0 (by decide), class_at hi 1 (by decide), class_at hi 2 (by decide), rfl, rfl, rfl, rfl, rfl, rfl, rfl, rfl, rfl, ?_⟩
    intro j c' hj hij h1 h2 f hf r hr g hg
    rw [← hC] at hj
    rw [class_at hj r hr] at hg
    have h1 : max c.2.1.length 1 + max c.2.2.length 1 ≤ 6 := h1
    have h2 : max c'.2.1.length 1 + max c'.2.2.length 1 ≤ 6 := h2
    have hbox : ∀ (n : Nat) (d : Str × List Str × List Str) (f : Fig), max d.2.1.length 1 + max d.2.2.length 1 ≤ 6 → f ∈ classBoxes n d →
        f.x = 500000 + n % 3 * 2500000 ∧ f.width = 2000000 ∧ 1600000 + n / 3 * 2000000 ≤ f.y ∧ f.y + f.height ≤ 1600000 + n / 3 * 2000000 + 1850000 := by
      intro n d f hd hf
      simp only [classBoxes, gridCell, List.mem_cons, List.not_mem_nil, or_false] at hf
      rcases hf with rfl | rfl | rfl
      · dsimp only; omega
      · dsimp only; omega
      · dsimp only; omega
    have a1 := hbox i c f h1 (by
      simp only [List.mem_cons, List.not_mem_nil, or_false] at hf
      rcases hf with rfl | rfl | rfl <;> simp [classBoxes])
    have a2 := hbox j c' g h2 (List.mem_of_getElem? hg)
    unfold FigsApart
    omega
  · unfold Classes.links
    rw [hC, hR, filterMap_len hsome]
  · intro k a b hk
    obtain ⟨i, j, c, h1, h2, h3, h4, h5⟩ := hlink _ (List.mem_of_getElem? hk)
    rw [List.getElem?_map, Option.map_eq_some_iff] at h1 h2
    obtain ⟨ci, hi, he⟩ := h1
    obtain ⟨cj, hj, he'⟩ := h2
    rw [← hC] at hi hj
    refine ⟨i, j, _, _, c, class_at hi 0 (by decide), class_at hj 0 (by decide), ?_, ?_, ?_, ?_, ?_⟩
    · show some ci.1 = _; rw [he]
    · show some cj.1 = _; rw [he']
    · unfold Classes.links
      rw [hC, hR, filterMap_get hsome, hk, Option.bind_some, h3]
    · rw [h4]
    · rw [h5]

theorem blocks_ids {α : Type} {n : Nat} (f : Nat → α → List Fig) (k : Nat)
    (hf : ∀ i a, (f i a).map (·.id) = (List.range' (k + n * i) n).map some) (l : List α) :
    ((l.mapIdx f).flatten).map (·.id) = (List.range' k (n * l.length)).map some := by
  induction l generalizing f k with
  | nil => simp
  | cons a l ih =>
    rw [List.mapIdx_cons, List.flatten_cons, List.map_append, hf, ih (fun i a => f (i + 1) a) (k + n) (fun i a => by
      rw [hf, Nat.mul_add, Nat.mul_one]; congr 2; omega)]
    rw [← List.map_append, List.length_cons, Nat.mul_add, Nat.mul_one, Nat.mul_zero, Nat.add_zero,
      Nat.add_comm (n * l.length) n, ← List.range'_append_1]

theorem numbered_ids (k : Nat) (l : List (Nat → Fig)) (h : ∀ g ∈ l, ∀ n, (g n).id = some n) :
    (numbered k l).map (·.id) = (List.range' k l.length).map some := by
  induction l generalizing k with
  | nil => simp [numbered]
  | cons g l ih =>
    have hc : numbered k (g :: l) = g k :: numbered (k + 1) l := by
      simp [numbered, Nat.add_assoc, Nat.add_comm 1]
    rw [hc, List.map_cons, h g (by simp), ih (k + 1) fun g hg => h g (by simp [hg])]
    rfl

/-- The figures of a class diagram and those of an ER diagram have different ids, whatever the
diagram is. -/
theorem C116_ids (s : Classes) (E : List (Str × List Str)) (R : List (Str × Str × Str)) :
    (s.figures.map (·.id)).Nodup ∧ (∀ f ∈ s.figures, f.id ≠ none)
      ∧ ((erFigures E R).map (·.id)).Nodup ∧ ∀ f ∈ erFigures E R, f.id ≠ none := by
  have h1 : s.figures.map (·.id) = (List.range' 10 (3 * s.classes.length)).map some :=
    blocks_ids classBoxes 10 (fun i c => by simp [classBoxes, List.range'_succ]; omega) _
  have h2 : (erFigures E R).map (·.id) = (List.range' 10 (2 * E.length
      + ((R.filterMap (erLink (E.map (·.1)))).filterMap (·.2)).length)).map some := by
    unfold erFigures
    rw [List.map_append, blocks_ids (n := 2) erBoxes 10 (fun i c => by simp [erBoxes, List.range'_succ]; omega),
      numbered_ids _ _ ?_, ← List.map_append, List.range'_append_1]
    intro g hg n
    obtain ⟨x, hx, e⟩ := List.mem_filterMap.mp hg
    obtain ⟨r, _, hr⟩ := List.mem_filterMap.mp hx
    unfold erLink at hr
    split at hr
    · simp only [Option.some.injEq] at hr
      subst hr
      simp only at e
      split at e
      · simp at e
      · simp only [Option.some.injEq] at e
        subst e
        rfl
    · simp at hr
  have nd : ∀ k n, ((List.range' k n).map some).Nodup := fun k n =>
    List.Nodup.map (fun _ _ h => Option.some.inj h) (List.nodup_range' (step := 1))
  have nn : ∀ (F : List Fig) (k n : Nat), F.map (·.id) = (List.range' k n).map some → ∀ f ∈ F, f.id ≠ none := by
    intro F k n h f hf e
    have : f.id ∈ F.map (·.id) := List.mem_map_of_mem hf
    rw [h, e] at this
    simp at this
  exact ⟨h1 ▸ nd _ _, nn _ _ _ h1, h2 ▸ nd _ _, nn _ _ _ h2⟩

/-- **C116 does not hold in full**: in a class diagram, classes without a body are not drawn, neither are members given as `A : +int x`; relations with a label, and compositions,
aggregations and dependencies, are lost. -/
theorem C116_class_violated :
    (Classes.parse c!"classDiagram\nclass A\nA : +int x").figures = [] ∧
    ∀ r ∈ [c!"A --> B : uses", c!"A *-- B", c!"A o-- B", c!"A ..> B", c!"A \"1\" --> \"n\" B"],
      (Classes.parse (c!"classDiagram\nclass A {\n}\nclass B {\n}\n" ++ r)).links = [] := by decide

/-- **C116 does not hold in full**: in a class diagram, the arrow of `Animal <|-- Dog` (a dog is an animal) points to `Dog`, as that of `Animal --|> Dog`. -/
theorem C116_inherit_violated :
    (Classes.parse c!"classDiagram\nclass A {\n}\nclass B {\n}\nA <|-- B").links = (Classes.parse c!"classDiagram\nclass A {\n}\nclass B {\n}\nA --|> B").links ∧
    ∃ l, (Classes.parse c!"classDiagram\nclass A {\n}\nclass B {\n}\nA <|-- B").links = [l] ∧ l.finish.1 = 13 ∧ l.head = c!"triangle" ∧
      ((Classes.parse c!"classDiagram\nclass A {\n}\nclass B {\n}\nA <|-- B").figures.find? (·.id = some 13)).bind (·.text) = some c!"B" := by
  refine ⟨by decide, _, rfl, rfl, rfl, by decide⟩

/-- **C116 does not hold in full**: in a class diagram, a class that is written on one line, as `class A {}`, is not finished: all lines up to the next `}`
become its members or are lost. -/
theorem C116_oneline_violated :
    (Classes.parse c!"classDiagram\nclass A {}\nA --> B\nclass B {\n+x\n}").classes = [(c!"B", [c!"+x"], [])] ∧
    (Classes.parse c!"classDiagram\nclass A {}\nA --> B\nclass B {\n+x\n}").relations = [] ∧
    (Classes.parse c!"classDiagram\nclass A {}\nclass B {}").figures = [] := by decide

end PptRs.Props
