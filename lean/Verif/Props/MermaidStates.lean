import Verif.Props.MermaidSeq
import Mathlib.Data.List.Nodup

/-!
# Mermaid: state diagrams (C116)
-/

namespace PptRs.Props

open PptRs PptRs.Mermaid

/-- Every element at its first place only. -/
def firsts : List Str → List Str
  | [] => []
  | a :: l => a :: (firsts l).filter (· ≠ a)

theorem firsts_nodup (l : List Str) : (firsts l).Nodup := by
  induction l with
  | nil => exact List.nodup_nil
  | cons a l ih => exact List.nodup_cons.mpr ⟨by simp, ih.filter _⟩

theorem mem_firsts {l : List Str} {a : Str} : a ∈ firsts l ↔ a ∈ l := by
  induction l with
  | nil => simp [firsts]
  | cons b l ih =>
    simp only [firsts, List.mem_cons, List.mem_filter, ih, decide_eq_true_eq]
    constructor
    · rintro (h | h)
      · exact .inl h
      · exact .inr h.1
    · rintro (h | h)
      · exact .inl h
      · by_cases e : a = b
        · exact .inl e
        · exact .inr ⟨h, e⟩

theorem trim_pad {p s q : Str} (hp : ∀ c ∈ p, isWs c = true) (hq : ∀ c ∈ q, isWs c = true) (h : Tight s) : trim (p ++ s ++ q) = s := by
  have h1 : trimStart (p ++ s ++ q) = s ++ q := by
    unfold trimStart
    rw [List.append_assoc, List.dropWhile_append_of_pos hp]
    cases s with
    | nil => exact absurd rfl h.2.2
    | cons c s => rw [List.cons_append, List.dropWhile_cons_of_neg (by simp [h.1 c rfl])]
  unfold trim
  rw [h1]
  unfold trimEnd
  rw [List.reverse_append, List.dropWhile_append_of_pos (by simpa using hq)]
  have := trim_tight h
  unfold trim trimEnd at this
  have e : trimStart s = s := by
    unfold trimStart
    cases s with
    | nil => rfl
    | cons c s => rw [List.dropWhile_cons_of_neg (by simp [h.1 c rfl])]
  rw [e] at this
  exact this

/-! ### Source texts -/

/-- A transition `a --> b` or `a --> b : label`; `none` is `[*]`. -/
structure Transition where
  source : Option Str
  target : Option Str
  label : Option Str

/-- The written end of a transition. -/
def stateName (a : Option Str) : Str := a.getD c!"[*]"

/-- The written transition. -/
def Transition.text (t : Transition) : Str :=
  stateName t.source ++ c!" --> " ++ stateName t.target ++ (match t.label with | none => [] | some l => c!" : " ++ l)

/-- Names are words other than those that stand for the beginning and the end, labels are lines of text without arrows. -/
structure Transition.Ok (t : Transition) : Prop where
  source : ∀ a, t.source = some a → Word a ∧ ¬ c!"direction" <+: a ∧ a ≠ c!"Start" ∧ a ≠ c!"End"
  target : ∀ a, t.target = some a → Word a ∧ a ≠ c!"Start" ∧ a ≠ c!"End"
  label : ∀ l, t.label = some l → LineText l ∧ containsStr c!"-->" l = false

/-- What is shown for the two ends. -/
def Transition.ends (t : Transition) : Str × Str := (t.source.getD c!"Start", t.target.getD c!"End")

theorem states_add_fold (l : List Str) (s : States) :
    l.foldl States.add s = { s with states := s.states ++ (firsts l).filter (· ∉ s.states) } := by
  induction l generalizing s with
  | nil => simp [firsts]
  | cons a l ih =>
    rw [List.foldl_cons, ih]
    unfold States.add
    by_cases h : a ∈ s.states
    · rw [if_pos h]
      simp only [firsts]
      congr 2
      rw [List.filter_cons, if_neg (by simpa using h), List.filter_filter]
      apply List.filter_congr
      intro q _
      by_cases hq : q = a
      · subst hq; simp [h]
      · simp [hq]
    · rw [if_neg h]
      simp only [firsts, List.append_assoc]
      congr 2
      rw [List.filter_cons, if_pos (by simpa using h), List.singleton_append, List.filter_filter]
      congr 1
      apply List.filter_congr
      intro q _
      simp [not_or]

theorem stateName_tight {a : Option Str} (h : ∀ x, a = some x → Word x) : LineText (stateName a) := by
  cases a with
  | none => exact ⟨by decide, by simp [Tight, isWs, stateName]⟩
  | some x => exact ⟨(h x rfl).notMem rfl (by decide), (h x rfl).tight⟩

theorem stateName_notMem {a : Option Str} (h : ∀ x, a = some x → Word x) {c : Char} (hc : c.isAlphanum = false) (h1 : c ≠ '_') (h2 : c ∉ c!"[*]") :
    c ∉ stateName a := by
  cases a with
  | none => exact h2
  | some x => exact (h x rfl).notMem hc h1

theorem Transition.lineText {t : Transition} (h : t.Ok) : LineText t.text := by
  have h1 := stateName_tight (fun a e => (h.source a e).1)
  have h2 := stateName_tight (fun a e => (h.target a e).1)
  unfold Transition.text
  cases hl : t.label with
  | none =>
    simp only [List.append_nil]
    refine ⟨?_, h1.2.append _ h2.2⟩
    simp only [List.mem_append, not_or]
    exact ⟨⟨h1.1, by decide⟩, h2.1⟩
  | some l =>
    have hl' := (h.label l hl).1
    have e : stateName t.source ++ c!" --> " ++ stateName t.target ++ (c!" : " ++ l) = stateName t.source ++ (c!" --> " ++ stateName t.target ++ c!" : ") ++ l := by simp
    simp only [e]
    refine ⟨?_, h1.2.append _ hl'.2⟩
    simp only [List.mem_append, not_or]
    exact ⟨⟨h1.1, ⟨by decide, h2.1⟩, by decide⟩, hl'.1⟩

theorem state_line {t : Transition} (h : t.Ok) (s : States) :
    s.line t.text = { ((s.add t.ends.1).add t.ends.2) with
      transitions := ((s.add t.ends.1).add t.ends.2).transitions ++ [(t.ends.1, t.ends.2, t.label.getD [])] } := by
  have w1 := fun a e => (h.source a e).1
  have w2 := fun a e => (h.target a e).1
  have h1 := stateName_tight w1
  have h2 := stateName_tight w2
  have d1 : '-' ∉ stateName t.source := stateName_notMem w1 rfl (by decide) (by decide)
  have d2 : '-' ∉ stateName t.target := stateName_notMem w2 rfl (by decide) (by decide)
  have c2 : ':' ∉ stateName t.target := stateName_notMem w2 rfl (by decide) (by decide)
  have hsk : ¬ (t.text = [] ∨ startsWith c!"%%" t.text = true ∨ startsWith c!"direction" t.text = true) := by
    rw [not_or, not_or]
    have hp : ∀ p : Str, ' ' ∉ p → startsWith p t.text = true → p <+: stateName t.source := by
      intro p hp hs
      obtain ⟨r, hr⟩ := startsWith_iff.mp hs
      refine prefix_word (c := ' ') (r := c!"--> " ++ stateName t.target ++ (match t.label with | none => [] | some l => c!" : " ++ l)) hp ⟨r, ?_⟩
      rw [← hr]
      simp [Transition.text]
    refine ⟨(Transition.lineText h).2.2.2, fun hs => ?_, fun hs => ?_⟩
    · exact stateName_notMem w1 (c := '%') rfl (by decide) (by decide) ((hp _ (by decide) hs).subset (by simp))
    · have := hp _ (by decide) hs
      cases e : t.source with
      | none => rw [e] at this; revert this; decide
      | some a => rw [e] at this; exact (h.source a e).2.1 this
  obtain ⟨r, hr, hr2⟩ : ∃ r, arrowParts t.text = some (stateName t.source ++ c!" ", r) ∧
      ((splitOnce? c!":" r = none ∧ trim r = stateName t.target ∧ t.label.getD [] = []) ∨
        ∃ x y, splitOnce? c!":" r = some (x, y) ∧ trim x = stateName t.target ∧ trim y = t.label.getD []) := by
    unfold arrowParts Transition.text
    cases hl : t.label with
    | none =>
      refine ⟨c!" " ++ stateName t.target, ?_, ?_⟩
      · have e : stateName t.source ++ c!" --> " ++ stateName t.target ++ [] = (stateName t.source ++ c!" ") ++ (c!"-->" ++ (c!" " ++ stateName t.target)) := by simp
        simp only [e]
        rw [split_hit (c := '-') (p := c!"->") (by simp only [List.mem_append, not_or]; exact ⟨d1, by decide⟩)]
        simp only [Option.map_some]
        rw [split_none (c := '-') rfl (by simp only [List.mem_append, not_or]; exact ⟨by decide, d2⟩)]
      · exact .inl ⟨split_none (c := ':') rfl (by simp only [List.mem_append, not_or]; exact ⟨by decide, c2⟩),
          trim_indent (p := c!" ") (by decide) h2.2, rfl⟩
    | some l =>
      obtain ⟨hl1, hl2⟩ := h.label l hl
      refine ⟨c!" " ++ stateName t.target ++ c!" : " ++ l, ?_, ?_⟩
      · have e : stateName t.source ++ c!" --> " ++ stateName t.target ++ (c!" : " ++ l) =
            (stateName t.source ++ c!" ") ++ (c!"-->" ++ (c!" " ++ stateName t.target ++ c!" : " ++ l)) := by simp
        simp only [e]
        rw [split_hit (c := '-') (p := c!"->") (by simp only [List.mem_append, not_or]; exact ⟨d1, by decide⟩)]
        simp only [Option.map_some]
        have hn : splitOnce? c!"-->" l = none := by
          unfold containsStr at hl2
          exact Option.isSome_eq_false_iff.mp hl2 |> Option.isNone_iff_eq_none.mp
        rw [split_past (c := '-') (p := c!"->") (by simp only [List.mem_append, not_or]; exact ⟨⟨by decide, d2⟩, by decide⟩), hn]
        rfl
      · have e : c!" " ++ stateName t.target ++ c!" : " ++ l = (c!" " ++ stateName t.target ++ c!" ") ++ (c!":" ++ (c!" " ++ l)) := by simp
        rw [e]
        exact .inr ⟨_, _, split_hit (c := ':') (p := []) (by simp only [List.mem_append, not_or]; exact ⟨⟨by decide, c2⟩, by decide⟩),
          trim_pad (by decide) (by decide) h2.2, trim_indent (p := c!" ") (by decide) hl1.2⟩
  unfold States.line
  rw [if_neg hsk, hr]
  have ht : trim (stateName t.source ++ c!" ") = stateName t.source := by
    have := trim_pad (p := []) (q := c!" ") (by simp) (by decide) h1.2
    simpa using this
  have e1 : (if trim (stateName t.source ++ c!" ") = c!"[*]" then c!"Start" else trim (stateName t.source ++ c!" ")) = t.ends.1 := by
    rw [ht]
    cases e : t.source with
    | none => simp [stateName, Transition.ends, e]
    | some a =>
      simp only [stateName, Transition.ends, e, Option.getD_some]
      refine if_neg ?_
      rintro rfl
      exact (w1 _ e).notMem (c := '[') rfl (by decide) (by simp)
  have e2 : (if stateName t.target = c!"[*]" then c!"End" else stateName t.target) = t.ends.2 := by
    cases e : t.target with
    | none => simp [stateName, Transition.ends, e]
    | some a =>
      simp only [stateName, Transition.ends, e, Option.getD_some]
      refine if_neg ?_
      rintro rfl
      exact (w2 _ e).notMem (c := '[') rfl (by decide) (by simp)
  rcases hr2 with ⟨h3, h4, h5⟩ | ⟨x, y, h3, h4, h5⟩
  · simp only [h3, h4, h5, e1, e2]
  · simp only [h3, h4, h5, e1, e2]

/-- A written state diagram is read as it is meant. -/
theorem C116_read {header : Str} {ls : List (Str × Transition)} (hh : '\n' ∉ header) (hi : ∀ p ∈ ls, ∀ c ∈ p.1, isWs c = true ∧ c ≠ '\n')
    (h : ∀ p ∈ ls, p.2.Ok) :
    States.parse (diagramText header (ls.map fun p => (p.1, p.2.text))) =
      ⟨firsts (ls.flatMap fun p => [p.2.ends.1, p.2.ends.2]), ls.map fun p => (p.2.ends.1, p.2.ends.2, p.2.label.getD [])⟩ := by
  have key : ∀ (l : List Transition) (s : States), (∀ t ∈ l, t.Ok) →
      (l.map Transition.text).foldl States.line s = { ((l.flatMap fun t => [t.ends.1, t.ends.2]).foldl States.add s) with
        transitions := s.transitions ++ l.map fun t => (t.ends.1, t.ends.2, t.label.getD []) } := by
    intro l
    induction l with
    | nil => intro s _; simp
    | cons t l ih =>
      intro s ht
      rw [List.map_cons, List.foldl_cons, state_line (ht t (by simp)), ih _ (fun x hx => ht x (by simp [hx]))]
      simp only [List.flatMap_cons, List.foldl_append, List.foldl_cons, List.foldl_nil]
      have : ∀ (a : Str) (s : States), (s.add a).transitions = s.transitions := by intro a s; unfold States.add; split <;> rfl
      simp only [states_add_fold, this]
      simp
  unfold States.parse
  rw [body_diagramText hh]
  · have := key (ls.map (·.2)) {} (by
      intro s hs
      obtain ⟨p, hp, rfl⟩ := List.mem_map.mp hs
      exact h p hp)
    simp only [List.map_map, Function.comp_def] at this ⊢
    rw [this, states_add_fold]
    simp [List.flatMap_map]
  · intro q hq
    obtain ⟨p, hp, rfl⟩ := List.mem_map.mp hq
    exact ⟨hi p hp, (Transition.lineText (h p hp)).1, (Transition.lineText (h p hp)).2⟩

/-! ### What is drawn -/

/-- Two figures do not overlap. -/
def FigsApart (f g : Fig) : Prop := f.x + f.width ≤ g.x ∨ g.x + g.width ≤ f.x ∨ f.y + f.height ≤ g.y ∨ g.y + g.height ≤ f.y

/-- The middle of a side of a figure. -/
def siteAt (f : Fig) : Side → Nat × Nat
  | .top => (f.x + f.width / 2, f.y)
  | .bottom => (f.x + f.width / 2, f.y + f.height)
  | .left => (f.x, f.y + f.height / 2)
  | .right => (f.x + f.width, f.y + f.height / 2)

theorem filterMap_get {α β : Type} {f : α → Option β} {l : List α} (h : ∀ a ∈ l, (f a).isSome) (k : Nat) : (l.filterMap f)[k]? = (l[k]?).bind f := by
  induction l generalizing k with
  | nil => simp
  | cons a l ih =>
    obtain ⟨b, hb⟩ := Option.isSome_iff_exists.mp (h a (by simp))
    rw [List.filterMap_cons_some hb]
    cases k with
    | zero => simp [hb]
    | succ k => simpa using ih (fun x hx => h x (by simp [hx])) k

theorem filterMap_len {α β : Type} {f : α → Option β} {l : List α} (h : ∀ a ∈ l, (f a).isSome) : (l.filterMap f).length = l.length := by
  induction l with
  | nil => simp
  | cons a l ih =>
    obtain ⟨b, hb⟩ := Option.isSome_iff_exists.mp (h a (by simp))
    rw [List.filterMap_cons_some hb, List.length_cons, List.length_cons, ih (fun x hx => h x (by simp [hx]))]

theorem findIdx_mem {l : List Str} {a : Str} (h : a ∈ l) : ∃ i, l.findIdx? (· = a) = some i ∧ l[i]? = some a := by
  cases hi : l.findIdx? (· = a) with
  | none =>
    rw [List.findIdx?_eq_none_iff] at hi
    exact absurd (hi a h) (by simp)
  | some i =>
    obtain ⟨h1, h2, _⟩ := List.findIdx?_eq_some_iff_getElem.mp hi
    refine ⟨i, rfl, ?_⟩
    rw [List.getElem?_eq_getElem h1]
    simpa using h2

theorem numbered_cons (n : Nat) (f : Nat → Fig) (l : List (Nat → Fig)) : numbered n (f :: l) = f n :: numbered (n + 1) l := by
  unfold numbered
  rw [List.mapIdx_cons]
  congr 1
  apply List.ext_getElem?
  intro i
  simp only [List.getElem?_mapIdx]
  congr 2
  funext f
  congr 1
  omega

/-- The states and what the transitions join. -/
def StatesOk (s : States) : Prop := s.states.Nodup ∧ ∀ t ∈ s.transitions, t.1 ∈ s.states ∧ t.2.1 ∈ s.states

theorem stateLink_some {S : List Str} {t : Str × Str × Str} (h : t.1 ∈ S ∧ t.2.1 ∈ S) :
    ∃ (i j : Nat) (o : Option (Nat → Fig)), S[i]? = some t.1 ∧ S[j]? = some t.2.1 ∧ stateLink S t = some
      (⟨(statePlace i).1 + 1500000, (statePlace i).2 + 250000, (statePlace j).1, (statePlace j).2 + 250000, c!"triangle",
        (10 + i, (stateSides (statePlace i) (statePlace j)).1), (10 + j, (stateSides (statePlace i) (statePlace j)).2)⟩, o) ∧
      ((t.2.2 = [] ∧ o = none) ∨ (t.2.2 ≠ [] ∧ ∃ f, o = some f ∧ ∀ n, (f n).text = some t.2.2 ∧ (f n).id = some n)) := by
  obtain ⟨i, hi, hi2⟩ := findIdx_mem h.1
  obtain ⟨j, hj, hj2⟩ := findIdx_mem h.2
  unfold stateLink
  rw [hi, hj]
  refine ⟨i, j, _, hi2, hj2, rfl, ?_⟩
  by_cases e : t.2.2 = []
  · exact .inl ⟨e, if_pos e⟩
  · exact .inr ⟨e, _, if_neg e, fun n => ⟨rfl, rfl⟩⟩

theorem labels_of (S : List Str) (T : List (Str × Str × Str)) (h : ∀ t ∈ T, t.1 ∈ S ∧ t.2.1 ∈ S) (n : Nat) :
    (numbered n ((T.filterMap (stateLink S)).filterMap (·.2))).map (·.text) = (T.filter (·.2.2 ≠ [])).map (fun t => some t.2.2) ∧
    (numbered n ((T.filterMap (stateLink S)).filterMap (·.2))).map (·.id) = (List.range' n (T.filter (·.2.2 ≠ [])).length).map some := by
  induction T generalizing n with
  | nil => exact ⟨rfl, rfl⟩
  | cons t T ih =>
    obtain ⟨i, j, o, _, _, hl, ho⟩ := stateLink_some (h t (by simp))
    rw [List.filterMap_cons_some hl]
    rcases ho with ⟨h1, rfl⟩ | ⟨h1, f, rfl, hf⟩
    · rw [List.filterMap_cons_none rfl, List.filter_cons_of_neg (by simpa using h1)]
      exact ih (fun x hx => h x (by simp [hx])) n
    · rw [List.filterMap_cons_some (f := fun x : Link × Option (Nat → Fig) => x.2) (b := f) rfl, List.filter_cons_of_pos (by simpa using h1), numbered_cons]
      obtain ⟨i1, i2⟩ := ih (fun x hx => h x (by simp [hx])) (n + 1)
      rw [List.map_cons, List.map_cons, List.map_cons, i1, i2, (hf n).1, (hf n).2, List.length_cons, List.range'_succ]
      exact ⟨rfl, rfl⟩

/-- A state at its place. -/
theorem state_at {s : States} {i : Nat} {a : Str} (h : s.states[i]? = some a) : s.figures[i]? = some (stateFig i a) := by
  unfold States.figures
  rw [List.getElem?_append_left (by rw [List.length_mapIdx]; exact (List.getElem?_eq_some_iff.mp h).1), List.getElem?_mapIdx, h]
  rfl

theorem state_apart {i j : Nat} (h : i ≠ j) (a b : Str) : FigsApart (stateFig i a) (stateFig j b) := by
  unfold FigsApart stateFig statePlace gridCell
  dsimp only
  omega

/-- **C116**, state diagrams (partial). From every text of transitions the drawing has a figure for every state in the order in which
they are first mentioned, `[*]` being a black ellipse and other states rounded boxes with their names, no two of them overlapping; a connector for
every transition, which is attached to the figure of the state where it starts and to that of the state where it ends and has its arrow
head there; and the labels in order. All figures have different ids. What is missing: where connectors begin and end, see
`C116_sites`, and the statements below that are not understood. -/
theorem C116_states_partial {header : Str} {ls : List (Str × Transition)} (hh : '\n' ∉ header) (hi : ∀ p ∈ ls, ∀ c ∈ p.1, isWs c = true ∧ c ≠ '\n')
    (h : ∀ p ∈ ls, p.2.Ok) :
    let s := States.parse (diagramText header (ls.map fun p => (p.1, p.2.text)))
    let S := firsts (ls.flatMap fun p => [p.2.ends.1, p.2.ends.2])
    let T := ls.map (·.2)
    (∀ (i : Nat) (a : Str), S[i]? = some a → ∃ f, s.figures[i]? = some f ∧ f.text = some a ∧
      f.kind = (if a = c!"Start" ∨ a = c!"End" then c!"ellipse" else c!"roundRect") ∧
      ∀ (j : Nat) (b : Str), S[j]? = some b → i ≠ j → ∃ g, s.figures[j]? = some g ∧ FigsApart f g) ∧
    (s.figures.drop S.length).map (·.text) = (T.filterMap (·.label)).map some ∧
    s.links.length = T.length ∧
    (∀ (k : Nat) (t : Transition), T[k]? = some t → ∃ (i j : Nat) (f g : Fig) (l : Link), S[i]? = some t.ends.1 ∧ S[j]? = some t.ends.2 ∧
      s.figures[i]? = some f ∧ s.figures[j]? = some g ∧ s.links[k]? = some l ∧ f.id = some l.start.1 ∧ g.id = some l.finish.1 ∧ l.head = c!"triangle") ∧
    (s.figures.map (·.id)).Nodup ∧ ∀ f ∈ s.figures, f.id ≠ none := by
  intro s S T
  have hs : s = ⟨S, T.map fun t => (t.ends.1, t.ends.2, t.label.getD [])⟩ := by
    show States.parse _ = _
    rw [C116_read hh hi h]
    simp [S, T]
  have hm : ∀ t ∈ s.transitions, t.1 ∈ s.states ∧ t.2.1 ∈ s.states := by
    rw [hs]
    intro t ht
    obtain ⟨u, hu, rfl⟩ := List.mem_map.mp ht
    obtain ⟨p, hp, rfl⟩ := List.mem_map.mp hu
    simp only [S, mem_firsts, List.mem_flatMap]
    exact ⟨⟨p, hp, by simp⟩, ⟨p, hp, by simp⟩⟩
  have hS : s.states = S := by rw [hs]
  have hT : s.transitions = T.map fun t => (t.ends.1, t.ends.2, t.label.getD []) := by rw [hs]
  have hsome : ∀ t ∈ s.transitions, (stateLink s.states t).isSome := by
    intro t ht
    obtain ⟨_, _, _, _, _, e, _⟩ := stateLink_some (hm t ht)
    rw [e]; rfl
  obtain ⟨lt, li⟩ := labels_of s.states s.transitions hm (10 + s.states.length)
  have hd : (s.figures.drop S.length) = numbered (10 + s.states.length) ((s.transitions.filterMap (stateLink s.states)).filterMap (·.2)) := by
    unfold States.figures
    rw [List.drop_left' (by rw [List.length_mapIdx, hS])]
  have hids : s.figures.map (·.id) = (List.range' 10 (S.length + (s.transitions.filter (·.2.2 ≠ [])).length)).map some := by
    unfold States.figures
    rw [List.map_append, li, ← List.range'_append_1, List.map_append, hS]
    congr 1
    apply List.ext_getElem?
    intro i
    simp only [List.getElem?_map, List.getElem?_mapIdx, Option.map_map]
    by_cases hi : i < S.length
    · rw [List.getElem?_eq_getElem hi, List.getElem?_eq_getElem (by simpa using hi)]
      simp [stateFig]
    · rw [List.getElem?_eq_none (by omega), List.getElem?_eq_none (by simp; omega)]
      rfl
  refine ⟨?_, ?_, ?_, ?_, ?_, ?_⟩
  · intro i a hi
    rw [← hS] at hi
    refine ⟨_, state_at hi, rfl, rfl, fun j b hj hij => ?_⟩
    rw [← hS] at hj
    exact ⟨_, state_at hj, state_apart hij _ _⟩
  · rw [hd, lt, hT]
    have hne : ∀ t ∈ T, ∀ l, t.label = some l → l ≠ [] := by
      intro t ht l hl
      obtain ⟨p, hp, rfl⟩ := List.mem_map.mp ht
      exact ((h p hp).label l hl).1.2.2.2
    clear_value T
    clear hT hs hm hsome lt li hd hids hS
    induction T with
    | nil => rfl
    | cons t T ih =>
      have ih := ih (fun x hx => hne x (by simp [hx]))
      cases hl : t.label with
      | none =>
        rw [List.map_cons, List.filter_cons_of_neg (by simp [hl]), List.filterMap_cons_none hl, ih]
      | some l =>
        have := hne t (by simp) l hl
        rw [List.map_cons, List.filter_cons_of_pos (by simpa [hl] using this), List.filterMap_cons_some hl, List.map_cons, List.map_cons, ih]
        simp [hl]
  · unfold States.links
    rw [List.length_map, filterMap_len hsome, hT, List.length_map]
  · intro k t hk
    have hk2 : s.transitions[k]? = some (t.ends.1, t.ends.2, t.label.getD []) := by rw [hT, List.getElem?_map, hk]; rfl
    obtain ⟨i, j, o, h1, h2, h3, _⟩ := stateLink_some (hm _ (List.mem_of_getElem? hk2))
    have h4 := congrArg (Option.map Prod.fst) h3
    have h5 : s.links[k]? = (stateLink s.states (t.ends.1, t.ends.2, t.label.getD [])).map Prod.fst := by
      unfold States.links
      rw [List.getElem?_map, filterMap_get hsome, hk2, Option.bind_some]
    rw [h4] at h5
    exact ⟨i, j, _, _, _, by rw [← hS]; exact h1, by rw [← hS]; exact h2, state_at h1, state_at h2, h5, rfl, rfl, rfl⟩
  · rw [hids]
    exact List.Nodup.map (fun a b e => Option.some.inj e) List.nodup_range'
  · intro f hf e
    have : f.id ∈ s.figures.map (·.id) := List.mem_map_of_mem hf
    rw [hids, e] at this
    simp at this

/-- Non-vacuity: a diagram with a beginning, an end and a label. -/
example : let ls := [(c!"  ", (⟨none, some c!"Idle", none⟩ : Transition)), (c!"  ", ⟨some c!"Idle", some c!"Busy", some c!"job: start"⟩),
      ([], ⟨some c!"Busy", none, none⟩)]
    (∀ p ∈ ls, p.2.Ok) ∧ diagramText c!"stateDiagram-v2" (ls.map fun p => (p.1, p.2.text)) =
      c!"stateDiagram-v2\n  [*] --> Idle\n  Idle --> Busy : job: start\nBusy --> [*]" ∧
    firsts (ls.flatMap fun p => [p.2.ends.1, p.2.ends.2]) = [c!"Start", c!"Idle", c!"Busy", c!"End"] := by
  refine ⟨?_, by decide, by decide⟩
  intro p hp
  simp only [List.mem_cons, List.not_mem_nil, or_false] at hp
  rcases hp with rfl | rfl | rfl
  · exact ⟨by simp, by rintro a ⟨⟩; exact ⟨⟨by decide, by decide⟩, by decide⟩, by simp⟩
  · exact ⟨by rintro a ⟨⟩; exact ⟨⟨by decide, by decide⟩, by decide⟩, by rintro a ⟨⟩; exact ⟨⟨by decide, by decide⟩, by decide⟩,
      by rintro a ⟨⟩; exact ⟨⟨by decide, by simp [Tight, isWs]⟩, by decide⟩⟩
  · exact ⟨by rintro a ⟨⟩; exact ⟨⟨by decide, by decide⟩, by decide⟩, by simp, by simp⟩

/-- A connector of a state diagram begins at the middle of the side to which it is attached, and ends at the middle of the side to
which it is attached, exactly if the second state is in a column further to the right. -/
theorem C116_sites {S : List Str} {t : Str × Str × Str} {i j : Nat} (hi : S.findIdx? (· = t.1) = some i) (hj : S.findIdx? (· = t.2.1) = some j)
    {l : Link} {o : Option (Nat → Fig)} (h : stateLink S t = some (l, o)) :
    ((l.startX, l.startY) = siteAt (stateFig i t.1) l.start.2 ∧ (l.endX, l.endY) = siteAt (stateFig j t.2.1) l.finish.2) ↔ i % 3 < j % 3 := by
  unfold stateLink at h
  rw [hi, hj] at h
  simp only [Option.some.injEq, Prod.mk.injEq] at h
  obtain ⟨rfl, _⟩ := h
  have e : ∀ n, (statePlace n).1 = 1000000 + n % 3 * 2200000 := fun _ => rfl
  unfold stateSides
  split
  · rename_i hlt
    rw [e, e] at hlt
    simp only [siteAt, stateFig, Prod.mk.injEq]
    constructor
    · intro _; omega
    · intro _; exact ⟨True.intro, True.intro⟩
  · rename_i hlt
    rw [e, e] at hlt
    split
    · simp only [siteAt, stateFig, Prod.mk.injEq]
      constructor
      · rintro ⟨⟨h, _⟩, _⟩; omega
      · intro _; omega
    · split
      · simp only [siteAt, stateFig, Prod.mk.injEq]
        constructor
        · rintro ⟨⟨h, _⟩, _⟩; omega
        · intro _; omega
      · simp only [siteAt, stateFig, Prod.mk.injEq]
        constructor
        · rintro ⟨⟨h, _⟩, _⟩; omega
        · intro _; omega

/-- **C116 does not hold in full**: in a state diagram, the connector of a transition back to the left begins at the right side of the first
state and ends at the left side of the second one, although it is attached to the left side and the right side. In `A --> B` and
`B --> A` both states are crossed by the second connector. -/
theorem C116_back_violated : ∃ l ∈ (States.parse c!"stateDiagram\nA --> B\nB --> A").links, ∃ f ∈ (States.parse c!"stateDiagram\nA --> B\nB --> A").figures,
    f.id = some l.start.1 ∧ l.start.2 = Side.left ∧ l.startX = f.x + f.width := by
  decide

/-- **C116 does not hold in full**: in a state diagram, a state that is called `Start` is the same as the beginning `[*]`, and one that is
called `End` the same as the end. -/
theorem C116_start_violated : (States.parse c!"stateDiagram\n[*] --> Start\nStart --> End\nEnd --> [*]").figures =
      (States.parse c!"stateDiagram\nStart --> Start\nStart --> End\nEnd --> End").figures ∧
    (States.parse c!"stateDiagram\n[*] --> Start\nStart --> End\nEnd --> [*]").states = [c!"Start", c!"End"] := by decide

/-- **C116 does not hold in full**: of a state diagram only transitions are drawn. States without transitions, and the descriptions of
states, are lost, and what is within a composite state appears beside it. -/
theorem C116_states_violated :
    (States.parse c!"stateDiagram\nIdle\nBusy : working hard\nstate \"Long name\" as L").figures = [] ∧
    ((States.parse c!"stateDiagram\nstate Outer {\nA --> B\n}\nOuter --> C").states = [c!"A", c!"B", c!"Outer", c!"C"]) ∧
    ((States.parse c!"stateDiagram\nOuter --> C\nstate Outer {\nA --> B\n}").figures =
      (States.parse c!"stateDiagram\nOuter --> C\nA --> B").figures) := by decide

/-- **C116 does not hold in full**: a transition of a state diagram from a state to itself is drawn as a line from its right side to its left side, across
the state. -/
theorem C116_self_violated {S : List Str} {a m : Str} {l : Link} {o : Option (Nat → Fig)} (h : stateLink S (a, a, m) = some (l, o)) :
    l.start.1 = l.finish.1 ∧ l.startY = l.endY ∧ l.startX = l.endX + 1500000 := by
  unfold stateLink at h
  split at h
  · rename_i i j hi hj
    simp only at hi hj
    rw [hi] at hj
    cases hj
    simp only [Option.some.injEq, Prod.mk.injEq] at h
    obtain ⟨rfl, _⟩ := h
    exact ⟨rfl, rfl, rfl⟩
  · cases h

end PptRs.Props
