import Verif.Props.MermaidSections
import Verif.Props.MermaidEntities

/-!
# Mermaid: pie charts, git graphs, quadrant charts and mind maps (C118)
-/

namespace PptRs.Props

open PptRs PptRs.Mermaid

/-! ### Pie charts -/

theorem trimChar_quotes {s : Str} (h : '"' ∉ s) : trimChar '"' (c!"\"" ++ s ++ c!"\"") = s := by
  have k : ∀ t : Str, t.head? ≠ some '"' → trimStartChar '"' t = t := by
    intro t ht
    cases t with
    | nil => rfl
    | cons d t =>
      unfold trimStartChar
      exact if_neg (fun e => ht (by simp [e]))
  unfold trimChar
  have hr : (s ++ c!"\"").reverse = '"' :: s.reverse := by simp
  cases s with
  | nil => decide
  | cons d s =>
    have e1 : trimStartChar '"' (c!"\"" ++ (d :: s) ++ c!"\"") = (d :: s) ++ c!"\"" := by
      show trimStartChar '"' ('"' :: ((d :: s) ++ c!"\"")) = _
      rw [trimStartChar, if_pos rfl]
      exact k _ (by intro e; simp at e; simp [e] at h)
    rw [e1, hr, trimStartChar, if_pos rfl, k _ (by
      intro e
      have := List.mem_of_mem_head? e
      rw [List.mem_reverse] at this
      exact h this), List.reverse_reverse]

/-- A slice of a pie chart: its name and its value. -/
structure Slice where
  name : Str
  value : Str
deriving DecidableEq

theorem quoted_tight (s : Str) : Tight (c!"\"" ++ s ++ c!"\"") := by
  refine ⟨?_, ?_, by simp⟩
  · intro c hc; simp at hc; subst hc; rfl
  · intro c hc
    rw [List.getLast?_append] at hc
    simp at hc; subst hc; rfl

/-- How a slice is written. -/
def Slice.text (s : Slice) : Str := c!"\"" ++ s.name ++ c!"\"" ++ c!" : " ++ s.value

/-- A slice that can be written in a line: its name is without quotation marks and colons. -/
def Slice.Ok (s : Slice) : Prop := '\n' ∉ s.name ∧ '"' ∉ s.name ∧ ':' ∉ s.name ∧ LineText s.value

example : (⟨c!"Cats and dogs", c!"42.96"⟩ : Slice).Ok := ⟨by decide, by decide, by decide, by decide, by simp [Tight, isWs]⟩

theorem Slice.lineText {s : Slice} (h : s.Ok) : LineText s.text := by
  obtain ⟨h1, h2, h3, h4⟩ := h
  refine ⟨by simp only [Slice.text, List.mem_append, not_or]; exact ⟨⟨⟨⟨by decide, h1⟩, by decide⟩, by decide⟩, h4.1⟩, ?_⟩
  exact (quoted_tight s.name).append _ h4.2

theorem pie_slice {V : Type} {value : Str → Option V} {s : Slice} (h : s.Ok) :
    pieLine value s.text = (value s.value).map fun v => (s.name, v) := by
  obtain ⟨h1, h2, h3, h4⟩ := h
  unfold pieLine
  rw [if_neg (by simp [Slice.text, startsWith])]
  have e : splitOnce? c!":" s.text = some (c!"\"" ++ s.name ++ c!"\"" ++ c!" ", c!" " ++ s.value) := by
    have := splitOnce?_append_of_notMem (c := ':') (p := []) (a := c!"\"" ++ s.name ++ c!"\"" ++ c!" ") (b := c!" " ++ s.value)
      (by simp only [List.mem_append, not_or]; exact ⟨⟨⟨by decide, h3⟩, by decide⟩, by decide⟩)
    simpa [Slice.text] using this
  rw [e]
  have t1 : trim (c!"\"" ++ s.name ++ c!"\"" ++ c!" ") = c!"\"" ++ s.name ++ c!"\"" := by
    have := trim_pad (p := []) (s := c!"\"" ++ s.name ++ c!"\"") (q := c!" ") (by simp) (by decide) (quoted_tight _)
    simpa using this
  simp only [t1, trim_indent (p := c!" ") (by decide) h4.2, trimChar_quotes h2]

/-- **C118**, pie charts: the slices are read in their order with their names and values; `value` reads a number. -/
theorem C118_pie_read {V : Type} {value : Str → Option V} {header : Str} {title : Option Str} {l : List (Slice × V)} {ts : List (Str × Str)}
    (hh : '\n' ∉ header) (hi : ∀ p ∈ ts, ∀ c ∈ p.1, isWs c = true ∧ c ≠ '\n') (htitle : ∀ t ∈ title, LineText t)
    (hl : ∀ p ∈ l, p.1.Ok ∧ value p.1.value = some p.2)
    (ht : ts.map (·.2) = title.toList.map (c!"title " ++ ·) ++ l.map (·.1.text)) :
    pieParse value (diagramText header ts) = l.map fun p => (p.1.name, p.2) := by
  unfold pieParse
  rw [body_diagramText hh, ht]
  · rw [List.filterMap_append]
    have e1 : (title.toList.map (c!"title " ++ ·)).filterMap (pieLine value) = [] := by
      cases title with
      | none => rfl
      | some t =>
        show List.filterMap _ [c!"title " ++ t] = []
        refine List.filterMap_cons_none ?_
        unfold pieLine
        rw [if_pos]
        rw [startsWith_iff]
        exact ⟨c!" " ++ t, rfl⟩
    rw [e1, List.nil_append, List.filterMap_map]
    clear ht e1
    induction l with
    | nil => rfl
    | cons p l ih =>
      obtain ⟨h1, h2⟩ := hl p (by simp)
      rw [List.filterMap_cons_some (b := (p.1.name, p.2)) (by simp [pie_slice h1, h2]), List.map_cons, ih (fun q hq => hl q (by simp [hq]))]
  · intro p hp
    have hm : p.2 ∈ title.toList.map (c!"title " ++ ·) ++ l.map (·.1.text) := by rw [← ht]; exact List.mem_map_of_mem hp
    have : LineText p.2 := by
      rcases List.mem_append.mp hm with hm | hm
      · obtain ⟨t, h1, h2⟩ := List.mem_map.mp hm
        have hx := htitle t (by simpa using h1)
        rw [← h2]
        refine ⟨by rw [List.mem_append, not_or]; exact ⟨by decide, hx.1⟩, ?_⟩
        have := (show Tight c!"title" by simp [Tight, isWs]).append c!" " hx.2
        simpa using this
      · obtain ⟨q, h1, h2⟩ := List.mem_map.mp hm
        rw [← h2]
        exact Slice.lineText (hl q h1).1
    exact ⟨hi p hp, this.1, this.2⟩

/-- **C118**, pie charts (partial). The legend has, for every slice in its order, a square and next to it the name with the percentage; lines of
the legend do not overlap, and the squares of the first eight slices have different colours. What is missing: the pie itself. -/
theorem C118_pie_partial {V : Type} (percent : List V → V → Str) (l : List (Str × V)) (hl : l ≠ []) :
    (pieFigures percent l).length = 2 * l.length + 1 ∧
    (∀ i n v, l[i]? = some (n, v) → ∃ f g, (pieFigures percent l)[2 * i + 1]? = some f ∧ (pieFigures percent l)[2 * i + 2]? = some g ∧
      f.fill.isSome ∧ g.text = some (n ++ c!" (" ++ percent (l.map (·.2)) v ++ c!"%)") ∧ f.y = g.y ∧ f.height = g.height ∧ f.x + f.width ≤ g.x ∧
      ∀ j f', j ≠ i → (pieFigures percent l)[2 * j + 1]? = some f' →
        (f.y + f.height ≤ f'.y ∨ f'.y + f'.height ≤ f.y) ∧ (i < 8 → j < 8 → f.fill ≠ f'.fill)) := by
  have e : pieFigures percent l = { kind := c!"ellipse", x := 1000000, y := 1500000, width := 3000000, height := 3000000, fill := pieColors[0]? } ::
    (l.mapIdx fun i p => [
      { kind := c!"rect", x := 5000000, y := 2000000 + i * 350000, width := 200000, height := 200000, fill := pieColors[i % 8]? },
      { kind := c!"rect", x := 5300000, y := 2000000 + i * 350000, width := 2500000, height := 200000,
        text := some (p.1 ++ c!" (" ++ percent (l.map (·.2)) p.2 ++ c!"%)") : Fig }]).flatten := by
    unfold pieFigures
    exact if_neg (by simpa using hl)
  rw [e]
  generalize hf : (fun (i : Nat) (p : Str × V) => [
      { kind := c!"rect", x := 5000000, y := 2000000 + i * 350000, width := 200000, height := 200000, fill := pieColors[i % 8]? },
      { kind := c!"rect", x := 5300000, y := 2000000 + i * 350000, width := 2500000, height := 200000,
        text := some (p.1 ++ c!" (" ++ percent (l.map (·.2)) p.2 ++ c!"%)") : Fig }]) = f
  have h2 : ∀ i a, (f i a).length = 2 := by intro i a; rw [← hf]; rfl
  have at0 : ∀ (i : Nat), (({ kind := c!"ellipse", x := 1000000, y := 1500000, width := 3000000, height := 3000000, fill := pieColors[0]? } : Fig) ::
      (l.mapIdx f).flatten)[2 * i + 1]? = (l[i]?).bind fun a => (f i a)[0]? := by
    intro i
    rw [List.getElem?_cons_succ]
    exact flatten_block f h2 l i 0 (by decide)
  refine ⟨by rw [List.length_cons, flatten_length f h2], ?_⟩
  intro i n v hi
  refine ⟨{ kind := c!"rect", x := 5000000, y := 2000000 + i * 350000, width := 200000, height := 200000, fill := pieColors[i % 8]? },
    { kind := c!"rect", x := 5300000, y := 2000000 + i * 350000, width := 2500000, height := 200000,
        text := some (n ++ c!" (" ++ percent (l.map (·.2)) v ++ c!"%)") }, ?_, ?_, ?_, rfl, rfl, rfl, by dsimp only; omega, ?_⟩
  · rw [at0, hi, ← hf]; rfl
  · rw [List.getElem?_cons_succ, flatten_block f h2 l i 1 (by decide), hi, ← hf]; rfl
  · have : i % 8 < pieColors.length := Nat.mod_lt _ (by decide)
    rw [List.getElem?_eq_getElem this]; rfl
  · intro j f' hj hf'
    rw [at0, ← hf] at hf'
    cases hlj : l[j]? with
    | none => rw [hlj] at hf'; cases hf'
    | some a =>
      rw [hlj] at hf'
      have : ({ kind := c!"rect", x := 5000000, y := 2000000 + j * 350000, width := 200000, height := 200000, fill := pieColors[j % 8]? } : Fig) = f' :=
        Option.some.inj hf'
      rw [← this]
      refine ⟨?_, ?_⟩
      · dsimp only
        omega
      · intro h8 h8'
        dsimp only
        rw [Nat.mod_eq_of_lt h8, Nat.mod_eq_of_lt h8']
        have : ∀ a < 8, ∀ b < 8, b ≠ a → pieColors[a]? ≠ pieColors[b]? := by decide
        exact this i h8 j h8' hj

/-- **C118** fails for pie charts: the circle is not divided. Whatever the values are, the only round figure of the drawing is one circle in the
colour of the first slice. -/
theorem C118_pie_violated {V : Type} (percent : List V → V → Str) (l : List (Str × V)) (hl : l ≠ []) :
    (pieFigures percent l).filter (fun f => f.kind ≠ c!"rect") =
      [{ kind := c!"ellipse", x := 1000000, y := 1500000, width := 3000000, height := 3000000, fill := some c!"4472C4" }] := by
  unfold pieFigures
  rw [if_neg (by simpa using hl), List.filter_cons_of_pos (by decide)]
  have : ∀ (l : List (Str × V)) (f : Nat → Str × V → List Fig), (∀ i p, ∀ x ∈ f i p, x.kind = c!"rect") →
      ((l.mapIdx f).flatten).filter (fun f => f.kind ≠ c!"rect") = [] := by
    intro l f h
    rw [List.filter_eq_nil_iff]
    intro x hx
    obtain ⟨y, hy, hx⟩ := List.mem_flatten.mp hx
    obtain ⟨i, hi, rfl⟩ := List.mem_mapIdx.mp hy
    simp [h _ _ x hx]
  rw [this]
  · rfl
  · intro i p x hx
    simp only [List.mem_cons, List.not_mem_nil, or_false] at hx
    rcases hx with rfl | rfl <;> rfl

/-- **C118** fails for pie charts whose slices have names with a colon: the value is looked for after the first colon of the line, and the slice
is left out. Here `value` is any function that reads a number only from a text without quotation marks. -/
theorem C118_pie_colon_violated {V : Type} (value : Str → Option V) (hv : ∀ s, '"' ∈ s → value s = none) :
    pieParse value c!"pie\n\"Won 2:1\" : 40" = [] ∧ (∀ percent, pieFigures percent (pieParse value c!"pie\n\"Won 2:1\" : 40") = []) := by
  have e : pieParse value c!"pie\n\"Won 2:1\" : 40" = [] := by
    unfold pieParse
    have : body c!"pie\n\"Won 2:1\" : 40" = [c!"\"Won 2:1\" : 40"] := by decide +kernel
    rw [this]
    refine List.filterMap_cons_none ?_
    unfold pieLine
    rw [if_neg (by decide)]
    have : splitOnce? c!":" c!"\"Won 2:1\" : 40" = some (c!"\"Won 2", c!"1\" : 40") := by decide +kernel
    rw [this]
    have : trim c!"1\" : 40" = c!"1\" : 40" := by decide +kernel
    simp only [this, hv _ (show '"' ∈ c!"1\" : 40" by decide), Option.map_none]
  exact ⟨e, fun _ => by rw [e]; rfl⟩

/-- **C118** fails for titles of pie charts: the drawing is the same without the title. -/
theorem C118_pie_title_violated {V : Type} (value : Str → Option V) (percent : List V → V → Str) (title rest : Str) (h : LineText title) :
    pieFigures percent (pieParse value (c!"pie\ntitle " ++ title ++ c!"\n" ++ rest)) = pieFigures percent (pieParse value (c!"pie\n" ++ rest)) := by
  have e1 : splitChar '\n' (c!"pie\ntitle " ++ title ++ c!"\n" ++ rest) = c!"pie" :: (c!"title " ++ title) :: splitChar '\n' rest := by
    rw [show c!"pie\ntitle " ++ title ++ c!"\n" ++ rest = c!"pie" ++ '\n' :: ((c!"title " ++ title) ++ '\n' :: rest) by simp,
      splitChar_append_sep (by decide), splitChar_append_sep (by rw [List.mem_append, not_or]; exact ⟨by decide, h.1⟩)]
  have e2 : splitChar '\n' (c!"pie\n" ++ rest) = c!"pie" :: splitChar '\n' rest := by
    rw [show c!"pie\n" ++ rest = c!"pie" ++ '\n' :: rest by simp, splitChar_append_sep (by decide)]
  unfold pieParse body
  rw [e1, e2, List.tail_cons, List.tail_cons, List.map_cons, List.filterMap_cons_none]
  unfold pieLine
  refine if_pos ?_
  rw [startsWith_iff]
  have : Tight (c!"title " ++ title) := by
    have := (show Tight c!"title" by simp [Tight, isWs]).append c!" " h.2
    simpa using this
  rw [trim_tight this]
  exact ⟨c!" " ++ title, rfl⟩

/-! ### Git graphs -/

/-- A statement of a git graph. -/
inductive GitStmt where
  | commit (id : Option Str)
  | branch (name : Str)
  | checkout (name : Str)
  | merge (name : Str)
deriving DecidableEq

/-- How a statement is written. -/
def GitStmt.text : GitStmt → Str
  | .commit none => c!"commit"
  | .commit (some id) => c!"commit id: \"" ++ id ++ c!"\""
  | .branch n => c!"branch " ++ n
  | .checkout n => c!"checkout " ++ n
  | .merge n => c!"merge " ++ n

/-- A statement that can be written in a line. -/
def GitStmt.Ok : GitStmt → Prop
  | .commit none => True
  | .commit (some id) => '\n' ∉ id ∧ '"' ∉ id ∧ containsStr c!"id:" id = false
  | .branch n => LineText n
  | .checkout n => LineText n
  | .merge n => LineText n

/-- The commits with their branches, after `n` commits and with the given branch being the current one. A new branch is the current one; a merge is a
commit of the current branch. -/
def gitCommits : Nat → Str → List GitStmt → List (Str × Str)
  | _, _, [] => []
  | n, cur, .commit id :: l => (id.getD (c!"C" ++ dec n), cur) :: gitCommits (n + 1) cur l
  | n, cur, .merge b :: l => (c!"Merge " ++ b, cur) :: gitCommits (n + 1) cur l
  | n, _, .branch b :: l => gitCommits n b l
  | n, _, .checkout b :: l => gitCommits n b l

/-- The names of new branches. -/
def GitStmt.opened : GitStmt → List Str
  | .branch b => [b]
  | _ => []

/-- New branches are checked out explicitly. -/
def Settled : List GitStmt → Prop
  | [] => True
  | .branch b :: l => (∃ l', l = .checkout b :: l') ∧ Settled l
  | _ :: l => Settled l

theorem prefixed_line {w n : Str} (hw : Tight w) (hn : '\n' ∉ w) (h : LineText n) : LineText (w ++ c!" " ++ n) :=
  ⟨by simp only [List.mem_append, not_or]; exact ⟨⟨hn, by decide⟩, h.1⟩, hw.append _ h.2⟩

theorem GitStmt.lineText {s : GitStmt} (h : s.Ok) : LineText s.text := by
  have w : ∀ w : Str, w ≠ [] → (∀ c ∈ w, c.isAlphanum = true) → Tight w := by
    intro w hne hw
    have : Word w := ⟨hne, fun c hc => .inl (hw c hc)⟩
    exact this.tight
  cases s with
  | commit id =>
    cases id with
    | none => exact ⟨by decide, w _ (by decide) (by decide)⟩
    | some id =>
      refine ⟨by simp only [GitStmt.text, List.mem_append, not_or]; exact ⟨⟨by decide, h.1⟩, by decide⟩, ?_⟩
      have := (w c!"commit" (by decide) (by decide)).append c!" id: " (quoted_tight id)
      simpa [GitStmt.text] using this
  | branch n => exact prefixed_line (w c!"branch" (by decide) (by decide)) (by decide) h
  | checkout n => exact prefixed_line (w c!"checkout" (by decide) (by decide)) (by decide) h
  | merge n => exact prefixed_line (w c!"merge" (by decide) (by decide)) (by decide) h

theorem contains_inside {x y : Char} {p s : Str} (hp : p ≠ []) (hx : x ∉ p) (hy : y ∉ p) (h : containsStr p s = false) :
    containsStr p (x :: (s ++ [y])) = false := by
  rw [Bool.eq_false_iff, Ne, containsStr_iff_infix] at h ⊢
  rw [List.infix_cons_iff, List.infix_concat_iff]
  rintro (k | k | k)
  · cases p with
    | nil => exact hp rfl
    | cons c p =>
      obtain ⟨t, ht⟩ := k
      simp only [List.cons_append, List.cons.injEq] at ht
      exact hx (by simp [ht.1])
  · obtain ⟨t, ht⟩ := k
    have := congrArg List.getLast? ht
    rw [List.getLast?_append, List.getLast?_append, List.getLast?_eq_some_getLast hp] at this
    simp at this
    exact hy (by rw [← this]; exact List.getLast_mem hp)
  · exact h k

theorem git_commit {g : Git} {id : Option Str} (h : (GitStmt.commit id).Ok) :
    g.line (GitStmt.commit id).text = { g with commits := g.commits ++ [(id.getD (c!"C" ++ dec g.commits.length), g.current)] } := by
  cases id with
  | none =>
    unfold Git.line
    rw [if_neg (by decide), if_pos (by decide)]
    rfl
  | some id =>
    obtain ⟨h1, h2, h3⟩ := h
    unfold Git.line
    rw [if_neg (by simp [GitStmt.text]), if_pos (by simp [GitStmt.text, startsWith])]
    have e1 : splitOnce? c!"id:" (GitStmt.commit (some id)).text = some (c!"commit ", c!" " ++ (c!"\"" ++ id ++ c!"\"")) := by
      have e : (GitStmt.commit (some id)).text = c!"comm" ++ 'i' :: (c!"t " ++ (c!"id:" ++ (c!" " ++ (c!"\"" ++ id ++ c!"\"")))) := by
        simp [GitStmt.text]
      rw [e, split_skip (c := 'i') (p := c!"d:") (by decide) (by simp), split_hit (c := 'i') (p := c!"d:") (by decide)]
      rfl
    have e2 : splitOnce? c!"id:" (c!" " ++ (c!"\"" ++ id ++ c!"\"")) = none := by
      have := contains_inside (x := '"') (y := '"') (p := c!"id:") (by decide) (by decide) (by decide) h3
      have := contains_inside (x := ' ') (y := '"') (p := c!"id:") (s := c!"\"" ++ id) (by decide) (by decide) (by decide) (by
        cases e : containsStr c!"id:" (c!"\"" ++ id) with
        | false => rfl
        | true =>
          obtain ⟨a, b, hab⟩ := containsStr_iff.mp e
          rw [← this, containsStr_iff.mpr ⟨a, b ++ c!"\"", by show (c!"\"" ++ id) ++ c!"\"" = _; rw [hab]; simp⟩])
      have e := this
      unfold containsStr at e
      rw [Option.isSome_eq_false_iff, Option.isNone_iff_eq_none] at e
      simpa using e
    unfold commitName
    rw [e1]
    simp only [e2, trim_indent (p := c!" ") (by decide) (quoted_tight id), trimChar_quotes h2, Option.getD_some]

theorem git_branch {g : Git} {n : Str} (h : LineText n) :
    g.line (c!"branch " ++ n) = if n ∈ g.branches then g else { g with branches := g.branches ++ [n] } := by
  unfold Git.line
  have e1 : stripPrefix? c!"branch" (c!"branch " ++ n) = some (c!" " ++ n) := by rw [stripPrefix?_eq_some]; simp
  rw [if_neg (by simp), if_neg (by simp [startsWith]), e1]
  simp only [trim_indent (p := c!" ") (by decide) h.2]
  by_cases hn : n ∈ g.branches
  · rw [if_pos (.inr hn), if_pos hn]
  · rw [if_neg (by rw [not_or]; exact ⟨h.2.2.2, hn⟩), if_neg hn]

theorem git_checkout {g : Git} {n : Str} (h : LineText n) : g.line (c!"checkout " ++ n) = { g with current := n } := by
  unfold Git.line
  have e1 : stripPrefix? c!"branch" (c!"checkout " ++ n) = none := by simp [stripPrefix?]
  have e2 : stripPrefix? c!"checkout" (c!"checkout " ++ n) = some (c!" " ++ n) := by rw [stripPrefix?_eq_some]; simp
  rw [if_neg (by simp), if_neg (by simp [startsWith]), e1, e2]
  simp only [trim_indent (p := c!" ") (by decide) h.2]
  exact if_neg h.2.2.2

theorem git_merge {g : Git} {n : Str} (h : LineText n) :
    g.line (c!"merge " ++ n) = { g with commits := g.commits ++ [(c!"Merge " ++ n, g.current)] } := by
  unfold Git.line
  have e1 : stripPrefix? c!"branch" (c!"merge " ++ n) = none := by simp [stripPrefix?]
  have e2 : stripPrefix? c!"checkout" (c!"merge " ++ n) = none := by simp [stripPrefix?]
  have e3 : stripPrefix? c!"merge" (c!"merge " ++ n) = some (c!" " ++ n) := by rw [stripPrefix?_eq_some]; simp
  rw [if_neg (by simp), if_neg (by simp [startsWith]), e1, e2, e3]
  simp only [trim_indent (p := c!" ") (by decide) h.2]

theorem git_fold {l : List GitStmt} (h : ∀ s ∈ l, s.Ok) (hs : Settled l) (g : Git) (N : List Str) (hN : g.branches = firsts N) :
    ((l.map GitStmt.text).foldl Git.line g).commits = g.commits ++ gitCommits g.commits.length g.current l ∧
    ((l.map GitStmt.text).foldl Git.line g).branches = firsts (N ++ l.flatMap GitStmt.opened) := by
  induction l generalizing g N with
  | nil => simp [gitCommits, hN]
  | cons s l ih =>
    have hl := fun x hx => h x (List.mem_cons_of_mem _ hx)
    rw [List.map_cons, List.foldl_cons]
    cases s with
    | commit id =>
      rw [git_commit (h _ (by simp))]
      obtain ⟨i1, i2⟩ := ih hl hs { g with commits := g.commits ++ [(id.getD (c!"C" ++ dec g.commits.length), g.current)] } N hN
      rw [i1, i2]
      simp [gitCommits, GitStmt.opened]
    | merge b =>
      have := git_merge (g := g) (show LineText b from h (.merge b) (by simp))
      rw [show (GitStmt.merge b).text = c!"merge " ++ b from rfl, this]
      obtain ⟨i1, i2⟩ := ih hl hs { g with commits := g.commits ++ [(c!"Merge " ++ b, g.current)] } N hN
      rw [i1, i2]
      simp [gitCommits, GitStmt.opened]
    | checkout b =>
      have := git_checkout (g := g) (show LineText b from h (.checkout b) (by simp))
      rw [show (GitStmt.checkout b).text = c!"checkout " ++ b from rfl, this]
      obtain ⟨i1, i2⟩ := ih hl hs { g with current := b } N hN
      rw [i1, i2]
      simp [gitCommits, GitStmt.opened]
    | branch b =>
      have := git_branch (g := g) (show LineText b from h (.branch b) (by simp))
      rw [show (GitStmt.branch b).text = c!"branch " ++ b from rfl, this]
      obtain ⟨⟨l', hl'⟩, hs⟩ := hs
      have hm : ∀ n cur, gitCommits n cur l = gitCommits n b l := by intro n cur; rw [hl']; rfl
      have hb : b ∈ g.branches ↔ b ∈ N := by rw [hN, mem_firsts]
      have hf := firsts_snoc N b
      by_cases hn : b ∈ g.branches
      · rw [if_pos hn]
        rw [if_pos (hb.mp hn)] at hf
        obtain ⟨i1, i2⟩ := ih hl hs g (N ++ [b]) (by rw [hf, hN])
        rw [i1, i2, hm]
        simp [gitCommits, GitStmt.opened]
      · rw [if_neg hn]
        rw [if_neg (fun e => hn (hb.mpr e))] at hf
        obtain ⟨i1, i2⟩ := ih hl hs { g with branches := g.branches ++ [b] } (N ++ [b]) (by rw [hf, ← hN])
        rw [i1, i2, hm]
        simp [gitCommits, GitStmt.opened]

/-- **C118**, git graphs: if every new branch is checked out explicitly, the commits are read in their order with their branches, and the branches
in the order in which they are opened, `main` being the first. -/
theorem C118_git_read {header : Str} {l : List GitStmt} {ts : List (Str × Str)} (hh : '\n' ∉ header)
    (hi : ∀ p ∈ ts, ∀ c ∈ p.1, isWs c = true ∧ c ≠ '\n') (hl : ∀ s ∈ l, s.Ok) (hs : Settled l) (ht : ts.map (·.2) = l.map GitStmt.text) :
    (Git.parse (diagramText header ts)).commits = gitCommits 0 c!"main" l ∧
    (Git.parse (diagramText header ts)).branches = firsts (c!"main" :: l.flatMap GitStmt.opened) := by
  unfold Git.parse
  rw [body_diagramText hh, ht]
  · have := git_fold hl hs {} [c!"main"] rfl
    simpa using this
  · intro p hp
    have hm : p.2 ∈ l.map GitStmt.text := by rw [← ht]; exact List.mem_map_of_mem hp
    obtain ⟨s, h1, h2⟩ := List.mem_map.mp hm
    rw [← h2]
    exact ⟨hi p hp, (GitStmt.lineText (hl s h1)).1, (GitStmt.lineText (hl s h1)).2⟩

/-- The point in the middle of a figure. -/
def figMid (f : Fig) : Nat × Nat := (f.x + f.width / 2, f.y + f.height / 2)

theorem git_commit_branch {l : List GitStmt} {n : Nat} {cur : Str} {B : List Str} (hc : cur ∈ B) (ho : ∀ b, .branch b ∈ l → b ∈ B)
    (hk : ∀ b, .checkout b ∈ l → b ∈ B) : ∀ c ∈ gitCommits n cur l, c.2 ∈ B := by
  induction l generalizing n cur with
  | nil => intro c h; cases h
  | cons s l ih =>
    have ho' := fun b hb => ho b (List.mem_cons_of_mem _ hb)
    have hk' := fun b hb => hk b (List.mem_cons_of_mem _ hb)
    intro c h
    cases s with
    | commit id =>
      rcases List.mem_cons.mp h with rfl | h
      · exact hc
      · exact ih hc ho' hk' c h
    | merge b =>
      rcases List.mem_cons.mp h with rfl | h
      · exact hc
      · exact ih hc ho' hk' c h
    | branch b => exact ih (ho b (by simp)) ho' hk' c h
    | checkout b => exact ih (hk b (by simp)) ho' hk' c h

theorem git_branch_at (g : Git) {i : Nat} {b : Str} (h : g.branches[i]? = some b) (r : Nat) (hr : r < 2) :
    g.figures[2 * i + r]? = (gitBranch g.commits.length i b)[r]? := by
  have hi := (List.getElem?_eq_some_iff.mp h).1
  have hl := flatten_length (n := 2) (gitBranch g.commits.length) (fun _ _ => rfl) g.branches
  unfold Git.figures
  rw [List.append_assoc, List.getElem?_append_left (by rw [hl]; omega), flatten_block (n := 2) (gitBranch g.commits.length) (fun _ _ => rfl) _ _ _ hr, h]
  rfl

theorem git_commit_at (g : Git) {k : Nat} {c : Str × Str} (h : g.commits[k]? = some c) (r : Nat) (hr : r < 2) :
    g.figures[2 * g.branches.length + (2 * k + r)]? = (gitCommit g k c)[r]? := by
  have hk := (List.getElem?_eq_some_iff.mp h).1
  have hl := flatten_length (n := 2) (gitBranch g.commits.length) (fun _ _ => rfl) g.branches
  have hl' := flatten_length (n := 2) (gitCommit g) (fun _ _ => rfl) g.commits
  unfold Git.figures
  rw [List.append_assoc, List.getElem?_append_right (by rw [hl]; omega), hl, Nat.add_sub_cancel_left, List.getElem?_append_left (by rw [hl']; omega),
    flatten_block (n := 2) (gitCommit g) (fun _ _ => rfl) _ _ _ hr, h]
  rfl

/-- The name of a branch. -/
def branchName (i : Nat) (b : Str) : Fig :=
  { kind := c!"roundRect", x := 200000, y := 2000000 + i * 600000 - 100000, width := 700000, height := 200000, fill := gitColors[i % 5]?, text := some b }

/-- The line of a branch. -/
def branchLine (n i : Nat) : Fig :=
  { kind := c!"rect", x := 1000000, y := 2000000 + i * 600000 - 25000, width := max n 1 * 800000 + 200000, height := 50000, fill := gitColors[i % 5]? }

/-- The dot of a commit. -/
def commitDot (k row : Nat) : Fig :=
  { kind := c!"ellipse", x := 1000000 + k * 800000, y := 2000000 + row * 600000 - 150000, width := 300000, height := 300000, fill := some c!"FFFFFF" }

/-- The label of a commit. -/
def commitLabel (k row : Nat) (n : Str) : Fig :=
  { kind := c!"rect", x := 1000000 + k * 800000 + 150000 - 400000, y := 2000000 + row * 600000 - 150000 - 250000, width := 800000, height := 200000, text := some n }

theorem gitBranch_eq (n i : Nat) (b : Str) : gitBranch n i b = [branchName i b, branchLine n i] := rfl

theorem gitCommit_eq (g : Git) (k : Nat) (c : Str × Str) : gitCommit g k c = [commitDot k (g.row c.2), commitLabel k (g.row c.2) c.1] := rfl

theorem git_row {g : Git} {i : Nat} {b : Str} (hn : g.branches.Nodup) (h : g.branches[i]? = some b) : g.row b = i := by
  obtain ⟨j, h1, h2⟩ := findIdx_mem (List.mem_of_getElem? h)
  unfold Git.row
  rw [h1, Option.getD_some]
  have hi := (List.getElem?_eq_some_iff.mp h).1
  exact ((List.getElem?_inj hi hn).mp (h.trans h2.symm)).symm

theorem git_layout (g : Git) {B : List Str} {C : List (Str × Str)} {F : List Fig} (hC : g.commits = C) (hB : g.branches = B) (hF : g.figures = F)
    (hnB : B.Nodup) (hne : C ≠ []) (hknown : ∀ c ∈ C, c.2 ∈ B) :
    F.length = 2 * B.length + 2 * C.length ∧
    (∀ i b, B[i]? = some b → ∃ name line, F[2 * i]? = some name ∧ F[2 * i + 1]? = some line ∧ name.text = some b ∧ name.fill = line.fill ∧
      name.fill.isSome ∧ (figMid name).2 = (figMid line).2 ∧ name.x + name.width ≤ line.x ∧
      ∀ i' f, i < i' → i' < B.length → F[2 * i']? = some f → name.y + name.height ≤ f.y) ∧
    (∀ k n b, C[k]? = some (n, b) → ∃ i line dot label, B[i]? = some b ∧ F[2 * i + 1]? = some line ∧
      F[2 * B.length + 2 * k]? = some dot ∧ F[2 * B.length + 2 * k + 1]? = some label ∧
      dot.kind = c!"ellipse" ∧ (figMid dot).2 = (figMid line).2 ∧ line.x ≤ dot.x ∧ dot.x + dot.width ≤ line.x + line.width ∧
      label.text = some n ∧ label.y + label.height ≤ dot.y ∧ (figMid label).1 = (figMid dot).1 ∧
      ∀ k' f, k < k' → F[2 * B.length + 2 * k' + 1]? = some f → label.x + label.width ≤ f.x) := by
  subst hF
  have hn : g.branches.Nodup := by rw [hB]; exact hnB
  have hBl : g.branches.length = B.length := by rw [hB]
  have hlen : g.figures.length = 2 * B.length + 2 * C.length := by
    have hl := flatten_length (n := 2) (gitBranch g.commits.length) (fun _ _ => rfl) g.branches
    have hl' := flatten_length (n := 2) (gitCommit g) (fun _ _ => rfl) g.commits
    unfold Git.figures
    rw [List.length_append, List.length_append, hl, hl', hB, hC, if_neg hne]
    rfl
  have b0 : ∀ i b, g.branches[i]? = some b → g.figures[2 * i]? = some (branchName i b) := by
    intro i b h
    have := git_branch_at g h 0 (by decide)
    rwa [gitBranch_eq] at this
  have b1 : ∀ i b, g.branches[i]? = some b → g.figures[2 * i + 1]? = some (branchLine g.commits.length i) := by
    intro i b h
    have := git_branch_at g h 1 (by decide)
    rwa [gitBranch_eq] at this
  have c0 : ∀ k n b, g.commits[k]? = some (n, b) → g.figures[2 * B.length + 2 * k]? = some (commitDot k (g.row b)) := by
    intro k n b h
    have := git_commit_at g h 0 (by decide)
    rw [gitCommit_eq, hBl] at this
    exact this
  have c1 : ∀ k n b, g.commits[k]? = some (n, b) → g.figures[2 * B.length + 2 * k + 1]? = some (commitLabel k (g.row b) n) := by
    intro k n b h
    have := git_commit_at g h 1 (by decide)
    rw [gitCommit_eq, hBl] at this
    exact this
  refine ⟨hlen, ?_, ?_⟩
  · intro i b hb
    rw [← hB] at hb
    refine ⟨_, _, b0 i b hb, b1 i b hb, rfl, rfl, ?_, ?_, by simp only [branchName, branchLine]; omega, ?_⟩
    · have : i % 5 < gitColors.length := Nat.mod_lt _ (by decide)
      simp only [branchName]
      rw [List.getElem?_eq_getElem this]; rfl
    · simp only [figMid, branchName, branchLine]
      omega
    · intro i' f hii hi' hf
      have hb' : g.branches[i']? = some g.branches[i'] := List.getElem?_eq_getElem (by omega)
      rw [b0 _ _ hb', Option.some.injEq] at hf
      rw [← hf]
      simp only [branchName]
      omega
  · intro k n b hk
    have hbB : b ∈ B := hknown _ (List.mem_of_getElem? hk)
    obtain ⟨i, hib⟩ := List.getElem?_of_mem hbB
    have hib0 := hib
    rw [← hB] at hib
    rw [← hC] at hk
    have hkl := (List.getElem?_eq_some_iff.mp hk).1
    have hrow := git_row hn hib
    refine ⟨i, _, _, _, hib0, b1 i b hib, c0 k n b hk, c1 k n b hk, rfl, ?_, ?_, ?_, rfl, ?_, ?_, ?_⟩
    · simp only [figMid, branchLine, commitDot, hrow]
      omega
    · simp only [branchLine, commitDot]
      omega
    · simp only [branchLine, commitDot]
      have : (k + 1) ≤ max g.commits.length 1 := by omega
      have := Nat.mul_le_mul_right 800000 this
      omega
    · simp only [commitLabel, commitDot]
      omega
    · simp only [figMid, commitLabel, commitDot]
      omega
    · intro k' f hkk hf
      have hk' : k' < g.commits.length := by
        have := (List.getElem?_eq_some_iff.mp hf).1
        rw [hlen] at this
        rw [hC]
        omega
      rw [c1 k' (g.commits[k']).1 (g.commits[k']).2 (List.getElem?_eq_getElem hk'), Option.some.injEq] at hf
      rw [← hf]
      simp only [commitLabel]
      omega

/-- **C118**, git graphs (partial). If every new branch is checked out explicitly and only branches that were opened are checked out: every branch has a row
with its name and a line, and no two rows overlap; every commit has a dot that lies on the line of its branch and its name above the dot, the commits
being placed from left to right without overlapping. What is missing: branches that are not checked out explicitly, tags and lines for merges. -/
theorem C118_git_partial {header : Str} {l : List GitStmt} {ts : List (Str × Str)} (hh : '\n' ∉ header)
    (hi : ∀ p ∈ ts, ∀ c ∈ p.1, isWs c = true ∧ c ≠ '\n') (hl : ∀ s ∈ l, s.Ok) (hs : Settled l) (ht : ts.map (·.2) = l.map GitStmt.text)
    (hknown : ∀ b, .checkout b ∈ l → b = c!"main" ∨ .branch b ∈ l) (hne : gitCommits 0 c!"main" l ≠ []) :
    let B := firsts (c!"main" :: l.flatMap GitStmt.opened)
    let C := gitCommits 0 c!"main" l
    let F := (Git.parse (diagramText header ts)).figures
    F.length = 2 * B.length + 2 * C.length ∧
    (∀ i b, B[i]? = some b → ∃ name line, F[2 * i]? = some name ∧ F[2 * i + 1]? = some line ∧ name.text = some b ∧ name.fill = line.fill ∧
      name.fill.isSome ∧ (figMid name).2 = (figMid line).2 ∧ name.x + name.width ≤ line.x ∧
      ∀ i' f, i < i' → i' < B.length → F[2 * i']? = some f → name.y + name.height ≤ f.y) ∧
    (∀ k n b, C[k]? = some (n, b) → ∃ i line dot label, B[i]? = some b ∧ F[2 * i + 1]? = some line ∧
      F[2 * B.length + 2 * k]? = some dot ∧ F[2 * B.length + 2 * k + 1]? = some label ∧
      dot.kind = c!"ellipse" ∧ (figMid dot).2 = (figMid line).2 ∧ line.x ≤ dot.x ∧ dot.x + dot.width ≤ line.x + line.width ∧
      label.text = some n ∧ label.y + label.height ≤ dot.y ∧ (figMid label).1 = (figMid dot).1 ∧
      ∀ k' f, k < k' → F[2 * B.length + 2 * k' + 1]? = some f → label.x + label.width ≤ f.x) := by
  obtain ⟨hC, hB⟩ := C118_git_read hh hi hl hs ht
  refine git_layout _ hC hB rfl (firsts_nodup _) hne ?_
  refine git_commit_branch (by rw [mem_firsts]; simp) ?_ ?_
  · intro b hb
    rw [mem_firsts, List.mem_cons]
    exact .inr (List.mem_flatMap.mpr ⟨_, hb, by simp [GitStmt.opened]⟩)
  · intro b hb
    rw [mem_firsts, List.mem_cons]
    rcases hknown b hb with h | h
    · exact .inl h
    · exact .inr (List.mem_flatMap.mpr ⟨_, h, by simp [GitStmt.opened]⟩)

example : Settled [.commit none, .branch c!"develop", .checkout c!"develop", .commit (some c!"A"), .checkout c!"main", .merge c!"develop"] :=
  ⟨⟨_, rfl⟩, trivial⟩

/-- **C118** fails for new branches: in Mermaid a new branch is the current one, but here its commits are drawn on the branch before. -/
theorem C118_git_branch_violated : (Git.parse c!"gitGraph\ncommit\nbranch develop\ncommit").commits = [(c!"C0", c!"main"), (c!"C1", c!"main")] ∧
    gitCommits 0 c!"main" [.commit none, .branch c!"develop", .commit none] = [(c!"C0", c!"main"), (c!"C1", c!"develop")] := by
  decide +kernel

/-- **C118** fails for commits with a tag or a kind: they are part of the name. -/
theorem C118_git_tag_violated : (Git.parse c!"gitGraph\ncommit id: \"A\" tag: \"v1\"").commits = [(c!"A\" tag: \"v1", c!"main")] := by
  decide +kernel

/-- **C118** fails for merges: nothing in the drawing shows that branches come together. It is the drawing of a commit with a certain name. -/
theorem C118_git_merge_violated (g : Git) (n : Str) (h : LineText n) (h1 : '"' ∉ n) (h2 : containsStr c!"id:" n = false) :
    (g.line (c!"merge " ++ n)).figures = (g.line (c!"commit id: \"Merge " ++ n ++ c!"\"")).figures := by
  rw [git_merge h]
  have : (GitStmt.commit (some (c!"Merge " ++ n))).Ok := by
    refine ⟨by rw [List.mem_append, not_or]; exact ⟨by decide, h.1⟩, by rw [List.mem_append, not_or]; exact ⟨by decide, h1⟩, ?_⟩
    rw [Bool.eq_false_iff, Ne, containsStr_iff_infix] at h2 ⊢
    intro k
    simp only [List.cons_append, List.nil_append, List.infix_cons_iff] at k
    simp [h2] at k
  have := git_commit (g := g) this
  rw [show c!"commit id: \"Merge " ++ n ++ c!"\"" = (GitStmt.commit (some (c!"Merge " ++ n))).text by simp [GitStmt.text], this]
  rfl

/-- **C118** fails for `switch`, which is another word for `checkout`: the line is left out, and the commits after it are drawn on the branch before. -/
theorem C118_git_switch_violated (g : Git) (n : Str) : g.line (c!"switch " ++ n) = g := by
  unfold Git.line
  rw [if_neg (by simp), if_neg (by simp [startsWith])]
  simp [stripPrefix?]

/-! ### Quadrant charts -/

/-- The words with which other lines begin. -/
def quadrantWords : List Str := [c!"title", c!"x-axis", c!"y-axis", c!"quadrant-"]

/-- A point of a quadrant chart. -/
structure Spot where
  label : Str
  x : Str
  y : Str
deriving DecidableEq

/-- How a point is written. -/
def Spot.text (p : Spot) : Str := p.label ++ c!":[" ++ p.x ++ c!", " ++ p.y ++ c!"]"

/-- A point that can be written in a line. -/
structure Spot.Ok (p : Spot) : Prop where
  label : LineText p.label
  noBracket : '[' ∉ p.label
  noColon : p.label.getLast? ≠ some ':'
  words : NoneOf quadrantWords p.text
  x : LineText p.x ∧ ',' ∉ p.x ∧ ']' ∉ p.x
  y : LineText p.y ∧ ',' ∉ p.y ∧ ']' ∉ p.y

/-- A line of a quadrant chart. -/
inductive QuadrantStmt where
  | spot (p : Spot)
  | other (s : Str)

/-- How a line is written. -/
def QuadrantStmt.text : QuadrantStmt → Str
  | .spot p => p.text
  | .other s => s

/-- A well-formed line. -/
def QuadrantStmt.Ok : QuadrantStmt → Prop
  | .spot p => p.Ok
  | .other s => LineText s ∧ ∃ w ∈ quadrantWords, w <+: s

/-- The points among the lines. -/
def QuadrantStmt.spot? : QuadrantStmt → Option (Str × Str × Str)
  | .spot p => some (p.label, p.x, p.y)
  | .other _ => none

theorem Spot.lineText {p : Spot} (h : p.Ok) : LineText p.text := by
  refine ⟨?_, ?_⟩
  · simp only [Spot.text, List.mem_append, not_or]
    exact ⟨⟨⟨⟨⟨h.label.1, by decide⟩, h.x.1.1⟩, by decide⟩, h.y.1.1⟩, by decide⟩
  · have := h.label.2.append (c!":[" ++ p.x ++ c!", " ++ p.y) (b := c!"]") (by simp [Tight, isWs])
    simpa [Spot.text] using this

theorem quadrant_spot {p : Spot} (h : p.Ok) : quadrantLine p.text = some (p.label, p.x, p.y) := by
  have hne := (Spot.lineText h).2.2.2
  unfold quadrantLine
  have hw : ∀ w ∈ quadrantWords, startsWith w p.text = false := fun w hw => (h.words.strip hw).2
  rw [if_neg (by
    simp only [hne, hw c!"title" (by decide), hw c!"x-axis" (by decide), hw c!"y-axis" (by decide), hw c!"quadrant-" (by decide)]
    decide)]
  unfold quadrantPoint
  have e1 : splitOnce? c!"[" p.text = some (p.label ++ c!":", p.x ++ c!", " ++ p.y ++ c!"]") := by
    have := splitOnce?_append_of_notMem (c := '[') (p := []) (a := p.label ++ c!":") (b := p.x ++ c!", " ++ p.y ++ c!"]")
      (by rw [List.mem_append, not_or]; exact ⟨h.noBracket, by decide⟩)
    simpa [Spot.text] using this
  have e2 : splitOnce? c!"]" (p.x ++ c!", " ++ p.y ++ c!"]") = some (p.x ++ c!", " ++ p.y, []) := by
    have := splitOnce?_append_of_notMem (c := ']') (p := []) (a := p.x ++ c!", " ++ p.y) (b := [])
      (by simp only [List.mem_append, not_or]; exact ⟨⟨h.x.2.2, by decide⟩, h.y.2.2⟩)
    simpa using this
  have e3 : splitChar ',' (p.x ++ c!", " ++ p.y) = [p.x, c!" " ++ p.y] := by
    rw [show p.x ++ c!", " ++ p.y = p.x ++ ',' :: (c!" " ++ p.y) by simp, splitChar_append_sep h.x.2.1,
      splitChar_of_notMem (by rw [List.mem_append, not_or]; exact ⟨by decide, h.y.2.1⟩)]
  have e4 : (trimStartChar ':' (p.label ++ c!":").reverse).reverse = p.label := by
    rw [List.reverse_append]
    show (trimStartChar ':' (':' :: p.label.reverse)).reverse = _
    rw [trimStartChar, if_pos rfl]
    cases e : p.label.reverse with
    | nil => rw [List.reverse_eq_nil_iff] at e; exact absurd e h.label.2.2.2
    | cons c r =>
      have hc : c ≠ ':' := by
        intro hc
        apply h.noColon
        rw [← List.head?_reverse, e, hc]; rfl
      rw [trimStartChar, if_neg hc, ← e, List.reverse_reverse]
  rw [e1]
  dsimp only
  rw [e2]
  dsimp only
  rw [e3]
  dsimp only
  rw [e4, trim_tight h.label.2, trim_tight h.x.1.2, trim_indent (p := c!" ") (by decide) h.y.1.2]

theorem quadrant_other {s w : Str} (hw : w ∈ quadrantWords) (h : w <+: s) : quadrantLine s = none := by
  obtain ⟨r, rfl⟩ := h
  have hs : startsWith w (w ++ r) = true := by rw [startsWith_iff]; exact ⟨r, rfl⟩
  unfold quadrantLine
  refine if_pos ?_
  simp only [quadrantWords, List.mem_cons, List.not_mem_nil, or_false] at hw
  rcases hw with rfl | rfl | rfl | rfl
  · exact .inr (.inl hs)
  · exact .inr (.inr (.inl hs))
  · exact .inr (.inr (.inr (.inl hs)))
  · exact .inr (.inr (.inr (.inr hs)))

/-- **C118**, quadrant charts: the points are read in their order, with labels and coordinates. -/
theorem C118_quadrant_read {header : Str} {l : List QuadrantStmt} {ts : List (Str × Str)} (hh : '\n' ∉ header)
    (hi : ∀ p ∈ ts, ∀ c ∈ p.1, isWs c = true ∧ c ≠ '\n') (hl : ∀ s ∈ l, s.Ok) (ht : ts.map (·.2) = l.map QuadrantStmt.text) :
    quadrantParse (diagramText header ts) = l.filterMap QuadrantStmt.spot? := by
  unfold quadrantParse
  rw [body_diagramText hh, ht]
  · rw [List.filterMap_map]
    apply List.filterMap_congr
    intro s hs
    cases s with
    | spot p => exact quadrant_spot (hl _ hs)
    | other s =>
      obtain ⟨_, w, h1, h2⟩ := hl _ hs
      exact quadrant_other h1 h2
  · intro p hp
    have hm : p.2 ∈ l.map QuadrantStmt.text := by rw [← ht]; exact List.mem_map_of_mem hp
    obtain ⟨s, h1, h2⟩ := List.mem_map.mp hm
    rw [← h2]
    have : LineText s.text := by
      cases s with
      | spot p => exact Spot.lineText (hl _ h1)
      | other s => exact (hl _ h1).1
    exact ⟨hi p hp, this.1, this.2⟩

/-- The dot of a point. -/
def spotDot (x y : Nat) : Fig :=
  { kind := c!"ellipse", x := 1000000 + (x - 150000), y := 1800000 + (y - 150000), width := 300000, height := 300000, fill := some c!"1565C0" }

/-- The label of a point. -/
def spotLabel (x y : Nat) (n : Str) : Fig :=
  { kind := c!"rect", x := 1000000 + (x - 150000) + 350000, y := 1800000 + (y - 150000) + 150000 - 100000, width := 800000, height := 200000, text := some n }

theorem quadrantDot_eq (sx sy : Str → Nat) (p : Str × Str × Str) :
    quadrantDot sx sy p = [spotDot (sx p.2.1) (sy p.2.2), spotLabel (sx p.2.1) (sy p.2.2) p.1] := rfl

theorem mapIdx_plain {α β : Type} (f : α → β) (l : List α) : (l.mapIdx fun _ a => f a) = l.map f := by
  induction l with
  | nil => rfl
  | cons a l ih => rw [List.mapIdx_cons, ih, List.map_cons]

theorem quadrant_at (sx sy : Str → Nat) (l : List (Str × Str × Str)) {i : Nat} {p : Str × Str × Str} (h : l[i]? = some p) :
    (quadrantFigures sx sy l)[4 + 2 * i]? = some (spotDot (sx p.2.1) (sy p.2.2)) ∧
    (quadrantFigures sx sy l)[4 + 2 * i + 1]? = some (spotLabel (sx p.2.1) (sy p.2.2) p.1) := by
  have hi := (List.getElem?_eq_some_iff.mp h).1
  have hl := flatten_length (n := 2) (fun _ p => quadrantDot sx sy p) (fun _ _ => rfl) l
  have hb := fun r hr => flatten_block (n := 2) (fun _ p => quadrantDot sx sy p) (fun _ _ => rfl) l i r hr
  rw [mapIdx_plain, ← List.flatMap_def] at hl
  simp only [mapIdx_plain, ← List.flatMap_def, h, Option.bind_some, quadrantDot_eq sx sy p] at hb
  have key : ∀ r, r < 2 → (quadrantFigures sx sy l)[4 + (2 * i + r)]? = (l.flatMap (quadrantDot sx sy))[2 * i + r]? := by
    intro r hr
    unfold quadrantFigures
    rw [List.append_assoc, List.getElem?_append_right (by simp), List.getElem?_append_left (by rw [hl]; simp; omega)]
    simp
  exact ⟨(key 0 (by decide)).trans (hb 0 (by decide)), (key 1 (by decide)).trans (hb 1 (by decide))⟩

/-- **C118**, quadrant charts (partial). The drawing has the four quadrants, which cover the chart without overlapping, and for every point in its order a
dot and to the right of it its label. The middle of the dot is where the coordinates say, if it is not nearer to the left or upper edge than
the size of half a dot; `sx` and `sy` are the distances from the left and the upper edge. What is missing: points at the edges, names of quadrants and axes,
titles and labels with a blank after the colon. -/
theorem C118_quadrant_partial (sx sy : Str → Nat) (l : List (Str × Str × Str)) (hne : l ≠ []) :
    (quadrantFigures sx sy l).length = 4 + 2 * l.length ∧
    ((quadrantFigures sx sy l).take 4).map (fun f => (f.x, f.y)) = [(4000000, 1800000), (1000000, 1800000), (1000000, 3800000), (4000000, 3800000)] ∧
    (∀ f ∈ (quadrantFigures sx sy l).take 4, f.width = 3000000 ∧ f.height = 2000000) ∧
    ∀ i n x y, l[i]? = some (n, x, y) → ∃ dot label, (quadrantFigures sx sy l)[4 + 2 * i]? = some dot ∧
      (quadrantFigures sx sy l)[4 + 2 * i + 1]? = some label ∧ dot.kind = c!"ellipse" ∧ label.text = some n ∧
      dot.x + dot.width ≤ label.x ∧ (figMid dot).2 = (figMid label).2 ∧
      (150000 ≤ sx x → (figMid dot).1 = 1000000 + sx x) ∧ (150000 ≤ sy y → (figMid dot).2 = 1800000 + sy y) := by
  have hl := flatten_length (n := 2) (fun _ p => quadrantDot sx sy p) (fun _ _ => rfl) l
  rw [mapIdx_plain, ← List.flatMap_def] at hl
  have ht : (quadrantFigures sx sy l).take 4 =
      [quadrantBox true false c!"C8E6C9", quadrantBox false false c!"BBDEFB", quadrantBox false true c!"FFECB3", quadrantBox true true c!"FFCDD2"] := by
    unfold quadrantFigures
    rw [List.append_assoc]
    exact List.take_left' rfl
  refine ⟨?_, ?_, ?_, ?_⟩
  · unfold quadrantFigures
    rw [if_neg hne, List.append_nil, List.length_append, hl]; rfl
  · rw [ht]; rfl
  · rw [ht]; decide
  · intro i n x y h
    obtain ⟨h1, h2⟩ := quadrant_at sx sy l h
    refine ⟨_, _, h1, h2, rfl, rfl, ?_, ?_, ?_, ?_⟩ <;> simp only [figMid, spotDot, spotLabel] <;> omega

example : (⟨c!"Campaign A", c!"0.3", c!"0.6"⟩ : Spot).Ok where
  label := ⟨by decide, by simp [Tight, isWs]⟩
  noBracket := by decide
  noColon := by decide
  words := by simp [NoneOf, quadrantWords, Spot.text]
  x := ⟨⟨by decide, by simp [Tight, isWs]⟩, by decide, by decide⟩
  y := ⟨⟨by decide, by simp [Tight, isWs]⟩, by decide, by decide⟩

/-- **C118** fails for points written in the usual way, with a blank between the colon and the coordinates: the colon stays part of the label. -/
theorem C118_quadrant_label_violated : quadrantParse c!"quadrantChart\nCampaign A: [0.3, 0.6]" = [(c!"Campaign A:", c!"0.3", c!"0.6")] := by
  decide +kernel

/-- **C118** fails for points near the left or the upper edge of a quadrant chart: all points that are nearer than half the size of a dot are drawn at the
same distance, which is half the size of a dot. -/
theorem C118_quadrant_edge_violated (sx sy : Str → Nat) (n x y : Str) :
    (sx x ≤ 150000 → ∃ dot ∈ quadrantFigures sx sy [(n, x, y)], dot.kind = c!"ellipse" ∧ (figMid dot).1 = 1000000 + 150000) ∧
    (sy y ≤ 150000 → ∃ dot ∈ quadrantFigures sx sy [(n, x, y)], dot.kind = c!"ellipse" ∧ (figMid dot).2 = 1800000 + 150000) := by
  obtain ⟨h1, _⟩ := quadrant_at sx sy [(n, x, y)] (i := 0) rfl
  have := List.mem_of_getElem? h1
  refine ⟨fun h => ⟨_, this, rfl, ?_⟩, fun h => ⟨_, this, rfl, ?_⟩⟩ <;> simp only [figMid, spotDot] <;> omega

/-- **C118** fails for titles, axes and quadrants of quadrant charts: their names are not drawn. The drawing is the same without these lines. -/
theorem C118_quadrant_names_violated (sx sy : Str → Nat) (a b : List Str) (s w : Str) (hw : w ∈ quadrantWords) (hs : w <+: s) :
    quadrantFigures sx sy ((a ++ s :: b).filterMap quadrantLine) = quadrantFigures sx sy ((a ++ b).filterMap quadrantLine) := by
  rw [List.filterMap_append, List.filterMap_cons_none (quadrant_other hw hs), ← List.filterMap_append]

/-! ### Mind maps -/

/-- A text that is shown as it is written: it has no bullet before it and no brackets around it. -/
structure NodeLine (t : Str) : Prop where
  line : LineText t
  first : ∀ c, t.head? = some c → c ∉ c!"-+*()[]%"
  last : ∀ c, t.getLast? = some c → c ∉ c!"()[]"

theorem trimChars_keep {cs : List Char} {t : Str} (h1 : ∀ c, t.head? = some c → c ∉ cs) (h2 : ∀ c, t.getLast? = some c → c ∉ cs) : trimChars cs t = t := by
  have k : ∀ s : Str, (∀ c, s.head? = some c → c ∉ cs) → s.dropWhile (fun c => decide (c ∈ cs)) = s := by
    intro s hs
    cases s with
    | nil => rfl
    | cons c s => exact List.dropWhile_cons_of_neg (by simpa using hs c rfl)
  unfold trimChars
  rw [k t h1, k t.reverse (by intro c hc; rw [List.head?_reverse] at hc; exact h2 c hc), List.reverse_reverse]

theorem mindText_line {n : Nat} {t : Str} (h : NodeLine t) : mindText (List.replicate n ' ' ++ t) = t := by
  have hw : ∀ c ∈ List.replicate n ' ', isWs c = true := by
    intro c hc; rw [(List.mem_replicate.mp hc).2]; rfl
  unfold mindText
  rw [trim_indent hw h.line.2]
  have : t.dropWhile (fun c => decide (c ∈ c!"-+*")) = t := by
    cases t with
    | nil => rfl
    | cons c t =>
      refine List.dropWhile_cons_of_neg ?_
      have := h.first c rfl
      simp only [List.mem_cons, List.not_mem_nil, or_false, not_or, decide_eq_true_eq] at this ⊢
      tauto
  rw [this, trim_tight h.line.2]
  refine trimChars_keep ?_ h.last
  intro c hc
  have := h.first c hc
  simp only [List.mem_cons, List.not_mem_nil, or_false, not_or] at this ⊢
  tauto

theorem mind_line (m : Mind) {n : Nat} {t : Str} (h : NodeLine t) : m.line (List.replicate n ' ' ++ t) =
    if n = 0 ∨ (m.root = [] ∧ n ≤ 4) then if m.root = [] then { m with root := t } else m
    else if n ≤ 8 then { m with branches := m.branches ++ [t] }
    else { m with leaves := m.leaves ++ [(m.branches.length - 1, t)] } := by
  have hw : ∀ c ∈ List.replicate n ' ', isWs c = true := by
    intro c hc; rw [(List.mem_replicate.mp hc).2]; rfl
  have hne := h.line.2.2.2
  have h1 : startsWith c!"%%" t = false := by
    rw [Bool.eq_false_iff, Ne, startsWith_iff]
    rintro ⟨r, rfl⟩
    exact h.first '%' rfl (by decide)
  have hs : trimStart (List.replicate n ' ' ++ t) = t := by
    unfold trimStart
    rw [List.dropWhile_append_of_pos hw]
    cases t with
    | nil => exact absurd rfl hne
    | cons c t => exact List.dropWhile_cons_of_neg (by simp [h.line.2.1 c rfl])
  have hu : utf8Len (List.replicate n ' ' ++ t) - utf8Len t = n := by
    have : utf8Len (List.replicate n ' ' ++ t) = n + utf8Len t := by
      unfold utf8Len
      rw [List.map_append, List.sum_append, List.map_replicate, show utf8Size ' ' = 1 from rfl]
      simp
    omega
  unfold Mind.line
  rw [mindText_line h, trim_indent hw h.line.2, h1, if_neg (by simp [hne])]
  simp only [hs, hu]

/-- A mind map: the root, its branches and their branches, each with the number of blanks before it. -/
structure MindMap where
  root : Nat × Str
  branches : List ((Nat × Str) × List (Nat × Str))

/-- The lines of a mind map. -/
def MindMap.lines (m : MindMap) : List (Nat × Str) := m.root :: m.branches.flatMap fun b => b.1 :: b.2

/-- A mind map that can be written. The depth is told from the number of blanks: at most 4 for the root, at most 8 for its branches, more for theirs. -/
structure MindMap.Ok (m : MindMap) : Prop where
  texts : ∀ p ∈ m.lines, NodeLine p.2
  root : m.root.1 ≤ 4
  branches : ∀ b ∈ m.branches, 1 ≤ b.1.1 ∧ b.1.1 ≤ 8 ∧ ∀ c ∈ b.2, 9 ≤ c.1

/-- The text of a mind map. -/
def MindMap.text (m : MindMap) (header : Str) : Str := joinStr c!"\n" (header :: m.lines.map fun p => List.replicate p.1 ' ' ++ p.2)

/-- The branches of branches, each with the place of the branch. -/
def MindMap.leaves (m : MindMap) : List (Nat × Str) := (m.branches.mapIdx fun i b => b.2.map fun c => (i, c.2)).flatten

/-- **C118**, mind maps: the root, its branches and their branches are read in their order. -/
theorem C118_mind_read {header : Str} {m : MindMap} (hh : '\n' ∉ header) (h : m.Ok) :
    Mind.parse (m.text header) = ⟨m.root.2, m.branches.map (·.1.2), m.leaves⟩ := by
  unfold Mind.parse MindMap.text
  rw [splitChar_joinStr (by simp)]
  · rw [List.tail_cons]
    have hr := h.texts m.root (by simp [MindMap.lines])
    have e0 : Mind.line {} (List.replicate m.root.1 ' ' ++ m.root.2) = ⟨m.root.2, [], []⟩ := by
      rw [mind_line _ hr, if_pos (.inr ⟨rfl, h.root⟩), if_pos rfl]
    have hc : ∀ (cs : List (Nat × Str)) (s : Mind), s.root ≠ [] → (∀ c ∈ cs, NodeLine c.2 ∧ 9 ≤ c.1) →
        (cs.map fun p => List.replicate p.1 ' ' ++ p.2).foldl Mind.line s = { s with leaves := s.leaves ++ cs.map fun c => (s.branches.length - 1, c.2) } := by
      intro cs
      induction cs with
      | nil => intro s _ _; simp
      | cons c cs ih =>
        intro s hs hcs
        obtain ⟨k1, k2⟩ := hcs c (by simp)
        rw [List.map_cons, List.foldl_cons, mind_line _ k1, if_neg (by rw [not_or]; exact ⟨by omega, fun e => hs e.1⟩), if_neg (by omega), ih]
        · simp
        · exact hs
        · exact fun x hx => hcs x (by simp [hx])
    have hb : ∀ (bs : List ((Nat × Str) × List (Nat × Str))) (s : Mind), s.root ≠ [] →
        (∀ b ∈ bs, (NodeLine b.1.2 ∧ 1 ≤ b.1.1 ∧ b.1.1 ≤ 8) ∧ ∀ c ∈ b.2, NodeLine c.2 ∧ 9 ≤ c.1) →
        ((bs.flatMap fun b => b.1 :: b.2).map fun p => List.replicate p.1 ' ' ++ p.2).foldl Mind.line s =
          ⟨s.root, s.branches ++ bs.map (·.1.2), s.leaves ++ (bs.mapIdx fun i b => b.2.map fun c => (i + s.branches.length, c.2)).flatten⟩ := by
      intro bs
      induction bs with
      | nil => intro s _ _; simp
      | cons b bs ih =>
        intro s hs hbs
        obtain ⟨⟨k1, k2, k3⟩, k4⟩ := hbs b (by simp)
        rw [List.flatMap_cons, List.map_append, List.foldl_append, List.map_cons, List.foldl_cons, mind_line _ k1,
          if_neg (by rw [not_or]; exact ⟨by omega, fun e => hs e.1⟩), if_pos k3, hc b.2 { s with branches := s.branches ++ [b.1.2] } hs k4, ih]
        rotate_left
        · exact hs
        · exact fun x hx => hbs x (by simp [hx])
        rw [List.mapIdx_cons]
        simp [Nat.add_assoc, Nat.add_comm 1]
    unfold MindMap.lines
    rw [List.map_cons, List.foldl_cons, e0, hb _ _ hr.line.2.2.2]
    · simp [MindMap.leaves]
    · intro b hbm
      obtain ⟨k1, k2, k3⟩ := h.branches b hbm
      have hm : ∀ p ∈ b.1 :: b.2, NodeLine p.2 := fun p hp =>
        h.texts p (List.mem_cons_of_mem _ (List.mem_flatMap.mpr ⟨b, hbm, hp⟩))
      exact ⟨⟨hm b.1 (by simp), k1, k2⟩, fun c hc => ⟨hm c (by simp [hc]), k3 c hc⟩⟩
  · intro x hx
    rcases List.mem_cons.mp hx with rfl | hx
    · exact hh
    · obtain ⟨p, hp, rfl⟩ := List.mem_map.mp hx
      rw [List.mem_append, not_or]
      refine ⟨?_, (h.texts p hp).line.1⟩
      intro e
      have := (List.mem_replicate.mp e).2
      exact absurd this (by decide)

/-- A node with its text inside. -/
structure NodeFig (f g : Fig) (t : Str) : Prop where
  text : g.text = some t
  fill : f.fill.isSome
  left : f.x ≤ g.x
  right : g.x + g.width ≤ f.x + f.width
  top : f.y ≤ g.y
  bottom : g.y + g.height ≤ f.y + f.height

theorem labeled_node (kind : Str) (x y w h : Nat) (fill t : Str) (hw : 100000 ≤ w) (hh : 100000 ≤ h) :
    ∃ f g, labeled kind x y w h fill t = [f, g] ∧ NodeFig f g t := by
  refine ⟨_, _, rfl, rfl, rfl, ?_, ?_, ?_, ?_⟩ <;> dsimp only <;> omega

theorem related_append {α β : Type} {R : α → β → Prop} {a c : List α} {b d : List β} (h1 : List.Forall₂ R a b) (h2 : List.Forall₂ R c d) :
    List.Forall₂ R (a ++ c) (b ++ d) := by
  induction h1 with
  | nil => exact h2
  | cons h _ ih => exact .cons h ih

theorem related_mapIdx {α β γ : Type} {R : β → γ → Prop} (f : Nat → α → β) (g : α → γ) (h : ∀ i a, R (f i a) (g a)) (l : List α) :
    List.Forall₂ R (l.mapIdx f) (l.map g) := by
  induction l generalizing f with
  | nil => exact .nil
  | cons a l ih => rw [List.mapIdx_cons]; exact .cons (h 0 a) (ih _ fun i a => h _ a)

/-- Nodes that are drawn by two figures each. -/
def Nodes (L : List (List Fig)) (T : List Str) : Prop := List.Forall₂ (fun l t => ∃ f g, l = [f, g] ∧ NodeFig f g t) L T

theorem nodes_flatten {L : List (List Fig)} {T : List Str} (h : Nodes L T) : L.flatten.length = 2 * T.length ∧
    ∀ i t, T[i]? = some t → ∃ f g, L.flatten[2 * i]? = some f ∧ L.flatten[2 * i + 1]? = some g ∧ NodeFig f g t := by
  induction h with
  | nil => exact ⟨rfl, fun i t ht => by simp at ht⟩
  | @cons l t L T h1 h2 ih =>
    obtain ⟨f, g, rfl, hn⟩ := h1
    refine ⟨by simp [ih.1]; omega, ?_⟩
    intro i t' ht
    cases i with
    | zero =>
      simp at ht
      exact ⟨f, g, rfl, rfl, ht ▸ hn⟩
    | succ i => exact ih.2 i t' ht

theorem mind_nodes (proj : Nat → Nat → Nat → Nat × Nat) (m : Mind) (h : ∀ p ∈ m.leaves, p.1 < m.branches.length) :
    ∃ L, m.figures proj = L.flatten ∧ Nodes L (m.root :: m.branches ++ m.leaves.map (·.2)) := by
  refine ⟨(labeled c!"ellipse" 3000000 2700000 2000000 600000 c!"3949AB" m.root :: m.branches.mapIdx fun i t =>
      labeled c!"roundRect" (mindPlace proj 2000000 i m.branches.length).1 (mindPlace proj 2000000 i m.branches.length).2 1500000 400000
        ((mindColors[i % 6]?).getD []) t) ++ m.leaves.map fun p =>
        labeled c!"roundRect" (mindPlace proj 3200000 p.1 m.branches.length).1 (mindPlace proj 3200000 p.1 m.branches.length).2 1500000 400000
          c!"E8EAF6" p.2, ?_, ?_⟩
  · unfold Mind.figures
    rw [List.flatten_append, List.flatten_cons, List.flatMap_def]
    congr 2
    apply List.map_congr_left
    intro p hp
    exact if_pos (h p hp)
  · refine related_append (.cons (labeled_node _ _ _ _ _ _ _ (by decide) (by decide)) ?_) ?_
    · have := related_mapIdx (R := fun l t => ∃ f g, l = [f, g] ∧ NodeFig f g t) (fun i t =>
        labeled c!"roundRect" (mindPlace proj 2000000 i m.branches.length).1 (mindPlace proj 2000000 i m.branches.length).2 1500000 400000
        ((mindColors[i % 6]?).getD []) t) (fun t => t) (fun i t => labeled_node _ _ _ _ _ _ _ (by decide) (by decide)) m.branches
      rwa [List.map_id'] at this
    · have := related_mapIdx (R := fun l t => ∃ f g, l = [f, g] ∧ NodeFig f g t) (fun _ p =>
        labeled c!"roundRect" (mindPlace proj 3200000 p.1 m.branches.length).1 (mindPlace proj 3200000 p.1 m.branches.length).2 1500000 400000
          c!"E8EAF6" p.2) (fun p : Nat × Str => p.2) (fun i p => labeled_node _ _ _ _ _ _ _ (by decide) (by decide)) m.leaves
      rwa [mapIdx_plain] at this

/-- **C118**, mind maps (partial). The drawing has a node for the root, for every one of its branches and every one of their branches, in the order of the text, each
with its text inside. What is missing: where the nodes are, connecting lines and deeper levels. -/
theorem C118_mind_partial {header : Str} {m : MindMap} (hh : '\n' ∉ header) (h : m.Ok) (proj : Nat → Nat → Nat → Nat × Nat) :
    let F := (Mind.parse (m.text header)).figures proj
    let T := m.root.2 :: m.branches.map (·.1.2) ++ m.leaves.map (·.2)
    F.length = 2 * T.length ∧ ∀ i t, T[i]? = some t → ∃ f g, F[2 * i]? = some f ∧ F[2 * i + 1]? = some g ∧ NodeFig f g t := by
  intro F T
  obtain ⟨L, h1, h2⟩ := mind_nodes proj ⟨m.root.2, m.branches.map (·.1.2), m.leaves⟩ (by
    intro p hp
    obtain ⟨l, h1, h2⟩ := List.mem_flatten.mp hp
    obtain ⟨i, h3, rfl⟩ := List.mem_mapIdx.mp h1
    obtain ⟨c, _, rfl⟩ := List.mem_map.mp h2
    simpa using h3)
  have hF : F = L.flatten := by
    show Mind.figures proj (Mind.parse (m.text header)) = _
    rw [C118_mind_read hh h, h1]
  rw [hF]
  exact nodes_flatten h2

example : (⟨(2, c!"Plan"), [((6, c!"Why"), [(10, c!"Time"), (10, c!"Money")]), ((6, c!"How"), [])]⟩ : MindMap).Ok where
  texts := by
    intro p hp
    simp only [MindMap.lines, List.flatMap_cons, List.flatMap_nil, List.append_nil, List.cons_append, List.nil_append, List.mem_cons, List.not_mem_nil, or_false] at hp
    rcases hp with rfl | rfl | rfl | rfl | rfl <;> exact ⟨⟨by decide, by simp [Tight, isWs]⟩, by simp, by simp⟩
  root := by decide
  branches := by decide

/-- **C118** fails for where the branches of a mind map are: the first branch covers the root. `proj r i n` are the distances to the right and downwards
for the angle `2πi/n - π/2`, a negative distance being taken for 0; for the first branch, which should be above the root, both are 0. -/
theorem C118_mind_first_violated (proj : Nat → Nat → Nat → Nat × Nat) (hp : ∀ n, proj 2000000 0 n = (0, 0)) (r b : Str) (bs : List Str) (ls : List (Nat × Str)) :
    ∃ f g, (Mind.figures proj ⟨r, b :: bs, ls⟩)[0]? = some f ∧ (Mind.figures proj ⟨r, b :: bs, ls⟩)[2]? = some g ∧
      f.x ≤ g.x ∧ g.x + g.width ≤ f.x + f.width ∧ f.y ≤ g.y ∧ g.y + g.height ≤ f.y + f.height := by
  refine ⟨_, { kind := c!"roundRect", x := 3250000, y := 2800000, width := 1500000, height := 400000, fill := some c!"4472C4" }, rfl, ?_, by decide⟩
  unfold Mind.figures mindPlace
  dsimp only
  rw [List.mapIdx_cons, hp]
  rfl

/-- **C118** fails for where the nodes of a mind map are: none of them is further left or higher than the first one, because negative distances are
taken for 0. -/
theorem C118_mind_side_violated (proj : Nat → Nat → Nat → Nat × Nat) (m : Mind) : ∀ f ∈ m.figures proj, f.kind = c!"roundRect" → 3250000 ≤ f.x ∧ 2800000 ≤ f.y := by
  have key : ∀ (p : Nat × Nat) (w h : Nat) (fill t : Str), ∀ f ∈ labeled c!"roundRect" (4000000 + p.1 - 750000) (3000000 + p.2 - 200000) w h fill t,
      f.kind = c!"roundRect" → 3250000 ≤ f.x ∧ 2800000 ≤ f.y := by
    intro p w h fill t f hf hk
    simp only [labeled, List.mem_cons, List.not_mem_nil, or_false] at hf
    rcases hf with rfl | rfl <;> dsimp only <;> omega
  intro f hf hk
  unfold Mind.figures at hf
  rcases List.mem_append.mp hf with hf | hf
  · rcases List.mem_append.mp hf with hf | hf
    · simp only [labeled, List.mem_cons, List.not_mem_nil, or_false] at hf
      rcases hf with rfl | rfl <;> simp at hk
    · obtain ⟨l, h1, h2⟩ := List.mem_flatten.mp hf
      obtain ⟨i, h3, rfl⟩ := List.mem_mapIdx.mp h1
      exact key _ _ _ _ _ f h2 hk
  · obtain ⟨p, h1, h2⟩ := List.mem_flatMap.mp hf
    split at h2
    · exact key _ _ _ _ _ f h2 hk
    · cases h2

/-- **C118** fails for several nodes below one branch of a mind map: they are drawn on top of each other. -/
theorem C118_mind_leaves_violated (proj : Nat → Nat → Nat → Nat × Nat) (r b t u : Str) :
    ∃ f g, (Mind.figures proj ⟨r, [b], [(0, t), (0, u)]⟩)[4]? = some f ∧ (Mind.figures proj ⟨r, [b], [(0, t), (0, u)]⟩)[6]? = some g ∧ f = g :=
  ⟨_, _, rfl, rfl, rfl⟩

/-- **C118** fails for the depth of nodes of mind maps that are indented by two blanks for each level: nodes below a branch become branches of the root. -/
theorem C118_mind_depth_violated : Mind.parse c!"mindmap\n  Plan\n    Why\n      Time\n        Now" = ⟨c!"Plan", [c!"Why", c!"Time", c!"Now"], []⟩ := by
  decide +kernel

/-- **C118** fails for nodes of mind maps with a shape: the name of the node and the opening brackets are part of the text. -/
theorem C118_mind_shape_violated : Mind.parse c!"mindmap\n  root((Plan))" = ⟨c!"root((Plan", [], []⟩ := by
  decide +kernel

end PptRs.Props
