import Verif.Model.Template
import Verif.Lemmas.Xml
import Verif.Lemmas.Str
import Verif.Spec.XmlQuery
import Lean.Elab.Tactic.Basic
import Lean.Meta.Tactic.Util

/-!
# Reading formatted XML symbolically

`symStep` is the reader of `Spec.Xml` with decoded text in place of raw text, so that it can run
over a template whose arguments are variables. `parse_of_sym` carries its result over to `parse`.
-/

namespace PptRs

open PptRs.Spec

open Lean Elab Tactic Meta in
/-- Closes `a = b` with `Eq.refl`, leaving the comparison to the kernel. -/
elab "krfl" : tactic => do
  let g ← getMainGoal
  let t ← instantiateMVars (← g.getType)
  match t.consumeMData.eq? with
  | some (α, a, _) =>
    let u ← getLevel α
    g.assign (mkApp2 (mkConst ``Eq.refl [u]) α a)
  | none => throwError "krfl: not an equation"

/-- A text node, none for empty text. -/
def textNode (t : Str) : List Node := if t = [] then [] else [.text t]

/-- Adds a text node, none for empty text. -/
def addText (k : List Node) : Str → List Node
  | [] => k
  | c :: cs => k ++ [.text (c :: cs)]

theorem addText_eq (k : List Node) (t : Str) : addText k t = k ++ textNode t := by
  cases t <;> simp [addText, textNode]

/-- `step` on decoded text. -/
def symStep (r : Reader) (c : Char) : Option Reader :=
  match r.mode with
  | .text t =>
    if c = '<' then
      some { top := ⟨r.top.name, r.top.attrs, addText r.top.kids t⟩, stack := r.stack, mode := .lt }
    else if c = '&' then none
    else some { r with mode := .text (t ++ [c]) }
  | .val n as k v =>
    if c = '"' then some { r with mode := .tag n (as ++ [(k, v)]) }
    else if c = '&' then none
    else if c = '<' then none
    else some { r with mode := .val n as k (v ++ [c]) }
  | _ => step r c

/-- `steps` on decoded text. -/
def symSteps (r : Reader) : Str → Option Reader
  | [] => some r
  | c :: cs => (symStep r c).bind fun r' => symSteps r' cs

/-- An argument with the decoded text `s`. -/
def symHole (r : Reader) (s : Str) : Option Reader :=
  match r.mode with
  | .text t => some { r with mode := .text (t ++ s) }
  | .val n as k v => some { r with mode := .val n as k (v ++ s) }
  | _ => none

/-- A piece of a template: a part, or parts known to be read as a list of nodes or attributes. -/
inductive Sym where
  | part (p : Part)
  /-- nodes, where no text is pending -/
  | nodes (ps : List Part) (ks : List Node)
  /-- nodes written without leading text -/
  | tagged (ps : List Part) (ks : List Node)
  | attrs (ps : List Part) (as : List (Str × Str))

/-- Reads a piece. -/
def symPiece (r : Reader) : Sym → Option Reader
  | .part (.lit s) => symSteps r s
  | .part (.esc s) => symHole r s
  | .part (.raw s) => symHole r s
  | .nodes _ ks =>
    match r.mode with
    | .text [] =>
      some { top := ⟨r.top.name, r.top.attrs, r.top.kids ++ ks⟩, stack := r.stack, mode := .text [] }
    | _ => none
  | .tagged _ ks =>
    match r.mode with
    | .text t =>
      some { top := ⟨r.top.name, r.top.attrs, addText r.top.kids t ++ ks⟩, stack := r.stack,
             mode := .text [] }
    | _ => none
  | .attrs _ as =>
    match r.mode with
    | .tag n as0 => some { r with mode := .tag n (as0 ++ as) }
    | .name n => some { r with mode := .tag n as }
    | _ => none

/-- Reads a list of pieces. -/
def symRun (r : Reader) : List Sym → Option Reader
  | [] => some r
  | p :: ps => (symPiece r p).bind fun r' => symRun r' ps

/-! ### Soundness -/

/-- A mode of the reader and the symbolic mode that stands for it. -/
inductive ModeRel : Mode → Mode → Prop
  | text {raw t} (h : readText raw = some t) : ModeRel (.text raw) (.text t)
  | val {n as k raw v} (h : readText raw = some v) : ModeRel (.val n as k raw) (.val n as k v)
  | nameTag {n} : ModeRel (.name n) (.tag n [])
  | lt : ModeRel .lt .lt
  | name {n} : ModeRel (.name n) (.name n)
  | close {n} : ModeRel (.close n) (.close n)
  | attr {n as k} : ModeRel (.attr n as k) (.attr n as k)
  | eq {n as k} : ModeRel (.eq n as k) (.eq n as k)
  | tag {n as} : ModeRel (.tag n as) (.tag n as)
  | slash {n as} : ModeRel (.slash n as) (.slash n as)

/-- A state of the reader and the symbolic state that stands for it. -/
structure StateRel (c s : Reader) : Prop where
  top : c.top = s.top
  stack : c.stack = s.stack
  mode : ModeRel c.mode s.mode

/-- Reading `str` leads from the symbolic state `s` to `s'`. -/
def Reads (str : Str) (s s' : Reader) : Prop :=
  ∀ c, StateRel c s → ∃ c', steps c str = some c' ∧ StateRel c' s'

theorem Reads.append {a b : Str} {s s1 s2 : Reader} (h1 : Reads a s s1) (h2 : Reads b s1 s2) :
    Reads (a ++ b) s s2 := by
  intro c hc
  obtain ⟨c1, e1, r1⟩ := h1 c hc
  obtain ⟨c2, e2, r2⟩ := h2 c1 r1
  exact ⟨c2, by rw [steps_append, e1]; exact e2, r2⟩

theorem Reads.nil (s : Reader) : Reads [] s s := fun c h => ⟨c, rfl, h⟩

theorem readText_append {a : Str} {x : Str} (b : Str) (h : readText a = some x) :
    readText (a ++ b) = (readText b).map (x ++ ·) := by
  induction a using readText.induct generalizing x with
  | case1 => simp [readText] at h; subst h; cases h : readText b <;> simp [h]
  | case2 r ih | case3 r ih | case4 r ih | case5 r ih | case6 r ih =>
    simp only [readText, Option.map_eq_some_iff] at h
    obtain ⟨y, hy, rfl⟩ := h
    simp only [List.cons_append, readText, ih hy]
    cases readText b <;> simp
  | case7 c r _ _ _ _ _ hc =>
    rcases hc with rfl | rfl
    · rw [readText.eq_7] at h <;> simp_all
    · simp [readText] at h
  | case8 c r _ _ _ _ _ hc ih =>
    have h1 : c ≠ '&' := fun e => hc (.inl e)
    have h2 : c ≠ '<' := fun e => hc (.inr e)
    rw [readText_plain _ h1 h2, Option.map_eq_some_iff] at h
    obtain ⟨y, hy, rfl⟩ := h
    rw [List.cons_append, readText_plain _ h1 h2, ih hy]
    cases readText b <;> simp

theorem readText_eq_nil {a : Str} (h : readText a = some []) : a = [] := by
  unfold readText at h
  split at h <;> simp_all

theorem flush_of {f : Frame} {raw t : Str} (h : readText raw = some t) :
    flush f raw = some ⟨f.name, f.attrs, f.kids ++ textNode t⟩ := by
  unfold flush textNode
  by_cases hr : raw = []
  · subst hr; simp [readText] at h; subst h; simp
  · have : t ≠ [] := fun e => hr (readText_eq_nil (e ▸ h))
    simp [hr, this, h, Frame.push]

theorem step_sym {c s s' : Reader} {x : Char} (hc : StateRel c s) (h : symStep s x = some s') :
    ∃ c', step c x = some c' ∧ StateRel c' s' := by
  obtain ⟨top, st, m⟩ := c
  obtain ⟨top', st', m'⟩ := s
  obtain ⟨h1, h2, h3⟩ := hc
  simp only at h1 h2 h3
  subst h1 h2
  cases h3 with
  | @text raw t hr =>
    simp only [symStep] at h
    split at h
    · rename_i hx
      subst hx
      cases h
      exact ⟨_, by simp only [step, if_true, flush_of hr, Option.map_some, addText_eq], ⟨rfl, rfl, .lt⟩⟩
    · rename_i hx
      split at h
      · cases h
      · rename_i hx2
        cases h
        refine ⟨⟨top, st, .text (raw ++ [x])⟩, by simp only [step, if_neg hx], ⟨rfl, rfl, .text ?_⟩⟩
        rw [readText_append _ hr, readText_plain _ hx2 hx]
        simp [readText]
  | @val n as k raw v hr =>
    simp only [symStep] at h
    split at h
    · rename_i hx
      subst hx
      cases h
      exact ⟨_, by simp only [step, if_true, hr, Option.map_some], ⟨rfl, rfl, .tag⟩⟩
    · rename_i hx
      split at h
      · cases h
      · rename_i hx2
        split at h
        · cases h
        · rename_i hx3
          cases h
          refine ⟨⟨top, st, .val n as k (raw ++ [x])⟩, by simp only [step, if_neg hx], ⟨rfl, rfl, .val ?_⟩⟩
          rw [readText_append _ hr, readText_plain _ hx2 hx3]
          simp [readText]
  | @nameTag n =>
    simp only [symStep, step] at h ⊢
    split at h
    · cases h; exact ⟨_, by simp [*], ⟨rfl, rfl, .attr⟩⟩
    · split at h
      · cases h; exact ⟨_, by simp [*], ⟨rfl, rfl, .text rfl⟩⟩
      · split at h
        · cases h; exact ⟨_, by simp [*], ⟨rfl, rfl, .slash⟩⟩
        · cases h
  | lt =>
    refine ⟨s', h, ?_⟩
    simp only [symStep, step] at h
    split at h
    · cases h; exact ⟨rfl, rfl, .close⟩
    · split at h
      · cases h
      · cases h; exact ⟨rfl, rfl, .name⟩
  | name =>
    refine ⟨s', h, ?_⟩
    simp only [symStep, step] at h
    split at h
    · cases h; exact ⟨rfl, rfl, .attr⟩
    · split at h
      · cases h; exact ⟨rfl, rfl, .text rfl⟩
      · split at h
        · cases h; exact ⟨rfl, rfl, .slash⟩
        · cases h; exact ⟨rfl, rfl, .name⟩
  | close =>
    refine ⟨s', h, ?_⟩
    simp only [symStep, step] at h
    split at h
    · split at h
      · cases h
      · split at h
        · cases h; exact ⟨rfl, rfl, .text rfl⟩
        · cases h
    · cases h; exact ⟨rfl, rfl, .close⟩
  | attr =>
    refine ⟨s', h, ?_⟩
    simp only [symStep, step] at h
    split at h
    · cases h; exact ⟨rfl, rfl, .eq⟩
    · split at h
      · cases h; exact ⟨rfl, rfl, .slash⟩
      · cases h; exact ⟨rfl, rfl, .attr⟩
  | eq =>
    refine ⟨s', h, ?_⟩
    simp only [symStep, step] at h
    split at h
    · cases h; exact ⟨rfl, rfl, .val rfl⟩
    · cases h
  | tag =>
    refine ⟨s', h, ?_⟩
    simp only [symStep, step] at h
    split at h
    · cases h; exact ⟨rfl, rfl, .attr⟩
    · split at h
      · cases h; exact ⟨rfl, rfl, .text rfl⟩
      · split at h
        · cases h; exact ⟨rfl, rfl, .slash⟩
        · cases h
  | slash =>
    refine ⟨s', h, ?_⟩
    simp only [symStep, step] at h
    split at h
    · cases h; exact ⟨rfl, rfl, .text rfl⟩
    · cases h

theorem reads_lit {str : Str} {s s' : Reader} (h : symSteps s str = some s') : Reads str s s' := by
  induction str generalizing s with
  | nil => simp only [symSteps, Option.some.injEq] at h; subst h; exact Reads.nil _
  | cons x str ih =>
    intro c hc
    simp only [symSteps, Option.bind_eq_some_iff] at h
    obtain ⟨s1, h1, h2⟩ := h
    obtain ⟨c1, e1, r1⟩ := step_sym hc h1
    obtain ⟨c2, e2, r2⟩ := ih h2 c1 r1
    exact ⟨c2, by simp [steps, e1, e2], r2⟩

/-- An argument: `str` is read as the text `v`. -/
theorem reads_hole {str v : Str} {s s' : Reader} (hr : readText str = some v) (h1 : '<' ∉ str)
    (h2 : '"' ∉ str) (h : symHole s v = some s') : Reads str s s' := by
  intro c hc
  obtain ⟨top, st, m⟩ := c
  obtain ⟨top', st', m'⟩ := s
  obtain ⟨e1, e2, e3⟩ := hc
  simp only at e1 e2 e3
  subst e1 e2
  cases e3 <;> simp only [symHole, Option.some.injEq, reduceCtorEq] at h
  case text raw t hr' =>
    subst h
    refine ⟨_, steps_text _ _ _ _ h1, ⟨rfl, rfl, .text ?_⟩⟩
    rw [readText_append _ hr', hr]; rfl
  case val n as k raw t hr' =>
    subst h
    refine ⟨_, steps_val _ _ _ _ _ _ _ h2, ⟨rfl, rfl, .val ?_⟩⟩
    rw [readText_append _ hr', hr]; rfl

theorem readText_of_Plain {s : Str} (h : Plain s) : readText s = some s := by
  induction s with
  | nil => rfl
  | cons c s ih =>
    have hc : c ≠ '&' ∧ c ≠ '<' := ⟨fun e => h.1 (by simp [e]), fun e => h.2.1 (by simp [e])⟩
    have hs : Plain s := ⟨fun e => h.1 (by simp [e]), fun e => h.2.1 (by simp [e]),
      fun e => h.2.2 (by simp [e])⟩
    rw [readText_plain _ hc.1 hc.2, ih hs]; rfl

theorem plain_dec (n : Nat) : Plain (dec n) :=
  ⟨not_mem_dec (by decide), not_mem_dec (by decide), not_mem_dec (by decide)⟩

/-- `ps` is read as the nodes `ks`. -/
def ReadsNodes (ps : List Part) (ks : List Node) : Prop :=
  ∀ n as k st, Reads (fmt ps) ⟨⟨n, as, k⟩, st, .text []⟩ ⟨⟨n, as, k ++ ks⟩, st, .text []⟩

/-- `ps` is read as the nodes `ks` and has no leading text. -/
def ReadsTagged (ps : List Part) (ks : List Node) : Prop :=
  ∀ n as k st t, Reads (fmt ps) ⟨⟨n, as, k⟩, st, .text t⟩ ⟨⟨n, as, k ++ textNode t ++ ks⟩, st, .text []⟩

/-- `ps` is read as the attributes `as`. -/
def ReadsAttrs (ps : List Part) (as : List (Str × Str)) : Prop :=
  ∀ top st n as0, Reads (fmt ps) ⟨top, st, .tag n as0⟩ ⟨top, st, .tag n (as0 ++ as)⟩

/-- The parts of a piece. -/
def Sym.parts : Sym → List Part
  | .part p => [p]
  | .nodes ps _ => ps
  | .tagged ps _ => ps
  | .attrs ps _ => ps

/-- What is assumed of a piece. -/
def Sym.Ok : Sym → Prop
  | .part (.raw s) => Plain s
  | .part _ => True
  | .nodes ps ks => ReadsNodes ps ks
  | .tagged ps ks => ReadsTagged ps ks
  | .attrs ps as => ReadsAttrs ps as

theorem fmt_append (a b : List Part) : fmt (a ++ b) = fmt a ++ fmt b := by simp [fmt]

theorem reads_piece {p : Sym} {s s' : Reader} (hok : p.Ok) (h : symPiece s p = some s') :
    Reads (fmt p.parts) s s' := by
  cases p with
  | part p =>
    cases p with
    | lit x => simpa [fmt, Sym.parts, Part.render] using reads_lit h
    | esc x =>
      have h1 := fun d : Char => mem_escapeXml (s := x) (d := d)
      simpa [fmt, Sym.parts, Part.render] using reads_hole (readText_escapeXml x)
        (fun hh => (h1 _ hh).1 rfl) (fun hh => (h1 _ hh).2.2.1 rfl) h
    | raw x =>
      simpa [fmt, Sym.parts, Part.render] using
        reads_hole (readText_of_Plain hok) hok.2.1 hok.2.2 h
  | nodes ps ks =>
    obtain ⟨⟨n, as, k⟩, st, m⟩ := s
    simp only [symPiece] at h
    split at h
    · cases h
      exact hok _ _ _ _
    · cases h
  | tagged ps ks =>
    obtain ⟨⟨n, as, k⟩, st, m⟩ := s
    simp only [symPiece] at h
    split at h
    · cases h
      rw [addText_eq]
      exact hok _ _ _ _ _
    · cases h
  | attrs ps as =>
    obtain ⟨top, st, m⟩ := s
    simp only [symPiece] at h
    split at h
    · cases h
      exact hok _ _ _ _
    · cases h
      intro c hc
      refine hok _ _ _ [] c ⟨hc.top, hc.stack, ?_⟩
      have := hc.mode
      revert this
      generalize c.mode = m
      intro this
      cases this
      exact .nameTag
    · cases h

/-- The parts of a template. -/
def symParts (S : List Sym) : List Part := S.flatMap Sym.parts

theorem reads_run {S : List Sym} {s s' : Reader} (hok : ∀ p ∈ S, p.Ok) (h : symRun s S = some s') :
    Reads (fmt (symParts S)) s s' := by
  induction S generalizing s with
  | nil => simp only [symRun, Option.some.injEq] at h; subst h; exact Reads.nil _
  | cons p S ih =>
    simp only [symRun, Option.bind_eq_some_iff] at h
    obtain ⟨s1, h1, h2⟩ := h
    rw [symParts, List.flatMap_cons, fmt_append]
    exact (reads_piece (hok p (by simp)) h1).append (ih (fun q hq => hok q (by simp [hq])) h2)

theorem readsNodes_nil : ReadsNodes [] [] := by
  intro n as k st
  simpa [fmt] using Reads.nil _

theorem ReadsNodes.append {a b : List Part} {x y : List Node} (h1 : ReadsNodes a x)
    (h2 : ReadsNodes b y) : ReadsNodes (a ++ b) (x ++ y) := by
  intro n as k st
  rw [fmt_append, ← List.append_assoc]
  exact (h1 n as k st).append (h2 n as _ st)

theorem readsNodes_flatMap {α : Type} {f : α → List Part} {g : α → List Node} {l : List α}
    (h : ∀ a ∈ l, ReadsNodes (f a) (g a)) : ReadsNodes (l.flatMap f) (l.flatMap g) := by
  induction l with
  | nil => exact readsNodes_nil
  | cons a l ih =>
    rw [List.flatMap_cons, List.flatMap_cons]
    exact (h a (by simp)).append (ih fun b hb => h b (by simp [hb]))

theorem readsAttrs_nil : ReadsAttrs [] [] := by
  intro top st n as
  simpa [fmt] using Reads.nil _

theorem ReadsAttrs.append {a b : List Part} {x y : List (Str × Str)} (h1 : ReadsAttrs a x)
    (h2 : ReadsAttrs b y) : ReadsAttrs (a ++ b) (x ++ y) := by
  intro top st n as
  rw [fmt_append, ← List.append_assoc]
  exact (h1 top st n as).append (h2 top st n _)

/-- `S` is a division of `ps` into pieces. -/
structure Splits (ps : List Part) (S : List Sym) : Prop where
  parts : symParts S = ps
  ok : ∀ p ∈ S, p.Ok

/-- A part that can be read: not inserted unescaped, or standing for itself. -/
def Part.Ok : Part → Prop
  | .raw s => Plain s
  | _ => True

theorem Splits.lit {ps : List Part} (h : ∀ p ∈ ps, p.Ok) : Splits ps (ps.map .part) := by
  constructor
  · simp [symParts, List.flatMap_map, Sym.parts]
  · intro p hp
    obtain ⟨q, hq, rfl⟩ := List.mem_map.mp hp
    have := h q hq
    cases q <;> exact this

theorem Splits.append {a b : List Part} {S T : List Sym} (h1 : Splits a S) (h2 : Splits b T) :
    Splits (a ++ b) (S ++ T) :=
  ⟨by rw [← h1.parts, ← h2.parts]; simp [symParts], by
    intro p hp
    rcases List.mem_append.mp hp with hp | hp
    · exact h1.ok p hp
    · exact h2.ok p hp⟩

theorem Splits.nodes {ps : List Part} {ks : List Node} (h : ReadsNodes ps ks) :
    Splits ps [.nodes ps ks] := ⟨by simp [symParts, Sym.parts], by simpa [Sym.Ok] using h⟩

theorem Splits.tagged {ps : List Part} {ks : List Node} (h : ReadsTagged ps ks) :
    Splits ps [.tagged ps ks] := ⟨by simp [symParts, Sym.parts], by simpa [Sym.Ok] using h⟩

theorem Splits.attrs {ps : List Part} {as : List (Str × Str)} (h : ReadsAttrs ps as) :
    Splits ps [.attrs ps as] := ⟨by simp [symParts, Sym.parts], by simpa [Sym.Ok] using h⟩

/-! ### Running without context -/

/-- Open elements `S` that are those in `s` placed inside the element `⟨n, as, k⟩` and `st`. -/
inductive EmbS (n : Str) (as : List (Str × Str)) (k : List Node) (st : List Frame) :
    List Frame → List Frame → Prop
  | root (f : Frame) : EmbS n as k st [f] (⟨n, as, k ++ f.kids⟩ :: st)
  | cons (f : Frame) {s S : List Frame} (h : EmbS n as k st s S) : EmbS n as k st (f :: s) (f :: S)

/-- The same for reader states. -/
def Emb (n : Str) (as : List (Str × Str)) (k : List Node) (st : List Frame) (r R : Reader) : Prop :=
  EmbS n as k st (r.top :: r.stack) (R.top :: R.stack) ∧ R.mode = r.mode

theorem EmbS.modify {n : Str} {as : List (Str × Str)} {k : List Node} {st : List Frame}
    {f F : Frame} {s S : List Frame} (h : EmbS n as k st (f :: s) (F :: S)) (x : List Node) :
    EmbS n as k st (⟨f.name, f.attrs, f.kids ++ x⟩ :: s) (⟨F.name, F.attrs, F.kids ++ x⟩ :: S) := by
  cases h with
  | root =>
    have := EmbS.root (n := n) (as := as) (k := k) (st := st) ⟨f.name, f.attrs, f.kids ++ x⟩
    simpa using this
  | cons _ h => exact .cons _ h

theorem flush_kids {f g : Frame} {raw : Str} (h : flush f raw = some g) :
    ∃ x, g = ⟨f.name, f.attrs, f.kids ++ x⟩ ∧
      ∀ F, flush F raw = some ⟨F.name, F.attrs, F.kids ++ x⟩ := by
  unfold flush at h ⊢
  split at h
  · cases h; exact ⟨[], by simp, by intro F; rw [if_pos ‹_›]; simp⟩
  · rw [Option.map_eq_some_iff] at h
    obtain ⟨t, ht, rfl⟩ := h
    exact ⟨[.text t], rfl, by intro F; rw [if_neg ‹_›, ht]; rfl⟩

theorem step_emb {n : Str} {as : List (Str × Str)} {k : List Node} {st : List Frame}
    {r r' R : Reader} {c : Char} (h : Emb n as k st r R) (hs : step r c = some r') :
    ∃ R', step R c = some R' ∧ Emb n as k st r' R' := by
  obtain ⟨top, stk, m⟩ := r
  obtain ⟨Top, Stk, M⟩ := R
  obtain ⟨h, hm⟩ := h
  simp only at h hm
  subst hm
  cases M with
  | text raw =>
    simp only [step] at hs ⊢
    split at hs
    · rename_i hc
      rw [Option.map_eq_some_iff] at hs
      obtain ⟨f, hf, rfl⟩ := hs
      obtain ⟨x, rfl, hx⟩ := flush_kids hf
      exact ⟨⟨⟨Top.name, Top.attrs, Top.kids ++ x⟩, Stk, .lt⟩, by rw [if_pos hc, hx]; rfl, h.modify x, rfl⟩
    · cases hs; exact ⟨_, if_neg ‹_›, h, rfl⟩
  | lt =>
    simp only [step] at hs ⊢
    split at hs
    · cases hs; exact ⟨_, if_pos ‹_›, h, rfl⟩
    · rw [if_neg ‹_›]
      split at hs
      · cases hs
      · cases hs; exact ⟨_, if_neg ‹_›, h, rfl⟩
  | name nm =>
    simp only [step] at hs ⊢
    split at hs
    · cases hs; exact ⟨_, if_pos ‹_›, h, rfl⟩
    · rw [if_neg ‹_›]
      split at hs
      · cases hs; exact ⟨_, if_pos ‹_›, .cons _ h, rfl⟩
      · rw [if_neg ‹_›]
        split at hs
        · cases hs; exact ⟨_, if_pos ‹_›, h, rfl⟩
        · cases hs; exact ⟨_, if_neg ‹_›, h, rfl⟩
  | close nm =>
    simp only [step] at hs ⊢
    split at hs
    · rw [if_pos ‹_›]
      cases h with
      | root => cases hs
      | cons _ h =>
        cases stk with
        | nil => cases hs
        | cons p ps =>
          simp only at hs
          cases Stk with
          | nil => cases h
          | cons P Ps =>
            simp only
            split at hs
            · cases hs
              exact ⟨_, if_pos ‹_›, h.modify _, rfl⟩
            · cases hs
    · cases hs; exact ⟨_, if_neg ‹_›, h, rfl⟩
  | attr a b d =>
    simp only [step] at hs ⊢
    split at hs
    · cases hs; exact ⟨_, if_pos ‹_›, h, rfl⟩
    · rw [if_neg ‹_›]
      split at hs
      · cases hs; exact ⟨_, if_pos ‹_›, h, rfl⟩
      · cases hs; exact ⟨_, if_neg ‹_›, h, rfl⟩
  | eq a b d =>
    simp only [step] at hs ⊢
    split at hs
    · cases hs; exact ⟨_, if_pos ‹_›, h, rfl⟩
    · cases hs
  | val a b d v =>
    simp only [step] at hs ⊢
    split at hs
    · rw [if_pos ‹_›]
      rw [Option.map_eq_some_iff] at hs
      obtain ⟨f, hf, rfl⟩ := hs
      exact ⟨⟨Top, Stk, .tag a (b ++ [(d, f)])⟩, by rw [hf]; rfl, h, rfl⟩
    · cases hs; exact ⟨_, if_neg ‹_›, h, rfl⟩
  | tag a b =>
    simp only [step] at hs ⊢
    split at hs
    · cases hs; exact ⟨_, if_pos ‹_›, h, rfl⟩
    · rw [if_neg ‹_›]
      split at hs
      · cases hs; exact ⟨_, if_pos ‹_›, .cons _ h, rfl⟩
      · rw [if_neg ‹_›]
        split at hs
        · cases hs; exact ⟨_, if_pos ‹_›, h, rfl⟩
        · cases hs
  | slash a b =>
    simp only [step] at hs ⊢
    split at hs
    · cases hs; exact ⟨_, if_pos ‹_›, h.modify _, rfl⟩
    · cases hs

theorem steps_emb {n : Str} {as : List (Str × Str)} {k : List Node} {st : List Frame}
    {r r' R : Reader} {s : Str} (h : Emb n as k st r R) (hs : steps r s = some r') :
    ∃ R', steps R s = some R' ∧ Emb n as k st r' R' := by
  induction s generalizing r R with
  | nil => cases hs; exact ⟨R, rfl, h⟩
  | cons c s ih =>
    simp only [steps, Option.bind_eq_some_iff] at hs
    obtain ⟨r1, h1, h2⟩ := hs
    obtain ⟨R1, e1, g1⟩ := step_emb h h1
    obtain ⟨R2, e2, g2⟩ := ih g1 h2
    exact ⟨R2, by simp [steps, e1, e2], g2⟩

/-- XML read on its own as `ks` is read as `ks` everywhere. -/
theorem readsAs_of_steps {s : Str} {ks : List Node}
    (h : steps ⟨⟨[], [], []⟩, [], .text []⟩ s = some ⟨⟨[], [], ks⟩, [], .text []⟩) : ReadsAs s ks := by
  intro top st
  obtain ⟨R', e, g1, g2⟩ := steps_emb (n := top.name) (as := top.attrs) (k := top.kids) (st := st)
    (r := ⟨⟨[], [], []⟩, [], .text []⟩) (R := ⟨top, st, .text []⟩)
    ⟨by
      have := EmbS.root (n := top.name) (as := top.attrs) (k := top.kids) (st := st) ⟨[], [], []⟩
      simpa using this, rfl⟩ h
  obtain ⟨Top, Stk, M⟩ := R'
  simp only at g1 g2
  subst g2
  rw [e]
  cases g1 with
  | root => rfl
  | cons _ h => cases h

theorem readsNodes_of_readsAs {ps : List Part} {ks : List Node} (h : ReadsAs (fmt ps) ks) :
    ReadsNodes ps ks := by
  intro n as k st c hc
  obtain ⟨top, st', m⟩ := c
  obtain ⟨e1, e2, e3⟩ := hc
  simp only at e1 e2 e3
  subst e1 e2
  cases e3 with
  | text hr =>
    have := readText_eq_nil hr
    subst this
    exact ⟨_, h _ _, ⟨rfl, rfl, .text rfl⟩⟩

theorem ReadsNodes.readsAs {ps : List Part} {ks : List Node} (h : ReadsNodes ps ks) :
    ReadsAs (fmt ps) ks := by
  intro top st
  obtain ⟨c, e, r⟩ := h top.name top.attrs top.kids st ⟨top, st, .text []⟩ ⟨rfl, rfl, .text rfl⟩
  obtain ⟨Top, Stk, M⟩ := c
  obtain ⟨r1, r2, r3⟩ := r
  simp only at r1 r2 r3
  subst r1 r2
  cases r3 with
  | text hr =>
    have := readText_eq_nil hr
    subst this
    exact e

/-- A template is read as `ks`, if it is read as `ks` on its own. -/
theorem Splits.readsNodes {ps : List Part} {ks : List Node} {S : List Sym} (h : Splits ps S)
    (run : symRun ⟨⟨[], [], []⟩, [], .text []⟩ S = some ⟨⟨[], [], ks⟩, [], .text []⟩) :
    ReadsNodes ps ks := by
  obtain ⟨e, hok⟩ := h
  subst e
  apply readsNodes_of_readsAs
  apply readsAs_of_steps
  obtain ⟨c, e, r⟩ := reads_run hok run ⟨⟨[], [], []⟩, [], .text []⟩ ⟨rfl, rfl, .text rfl⟩
  obtain ⟨Top, Stk, M⟩ := c
  obtain ⟨r1, r2, r3⟩ := r
  simp only at r1 r2 r3
  subst r1 r2
  cases r3 with
  | text hr =>
    have := readText_eq_nil hr
    subst this
    exact e

theorem ReadsNodes.tagged {ps : List Part} {ks : List Node} (h : ReadsNodes ps ks)
    (hs : ∃ r, fmt ps = '<' :: r) : ReadsTagged ps ks := by
  obtain ⟨r, hs⟩ := hs
  intro n as k st t c hc
  obtain ⟨top, st', m⟩ := c
  obtain ⟨e1, e2, e3⟩ := hc
  simp only at e1 e2 e3
  subst e1 e2
  cases e3 with
  | text hr =>
    obtain ⟨c', e, g⟩ := h n as (k ++ textNode t) st' ⟨⟨n, as, k ++ textNode t⟩, st', .text []⟩
      ⟨rfl, rfl, .text rfl⟩
    refine ⟨c', ?_, g⟩
    rw [← e, hs]
    have h2 : flush ⟨n, as, k ++ textNode t⟩ [] = some ⟨n, as, k ++ textNode t⟩ := rfl
    simp only [steps, step, if_true, flush_of hr, h2]

theorem Splits.readsAttrs {ps : List Part} {as : List (Str × Str)} {S : List Sym}
    (h : Splits ps S)
    (run : ∀ top st n as0, symRun ⟨top, st, .tag n as0⟩ S = some ⟨top, st, .tag n (as0 ++ as)⟩) :
    ReadsAttrs ps as := by
  obtain ⟨e, hok⟩ := h
  subst e
  exact fun top st n as0 => reads_run hok (run top st n as0)

theorem ReadsTagged.nodes {ps : List Part} {ks : List Node} (h : ReadsTagged ps ks) :
    ReadsNodes ps ks := by
  intro n as k st
  simpa [textNode] using h n as k st []

theorem parse_of_nodes {ps : List Part} {ks : List Node} (h : ReadsNodes ps ks) :
    parse (fmt ps) = some ks := by
  obtain ⟨c, e, r⟩ := h [] [] [] [] ⟨⟨[], [], []⟩, [], .text []⟩ ⟨rfl, rfl, .text rfl⟩
  obtain ⟨top, st, m⟩ := c
  obtain ⟨r1, r2, r3⟩ := r
  simp only at r1 r2 r3
  subst r1 r2
  cases r3 with
  | text hr =>
    simp only [parse, e, flush_of hr, Option.map_some]
    simp [textNode]

end PptRs
