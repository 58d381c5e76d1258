import Verif.Model.Compress
import Verif.Lemmas.Squeeze
import Verif.Lemmas.Parts

/-!
# Reading a minified document

The minifier keeps track of quotes and angle brackets only. For documents in which quotes surround
attribute values and nothing else (`zsteps`), it runs in step with the reader.
-/

namespace PptRs

open PptRs.Spec

/-- Where in a document a character is. -/
inductive Zone where
  | text | lt | tag | close | slash | attr0 | attr | eq | val
deriving DecidableEq

/-- The next place; `none` for quotes and angle brackets in odd places. -/
def zstep : Zone → Char → Option Zone
  | .text, c => if c = '<' then some .lt else if c = '"' then none else some .text
  | .lt, c => if c = '/' then some .close else if c = '>' ∨ c = '"' ∨ c = '<' then none else some .tag
  | .tag, c =>
    if c = ' ' then some .attr0 else if c = '>' then some .text else if c = '/' then some .slash
    else if c = '<' ∨ c = '"' then none else some .tag
  | .close, c => if c = '>' then some .text else if c = '<' ∨ c = '"' then none else some .close
  | .slash, c => if c = '>' then some .text else none
  | .attr0, c =>
    if c = '=' then some .eq else if c = '/' then some .slash
    else if c = '<' ∨ c = '"' ∨ c = '>' then none else some .attr
  | .attr, c => if c = '=' then some .eq else if c = '<' ∨ c = '"' ∨ c = '>' then none else some .attr
  | .eq, c => if c = '"' then some .val else none
  | .val, c => if c = '"' then some .tag else some .val

/-- The place after a text. -/
def zsteps (z : Zone) : Str → Option Zone
  | [] => some z
  | c :: cs => (zstep z c).bind fun z' => zsteps z' cs

/-- The place that a mode of the reader stands for. -/
def zoneOf : Mode → Zone
  | .text _ => .text
  | .lt => .lt
  | .name _ => .tag
  | .close _ => .close
  | .attr _ _ k => if k = [] then .attr0 else .attr
  | .eq _ _ _ => .eq
  | .val _ _ _ _ => .val
  | .tag _ _ => .tag
  | .slash _ _ => .slash

theorem zone_step {r r' : Reader} {c : Char} {z : Zone} (h : step r c = some r')
    (hz : zstep (zoneOf r.mode) c = some z) : z = zoneOf r'.mode := by
  obtain ⟨top, st, m⟩ := r
  cases m with
  | text raw =>
    simp only [step, zoneOf, zstep] at h hz
    split at h
    · rename_i hc
      simp only [hc, if_true, Option.some.injEq] at hz
      obtain ⟨f, _, rfl⟩ := Option.map_eq_some_iff.mp h
      exact hz.symm
    · rename_i hc
      simp only [hc, if_false] at hz
      cases h
      split at hz
      · cases hz
      · cases hz; rfl
  | lt =>
    simp only [step, zoneOf, zstep] at h hz
    split at h
    · cases h; simp_all [zoneOf]
    · split at h
      · cases h
      · cases h; simp_all [zoneOf]
  | name n =>
    simp only [step, zoneOf, zstep] at h hz
    split at h
    · cases h; simp_all [zoneOf]
    · split at h
      · cases h; simp_all [zoneOf]
      · split at h
        · cases h; simp_all [zoneOf]
        · cases h; simp_all [zoneOf]
  | close n =>
    simp only [step, zoneOf, zstep] at h hz
    split at h
    · split at h
      · cases h
      · split at h
        · cases h; simp_all [zoneOf]
        · cases h
    · cases h; simp_all [zoneOf]
  | attr n as k =>
    by_cases hk : k = []
    · simp only [step, zoneOf, hk, if_true, zstep, true_and] at h hz
      split at h
      · cases h; simp_all [zoneOf]
      · split at h
        · cases h; simp_all [zoneOf]
        · cases h; simp_all [zoneOf]
    · simp only [step, zoneOf, hk, if_false, zstep, false_and] at h hz
      split at h
      · cases h; simp_all [zoneOf]
      · cases h; simp_all [zoneOf]
  | eq n as k =>
    simp only [step, zoneOf, zstep] at h hz
    split at h
    · cases h; simp_all [zoneOf]
    · cases h
  | val n as k v =>
    simp only [step, zoneOf, zstep] at h hz
    split at h
    · rename_i hc
      simp only [hc, if_true, Option.some.injEq] at hz
      obtain ⟨f, _, rfl⟩ := Option.map_eq_some_iff.mp h
      exact hz.symm
    · cases h; simp_all [zoneOf]
  | tag n as =>
    simp only [step, zoneOf, zstep] at h hz
    split at h
    · cases h; simp_all [zoneOf]
    · split at h
      · cases h; simp_all [zoneOf]
      · split at h
        · cases h; simp_all [zoneOf]
        · cases h
  | slash n as =>
    simp only [step, zoneOf, zstep] at h hz
    split at h
    · cases h; simp_all [zoneOf]
    · cases h

/-- An element after minification of what it contains. -/
def squeezeFrame (f : Frame) : Frame := ⟨f.name, f.attrs, squeezeNodes f.kids⟩

theorem squeezeFrame_push (f : Frame) (n : Str) (as : List (Str × Str)) (ks : List Node) :
    squeezeFrame (f.push (.elem n as ks)) = (squeezeFrame f).push (.elem n as (squeezeNodes ks)) := by
  simp [squeezeFrame, Frame.push, squeezeNodes_append, squeezeNodes, squeezeNode]

/-- Inside of tags, the reader does the same in the minified document. -/
theorem step_squeeze {top : Frame} {st : List Frame} {m : Mode} {c : Char} {r' : Reader}
    (hm : zoneOf m ≠ .text) (h : step ⟨top, st, m⟩ c = some r') :
    step ⟨squeezeFrame top, st.map squeezeFrame, m⟩ c =
      some ⟨squeezeFrame r'.top, r'.stack.map squeezeFrame, r'.mode⟩ := by
  cases m with
  | text raw => exact absurd rfl hm
  | lt =>
    simp only [step] at h ⊢
    split at h
    · cases h; simp_all
    · split at h
      · cases h
      · cases h; simp_all
  | name n =>
    simp only [step] at h ⊢
    split at h
    · cases h; simp_all
    · split at h
      · cases h; simp_all [squeezeFrame, squeezeNodes]
      · split at h
        · cases h; simp_all
        · cases h; simp_all
  | close n =>
    simp only [step] at h ⊢
    split at h
    · rename_i hc
      cases st with
      | nil => cases h
      | cons p ps =>
        simp only at h
        split at h
        · rename_i hn
          cases h
          simp only [hc, if_true, List.map_cons, show (squeezeFrame top).name = top.name from rfl, hn]
          rw [squeezeFrame_push]
          rfl
        · cases h
    · cases h; simp_all
  | attr n as k =>
    simp only [step] at h ⊢
    split at h
    · cases h; simp_all
    · split at h
      · cases h; simp_all
      · cases h; simp_all
  | eq n as k =>
    simp only [step] at h ⊢
    split at h
    · cases h; simp_all
    · cases h
  | val n as k v =>
    simp only [step] at h ⊢
    split at h
    · rename_i hc
      obtain ⟨f, hf, rfl⟩ := Option.map_eq_some_iff.mp h
      simp [hc, hf]
    · cases h; simp_all
  | tag n as =>
    simp only [step] at h ⊢
    split at h
    · cases h; simp_all
    · split at h
      · cases h; simp_all [squeezeFrame, squeezeNodes]
      · split at h
        · cases h; simp_all
        · cases h
  | slash n as =>
    simp only [step] at h ⊢
    split at h
    · cases h; simp_all [squeezeFrame_push, squeezeNodes]
    · cases h

/-- The variables of the minifier when the reader is at `r`: `base` was written before, and what was
written since leads the reader from `s0` to the minified state. -/
def InStep (base : Str) (s0 : Reader) (r : Reader) (s : MinState) : Prop :=
  s.inTag = decide (zoneOf r.mode ≠ .text) ∧ s.inStr = decide (zoneOf r.mode = .val) ∧
  match r.mode with
  | .text raw => ∃ o, s.out.reverse = base ++ o ++ spaced '>' raw ∧ '<' ∉ raw ∧ s.prev = raw.getLast?.getD '>' ∧
      steps s0 o = some ⟨squeezeFrame r.top, r.stack.map squeezeFrame, .text []⟩
  | m => ∃ o, s.out.reverse = base ++ o ∧ steps s0 o = some ⟨squeezeFrame r.top, r.stack.map squeezeFrame, m⟩

theorem inStep_of {base : Str} {s0 : Reader} {top : Frame} {st : List Frame} {m : Mode} {s : MinState}
    (hm : zoneOf m ≠ .text ∨ m = .text []) (h1 : s.inTag = decide (zoneOf m ≠ .text))
    (h2 : s.inStr = decide (zoneOf m = .val)) (h3 : zoneOf m = .text → s.prev = '>') {o : Str}
    (h4 : s.out.reverse = base ++ o) (h5 : steps s0 o = some ⟨squeezeFrame top, st.map squeezeFrame, m⟩) :
    InStep base s0 ⟨top, st, m⟩ s := by
  refine ⟨h1, h2, ?_⟩
  rcases hm with hm | rfl
  · cases m with
    | text raw => exact absurd rfl hm
    | _ => exact ⟨o, h4, h5⟩
  · exact ⟨o, by simpa [spaced] using h4, by simp, by simpa using h3 rfl, h5⟩

/-- After a tag no text has been read. -/
theorem text_fresh {r r' : Reader} {c : Char} (hm : zoneOf r.mode ≠ .text) (h : step r c = some r') :
    zoneOf r'.mode ≠ .text ∨ r'.mode = .text [] := by
  obtain ⟨top, st, m⟩ := r
  cases m with
  | text raw => exact absurd rfl hm
  | lt =>
    simp only [step] at h
    split at h
    · cases h; simp [zoneOf]
    · split at h
      · cases h
      · cases h; simp [zoneOf]
  | name n =>
    simp only [step] at h
    split at h
    · cases h; simp [zoneOf]
    · split at h
      · cases h; simp
      · split at h <;> (cases h; simp [zoneOf])
  | close n =>
    simp only [step] at h
    split at h
    · split at h
      · cases h
      · split at h
        · cases h; simp
        · cases h
    · cases h; simp [zoneOf]
  | attr n as k =>
    simp only [step] at h
    split at h
    · cases h; simp [zoneOf]
    · split at h <;> (cases h; simp [zoneOf])
  | eq n as k =>
    simp only [step] at h
    split at h
    · cases h; simp [zoneOf]
    · cases h
  | val n as k v =>
    simp only [step] at h
    split at h
    · obtain ⟨f, _, rfl⟩ := Option.map_eq_some_iff.mp h
      simp [zoneOf]
    · cases h; simp [zoneOf]
  | tag n as =>
    simp only [step] at h
    split at h
    · cases h; simp [zoneOf]
    · split at h
      · cases h; simp
      · split at h
        · cases h; simp [zoneOf]
        · cases h
  | slash n as =>
    simp only [step] at h
    split at h
    · cases h; simp
    · cases h

/-- In a tag the minifier copies. -/
theorem min_tag {z z' : Zone} {c : Char} {s : MinState} (hz : z ≠ .text) (h : zstep z c = some z')
    (h1 : s.inTag = decide (z ≠ .text)) (h2 : s.inStr = decide (z = .val)) :
    s.step c = { inTag := decide (z' ≠ .text), inStr := decide (z' = .val), prev := c, out := c :: s.out } ∧
      (z' = .text → c = '>') := by
  obtain ⟨it, is, p, o⟩ := s
  simp only at h1 h2
  subst h1 h2
  cases z <;> simp only [zstep] at h
  case text => exact absurd rfl hz
  all_goals
    repeat' split at h
    all_goals first
      | cases h
      | skip
    all_goals
      simp_all [MinState.step]

theorem inStep_step {base : Str} {s0 r r' : Reader} {s : MinState} {c : Char} {z : Zone} (hi : InStep base s0 r s)
    (h : step r c = some r') (hz : zstep (zoneOf r.mode) c = some z) : InStep base s0 r' (s.step c) := by
  obtain ⟨h1, h2, h3⟩ := hi
  have hz' := zone_step h hz
  by_cases hm : zoneOf r.mode = .text
  · obtain ⟨top, st, m⟩ := r
    cases m with
    | text raw =>
      simp only at h3
      obtain ⟨o, e1, e2, e3, e4⟩ := h3
      simp only [zoneOf] at h1 h2 hz
      simp only [ne_eq, not_true_eq_false, decide_false, reduceCtorEq] at h1 h2
      simp only [step] at h
      split at h
      · rename_i hc
        subst hc
        obtain ⟨f, hf, rfl⟩ := Option.map_eq_some_iff.mp h
        have ht : ∃ t, readText raw = some t := by
          unfold flush at hf
          split at hf
          · rename_i hr; exact ⟨[], by rw [hr]; rfl⟩
          · obtain ⟨t, ht, _⟩ := Option.map_eq_some_iff.mp hf
            exact ⟨t, ht⟩
        obtain ⟨t, ht⟩ := ht
        rw [flush_of ht] at hf
        cases hf
        have hpop : (s.popBlank).reverse = base ++ o ++ squeeze raw := by
          have he : (s.prev = ' ' || s.prev = '\n' || s.prev = '\t') = endsBlank raw := by
            rw [e3]
            unfold endsBlank
            cases raw.getLast? <;> rfl
          unfold MinState.popBlank squeeze
          rw [he]
          split
          · rename_i hb
            have hne : spaced '>' raw ≠ [] := spaced_ne_nil (by decide) (by rintro rfl; simp [endsBlank] at hb)
            rw [← List.dropLast_reverse, e1, List.dropLast_append_of_ne_nil hne]
          · exact e1
        have hst : s.step '<' = { s with inTag := true, out := '<' :: s.popBlank, prev := '<' } := by
          simp [MinState.step, h2]
        rw [hst]
        refine inStep_of (o := o ++ squeeze raw ++ ['<']) (.inl (by simp [zoneOf])) (by simp [zoneOf])
          (by simpa [zoneOf] using h2) (by simp [zoneOf]) (by simp [hpop]) ?_
        rw [List.append_assoc, steps_append, e4, Option.bind_some, steps_append, steps_text _ _ _ _ (fun hm => by
          rcases mem_squeeze hm with hm | hm
          · exact absurd hm (by decide)
          · exact e2 hm), Option.bind_some]
        simp [steps, step, flush_of (readText_squeeze ht), squeezeFrame, squeezeNodes_append, squeezeNodes_textNode]
      · rename_i hc
        cases h
        have hq : c ≠ '"' := by
          intro e
          subst e
          simp [zstep] at hz
        refine ⟨?_, ?_, ?_⟩
        · unfold MinState.step
          rw [if_neg hq]
          simp only [hc, zoneOf, h1, h2]
          split
          · simp_all
          · split
            · simp_all
            · split <;> simp_all
        · unfold MinState.step
          rw [if_neg hq]
          simp only [hc, zoneOf, h1, h2]
          split
          · simp_all
          · split
            · simp_all
            · split <;> simp_all
        · refine ⟨o, ?_, by simpa using ⟨e2, fun e => hc e.symm⟩, ?_, e4⟩
          · rw [spaced_snoc, ← e3, ← List.append_assoc, ← e1]
            have hb : isBlank c = blankChar c := by
              simp only [isBlank, blankChar]
              cases decide (c = ' ') <;> cases decide (c = '\n') <;> cases decide (c = '\t') <;> simp
            unfold MinState.step
            rw [if_neg hq]
            simp only [hc, h1, h2, hb]
            by_cases hg : c = '>'
            · subst hg; simp [blankChar]
            · by_cases hk : blankChar c = true
              · by_cases hp : s.prev = ' ' <;> simp [hg, hk, hp]
              · simp [hg, hk]
          · have : (s.step c).prev = c := by
              unfold MinState.step
              split
              · rfl
              · split
                · rfl
                · split
                  · rfl
                  · split <;> rfl
            simp [this]
    | attr n as k => by_cases hk : k = [] <;> simp [zoneOf, hk] at hm
    | _ => simp [zoneOf] at hm
  · obtain ⟨hmin, hgt⟩ := min_tag hm hz h1 h2
    obtain ⟨top, st, m⟩ := r
    have h3' : ∃ o, s.out.reverse = base ++ o ∧ steps s0 o = some ⟨squeezeFrame top, st.map squeezeFrame, m⟩ := by
      cases m with
      | text raw => exact absurd rfl hm
      | _ => exact h3
    obtain ⟨o, e1, e2⟩ := h3'
    rw [hmin]
    refine inStep_of (o := o ++ [c]) (text_fresh hm h) (by rw [← hz']) (by rw [← hz']) (fun e => hgt (hz'.trans e))
      (by simp [e1]) ?_
    rw [steps_append, e2, Option.bind_some]
    simp [steps, step_squeeze hm h]

theorem inStep_steps {base : Str} {s0 : Reader} {x : Str} : ∀ {r r' : Reader} {s : MinState} {z : Zone},
    InStep base s0 r s → steps r x = some r' → zsteps (zoneOf r.mode) x = some z →
    InStep base s0 r' (x.foldl MinState.step s) := by
  induction x with
  | nil => intro r r' s z hi h _; simp only [steps, Option.some.injEq] at h; subst h; exact hi
  | cons c x ih =>
    intro r r' s z hi h hz
    simp only [steps, Option.bind_eq_some_iff] at h
    simp only [zsteps, Option.bind_eq_some_iff] at hz
    obtain ⟨r1, h1, h2⟩ := h
    obtain ⟨z1, g1, g2⟩ := hz
    have := zone_step h1 g1
    subst this
    exact ih (inStep_step hi h1 g1) h2 g2

theorem minimize_decl (r : Str) : minimizeXml (xmlDecl ++ '<' :: r) =
    (r.foldl MinState.step ⟨true, false, '<', ('<' :: (xmlDecl.dropLast).reverse)⟩).out.reverse := by
  have : xmlDecl.foldl MinState.step MinState.init = ⟨false, false, '\n', ' ' :: (xmlDecl.dropLast).reverse⟩ := by
    decide +kernel
  unfold minimizeXml
  rw [List.foldl_append, this]
  rfl

/-- What is read from a minified document. -/
theorem document_minimize {x : Str} {ks : List Node} (h : ReadsAs x ks) (hs : ∃ r, x = '<' :: r)
    (hz : zsteps .text x = some .text) : document (minimizeXml (xmlDecl ++ x)) = some (squeezeNodes ks) := by
  obtain ⟨r, rfl⟩ := hs
  have h0 := h ⟨[], [], []⟩ []
  have e : steps ⟨⟨[], [], []⟩, [], .text []⟩ ('<' :: r) = steps ⟨⟨[], [], []⟩, [], .lt⟩ r := rfl
  rw [e] at h0
  have ez : zsteps .text ('<' :: r) = zsteps .lt r := rfl
  rw [ez] at hz
  have hi : InStep (xmlDecl.dropLast ++ ['<']) ⟨⟨[], [], []⟩, [], .lt⟩ ⟨⟨[], [], []⟩, [], .lt⟩
      ⟨true, false, '<', ('<' :: (xmlDecl.dropLast).reverse)⟩ :=
    ⟨rfl, rfl, ⟨[], by simp, rfl⟩⟩
  obtain ⟨-, -, o, e1, -, -, e2⟩ := inStep_steps hi h0 hz
  rw [minimize_decl, e1]
  have ed : ∀ o : Str, document (xmlDecl.dropLast ++ ['<'] ++ o ++ spaced '>' []) = parse ('<' :: o) := by
    intro o
    rw [spaced, List.append_nil, List.append_assoc]
    krfl
  rw [ed, parse]
  have : steps ⟨⟨[], [], []⟩, [], .text []⟩ ('<' :: o) = steps ⟨⟨[], [], []⟩, [], .lt⟩ o := rfl
  rw [this, e2]
  rfl

/-- The element that is built from a minified document. -/
theorem parse_minimize {x : Str} {n : Str} {as : List (Str × Str)} {ks : List Node} (h : ReadsAs x [.elem n as ks])
    (hs : ∃ r, x = '<' :: r) (hz : zsteps .text x = some .text) :
    document (minimizeXml (xmlDecl ++ x)) = some [.elem n as (squeezeNodes ks)] := by
  rw [document_minimize h hs hz]
  rfl

end PptRs
