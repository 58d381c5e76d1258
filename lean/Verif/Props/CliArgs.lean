import Verif.Model.CliArgs
import Verif.Lemmas.Str
import Mathlib.Data.List.Nodup
import Mathlib.Data.List.Perm.Basic

/-!
# The arguments of the command line tool (C174)
-/

namespace PptRs.Props

open PptRs PptRs.CliArgs

/-- A piece of a command line: an argument, or an option in one of its spellings. -/
inductive Spec.Piece where
  | arg (s : Str)
  | opt (name v : Str)
  | eq (name v : Str)
  | short (c : Char) (name v : Str)
  | flag (name : Str)

/-- The arguments of a piece. -/
def Spec.Piece.write : Spec.Piece → List Str
  | .arg s => [s]
  | .opt name v => [c!"--" ++ name, v]
  | .eq name v => [c!"--" ++ name ++ c!"=" ++ v]
  | .short c _ v => [['-', c], v]
  | .flag name => [c!"--" ++ name]

/-- The arguments without names. -/
def Spec.Piece.arg? : Spec.Piece → Option Str
  | .arg s => some s
  | _ => none

/-- The options. -/
def Spec.Piece.opt? : Spec.Piece → Option (Str × Option Str)
  | .arg _ => none
  | .opt name v => some (name, some v)
  | .eq name v => some (name, some v)
  | .short _ name v => some (name, some v)
  | .flag name => some (name, none)

/-- Does the command have an option of this name for this value? -/
def Spec.takes (opts : List Opt) (name v : Str) : Prop :=
  ∃ o ∈ opts, o.long = name ∧ o.kind ≠ .flag ∧ o.kind.accepts v = true

/-- A piece that the help of the command allows. Arguments that begin with a hyphen are not among them. -/
def Spec.Piece.allowed (opts : List Opt) : Spec.Piece → Prop
  | .arg s => s.head? ≠ some '-'
  | .opt name v => Spec.takes opts name v ∧ v.head? ≠ some '-'
  | .eq name v => Spec.takes opts name v
  | .short c name v => (∃ o ∈ opts, o.long = name ∧ o.short = some c ∧ o.kind ≠ .flag ∧ o.kind.accepts v = true) ∧ v.head? ≠ some '-'
  | .flag name => ∃ o ∈ opts, o.long = name ∧ o.kind = .flag

/-- Options that can be told apart: different names and letters, no name empty or with an equals sign, no letter a hyphen. -/
def OptsGood (opts : List Opt) : Prop :=
  (opts.map (·.long)).Nodup ∧ (opts.filterMap (·.short)).Nodup ∧ (∀ o ∈ opts, o.long ≠ [] ∧ '=' ∉ o.long) ∧ ∀ o ∈ opts, o.short ≠ some '-'

instance (opts : List Opt) : Decidable (OptsGood opts) := by unfold OptsGood; infer_instance

theorem subs_good (s : Sub) : OptsGood s.options := by cases s <;> decide +kernel

theorem find_long {opts : List Opt} (h : OptsGood opts) {o : Opt} (ho : o ∈ opts) : opts.find? (fun p => p.long = o.long) = some o := by
  obtain ⟨h, -⟩ := h
  induction opts with
  | nil => simp at ho
  | cons p opts ih =>
    rw [List.map_cons, List.nodup_cons] at h
    rcases List.mem_cons.1 ho with rfl | ho
    · simp
    · have : p.long ≠ o.long := fun e => h.1 (e ▸ List.mem_map_of_mem ho)
      rw [List.find?_cons_of_neg (by simpa using this)]
      exact ih ho h.2

theorem find_short {opts : List Opt} (h : OptsGood opts) {o : Opt} (ho : o ∈ opts) {c : Char} (hc : o.short = some c) :
    opts.find? (fun p => p.short = some c) = some o := by
  obtain ⟨-, h, -⟩ := h
  induction opts with
  | nil => simp at ho
  | cons p opts ih =>
    rcases List.mem_cons.1 ho with rfl | ho
    · simp [hc]
    · have hp : p.short ≠ some c := by
        intro e
        rw [List.filterMap_cons_some e, List.nodup_cons] at h
        exact h.1 (List.mem_filterMap.2 ⟨o, ho, hc⟩)
      rw [List.find?_cons_of_neg (by simpa using hp)]
      refine ih ho ?_
      rw [List.filterMap_cons] at h
      split at h
      · exact h
      · exact (List.nodup_cons.1 h).2

theorem splitEq_none {s : Str} (h : '=' ∉ s) : splitEq s = (s, none) := by
  induction s with
  | nil => rfl
  | cons c s ih =>
    simp only [List.mem_cons, not_or] at h
    rw [splitEq, if_neg (Ne.symm h.1), ih h.2]

theorem splitEq_some {s : Str} (h : '=' ∉ s) (v : Str) : splitEq (s ++ c!"=" ++ v) = (s, some v) := by
  induction s with
  | nil => rfl
  | cons c s ih =>
    simp only [List.mem_cons, not_or] at h
    rw [List.cons_append, List.cons_append, splitEq, if_neg (Ne.symm h.1), ih h.2]

theorem undashed {v : Str} (h : v.head? ≠ some '-') : dashed v = false := by
  cases v with
  | nil => rfl
  | cons c v =>
    have hc : c ≠ '-' := by simpa using h
    unfold dashed
    split
    · rename_i h'
      exact absurd (List.cons.inj h').1 hc
    · rfl

theorem step_arg (opts : List Opt) (r : Raw) {s : Str} (h : s.head? ≠ some '-') :
    step opts { raw := r } s = some { raw := { r with pos := r.pos ++ [s] } } := by
  cases s with
  | nil => rfl
  | cons c s =>
    have hc : c ≠ '-' := by simpa using h
    unfold step
    simp only [Bool.false_eq_true, if_false]
    split
    · rename_i h'; exact absurd (List.cons.inj h').1 hc
    · rename_i h'; exact absurd (List.cons.inj h').1 hc
    · rfl

theorem step_long (opts : List Opt) (r : Raw) {s : Str} (h : s ≠ []) : step opts { raw := r } (c!"--" ++ s) = readLong opts { raw := r } s := by
  show (if s = [] then _ else readLong opts { raw := r } s) = _
  rw [if_neg h]

theorem take_new (r : Raw) (w : Option Opt) (o : Opt) (v : Option Str) (hn : o.long ∉ r.opts.map (·.1)) (hv : v.all o.kind.accepts = true) :
    State.take { raw := r, waiting := w } o v = some { raw := { r with opts := r.opts ++ [(o.long, v)] } } := by
  unfold State.take
  rw [if_neg, if_pos hv]
  simpa using hn

theorem step_value (opts : List Opt) (r : Raw) (o : Opt) (v : Str) (hd : v.head? ≠ some '-') (hn : o.long ∉ r.opts.map (·.1))
    (hv : o.kind.accepts v = true) :
    step opts { raw := r, waiting := some o } v = some { raw := { r with opts := r.opts ++ [(o.long, some v)] } } := by
  unfold step
  simp only [Bool.false_eq_true, if_false, undashed hd]
  exact take_new r (some o) o (some v) hn hv

/-- A piece is read as what it stands for. -/
theorem piece_read {opts : List Opt} (hg : OptsGood opts) (r : Raw) (p : Spec.Piece) (hp : p.allowed opts)
    (hn : ∀ x ∈ p.opt?, x.1 ∉ r.opts.map (·.1)) :
    p.write.foldlM (step opts) { raw := r } = some { raw := ⟨r.pos ++ p.arg?.toList, r.opts ++ p.opt?.toList⟩ } := by
  cases p with
  | arg s =>
    show (step opts { raw := r } s).bind (fun st => some st) = _
    rw [step_arg opts r hp]
    simp [Spec.Piece.arg?, Spec.Piece.opt?]
  | opt name v =>
    obtain ⟨⟨o, ho, rfl, hk, hv⟩, hd⟩ := hp
    obtain ⟨h1, h2⟩ := hg.2.2.1 o ho
    have e : readLong opts { raw := r } o.long = some { raw := r, waiting := some o } := by
      unfold readLong
      rw [splitEq_none h2]
      simp only [find_long hg ho, Option.bind_some]
    show (step opts { raw := r } (c!"--" ++ o.long)).bind (fun st => (step opts st v).bind fun st => some st) = _
    rw [step_long opts r h1, e, Option.bind_some, step_value opts r o v hd (hn _ rfl) hv]
    simp [Spec.Piece.arg?, Spec.Piece.opt?]
  | eq name v =>
    obtain ⟨o, ho, rfl, hk, hv⟩ := hp
    obtain ⟨h1, h2⟩ := hg.2.2.1 o ho
    have e : readLong opts { raw := r } (o.long ++ c!"=" ++ v) = State.take { raw := r } o (some v) := by
      unfold readLong
      rw [splitEq_some h2]
      simp only [find_long hg ho, Option.bind_some]
    show (step opts { raw := r } (c!"--" ++ o.long ++ c!"=" ++ v)).bind (fun st => some st) = _
    rw [List.append_assoc, List.append_assoc, step_long opts r (by simp [h1]), ← List.append_assoc, e,
      take_new r none o (some v) (hn _ rfl) hv]
    simp [Spec.Piece.arg?, Spec.Piece.opt?]
  | short c name v =>
    obtain ⟨⟨o, ho, rfl, hc, hk, hv⟩, hd⟩ := hp
    have hc' : c ≠ '-' := fun e => hg.2.2.2 o ho (e ▸ hc)
    have e : step opts { raw := r } ['-', c] = some { raw := r, waiting := some o } := by
      have e' : step opts { raw := r } ['-', c] = readShort opts { raw := r } [c] := by
        unfold step
        simp only [Bool.false_eq_true, if_false]
        first
          | done
          | (split
             · rename_i h'
               exact absurd (List.cons.inj (List.cons.inj h').2).1 hc'
             · rename_i h'
               obtain ⟨rfl, rfl⟩ := List.cons.inj (List.cons.inj h').2
               rfl
             · rename_i h1 h2
               exact absurd rfl (h2 c []))
      rw [e', readShort, find_short hg ho hc, Option.bind_some]
      cases hkk : o.kind
      · exact absurd hkk hk
      all_goals rfl
    show (step opts { raw := r } ['-', c]).bind (fun st => (step opts st v).bind fun st => some st) = _
    rw [e, Option.bind_some, step_value opts r o v hd (hn _ rfl) hv]
    simp [Spec.Piece.arg?, Spec.Piece.opt?]
  | flag name =>
    obtain ⟨o, ho, rfl, hk⟩ := hp
    obtain ⟨h1, h2⟩ := hg.2.2.1 o ho
    have e : readLong opts { raw := r } o.long = State.take { raw := r } o none := by
      unfold readLong
      rw [splitEq_none h2]
      simp only [find_long hg ho, Option.bind_some, hk]
    show (step opts { raw := r } (c!"--" ++ o.long)).bind (fun st => some st) = _
    rw [step_long opts r h1, e, take_new r none o none (hn _ rfl) rfl]
    simp [Spec.Piece.arg?, Spec.Piece.opt?]

theorem pieces_read {opts : List Opt} (hg : OptsGood opts) (ps : List Spec.Piece) : ∀ (r : Raw), (∀ p ∈ ps, p.allowed opts) →
    ((r.opts ++ ps.filterMap Spec.Piece.opt?).map (·.1)).Nodup →
    (ps.flatMap Spec.Piece.write).foldlM (step opts) { raw := r } =
      some { raw := ⟨r.pos ++ ps.filterMap Spec.Piece.arg?, r.opts ++ ps.filterMap Spec.Piece.opt?⟩ } := by
  induction ps with
  | nil => intro r _ _; simp
  | cons p ps ih =>
    intro r hp hn
    have hx : ∀ x ∈ p.opt?, x.1 ∉ r.opts.map (·.1) := by
      intro x hx hm
      rw [List.map_append, List.nodup_append] at hn
      exact hn.2.2 _ hm _ (List.mem_map_of_mem (List.mem_filterMap.2 ⟨p, List.mem_cons_self, hx⟩)) rfl
    have e1 : (p :: ps).filterMap Spec.Piece.opt? = p.opt?.toList ++ ps.filterMap Spec.Piece.opt? := by
      cases h : p.opt? <;> simp [h]
    have e2 : (p :: ps).filterMap Spec.Piece.arg? = p.arg?.toList ++ ps.filterMap Spec.Piece.arg? := by
      cases h : p.arg? <;> simp [h]
    rw [List.flatMap_cons, List.foldlM_append, piece_read hg r p (hp p List.mem_cons_self) hx]
    show List.foldlM (step opts) _ _ = _
    rw [ih _ (fun q hq => hp q (List.mem_cons_of_mem _ hq)) (by rw [List.append_assoc, ← e1]; exact hn), e1, e2]
    simp

theorem escaped_read (opts : List Opt) (more : List Str) : ∀ (r : Raw),
    more.foldlM (step opts) { raw := r, escaped := true } = some { raw := { r with pos := r.pos ++ more }, escaped := true } := by
  induction more with
  | nil => intro r; simp
  | cons a more ih =>
    intro r
    rw [List.foldlM_cons]
    show List.foldlM (step opts) { raw := { r with pos := r.pos ++ [a] }, escaped := true } more = _
    rw [ih]
    simp

/-- **C174.** A command line of allowed pieces, in any order, with every option at most once, is read as its arguments in order and its
options; behind `--` everything is an argument. -/
theorem C174_read (s : Sub) (ps : List Spec.Piece) (more : List Str) (hp : ∀ p ∈ ps, p.allowed s.options)
    (hn : ((ps.filterMap Spec.Piece.opt?).map (·.1)).Nodup) :
    readArgs s.options (ps.flatMap Spec.Piece.write) = some ⟨ps.filterMap Spec.Piece.arg?, ps.filterMap Spec.Piece.opt?⟩ ∧
    readArgs s.options (ps.flatMap Spec.Piece.write ++ c!"--" :: more) =
      some ⟨ps.filterMap Spec.Piece.arg? ++ more, ps.filterMap Spec.Piece.opt?⟩ := by
  have h := pieces_read (subs_good s) ps {} hp (by simpa using hn)
  simp only [List.nil_append] at h
  constructor
  · unfold readArgs
    rw [h]
    rfl
  · unfold readArgs
    rw [List.foldlM_append, h]
    show (List.foldlM (step s.options) { raw := _, escaped := true } more).bind _ = _
    rw [escaped_read]
    rfl

theorem find_perm {α : Type} {a b : List (Str × α)} (h : a.Perm b) (hn : (a.map (·.1)).Nodup) (name : Str) :
    a.find? (fun p => p.1 = name) = b.find? (fun p => p.1 = name) := by
  induction h with
  | nil => rfl
  | cons x _ ih =>
    rw [List.map_cons, List.nodup_cons] at hn
    rw [List.find?_cons, List.find?_cons, ih hn.2]
  | swap x y l =>
    simp only [List.map_cons, List.nodup_cons, List.mem_cons, not_or] at hn
    simp only [List.find?_cons]
    by_cases h1 : x.1 = name <;> by_cases h2 : y.1 = name
    · exact absurd (h2.trans h1.symm) hn.1.1
    all_goals simp [h1, h2]
  | trans h1 _ ih1 ih2 => rw [ih1 hn, ih2 ((h1.map _).nodup_iff.1 hn)]

theorem build_perm (s : Sub) (pos : List Str) {a b : List (Str × Option Str)} (h : a.Perm b) (hn : (a.map (·.1)).Nodup) :
    build s ⟨pos, a⟩ = build s ⟨pos, b⟩ := by
  have hv : ∀ name, Raw.value ⟨pos, a⟩ name = Raw.value ⟨pos, b⟩ name := fun name => by
    unfold Raw.value
    rw [find_perm h hn]
  have hh : ∀ name, Raw.has ⟨pos, a⟩ name = Raw.has ⟨pos, b⟩ name := fun name => by
    unfold Raw.has
    exact h.any_eq
  have hm : ∀ name d, Raw.number ⟨pos, a⟩ name d = Raw.number ⟨pos, b⟩ name d := fun name d => by
    unfold Raw.number
    rw [hv]
  cases s <;> simp only [build, hv, hh, hm]

/-- **C174.** It does not matter where the options stand and in which of their spellings: command lines with the same arguments in order
and the same options mean the same. -/
theorem C174_order (s : Sub) (name : Str) (hs : subNamed name = some s) (ps qs : List Spec.Piece) (hp : ∀ p ∈ ps, p.allowed s.options)
    (hq : ∀ q ∈ qs, q.allowed s.options) (hn : ((ps.filterMap Spec.Piece.opt?).map (·.1)).Nodup)
    (ha : ps.filterMap Spec.Piece.arg? = qs.filterMap Spec.Piece.arg?)
    (ho : (ps.filterMap Spec.Piece.opt?).Perm (qs.filterMap Spec.Piece.opt?)) :
    parseLine (name :: ps.flatMap Spec.Piece.write) = parseLine (name :: qs.flatMap Spec.Piece.write) := by
  simp only [parseLine, hs]
  rw [Option.bind_some, Option.bind_some, (C174_read s ps [] hp hn).1, (C174_read s qs [] hq ((ho.map _).nodup_iff.1 hn)).1,
    Option.bind_some, Option.bind_some, ← ha]
  exact build_perm s _ ho hn

/-! ### What the commands get -/

theorem value_iff {pos : List Str} {opts : List (Str × Option Str)} (hn : (opts.map (·.1)).Nodup) (name v : Str) :
    Raw.value ⟨pos, opts⟩ name = some v ↔ (name, some v) ∈ opts := by
  unfold Raw.value
  induction opts with
  | nil => simp
  | cons p opts ih =>
    rw [List.map_cons, List.nodup_cons] at hn
    obtain ⟨a, b⟩ := p
    by_cases ha : a = name
    · subst ha
      have : ∀ w, (a, w) ∉ opts := fun w hw => hn.1 (List.mem_map.2 ⟨_, hw, rfl⟩)
      simp only [List.find?_cons, decide_true, Option.bind_some, List.mem_cons, Prod.mk.injEq, true_and, this, or_false]
      exact eq_comm
    · have h1 := ih hn.2
      simp only [List.find?_cons, ha, decide_false, List.mem_cons, Prod.mk.injEq, Ne.symm ha, false_and, false_or]
      exact h1

theorem has_iff (pos : List Str) (opts : List (Str × Option Str)) (name : Str) :
    Raw.has ⟨pos, opts⟩ name = true ↔ ∃ v, (name, v) ∈ opts := by
  unfold Raw.has
  simp only [List.any_eq_true, decide_eq_true_eq]
  constructor
  · rintro ⟨⟨a, v⟩, h, rfl⟩
    exact ⟨v, h⟩
  · rintro ⟨v, h⟩
    exact ⟨_, h, rfl⟩

/-- A text option: given, or not. -/
def Spec.Text (opts : List (Str × Option Str)) (name : Str) (x : Option Str) : Prop := ∀ v, x = some v ↔ (name, some v) ∈ opts

/-- A number: as it is written, with or without a plus sign, or the default. -/
def Spec.Number (opts : List (Str × Option Str)) (name : Str) (d n : Nat) : Prop :=
  (∀ k, k < 18446744073709551616 → ((name, some (dec k)) ∈ opts ∨ (name, some ('+' :: dec k)) ∈ opts) → n = k) ∧
    ((∀ v, (name, v) ∉ opts) → n = d)

/-- A flag: true if it is given. -/
def Spec.Flag (opts : List (Str × Option Str)) (name : Str) (b : Bool) : Prop := b = true ↔ ∃ v, (name, v) ∈ opts

theorem parseUsize_dec {n : Nat} (h : n < 18446744073709551616) : parseUsize? (dec n) = some n ∧ parseUsize? ('+' :: dec n) = some n := by
  have hv : Nat.ofDigitChars 10 (dec n) 0 = n := by simp [dec]
  have ha : (dec n).all isDig = true := List.all_eq_true.2 fun c hc => isDigit_of_mem_dec hc
  have hd : dropPlus (dec n) = dec n := by
    unfold dropPlus
    split
    · rename_i t e
      exact absurd (e ▸ List.mem_cons_self : '+' ∈ dec n) (not_mem_dec (by decide))
    · rfl
  have hp : dropPlus ('+' :: dec n) = dec n := rfl
  constructor
  · unfold parseUsize?
    simp only [hd, hv]
    rw [if_pos ⟨dec_ne_nil n, ha, h⟩]
  · unfold parseUsize?
    simp only [hp, hv]
    rw [if_pos ⟨dec_ne_nil n, ha, h⟩]

theorem number_spec {pos : List Str} {opts : List (Str × Option Str)} (hn : (opts.map (·.1)).Nodup) (name : Str) (d : Nat) :
    Spec.Number opts name d (Raw.number ⟨pos, opts⟩ name d) := by
  constructor
  · intro k hk h
    unfold Raw.number
    rcases h with h | h
    · rw [(value_iff hn name _).2 h, Option.bind_some, (parseUsize_dec hk).1]; rfl
    · rw [(value_iff hn name _).2 h, Option.bind_some, (parseUsize_dec hk).2]; rfl
  · intro h
    unfold Raw.number
    have : Raw.value ⟨pos, opts⟩ name = none := by
      apply Option.eq_none_iff_forall_ne_some.2
      intro v hv
      exact h _ ((value_iff hn name v).1 hv)
    rw [this]
    rfl

theorem line_built (s : Sub) (name : Str) (hs : subNamed name = some s) (ps : List Spec.Piece) (hp : ∀ p ∈ ps, p.allowed s.options)
    (hn : ((ps.filterMap Spec.Piece.opt?).map (·.1)).Nodup) :
    parseLine (name :: ps.flatMap Spec.Piece.write) = build s ⟨ps.filterMap Spec.Piece.arg?, ps.filterMap Spec.Piece.opt?⟩ := by
  simp only [parseLine, hs]
  rw [Option.bind_some, (C174_read s ps [] hp hn).1, Option.bind_some]

/-- **C174.** What `create` gets: the output, and title, number of slides and template as they are given. -/
theorem C174_create (ps : List Spec.Piece) (output : Str) (hp : ∀ p ∈ ps, p.allowed Sub.create.options)
    (hn : ((ps.filterMap Spec.Piece.opt?).map (·.1)).Nodup) (ha : ps.filterMap Spec.Piece.arg? = [output]) :
    ∃ title slides template, parseLine (c!"create" :: ps.flatMap Spec.Piece.write) = some (.create output title slides template) ∧
      Spec.Text (ps.filterMap Spec.Piece.opt?) c!"title" title ∧ Spec.Number (ps.filterMap Spec.Piece.opt?) c!"slides" 1 slides ∧
      Spec.Text (ps.filterMap Spec.Piece.opt?) c!"template" template := by
  rw [line_built .create _ (by decide +kernel) ps hp hn, ha]
  exact ⟨_, _, _, rfl, value_iff hn _, number_spec hn _ _, value_iff hn _⟩

/-- **C174.** What `md2ppt` gets, under each of its names. -/
theorem C174_md2ppt (name : Str) (hs : name ∈ [c!"md2ppt", c!"from-md", c!"from-markdown"]) (ps : List Spec.Piece) (input : Str)
    (output : Option Str) (hp : ∀ p ∈ ps, p.allowed Sub.md2ppt.options) (hn : ((ps.filterMap Spec.Piece.opt?).map (·.1)).Nodup)
    (ha : ps.filterMap Spec.Piece.arg? = input :: output.toList) :
    ∃ title, parseLine (name :: ps.flatMap Spec.Piece.write) = some (.md2ppt input output title) ∧
      Spec.Text (ps.filterMap Spec.Piece.opt?) c!"title" title := by
  have : subNamed name = some .md2ppt := by
    simp only [List.mem_cons, List.not_mem_nil, or_false] at hs
    rcases hs with rfl | rfl | rfl <;> decide +kernel
  rw [line_built .md2ppt _ this ps hp hn, ha]
  cases output <;> exact ⟨_, rfl, value_iff hn _⟩

/-- **C174.** What `html2ppt` gets, under each of its names, and what the importer is told: at most fifty slides and ten bullets unless
other numbers are given, and pictures, tables and code unless they are switched off. -/
theorem C174_html2ppt (name : Str) (hs : name ∈ [c!"html2ppt", c!"from-html", c!"from-html-file"]) (ps : List Spec.Piece) (input : Str)
    (output : Option Str) (hp : ∀ p ∈ ps, p.allowed Sub.html2ppt.options) (hn : ((ps.filterMap Spec.Piece.opt?).map (·.1)).Nodup)
    (ha : ps.filterMap Spec.Piece.arg? = input :: output.toList) :
    ∃ title n m a b c, parseLine (name :: ps.flatMap Spec.Piece.write) = some (.html2ppt input output title n m a b c) ∧
      Spec.Text (ps.filterMap Spec.Piece.opt?) c!"title" title ∧
      ∃ o : HtmlOptions, Command.htmlOptions (.html2ppt input output title n m a b c) = some o ∧
        Spec.Number (ps.filterMap Spec.Piece.opt?) c!"max-slides" 50 o.maxSlides ∧
        Spec.Number (ps.filterMap Spec.Piece.opt?) c!"max-bullets" 10 o.maxBullets ∧
        Spec.Flag (ps.filterMap Spec.Piece.opt?) c!"no-images" (!o.includeImages) ∧
        Spec.Flag (ps.filterMap Spec.Piece.opt?) c!"no-tables" (!o.includeTables) ∧
        Spec.Flag (ps.filterMap Spec.Piece.opt?) c!"no-code" (!o.includeCode) := by
  have : subNamed name = some .html2ppt := by
    simp only [List.mem_cons, List.not_mem_nil, or_false] at hs
    rcases hs with rfl | rfl | rfl <;> decide +kernel
  rw [line_built .html2ppt _ this ps hp hn, ha]
  cases output <;>
    exact ⟨_, _, _, _, _, _, rfl, value_iff hn _, _, rfl, number_spec hn _ _, number_spec hn _ _,
      by rw [Bool.not_not]; exact has_iff _ _ _, by rw [Bool.not_not]; exact has_iff _ _ _, by rw [Bool.not_not]; exact has_iff _ _ _⟩

/-- **C174.** What `web2ppt` gets, and what the converter is told. -/
theorem C174_web2ppt (ps : List Spec.Piece) (url : Str) (hp : ∀ p ∈ ps, p.allowed Sub.web2ppt.options)
    (hn : ((ps.filterMap Spec.Piece.opt?).map (·.1)).Nodup) (ha : ps.filterMap Spec.Piece.arg? = [url]) :
    ∃ output title n m a b c d t v, parseLine (c!"web2ppt" :: ps.flatMap Spec.Piece.write) = some (.web2ppt url output title n m a b c d t v) ∧
      (∀ o, (c!"output", some o) ∈ ps.filterMap Spec.Piece.opt? → output = o) ∧
      ((∀ o, (c!"output", o) ∉ ps.filterMap Spec.Piece.opt?) → output = c!"output.pptx") ∧
      ∃ cfg, Command.webOptions (.web2ppt url output title n m a b c d t v) = some cfg ∧
        Spec.Text (ps.filterMap Spec.Piece.opt?) c!"title" cfg.2.title ∧
        Spec.Number (ps.filterMap Spec.Piece.opt?) c!"max-slides" 20 cfg.1.maxSlides ∧
        Spec.Number (ps.filterMap Spec.Piece.opt?) c!"max-bullets" 7 cfg.1.maxBullets ∧
        Spec.Number (ps.filterMap Spec.Piece.opt?) c!"timeout" 30 cfg.1.timeout ∧
        Spec.Flag (ps.filterMap Spec.Piece.opt?) c!"no-images" (!cfg.1.images) ∧
        Spec.Flag (ps.filterMap Spec.Piece.opt?) c!"no-tables" (!cfg.1.tables) ∧
        Spec.Flag (ps.filterMap Spec.Piece.opt?) c!"no-code" (!cfg.1.code) ∧
        Spec.Flag (ps.filterMap Spec.Piece.opt?) c!"no-source-url" (!cfg.2.source) ∧ cfg.1.group = true := by
  rw [line_built .web2ppt _ (by decide +kernel) ps hp hn, ha]
  refine ⟨_, _, _, _, _, _, _, _, _, _, rfl, fun o h => ?_, fun h => ?_, _, rfl, ?_⟩
  · rw [(value_iff hn _ _).2 h]; rfl
  · have : Raw.value ⟨[url], ps.filterMap Spec.Piece.opt?⟩ c!"output" = none := by
      apply Option.eq_none_iff_forall_ne_some.2
      intro v hv
      exact h _ ((value_iff hn _ v).1 hv)
    rw [this]
    rfl
  · cases ht : Raw.value ⟨[url], ps.filterMap Spec.Piece.opt?⟩ c!"title" <;>
      exact ⟨fun v => by rw [← value_iff hn (pos := [url]), ht]; rfl, number_spec hn _ _, number_spec hn _ _, number_spec hn _ _,
        by rw [Spec.Flag, ← has_iff [url]]; simp [WebOptions.apply], by rw [Spec.Flag, ← has_iff [url]]; simp [WebOptions.apply],
        by rw [Spec.Flag, ← has_iff [url]]; simp [WebOptions.apply], by rw [Spec.Flag, ← has_iff [url]]; simp [WebOptions.apply], rfl⟩

/-- **C174.** What the other commands get: `info`, `validate`, `export`, `merge` and `pdf2ppt`. -/
theorem C174_others (s : Sub) (ps : List Spec.Piece) (hp : ∀ p ∈ ps, p.allowed s.options)
    (hn : ((ps.filterMap Spec.Piece.opt?).map (·.1)).Nodup) :
    (∀ file, s = .info → ps.filterMap Spec.Piece.arg? = [file] → parseLine (c!"info" :: ps.flatMap Spec.Piece.write) = some (.info file)) ∧
    (∀ file, s = .validate → ps.filterMap Spec.Piece.arg? = [file] → ∃ json,
      parseLine (c!"validate" :: ps.flatMap Spec.Piece.write) = some (.validate file json) ∧
      Spec.Flag (ps.filterMap Spec.Piece.opt?) c!"json" json) ∧
    (∀ input output, s = .exportFile → ps.filterMap Spec.Piece.arg? = [input, output] → ∃ format,
      parseLine (c!"export" :: ps.flatMap Spec.Piece.write) = some (.exportFile input output (format.bind formatNamed)) ∧
      Spec.Text (ps.filterMap Spec.Piece.opt?) c!"format" format) ∧
    (∀ inputs output, s = .merge → ps.filterMap Spec.Piece.arg? = inputs → inputs ≠ [] →
      (c!"output", some output) ∈ ps.filterMap Spec.Piece.opt? →
      parseLine (c!"merge" :: ps.flatMap Spec.Piece.write) = some (.merge output inputs)) ∧
    ∀ input output, s = .pdf2ppt → ps.filterMap Spec.Piece.arg? = input :: Option.toList output →
      parseLine (c!"pdf2ppt" :: ps.flatMap Spec.Piece.write) = some (.pdf2ppt input output) := by
  refine ⟨?_, ?_, ?_, ?_, ?_⟩
  · rintro file rfl ha
    rw [line_built .info _ (by decide +kernel) ps hp hn, ha]
    rfl
  · rintro file rfl ha
    rw [line_built .validate _ (by decide +kernel) ps hp hn, ha]
    exact ⟨_, rfl, has_iff _ _ _⟩
  · rintro input output rfl ha
    rw [line_built .exportFile _ (by decide +kernel) ps hp hn, ha]
    exact ⟨_, rfl, value_iff hn _⟩
  · rintro inputs output rfl ha hi ho
    rw [line_built .merge _ (by decide +kernel) ps hp hn, ha]
    cases inputs with
    | nil => exact absurd rfl hi
    | cons a l =>
      show Option.map _ (Raw.value _ _) = _
      rw [(value_iff hn _ _).2 ho]
      rfl
  · rintro input output rfl ha
    rw [line_built .pdf2ppt _ (by decide +kernel) ps hp hn, ha]
    cases output <;> rfl

/-! ### What is refused -/

/-- An option as it is declared: a flag without a value, or with one that is allowed. -/
def Spec.declared (opts : List Opt) (p : Str × Option Str) : Prop :=
  ∃ o ∈ opts, o.long = p.1 ∧ match p.2 with
    | none => o.kind = .flag
    | some v => o.kind ≠ .flag ∧ o.kind.accepts v = true

/-- What holds while arguments are read. -/
structure ArgsInv (opts : List Opt) (args : List Str) (st : State) : Prop where
  names : (st.raw.opts.map (·.1)).Nodup
  known : ∀ p ∈ st.raw.opts, Spec.declared opts p
  args : st.raw.pos.Sublist args
  waits : ∀ o, st.waiting = some o → o ∈ opts

theorem take_inv {opts : List Opt} {args : List Str} {st st' : State} (h : ArgsInv opts args st) {o : Opt} (ho : o ∈ opts) {v : Option Str}
    (hf : v = none → o.kind = .flag) (e : st.take o v = some st') : ArgsInv opts args st' ∧ st'.waiting = none := by
  unfold State.take at e
  split at e
  · simp at e
  rename_i hn
  split at e
  · rename_i hv
    simp only [Option.some.injEq] at e
    subst e
    refine ⟨⟨?_, ?_, h.args, by simp⟩, rfl⟩
    · rw [List.map_append, List.nodup_append]
      refine ⟨h.names, by simp, ?_⟩
      intro a ha b hb
      simp only [List.map_cons, List.map_nil, List.mem_singleton] at hb
      subst hb
      rintro rfl
      obtain ⟨p, hp, hp'⟩ := List.mem_map.1 ha
      exact hn (List.any_eq_true.2 ⟨p, hp, by simpa using hp'⟩)
    · intro p hp
      rcases List.mem_append.1 hp with hp | hp
      · exact h.known p hp
      · simp only [List.mem_singleton] at hp
        subst hp
        refine ⟨o, ho, rfl, ?_⟩
        cases v with
        | none => exact hf rfl
        | some v =>
          have hv' : o.kind.accepts v = true := hv
          refine ⟨fun hk => ?_, hv'⟩
          rw [hk] at hv'
          simp [Kind.accepts] at hv'
  · simp at e

theorem wait_inv {opts : List Opt} {args : List Str} {st : State} (h : ArgsInv opts args st) {o : Opt} (ho : o ∈ opts) :
    ArgsInv opts args { st with waiting := some o } :=
  ⟨h.names, h.known, h.args, fun o' e => by simp only [Option.some.injEq] at e; subst e; exact ho⟩

theorem long_inv {opts : List Opt} {args : List Str} {st st' : State} (h : ArgsInv opts args st) {s : Str}
    (e : readLong opts st s = some st') : ArgsInv opts args st' := by
  unfold readLong at e
  rw [Option.bind_eq_some_iff] at e
  obtain ⟨o, ho, e⟩ := e
  have ho' := List.mem_of_find?_eq_some ho
  split at e
  · rename_i hk _
    exact (take_inv h ho' (fun _ => hk) e).1
  · simp at e
  · exact (take_inv h ho' (fun hx => by simp at hx) e).1
  · simp only [Option.some.injEq] at e
    subst e
    exact wait_inv h ho'

theorem short_inv {opts : List Opt} {args : List Str} (s : Str) : ∀ {st st' : State}, ArgsInv opts args st →
    readShort opts st s = some st' → ArgsInv opts args st' := by
  induction s with
  | nil =>
    intro st st' h e
    simp only [readShort, Option.some.injEq] at e
    subst e
    exact h
  | cons c s ih =>
    intro st st' h e
    rw [readShort, Option.bind_eq_some_iff] at e
    obtain ⟨o, ho, e⟩ := e
    have ho' := List.mem_of_find?_eq_some ho
    split at e
    · rename_i hk
      rw [Option.bind_eq_some_iff] at e
      obtain ⟨st1, e1, e⟩ := e
      exact ih (take_inv h ho' (fun _ => hk) e1).1 e
    · split at e
      · simp only [Option.some.injEq] at e
        subst e
        exact wait_inv h ho'
      · exact (take_inv h ho' (fun hx => by simp at hx) e).1
      · exact (take_inv h ho' (fun hx => by simp at hx) e).1

theorem more_inv {opts : List Opt} {args : List Str} {st : State} (h : ArgsInv opts args st) (a : Str) : ArgsInv opts (args ++ [a]) st :=
  ⟨h.names, h.known, h.args.trans (List.sublist_append_left _ _), h.waits⟩

theorem step_inv {opts : List Opt} {args : List Str} {st st' : State} (h : ArgsInv opts args st) {a : Str} (e : step opts st a = some st') :
    ArgsInv opts (args ++ [a]) st' := by
  have hpos : ArgsInv opts (args ++ [a]) { st with raw := { st.raw with pos := st.raw.pos ++ [a] } } :=
    ⟨h.names, h.known, h.args.append (List.Sublist.refl _), h.waits⟩
  unfold step at e
  split at e
  · simp only [Option.some.injEq] at e
    subst e
    exact hpos
  · split at e
    · rename_i o hw
      split at e
      · simp at e
      · exact (take_inv (more_inv h a) (h.waits o hw) (fun hx => by simp at hx) e).1
    · split at e
      · split at e
        · simp only [Option.some.injEq] at e
          subst e
          exact ⟨h.names, h.known, h.args.trans (List.sublist_append_left _ _), h.waits⟩
        · exact long_inv (more_inv h _) e
      · exact short_inv _ (more_inv h _) e
      · simp only [Option.some.injEq] at e
        subst e
        exact hpos

theorem fold_inv {opts : List Opt} (l : List Str) : ∀ {args : List Str} {st st' : State}, ArgsInv opts args st →
    l.foldlM (step opts) st = some st' → ArgsInv opts (args ++ l) st' := by
  induction l with
  | nil =>
    intro args st st' h e
    have : st = st' := by simpa using e
    subst this
    simpa using h
  | cons a l ih =>
    intro args st st' h e
    rw [List.foldlM_cons] at e
    obtain ⟨st1, e1, e2⟩ := Option.bind_eq_some_iff.1 e
    have := ih (step_inv h e1) e2
    simpa using this

/-- **C174.** Whatever command line is accepted, every option is one that the command has, with a value that is allowed for it or as a flag
without one; none is given twice, and the arguments are among those of the line, in order. -/
theorem C174_accepted (s : Sub) (args : List Str) (r : Raw) (h : readArgs s.options args = some r) :
    (∀ p ∈ r.opts, Spec.declared s.options p) ∧ (r.opts.map (·.1)).Nodup ∧ r.pos.Sublist args := by
  unfold readArgs at h
  obtain ⟨st, e, h⟩ := Option.bind_eq_some_iff.1 h
  split at h
  · simp only [Option.some.injEq] at h
    subst h
    have := fold_inv args (args := []) ⟨by simp, by simp, by simp, by simp⟩ e
    exact ⟨this.known, this.names, by simpa using this.args⟩
  · simp at h

/-- **C174.** An option that the command does not have is refused, wherever it stands; so are one without its value and an unknown command. -/
theorem C174_refused (s : Sub) (name : Str) (hs : subNamed name = some s) (ps : List Spec.Piece) (hp : ∀ p ∈ ps, p.allowed s.options)
    (hn : ((ps.filterMap Spec.Piece.opt?).map (·.1)).Nodup) :
    (∀ opt rest, opt ≠ [] → '=' ∉ opt → opt ∉ s.options.map (·.long) →
      parseLine (name :: (ps.flatMap Spec.Piece.write ++ (c!"--" ++ opt) :: rest)) = none) ∧
    (∀ o ∈ s.options, o.kind ≠ .flag → parseLine (name :: (ps.flatMap Spec.Piece.write ++ [c!"--" ++ o.long])) = none) ∧
    ∀ other args, subNamed other = none → parseLine (other :: args) = none := by
  have h := pieces_read (subs_good s) ps {} hp (by simpa using hn)
  refine ⟨fun opt rest h1 h2 h3 => ?_, fun o ho hk => ?_, fun other args ho => by simp [parseLine, ho]⟩
  · simp only [parseLine, hs, Option.bind_some]
    unfold readArgs
    rw [List.foldlM_append, h]
    have e : ∀ r : Raw, step s.options { raw := r } (c!"--" ++ opt) = none := by
      intro r
      rw [step_long _ r h1]
      unfold readLong
      rw [splitEq_none h2]
      have : s.options.find? (fun o => o.long = opt) = none :=
        List.find?_eq_none.2 fun o ho he => h3 (by simp only [decide_eq_true_eq] at he; exact he ▸ List.mem_map_of_mem ho)
      simp only [this, Option.bind_none]
    show (((step s.options _ (c!"--" ++ opt)).bind _ : Option State).bind _).bind _ = none
    rw [e]
    rfl
  · simp only [parseLine, hs, Option.bind_some]
    unfold readArgs
    rw [List.foldlM_append, h]
    obtain ⟨h1, h2⟩ := (subs_good s).2.2.1 o ho
    have e : ∀ r : Raw, step s.options { raw := r } (c!"--" ++ o.long) = some { raw := r, waiting := some o } := by
      intro r
      rw [step_long _ r h1]
      unfold readLong
      rw [splitEq_none h2]
      simp only [find_long (subs_good s) ho, Option.bind_some]
    show (((step s.options _ (c!"--" ++ o.long)).bind _ : Option State).bind _).bind _ = none
    rw [e]
    rfl

/-- **C174 does not hold in full.** A title that begins with a hyphen, such as "-5 degrees", cannot be given as `--title` and a text: the
command line is refused, whatever else it says. Behind an equals sign it can. -/
theorem C174_hyphen_violated (output title : Str) (c : Char) (rest : List Str) (ho : output.head? ≠ some '-') :
    parseLine (c!"create" :: output :: c!"--title" :: ('-' :: c :: title) :: rest) = none ∧
      parseLine [c!"create", output, c!"--title=" ++ ('-' :: c :: title)] = some (.create output (some ('-' :: c :: title)) 1 none) := by
  constructor
  · have hs : subNamed c!"create" = some .create := by decide +kernel
    simp only [parseLine, hs, Option.bind_some]
    unfold readArgs
    rw [List.foldlM_cons, step_arg _ _ ho]
    rfl
  · have := line_built .create c!"create" (by decide +kernel) [.arg output, .eq c!"title" ('-' :: c :: title)]
      (by
        intro p hp
        simp only [List.mem_cons, List.not_mem_nil, or_false] at hp
        rcases hp with rfl | rfl
        · exact ho
        · exact ⟨⟨c!"title", .text, none⟩, by simp [Sub.options], rfl, by simp, rfl⟩)
      (List.nodup_singleton c!"title")
    exact this

/-- **C174 does not hold in full.** Without options the command `web2ppt` does not convert like the library: it puts up to seven bullets on a
slide, and `Web2PptConfig` six. -/
theorem C174_library_violated (url : Str) (hu : url.head? ≠ some '-') :
    ∃ c cfg, parseLine [c!"web2ppt", url] = some c ∧ c.webOptions = some cfg ∧ cfg.1.maxBullets = 7 ∧
      ({} : WebOptions.Config).maxBullets = 6 := by
  have := line_built .web2ppt c!"web2ppt" (by decide +kernel) [.arg url] (by simpa [Spec.Piece.allowed] using hu)
    List.nodup_nil
  exact ⟨_, _, this, rfl, rfl, rfl⟩

/-- **C174.** Which options are switches, which take numbers and which a format; all others take any text. -/
theorem C174_kinds (s : Sub) (o : Opt) (h : o ∈ s.options) :
    (o.kind = .flag ↔ o.long ∈ [c!"json", c!"no-images", c!"no-tables", c!"no-code", c!"no-source-url", c!"verbose"]) ∧
      (o.kind = .number ↔ o.long ∈ [c!"slides", c!"max-slides", c!"max-bullets", c!"timeout"]) ∧ (o.kind = .format ↔ o.long = c!"format") := by
  revert o
  cases s <;> decide +kernel

/-- **C174.** The formats of `export` are the three named, each by its own name. -/
theorem C174_formats (v : Str) :
    (Kind.format.accepts v = true ↔ v ∈ [c!"pdf", c!"html", c!"png"]) ∧ formatNamed c!"pdf" = some .pdf ∧ formatNamed c!"html" = some .html ∧
      formatNamed c!"png" = some .png := by
  refine ⟨?_, by decide +kernel, by decide +kernel, by decide +kernel⟩
  unfold Kind.accepts formatNamed
  by_cases h1 : v = c!"pdf"
  · simp [h1]
  by_cases h2 : v = c!"html"
  · simp [h2]
  by_cases h3 : v = c!"png"
  · simp [h3]
  simp [h1, h2, h3]

/-- **C174.** Only what has a hyphen and something behind it is taken for an option; a single hyphen is an argument like others. -/
theorem C174_hyphen (v : Str) : dashed v = true ↔ v.head? = some '-' ∧ v ≠ c!"-" := by
  unfold dashed
  split
  · simp
  · rename_i h
    cases v with
    | nil => simp
    | cons a l =>
      cases l with
      | nil => simp
      | cons b l =>
        simp only [Bool.false_eq_true, List.head?_cons, Option.some.injEq, false_iff, not_and]
        intro ha
        exact absurd (by rw [ha]) (h b l)

/-- **C174.** A letter with its value directly behind it, with or without an equals sign, is the option with that value. -/
theorem C174_letters (s : Sub) (o : Opt) (ho : o ∈ s.options) (c : Char) (hc : o.short = some c) (hk : o.kind ≠ .flag) (r : Raw)
    (hn : o.long ∉ r.opts.map (·.1)) (v : Str) (hv : o.kind.accepts v = true) :
    step s.options { raw := r } ('-' :: c :: '=' :: v) = some { raw := { r with opts := r.opts ++ [(o.long, some v)] } } ∧
      (v ≠ [] → v.head? ≠ some '=' →
        step s.options { raw := r } ('-' :: c :: v) = some { raw := { r with opts := r.opts ++ [(o.long, some v)] } }) := by
  have hg := subs_good s
  have hd : c ≠ '-' := fun e => hg.2.2.2 o ho (e ▸ hc)
  have hs : ∀ l, step s.options { raw := r } ('-' :: c :: l) = readShort s.options { raw := r } (c :: l) := by
    intro l
    unfold step
    simp only [Bool.false_eq_true, if_false]
  refine ⟨?_, fun h1 h2 => ?_⟩
  · rw [hs, readShort, find_short hg ho hc, Option.bind_some]
    split
    · rename_i e
      exact absurd e hk
    · exact take_new r none o (some v) hn hv
  · rw [hs, readShort, find_short hg ho hc, Option.bind_some]
    split
    · rename_i e
      exact absurd e hk
    · split
      · exact absurd rfl h1
      · simp at h2
      · exact take_new r none o _ hn hv

/-! ### Examples -/

example : parseLine [c!"create", c!"a.pptx", c!"--title", c!"-"] = some (.create c!"a.pptx" (some c!"-") 1 none) := by decide +kernel

example : parseLine [c!"create", c!"--slides", c!"5", c!"a.pptx", c!"--title=T"] = some (.create c!"a.pptx" (some c!"T") 5 none) := by
  decide +kernel

example : parseLine [c!"merge", c!"a.pptx", c!"-o", c!"c.pptx", c!"b.pptx"] = some (.merge c!"c.pptx" [c!"a.pptx", c!"b.pptx"]) := by
  decide +kernel

example : parseLine [c!"web2ppt", c!"u", c!"-voc.pptx"] =
    some (.web2ppt c!"u" c!"c.pptx" none 20 7 false false false false 30 true) := by decide +kernel

example : parseLine [c!"create", c!"a.pptx", c!"--slides", c!"five"] = none := by decide +kernel

example : parseLine [c!"create", c!"--", c!"-a.pptx"] = some (.create c!"-a.pptx" none 1 none) := by decide +kernel

example : parseLine [c!"export", c!"a.pptx", c!"b.out", c!"--format", c!"html"] = some (.exportFile c!"a.pptx" c!"b.out" (some .html)) := by
  decide +kernel

example : parseLine [c!"from-html", c!"a.html", c!"--no-code"] =
    some (.html2ppt c!"a.html" none none 50 10 false false true) := by decide +kernel

example : (Spec.Piece.short 'o' c!"output" c!"x").allowed Sub.merge.options :=
  ⟨⟨⟨c!"output", .text, some 'o'⟩, by simp [Sub.options], rfl, rfl, by simp, rfl⟩, by simp⟩

end PptRs.Props
