import Verif.Model.External
import Verif.Lemmas.Sort
import Verif.Lemmas.Str
import Verif.Lemmas.Rels

/-!
# Temporary files (C109) and the order of imported pages (C110)
-/

namespace PptRs.Props

open PptRs PptRs.External

theorem fsSet_same (fs : Fs) (p : Str) (v : Option Bytes) : fs.set p v p = v := if_pos rfl

theorem fsSet_other {fs : Fs} {p q : Str} {v : Option Bytes} (h : q ≠ p) : fs.set p v q = fs q := if_neg h

/-! ### C109 -/

/-- What is known of a call and its temporary file. -/
def JobInv (fs : Fs) (j : Job) : JobState → Prop
  | .start => fs j.temp = none
  | .written => fs j.temp = j.data ∧ j.data ≠ none
  | .removing r => r = .finished j.data ∨ (r = .notStarted ∧ j.early = false)
  | .done .noData => fs j.temp = none
  | .done .notWritten => True
  | .done .notStarted => j.early = false → fs j.temp = none
  | .done (.finished seen) => seen = j.data ∧ fs j.temp = none

theorem jobInv_congr {fs fs' : Fs} {j : Job} (h : fs' j.temp = fs j.temp) {st : JobState} (hi : JobInv fs j st) : JobInv fs' j st := by
  match st with
  | .start => exact h.trans hi
  | .written => exact ⟨h.trans hi.1, hi.2⟩
  | .removing r => exact hi
  | .done .noData => exact h.trans hi
  | .done .notWritten => trivial
  | .done .notStarted => exact fun e => h.trans (hi e)
  | .done (.finished seen) => exact ⟨hi.1, h.trans hi.2⟩

/-- A step keeps what is known of the call that makes it, and does not touch the temporary files of others. -/
theorem jobStep_inv {j : Job} {isTemp : Str → Prop} (hj : isTemp j.temp) {fs fs' : Fs} {st st' : JobState}
    (h : j.Step isTemp fs st fs' st') (hi : JobInv fs j st) :
    JobInv fs' j st' ∧ ∀ p, isTemp p → p ≠ j.temp → fs' p = fs p := by
  cases h with
  | noData hd => exact ⟨hi, fun _ _ _ => rfl⟩
  | write hd => exact ⟨⟨by rw [fsSet_same, hd], by rw [hd]; simp⟩, fun p _ hp => fsSet_other hp⟩
  | writeFails left hd => exact ⟨trivial, fun p _ hp => fsSet_other hp⟩
  | work hw => exact ⟨.inl (by rw [hi.1]), fun p hp _ => hw p hp⟩
  | notStarted =>
    refine ⟨?_, fun _ _ _ => rfl⟩
    cases he : j.early with
    | true =>
      show j.early = false → _
      intro e; rw [he] at e; cases e
    | false => exact .inr ⟨rfl, he⟩
  | remove =>
    refine ⟨?_, fun p _ hp => fsSet_other hp⟩
    rcases hi with rfl | ⟨rfl, he⟩
    · exact ⟨rfl, fsSet_same ..⟩
    · exact fun _ => fsSet_same ..

/-- The names of the temporary files are different. -/
def Distinct (cs : List (Job × JobState)) : Prop :=
  ∀ (i k : Nat) (a b : Job × JobState), cs[i]? = some a → cs[k]? = some b → i ≠ k → a.1.temp ≠ b.1.temp

/-- The calls with their names stay the same. -/
theorem step_jobs {m m' : Jobs} (h : Jobs.Step m m') : m'.calls.map Prod.fst = m.calls.map Prod.fst := by
  cases h with
  | step i hi _ =>
    apply List.ext_getElem?
    intro k
    rw [List.map_set, List.getElem?_set]
    split
    · rename_i e
      subst e
      rw [List.getElem?_map, hi]
      have hl : i < m.calls.length := (List.getElem?_eq_some_iff.mp hi).1
      simp [hl]
    · rfl

theorem distinct_of_map {a b : List (Job × JobState)} (h : b.map Prod.fst = a.map Prod.fst) (hd : Distinct a) : Distinct b := by
  intro i k x y hx hy hne
  have h1 : (a.map Prod.fst)[i]? = some x.1 := by rw [← h, List.getElem?_map, hx]; rfl
  have h2 : (a.map Prod.fst)[k]? = some y.1 := by rw [← h, List.getElem?_map, hy]; rfl
  rw [List.getElem?_map, Option.map_eq_some_iff] at h1 h2
  obtain ⟨x', hx', e1⟩ := h1
  obtain ⟨y', hy', e2⟩ := h2
  rw [← e1, ← e2]
  exact hd i k x' y' hx' hy' hne

theorem machineStep_inv {m m' : Jobs} (hd : Distinct m.calls) (h : Jobs.Step m m')
    (hi : ∀ (i : Nat) (j : Job) (st : JobState), m.calls[i]? = some (j, st) → JobInv m.fs j st) :
    ∀ (i : Nat) (j : Job) (st : JobState), m'.calls[i]? = some (j, st) → JobInv m'.fs j st := by
  cases h with
  | @step i j st st' fs' hc hs =>
    have hj : m.isTemp j.temp := ⟨(j, st), List.mem_of_getElem? hc, rfl⟩
    obtain ⟨h1, h2⟩ := jobStep_inv hj hs (hi i j st hc)
    intro k jk sk hk
    rw [List.getElem?_set] at hk
    split at hk
    · split at hk
      · cases hk; exact h1
      · cases hk
    · rename_i hne
      exact jobInv_congr (h2 _ ⟨_, List.mem_of_getElem? hk, rfl⟩ (hd k i _ _ hk hc (Ne.symm hne))) (hi k jk sk hk)

theorem runs_inv {m m' : Jobs} (hr : Jobs.Runs m m') (hd : Distinct m.calls)
    (hi : ∀ (i : Nat) (j : Job) (st : JobState), m.calls[i]? = some (j, st) → JobInv m.fs j st) :
    m'.calls.map Prod.fst = m.calls.map Prod.fst ∧ ∀ (i : Nat) (j : Job) (st : JobState), m'.calls[i]? = some (j, st) → JobInv m'.fs j st := by
  induction hr with
  | refl => exact ⟨rfl, hi⟩
  | step _ hs ih => exact ⟨(step_jobs hs).trans ih.1, machineStep_inv (distinct_of_map ih.1 hd) hs ih.2⟩

/-- Calls that have not begun, with names for temporary files that are not in use. -/
def Fresh (m : Jobs) : Prop := Distinct m.calls ∧ ∀ c ∈ m.calls, c.2 = .start ∧ m.fs c.1.temp = none

theorem fresh_inv {m : Jobs} (h : Fresh m) : ∀ (i : Nat) (j : Job) (st : JobState), m.calls[i]? = some (j, st) → JobInv m.fs j st := by
  intro i j st hc
  obtain ⟨h1, h2⟩ := h.2 _ (List.mem_of_getElem? hc)
  simp only at h1 h2
  subst h1
  exact h2

/-- **C109.** Any number of calls with different names for their temporary files, in every interleaving and whatever
fails: a call that did its work did it on what it had written itself, and its temporary file is gone; so it is if there
was nothing to write or if, in a call that does not return at once, the work could not be started. What is missing: a
file that could not be written completely, calls that return at once, and calls that share a name, see below. -/
theorem C109_partial {m m' : Jobs} (h : Fresh m) (hr : Jobs.Runs m m') {i : Nat} {j : Job} {r : JobResult}
    (hc : m'.calls[i]? = some (j, .done r)) :
    (∀ seen, r = .finished seen → seen = j.data ∧ m'.fs j.temp = none) ∧
    (r = .noData → m'.fs j.temp = none) ∧
    (r = .notStarted → j.early = false → m'.fs j.temp = none) := by
  have hi := (runs_inv hr h.1 (fresh_inv h)).2 i j _ hc
  refine ⟨?_, ?_, ?_⟩
  · rintro seen rfl; exact hi
  · rintro rfl; exact hi
  · rintro rfl he; exact hi he

/-- **C109.** In `compress` and `analyze_size` the only way to leave the temporary file behind is a failed write. -/
theorem C109_compress {m m' : Jobs} (h : Fresh m) (hr : Jobs.Runs m m') {i : Nat} {d id : Str} {data : Option Bytes}
    {r : JobResult} (hw : r ≠ .notWritten) {j : Job} (hj : j = compressJob d id data ∨ j = analyzeJob d id data)
    (hc : m'.calls[i]? = some (j, .done r)) : m'.fs j.temp = none := by
  have he : j.early = false := by rcases hj with rfl | rfl <;> rfl
  obtain ⟨h1, h2, h3⟩ := C109_partial h hr hc
  cases r with
  | noData => exact h2 rfl
  | notWritten => exact absurd rfl hw
  | notStarted => exact h3 rfl he
  | finished seen => exact (h1 seen rfl).2

/-- The calls that use generated identifiers. -/
inductive IdJob (dir : Str) (id : Str) (data : Option Bytes) : Job → Prop
  | png : IdJob dir id data (pngJob dir id data)
  | compress : IdJob dir id data (compressJob dir id data)
  | analyze : IdJob dir id data (analyzeJob dir id data)

/-- **C109.** Calls with different identifiers have different temporary files, whichever calls they are. -/
theorem C109_names {dir id id' : Str} {data data' : Option Bytes} {a b : Job} (ha : IdJob dir id data a) (hb : IdJob dir id' data' b)
    (h : id ≠ id') : a.temp ≠ b.temp := by
  cases ha <;> cases hb <;> simp [pngJob, compressJob, analyzeJob, List.append_assoc, h]

theorem runs_trans {a b c : Jobs} (h1 : Jobs.Runs a b) (h2 : Jobs.Runs b c) : Jobs.Runs a c := by
  induction h2 with
  | refl => exact h1
  | step _ hs ih => exact .step ih hs

/-- **C109 does not hold in full.** If `pdftoppm` cannot be started, for example because it is not installed, every export
to PNG leaves its temporary PDF behind. -/
theorem C109_violated_tool_missing (dir id : Str) (d : Bytes) (fs : Fs) :
    ∃ m', Jobs.Runs ⟨fs, [(pngJob dir id (some d), .start)]⟩ m' ∧ m'.calls = [(pngJob dir id (some d), .done .notStarted)] ∧
      m'.fs (dir ++ c!"/ppt_rs_temp_" ++ id ++ c!".pdf") = some d := by
  refine ⟨⟨fs.set (dir ++ c!"/ppt_rs_temp_" ++ id ++ c!".pdf") (some d), [(pngJob dir id (some d), .done .notStarted)]⟩, ?_, rfl, fsSet_same ..⟩
  refine .step (.step .refl (.step 0 rfl (.write rfl))) (.step 0 (j := pngJob dir id (some d)) (st := .written) rfl .notStarted)

/-- **C109 does not hold in full.** If the temporary file cannot be written completely, for example on a full disk, what has
been written of it stays there, in every function that uses a temporary file. -/
theorem C109_violated_disk_full (j : Job) (d left : Bytes) (hd : j.data = some d) (fs : Fs) :
    ∃ m', Jobs.Runs ⟨fs, [(j, .start)]⟩ m' ∧ m'.calls = [(j, .done .notWritten)] ∧ m'.fs j.temp = some left :=
  ⟨_, .step .refl (.step 0 rfl (.writeFails (some left) hd)), rfl, fsSet_same ..⟩

/-- **C109 does not hold in full.** The export to images always uses the same temporary file: of two exports at the same
time the first one can export the slides of the second one. -/
theorem C109_violated_mixed_up (dir : Str) (d e : Bytes) (fs : Fs) :
    ∃ m', Jobs.Runs ⟨fs, [(imagesJob dir (some d), .start), (imagesJob dir (some e), .start)]⟩ m' ∧
      m'.calls[0]? = some (imagesJob dir (some d), .done (.finished (some e))) := by
  let t := dir ++ c!"/temp_export.pptx"
  have s1 : Jobs.Step ⟨fs, [(imagesJob dir (some d), .start), (imagesJob dir (some e), .start)]⟩
      ⟨fs.set t (some d), [(imagesJob dir (some d), .written), (imagesJob dir (some e), .start)]⟩ := .step 0 rfl (.write rfl)
  have s2 : Jobs.Step ⟨fs.set t (some d), [(imagesJob dir (some d), .written), (imagesJob dir (some e), .start)]⟩
      ⟨(fs.set t (some d)).set t (some e), [(imagesJob dir (some d), .written), (imagesJob dir (some e), .written)]⟩ :=
    .step 1 rfl (.write rfl)
  have s3 : Jobs.Step ⟨(fs.set t (some d)).set t (some e), [(imagesJob dir (some d), .written), (imagesJob dir (some e), .written)]⟩
      ⟨(fs.set t (some d)).set t (some e), [(imagesJob dir (some d), .removing (.finished (((fs.set t (some d)).set t (some e)) t))),
        (imagesJob dir (some e), .written)]⟩ := .step 0 rfl (.work fun _ _ => rfl)
  rw [fsSet_same] at s3
  exact ⟨_, .step (.step (.step (.step .refl s1) s2) s3) (.step 0 rfl .remove), rfl⟩

/-- **C109 does not hold in full.** The export to images always uses the same temporary file: of two exports at the same
time the second one can find its file removed by the first one. -/
theorem C109_violated_removed (dir : Str) (d e : Bytes) (fs : Fs) :
    ∃ m', Jobs.Runs ⟨fs, [(imagesJob dir (some d), .start), (imagesJob dir (some e), .start)]⟩ m' ∧
      m'.calls[1]? = some (imagesJob dir (some e), .removing (.finished none)) := by
  let t := dir ++ c!"/temp_export.pptx"
  have s1 : Jobs.Step ⟨fs, [(imagesJob dir (some d), .start), (imagesJob dir (some e), .start)]⟩
      ⟨fs.set t (some d), [(imagesJob dir (some d), .written), (imagesJob dir (some e), .start)]⟩ := .step 0 rfl (.write rfl)
  have s2 : Jobs.Step ⟨fs.set t (some d), [(imagesJob dir (some d), .written), (imagesJob dir (some e), .start)]⟩
      ⟨(fs.set t (some d)).set t (some e), [(imagesJob dir (some d), .written), (imagesJob dir (some e), .written)]⟩ :=
    .step 1 rfl (.write rfl)
  have s3 : Jobs.Step ⟨(fs.set t (some d)).set t (some e), [(imagesJob dir (some d), .written), (imagesJob dir (some e), .written)]⟩
      ⟨(fs.set t (some d)).set t (some e), [(imagesJob dir (some d), .removing (.finished (((fs.set t (some d)).set t (some e)) t))),
        (imagesJob dir (some e), .written)]⟩ := .step 0 rfl (.work fun _ _ => rfl)
  rw [fsSet_same] at s3
  have s4 : Jobs.Step ⟨(fs.set t (some d)).set t (some e), [(imagesJob dir (some d), .removing (.finished (some e))),
        (imagesJob dir (some e), .written)]⟩
      ⟨((fs.set t (some d)).set t (some e)).set t none, [(imagesJob dir (some d), .done (.finished (some e))),
        (imagesJob dir (some e), .written)]⟩ := .step 0 rfl .remove
  have s5 : Jobs.Step ⟨((fs.set t (some d)).set t (some e)).set t none, [(imagesJob dir (some d), .done (.finished (some e))),
        (imagesJob dir (some e), .written)]⟩
      ⟨((fs.set t (some d)).set t (some e)).set t none, [(imagesJob dir (some d), .done (.finished (some e))),
        (imagesJob dir (some e), .removing (.finished ((((fs.set t (some d)).set t (some e)).set t none) t)))]⟩ :=
    .step 1 rfl (.work fun _ _ => rfl)
  rw [fsSet_same] at s5
  exact ⟨_, .step (.step (.step (.step (.step .refl s1) s2) s3) s4) s5, rfl⟩

example : Fresh ⟨fun _ => none, [(pngJob c!"/tmp" c!"1" (some [1]), .start), (compressJob c!"/tmp" c!"2" (some [2]), .start)]⟩ := by
  refine ⟨?_, ?_⟩
  · intro i k a b ha hb hne
    match i, k with
    | 0, 0 => exact absurd rfl hne
    | 0, 1 => cases ha; cases hb; decide
    | 1, 0 => cases ha; cases hb; decide
    | 1, 1 => exact absurd rfl hne
    | i + 2, _ => cases ha
    | _, k + 2 => cases hb
  · intro c hc
    simp only [List.mem_cons, List.not_mem_nil, or_false] at hc
    rcases hc with rfl | rfl <;> exact ⟨rfl, rfl⟩

/-! ### C110 -/

/-- The file of a page, with any number of zeros before the number, as `pdftoppm` names it. -/
def pageName (zeros k : Nat) : Str := c!"page-" ++ List.replicate zeros '0' ++ dec k ++ c!".png"

theorem mem_digits {zeros k : Nat} {c : Char} (h : c ∈ List.replicate zeros '0' ++ dec k) : c.isDigit = true := by
  rcases List.mem_append.mp h with h | h
  · rw [(List.mem_replicate.mp h).2]; decide
  · exact isDigit_of_mem_dec h

theorem ofDigitChars_zeros (zeros : Nat) (s : Str) : Nat.ofDigitChars 10 (List.replicate zeros '0' ++ s) 0 = Nat.ofDigitChars 10 s 0 := by
  induction zeros with
  | zero => rfl
  | succ n ih =>
    rw [List.replicate_succ, List.cons_append, Nat.ofDigitChars_cons]
    exact ih

theorem parseU32_zeros {zeros k : Nat} (h : k < 4294967296) : parseU32? (List.replicate zeros '0' ++ dec k) = some k := by
  have hk := parseU32_dec h
  have hne : List.replicate zeros '0' ++ dec k ≠ [] := by simp [dec_ne_nil]
  have hp : dropPlus (List.replicate zeros '0' ++ dec k) = List.replicate zeros '0' ++ dec k := by
    cases e : List.replicate zeros '0' ++ dec k with
    | nil => rfl
    | cons c r =>
      have : c.isDigit = true := mem_digits (zeros := zeros) (k := k) (by rw [e]; simp)
      unfold dropPlus
      split
      · rename_i h'; cases h'; cases this
      · rfl
  have hp' : dropPlus (dec k) = dec k := by
    cases e : dec k with
    | nil => rfl
    | cons c r =>
      have : c.isDigit = true := isDigit_of_mem_dec (n := k) (by rw [e]; simp)
      unfold dropPlus
      split
      · rename_i h'; cases h'; cases this
      · rfl
  unfold parseU32? at hk ⊢
  simp only [hp, hp', dec_ne_nil, hne, if_false] at hk ⊢
  have ha : (List.replicate zeros '0' ++ dec k).all isDig = true := by
    rw [List.all_eq_true]
    exact fun c hc => mem_digits hc
  have ha' : (dec k).all isDig = true := by
    rw [List.all_eq_true]
    exact fun c hc => isDigit_of_mem_dec hc
  rw [if_pos ha'] at hk
  rw [if_pos ha, ofDigitChars_zeros]
  exact hk

theorem pageKey_pageName {zeros k : Nat} (h : k < 4294967296) : pageKey (pageName zeros k) = k := by
  have hd : ∀ c ∈ List.replicate zeros '0' ++ dec k, c ≠ '-' ∧ c ≠ '.' := by
    intro c hc
    have := mem_digits hc
    exact ⟨(fun e => by rw [e] at this; cases this), (fun e => by rw [e] at this; cases this)⟩
  have e1 : rsplitOnceChar? '-' (pageName zeros k) = some (c!"page", List.replicate zeros '0' ++ dec k ++ c!".png") := by
    have := rsplitOnceChar?_append (c := '-') (a := c!"page") (b := List.replicate zeros '0' ++ dec k ++ c!".png") (by
      intro hm
      rcases List.mem_append.mp hm with hm | hm
      · exact (hd _ hm).1 rfl
      · revert hm; decide)
    rw [← this]
    simp [pageName]
  have e2 : rsplitOnceChar? '.' (pageName zeros k) = some (c!"page-" ++ (List.replicate zeros '0' ++ dec k), c!"png") := by
    have := rsplitOnceChar?_append (c := '.') (a := c!"page-" ++ (List.replicate zeros '0' ++ dec k)) (b := c!"png") (by decide)
    rw [← this]
    simp [pageName]
  unfold pageKey
  rw [e1, e2]
  simp only
  rw [if_pos (by simp)]
  have : (c!"page-" ++ (List.replicate zeros '0' ++ dec k)).drop (c!"page".length + 1) = List.replicate zeros '0' ++ dec k := rfl
  rw [this, parseU32_zeros h]
  rfl

theorem fileExt_pageName (zeros k : Nat) : fileExt (pageName zeros k) = some c!"png" := by
  have e2 : rsplitOnceChar? '.' (pageName zeros k) = some (c!"page-" ++ (List.replicate zeros '0' ++ dec k), c!"png") := by
    have := rsplitOnceChar?_append (c := '.') (a := c!"page-" ++ (List.replicate zeros '0' ++ dec k)) (b := c!"png") (by decide)
    rw [← this]
    simp [pageName]
  unfold fileExt
  rw [e2]
  simp

/-- The pages in their order. -/
def pageNames (pad : Nat → Nat) (n : Nat) : List Str := (List.range n).map fun i => pageName (pad (i + 1)) (i + 1)

theorem sort_pages {pad : Nat → Nat} {n : Nat} (hn : n < 4294967296) {names : List Str} (h : names.Perm (pageNames pad n)) :
    sortByKey pageKey names = pageNames pad n := by
  have hp := (sortByKey_perm pageKey names).trans h
  refine hp.eq_of_pairwise (le := fun a b => pageKey a ≤ pageKey b) ?_ (sortByKey_sorted pageKey names) ?_
  · intro a b ha hb h1 h2
    have ha := hp.mem_iff.mp ha
    simp only [pageNames, List.mem_map, List.mem_range] at ha hb
    obtain ⟨i, hi, rfl⟩ := ha
    obtain ⟨k, hk, rfl⟩ := hb
    rw [pageKey_pageName (by omega), pageKey_pageName (by omega)] at h1 h2
    have : i = k := by omega
    rw [this]
  · unfold pageNames
    rw [List.pairwise_map]
    refine List.Pairwise.imp_of_mem ?_ (List.pairwise_lt_range (n := n))
    intro i k hi hk hik
    rw [List.mem_range] at hi hk
    rw [pageKey_pageName (by omega), pageKey_pageName (by omega)]
    omega

/-- **C110.** Whatever the order in which the directory is read and however the numbers are padded, a PDF of `n` pages
becomes a deck of `n` slides in the order of the pages, named like the file, and no directory is left behind. -/
theorem C110_order {α : Type} (w : PdfWorld α) {pad : Nat → Nat} {n : Nat} (hn : n < 4294967296) {names : List Str}
    (hf : w.found = true) (hm : w.made = true) (ht : w.tool = some true) (hl : w.listing = some names)
    (hp : names.Perm (pageNames pad n)) {img : Str → α} (hi : ∀ x ∈ names, w.load x = some (img x)) (name : Str) :
    fromPdf w name = (some (fileStem name, (pageNames pad n).map img), false) := by
  unfold fromPdf
  rw [hf, hm, ht, hl]
  simp only [Bool.not_true, Bool.false_eq_true, if_false]
  rw [sort_pages hn hp]
  have e : (pageNames pad n).filter (fun n => fileExt n = some c!"png") = pageNames pad n := by
    rw [List.filter_eq_self]
    intro x hx
    simp only [pageNames, List.mem_map] at hx
    obtain ⟨i, _, rfl⟩ := hx
    simp [fileExt_pageName]
  rw [e]
  have : (pageNames pad n).mapM w.load = some ((pageNames pad n).map img) := by
    have hi' : ∀ x ∈ pageNames pad n, w.load x = some (img x) := fun x hx => hi x (hp.mem_iff.mpr hx)
    generalize pageNames pad n = l at hi'
    induction l with
    | nil => rfl
    | cons x l ih =>
      rw [List.mapM_cons, hi' x (by simp), ih (fun y hy => hi' y (by simp [hy]))]
      rfl
  rw [this]

/-- **C110.** The name of a file without its last extension. -/
theorem C110_title {a e : Str} (ha : a ≠ []) (he : '.' ∉ e) : fileStem (a ++ '.' :: e) = a := by
  unfold fileStem
  rw [rsplitOnceChar?_append he]
  simp [ha]

example : pageNames (fun k => if k < 10 then 1 else 0) 10 = [c!"page-01.png", c!"page-02.png", c!"page-03.png", c!"page-04.png",
    c!"page-05.png", c!"page-06.png", c!"page-07.png", c!"page-08.png", c!"page-09.png", c!"page-10.png"] := by decide

example : (fromPdf ⟨true, true, some true, some [c!"page-10.png", c!"page-2.png"], some⟩ c!"a.pdf")
    = (some (c!"a", [c!"page-2.png", c!"page-10.png"]), false) := by decide +kernel

/-- **C109 does not hold in full.** The import of a PDF leaves its directory of page images behind if `pdftoppm` cannot be
started, if the directory cannot be read, or if one of the images cannot be loaded; it does not if the import succeeds. -/
theorem C109_violated_import {α : Type} (w : PdfWorld α) (name : Str) (hf : w.found = true) (hm : w.made = true) :
    (w.tool = none → (fromPdf w name).2 = true) ∧
    (w.tool = some true → w.listing = none → (fromPdf w name).2 = true) ∧
    (∀ x, w.tool = some true → w.listing = some [pageName 0 x] → w.load (pageName 0 x) = none → (fromPdf w name).2 = true) ∧
    ((fromPdf w name).1.isSome = true → (fromPdf w name).2 = false) := by
  unfold fromPdf
  rw [hf, hm]
  simp only [Bool.not_true, Bool.false_eq_true, if_false]
  refine ⟨fun h => by rw [h], fun h h' => by rw [h, h'], fun x h h' hl => ?_, ?_⟩
  · rw [h, h']
    simp only [sortByKey, insertByKey]
    rw [List.filter_cons_of_pos (by simp [fileExt_pageName])]
    simp [hl]
  · split
    · intro h; cases h
    · intro h; cases h
    · split
      · intro h; cases h
      · split
        · intro h; cases h
        · intro _; rfl

end PptRs.Props
