import Verif.Spec.Builder
import Verif.Lemmas.Str
import Verif.Lemmas.Xml
import Verif.Lemmas.Rels
import Mathlib.Data.List.Basic
import Mathlib.Data.List.Nodup

/-!
# Lemmas about the package builder
-/

namespace PptRs

open PptRs.Spec

theorem consecutive_eq (a n : Nat) : consecutive a n = List.range' a n := by
  rw [consecutive, List.range'_eq_map_range]

theorem upTo_eq (n : Nat) : upTo n = List.range' 1 n := by
  rw [upTo, List.range'_eq_map_range]
  exact List.map_congr_left fun i _ => Nat.add_comm _ _

@[simp] theorem numNotes_nil : numNotes [] = 0 := rfl
@[simp] theorem numNotes_cons (s : SlideIn) (l : List SlideIn) :
    numNotes (s :: l) = s.notes.isSome.toNat + numNotes l := by
  cases h : s.notes <;> simp [numNotes, h, Nat.add_comm]
@[simp] theorem numInk_nil : numInk [] = 0 := rfl
@[simp] theorem numInk_cons (s : SlideIn) (l : List SlideIn) :
    numInk (s :: l) = s.ink.toNat + numInk l := by
  cases h : s.ink <;> simp [numInk, h, Nat.add_comm]
@[simp] theorem numCharts_nil : numCharts [] = 0 := rfl
@[simp] theorem numCharts_cons (s : SlideIn) (l : List SlideIn) :
    numCharts (s :: l) = s.charts + numCharts l := by simp [numCharts]

theorem notesCount_eq (l : List SlideIn) : notesCount l = numNotes l := by
  simp [notesCount, numNotes, List.countP_eq_length_filter]

theorem inkCount_eq (l : List SlideIn) : inkCount l = numInk l := by
  simp [inkCount, numInk, List.countP_eq_length_filter]

theorem totalCharts_eq (l : List SlideIn) : totalCharts l = numCharts l := by
  have : ∀ (l : List SlideIn) t, l.foldl (fun t s => t + s.charts) t = t + numCharts l := by
    intro l
    induction l with
    | nil => simp
    | cons s l ih => intro t; rw [List.foldl_cons, ih, numCharts_cons]; omega
  simpa [totalCharts] using this l 0

theorem hasNotes_iff (l : List SlideIn) : hasNotes l = true ↔ numNotes l ≠ 0 := by
  simp [hasNotes, numNotes, List.countP_eq_zero, Option.isSome_iff_ne_none]

@[simp] theorem names_append (a b : List Entry) : names (a ++ b) = names a ++ names b := by
  simp [names]
@[simp] theorem names_nil : names [] = [] := rfl
@[simp] theorem names_cons (e : Entry) (l : List Entry) : names (e :: l) = e.name :: names l := rfl

/-! ### Slides -/

/-- The parts written for one slide by the eager writer. -/
theorem writeSlides_names (i n k : Nat) (l : List SlideIn) :
    (names (writeSlidesFrom i n k l)).Perm
      ((List.range' (i + 1) l.length).map .slide ++ (List.range' (n + 1) (numNotes l)).map .notes ++
        (List.range' (k + 1) (numInk l)).map .ink) := by
  induction l generalizing i n k with
  | nil => simp [writeSlidesFrom]
  | cons s l ih =>
    rw [List.perm_iff_count]
    intro a
    have := fun n k => (List.perm_iff_count.mp (ih (i + 1) n k)) a
    simp only [List.count_append] at this
    simp only [writeSlidesFrom, slideEntries, names_append, List.count_append, this]
    cases hn : s.notes <;> cases hi : s.ink <;>
      simp [hn, hi, List.range'_succ, List.count_cons, Nat.add_comm 1] <;> omega

theorem writeSlideRels_names (st : BuildSettings) (r : MediaRegistry) (i n k : Nat)
    (starts : List Nat) (l : List SlideIn) :
    names (writeSlideRelsFrom st r i n k starts l) = (List.range' (i + 1) l.length).map .slideRels := by
  induction l generalizing i n k starts with
  | nil => simp [writeSlideRelsFrom]
  | cons s l ih => simp [writeSlideRelsFrom, slideRelsEntry, ih, List.range'_succ]

theorem writeNotesRels_names (i n : Nat) (l : List SlideIn) :
    names (writeNotesRelsFrom i n l) = (List.range' (n + 1) (numNotes l)).map .notesRels := by
  induction l generalizing i n with
  | nil => simp [writeNotesRelsFrom]
  | cons s l ih =>
    cases h : s.notes <;> simp [writeNotesRelsFrom, ih, h, List.range'_succ, Nat.add_comm 1]

/-- The three parts of each chart. -/
def chartNames (n : Nat) : List PartName := [.chart n, .chartRels n, .embedding n]

theorem names_flatMap_chartParts (l : List Nat) :
    names (l.flatMap chartParts) = l.flatMap chartNames := by
  induction l with
  | nil => rfl
  | cons n l ih => simp [ih, chartParts, chartNames]

theorem writeCharts_names (t : Nat) (l : List SlideIn) :
    names (writeChartsFrom (chartStarts t l) l) =
      (List.range' (t + 1) (numCharts l)).flatMap chartNames := by
  induction l generalizing t with
  | nil => simp [writeChartsFrom]
  | cons s l ih =>
    rw [writeChartsFrom, names_append]
    simp only [chartStarts, List.tail_cons, List.headD_cons, ih, numCharts_cons,
      names_flatMap_chartParts, consecutive_eq]
    rw [← List.range'_append_1, List.flatMap_append]
    congr 3; omega

theorem chartNames_perm (l : List Nat) :
    (l.flatMap chartNames).Perm (l.map .chart ++ l.map .chartRels ++ l.map .embedding) := by
  induction l with
  | nil => simp
  | cons n l ih =>
    rw [List.perm_iff_count] at ih ⊢
    intro a
    have := ih a
    simp only [List.count_append] at this
    simp [chartNames, List.count_cons, this]
    omega

theorem writeImages_names (i : Nat) (l : List (List UInt8 × Str)) :
    names (writeImagesFrom i l) = (l.zipIdx (i + 1)).map fun e => .media e.2 e.1.2 := by
  induction l generalizing i with
  | nil => simp [writeImagesFrom]
  | cons e l ih => obtain ⟨b, x⟩ := e; simp [writeImagesFrom, ih]

theorem assignFontIds_fileNames (start i : Nat) (fonts : List EmbeddedFont) :
    (assignFontIdsFrom start i fonts).map (·.fileName) = fonts.map (·.fileName) := by
  induction fonts generalizing i with
  | nil => rfl
  | cons f fs ih =>
    simp only [assignFontIdsFrom, List.map_cons, ih]
    split <;> simp [EmbeddedFont.fileName]

/-! ### The media registry -/

theorem position_none {p : List UInt8 × Str → Bool} {l : List (List UInt8 × Str)} :
    MediaRegistry.position p l = none ↔ ∀ e ∈ l, p e = false := by
  induction l with
  | nil => simp [MediaRegistry.position]
  | cons e l ih =>
    cases h : p e <;> simp [MediaRegistry.position, h, ih]

theorem position_some {p : List UInt8 × Str → Bool} {l : List (List UInt8 × Str)} {i : Nat}
    (h : MediaRegistry.position p l = some i) : ∃ e, l[i]? = some e ∧ p e = true := by
  induction l generalizing i with
  | nil => simp [MediaRegistry.position] at h
  | cons e l ih =>
    cases hp : p e
    · simp only [MediaRegistry.position, hp, Bool.false_eq_true, if_false,
        Option.map_eq_some_iff] at h
      obtain ⟨j, hj, rfl⟩ := h
      simpa using ih hj
    · simp only [MediaRegistry.position, hp, if_true, Option.some.injEq] at h
      subst h; exact ⟨e, rfl, hp⟩

/-- `registry.image_number` keeps the list of distinct images. -/
theorem lookupNumber_none {r : MediaRegistry} {b : List UInt8} {x : Str} :
    r.lookupNumber b x = none ↔ (b, x) ∉ r.entries := by
  rw [MediaRegistry.lookupNumber, Option.map_eq_none_iff, position_none]
  constructor
  · intro h hm; simpa using h _ hm
  · rintro h ⟨b', x'⟩ hm
    simp only [decide_eq_false_iff_not]
    rintro ⟨rfl, rfl⟩; exact h hm

theorem lookupNumber_some {r : MediaRegistry} {b : List UInt8} {x : Str} {n : Nat}
    (h : r.lookupNumber b x = some n) : 1 ≤ n ∧ r.entries[n - 1]? = some (b, x) := by
  rw [MediaRegistry.lookupNumber, Option.map_eq_some_iff] at h
  obtain ⟨i, hi, rfl⟩ := h
  obtain ⟨⟨b', x'⟩, he, hp⟩ := position_some hi
  simp only [decide_eq_true_eq] at hp
  obtain ⟨rfl, rfl⟩ := hp
  simpa using he

theorem eraseDups_concat (l : List (List UInt8 × Str)) (e : List UInt8 × Str) :
    (l ++ [e]).eraseDups = if e ∈ l then l.eraseDups else l.eraseDups ++ [e] := by
  rw [List.eraseDups_append]
  by_cases h : e ∈ l
  · rw [if_pos h]
    simp [List.removeAll, h]
  · rw [if_neg h]
    simp [List.removeAll, h, List.eraseDups_cons]

theorem mem_eraseDups {e : List UInt8 × Str} {l : List (List UInt8 × Str)} :
    e ∈ l.eraseDups ↔ e ∈ l := by simp

/-- One registration. -/
def register (r : MediaRegistry) (e : List UInt8 × Str) : MediaRegistry := (r.imageNumber e.1 e.2).1

theorem register_entries (r : MediaRegistry) (seen : List (List UInt8 × Str))
    (h : r.entries = seen.eraseDups) (e : List UInt8 × Str) :
    (register r e).entries = (seen ++ [e]).eraseDups := by
  rw [eraseDups_concat, register, MediaRegistry.imageNumber]
  cases hl : r.lookupNumber e.1 e.2 with
  | none =>
    have := lookupNumber_none.mp hl
    rw [h, mem_eraseDups] at this
    rw [if_neg this]; simp [h]
  | some n =>
    have : e ∈ r.entries := by
      by_contra hc
      rw [show e = (e.1, e.2) from rfl, ← lookupNumber_none, hl] at hc
      cases hc
    rw [h, mem_eraseDups] at this
    rw [if_pos this]; exact h

theorem register_foldl (l seen : List (List UInt8 × Str)) (r : MediaRegistry)
    (h : r.entries = seen.eraseDups) :
    (l.foldl register r).entries = (seen ++ l).eraseDups := by
  induction l generalizing r seen with
  | nil => simpa using h
  | cons e l ih =>
    rw [List.foldl_cons, ih (seen ++ [e]) _ (register_entries r seen h e)]
    simp

theorem buildMediaRegistry_entries (slides : List SlideIn) :
    (buildMediaRegistry slides).entries = distinctImages slides := by
  have inner : ∀ (l : List ImageIn) (r : MediaRegistry),
      l.foldl registerImage r =
      (l.filterMap fun i => i.bytes.map fun b => (b, i.ext)).foldl register r := by
    intro l
    induction l with
    | nil => intro r; rfl
    | cons i l ih =>
      intro r
      cases hb : i.bytes <;> simp [hb, ih, register, registerImage]
  have outer : ∀ (l : List SlideIn) (r : MediaRegistry),
      l.foldl (fun r s => s.images.foldl registerImage r) r = (allImages l).foldl register r := by
    intro l
    induction l with
    | nil => intro r; rfl
    | cons s l ih => intro r; rw [List.foldl_cons, ih, inner]; simp [allImages]
  rw [buildMediaRegistry, outer, register_foldl _ [] _ (by rfl)]
  rfl

/-! ### Finding entries by slide -/

/-- The state of the writers in front of slide `j`. -/
theorem mem_writeSlidesFrom {i n k : Nat} {l : List SlideIn} {e : Entry} :
    e ∈ writeSlidesFrom i n k l ↔ ∃ j s, l[j]? = some s ∧
      e ∈ slideEntries (i + j) (n + numNotes (l.take j)) (k + numInk (l.take j))
        (slideContentRelStart s.notes.isSome s.images.length) s := by
  induction l generalizing i n k with
  | nil => simp [writeSlidesFrom]
  | cons s l ih =>
    rw [writeSlidesFrom, List.mem_append, ih]
    constructor
    · rintro (h | ⟨j, t, h1, h2⟩)
      · exact ⟨0, s, rfl, by simpa using h⟩
      · refine ⟨j + 1, t, by simpa using h1, ?_⟩
        rw [List.take_succ_cons, numNotes_cons, numInk_cons]
        rw [show i + (j + 1) = i + 1 + j by omega, ← Nat.add_assoc, ← Nat.add_assoc]
        exact h2
    · rintro ⟨j, t, h1, h2⟩
      cases j with
      | zero =>
        simp only [List.getElem?_cons_zero, Option.some.injEq] at h1
        subst h1
        exact .inl (by simpa using h2)
      | succ j =>
        refine .inr ⟨j, t, by simpa using h1, ?_⟩
        rw [List.take_succ_cons, numNotes_cons, numInk_cons] at h2
        rw [show i + (j + 1) = i + 1 + j by omega, ← Nat.add_assoc, ← Nat.add_assoc] at h2
        exact h2

theorem writeSlideRelsFrom_get {st : BuildSettings} {r : MediaRegistry} {i n k t : Nat}
    {l : List SlideIn} (j : Nat) :
    (writeSlideRelsFrom st r i n k (chartStarts t l) l)[j]? = l[j]?.map
      (slideRelsEntry st r (i + j) (n + numNotes (l.take j)) (k + numInk (l.take j))
        (t + numCharts (l.take j) + 1)) := by
  induction l generalizing i n k t j with
  | nil => simp [writeSlideRelsFrom]
  | cons s l ih =>
    cases j with
    | zero => simp [writeSlideRelsFrom, chartStarts]
    | succ j =>
      simp only [writeSlideRelsFrom, chartStarts, List.getElem?_cons_succ, List.tail_cons, ih,
        List.take_succ_cons, numNotes_cons, numInk_cons, numCharts_cons]
      rw [show i + 1 + j = i + (j + 1) by omega]
      simp only [Nat.add_assoc]

theorem mem_writeSlideRelsFrom {st : BuildSettings} {r : MediaRegistry} {i n k t : Nat}
    {l : List SlideIn} {e : Entry} :
    e ∈ writeSlideRelsFrom st r i n k (chartStarts t l) l ↔ ∃ j s, l[j]? = some s ∧
      e = slideRelsEntry st r (i + j) (n + numNotes (l.take j)) (k + numInk (l.take j))
        (t + numCharts (l.take j) + 1) s := by
  rw [List.mem_iff_getElem?]
  constructor
  · rintro ⟨j, hj⟩
    rw [writeSlideRelsFrom_get, Option.map_eq_some_iff] at hj
    obtain ⟨s, h1, h2⟩ := hj
    exact ⟨j, s, h1, h2.symm⟩
  · rintro ⟨j, s, h1, h2⟩
    exact ⟨j, by rw [writeSlideRelsFrom_get, h1, h2]; rfl⟩

theorem mem_writeNotesRelsFrom {i n : Nat} {l : List SlideIn} {e : Entry} :
    e ∈ writeNotesRelsFrom i n l ↔ ∃ j s, l[j]? = some s ∧ s.notes.isSome = true ∧
      e = ⟨.notesRels (n + numNotes (l.take j) + 1), .rels (notesRels (i + j + 1))⟩ := by
  induction l generalizing i n with
  | nil => simp [writeNotesRelsFrom]
  | cons s l ih =>
    rw [writeNotesRelsFrom, List.mem_append, ih]
    constructor
    · rintro (h | ⟨j, t, h1, h2, h3⟩)
      · refine ⟨0, s, rfl, ?_⟩
        split at h
        · rename_i hs; exact ⟨hs, by simpa using h⟩
        · simp at h
      · refine ⟨j + 1, t, by simpa using h1, h2, ?_⟩
        rw [h3, List.take_succ_cons, numNotes_cons]
        simp only [Nat.add_assoc, Nat.add_comm 1]
    · rintro ⟨j, t, h1, h2, h3⟩
      cases j with
      | zero =>
        simp only [List.getElem?_cons_zero, Option.some.injEq] at h1
        subst h1
        exact .inl (by rw [if_pos h2]; simpa using h3)
      | succ j =>
        refine .inr ⟨j, t, by simpa using h1, h2, ?_⟩
        rw [h3, List.take_succ_cons, numNotes_cons]
        simp only [Nat.add_assoc, Nat.add_comm 1]

theorem mem_writeImagesFrom {i : Nat} {l : List (List UInt8 × Str)} {e : Entry} :
    e ∈ writeImagesFrom i l ↔ ∃ j b x, l[j]? = some (b, x) ∧ e = ⟨.media (i + j + 1) x, .media b⟩ := by
  induction l generalizing i with
  | nil => simp [writeImagesFrom]
  | cons y l ih =>
    obtain ⟨b, x⟩ := y
    rw [writeImagesFrom, List.mem_cons, ih]
    constructor
    · rintro (h | ⟨j, b', x', h1, h2⟩)
      · exact ⟨0, b, x, rfl, by simpa using h⟩
      · exact ⟨j + 1, b', x', by simpa using h1, by
          rw [h2]; simp only [Nat.add_assoc, Nat.add_comm 1]⟩
    · rintro ⟨j, b', x', h1, h2⟩
      cases j with
      | zero =>
        simp only [List.getElem?_cons_zero, Option.some.injEq, Prod.mk.injEq] at h1
        obtain ⟨rfl, rfl⟩ := h1
        exact .inl (by simpa using h2)
      | succ j =>
        exact .inr ⟨j, b', x', by simpa using h1, by
          rw [h2]; simp only [Nat.add_assoc, Nat.add_comm 1]⟩

/-! ### Images of a slide -/

/-- An image of the deck that has data. -/
theorem mem_distinctImages {slides : List SlideIn} {s : SlideIn} {i : ImageIn} {b : List UInt8}
    (hs : s ∈ slides) (hi : i ∈ s.images) (hb : i.bytes = some b) :
    (b, i.ext) ∈ distinctImages slides := by
  rw [distinctImages, mem_eraseDups, allImages, List.mem_flatMap]
  exact ⟨s, hs, List.mem_filterMap.mpr ⟨i, hi, by simp [hb]⟩⟩

theorem lookup_of_mem {slides : List SlideIn} {s : SlideIn} {i : ImageIn} {b : List UInt8}
    (hs : s ∈ slides) (hi : i ∈ s.images) (hb : i.bytes = some b) :
    ∃ n, (buildMediaRegistry slides).lookupNumber b i.ext = some n := by
  cases h : (buildMediaRegistry slides).lookupNumber b i.ext with
  | some n => exact ⟨n, rfl⟩
  | none =>
    rw [lookupNumber_none, buildMediaRegistry_entries] at h
    exact absurd (mem_distinctImages hs hi hb) h

/-- All images of a slide have data. -/
def ImagesOk (s : SlideIn) : Prop := ∀ i ∈ s.images, i.bytes.isSome = true

theorem slideImageRelTargets_get {slides : List SlideIn} {s : SlideIn} (hs : s ∈ slides)
    (hok : ImagesOk s) (j : Nat) :
    (slideImageRelTargets s (buildMediaRegistry slides))[j]? = s.images[j]?.bind fun i =>
      i.bytes.bind fun b => ((buildMediaRegistry slides).lookupNumber b i.ext).map fun n =>
        (n, i.ext) := by
  have key : ∀ l : List ImageIn, (∀ i ∈ l, i ∈ s.images) → ∀ j : Nat,
      (l.filterMap fun i : ImageIn => i.bytes.bind fun b =>
        ((buildMediaRegistry slides).lookupNumber b i.ext).map fun n => (n, i.ext))[j]? =
      l[j]?.bind fun i => i.bytes.bind fun b =>
        ((buildMediaRegistry slides).lookupNumber b i.ext).map fun n => (n, i.ext) := by
    intro l
    induction l with
    | nil => simp
    | cons i l ih =>
      intro hl j
      have hi := hl i (by simp)
      obtain ⟨b, hb⟩ := Option.isSome_iff_exists.mp (hok i hi)
      obtain ⟨n, hn⟩ := lookup_of_mem hs hi hb
      have hx : (i.bytes.bind fun b =>
        ((buildMediaRegistry slides).lookupNumber b i.ext).map fun n => (n, i.ext)) =
          some (n, i.ext) := by simp [hb, hn]
      rw [List.filterMap_cons_some (b := (n, i.ext)) (by simp [hb, hn])]
      cases j with
      | zero => simp only [List.getElem?_cons_zero, Option.bind_some, hx]
      | succ j =>
        simp only [List.getElem?_cons_succ]
        exact ih (fun i h => hl i (by simp [h])) j
  exact key s.images (fun _ h => h) j

theorem slideImageRelTargets_length {slides : List SlideIn} {s : SlideIn} (hs : s ∈ slides)
    (hok : ImagesOk s) :
    (slideImageRelTargets s (buildMediaRegistry slides)).length = s.images.length := by
  have key : ∀ l : List ImageIn, (∀ i ∈ l, i ∈ s.images) →
      (l.filterMap fun i : ImageIn => i.bytes.bind fun b =>
        ((buildMediaRegistry slides).lookupNumber b i.ext).map fun n => (n, i.ext)).length =
      l.length := by
    intro l
    induction l with
    | nil => simp
    | cons i l ih =>
      intro hl
      have hi := hl i (by simp)
      obtain ⟨b, hb⟩ := Option.isSome_iff_exists.mp (hok i hi)
      obtain ⟨n, hn⟩ := lookup_of_mem hs hi hb
      rw [List.filterMap_cons_some (b := (n, i.ext)) (by simp [hb, hn])]
      simp only [List.length_cons]
      rw [ih (fun i h => hl i (by simp [h]))]
  exact key s.images (fun _ h => h)

/-! ### All parts -/

theorem buildPackage_names (d : Deck) (st : BuildSettings) (h : st.template = none) :
    (names (buildPackage d st)).Perm (expectedParts d st) := by
  have hch : names (if totalCharts d.slides > 0 then
      writeChartsFrom (chartStarts 0 d.slides) d.slides else []) =
      (List.range' 1 (numCharts d.slides)).flatMap chartNames := by
    rw [totalCharts_eq]
    split
    · exact writeCharts_names 0 _
    · rename_i h0
      have : numCharts d.slides = 0 := by omega
      simp [this]
  have hn : names (if hasNotes d.slides then writeNotesRelsFrom 0 0 d.slides ++ notesMasterParts
      else []) = (List.range' 1 (numNotes d.slides)).map .notesRels ++
        if numNotes d.slides = 0 then [] else [.notesMaster, .theme 2, .notesMasterRels] := by
    by_cases h0 : numNotes d.slides = 0
    · have : hasNotes d.slides = false := by
        rw [Bool.eq_false_iff, ne_eq, hasNotes_iff]; simpa using h0
      simp [this, h0]
    · rw [if_pos ((hasNotes_iff _).mpr h0)]
      simp [writeNotesRels_names, h0, notesMasterParts]
  have hf : names (fontParts ((prepareFonts st d.count (hasNotes d.slides)).getD [])) = (st.fonts.getD []).map fun f => .font f.fileName := by
    cases hfo : st.fonts with
    | none => simp [prepareFonts, hfo, fontParts]
    | some f =>
      simp only [prepareFonts, hfo, Option.map_some, Option.getD_some, fontParts, names,
        List.map_map, assignFontIds]
      have := assignFontIds_fileNames (tableStylesRelId d.count (hasNotes d.slides) st.handout + 1) 0 f
      have h2 := congrArg (List.map PartName.font) this
      simpa [Function.comp_def] using h2
  have hs : (names (writeSlides d)).Perm
      ((List.range' 1 d.count).map .slide ++ (List.range' 1 (numNotes d.slides)).map .notes ++
        (List.range' 1 (numInk d.slides)).map .ink) := by
    cases d with
    | custom l => exact writeSlides_names 0 0 0 l
    | plain n => simp [writeSlides, plainSlideParts, names, Function.comp_def, Deck.slides, Deck.count, upTo_eq]
  have hr : names (writeSlideRels d st (chartStarts 0 d.slides)) = (List.range' 1 d.count).map .slideRels := by
    cases d with
    | custom l => exact writeSlideRels_names _ _ 0 0 0 _ l
    | plain n => simp [writeSlideRels, plainSlideRelParts, names, Function.comp_def, Deck.count, upTo_eq]
  have hi : names (writeImagesFrom 0 (buildMediaRegistry d.slides).files) =
      mediaParts (distinctImages d.slides) := by
    rw [writeImages_names, MediaRegistry.files, buildMediaRegistry_entries]; rfl
  have hl : ∀ l : List Nat, (names (l.flatMap fun n => [⟨.layout n, .other⟩,
      ⟨.layoutRels n, .rels layoutRels⟩])).Perm (l.map .layout ++ l.map .layoutRels) := by
    intro l
    induction l with
    | nil => simp
    | cons n l ih =>
      rw [List.perm_iff_count] at ih ⊢
      intro a; have := ih a
      simp only [List.count_append] at this
      simp [List.count_cons, this]; omega
  have hh : names (if st.handout then handoutParts else []) =
      if st.handout then [.handoutMaster, .theme 3, .handoutRels] else [] := by
    split <;> rfl
  have hg : names (if st.signature then signatureParts else []) =
      if st.signature then [.sigOrigin, .sig] else [] := by
    split <;> rfl
  unfold buildPackage expectedParts
  simp only [names_append, names_cons, names_nil, hch, hn, hf, hr, hi, hh, hg, themeAndLayoutParts, h,
    standardParts]
  rw [List.perm_iff_count]
  intro a
  have h1 := (List.perm_iff_count.mp hs) a
  have h2 := (List.perm_iff_count.mp (hl (upTo standardLayoutCount))) a
  have h3 := (List.perm_iff_count.mp (chartNames_perm (List.range' 1 (numCharts d.slides)))) a
  simp only [List.count_append, upTo_eq] at h1 h2 h3
  simp only [List.count_append, h1, h2, h3, upTo_eq]
  have h7 : standardLayoutCount = 7 := rfl
  simp only [h7]
  generalize hA : List.count a (if numNotes d.slides = 0 then []
    else [PartName.notesMaster, .theme 2, .notesMasterRels]) = A
  generalize hB : List.count a (if numNotes d.slides = 0 then []
    else [PartName.notesMaster, .notesMasterRels, .theme 2]) = B
  generalize hC : List.count a (if st.handout then [PartName.handoutMaster, .theme 3, .handoutRels]
    else []) = C
  generalize hD : List.count a (if st.handout then [PartName.handoutMaster, .handoutRels, .theme 3]
    else []) = D
  have hAB : A = B := by
    subst hA hB; split <;> simp [List.count_cons]; omega
  have hCD : C = D := by
    subst hC hD; split <;> simp [List.count_cons]; omega
  simp only [List.count_cons, List.count_nil]
  omega

end PptRs
