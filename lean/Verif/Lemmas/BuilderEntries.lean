import Verif.Lemmas.ExpectedParts
import Verif.Props.Rels

/-!
# The bodies of generated parts and where their relationships lead
-/

namespace PptRs

open PptRs.Spec

/-! ### Relationship ids -/

/-- The id text `rId{n}`. -/
def rid (n : Nat) : Str := c!"rId" ++ dec n

theorem rid_inj {a b : Nat} (h : rid a = rid b) : a = b :=
  dec_inj (List.append_cancel_left h)

theorem relById_of_mem {l : List RelEntry} (h : (l.map (·.id)).Nodup) {r : RelEntry} (hr : r ∈ l) :
    relById l r.id = some r := by
  induction l with
  | nil => simp at hr
  | cons x l ih =>
    rw [List.map_cons, List.nodup_cons] at h
    unfold relById
    rcases List.mem_cons.mp hr with rfl | hr'
    · simp
    · have : x.id ≠ r.id := by
        intro e
        exact h.1 (by rw [e]; exact List.mem_map_of_mem hr')
      rw [List.find?_cons_of_neg (by simpa using this)]
      exact ih h.2 hr'

theorem relById_append_left {a b : List RelEntry} {id : Str} {r : RelEntry}
    (h : relById a id = some r) : relById (a ++ b) id = some r := by
  simp only [relById] at *
  rw [List.find?_append, h]
  rfl

/-! ### Following relationships -/

theorem readText_of_plain {s : Str} (h1 : '&' ∉ s) (h2 : '<' ∉ s) : readText s = some s := by
  induction s with
  | nil => simp [readText]
  | cons c s ih =>
    have e1 : c ≠ '&' := by rintro rfl; simp at h1
    have e2 : c ≠ '<' := by rintro rfl; simp at h2
    rw [readText_plain _ e1 e2, ih (fun h => h1 (by simp [h])) (fun h => h2 (by simp [h]))]
    rfl

theorem leadsTo_of {p : PartName} {r : RelEntry} {t : Str} {base dest : List Str}
    (ht : readText r.target = some t)
    (hp : relsSourceDir p.path = joinStr c!"/" base) (hb : ∀ s ∈ base, CleanSeg s)
    (hd : ∀ s ∈ dest, CleanSeg s) (hne : dest ≠ []) (n : Nat) (hn : n ≤ base.length)
    (e : t = joinStr c!"/" (List.replicate n c!".." ++ dest)) :
    leadsTo p r = some (joinStr c!"/" (base.take (base.length - n) ++ dest)) := by
  rw [leadsTo, ht, hp, e]
  exact congrArg some (Props.C06_resolve_up_down base dest hb hd hne n hn)

theorem cleanSeg_of {c : Char} {s : Str} (hc : c ≠ '.') (h : '/' ∉ c :: s) : CleanSeg (c :: s) := by
  refine ⟨by simp, by simp [hc], by simp [hc], h⟩

theorem slash_notMem_dec (n : Nat) : '/' ∉ dec n := not_mem_dec (by decide)

/-! ### The body of every part -/

/-- The slide part of slide `s`. -/
def slideBody (s : SlideIn) : Body :=
  let startRid := slideContentRelStart s.notes.isSome s.images.length
  .slide (slideXml s (chartRids startRid s.charts)
    (if s.ink then some (c!"rId" ++ dec (startRid + s.charts)) else none))

/-- What the body of a part looks like. -/
def BodyOk (d : Deck) (st : BuildSettings) : PartName → Body → Prop
  | .contentTypes, b => b = .contentTypes (contentTypesPart d st)
  | .rootRels, b => b = .rels (rootRels st.signature)
  | .presRels, b => b = .rels (presentationRelsWithFonts d.count (hasNotes d.slides) st.handout
      ((prepareFonts st d.count (hasNotes d.slides)).getD []))
  | .presentation, b => b = .presentation (presentationXml d.count (hasNotes d.slides) st.handout
      ((prepareFonts st d.count (hasNotes d.slides)).getD []))
  | .handoutRels, b => b = .rels handoutMasterRels
  | .notesMasterRels, b => b = .rels notesMasterRels
  | .masterRels, b => b = .rels (masterRels standardLayoutCount)
  | .layoutRels _, b => b = .rels layoutRels
  | .slide m, b => (∃ j s, d.slides[j]? = some s ∧ m = j + 1 ∧ b = slideBody s) ∨
      (∃ n, d = .plain n ∧ b = .slide ⟨[1, 2], [], [], none, []⟩)
  | .slideRels m, b => (∃ j s, d.slides[j]? = some s ∧ m = j + 1 ∧
        (⟨.slideRels m, b⟩ : Entry) = slideRelsEntry st (buildMediaRegistry d.slides) j
          (numNotes (d.slides.take j)) (numInk (d.slides.take j))
          (numCharts (d.slides.take j) + 1) s) ∨
      (∃ n, d = .plain n ∧ b = .rels [rel 1 c!"slideLayout" (layoutRelTarget 2)])
  | .notes m, b => ∃ j s text, d.slides[j]? = some s ∧ s.notes = some text ∧
      m = numNotes (d.slides.take j) + 1 ∧ b = .notes (j + 1) text
  | .notesRels m, b => ∃ j s, d.slides[j]? = some s ∧ s.notes.isSome = true ∧
      m = numNotes (d.slides.take j) + 1 ∧ b = .rels (notesRels (j + 1))
  | .chartRels m, b => b = .rels (chartRels m)
  | .media m x, b => ∃ j bytes, (distinctImages d.slides)[j]? = some (bytes, x) ∧ m = j + 1 ∧
      b = .media bytes
  | _, b => b = .other

theorem mem_writeCharts {t : Nat} {l : List SlideIn} {e : Entry}
    (h : e ∈ writeChartsFrom (chartStarts t l) l) : ∃ n, e ∈ chartParts n := by
  induction l generalizing t with
  | nil => simp [writeChartsFrom] at h
  | cons s l ih =>
    simp only [writeChartsFrom, chartStarts, List.mem_append, List.mem_flatMap, List.tail_cons] at h
    rcases h with ⟨n, _, h⟩ | h
    · exact ⟨n, h⟩
    · exact ih h

theorem bodyOk_slideEntries {d : Deck} {st : BuildSettings} {j : Nat} {s : SlideIn} {e : Entry}
    (hj : d.slides[j]? = some s)
    (h : e ∈ slideEntries j (numNotes (d.slides.take j)) (numInk (d.slides.take j))
      (slideContentRelStart s.notes.isSome s.images.length) s) : BodyOk d st e.name e.body := by
  simp only [slideEntries, List.mem_append, List.mem_singleton, List.mem_map] at h
  rcases h with (h | rfl) | ⟨text, ht, rfl⟩
  · split at h
    · simp only [List.mem_singleton] at h; subst h; rfl
    · simp at h
  · exact .inl ⟨j, s, hj, rfl, rfl⟩
  · exact ⟨j, s, text, hj, by simpa using ht, rfl, rfl⟩

theorem bodyOk (d : Deck) (st : BuildSettings) (e : Entry) (h : e ∈ buildPackage d st) :
    BodyOk d st e.name e.body := by
  simp only [buildPackage, List.mem_append] at h
  rcases h with (((((((((((h | h) | h) | h) | h) | h) | h) | h) | h) | h) | h) | h)
  · simp only [List.mem_cons, List.not_mem_nil, or_false] at h
    rcases h with rfl | rfl | rfl | rfl <;> exact rfl
  · simp only [standardParts, List.mem_cons, List.not_mem_nil, or_false] at h
    rcases h with rfl | rfl | rfl <;> exact rfl
  · split at h
    · simp only [handoutParts, List.mem_cons, List.not_mem_nil, or_false] at h
      rcases h with rfl | rfl | rfl <;> exact rfl
    · simp at h
  · cases d with
    | custom l =>
      simp only [writeSlides, mem_writeSlidesFrom, Nat.zero_add] at h
      obtain ⟨j, s, hj, h⟩ := h
      exact bodyOk_slideEntries hj h
    | plain n =>
      simp only [writeSlides, plainSlideParts, List.mem_map] at h
      obtain ⟨i, _, rfl⟩ := h
      exact .inr ⟨n, rfl, rfl⟩
  · cases d with
    | custom l =>
      simp only [writeSlideRels, Deck.slides, mem_writeSlideRelsFrom, Nat.zero_add] at h
      obtain ⟨j, s, hj, rfl⟩ := h
      exact .inl ⟨j, s, hj, rfl, rfl⟩
    | plain n =>
      simp only [writeSlideRels, plainSlideRelParts, List.mem_map] at h
      obtain ⟨i, _, rfl⟩ := h
      exact .inr ⟨n, rfl, rfl⟩
  · split at h
    · simp only [List.mem_append, mem_writeNotesRelsFrom, notesMasterParts, List.mem_cons,
        List.not_mem_nil, or_false, Nat.zero_add] at h
      rcases h with ⟨j, s, hj, hs, rfl⟩ | rfl | rfl | rfl
      · exact ⟨j, s, hj, hs, rfl, rfl⟩
      all_goals exact rfl
    · simp at h
  · simp only [themeAndLayoutParts] at h
    split at h
    · simp only [List.mem_append, List.mem_map] at h
      rcases h with ⟨p, _, rfl⟩ | h
      · exact rfl
      · split at h
        · simp only [List.mem_singleton] at h; subst h; rfl
        · simp at h
    · simp only [List.mem_append, List.mem_flatMap, List.mem_cons, List.not_mem_nil, or_false] at h
      rcases h with ⟨n, _, rfl | rfl⟩ | rfl | rfl | rfl <;> exact rfl
  · simp only [List.mem_cons, List.not_mem_nil, or_false] at h
    rcases h with rfl | rfl <;> exact rfl
  · split at h
    · obtain ⟨n, h⟩ := mem_writeCharts h
      simp only [chartParts, List.mem_cons, List.not_mem_nil, or_false] at h
      rcases h with rfl | rfl | rfl <;> exact rfl
    · simp at h
  · rw [mem_writeImagesFrom] at h
    obtain ⟨j, b, x, hj, rfl⟩ := h
    refine ⟨j, b, ?_, by simp, rfl⟩
    rw [← buildMediaRegistry_entries]
    exact hj
  · simp only [fontParts, List.mem_map] at h
    obtain ⟨f, _, rfl⟩ := h
    rfl
  · split at h
    · simp only [signatureParts, List.mem_cons, List.not_mem_nil, or_false] at h
      rcases h with rfl | rfl <;> exact rfl
    · simp at h

/-- A part that is there has one of the bodies listed. -/
theorem exists_entry {d : Deck} {st : BuildSettings} {p : PartName}
    (h : p ∈ names (buildPackage d st)) : ∃ b, (⟨p, b⟩ : Entry) ∈ buildPackage d st := by
  simp only [names, List.mem_map] at h
  obtain ⟨e, he, rfl⟩ := h
  exact ⟨e.body, he⟩

end PptRs
