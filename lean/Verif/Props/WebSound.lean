import Verif.Props.WebPage

/-!
# C143: every page, and what is lost
-/

namespace PptRs.Props

open PptRs PptRs.Web PptRs.Spec

/-- A block that says what an element of the page says. -/
def Stands (b : WebBlock) (e : Dom) : Prop :=
  match b.kind with
  | .title => e.name = c!"h1" ∧ b.text = shown (domText e)
  | .heading n => e.name = c!"h" ++ dec n ∧ 2 ≤ n ∧ n ≤ 6 ∧ b.text = shown (domText e)
  | .paragraph => e.name = c!"p" ∧ b.text = shown (domText e)
  | .listItem => e.name = c!"li" ∧ b.text = shown (domText e)
  | .quote => e.name = c!"blockquote" ∧ b.text = shown (domText e)
  | .code => e.name ∈ [c!"pre", c!"code"] ∧ b.text = trim (domText e)
  | .image src alt => e.name = c!"img" ∧ attr e.attrs c!"src" = some src ∧ attr e.attrs c!"alt" = some alt
  | .table rows => e.name = c!"table" ∧ ∀ r ∈ rows, ∃ tr ∈ e.inside, tr.name = c!"tr" ∧
      ∀ c ∈ r, ∃ cell ∈ tr.inside, cell.name ∈ [c!"th", c!"td"] ∧ c = shown (domText cell)
  | .link _ _ => False

theorem cleanText_shown (d : Dom) : cleanText d = shown (domText d) := by
  rw [cleanText, splitWhitespace_eq, textOf_eq]
  exact trim_shown _

theorem heading_stands (k : WebKind) (d : Dom) (hk : ∀ t, t = shown (domText d) → Stands ⟨k, t⟩ d) :
    ∀ b ∈ (headingOf k d).blocks, Stands b.1 d := by
  intro b hb
  unfold headingOf at hb
  split at hb
  · simp only [Found.block, List.mem_singleton] at hb
    rw [hb]
    exact hk _ (by rw [cleanText_shown]; exact trim_shown _)
  · simp at hb

/-- What an element itself gives stands for that element. -/
theorem own_stands (cfg : ParserConfig) (depth : Nat) (d : Dom) : ∀ b ∈ (ownOf cfg depth d).blocks, Stands b.1 d := by
  unfold ownOf
  by_cases h1 : d.name = c!"h1"
  · rw [if_pos h1]
    exact heading_stands _ _ fun t ht => ⟨h1, ht⟩
  rw [if_neg h1]
  by_cases h2 : d.name = c!"h2"
  · rw [if_pos h2]
    exact heading_stands _ _ fun t ht => ⟨h2, by decide, by decide, ht⟩
  rw [if_neg h2]
  by_cases h3 : d.name = c!"h3"
  · rw [if_pos h3]
    exact heading_stands _ _ fun t ht => ⟨h3, by decide, by decide, ht⟩
  rw [if_neg h3]
  by_cases h4 : d.name = c!"h4"
  · rw [if_pos h4]
    exact heading_stands _ _ fun t ht => ⟨h4, by decide, by decide, ht⟩
  rw [if_neg h4]
  by_cases h5 : d.name = c!"h5"
  · rw [if_pos h5]
    exact heading_stands _ _ fun t ht => ⟨h5, by decide, by decide, ht⟩
  rw [if_neg h5]
  by_cases h6 : d.name = c!"h6"
  · rw [if_pos h6]
    exact heading_stands _ _ fun t ht => ⟨h6, by decide, by decide, ht⟩
  rw [if_neg h6]
  have hc : trim (cleanText d) = shown (domText d) := by rw [cleanText_shown]; exact trim_shown _
  by_cases h7 : d.name = c!"p"
  · rw [if_pos h7]
    intro b hb
    split at hb
    · simp only [Found.block, List.mem_singleton] at hb
      rw [hb]
      exact ⟨h7, hc⟩
    · simp at hb
  rw [if_neg h7]
  by_cases h8 : d.name = c!"li"
  · rw [if_pos h8]
    intro b hb
    split at hb
    · simp only [List.mem_singleton] at hb
      rw [hb]
      exact ⟨h8, hc⟩
    · simp at hb
  rw [if_neg h8]
  by_cases h9 : d.name = c!"blockquote"
  · rw [if_pos h9]
    intro b hb
    split at hb
    · simp only [Found.block, List.mem_singleton] at hb
      rw [hb]
      exact ⟨h9, hc⟩
    · simp at hb
  rw [if_neg h9]
  by_cases h10 : d.name = c!"pre" ∨ d.name = c!"code"
  · rw [if_pos h10]
    intro b hb
    split at hb
    · simp only [Found.block, List.mem_singleton] at hb
      rw [hb]
      refine ⟨by simpa using h10, ?_⟩
      show trim (trim d.textOf) = _
      rw [trim_trim, textOf_eq]
    · simp at hb
  rw [if_neg h10]
  by_cases h11 : d.name = c!"img"
  · rw [if_pos h11]
    intro b hb
    unfold imageOf at hb
    split at hb
    · split at hb
      · rename_i src hs
        simp only at hb
        split at hb
        · rename_i hcnd
          simp only [List.mem_singleton] at hb
          rw [hb]
          refine ⟨h11, hs, ?_⟩
          cases ha : attr d.attrs c!"alt" with
          | none => rw [ha] at hcnd; simp at hcnd
          | some a => rfl
        · simp at hb
      · simp at hb
    · simp at hb
  rw [if_neg h11]
  by_cases h12 : d.name = c!"table"
  · rw [if_pos h12]
    intro b hb
    split at hb
    · unfold extractTable at hb
      split at hb
      · simp only [Found.block, List.mem_singleton] at hb
        rw [hb]
        refine ⟨h12, ?_⟩
        intro r hr
        rw [rowsOf] at hr
        obtain ⟨tr, htr, rfl⟩ := List.mem_map.1 (List.mem_filter.1 hr).1
        obtain ⟨m1, m2⟩ := List.mem_filter.1 htr
        refine ⟨tr, m1, by simpa using m2, ?_⟩
        intro c hc
        rw [rowOf] at hc
        obtain ⟨cell, hcell, rfl⟩ := List.mem_map.1 hc
        obtain ⟨m3, m4⟩ := List.mem_filter.1 hcell
        exact ⟨cell, m3, by simpa using m4, cleanText_shown cell⟩
      · simp at hb
    · simp at hb
  rw [if_neg h12]
  intro b hb
  simp at hb

mutual
theorem walk_sound (low : Str → Str) (cfg : ParserConfig) : ∀ (d : Dom) (depth : Nat) (f : Found),
    walkElement low cfg depth d = some f → ∀ b ∈ f.blocks, ∃ e ∈ d.elements, skipped low e.name e.attrs = false ∧ Stands b.1 e
  | .text _, depth, f, h => by
    simp only [walkElement, Option.some.injEq] at h
    subst h
    intro b hb
    simp at hb
  | .el n a l, depth, f, h => by
    intro b hb
    rw [walkElement] at h
    by_cases hs : skipped low n a = true
    · rw [if_pos hs] at h
      simp only [Option.some.injEq] at h
      subst h
      simp at hb
    rw [if_neg hs] at h
    have hs' : skipped low (Dom.el n a l).name (Dom.el n a l).attrs = false := by simpa [Dom.name, Dom.attrs] using hs
    by_cases hl : leafTags.contains n = true
    · rw [if_pos hl] at h
      simp only [Option.some.injEq] at h
      subst h
      exact ⟨.el n a l, by rw [Dom.elements]; exact List.mem_cons_self, hs', own_stands cfg depth _ b hb⟩
    · rw [if_neg hl, Option.map_eq_some_iff] at h
      obtain ⟨g, hg, rfl⟩ := h
      rcases List.mem_append.1 hb with hb | hb
      · exact ⟨.el n a l, by rw [Dom.elements]; exact List.mem_cons_self, hs', own_stands cfg depth _ b hb⟩
      · obtain ⟨e, he, h1⟩ := walkAll_sound low cfg l depth g hg b hb
        exact ⟨e, by rw [Dom.elements]; exact List.mem_cons_of_mem _ he, h1⟩

theorem walkAll_sound (low : Str → Str) (cfg : ParserConfig) : ∀ (l : List Dom) (depth : Nat) (f : Found),
    walkAll low cfg depth l = some f → ∀ b ∈ f.blocks, ∃ e ∈ elementsOf l, skipped low e.name e.attrs = false ∧ Stands b.1 e
  | [], depth, f, h => by
    simp only [walkAll, Option.some.injEq] at h
    subst h
    intro b hb
    simp at hb
  | .text s :: l, depth, f, h => by
    intro b hb
    rw [walkAll] at h
    obtain ⟨e, he, h1⟩ := walkAll_sound low cfg l depth f h b hb
    exact ⟨e, by rw [elementsOf]; exact List.mem_append_right _ he, h1⟩
  | .el n a c :: l, depth, f, h => by
    intro b hb
    rw [walkAll] at h
    by_cases hd : depth + 1 < 256
    · rw [if_pos hd, Option.bind_eq_some_iff] at h
      obtain ⟨g, hg, h⟩ := h
      rw [Option.map_eq_some_iff] at h
      obtain ⟨g', hg', rfl⟩ := h
      rcases List.mem_append.1 hb with hb | hb
      · obtain ⟨e, he, h1⟩ := walk_sound low cfg (.el n a c) (depth + 1) g hg b hb
        exact ⟨e, by rw [elementsOf]; exact List.mem_append_left _ he, h1⟩
      · obtain ⟨e, he, h1⟩ := walkAll_sound low cfg l depth g' hg' b hb
        exact ⟨e, by rw [elementsOf]; exact List.mem_append_right _ he, h1⟩
    · rw [if_neg hd] at h
      simp at h
end

theorem own_pictures (cfg : ParserConfig) (depth : Nat) (d : Dom) :
    (ownOf cfg depth d).images = pictures ((ownOf cfg depth d).blocks.map (·.1)) := by
  have head : ∀ k : WebKind, (∀ s a, k ≠ .image s a) → ∀ t : Str,
      (Found.block k t).images = pictures ((Found.block k t).blocks.map (·.1)) := by
    intro k hk t
    cases k with
    | image s a => exact absurd rfl (hk s a)
    | _ => rfl
  have hh : ∀ k : WebKind, (∀ s a, k ≠ .image s a) → (headingOf k d).images = pictures ((headingOf k d).blocks.map (·.1)) := by
    intro k hk
    unfold headingOf
    split
    · exact head k hk _
    · rfl
  unfold ownOf
  iterate 6
    refine (apply_ite (fun f : Found => f.images = pictures (f.blocks.map (·.1))) _ _ _).mpr ?_
    refine ite_of (fun _ => hh _ (by intro s a; simp)) fun _ => ?_
  refine ite_of' (fun _ => ?_) fun _ => ?_
  · split
    · exact head _ (by intro s a; simp) _
    · rfl
  refine ite_of' (fun _ => ?_) fun _ => ?_
  · split <;> rfl
  refine ite_of' (fun _ => ?_) fun _ => ?_
  · split
    · exact head _ (by intro s a; simp) _
    · rfl
  refine ite_of' (fun _ => ?_) fun _ => ?_
  · split
    · exact head _ (by intro s a; simp) _
    · rfl
  refine ite_of' (fun _ => ?_) fun _ => ?_
  · unfold imageOf
    split
    · split
      · simp only
        split <;> rfl
      · rfl
    · rfl
  refine ite_of' (fun _ => ?_) fun _ => rfl
  split
  · unfold extractTable
    split
    · exact head _ (by intro s a; simp) _
    · rfl
  · rfl
where
  ite_of {c : Prop} [Decidable c] {a b : Prop} (h1 : c → a) (h2 : ¬ c → b) : if c then a else b := by
    split
    · exact h1 ‹_›
    · exact h2 ‹_›
  ite_of' {c : Prop} [Decidable c] {f g : Found} (h1 : c → f.images = pictures (f.blocks.map (·.1)))
      (h2 : ¬ c → g.images = pictures (g.blocks.map (·.1))) :
      (if c then f else g).images = pictures ((if c then f else g).blocks.map (·.1)) := by
    split
    · exact h1 ‹_›
    · exact h2 ‹_›

theorem append_pictures {a b : Found} (ha : a.images = pictures (a.blocks.map (·.1))) (hb : b.images = pictures (b.blocks.map (·.1))) :
    (a.append b).images = pictures ((a.append b).blocks.map (·.1)) := by
  rw [Found.append, ha, hb]
  simp [pictures]

mutual
theorem walk_pictures (low : Str → Str) (cfg : ParserConfig) : ∀ (d : Dom) (depth : Nat) (f : Found),
    walkElement low cfg depth d = some f → f.images = pictures (f.blocks.map (·.1))
  | .text _, depth, f, h => by
    simp only [walkElement, Option.some.injEq] at h
    subst h
    rfl
  | .el n a l, depth, f, h => by
    rw [walkElement] at h
    by_cases hs : skipped low n a = true
    · rw [if_pos hs] at h
      simp only [Option.some.injEq] at h
      subst h
      rfl
    rw [if_neg hs] at h
    by_cases hl : leafTags.contains n = true
    · rw [if_pos hl] at h
      simp only [Option.some.injEq] at h
      subst h
      exact own_pictures cfg depth _
    · rw [if_neg hl, Option.map_eq_some_iff] at h
      obtain ⟨g, hg, rfl⟩ := h
      exact append_pictures (own_pictures cfg depth _) (walkAll_pictures low cfg l depth g hg)

theorem walkAll_pictures (low : Str → Str) (cfg : ParserConfig) : ∀ (l : List Dom) (depth : Nat) (f : Found),
    walkAll low cfg depth l = some f → f.images = pictures (f.blocks.map (·.1))
  | [], depth, f, h => by
    simp only [walkAll, Option.some.injEq] at h
    subst h
    rfl
  | .text s :: l, depth, f, h => by
    rw [walkAll] at h
    exact walkAll_pictures low cfg l depth f h
  | .el n a c :: l, depth, f, h => by
    rw [walkAll] at h
    by_cases hd : depth + 1 < 256
    · rw [if_pos hd, Option.bind_eq_some_iff] at h
      obtain ⟨g, hg, h⟩ := h
      rw [Option.map_eq_some_iff] at h
      obtain ⟨g', hg', rfl⟩ := h
      exact append_pictures (walk_pictures low cfg (.el n a c) (depth + 1) g hg) (walkAll_pictures low cfg l depth g' hg')
    · rw [if_neg hd] at h
      simp at h
end

theorem elements_self {d e : Dom} (h : e ∈ d.elements) : ∃ n a l, e = .el n a l := by
  cases e with
  | el n a l => exact ⟨n, a, l, rfl⟩
  | text s =>
    exfalso
    exact no d h
where
  no {s : Str} : ∀ d : Dom, Dom.text s ∈ d.elements → False
    | .text _, h => by simp [Dom.elements] at h
    | .el n a l, h => by
      rw [Dom.elements] at h
      rcases List.mem_cons.1 h with h | h
      · simp at h
      · exact nos l h
  nos {s : Str} : ∀ l : List Dom, Dom.text s ∈ elementsOf l → False
    | [], h => by simp [elementsOf] at h
    | d :: l, h => by
      rw [elementsOf] at h
      rcases List.mem_append.1 h with h | h
      · exact no d h
      · exact nos l h

mutual
theorem elements_trans : ∀ (d : Dom) {e x : Dom}, e ∈ d.elements → x ∈ e.elements → x ∈ d.elements
  | .text _, e, x, h, _ => by simp [Dom.elements] at h
  | .el n a l, e, x, h, hx => by
    rw [Dom.elements] at h
    rcases List.mem_cons.1 h with rfl | h
    · exact hx
    · rw [Dom.elements]
      exact List.mem_cons_of_mem _ (elementsOf_trans l h hx)
theorem elementsOf_trans : ∀ (l : List Dom) {e x : Dom}, e ∈ elementsOf l → x ∈ e.elements → x ∈ elementsOf l
  | [], e, x, h, _ => by simp [elementsOf] at h
  | d :: l, e, x, h, hx => by
    rw [elementsOf] at h ⊢
    rcases List.mem_append.1 h with h | h
    · exact List.mem_append_left _ (elements_trans d h hx)
    · exact List.mem_append_right _ (elementsOf_trans l h hx)
end

/-- The main content is an element of the page with more than 100 bytes of text. -/
theorem mainElement_mem {doc m : Dom} (h : mainElement doc = some m) : m ∈ doc.elements ∧ 100 < utf8Len (domText m) := by
  rw [mainElement] at h
  have hp := List.find?_some h
  have hm := List.mem_of_find?_eq_some h
  simp only [decide_eq_true_eq, textOf_eq] at hp
  refine ⟨?_, hp⟩
  simp only [List.mem_filterMap, id_eq, exists_eq_right] at hm
  have fm : ∀ p : Dom → Bool, some m = first p doc → m ∈ doc.elements := fun p hf => List.mem_of_find?_eq_some hf.symm
  unfold mainPlaces at hm
  simp only [List.mem_append, List.mem_cons, List.mem_map, List.not_mem_nil, or_false] at hm
  rcases hm with ((hm | hm) | hm) | hm
  · rcases hm with hm | hm | hm | hm
    · have := List.mem_of_find?_eq_some hm.symm
      obtain ⟨e, he, hx⟩ := List.mem_flatMap.1 this
      refine elements_trans doc (List.mem_filter.1 he).1 ?_
      obtain ⟨n, a, l, rfl⟩ := elements_self (List.mem_filter.1 he).1
      rw [Dom.elements]
      exact List.mem_cons_of_mem _ hx
    · exact fm _ hm
    · exact fm _ hm
    · exact fm _ hm
  · obtain ⟨c, -, hm⟩ := hm
    exact fm _ hm.symm
  · obtain ⟨c, -, hm⟩ := hm
    exact fm _ hm.symm
  · rcases hm with hm | hm
    · exact fm _ hm
    · exact fm _ hm

/-- **C143**: every block of a page that was read says what an element of the page says, of the same kind; there is at least
one, and the list of pictures is the list of the picture blocks. -/
theorem C143_sound (low : Str → Str) (cfg : ParserConfig) (doc : Dom) (url : Str) (p : ParsedPage)
    (h : parsePage low cfg doc url = some (.ok p)) :
    p.page.url = url ∧ p.page.blocks ≠ [] ∧ p.levels.length = p.page.blocks.length ∧ p.images = pictures p.page.blocks ∧
      ∀ b ∈ p.page.blocks, ∃ e ∈ doc.elements, e.name ∉ neverShown ∧ Stands b e := by
  unfold parsePage at h
  cases hm : mainElement doc with
  | none => rw [hm] at h; simp at h
  | some m =>
    rw [hm] at h
    simp only [Option.map_eq_some_iff] at h
    obtain ⟨f, hf, h⟩ := h
    split at h
    · simp at h
    · rename_i hne
      simp only [Except.ok.injEq] at h
      subst h
      refine ⟨rfl, ?_, by simp, walk_pictures low cfg m 0 f hf, ?_⟩
      · intro e
        simp only [List.map_eq_nil_iff] at e
        exact hne (by rw [e]; rfl)
      · intro b hb
        obtain ⟨⟨b', k⟩, hb', rfl⟩ := List.mem_map.1 hb
        obtain ⟨e, he, hs, hst⟩ := walk_sound low cfg m 0 f hf _ hb'
        refine ⟨e, elements_trans doc (mainElement_mem hm).1 he, ?_, hst⟩
        unfold skipped at hs
        rw [Bool.or_eq_false_iff] at hs
        have := hs.1
        simpa [Web.skipTags, neverShown] using this

mutual
/-- How many elements stand one inside the other. -/
def domHeight : Dom → Nat
  | .text _ => 0
  | .el _ _ l => domsHeight l + 1
def domsHeight : List Dom → Nat
  | [] => 0
  | d :: l => max (domHeight d) (domsHeight l)
end

mutual
theorem walk_height (low : Str → Str) (cfg : ParserConfig) : ∀ (d : Dom) (depth : Nat), depth + domHeight d ≤ 256 →
    (walkElement low cfg depth d).isSome = true
  | .text _, depth, _ => rfl
  | .el n a l, depth, h => by
    rw [domHeight] at h
    rw [walkElement]
    split
    · rfl
    · split
      · rfl
      · rw [Option.isSome_map]
        exact walkAll_height low cfg l depth (by omega)
theorem walkAll_height (low : Str → Str) (cfg : ParserConfig) : ∀ (l : List Dom) (depth : Nat), depth + domsHeight l + 1 ≤ 256 →
    (walkAll low cfg depth l).isSome = true
  | [], depth, _ => rfl
  | .text _ :: l, depth, h => by
    rw [domsHeight] at h
    rw [walkAll]
    exact walkAll_height low cfg l depth (by omega)
  | .el n a c :: l, depth, h => by
    rw [domsHeight] at h
    have h1 := walk_height low cfg (.el n a c) (depth + 1) (by omega)
    have h2 := walkAll_height low cfg l depth (by omega)
    obtain ⟨f, hf⟩ := Option.isSome_iff_exists.1 h1
    obtain ⟨g, hg⟩ := Option.isSome_iff_exists.1 h2
    rw [domHeight] at h
    rw [walkAll, if_pos (by omega), hf, hg]
    rfl
end

mutual
theorem height_elements : ∀ (d : Dom) {e : Dom}, e ∈ d.elements → domHeight e ≤ domHeight d
  | .text _, e, h => by simp [Dom.elements] at h
  | .el n a l, e, h => by
    rw [Dom.elements] at h
    rcases List.mem_cons.1 h with rfl | h
    · exact Nat.le_refl _
    · have := height_elementsOf l h
      rw [domHeight.eq_def (.el n a l)]
      simp only
      omega
theorem height_elementsOf : ∀ (l : List Dom) {e : Dom}, e ∈ elementsOf l → domHeight e ≤ domsHeight l
  | [], e, h => by simp [elementsOf] at h
  | d :: l, e, h => by
    rw [elementsOf] at h
    rw [domsHeight]
    rcases List.mem_append.1 h with h | h
    · have := height_elements d h
      omega
    · have := height_elementsOf l h
      omega
end

/-- **C143**: reading a page does not crash. Not covered: pages with more than 256 elements one inside the other
(`C143_deep_violated`). -/
theorem C143_no_crash_partial (low : Str → Str) (cfg : ParserConfig) (doc : Dom) (url : Str) (h : domHeight doc ≤ 256) :
    (parsePage low cfg doc url).isSome = true := by
  unfold parsePage
  cases hm : mainElement doc with
  | none => rfl
  | some m =>
    have := height_elements doc (mainElement_mem hm).1
    simp only [Option.isSome_map]
    exact walk_height low cfg m 0 (by omega)

end PptRs.Props
