import Verif.Lemmas.Settings

/-!
# Reading the list of embedded fonts
-/

namespace PptRs.Settings

open PptRs PptRs.Spec

/-- The texts of a font that are written unescaped have no markup. -/
def FontIn.Plain (f : FontIn) : Prop :=
  PptRs.Plain f.font.relationshipId ∧ ∀ p, f.panose = some p → PptRs.Plain p

/-- The descriptor of a font. -/
def descriptorNode (f : FontIn) : Node :=
  E c!"p:font" ([(c!"typeface", f.font.typeface), (c!"charset", dec f.charset.code), (c!"pitchFamily", dec f.pitchFamily.toNat)]
    ++ f.panose.toList.flatMap fun p => [(c!"panose", p)]) []

theorem readsNodes_descriptor {f : FontIn} (h : f.Plain) : ReadsNodes (fontDescriptor f) [descriptorNode f] := by
  have ha : ReadsAttrs (whenSome f.panose (fun p => t!" panose=\"{.raw p}\"")) (f.panose.toList.flatMap fun p => [(c!"panose", p)]) :=
    Draw.readsAttrs_whenSome fun p hp => by
      have := h.2 p hp
      exact (Splits.lit (by parts_ok)).readsAttrs (fun top st n as => by krfl)
  exact (((Splits.lit (by parts_ok)).append (.attrs ha)).append (splitsAll rfl)).readsNodes (by krfl)

/-- The element of a style. -/
def variantNode (f : FontIn) : Node := E (c!"p:" ++ f.font.style.xmlElement) [(c!"r:id", f.font.relationshipId)] []

theorem readsNodes_variant {f : FontIn} (h : f.Plain) : ReadsNodes (fontVariant f) [variantNode f] := by
  have key : ∀ s : Str, ReadsNodes [.lit (c!"<p:" ++ s ++ c!" r:id=\""), .raw f.font.relationshipId, .lit c!"\"/>"]
      [E (c!"p:" ++ s) [(c!"r:id", f.font.relationshipId)] []] →
      ReadsNodes t!"<p:{.raw s} r:id=\"{.raw f.font.relationshipId}\"/>" [E (c!"p:" ++ s) [(c!"r:id", f.font.relationshipId)] []] := by
    intro s hs n as k st
    have := hs n as k st
    have e : fmt [.lit (c!"<p:" ++ s ++ c!" r:id=\""), .raw f.font.relationshipId, .lit c!"\"/>"]
        = fmt t!"<p:{.raw s} r:id=\"{.raw f.font.relationshipId}\"/>" := by
      simp [fmt, Part.render]
    rw [e] at this
    exact this
  have hp := h.1
  unfold fontVariant variantNode
  generalize f.font.relationshipId = rid at *
  cases f.font.style <;> exact key _ ((Splits.lit (by parts_ok)).readsNodes (by krfl))

/-- The entry of a typeface. -/
def groupNode (fonts : List FontIn) (t : Str) : Node :=
  E c!"p:embeddedFont" [] ((variantsOf fonts t).head?.toList.flatMap (fun f => [descriptorNode f])
    ++ (variantsOf fonts t).flatMap fun f => [variantNode f])

theorem readsNodes_group {fonts : List FontIn} (h : ∀ f ∈ fonts, f.Plain) (t : Str) :
    ReadsNodes (fontGroup fonts t) [groupNode fonts t] := by
  have hv : ∀ f ∈ variantsOf fonts t, f.Plain := fun f hf => h f (List.mem_of_mem_filter hf)
  have h1 : ReadsNodes (whenSome (variantsOf fonts t).head? fontDescriptor)
      ((variantsOf fonts t).head?.toList.flatMap fun f => [descriptorNode f]) :=
    readsNodes_whenSome fun f hf => readsNodes_descriptor (hv f (List.mem_of_head? hf))
  have h2 : ReadsNodes ((variantsOf fonts t).flatMap fontVariant) ((variantsOf fonts t).flatMap fun f => [variantNode f]) :=
    readsNodes_flatMap fun f hf => readsNodes_variant (hv f hf)
  exact ((splitsAll rfl).append (.nodes h1) |>.append (.nodes h2) |>.append (splitsAll rfl)).readsNodes (by krfl)

/-- The list of fonts. -/
def fontsNode (fonts : List FontIn) : Node :=
  E c!"p:embeddedFontLst" [] ((typefacesFrom [] fonts).flatMap fun t => [groupNode fonts t])

theorem readsNodes_fonts {fonts : List FontIn} (h : ∀ f ∈ fonts, f.Plain) (hne : fonts ≠ []) :
    ReadsNodes (fontList fonts) [fontsNode fonts] := by
  have h1 : ReadsNodes ((typefacesFrom [] fonts).flatMap (fontGroup fonts))
      ((typefacesFrom [] fonts).flatMap fun t => [groupNode fonts t]) :=
    readsNodes_flatMap fun t _ => readsNodes_group h t
  unfold fontList
  rw [if_neg (by simpa using hne)]
  exact ((splitsAll rfl).append (.nodes h1) |>.append (splitsAll rfl)).readsNodes (by krfl)

/-! ### The typefaces -/

theorem typefacesFrom_spec (fonts : List FontIn) (seen : List Str) (hs : seen.Nodup) :
    (typefacesFrom seen fonts).Nodup ∧
    (∀ t, t ∈ typefacesFrom seen fonts ↔ t ∈ seen ∨ ∃ f ∈ fonts, f.font.typeface = t) ∧
    ∃ r, typefacesFrom seen fonts = seen ++ r ∧ r.Sublist (fonts.map (·.font.typeface)) := by
  induction fonts generalizing seen with
  | nil => exact ⟨hs, by simp [typefacesFrom], [], by simp [typefacesFrom], by simp⟩
  | cons f fs ih =>
    unfold typefacesFrom
    by_cases h : seen.contains f.font.typeface = true
    · rw [if_pos h]
      obtain ⟨h1, h2, r, h3, h4⟩ := ih seen hs
      refine ⟨h1, fun t => ?_, r, h3, .cons _ h4⟩
      rw [h2, List.exists_mem_cons_iff]
      constructor
      · rintro (h | h)
        · exact .inl h
        · exact .inr (.inr h)
      · rintro (h | h | h)
        · exact .inl h
        · exact .inl (h ▸ List.contains_iff_mem.mp ‹_›)
        · exact .inr h
    · rw [if_neg h]
      have hn : f.font.typeface ∉ seen := fun hm => h (List.contains_iff_mem.mpr hm)
      obtain ⟨h1, h2, r, h3, h4⟩ := ih (seen ++ [f.font.typeface]) (List.nodup_append.mpr ⟨hs, by simp, by
        intro a ha b hb e
        rw [List.mem_singleton.mp hb] at e
        exact hn (e ▸ ha)⟩)
      refine ⟨h1, fun t => ?_, f.font.typeface :: r, by rw [h3]; simp, .cons_cons _ h4⟩
      rw [h2, List.exists_mem_cons_iff, List.mem_append, List.mem_singleton]
      constructor
      · rintro ((h | h) | h)
        · exact .inl h
        · exact .inr (.inl h.symm)
        · exact .inr (.inr h)
      · rintro (h | h | h)
        · exact .inl (.inl h)
        · exact .inl (.inr h.symm)
        · exact .inr h

theorem children_groups (fonts : List FontIn) :
    children c!"p:embeddedFont" (fontsNode fonts) = (typefacesFrom [] fonts).map (groupNode fonts) := by
  unfold fontsNode
  show named c!"p:embeddedFont" _ = _
  generalize typefacesFrom [] fonts = l
  induction l with
  | nil => rfl
  | cons t l ih =>
    rw [List.flatMap_cons, List.map_cons, ← ih]
    rfl

theorem readFont_group (fonts : List FontIn) (t : Str) :
    (readFont (groupNode fonts t)).styles = (variantsOf fonts t).map (fun f => (c!"p:" ++ f.font.style.xmlElement,
      some f.font.relationshipId)) ∧
    ∀ f, (variantsOf fonts t).head? = some f → (readFont (groupNode fonts t)).typeface = some f.font.typeface ∧
      (readFont (groupNode fonts t)).charset = some (dec f.charset.code) ∧
      (readFont (groupNode fonts t)).pitchFamily = some (dec f.pitchFamily.toNat) ∧
      (readFont (groupNode fonts t)).panose = f.panose := by
  unfold groupNode
  generalize variantsOf fonts t = l
  have hv : ∀ l : List FontIn, ((taggedElems (l.flatMap fun f => [variantNode f])).filter fun p => p.1 ≠ c!"p:font").map
      (fun p => (p.1, attrOf c!"r:id" p.2)) = l.map (fun f => (c!"p:" ++ f.font.style.xmlElement, some f.font.relationshipId)) := by
    intro l
    induction l with
    | nil => rfl
    | cons f l ih =>
      rw [List.flatMap_cons, List.map_cons, ← ih]
      have : (c!"p:" ++ f.font.style.xmlElement) ≠ c!"p:font" := by cases f.font.style <;> decide
      show ((List.filter _ ((c!"p:" ++ f.font.style.xmlElement, variantNode f) :: taggedElems (l.flatMap fun f => [variantNode f]))).map _) = _
      rw [List.filter_cons_of_pos (by simpa using this)]
      rfl
  constructor
  · cases l with
    | nil => rfl
    | cons f l => exact hv (f :: l)
  · intro f hf
    match l, hf with
    | g :: l, hf =>
      obtain rfl := Option.some.inj hf
      refine ⟨by krfl, by krfl, by krfl, ?_⟩
      obtain ⟨ft, cs, pa, pf⟩ := g
      cases pa <;> krfl

/-! ### The text of the presentation part -/

/-- The attributes of the descriptor of a typeface. -/
def descOf (fonts : List FontIn) (t : Str) : Str :=
  match (variantsOf fonts t).head? with
  | some f => fmt (t!" charset=\"{.num f.charset.code}\" pitchFamily=\"{.num f.pitchFamily.toNat}\""
      ++ whenSome f.panose (fun p => t!" panose=\"{.raw p}\""))
  | none => []

theorem typefacesFrom_eq (fonts : List FontIn) (seen : List Str) : typefacesFrom seen fonts =
    (fonts.map (·.font)).foldl (fun seen f => if seen.contains f.typeface then seen else seen ++ [f.typeface]) seen := by
  induction fonts generalizing seen with
  | nil => rfl
  | cons f fs ih => exact ih _

theorem fmt_variant (f : FontIn) : fmt (fontVariant f) =
    c!"<p:" ++ f.font.style.xmlElement ++ c!" r:id=\"" ++ f.font.relationshipId ++ c!"\"/>" := by
  simp [fontVariant, fmt, Part.render]

theorem fmt_group {fonts : List FontIn} {t : Str} (h : ∃ f ∈ fonts, f.font.typeface = t) :
    fmt (fontGroup fonts t) = fontGroupText (descOf fonts) (fonts.map (·.font)) t := by
  obtain ⟨g, hg, ht⟩ := h
  have hm : g ∈ variantsOf fonts t := List.mem_filter.mpr ⟨hg, by simpa using ht⟩
  unfold fontGroup fontGroupText descOf
  have e : ((fonts.map (·.font)).filter fun f => f.typeface = t) = (variantsOf fonts t).map (·.font) := by
    unfold variantsOf
    rw [List.filter_map]
    rfl
  rw [e]
  have hall : ∀ f ∈ variantsOf fonts t, f.font.typeface = t := fun f hf => by simpa using (List.mem_filter.mp hf).2
  match variantsOf fonts t, hm, hall with
  | f :: l, _, hall =>
    have hf := hall f (by simp)
    subst hf
    simp only [fmt_append, List.head?_cons, List.flatMap_map]
    have e2 : fmt ((f :: l).flatMap fontVariant) = (f :: l).flatMap fun f =>
        c!"<p:" ++ f.font.style.xmlElement ++ c!" r:id=\"" ++ f.font.relationshipId ++ c!"\"/>" := by
      rw [show fmt ((f :: l).flatMap fontVariant) = ((f :: l).flatMap fontVariant).flatMap Part.render from rfl, List.flatMap_assoc]
      congr 1
      funext x
      exact fmt_variant x
    rw [e2]
    generalize List.flatMap _ (f :: l) = x
    simp [fmt, whenSome, fontDescriptor, Part.render]

theorem fmt_fonts (fonts : List FontIn) : fmt (fontList fonts) = fontListText (descOf fonts) (fonts.map (·.font)) := by
  unfold fontList fontListText
  cases fonts with
  | nil => rfl
  | cons f fs =>
    rw [if_neg (by simp), if_neg (by simp), fmt_append, fmt_append, ← typefacesFrom_eq]
    have e : fmt ((typefacesFrom [] (f :: fs)).flatMap (fontGroup (f :: fs))) =
        (typefacesFrom [] (f :: fs)).flatMap (fontGroupText (descOf (f :: fs)) ((f :: fs).map (·.font))) := by
      have hm : ∀ t ∈ typefacesFrom [] (f :: fs), ∃ g ∈ f :: fs, g.font.typeface = t := fun t ht =>
        (((typefacesFrom_spec (f :: fs) [] List.nodup_nil).2.1 t).mp ht).resolve_left (by simp)
      generalize typefacesFrom [] (f :: fs) = l at *
      induction l with
      | nil => rfl
      | cons t l ih =>
        rw [List.flatMap_cons, List.flatMap_cons, fmt_append, fmt_group (hm t (by simp)), ih fun t ht => hm t (by simp [ht])]
    rw [e]
    rfl

end PptRs.Settings
