import Verif.Spec.Squeeze
import Verif.Lemmas.XmlElement
import Verif.Lemmas.Template
import Mathlib.Data.List.Induction

/-!
# Texts after minification
-/

namespace PptRs

open PptRs.Spec

theorem blankText_cons {c : Char} {t : Str} : BlankText (c :: t) ↔ blankChar c = true ∧ BlankText t := by
  simp [BlankText, blankChar, or_assoc]

theorem blankText_nil : BlankText [] := by simp [BlankText]

theorem spaced_congr {p q : Char} (h : p = ' ' ↔ q = ' ') (t : Str) : spaced p t = spaced q t := by
  cases t with
  | nil => rfl
  | cons c t => simp only [spaced, h]

theorem spaced_append (p : Char) (a b : Str) :
    spaced p (a ++ b) = spaced p a ++ spaced (a.getLast?.getD p) b := by
  induction a generalizing p with
  | nil => rfl
  | cons c a ih =>
    have e : ((c :: a).getLast?.getD p) = (a.getLast?.getD c) := by
      cases a with
      | nil => rfl
      | cons d a => rw [List.getLast?_cons_cons, List.getLast?_eq_getLast_of_ne_nil (by simp)]; rfl
    rw [List.cons_append, e, spaced, spaced, ih]
    split
    · split
      · rfl
      · rfl
    · rfl

theorem spaced_snoc (p : Char) (a : Str) (c : Char) :
    spaced p (a ++ [c]) = spaced p a ++
      (if blankChar c then if a.getLast?.getD p = ' ' then [] else [' '] else [c]) := by
  rw [spaced_append]
  simp only [spaced]

theorem spaced_ne_nil {p : Char} (hp : p ≠ ' ') {t : Str} (h : t ≠ []) : spaced p t ≠ [] := by
  cases t with
  | nil => exact absurd rfl h
  | cons c t =>
    simp only [spaced, if_neg hp]
    split <;> simp

theorem mem_spaced {p c : Char} {t : Str} (h : c ∈ spaced p t) : c = ' ' ∨ c ∈ t := by
  induction t generalizing p with
  | nil => simp [spaced] at h
  | cons d t ih =>
    simp only [spaced] at h
    split at h
    · split at h
      · rcases ih h with h | h <;> simp [h]
      · rcases List.mem_cons.mp h with h | h
        · exact .inl h
        · rcases ih h with h | h <;> simp [h]
    · rcases List.mem_cons.mp h with h | h
      · simp [h]
      · rcases ih h with h | h <;> simp [h]

theorem mem_squeeze {c : Char} {t : Str} (h : c ∈ squeeze t) : c = ' ' ∨ c ∈ t := by
  unfold squeeze at h
  split at h
  · exact mem_spaced (List.dropLast_subset _ h)
  · exact mem_spaced h

/-! ### Decoded texts -/

theorem readText_spaced {raw t : Str} (h : readText raw = some t) :
    ∀ p, readText (spaced p raw) = some (spaced p t) := by
  induction raw using readText.induct generalizing t with
  | case1 => intro p; simp [readText] at h; subst h; rfl
  | case2 r ih | case3 r ih | case4 r ih | case5 r ih | case6 r ih =>
    intro p
    simp only [readText, Option.map_eq_some_iff] at h
    obtain ⟨y, hy, rfl⟩ := h
    simp only [spaced, show blankChar '&' = false from rfl, show blankChar 'a' = false from rfl,
      show blankChar 'm' = false from rfl, show blankChar 'p' = false from rfl,
      show blankChar ';' = false from rfl, show blankChar 'l' = false from rfl,
      show blankChar 't' = false from rfl, show blankChar 'g' = false from rfl,
      show blankChar 'q' = false from rfl, show blankChar 'u' = false from rfl,
      show blankChar 'o' = false from rfl, show blankChar 's' = false from rfl,
      show blankChar '<' = false from rfl, show blankChar '>' = false from rfl,
      show blankChar '"' = false from rfl, show blankChar '\'' = false from rfl,
      if_false, Bool.false_eq_true, readText, ih hy ';', Option.map_some]
    congr 2
    exact spaced_congr (by decide) _
  | case7 c r _ _ _ _ _ hc =>
    rcases hc with rfl | rfl
    · rw [readText.eq_7] at h <;> simp_all
    · simp [readText] at h
  | case8 c r _ _ _ _ _ hc ih =>
    intro p
    have h1 : c ≠ '&' := fun e => hc (.inl e)
    have h2 : c ≠ '<' := fun e => hc (.inr e)
    rw [readText_plain _ h1 h2, Option.map_eq_some_iff] at h
    obtain ⟨y, hy, rfl⟩ := h
    simp only [spaced]
    split
    · split
      · exact ih hy c
      · rw [readText_plain _ (by decide) (by decide), ih hy c]; rfl
    · rw [readText_plain _ h1 h2, ih hy c]; rfl

theorem readText_endsBlank {raw t : Str} (h : readText raw = some t) : endsBlank raw = endsBlank t := by
  have key : ∀ (c : Char) (a : Str), a ≠ [] → endsBlank (c :: a) = endsBlank a := by
    intro c a ha
    cases a with
    | nil => exact absurd rfl ha
    | cons d a => simp [endsBlank, List.getLast?_cons_cons]
  induction raw using readText.induct generalizing t with
  | case1 => simp [readText] at h; subst h; rfl
  | case2 r ih | case3 r ih | case4 r ih | case5 r ih | case6 r ih =>
    simp only [readText, Option.map_eq_some_iff] at h
    obtain ⟨y, hy, rfl⟩ := h
    repeat rw [key _ (_ :: _) (by simp)]
    by_cases hr : r = []
    · subst hr
      simp [readText] at hy; subst hy; rfl
    · have : y ≠ [] := fun e => hr (readText_eq_nil (e ▸ hy))
      rw [key _ _ hr, key _ _ this, ih hy]
  | case7 c r _ _ _ _ _ hc =>
    rcases hc with rfl | rfl
    · rw [readText.eq_7] at h <;> simp_all
    · simp [readText] at h
  | case8 c r _ _ _ _ _ hc ih =>
    have h1 : c ≠ '&' := fun e => hc (.inl e)
    have h2 : c ≠ '<' := fun e => hc (.inr e)
    rw [readText_plain _ h1 h2, Option.map_eq_some_iff] at h
    obtain ⟨y, hy, rfl⟩ := h
    by_cases hr : r = []
    · subst hr
      simp [readText] at hy; subst hy; rfl
    · have : y ≠ [] := fun e => hr (readText_eq_nil (e ▸ hy))
      rw [key _ _ hr, key _ _ this, ih hy]

/-- A text that ends in a blank has its last blank dropped, which is not part of an entity. -/
theorem readText_dropLast {raw t : Str} (h : readText raw = some t) (hb : ∃ a, raw = a ++ [' ']) :
    readText raw.dropLast = some t.dropLast := by
  obtain ⟨a, rfl⟩ := hb
  rw [List.dropLast_concat]
  induction a using readText.induct generalizing t with
  | case1 =>
    rw [List.nil_append, readText_plain _ (by decide) (by decide)] at h
    simp [readText] at h
    subst h
    rfl
  | case2 r ih | case3 r ih | case4 r ih | case5 r ih | case6 r ih =>
    simp only [List.cons_append, readText, Option.map_eq_some_iff] at h ⊢
    obtain ⟨y, hy, rfl⟩ := h
    have : y ≠ [] := fun e => by have := readText_eq_nil (e ▸ hy); simp at this
    exact ⟨_, ih hy, by rw [List.dropLast_cons_of_ne_nil this]⟩
  | case7 c r h1 h2 h3 h4 h5 hc =>
    exfalso
    rcases hc with rfl | rfl
    · have : readText ('&' :: (r ++ [' '])) = none := by
        rw [readText.eq_7]
        · simp
        all_goals
          intro s _ e
          have hs : ∃ s', s = s' ++ [' '] := by
            rcases List.eq_nil_or_concat s with rfl | ⟨s', x, rfl⟩
            · have hl := congrArg List.getLast? e
              simp at hl
            · have hl := congrArg List.getLast? e
              rw [List.concat_eq_append] at hl ⊢
              simp [List.getLast?_cons] at hl
              exact ⟨s', by rw [← hl]⟩
          obtain ⟨s', rfl⟩ := hs
          have hd := congrArg List.dropLast e
          simp only [List.dropLast_concat, ← List.cons_append] at hd
          first
            | exact h1 s' rfl hd
            | exact h2 s' rfl hd
            | exact h3 s' rfl hd
            | exact h4 s' rfl hd
            | exact h5 s' rfl hd
      rw [List.cons_append, this] at h
      cases h
    · simp [readText] at h
  | case8 c r _ _ _ _ _ hc ih =>
    have h1 : c ≠ '&' := fun e => hc (.inl e)
    have h2 : c ≠ '<' := fun e => hc (.inr e)
    rw [List.cons_append, readText_plain _ h1 h2, Option.map_eq_some_iff] at h
    obtain ⟨y, hy, rfl⟩ := h
    have : y ≠ [] := fun e => by have := readText_eq_nil (e ▸ hy); simp at this
    rw [readText_plain _ h1 h2, ih hy, List.dropLast_cons_of_ne_nil this]
    rfl

theorem endsBlank_snoc {t : Str} (h : endsBlank t = true) : ∃ a c, t = a ++ [c] ∧ blankChar c = true := by
  cases t using List.reverseRecOn with
  | nil => simp [endsBlank] at h
  | append_singleton a c =>
    refine ⟨a, c, rfl, ?_⟩
    simp only [endsBlank, List.getLast?_append, List.getLast?_singleton, Option.or] at h
    simp only [blankChar, Bool.or_eq_true] at h ⊢
    tauto

/-- After a space nothing is written for a blank; before it there is a space anyway. -/
theorem spaced_ends {a : Str} {c : Char} (hc : blankChar c = true) :
    ∃ b, spaced '>' (a ++ [c]) = b ++ [' '] := by
  induction a using List.reverseRecOn generalizing c with
  | nil => exact ⟨[], by simp [spaced, hc]⟩
  | append_singleton a d ih =>
    rw [spaced_snoc, if_pos hc]
    split
    · rename_i h
      have hd : d = ' ' := by simpa using h
      obtain ⟨b, hb⟩ := ih (c := d) (by subst hd; rfl)
      exact ⟨b, by rw [hb]; simp⟩
    · exact ⟨_, rfl⟩

theorem readText_squeeze {raw t : Str} (h : readText raw = some t) : readText (squeeze raw) = some (squeeze t) := by
  unfold squeeze
  rw [readText_endsBlank h]
  split
  · rename_i hb
    rw [← readText_endsBlank h] at hb
    obtain ⟨a, c, rfl, hc⟩ := endsBlank_snoc hb
    exact readText_dropLast (readText_spaced h '>') (spaced_ends hc)
  · exact readText_spaced h '>'

/-! ### Blank texts -/

theorem spaced_blank {p : Char} {t : Str} : BlankText (spaced p t) ↔ BlankText t := by
  induction t generalizing p with
  | nil => rfl
  | cons c t ih =>
    simp only [spaced]
    split
    · rename_i hc
      split
      · rw [ih, blankText_cons]; simp [hc]
      · rw [blankText_cons, blankText_cons, ih]; simp [hc, show blankChar ' ' = true from rfl]
    · rename_i hc
      rw [blankText_cons, blankText_cons]; simp [hc]

theorem blankText_append {a b : Str} : BlankText (a ++ b) ↔ BlankText a ∧ BlankText b := by
  simp only [BlankText, List.mem_append]
  exact ⟨fun h => ⟨fun c hc => h c (.inl hc), fun c hc => h c (.inr hc)⟩,
    fun h c hc => hc.elim (h.1 c) (h.2 c)⟩

theorem squeeze_blank {t : Str} : BlankText (squeeze t) ↔ BlankText t := by
  unfold squeeze
  split
  · rename_i hb
    obtain ⟨a, c, rfl, hc⟩ := endsBlank_snoc hb
    obtain ⟨b, hs⟩ := spaced_ends (a := a) hc
    rw [← spaced_blank (p := '>') (t := a ++ [c]), hs, List.dropLast_concat, blankText_append]
    simp [BlankText]
  · exact spaced_blank

theorem tidy_blank {t : Str} : BlankText (tidy t) ↔ BlankText t := by
  unfold tidy
  split
  · rfl
  · exact squeeze_blank

theorem tidy_of_blank {t : Str} (h : BlankText t) : tidy t = t := if_pos h

theorem tidy_eq_nil {t : Str} : tidy t = [] ↔ t = [] := by
  constructor
  · intro h
    have : BlankText t := by rw [← tidy_blank, h]; exact blankText_nil
    rwa [tidy_of_blank this] at h
  · rintro rfl
    exact tidy_of_blank blankText_nil

theorem mem_tidy {c : Char} {t : Str} (h : c ∈ tidy t) : c = ' ' ∨ c ∈ t := by
  unfold tidy at h
  split at h
  · exact .inr h
  · exact mem_squeeze h

/-! ### Nodes -/

mutual
/-- A node after minification; texts that vanish are no nodes. -/
def squeezeNode : Node → List Node
  | .text t => textNode (squeeze t)
  | .elem n as ks => [.elem n as (squeezeNodes ks)]
/-- Nodes after minification. -/
def squeezeNodes : List Node → List Node
  | [] => []
  | k :: ks => squeezeNode k ++ squeezeNodes ks
end

theorem squeezeNodes_append (a b : List Node) : squeezeNodes (a ++ b) = squeezeNodes a ++ squeezeNodes b := by
  induction a with
  | nil => rfl
  | cons k a ih => simp [squeezeNodes, ih]

theorem squeeze_nil : squeeze [] = [] := rfl

theorem squeezeNodes_textNode (t : Str) : squeezeNodes (textNode t) = textNode (squeeze t) := by
  by_cases h : t = []
  · subst h; rfl
  · simp [textNode, h, squeezeNodes, squeezeNode]

theorem mapNodes_append (f : Str → Str) (a b : List Node) : mapNodes f (a ++ b) = mapNodes f a ++ mapNodes f b := by
  induction a with
  | nil => rfl
  | cons k a ih => simp [mapNodes, ih]

mutual
/-- A reader that ignores blank texts sees every text tidied. -/
theorem built_squeezeNode : ∀ k : Node, builtIn (squeezeNode k) = built (mapNode tidy k) ∧
    solidText (squeezeNode k) = solidText [mapNode tidy k]
  | .text t => by
    constructor
    · simp only [squeezeNode, mapNode, built, textNode]
      split <;> simp [builtIn, built]
    · simp only [squeezeNode, mapNode, solidText, tidy_blank, textNode]
      by_cases h : BlankText t
      · by_cases h' : squeeze t = [] <;> simp [h, h', solidText, squeeze_blank]
      · have : squeeze t ≠ [] := by
          intro e
          exact h (squeeze_blank.mp (e ▸ blankText_nil))
        simp [h, this, solidText, squeeze_blank, tidy]
  | .elem n as ks => by
    have := built_squeezeNodes ks
    simp [squeezeNode, mapNode, built, builtIn, solidText, this]
theorem built_squeezeNodes : ∀ ks : List Node, builtIn (squeezeNodes ks) = builtIn (mapNodes tidy ks) ∧
    solidText (squeezeNodes ks) = solidText (mapNodes tidy ks)
  | [] => ⟨rfl, rfl⟩
  | k :: ks => by
    have h1 := built_squeezeNode k
    have h2 := built_squeezeNodes ks
    have hb : ∀ a b : List Node, builtIn (a ++ b) = builtIn a ++ builtIn b := by
      intro a b
      induction a with
      | nil => rfl
      | cons k a ih => simp [builtIn, ih]
    have hs : ∀ a b : List Node, solidText (a ++ b) = solidText a ++ solidText b := by
      intro a b
      induction a with
      | nil => rfl
      | cons k a ih => cases k <;> simp [solidText, ih]
    constructor
    · rw [squeezeNodes, mapNodes, hb, h1.1, h2.1, builtIn]
    · rw [squeezeNodes, mapNodes, hs, h1.2, h2.2, ← hs]
      rfl
end

end PptRs
