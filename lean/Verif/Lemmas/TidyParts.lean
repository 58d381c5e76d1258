import Verif.Lemmas.TidySlide
import Verif.Lemmas.ReaderOrder
import Verif.Lemmas.Parts

/-!
# Words of tidied texts, and the other minified parts
-/

namespace PptRs

open PptRs.Spec PptRs.Reader PptRs.Props PptRs.Editor

/-! ### Words -/

theorem wordsOf_cons {c : Char} (h : blankChar c = false) {a b : Str} (h1 : wordsOf a = wordsOf b)
    (h2 : (a.head?.map blankChar) = (b.head?.map blankChar)) : wordsOf (c :: a) = wordsOf (c :: b) := by
  cases a with
  | nil =>
    cases b with
    | nil => rfl
    | cons d b => simp at h2
  | cons e a =>
    cases b with
    | nil => simp at h2
    | cons d b =>
      simp only [List.head?_cons, Option.map_some, Option.some.injEq] at h2
      rw [wordsOf, wordsOf, h1, h2]

theorem words_spaced (p : Char) (t : Str) : wordsOf (spaced p t) = wordsOf t := by
  induction t generalizing p with
  | nil => rfl
  | cons c t ih =>
    by_cases hc : blankChar c = true
    · have e : wordsOf (c :: t) = wordsOf t := by rw [wordsOf.eq_def]; simp [hc]
      rw [e, spaced, if_pos hc]
      split
      · exact ih c
      · rw [show wordsOf (' ' :: spaced c t) = wordsOf (spaced c t) by rw [wordsOf.eq_def]; simp [blankChar], ih]
    · rw [spaced, if_neg hc]
      refine wordsOf_cons (by simpa using hc) (ih c) ?_
      cases t with
      | nil => rfl
      | cons d t =>
        have : c ≠ ' ' := by rintro rfl; exact hc rfl
        rw [spaced, if_neg this]
        by_cases hd : blankChar d = true
        · rw [if_pos hd, List.head?_cons, List.head?_cons, Option.map_some, Option.map_some, hd]; rfl
        · rw [if_neg hd]; simp

theorem words_snoc (a : Str) {c : Char} (h : blankChar c = true) : wordsOf (a ++ [c]) = wordsOf a := by
  induction a with
  | nil => simp [wordsOf, h]
  | cons b a ih =>
    rw [List.cons_append]
    by_cases hb : blankChar b = true
    · have e : ∀ x, wordsOf (b :: x) = wordsOf x := fun x => by rw [wordsOf.eq_def]; simp [hb]
      rw [e, e, ih]
    · cases a with
      | nil => simp [wordsOf, h, hb]
      | cons d a => exact wordsOf_cons (by simpa using hb) ih (by simp)

theorem words_squeeze (t : Str) : wordsOf (squeeze t) = wordsOf t := by
  unfold squeeze
  split
  · rename_i h
    obtain ⟨a, c, rfl, hc⟩ := endsBlank_snoc h
    obtain ⟨b, hb⟩ := spaced_ends (a := a) hc
    rw [← words_spaced '>' (a ++ [c]), hb, List.dropLast_concat, words_snoc _ rfl]
  · exact words_spaced _ _

theorem words_tidy (t : Str) : wordsOf (tidy t) = wordsOf t := by
  unfold tidy
  split
  · rfl
  · exact words_squeeze t

/-! ### Tidied texts -/

theorem spaced_tidied {t : Str} (h : Tidied t) : ∀ {p : Char}, (p = ' ' → ∀ c ∈ t.head?, blankChar c = false) → spaced p t = t := by
  induction t with
  | nil => intros; rfl
  | cons c t ih =>
    intro p hp
    rw [spaced]
    cases t with
    | nil =>
      have : blankChar c = false := h
      rw [this]
      rfl
    | cons d t =>
      by_cases hc : blankChar c = true
      · have hne : p ≠ ' ' := fun e => by have := hp e c (by simp); rw [hc] at this; cases this
        rw [if_pos hc, if_neg hne, ih h.2 (fun _ x hx => by simp at hx; rw [← hx]; exact (h.1 hc).2), (h.1 hc).1]
      · rw [if_neg hc, ih h.2]
        rintro rfl
        exact absurd rfl hc

theorem tidied_end : ∀ {t : Str}, Tidied t → endsBlank t = false
  | [], _ => rfl
  | [c], h => by
    have : blankChar c = false := h
    simp only [blankChar, Bool.or_eq_false_iff] at this
    simp [endsBlank, this]
  | _ :: d :: t, h => by
    have := tidied_end h.2
    unfold endsBlank at this ⊢
    rw [List.getLast?_cons_cons]
    exact this

theorem tidied_squeeze {t : Str} (h : Tidied t) : squeeze t = t := by
  unfold squeeze
  rw [tidied_end h]
  exact spaced_tidied h (fun e => by cases e)

theorem tidied_tidy {t : Str} (h : Tidied t) : tidy t = t := by
  unfold tidy
  split
  · rfl
  · exact tidied_squeeze h

theorem length_spaced (p : Char) (t : Str) : (spaced p t).length ≤ t.length := by
  induction t generalizing p with
  | nil => simp [spaced]
  | cons c t ih =>
    have := ih c
    rw [spaced]
    split
    · split <;> simp <;> omega
    · simp; omega

theorem spaced_fixed {t : Str} : ∀ {p : Char}, spaced p t = t → endsBlank t = false →
    Tidied t ∧ (p = ' ' → ∀ c ∈ t.head?, blankChar c = false) := by
  induction t with
  | nil => intro p _ _; exact ⟨trivial, by simp⟩
  | cons c t ih =>
    intro p h he
    rw [spaced] at h
    by_cases hc : blankChar c = true
    · rw [if_pos hc] at h
      by_cases hp : p = ' '
      · rw [if_pos hp] at h
        have h1 := length_spaced c t
        have h2 := congrArg List.length h
        simp at h2
        omega
      · rw [if_neg hp, List.cons.injEq] at h
        refine ⟨?_, fun e => absurd e hp⟩
        cases t with
        | nil =>
          rw [← h.1] at he
          cases he
        | cons d t =>
          have := ih h.2 (by simpa [endsBlank, List.getLast?_cons_cons] using he)
          exact ⟨fun _ => ⟨h.1.symm, this.2 h.1.symm d (by simp)⟩, this.1⟩
    · rw [if_neg hc, List.cons.injEq] at h
      refine ⟨?_, fun _ x hx => by simp at hx; rw [← hx]; simpa using hc⟩
      cases t with
      | nil => exact (by simpa using hc : blankChar c = false)
      | cons d t =>
        have := ih h.2 (by simpa [endsBlank, List.getLast?_cons_cons] using he)
        exact ⟨fun e => absurd e hc, this.1⟩

theorem tidied_noBlank : ∀ {t : Str}, (∀ c ∈ t, blankChar c = false) → Tidied t
  | [], _ => trivial
  | [c], h => h c (by simp)
  | c :: d :: t, h =>
    ⟨fun e => (by rw [h c (by simp)] at e; cases e), tidied_noBlank fun x hx => h x (List.mem_cons_of_mem _ hx)⟩

/-- The tidied texts are exactly those that stay. -/
theorem squeeze_fixed {t : Str} : squeeze t = t ↔ Tidied t := by
  refine ⟨fun h => ?_, tidied_squeeze⟩
  unfold squeeze at h
  split at h
  · rename_i he
    obtain ⟨a, c, rfl, hc⟩ := endsBlank_snoc he
    obtain ⟨b, hb⟩ := spaced_ends (a := a) hc
    have h1 := length_spaced '>' (a ++ [c])
    have h2 := congrArg List.length h
    rw [hb] at h1 h2
    simp at h1 h2
    omega
  · rename_i he
    exact (spaced_fixed h (by simpa using he)).1

/-! ### Relationships -/

theorem calm_gapRel {g : Str × RelEntry} (h1 : Plain g.1) (h : g.2.Plain) : Calm (gapRel g) .text .text :=
  (calmLit (z' := .text) (by parts_ok) (by krfl)).append (((calmLit (z' := .tag) (by parts_ok; exact ⟨h.id, h.type, h.target⟩) (by krfl)).append
    (calm_whenSet (calmLit (by parts_ok) (by krfl)))).append (calmLit (by parts_ok) (by krfl)))

theorem calm_relsText {gs : List (Str × RelEntry)} {b : Bool} (hg : ∀ g ∈ gs, Plain g.1 ∧ g.2.Plain) :
    Calm (t!"<Relationships xmlns=\"http://schemas.openxmlformats.org/package/2006/relationships\">"
      ++ gs.flatMap gapRel ++ (whenSet b t!"\n" ++ t!"</Relationships>")) .text .text :=
  ((calmLit (z' := .text) (by parts_ok) (by krfl)).append (calm_flatMap fun g h => calm_gapRel (hg g h).1 (hg g h).2)).append
    ((calm_whenSet (calmLit (by parts_ok) (by krfl))).append (calmLit (by parts_ok) (by krfl)))

theorem readsNodes_relsText {gs : List (Str × RelEntry)} {b : Bool} (hg : ∀ g ∈ gs, Plain g.1 ∧ g.2.Plain) :
    ReadsNodes (t!"<Relationships xmlns=\"http://schemas.openxmlformats.org/package/2006/relationships\">"
      ++ gs.flatMap gapRel ++ (whenSet b t!"\n" ++ t!"</Relationships>"))
      (relsDoc (gs.flatMap gapNodes ++ (if b then [nl] else []))) := by
  have hn : ReadsNodes (gs.flatMap gapRel) (gs.flatMap gapNodes) :=
    readsNodes_flatMap fun g h => readsNodes_gapRel (hg g h).1 (hg g h).2
  cases b
  · show ReadsNodes (_ ++ _ ++ t!"</Relationships>") (relsDoc (_ ++ []))
    rw [List.append_nil]
    exact ((Splits.lit (by parts_ok)).append (.nodes hn) |>.append (.lit (by parts_ok))).readsNodes (by krfl)
  · show ReadsNodes (_ ++ _ ++ (t!"\n" ++ t!"</Relationships>")) _
    exact ((Splits.lit (by parts_ok)).append (.nodes hn) |>.append
      ((Splits.lit (by parts_ok)).append (.lit (by parts_ok)))).readsNodes (by krfl)

theorem mapNodes_gaps {gs : List (Str × RelEntry)} {b : Bool} (hb : ∀ g ∈ gs, BlankText g.1) :
    mapNodes tidy (gs.flatMap gapNodes ++ (if b then [nl] else [])) = gs.flatMap gapNodes ++ (if b then [nl] else []) := by
  rw [mapNodes_append]
  congr 1
  · induction gs with
    | nil => rfl
    | cons g gs ih =>
      rw [List.flatMap_cons, mapNodes_append, ih fun x hx => hb x (by simp [hx])]
      congr 1
      have : tidy ('\n' :: g.1) = '\n' :: g.1 := by
        unfold tidy
        rw [if_pos (blankText_cons.mpr ⟨rfl, hb g (by simp)⟩)]
      show [Node.text (tidy ('\n' :: g.1)), _] = _
      rw [this]
      rfl
  · cases b
    · rfl
    · show [Node.text (tidy ['\n'])] = _
      have : tidy ['\n'] = ['\n'] := by decide
      rw [this]
      rfl

theorem parse_minimize_relsText {gs : List (Str × RelEntry)} {b : Bool} (hg : ∀ g ∈ gs, Plain g.1 ∧ g.2.Plain)
    (hb : ∀ g ∈ gs, BlankText g.1) :
    XmlElement.parse (minimizeXml (relsText gs b)) = XmlElement.parse (relsText gs b) := by
  have d1 := document_minimize (readsNodes_relsText (b := b) hg).readsAs
    ⟨_, by simp only [List.append_assoc]; rw [fmt_append]; rfl⟩ (calm_relsText hg)
  have d2 := document_relsText b hg
  have e1 : squeezeNodes (relsDoc (gs.flatMap gapNodes ++ (if b then [nl] else []))) =
    relsDoc (squeezeNodes (gs.flatMap gapNodes ++ (if b then [nl] else []))) := rfl
  rw [e1] at d1
  have p1 := parse_elem (x := minimizeXml (relsText gs b)) d1
  rw [p1, parse_elem d2]
  have q := built_squeezeNodes (gs.flatMap gapNodes ++ (if b then [nl] else []))
  rw [q.1, q.2, mapNodes_gaps hb]

/-! ### Core properties -/

theorem calm_core {now title : Str} (ht : Plain title) (hn : Plain now) : Calm (coreBody now title) .text .text :=
  calmLit (by unfold coreBody; all_ok) (by krfl)

theorem plain_tidy {t : Str} (h : Plain t) : Plain (tidy t) := by
  have : ∀ c, c ≠ ' ' → c ∉ t → c ∉ tidy t := by
    intro c hc hm hx
    rcases mem_tidy hx with e | e
    · exact hc e
    · exact hm e
  exact ⟨this _ (by decide) h.1, this _ (by decide) h.2.1, this _ (by decide) h.2.2⟩

theorem tidied_stamp (t : Stamp) : Tidied t.text := by
  refine tidied_noBlank ?_
  have z : ∀ w n, ∀ c ∈ zeroPad w (dec n), blankChar c = false := by
    intro w n c h
    unfold zeroPad at h
    rcases List.mem_append.mp h with h | h
    · rw [(List.mem_replicate.mp h).2]; rfl
    · by_contra hb
      refine not_mem_dec (n := n) (c := c) ?_ h
      simp only [blankChar, Bool.not_eq_false, Bool.or_eq_true, decide_eq_true_eq] at hb
      rcases hb with ((rfl | rfl) | rfl) | rfl <;> decide
  have app : ∀ {a b : Str}, (∀ c ∈ a, blankChar c = false) → (∀ c ∈ b, blankChar c = false) →
      ∀ c ∈ a ++ b, blankChar c = false := by
    intro a b ha hb c hc
    rcases List.mem_append.mp hc with h | h
    · exact ha c h
    · exact hb c h
  have k : ∀ x : Str, (x.all fun c => !blankChar c) = true → ∀ c ∈ x, blankChar c = false :=
    fun x hx c hc => by simpa using List.all_eq_true.mp hx c hc
  exact app (app (app (app (app (app (app (app (app (app (app (z _ _) (k _ (by decide)))
    (z _ _)) (k _ (by decide))) (z _ _)) (k _ (by decide))) (z _ _)) (k _ (by decide))) (z _ _))
    (k _ (by decide))) (z _ _)) (k _ (by decide))

/-- The children of the core properties element. -/
def coreKids (now title : Str) : List Node :=
  match coreDoc now title with
  | [.elem _ _ ks] => ks
  | _ => []

theorem map_coreKids {now title : Str} (h : tidy now = now) :
    mapNodes tidy (coreKids now title) = coreKids now (tidy title) := by
  have e : ∀ n a b : Str, coreKids n a = [nl, E c!"dc:title" [] (addText [] a), nl,
      E c!"dc:creator" [] [.text c!"pptx-rs"], nl, E c!"cp:lastModifiedBy" [] [.text c!"pptx-rs"], nl,
      E c!"cp:revision" [] [.text c!"1"], nl, E c!"dcterms:created" [(c!"xsi:type", c!"dcterms:W3CDTF")] (addText [] n), nl,
      E c!"dcterms:modified" [(c!"xsi:type", c!"dcterms:W3CDTF")] (addText [] n), nl] := by intros; rfl
  have hp : tidy c!"pptx-rs" = c!"pptx-rs" := by decide
  have h1 : tidy c!"1" = c!"1" := by decide
  rw [e _ _ [], e _ _ []]
  simp only [mapNodes, mapNode, E, map_nl tidy_change, map_addText tidy_change, hp, h1, h]

theorem parse_minimize_core {now title : Str} (ht : Plain title) (hn : Plain now) (h : tidy now = now) :
    XmlElement.parse (minimizeXml (xmlDecl ++ fmt (coreBody now title))) =
      XmlElement.parse (xmlDecl ++ fmt (coreBody now (tidy title))) := by
  have hs : ∀ t, ∃ r, fmt (coreBody now t) = '<' :: r := fun t => ⟨_, rfl⟩
  have d1 := document_minimize (readsNodes_core ht hn).readsAs (hs _) (calm_core ht hn)
  have d2 := document_decl (readsNodes_core (plain_tidy ht) hn) (hs _)
  rw [show squeezeNodes (coreDoc now title) = [.elem c!"cp:coreProperties" [(c!"xmlns:cp",
    c!"http://schemas.openxmlformats.org/package/2006/metadata/core-properties"), (c!"xmlns:dc",
    c!"http://purl.org/dc/elements/1.1/"), (c!"xmlns:dcterms", c!"http://purl.org/dc/terms/"),
    (c!"xmlns:dcmitype", c!"http://purl.org/dc/dcmitype/"), (c!"xmlns:xsi",
    c!"http://www.w3.org/2001/XMLSchema-instance")] (squeezeNodes (coreKids now title))] from rfl] at d1
  rw [parse_elem d1, parse_elem d2]
  have b := built_squeezeNodes (coreKids now title)
  rw [b.1, b.2, map_coreKids h]
  rfl

end PptRs
