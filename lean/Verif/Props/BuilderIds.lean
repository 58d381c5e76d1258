import Verif.Lemmas.BuilderEntries
import Mathlib.Tactic.CasesM

/-!
# C08, C09, C33: ids in generated decks
-/

namespace PptRs.Props

open PptRs.Spec

/-! ## C08 -/

theorem presentationRels_ids (n : Nat) (a b : Bool) :
    (presentationRels n a b).map (·.id) =
      (List.range' 1 (n + a.toNat + b.toNat + 5)).map rid := by
  have h : ∀ k : Nat, List.range' 1 (n + k + 1) =
      1 :: (List.range' 2 n ++ List.range' (n + 2) k) := by
    intro k
    rw [List.range'_succ, ← List.range'_append_1, Nat.add_comm 2 n]
  have hs : (upTo n).map (fun i => c!"rId" ++ dec (slideRelId i)) = (List.range' 2 n).map rid := by
    rw [upTo_eq, show (2 : Nat) = 1 + 1 from rfl, ← List.map_add_range', List.map_map]
    refine List.map_congr_left fun i _ => ?_
    simp [rid, slideRelId, Nat.add_comm]
  simp only [presentationRels, List.map_append, List.map_map, List.map_cons, List.map_nil, rel,
    Function.comp_def, hs]
  rw [show n + a.toNat + b.toNat + 5 = n + (a.toNat + b.toNat + 4) + 1 by omega, h]
  cases a <;> cases b <;>
    simp [List.range'_succ, rid, notesMasterRelId, handoutMasterRelId, presPropsRelId,
      viewPropsRelId, themeRelId, tableStylesRelId, Nat.add_assoc]

theorem assignFontIdsFrom_ids (start i : Nat) (fonts : List EmbeddedFont)
    (h : ∀ f ∈ fonts, f.relationshipId = []) :
    (assignFontIdsFrom start i fonts).map (·.relationshipId) =
      (List.range' (start + i) fonts.length).map rid := by
  induction fonts generalizing i with
  | nil => rfl
  | cons f fs ih =>
    simp only [assignFontIdsFrom, h f (by simp), if_true, List.map_cons, List.length_cons,
      List.range'_succ, ih (i + 1) (fun f hf => h f (by simp [hf]))]
    rfl

/-- The fonts as written by the builder. -/
def fontsOf (d : Deck) (st : BuildSettings) : List EmbeddedFont :=
  (prepareFonts st d.count (hasNotes d.slides)).getD []

theorem fontsOf_eq (d : Deck) (st : BuildSettings) :
    fontsOf d st = assignFontIds (st.fonts.getD [])
      (tableStylesRelId d.count (hasNotes d.slides) st.handout + 1) := by
  cases h : st.fonts <;> simp [fontsOf, prepareFonts, h, assignFontIds, assignFontIdsFrom]

theorem presRels_ids (d : Deck) (st : BuildSettings)
    (hf : ∀ f ∈ st.fonts.getD [], f.relationshipId = []) :
    (presentationRelsWithFonts d.count (hasNotes d.slides) st.handout (fontsOf d st)).map (·.id) =
      (List.range' 1 (d.count + (hasNotes d.slides).toNat + st.handout.toNat + 5 +
        (st.fonts.getD []).length)).map rid := by
  rw [← List.range'_append_1 (m := d.count + (hasNotes d.slides).toNat + st.handout.toNat + 5),
    List.map_append, presentationRelsWithFonts, List.map_append, presentationRels_ids, fontsOf_eq]
  congr 1
  rw [List.map_map]
  refine (assignFontIdsFrom_ids (tableStylesRelId d.count (hasNotes d.slides) st.handout + 1) 0 _
    hf).trans ?_
  congr 2
  simp only [tableStylesRelId, presPropsRelId]
  omega

/-- **C08**: all relationship ids of `ppt/presentation.xml` are distinct, for every deck, with or
without notes, handouts, templates and fonts, if the caller has not chosen ids for the fonts. -/
theorem C08_ids_distinct (d : Deck) (st : BuildSettings)
    (hf : ∀ f ∈ st.fonts.getD [], f.relationshipId = []) (l : List RelEntry)
    (h : ⟨.presRels, .rels l⟩ ∈ buildPackage d st) : (l.map (·.id)).Nodup := by
  have hb := bodyOk d st _ h
  simp only [BodyOk, Body.rels.injEq] at hb
  subst hb
  rw [show (prepareFonts st d.count (hasNotes d.slides)).getD [] = fontsOf d st from rfl,
    presRels_ids d st hf]
  exact List.Nodup.map (fun a b h => rid_inj h) List.nodup_range'

theorem presRel_resolves {d : Deck} {st : BuildSettings} {r : RelEntry}
    (hr : r ∈ presentationRels d.count (hasNotes d.slides) st.handout) :
    relById (presentationRelsWithFonts d.count (hasNotes d.slides) st.handout (fontsOf d st)) r.id =
      some r := by
  apply relById_append_left
  apply relById_of_mem _ hr
  rw [presentationRels_ids]
  exact List.Nodup.map (fun a b h => rid_inj h) List.nodup_range'

theorem leadsTo_ppt {t : Str} {id ty : Str} {x : Bool} {dest : List Str}
    (e : t = joinStr c!"/" dest) (h1 : '&' ∉ t) (h2 : '<' ∉ t)
    (hd : ∀ s ∈ dest, CleanSeg s) (hne : dest ≠ []) :
    leadsTo .presRels ⟨id, ty, t, x⟩ = some (c!"ppt/" ++ t) := by
  have := leadsTo_of (p := .presRels) (r := ⟨id, ty, t, x⟩) (t := t) (base := [c!"ppt"])
    (dest := dest) (readText_of_plain h1 h2) (by decide)
    (by intro s hs; rw [List.mem_singleton] at hs; subst hs; exact cleanSeg_of (by decide) (by decide))
    hd hne 0 (by simp) (by simpa using e)
  rw [this, e]
  congr 1
  cases dest with
  | nil => exact absurd rfl hne
  | cons x xs => simp [joinStr]

theorem leadsTo_slide (n m : Nat) :
    leadsTo .presRels (rel n c!"slide" (c!"slides/slide" ++ dec m ++ c!".xml")) =
      some (PartName.slide m).path := by
  rw [rel, leadsTo_ppt (dest := [c!"slides", c!"slide" ++ dec m ++ c!".xml"])]
  · simp [PartName.path]
  · simp [joinStr]
  · simp [not_mem_dec (c := '&') (n := m) (by decide)]
  · simp [not_mem_dec (c := '<') (n := m) (by decide)]
  · intro s hs
    simp only [List.mem_cons, List.not_mem_nil, or_false] at hs
    rcases hs with rfl | rfl
    · exact cleanSeg_of (by decide) (by decide)
    · exact cleanSeg_of (by decide) (by simp [slash_notMem_dec])
  · simp

/-- **C08**: the slide list of `ppt/presentation.xml` has one entry per slide, and the `n`-th
refers to the relationship of slide type that leads to `ppt/slides/slide{n}.xml`. -/
theorem C08_slides_resolve (d : Deck) (st : BuildSettings) (l : List RelEntry) (p : PresXml)
    (h : ⟨.presRels, .rels l⟩ ∈ buildPackage d st)
    (hp : ⟨.presentation, .presentation p⟩ ∈ buildPackage d st) :
    p.slides.length = d.count ∧ ∀ n < d.count, ∃ id ref r, p.slides[n]? = some (id, ref) ∧
      relById l ref = some r ∧ r.type = relTypeBase ++ c!"slide" ∧ r.external = false ∧
      leadsTo .presRels r = some (PartName.slide (n + 1)).path := by
  have hb := bodyOk d st _ h
  have hb2 := bodyOk d st _ hp
  simp only [BodyOk, Body.rels.injEq, Body.presentation.injEq] at hb hb2
  subst hb hb2
  refine ⟨by simp [presentationXml, upTo], ?_⟩
  intro n hn
  refine ⟨slideIdValue (n + 1), rid (slideRelId (n + 1)),
    rel (slideRelId (n + 1)) c!"slide" (c!"slides/slide" ++ dec (n + 1) ++ c!".xml"), ?_, ?_, rfl,
    rfl, leadsTo_slide _ _⟩
  · simp [presentationXml, upTo, hn, rid]
  · apply presRel_resolves (r := rel (slideRelId (n + 1)) c!"slide"
      (c!"slides/slide" ++ dec (n + 1) ++ c!".xml"))
    simp only [presentationRels, List.mem_append, List.mem_map]
    exact .inl (.inl (.inl (.inr ⟨n + 1, by simp [upTo, hn], rfl⟩)))

/-- **C08**: the slide master, the notes master and the handout master resolve; the latter two are
listed exactly when the deck has notes and handouts. -/
theorem C08_masters_resolve (d : Deck) (st : BuildSettings) (l : List RelEntry) (p : PresXml)
    (h : ⟨.presRels, .rels l⟩ ∈ buildPackage d st)
    (hp : ⟨.presentation, .presentation p⟩ ∈ buildPackage d st) :
    (∃ id ref r, p.masters = [(id, ref)] ∧ relById l ref = some r ∧
      r.type = relTypeBase ++ c!"slideMaster" ∧ leadsTo .presRels r = some PartName.master.path) ∧
    (p.notesMaster.isSome = true ↔ numNotes d.slides ≠ 0) ∧
    (∀ ref, p.notesMaster = some ref → ∃ r, relById l ref = some r ∧
      r.type = relTypeBase ++ c!"notesMaster" ∧
      leadsTo .presRels r = some PartName.notesMaster.path) ∧
    (p.handoutMaster.isSome = st.handout) ∧
    (∀ ref, p.handoutMaster = some ref → ∃ r, relById l ref = some r ∧
      r.type = relTypeBase ++ c!"handoutMaster" ∧
      leadsTo .presRels r = some PartName.handoutMaster.path) := by
  have hb := bodyOk d st _ h
  have hb2 := bodyOk d st _ hp
  simp only [BodyOk, Body.rels.injEq, Body.presentation.injEq] at hb hb2
  subst hb hb2
  refine ⟨⟨slideMasterId, c!"rId1", rel 1 c!"slideMaster" c!"slideMasters/slideMaster1.xml",
    rfl, ?_, rfl, by decide⟩, ?_, ?_, ?_, ?_⟩
  · exact presRel_resolves (r := rel 1 c!"slideMaster" c!"slideMasters/slideMaster1.xml")
      (by simp [presentationRels])
  · rw [← hasNotes_iff]
    simp only [presentationXml]
    split <;> simp_all
  · intro ref hr
    simp only [presentationXml] at hr
    split at hr
    · rename_i hn
      simp only [Option.some.injEq] at hr
      subst hr
      refine ⟨_, presRel_resolves (r := rel (notesMasterRelId d.count) c!"notesMaster"
        c!"notesMasters/notesMaster1.xml") ?_, rfl, ?_⟩
      · simp [presentationRels, hn]
      · exact leadsTo_ppt (dest := [c!"notesMasters", c!"notesMaster1.xml"]) (by decide) (by decide)
          (by decide) (by
            intro s hs
            simp only [List.mem_cons, List.not_mem_nil, or_false] at hs
            rcases hs with rfl | rfl <;> exact cleanSeg_of (by decide) (by decide)) (by simp)
    · simp at hr
  · simp only [presentationXml]
    cases st.handout <;> simp
  · intro ref hr
    simp only [presentationXml] at hr
    split at hr
    · rename_i hn
      simp only [Option.some.injEq] at hr
      subst hr
      refine ⟨_, presRel_resolves (r := rel (handoutMasterRelId d.count (hasNotes d.slides))
        c!"handoutMaster" c!"handoutMasters/handoutMaster1.xml") ?_, rfl, ?_⟩
      · simp [presentationRels, hn]
      · exact leadsTo_ppt (dest := [c!"handoutMasters", c!"handoutMaster1.xml"]) (by decide)
          (by decide) (by decide) (by
            intro s hs
            simp only [List.mem_cons, List.not_mem_nil, or_false] at hs
            rcases hs with rfl | rfl <;> exact cleanSeg_of (by decide) (by decide)) (by simp)
    · simp at hr

theorem flatMap_filter_perm {α : Type} (key : α → Str) (keys : List Str) (l : List α)
    (hk : keys.Nodup) (hl : ∀ x ∈ l, key x ∈ keys) :
    (keys.flatMap fun t => l.filter fun x => key x = t).Perm l := by
  induction keys generalizing l with
  | nil =>
    have : l = [] := List.eq_nil_iff_forall_not_mem.mpr fun x hx => absurd (hl x hx) (by simp)
    simp [this]
  | cons t ks ih =>
    rw [List.nodup_cons] at hk
    have h1 : (ks.flatMap fun t' => l.filter fun x => key x = t') =
        ks.flatMap fun t' => (l.filter fun x => !decide (key x = t)).filter fun x => key x = t' := by
      refine List.flatMap_congr fun t' ht' => ?_
      rw [List.filter_filter]
      refine List.filter_congr fun x _ => ?_
      by_cases e : key x = t'
      · have : key x ≠ t := by rintro e2; exact hk.1 (e2 ▸ e ▸ ht')
        simp [e, e ▸ this]
      · simp [e]
    have h2 := ih (l.filter fun x => !decide (key x = t)) hk.2 (by
      intro x hx
      simp only [List.mem_filter, Bool.not_eq_true', decide_eq_false_iff_not] at hx
      exact (List.mem_cons.mp (hl x hx.1)).resolve_left hx.2)
    rw [List.flatMap_cons, h1]
    exact (List.Perm.append_left _ h2).trans (List.filter_append_perm _ _)

theorem seen_spec (l : List EmbeddedFont) (seen : List Str) (h : seen.Nodup) :
    (l.foldl (fun seen f => if seen.contains f.typeface then seen else seen ++ [f.typeface])
      seen).Nodup ∧
    (∀ t ∈ seen, t ∈ l.foldl
      (fun seen f => if seen.contains f.typeface then seen else seen ++ [f.typeface]) seen) ∧
    ∀ f ∈ l, f.typeface ∈ l.foldl
      (fun seen f => if seen.contains f.typeface then seen else seen ++ [f.typeface]) seen := by
  induction l generalizing seen with
  | nil => simp [h]
  | cons f l ih =>
    simp only [List.foldl_cons]
    by_cases hc : seen.contains f.typeface = true
    · rw [if_pos hc]
      obtain ⟨a, b, c⟩ := ih seen h
      refine ⟨a, b, ?_⟩
      intro g hg
      rcases List.mem_cons.mp hg with rfl | hg
      · exact b _ (by simpa using hc)
      · exact c g hg
    · rw [if_neg hc]
      have hn : f.typeface ∉ seen := by simpa using hc
      obtain ⟨a, b, c⟩ := ih (seen ++ [f.typeface]) (by
        rw [List.nodup_append]
        exact ⟨h, by simp, by rintro x hx y hy rfl; simp at hy; exact hn (hy ▸ hx)⟩)
      refine ⟨a, fun t ht => b t (by simp [ht]), ?_⟩
      intro g hg
      rcases List.mem_cons.mp hg with rfl | hg
      · exact b _ (by simp)
      · exact c g hg

theorem fontGroups_perm (fonts : List EmbeddedFont) :
    (fontGroups fonts).Perm (fonts.map fun f => (f.style, f.relationshipId)) := by
  obtain ⟨a, _, c⟩ := seen_spec fonts [] (by simp)
  have := (flatMap_filter_perm (fun f : EmbeddedFont => f.typeface) _ fonts a c).map
    fun f => (f.style, f.relationshipId)
  rwa [List.map_flatMap] at this

theorem assignFontIdsFrom_get (start i : Nat) (fonts : List EmbeddedFont)
    (h : ∀ f ∈ fonts, f.relationshipId = []) (j : Nat) :
    (assignFontIdsFrom start i fonts)[j]? =
      fonts[j]?.map fun f => { f with relationshipId := rid (start + i + j) } := by
  induction fonts generalizing i j with
  | nil => simp [assignFontIdsFrom]
  | cons f fs ih =>
    cases j with
    | zero => simp [assignFontIdsFrom, h f (by simp), rid]
    | succ j =>
      simp only [assignFontIdsFrom, List.getElem?_cons_succ,
        ih (i + 1) (fun f hf => h f (by simp [hf])) j]
      rw [show start + (i + 1) + j = start + i + (j + 1) by omega]

theorem slash_notMem_fileName {f : EmbeddedFont} (h : '/' ∉ f.typeface) : '/' ∉ f.fileName := by
  have h1 : '/' ∉ replaceChar ' ' [] f.typeface := by
    intro hm
    simp only [replaceChar, List.mem_flatMap] at hm
    obtain ⟨c, hc, hm⟩ := hm
    split at hm
    · simp at hm
    · simp only [List.mem_singleton] at hm; subst hm; exact h hc
  intro hm
  simp only [EmbeddedFont.fileName, List.mem_append] at hm
  rcases hm with ((hm | hm) | hm) | hm
  · exact h1 hm
  · exact absurd hm (by decide)
  · cases hs : f.style <;> rw [hs] at hm <;> exact absurd hm (by decide)
  · exact absurd hm (by decide)

theorem cleanSeg_fileName {f : EmbeddedFont} (h : '/' ∉ f.typeface) : CleanSeg f.fileName := by
  have hl : 8 ≤ f.fileName.length := by simp [EmbeddedFont.fileName]; omega
  refine ⟨?_, ?_, ?_, slash_notMem_fileName h⟩ <;> intro e <;> rw [e] at hl <;> simp at hl

theorem leadsTo_font {f : EmbeddedFont} (h : '/' ∉ f.typeface) :
    leadsTo .presRels (fontRel f) = some (PartName.font f.fileName).path := by
  have := leadsTo_of (p := .presRels) (r := fontRel f) (t := c!"fonts/" ++ f.fileName)
    (base := [c!"ppt"]) (dest := [c!"fonts", f.fileName]) (readText_escapeXml _) (by decide)
    (by intro s hs; rw [List.mem_singleton] at hs; subst hs; exact cleanSeg_of (by decide) (by decide))
    (by
      intro s hs
      simp only [List.mem_cons, List.not_mem_nil, or_false] at hs
      rcases hs with rfl | rfl
      · exact cleanSeg_of (by decide) (by decide)
      · exact cleanSeg_fileName h) (by simp) 0 (by simp) (by simp [joinStr])
  rw [this]
  simp [joinStr, PartName.path]

/-- **C08**: every embedded font variant is listed once in `ppt/presentation.xml`, and its
reference resolves to a font relationship that leads to the part with its data. -/
theorem C08_fonts_resolve (d : Deck) (st : BuildSettings)
    (hf : ∀ f ∈ st.fonts.getD [], f.relationshipId = [] ∧ '/' ∉ f.typeface)
    (l : List RelEntry) (p : PresXml)
    (h : ⟨.presRels, .rels l⟩ ∈ buildPackage d st)
    (hp : ⟨.presentation, .presentation p⟩ ∈ buildPackage d st) :
    ∃ refs : List Str, refs.length = (st.fonts.getD []).length ∧
      p.fonts.Perm (((st.fonts.getD []).map (·.style)).zip refs) ∧
      ∀ (i : Nat) f ref, (st.fonts.getD [])[i]? = some f → refs[i]? = some ref →
        ∃ r, relById l ref = some r ∧ r.type = relTypeBase ++ c!"font" ∧
          leadsTo .presRels r = some (PartName.font f.fileName).path := by
  have hb := bodyOk d st _ h
  have hb2 := bodyOk d st _ hp
  have hid := C08_ids_distinct d st (fun f hf' => (hf f hf').1) l h
  simp only [BodyOk, Body.rels.injEq, Body.presentation.injEq] at hb hb2
  subst hb hb2
  change (List.map _ (presentationRelsWithFonts _ _ _ (fontsOf d st))).Nodup at hid
  have hget := assignFontIdsFrom_get (tableStylesRelId d.count (hasNotes d.slides) st.handout + 1)
    0 (st.fonts.getD []) (fun f hf' => (hf f hf').1)
  have hlen : (fontsOf d st).length = (st.fonts.getD []).length := by
    have := congrArg List.length (assignFontIdsFrom_ids
      (tableStylesRelId d.count (hasNotes d.slides) st.handout + 1) 0 _ (fun f hf' => (hf f hf').1))
    simpa [fontsOf_eq, assignFontIds] using this
  have hst : (fontsOf d st).map (·.style) = (st.fonts.getD []).map (·.style) := by
    apply List.ext_getElem?
    intro i
    rw [fontsOf_eq, assignFontIds, List.getElem?_map, hget, List.getElem?_map]
    cases (st.fonts.getD [])[i]? <;> rfl
  refine ⟨(fontsOf d st).map (·.relationshipId), by simpa using hlen, ?_, ?_⟩
  · change (fontGroups (fontsOf d st)).Perm _
    refine (fontGroups_perm _).trans ?_
    rw [← hst, List.zip_map']
  · intro i f ref h1 h2
    rw [List.getElem?_map, Option.map_eq_some_iff] at h2
    obtain ⟨g, hg, rfl⟩ := h2
    have hmem : fontRel g ∈ presentationRelsWithFonts d.count (hasNotes d.slides) st.handout
        (fontsOf d st) := by
      rw [presentationRelsWithFonts, List.mem_append]
      exact .inr (List.mem_map_of_mem (List.mem_of_getElem? hg))
    refine ⟨fontRel g, relById_of_mem hid hmem, rfl, ?_⟩
    rw [fontsOf_eq, assignFontIds, hget, h1] at hg
    simp only [Option.map_some, Option.some.injEq] at hg
    subst hg
    exact leadsTo_font (hf f (List.mem_of_getElem? h1)).2

/-- What is left out of C08: an id chosen by the caller for a font is not checked against the
others. -/
theorem C08_font_ids_violated :
    ∃ l, (⟨.presRels, .rels l⟩ : Entry) ∈ buildPackage (.plain 1)
      { BuildSettings.none with fonts := some [⟨c!"A", .regular, c!"rId2"⟩] } ∧
      ¬ (l.map (·.id)).Nodup :=
  ⟨presentationRelsWithFonts 1 false false [⟨c!"A", .regular, c!"rId2"⟩], by decide, by decide⟩

example : (⟨.presentation, .presentation (presentationXml 3 false true [])⟩ : Entry) ∈
    buildPackage (.plain 3) { BuildSettings.none with handout := true } := by decide

/-! ## C09 -/

/-- **C09**: slide ids are distinct, at least 256, below 2^31, and different from the ids of the
master and its layouts, in every deck of fewer than 2147483392 slides. -/
theorem C09_slide_ids (d : Deck) (st : BuildSettings) (p : PresXml)
    (hp : ⟨.presentation, .presentation p⟩ ∈ buildPackage d st)
    (hd : d.count ≤ 2147483392) :
    (p.slides.map (·.1)).Nodup ∧ (∀ i ∈ p.slides.map (·.1), 256 ≤ i ∧ i < 2147483648) ∧
    (∀ i ∈ p.slides.map (·.1), i ∉ p.masters.map (·.1) ∧ i ∉ masterLayoutIds ∧ i ≠ notesMasterId) ∧
    (p.masters.map (·.1) ++ masterLayoutIds ++ [notesMasterId]).Nodup := by
  have hb2 := bodyOk d st _ hp
  simp only [BodyOk, Body.presentation.injEq] at hb2
  subst hb2
  have hs : (presentationXml d.count (hasNotes d.slides) st.handout
      ((prepareFonts st d.count (hasNotes d.slides)).getD [])).slides.map (·.1) =
      List.range' 256 d.count := by
    simp only [presentationXml, List.map_map, upTo_eq, Function.comp_def, slideIdValue]
    rw [List.map_add_range']
  rw [hs]
  have hm : ∀ i ∈ List.range' 256 d.count, 256 ≤ i ∧ i < 2147483648 := by
    intro i hi
    rw [List.mem_range'_1] at hi
    omega
  refine ⟨List.nodup_range', hm, ?_, by
    simp only [presentationXml]; decide⟩
  intro i hi
  have := (hm i hi).2
  refine ⟨?_, ?_, ?_⟩
  · simp only [presentationXml, List.map_cons, List.map_nil, List.mem_singleton, slideMasterId]
    omega
  · simp only [masterLayoutIds, List.mem_map, slideMasterId, not_exists, not_and]
    intro x _ e
    omega
  · simp only [notesMasterId, slideMasterId]
    omega

/-! ## C33 -/

theorem shapeIdsFrom_eq (i : Nat) (l : List ShapeIn) (h : ∀ s ∈ l, s.id = none) :
    shapeIdsFrom i l = List.range' (i + 10) l.length := by
  induction l generalizing i with
  | nil => rfl
  | cons s l ih =>
    simp only [shapeIdsFrom, h s (by simp), Option.getD_none, List.length_cons, List.range'_succ,
      ih (i + 1) (fun s hs => h s (by simp [hs]))]

theorem drawingIds_nodup (s : SlideIn) (n : Nat) (h : ∀ x ∈ s.shapes, x.id = none) :
    (drawingIds s n).Nodup := by
  have hp : (placeholderIds s).Nodup ∧ ∀ i ∈ placeholderIds s, i < 10 := by
    unfold placeholderIds
    cases s.layout <;> simp only <;> (try split) <;> (try split) <;> simp
  rw [drawingIds, shapeIdsFrom_eq 0 _ h]
  simp only [consecutive_eq]
  have hd : ∀ a b : List Nat, a.Nodup → b.Nodup → (∀ x ∈ a, x ∉ b) → (a ++ b).Nodup := by
    intro a b ha hb hab
    rw [List.nodup_append]
    exact ⟨ha, hb, fun x hx y hy e => hab x hx (e ▸ hy)⟩
  refine hd _ _ (hd _ _ (hd _ _ (hd _ _ (hd _ _ hp.1 List.nodup_range' ?_) List.nodup_range' ?_)
    List.nodup_range' ?_) List.nodup_range' ?_) List.nodup_range' ?_
  all_goals
    intro x hx
    simp only [List.mem_append, List.mem_range'_1] at hx ⊢
    (try casesm* _ ∨ _) <;> first | omega | (have := hp.2 x ‹_›; omega)

/-- **C33**: on every slide whose shapes have no ids chosen by the caller, all drawing ids are
distinct. -/
theorem C33_drawing_ids (d : Deck) (st : BuildSettings) (m : Nat) (x : SlideXml)
    (h : ⟨.slide m, .slide x⟩ ∈ buildPackage d st)
    (hs : ∀ s ∈ d.slides, ∀ y ∈ s.shapes, y.id = none) : x.drawingIds.Nodup := by
  have hb := bodyOk d st _ h
  simp only [BodyOk] at hb
  rcases hb with ⟨j, s, hj, _, e⟩ | ⟨n, _, e⟩
  · simp only [slideBody, Body.slide.injEq] at e
    subst e
    exact drawingIds_nodup s _ (hs s (List.mem_of_getElem? hj))
  · simp only [Body.slide.injEq] at e
    subst e
    simp

/-- How many drawing ids a slide has: one per shape, image, code block, connector and chart,
besides those of the layout's placeholders. -/
theorem C33_one_id_each (d : Deck) (st : BuildSettings) (j : Nat) (s : SlideIn) (x : SlideXml)
    (hs : d.slides[j]? = some s) (h : ⟨.slide (j + 1), .slide x⟩ ∈ buildPackage d st) :
    x.drawingIds.length = (placeholderIds s).length + s.shapes.length + s.images.length +
      s.codeBlocks + s.connectors + s.charts := by
  have hb := bodyOk d st _ h
  simp only [BodyOk] at hb
  have hsh : ∀ (l : List ShapeIn) (i : Nat), (shapeIdsFrom i l).length = l.length := by
    intro l; induction l with
    | nil => intro i; rfl
    | cons a l ih => intro i; simp [shapeIdsFrom, ih]
  rcases hb with ⟨j', s', hj, hm, e⟩ | ⟨n, hd, e⟩
  · have : j' = j := by omega
    subst this
    rw [hs, Option.some.injEq] at hj
    subst hj
    simp only [slideBody, Body.slide.injEq] at e
    subst e
    simp [slideXml, drawingIds, consecutive, chartRids, hsh]
    omega
  · subst hd
    simp [Deck.slides] at hs

/-- With ids chosen by the caller there can be collisions. -/
theorem C33_user_ids_violated :
    let s : SlideIn := ⟨c!"T", .titleOnly, 0, false, [⟨some 2, none⟩], [], none, 0, 0, 0, false⟩
    ∃ x, (⟨.slide 1, .slide x⟩ : Entry) ∈ buildPackage (.custom [s]) .none ∧ ¬ x.drawingIds.Nodup :=
  ⟨⟨[1, 2, 2], [], [], none, []⟩, by decide, by decide⟩

example : (drawingIds ⟨c!"T", .twoColumn, 5, false, [⟨none, none⟩, ⟨none, none⟩],
    [⟨none, c!"png"⟩], none, 1, 2, 1, false⟩ 1) = [1, 2, 3, 4, 10, 11, 22, 33, 54, 55, 106] := by
  decide

end PptRs.Props
