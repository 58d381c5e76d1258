import Verif.Model.Relationships
import Verif.Lemmas.Str
import Mathlib.Data.List.Nodup

/-!
# C10, C11, C60: relationship collections and the low-level presentation part
-/

namespace PptRs.Props

open PptRs

/-! ## C10 -/

/-- A call that adds a relationship. -/
inductive RelOp where
  | add (t : RelType) (target : Str)
  | addWithId (id : Str) (t : RelType) (target : Str)

/-- Runs one call; `none` if it panics on overflow. -/
def RelOp.run (r : Relationships) : RelOp → Option Relationships
  | .add t target => (r.add t target).map (·.1)
  | .addWithId id t target => r.addWithId id t target

/-- Runs a history of calls. -/
def runRelOps (r : Relationships) : List RelOp → Option Relationships
  | [] => some r
  | o :: os => (o.run r).bind fun r' => runRelOps r' os

/-- Every present id that reads as a number that fits is below the counter, and the counter
fits. -/
def RelInv (r : Relationships) : Prop :=
  r.nextId < 4294967296 ∧ ∀ x ∈ r.rels, ∀ n, x.id = c!"rId" ++ dec n → n < 4294967296 → n < r.nextId

theorem idNumber_canonical (n : Nat) (h : n < 4294967296) :
    Relationships.idNumber (c!"rId" ++ dec n) = some n := by
  have : stripPrefix? c!"rId" (c!"rId" ++ dec n) = some (dec n) := stripPrefix?_eq_some.mpr rfl
  rw [Relationships.idNumber, this]
  exact parseU32_dec h

theorem relInv_step (r r' : Relationships) (o : RelOp) (h : RelInv r) (hr : o.run r = some r') :
    RelInv r' := by
  obtain ⟨hlt, hinv⟩ := h
  cases o with
  | add t target =>
    simp only [RelOp.run, Relationships.add] at hr
    split at hr
    · rename_i hb
      simp only [Option.map_some, Option.some.injEq] at hr
      subst hr
      refine ⟨hb, ?_⟩
      intro x hx n hn hn2
      rcases List.mem_append.mp hx with hx | hx
      · have := hinv x hx n hn hn2; simp only; omega
      · rw [List.mem_singleton] at hx
        subst hx
        have : dec r.nextId = dec n := List.append_cancel_left hn
        have := dec_inj this
        simp only; omega
    · cases hr
  | addWithId id t target =>
    simp only [RelOp.run, Relationships.addWithId] at hr
    have old : ∀ k, r.nextId ≤ k → ∀ x ∈ r.rels, ∀ n, x.id = c!"rId" ++ dec n →
        n < 4294967296 → n < k := by
      intro k hk x hx n hn hn2
      exact Nat.lt_of_lt_of_le (hinv x hx n hn hn2) hk
    cases hid : Relationships.idNumber id with
    | none =>
      simp only [hid, Option.some.injEq] at hr
      subst hr
      refine ⟨hlt, fun x hx n hn hn2 => ?_⟩
      rcases List.mem_append.mp hx with hx | hx
      · exact hinv x hx n hn hn2
      · rw [List.mem_singleton] at hx
        subst hx
        simp only at hn
        rw [hn, idNumber_canonical n hn2] at hid
        cases hid
    | some num =>
      simp only [hid] at hr
      have new : ∀ n, id = c!"rId" ++ dec n → n < 4294967296 → n = num := by
        intro n hn hn2
        rw [hn, idNumber_canonical n hn2] at hid
        exact Option.some.inj hid
      split at hr
      · split at hr
        · rename_i h1 h2
          simp only [Option.some.injEq] at hr
          subst hr
          refine ⟨h2, fun x hx n hn hn2 => ?_⟩
          rcases List.mem_append.mp hx with hx | hx
          · exact old (num + 1) (by omega) x hx n hn hn2
          · rw [List.mem_singleton] at hx
            subst hx
            have := new n hn hn2
            simp only; omega
        · cases hr
      · rename_i h1
        simp only [Option.some.injEq] at hr
        subst hr
        refine ⟨hlt, fun x hx n hn hn2 => ?_⟩
        rcases List.mem_append.mp hx with hx | hx
        · exact hinv x hx n hn hn2
        · rw [List.mem_singleton] at hx
          subst hx
          have := new n hn hn2
          simp only; omega

theorem relInv_run (ops : List RelOp) (r r' : Relationships) (h : RelInv r)
    (hr : runRelOps r ops = some r') : RelInv r' := by
  induction ops generalizing r with
  | nil => simp only [runRelOps, Option.some.injEq] at hr; exact hr ▸ h
  | cons o ops ih =>
    simp only [runRelOps, Option.bind_eq_some_iff] at hr
    obtain ⟨r1, h1, h2⟩ := hr
    exact ih r1 (relInv_step r r1 o h h1) h2

/-- **C10**: whatever was added before, with or without explicit ids of any form, `add` hands
out an id that no relationship has. -/
theorem C10_add_fresh (ops : List RelOp) (r r' : Relationships) (id : Str) (t : RelType)
    (target : Str) (hr : runRelOps Relationships.new ops = some r)
    (ha : r.add t target = some (r', id)) : ∀ x ∈ r.rels, x.id ≠ id := by
  have hinv : RelInv r := relInv_run ops _ r ⟨by decide, by simp [Relationships.new]⟩ hr
  simp only [Relationships.add] at ha
  split at ha
  · rename_i hb
    simp only [Option.some.injEq, Prod.mk.injEq] at ha
    obtain ⟨_, rfl⟩ := ha
    intro x hx hid
    have := hinv.2 x hx r.nextId hid (by omega)
    omega
  · cases ha

/-- The explicit ids of a history are new when they are added. -/
def ExplicitNew (r : Relationships) : List RelOp → Prop
  | [] => True
  | .add t target :: os => ∀ r', (RelOp.add t target).run r = some r' → ExplicitNew r' os
  | .addWithId id t target :: os =>
    (∀ x ∈ r.rels, x.id ≠ id) ∧
      ∀ r', (RelOp.addWithId id t target).run r = some r' → ExplicitNew r' os

theorem rels_of_step (r r' : Relationships) (o : RelOp) (hr : o.run r = some r') :
    ∃ x, r'.rels = r.rels ++ [x] ∧
      (match o with
        | .add t target => x = ⟨c!"rId" ++ dec r.nextId, t, target⟩
        | .addWithId id t target => x = ⟨id, t, target⟩) := by
  cases o with
  | add t target =>
    simp only [RelOp.run, Relationships.add] at hr
    split at hr
    · simp only [Option.map_some, Option.some.injEq] at hr
      subst hr; exact ⟨_, rfl, rfl⟩
    · cases hr
  | addWithId id t target =>
    simp only [RelOp.run, Relationships.addWithId] at hr
    repeat' split at hr
    all_goals first
      | (simp only [Option.some.injEq] at hr; subst hr; exact ⟨_, rfl, rfl⟩)
      | cases hr

theorem nodup_run (ops : List RelOp) (r r' : Relationships) (hinv : RelInv r)
    (hnd : (r.rels.map (·.id)).Nodup) (hnew : ExplicitNew r ops) (hr : runRelOps r ops = some r') :
    (r'.rels.map (·.id)).Nodup := by
  induction ops generalizing r with
  | nil => simp only [runRelOps, Option.some.injEq] at hr; exact hr ▸ hnd
  | cons o ops ih =>
    simp only [runRelOps, Option.bind_eq_some_iff] at hr
    obtain ⟨r1, h1, h2⟩ := hr
    obtain ⟨x, hx, hx2⟩ := rels_of_step r r1 o h1
    have fresh : ∀ y ∈ r.rels, y.id ≠ x.id := by
      cases o with
      | add t target =>
        simp only at hx2
        subst hx2
        intro y hy hid
        have := hinv.2 y hy r.nextId hid hinv.1
        omega
      | addWithId id t target =>
        simp only at hx2
        subst hx2
        exact hnew.1
    refine ih r1 (relInv_step r r1 o hinv h1) ?_ ?_ h2
    · rw [hx, List.map_append, List.nodup_append]
      refine ⟨hnd, by simp, ?_⟩
      intro a ha b hb
      obtain ⟨y, hy, rfl⟩ := List.mem_map.mp ha
      simp only [List.map_cons, List.map_nil, List.mem_singleton] at hb
      subst hb
      exact fresh y hy
    · cases o with
      | add t target => exact hnew r1 h1
      | addWithId id t target => exact hnew.2 r1 h1

/-- **C10**: if the explicitly supplied ids are new when supplied, all ids are pairwise
distinct after any history. -/
theorem C10_ids_distinct (ops : List RelOp) (r : Relationships)
    (hnew : ExplicitNew Relationships.new ops)
    (hr : runRelOps Relationships.new ops = some r) : (r.rels.map (·.id)).Nodup :=
  nodup_run ops _ r ⟨by decide, by simp [Relationships.new]⟩ (by simp [Relationships.new]) hnew hr

/-- **C10**: with distinct ids, looking up an id returns the relationship stored under it. -/
theorem C10_get (r : Relationships) (h : (r.rels.map (·.id)).Nodup) (x : Rel) (hx : x ∈ r.rels) :
    r.get x.id = some x := by
  unfold Relationships.get
  generalize r.rels = l at *
  induction l with
  | nil => simp at hx
  | cons y l ih =>
    rw [List.map_cons, List.nodup_cons] at h
    rcases List.mem_cons.mp hx with rfl | hx
    · simp
    · have : y.id ≠ x.id := by
        intro hh; exact h.1 (hh ▸ List.mem_map_of_mem hx)
      rw [List.find?_cons_of_neg (by simpa using this)]
      exact ih h.2 hx

/-- The type and the target given to a call. -/
def RelOp.given : RelOp → RelType × Str
  | .add t target => (t, target)
  | .addWithId _ t target => (t, target)

theorem rels_of_run (ops : List RelOp) (r r' : Relationships) (hr : runRelOps r ops = some r') :
    r'.rels.map (fun x => (x.relType, x.target)) = r.rels.map (fun x => (x.relType, x.target)) ++ ops.map RelOp.given := by
  induction ops generalizing r with
  | nil => simp only [runRelOps, Option.some.injEq] at hr; simp [hr]
  | cons o ops ih =>
    simp only [runRelOps, Option.bind_eq_some_iff] at hr
    obtain ⟨r1, h1, h2⟩ := hr
    obtain ⟨x, hx, hx2⟩ := rels_of_step r r1 o h1
    rw [ih r1 h2, hx]
    cases o <;> (simp only at hx2; subst hx2; simp [RelOp.given])

/-- **C10**: after any history the relationships are those that were added, in order, each with the type
and target it was given; and `get_by_type` returns those of the type, in order. -/
theorem C10_stored (ops : List RelOp) (r : Relationships) (hr : runRelOps Relationships.new ops = some r) :
    r.rels.map (fun x => (x.relType, x.target)) = ops.map RelOp.given ∧
    ∀ t, (r.getByType t).map (·.target) = (ops.map RelOp.given).filterMap fun g => if g.1 = t then some g.2 else none := by
  have h := rels_of_run ops _ r hr
  simp only [Relationships.new, List.map_nil, List.nil_append] at h
  refine ⟨h, fun t => ?_⟩
  rw [← h]
  unfold Relationships.getByType
  induction r.rels with
  | nil => rfl
  | cons x l ih =>
    rw [List.map_cons, List.filterMap_cons, List.filter_cons]
    by_cases hx : x.relType = t
    · simp [hx, ih]
    · simp [hx, ih]

/-- A history mixing a large explicit id, a non-canonical one and a foreign one. -/
def sampleRelOps : List RelOp :=
  [.add .slide c!"a", .addWithId c!"rId7" .theme c!"b", .addWithId c!"rId09" .image c!"c",
   .addWithId c!"img" .image c!"d", .add .chart c!"e"]

example : ∃ r, runRelOps Relationships.new sampleRelOps = some r ∧
    r.rels.map (·.id) = [c!"rId1", c!"rId7", c!"rId09", c!"img", c!"rId10"] := ⟨_, rfl, by decide⟩

example : ExplicitNew Relationships.new sampleRelOps := by
  intro r1 h1
  cases h1
  refine ⟨by decide, fun r2 h2 => ?_⟩
  cases h2
  refine ⟨by decide, fun r3 h3 => ?_⟩
  cases h3
  refine ⟨by decide, fun r4 h4 => ?_⟩
  cases h4
  intro r5 _
  trivial

/-! ## C11 -/

/-- The types whose URI is fixed. -/
def standardTypes : List RelType :=
  [.officeDocument, .slide, .slideLayout, .slideMaster, .theme, .image, .chart, .coreProperties,
   .extendedProperties]

/-- **C11** (part): every standard type other than extended properties survives the URI round
trip. Missing: `extendedProperties`, see `C11_roundtrip_violated`; custom types are covered by
`C11_custom_partial`. -/
theorem C11_standard_partial (t : RelType) (ht : t ∈ standardTypes) (hne : t ≠ .extendedProperties) :
    RelType.fromUri t.uri = t := by
  revert t
  decide +kernel

/-- The substrings that make `from_uri` choose a standard type. -/
def typeNeedles : List Str :=
  [c!"/theme", c!"/image", c!"/chart", c!"/officeDocument", c!"core-properties",
   c!"extended-properties"]

/-- **C11** (part): a custom type survives exactly when its URI contains none of the
substrings `from_uri` looks for. -/
theorem C11_custom_partial (uri : Str) :
    RelType.fromUri (RelType.custom uri).uri = .custom uri ↔
      (∀ n ∈ typeNeedles, containsStr n uri = false) ∧
      containsStr c!"/slideLayout" uri = false ∧ containsStr c!"/slideMaster" uri = false ∧
      ¬ (containsStr c!"/slide" uri = true ∧ containsStr c!"Layout" uri = false ∧
        containsStr c!"Master" uri = false) := by
  have key : ∀ (c : Bool) (a b : RelType), a ≠ .custom uri →
      ((if c = true then a else b) = .custom uri ↔ c = false ∧ b = .custom uri) := by
    intro c a b h
    cases c <;> simp [h]
  show RelType.fromUri uri = .custom uri ↔ _
  unfold RelType.fromUri
  rw [key _ _ _ (by simp), key _ _ _ (by simp), key _ _ _ (by simp), key _ _ _ (by simp),
    key _ _ _ (by simp), key _ _ _ (by simp), key _ _ _ (by simp), key _ _ _ (by simp),
    key _ _ _ (by simp)]
  simp only [typeNeedles, List.forall_mem_cons, Bool.and_eq_false_iff]
  constructor
  · rintro ⟨h1, h2, h3, h4, h5, h6, h7, h8, h9, _⟩
    refine ⟨⟨h4, h5, h6, h7, h8, h9, by simp⟩, h2, h3, ?_⟩
    rintro ⟨a, b, c⟩
    simp [a, b, c] at h1
  · rintro ⟨⟨h4, h5, h6, h7, h8, h9, _⟩, h2, h3, h1⟩
    refine ⟨?_, h2, h3, h4, h5, h6, h7, h8, h9, trivial⟩
    cases a : containsStr c!"/slide" uri
    · simp
    · cases b : containsStr c!"Layout" uri
      · cases c : containsStr c!"Master" uri
        · exact absurd ⟨a, b, c⟩ h1
        · simp
      · simp

/-- **C11** fails as stated: extended properties come back as the office document, and a custom
type can come back as a standard one. -/
theorem C11_roundtrip_violated :
    RelType.fromUri RelType.extendedProperties.uri = .officeDocument ∧
    RelType.fromUri (RelType.custom c!"http://x/slideshow").uri = .slide := by decide +kernel

example : RelType.fromUri (RelType.custom c!"urn:my").uri = .custom c!"urn:my" := by decide

/-! ## C60 -/

/-- Adds slides with the given relationship ids to a part. -/
def addSlides (p : PresentationPart) (rIds : List Str) : PresentationPart :=
  rIds.foldl (fun p r => (p.addSlide r).1) p

theorem addSlides_refs (rIds : List Str) (p : PresentationPart) :
    (addSlides p rIds).slideRefs = p.slideRefs ++
      rIds.mapIdx fun i r => ⟨257 + p.slideRefs.length + i, r⟩ := by
  induction rIds generalizing p with
  | nil => simp [addSlides]
  | cons r rs ih =>
    rw [addSlides, List.foldl_cons, ← addSlides, ih]
    simp only [PresentationPart.addSlide, List.append_assoc, List.singleton_append,
      List.length_append, List.length_cons, List.length_nil, List.mapIdx_cons,
      List.append_cancel_left_eq, List.cons.injEq, SlideRef.mk.injEq, and_true]
    refine ⟨by omega, ?_⟩
    apply List.ext_getElem
    · simp
    · intro i h1 h2
      simp only [List.getElem_mapIdx, SlideRef.mk.injEq, and_true]
      omega

/-- **C60** (part): on a new part, any number of added slides get pairwise distinct, legal
slide ids, and each keeps its relationship id. Missing: parts loaded from a file, see
`C60_loaded_violated`. -/
theorem C60_new_partial (rIds : List Str) :
    ((addSlides .new rIds).slideRefs.map (·.id)).Nodup ∧
    (∀ s ∈ (addSlides .new rIds).slideRefs, 256 ≤ s.id) ∧
    (addSlides .new rIds).slideRefs.map (·.rId) = rIds := by
  rw [addSlides_refs]
  simp only [PresentationPart.new, List.nil_append, List.length_nil]
  refine ⟨?_, ?_, ?_⟩
  · rw [List.nodup_iff_injective_getElem]
    intro a b hab
    simp only [List.getElem_map, List.getElem_mapIdx, Nat.add_left_cancel_iff] at hab
    exact Fin.ext (by omega)
  · intro s hs
    obtain ⟨i, hi, rfl⟩ := List.mem_mapIdx.mp hs
    simp only; omega
  · apply List.ext_getElem <;> simp

/-- **C60** (part): the relationship ids written for a part with explicit master and theme ids
are exactly master, theme and slide ids, so they are pairwise distinct if those are. -/
theorem C60_relationship_ids_partial (p : PresentationPart) (m t : Str)
    (hm : p.slideMasterRId = some m) (ht : p.themeRId = some t) (r : Relationships)
    (hr : p.createRelationships = some r) :
    r.rels.map (·.id) = m :: t :: p.slideRefs.map (·.rId) := by
  have hstep : ∀ (r r' : Relationships) (id : Str) (ty : RelType) (tg : Str),
      r.addWithId id ty tg = some r' → r'.rels.map (·.id) = r.rels.map (·.id) ++ [id] := by
    intro r r' id ty tg h
    obtain ⟨x, hx, hx2⟩ := rels_of_step r r' (.addWithId id ty tg) h
    simp only at hx2
    simp [hx, hx2]
  have hsl : ∀ (ss : List SlideRef) (i : Nat) (r r' : Relationships),
      PresentationPart.addSlideRels ss i r = some r' →
      r'.rels.map (·.id) = r.rels.map (·.id) ++ ss.map (·.rId) := by
    intro ss
    induction ss with
    | nil => intro i r r' h; simp only [PresentationPart.addSlideRels, Option.some.injEq] at h; simp [h]
    | cons s ss ih =>
      intro i r r' h
      simp only [PresentationPart.addSlideRels, Option.bind_eq_some_iff] at h
      obtain ⟨r1, h1, h2⟩ := h
      rw [ih _ _ _ h2, hstep _ _ _ _ _ h1]
      simp
  simp only [PresentationPart.createRelationships, hm, ht, Option.bind_eq_some_iff] at hr
  obtain ⟨r1, h1, r2, h2, h3⟩ := hr
  rw [hsl _ _ _ _ h3, hstep _ _ _ _ _ h2, hstep _ _ _ _ _ h1]
  simp [Relationships.new]

example : (PresentationPart.mk [⟨257, c!"rId3"⟩] (some c!"rId1") (some c!"rId2")).createRelationships.isSome := by
  decide

/-- **C60** (part): the slides' relationships point at `slides/slide1.xml`, `slides/slide2.xml`, … in the
order of the slide list, whatever ids the part has. -/
theorem C60_targets_partial (p : PresentationPart) (r : Relationships) (hr : p.createRelationships = some r) :
    (r.rels.filter fun x => x.relType = .slide).map (fun x => (x.id, x.target)) =
      p.slideRefs.mapIdx fun i s => (s.rId, c!"slides/slide" ++ dec (i + 1) ++ c!".xml") := by
  have hsl : ∀ (ss : List SlideRef) (i : Nat) (r r' : Relationships),
      PresentationPart.addSlideRels ss i r = some r' →
      r'.rels = r.rels ++ ss.mapIdx fun j s => ⟨s.rId, .slide, c!"slides/slide" ++ dec (i + j + 1) ++ c!".xml"⟩ := by
    intro ss
    induction ss with
    | nil => intro i r r' h; simp only [PresentationPart.addSlideRels, Option.some.injEq] at h; simp [h]
    | cons s ss ih =>
      intro i r r' h
      simp only [PresentationPart.addSlideRels, Option.bind_eq_some_iff] at h
      obtain ⟨r1, h1, h2⟩ := h
      obtain ⟨x, hx, hx2⟩ := rels_of_step r r1 (.addWithId s.rId .slide _) h1
      simp only at hx2
      rw [ih _ _ _ h2, hx, hx2]
      simp only [List.mapIdx_cons, List.append_assoc, List.singleton_append, Nat.add_zero]
      congr 3
      funext j s
      rw [show i + 1 + j + 1 = i + (j + 1) + 1 by omega]
  have key : ∀ r1 r2 : Relationships, (∃ x, r1.rels = [x] ∧ x.relType = .slideMaster) →
      (∃ x, r2.rels = r1.rels ++ [x] ∧ x.relType = .theme) → PresentationPart.addSlideRels p.slideRefs 0 r2 = some r →
      (r.rels.filter fun x => x.relType = .slide).map (fun x => (x.id, x.target)) =
        p.slideRefs.mapIdx fun i s => (s.rId, c!"slides/slide" ++ dec (i + 1) ++ c!".xml") := by
    rintro r1 r2 ⟨x, hx, tx⟩ ⟨y, hy, ty⟩ h
    rw [hsl _ _ _ _ h, hy, hx]
    simp only [List.filter_append, List.filter_cons, tx, ty, List.filter_nil, Nat.zero_add]
    rw [List.filter_eq_self.mpr]
    · apply List.ext_getElem <;> simp
    · intro z hz
      obtain ⟨i, hi, rfl⟩ := List.mem_mapIdx.mp hz
      rfl
  simp only [PresentationPart.createRelationships, Option.bind_eq_some_iff] at hr
  obtain ⟨r1, h1, r2, h2, h3⟩ := hr
  refine key r1 r2 ?_ ?_ h3
  · cases hm : p.slideMasterRId with
    | some id =>
      simp only [hm] at h1
      obtain ⟨x, hx, hx2⟩ := rels_of_step _ r1 (.addWithId id .slideMaster _) h1
      simp only at hx2
      exact ⟨x, by simpa [Relationships.new] using hx, by rw [hx2]⟩
    | none =>
      simp only [hm] at h1
      obtain ⟨x, hx, hx2⟩ := rels_of_step Relationships.new r1 (.add .slideMaster c!"slideMasters/slideMaster1.xml") h1
      simp only at hx2
      exact ⟨x, by simpa [Relationships.new] using hx, by rw [hx2]⟩
  · cases ht : p.themeRId with
    | some id =>
      simp only [ht] at h2
      obtain ⟨x, hx, hx2⟩ := rels_of_step _ r2 (.addWithId id .theme _) h2
      simp only at hx2
      exact ⟨x, hx, by rw [hx2]⟩
    | none =>
      simp only [ht] at h2
      obtain ⟨x, hx, hx2⟩ := rels_of_step r1 r2 (.add .theme c!"theme/theme1.xml") h2
      simp only at hx2
      exact ⟨x, hx, by rw [hx2]⟩

example : ((addSlides .new [c!"rId3", c!"rId4"]).createRelationships.map fun r => r.rels.map (·.target)) =
    some [c!"slideMasters/slideMaster1.xml", c!"theme/theme1.xml", c!"slides/slide1.xml", c!"slides/slide2.xml"] := by
  decide

/-- **C60** fails as stated: on a loaded part whose ids are not `257, 258, …` the next id may be
taken, and without explicit ids the master's relationship id may collide with a slide's. -/
theorem C60_loaded_violated :
    ((addSlides ⟨[⟨258, c!"rId2"⟩], none, none⟩ [c!"rId3"]).slideRefs.map (·.id)) = [258, 258] ∧
    ((addSlides .new [c!"rId1"]).createRelationships.map fun r => r.rels.map (·.id)) =
      some [c!"rId1", c!"rId2", c!"rId1"] := by
  decide

end PptRs.Props
