import Verif.Lemmas.Rels

/-!
# C06, C07: relationship parts
-/

namespace PptRs.Props

open PptRs PptRs.Spec

/-! ## C06 -/

/-- **C06**: a relative target resolves to the place reached by walking from the source folder
along the segments of the target. -/
theorem C06_resolve_is_walk (base : List Str) (target : Str) (hb : ∀ s ∈ base, CleanSeg s)
    (ht : target.head? ≠ some '/') :
    resolveRelTarget (joinStr c!"/" base) target =
      joinStr c!"/" (walk base.reverse (splitChar '/' target)).reverse := by
  by_cases h0 : (splitChar '/' target).head? = some []
  · have htn : target = [] := by
      cases target with
      | nil => rfl
      | cons c t =>
        by_cases hc : c = '/'
        · subst hc; simp at ht
        · simp only [splitChar, hc, if_false] at h0
          split at h0 <;> simp at h0
    subst htn
    have hw : walk base.reverse (splitChar '/' []) = base.reverse := by
      rw [splitChar, walk_empty]; cases base.reverse <;> rfl
    rw [hw, List.reverse_reverse]
    by_cases hbn : base = []
    · subst hbn; rfl
    · have : joinStr c!"/" base ≠ [] := by
        rw [ne_eq, joinStr_eq_nil (fun s h => (hb s h).1)]; exact hbn
      simp [resolveRelTarget, startsWith, this, splitChar, resolveStep, joinStr_splitChar]
  · have := resolveRelTarget_segs hb (splitChar_ne_nil '/' target)
      (fun s h => notMem_of_mem_splitChar h) h0
    rw [joinStr_splitChar] at this
    rw [this, foldl_resolveStep]

/-- **C06**: the resolved path of a relative target has no empty, `.` or `..` segment, so it
never leaves the package root. -/
theorem C06_resolve_clean (base : List Str) (target : Str) (hb : ∀ s ∈ base, CleanSeg s)
    (ht : target.head? ≠ some '/') :
    ∃ segs : List Str, resolveRelTarget (joinStr c!"/" base) target = joinStr c!"/" segs ∧
      ∀ s ∈ segs, CleanSeg s := by
  refine ⟨_, C06_resolve_is_walk base target hb ht, ?_⟩
  rw [← foldl_resolveStep]
  exact foldl_resolveStep_clean _ _ hb (fun s h => notMem_of_mem_splitChar h)

/-- **C06**: going up from the source folder to the root and down to a part, as the generated
relationship targets do, resolves to that part. -/
theorem C06_resolve_up_down (base dest : List Str) (hb : ∀ s ∈ base, CleanSeg s)
    (hd : ∀ s ∈ dest, CleanSeg s) (hne : dest ≠ []) (n : Nat) (hn : n ≤ base.length) :
    resolveRelTarget (joinStr c!"/" base)
        (joinStr c!"/" (List.replicate n c!".." ++ dest)) =
      joinStr c!"/" (base.take (base.length - n) ++ dest) := by
  rw [resolveRelTarget_segs hb (by simp [hne])]
  · rw [List.foldl_append, foldl_resolveStep_ups, foldl_resolveStep_names _ _ hd]
  · intro s hs
    rcases List.mem_append.mp hs with hs | hs
    · rw [(List.mem_replicate.mp hs).2]; decide
    · exact (hd s hs).2.2.2
  · cases n with
    | zero =>
      cases dest with
      | nil => exact absurd rfl hne
      | cons s d =>
        have := (hd s (by simp)).1
        simpa using this
    | succ n => simp [List.replicate_succ]

/-- **C06**: a target starting with a slash is taken from the package root, whatever the source
folder. -/
theorem C06_resolve_absolute (base : Str) (dest : List Str) (hd : ∀ s ∈ dest, CleanSeg s) :
    resolveRelTarget base ('/' :: joinStr c!"/" dest) = joinStr c!"/" dest := by
  have h : ∀ s : Str, s.head? ≠ some '/' → trimStartChar '/' ('/' :: s) = s := by
    intro s hs
    cases s with
    | nil => rfl
    | cons c s =>
      have : c ≠ '/' := by simpa using hs
      simp [trimStartChar, this]
  unfold resolveRelTarget
  rw [if_pos (by simp [startsWith, List.isPrefixOf])]
  apply h
  cases dest with
  | nil => simp [joinStr]
  | cons s d =>
    obtain ⟨h1, _, _, h4⟩ := hd s (by simp)
    cases s with
    | nil => exact absurd rfl h1
    | cons c s =>
      have : c ≠ '/' := by rintro rfl; simp at h4
      cases d <;> simp [joinStr, this]

example : resolveRelTarget c!"ppt/slides" c!"../media/./image1.png" = c!"ppt/media/image1.png" ∧
    resolveRelTarget c!"ppt" c!"../../../x" = c!"x" ∧
    (∀ s ∈ [c!"ppt", c!"slides"], CleanSeg s) := by
  refine ⟨by decide, by decide, ?_⟩
  simp only [CleanSeg]; decide

/-- **C06** fails for targets that start with a slash: their `..` segments are kept, so the
"resolved" path names a place above the package root. -/
theorem C06_resolve_violated :
    resolveRelTarget c!"ppt" c!"/../x" = c!"../x" ∧ resolveRelTarget c!"ppt" c!"/a//b" = c!"a//b" := by
  decide

/-- **C06**: the relationship part `dir/_rels/name.rels` belongs to folder `dir`. -/
theorem C06_source_dir (dir name : Str) (hname : '/' ∉ name) (hdir : '_' ∉ dir) (hne : dir ≠ []) :
    relsSourceDir (dir ++ c!"/_rels/" ++ name ++ c!".rels") = dir := by
  have h1 : dir ++ c!"/_rels/" ++ name ++ c!".rels" ≠ c!"_rels/.rels" := by
    cases dir with
    | nil => exact absurd rfl hne
    | cons c d =>
      intro h
      simp only [List.cons_append, List.cons.injEq] at h
      exact hdir (by simp [h.1])
  have h2 : splitOnce? c!"/_rels/" (dir ++ c!"/_rels/" ++ name ++ c!".rels") =
      some (dir, name ++ c!".rels") := by
    rw [List.append_assoc]
    clear h1 hne
    induction dir with
    | nil => simp [splitOnce?, stripPrefix?]
    | cons c d ih =>
      have hd : '_' ∉ d := fun h => hdir (List.mem_cons_of_mem _ h)
      rw [List.cons_append, List.cons_append, splitOnce?]
      have : stripPrefix? c!"/_rels/" (c :: (d ++ c!"/_rels/" ++ (name ++ c!".rels"))) = none := by
        rw [← Option.not_isSome_iff_eq_none, Option.isSome_iff_exists]
        rintro ⟨r, hr⟩
        rw [stripPrefix?_eq_some] at hr
        cases d with
        | nil => simp at hr
        | cons x d =>
          simp only [List.cons_append, List.nil_append, List.cons.injEq] at hr
          exact hd (by simp [hr.2.1])
      rw [this]
      simp only
      rw [ih hd]
      rfl
  unfold relsSourceDir
  rw [if_neg h1, h2]
  simp only
  rw [← List.append_assoc, stripSuffix?_append]
  simp only [Option.getD_some]
  rw [show dir ++ c!"/" ++ name = dir ++ '/' :: name by simp, rsplitOnceChar?_append hname]

example : relsSourceDir c!"ppt/slides/_rels/slide12.xml.rels" = c!"ppt/slides" ∧
    relsSourceDir c!"_rels/.rels" = c!"" := by decide

/-! ## C07 -/

/-- **C07**: scanning the text of a relationship part returns ids, targets and external flags
of all its relationships, in order, resolved against the source folder. -/
theorem C07_parse_render (l : List RelEntry) (base : Str)
    (h : ∀ r ∈ l, '"' ∉ r.id ∧ 'T' ∉ r.type ∧ '"' ∉ r.target) :
    (parseRelationships (renderRels l) base).map
        (fun r => (r.id, r.target, decide (r.targetMode = c!"External"))) =
      l.map (fun r => (r.id, r.target, r.external)) ∧
    ∀ r ∈ parseRelationships (renderRels l) base, r.resolved = resolveRelTarget base r.target := by
  rw [parseRelationships_render base l h]
  constructor
  · rw [List.map_map]
    apply List.map_congr_left
    intro r _
    cases hx : r.external <;> simp [RelEntry.scanned, hx]
  · intro r hr
    obtain ⟨e, _, rfl⟩ := List.mem_map.mp hr
    rfl

/-- An external hyperlink followed by an internal relationship: the flag stays with its own
element. -/
def sampleRels : List RelEntry :=
  [⟨c!"rId1", relTypeBase ++ c!"hyperlink", c!"http://x/?a>b", true⟩,
   ⟨c!"rId2", relTypeBase ++ c!"slideLayout", c!"../slideLayouts/slideLayout1.xml", false⟩]

example : ∀ r ∈ sampleRels, '"' ∉ r.id ∧ 'T' ∉ r.type ∧ '"' ∉ r.target := by decide

end PptRs.Props
