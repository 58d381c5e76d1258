import Verif.Props.RepairRels
import Verif.Props.Compress

/-!
# C73, C74: which relationships the repair finds broken, and which it removes
-/

namespace PptRs.Spec

open PptRs

/-- A relationship on one line, without quotation marks inside and with an id and a type without `=`. -/
structure OneLine (r : RelEntry) : Prop where
  quotes : '"' ∉ r.id ∧ '"' ∉ r.type ∧ '"' ∉ r.target
  id : '\n' ∉ r.id ∧ '=' ∉ r.id
  type : '\n' ∉ r.type ∧ '=' ∉ r.type
  target : '\n' ∉ r.target

/-- The target is written as an address of the web. -/
def IsWeb (target : Str) : Prop := c!"http://" <+: target ∨ c!"https://" <+: target

end PptRs.Spec

namespace PptRs.Props

open PptRs PptRs.Spec PptRs.Repair

/-! ## Lines -/

theorem joinStr_flatMap (c : Char) (x : Str) (xs : List Str) :
    joinStr [c] (x :: xs) = x ++ xs.flatMap fun y => c :: y := by
  induction xs generalizing x with
  | nil => simp [joinStr]
  | cons y ys ih =>
    rw [joinStr, ih, List.flatMap_cons]
    simp

theorem strLines_joinStr {ls : List Str} (hne : ls ≠ []) (hn : ∀ x ∈ ls, '\n' ∉ x)
    (hcr : ∀ x ∈ ls, x.getLast? ≠ some '\r') (hlast : ls.getLast hne ≠ []) : strLines (joinStr c!"\n" ls) = ls := by
  unfold strLines
  rw [splitChar_joinStr hne hn, List.getLast?_eq_getLast_of_ne_nil hne]
  simp only
  rw [if_neg hlast]
  have : ls.dropLast.map stripCr = ls.dropLast := by
    refine (List.map_congr_left (g := id) fun x hx => ?_).trans (List.map_id _)
    unfold stripCr
    rw [if_neg (hcr x (List.dropLast_subset ls hx))]
    rfl
  rw [this, List.dropLast_concat_getLast]

/-- The first line of a relationship part. -/
def declLine : Str := c!"<?xml version=\"1.0\" encoding=\"UTF-8\" standalone=\"yes\"?>"

/-- The second line. -/
def openLine : Str := c!"<Relationships xmlns=\"http://schemas.openxmlformats.org/package/2006/relationships\">"

/-- The lines of a relationship part. -/
def relLines (l : List RelEntry) : List Str := declLine :: (openLine :: (l.map renderRel ++ [c!"</Relationships>"]))

theorem renderRels_lines (l : List RelEntry) : renderRels l = joinStr c!"\n" (relLines l) := by
  unfold relLines
  rw [joinStr_flatMap, List.flatMap_cons, List.flatMap_append, List.flatMap_map]
  unfold renderRels
  have e : relsHeader = declLine ++ ('\n' :: openLine) := rfl
  rw [e]
  simp

theorem renderRel_line {r : RelEntry} (h : OneLine r) : '\n' ∉ renderRel r ∧ (renderRel r).getLast? ≠ some '\r' := by
  constructor
  · unfold renderRel
    cases r.external <;> simp [h.id.1, h.type.1, h.target]
  · unfold renderRel
    rw [List.getLast?_append]
    simp

theorem strLines_renderRels {l : List RelEntry} (h : ∀ r ∈ l, OneLine r) : strLines (renderRels l) = relLines l := by
  rw [renderRels_lines]
  refine strLines_joinStr (by simp [relLines]) ?_ ?_ ?_
  · intro x hx
    simp only [relLines, List.mem_cons, List.mem_append, List.mem_map, List.not_mem_nil, or_false] at hx
    rcases hx with rfl | rfl | ⟨r, hr, rfl⟩ | rfl
    · decide
    · decide
    · exact (renderRel_line (h r hr)).1
    · decide
  · intro x hx
    simp only [relLines, List.mem_cons, List.mem_append, List.mem_map, List.not_mem_nil, or_false] at hx
    rcases hx with rfl | rfl | ⟨r, hr, rfl⟩ | rfl
    · decide
    · decide
    · exact (renderRel_line (h r hr)).2
    · decide
  · simp [relLines]

/-! ## C73 -/

theorem eq_notMem_suffix {s : Str} (h : '=' ∉ s) (m : Str) : ¬ m ++ c!"=" <:+ s := by
  rintro ⟨x, hx⟩
  exact h (by rw [← hx]; simp)

theorem containsStr_id {r : RelEntry} (h : OneLine r) {rid : Str} (hq : '"' ∉ rid) (he : '=' ∉ rid) :
    containsStr (c!"Id=\"" ++ rid ++ c!"\"") (renderRel r) = decide (r.id = rid) := by
  have hp : '"' ∉ c!"Id=" := by decide
  have e : c!"Id=\"" ++ rid ++ c!"\"" = c!"Id=" ++ '"' :: (rid ++ c!"\"") := by simp
  -- a quotation mark that is followed by text with `=` before the next one
  have noEq : ∀ a t : Str, '"' ∉ a → '=' ∈ a → ¬ (rid ++ c!"\"" <+: a ++ '"' :: t) := by
    rintro a t ha hm ⟨x, hx⟩
    rw [List.append_assoc] at hx
    obtain ⟨e1, _⟩ := first_quote hq ha (x := x) hx
    exact he (e1 ▸ hm)
  have r0 := renderRel_quotes r []
  rw [List.append_nil, List.append_nil] at r0
  rw [e, r0]
  by_cases hid : r.id = rid
  · rw [decide_eq_true hid]
    refine containsStr_iff.mpr ⟨c!"<Relationship ", c!" Type=" ++ '"' :: (r.type ++ '"' :: (c!" Target=" ++ '"' ::
      (r.target ++ '"' :: relTail r))), ?_⟩
    rw [hid]
    simp
  · rw [decide_eq_false hid]
    rw [containsStr_skip hp (by decide) (by
        rintro ⟨_, x, hx⟩
        rw [List.append_assoc] at hx
        exact hid (first_quote hq h.quotes.1 (x := x) hx).1.symm),
      containsStr_skip hp h.quotes.1 (by rintro ⟨_, hx⟩; exact noEq _ _ (by decide) (by decide) hx),
      containsStr_skip hp (by decide) (by rintro ⟨hx, _⟩; revert hx; decide),
      containsStr_skip hp h.quotes.2.1 (by rintro ⟨_, hx⟩; exact noEq _ _ (by decide) (by decide) hx),
      containsStr_skip hp (by decide) (by rintro ⟨hx, _⟩; revert hx; decide)]
    unfold relTail
    cases r.external
    · rw [if_neg (by decide), containsStr_skip hp h.quotes.2.2 (by
        rintro ⟨_, x, hx⟩
        have : '"' ∈ c!"/>" := by rw [← hx]; simp
        revert this; decide)]
      exact containsStr_end (by decide)
    · rw [if_pos rfl, containsStr_skip hp h.quotes.2.2 (by rintro ⟨_, hx⟩; exact noEq _ _ (by decide) (by decide) hx),
        containsStr_skip hp (by decide) (by rintro ⟨hx, _⟩; revert hx; decide),
        containsStr_skip hp (by decide) (by rintro ⟨hx, _⟩; revert hx; decide)]
      exact containsStr_end (by decide)

theorem containsStr_false_of {p s : Str} (h : containsStr p s = false) (t : Str) : containsStr (p ++ t) s = false := by
  rw [Bool.eq_false_iff] at h ⊢
  intro hc
  apply h
  rw [containsStr_iff_infix] at hc ⊢
  exact (List.prefix_append p t).isInfix.trans hc

/-- **C73** (part): in a relationship part with one relationship on each line, the repair removes exactly the
relationships with the id that was found broken, and keeps the others in order. Missing: parts with several
relationships on a line, see `C73_single_line_violated`. -/
theorem C73_removed_partial (l : List RelEntry) (h : ∀ r ∈ l, OneLine r) (rid : Str) (hq : '"' ∉ rid) (he : '=' ∉ rid) :
    ((∀ r ∈ l, r.Plain) → readRels (dropRelLines (renderRels l) rid) =
      some ((l.filter fun r => r.id ≠ rid).map fun r => (some r.id, some r.type, some r.target))) ∧
    dropRelLines (renderRels l) rid = renderRels (l.filter fun r => r.id ≠ rid) := by
  have e : dropRelLines (renderRels l) rid = renderRels (l.filter fun r => r.id ≠ rid) := by
    unfold dropRelLines
    rw [strLines_renderRels h, renderRels_lines]
    congr 1
    have hl : ∀ x ∈ [declLine, openLine, c!"</Relationships>"],
        (!containsStr (c!"Id=\"" ++ rid ++ c!"\"") x) = true := by
      intro x hx
      have : containsStr c!"Id=\"" x = false := by revert x; decide
      rw [List.append_assoc, containsStr_false_of this]
      rfl
    unfold relLines
    have h1 := hl declLine (by simp)
    have h2 := hl openLine (by simp)
    have h3 := hl c!"</Relationships>" (by simp)
    simp only [List.filter_cons, List.filter_append, List.filter_nil, h1, h2, h3, if_true]
    congr 3
    induction l with
    | nil => rfl
    | cons r l ih =>
      rw [List.map_cons, List.filter_cons, containsStr_id (h r (by simp)) hq he,
        ih fun x hx => h x (by simp [hx]), List.filter_cons]
      by_cases hr : r.id = rid <;> simp [hr]
  refine ⟨fun hp => ?_, e⟩
  rw [e, readRels_render]
  · rfl
  · intro r hr
    exact hp r (List.mem_filter.mp hr).1

/-- **C73** (part): the same for the package: the source part keeps the other relationships, and every other
part stays as it is. -/
theorem C73_package_partial (uni : Char → Bool) (p : Package) (source target rid : Str) (l : List RelEntry)
    (hs : p.getPartString source = some (renderRels l)) (h : ∀ r ∈ l, OneLine r) (hq : '"' ∉ rid) (he : '=' ∉ rid) :
    let q := (repairIssue uni p (.brokenRelationship source target rid)).1
    q.getPartString source = some (renderRels (l.filter fun r => r.id ≠ rid)) ∧
    ∀ path, path ≠ source → q.getPart path = p.getPart path := by
  have add : ∀ (p : Package) (a b : Str) (d : Bytes), (p.addPart a d).getPart b = if b = a then some d else p.getPart b := by
    intro p a b d
    exact AMap.get_insert p a d b
  simp only [repairIssue]
  unfold repairBrokenRelationship
  rw [hs]
  simp only
  rw [(C73_removed_partial l h rid hq he).2]
  refine ⟨?_, fun path hp => ?_⟩
  · unfold Package.getPartString
    rw [add, if_pos rfl, Option.map_some, decodeLossy_encode]
  · rw [add, if_neg hp]

/-- Two relationships of a presentation. -/
def brokenRels : List RelEntry :=
  [⟨c!"rId1", relTypeBase ++ c!"slide", c!"slides/slide1.xml", false⟩,
   ⟨c!"rId10", relTypeBase ++ c!"hyperlink", c!"https://example.org/?a=b", true⟩]

theorem brokenRels_oneLine : ∀ r ∈ brokenRels, OneLine r := by
  intro r hr
  simp only [brokenRels, List.mem_cons, List.not_mem_nil, or_false] at hr
  rcases hr with rfl | rfl
  · exact ⟨by decide, by decide, by decide, by decide⟩
  · exact ⟨by decide, by decide, by decide, by decide⟩

example : readRels (dropRelLines (renderRels brokenRels) c!"rId1") =
    some [(some c!"rId10", some (relTypeBase ++ c!"hyperlink"), some c!"https://example.org/?a=b")] := by decide +kernel

/-- A relationship part on a single line, as PowerPoint writes it. -/
def singleLine : Str :=
  c!"<Relationships><Relationship Id=\"rId1\" Type=\"t\" Target=\"missing.xml\"/><Relationship Id=\"rId2\" Type=\"t\" Target=\"here.xml\"/></Relationships>"

/-- **C73** fails as stated: of a relationship part on a single line nothing at all is left. -/
theorem C73_single_line_violated : dropRelLines singleLine c!"rId1" = [] := by decide +kernel

/-! ## C74 -/

theorem extract_target {r : RelEntry} (h : OneLine r) (t : Str) :
    extractAttribute (renderRel r ++ t) c!"Target" = some r.target := by
  have hp : '"' ∉ c!"Target=" := by decide
  have r0 := renderRel_quotes r t
  unfold extractAttribute
  have e : splitOnce? (c!"Target" ++ c!"=\"") (renderRel r ++ t) = some (c!"<Relationship Id=" ++ '"' :: (r.id ++ '"' :: (c!" Type=" ++ '"' ::
      (r.type ++ '"' :: c!" "))), r.target ++ '"' :: (relTail r ++ t)) := by
    rw [r0]
    show splitOnce? (c!"Target=" ++ '"' :: []) _ = _
    rw [splitOnce?_skip hp (by decide) (by rintro ⟨hx, _⟩; revert hx; decide),
      splitOnce?_skip hp h.quotes.1 (by rintro ⟨hx, _⟩; exact eq_notMem_suffix h.id.2 c!"Target" hx),
      splitOnce?_skip hp (by decide) (by rintro ⟨hx, _⟩; revert hx; decide),
      splitOnce?_skip hp h.quotes.2.1 (by rintro ⟨hx, _⟩; exact eq_notMem_suffix h.type.2 c!"Target" hx)]
    have := splitOnce?_hit (q := '"') (p1 := c!"Target=") (p2 := []) (s := c!" ") (t := r.target ++ '"' :: (relTail r ++ t)) hp (by decide)
    rw [List.nil_append] at this
    rw [show c!" Target=" = c!" " ++ c!"Target=" from rfl, this]
    rfl
  rw [e, Option.bind_some, splitOnce?_quote h.quotes.2.2]
  rfl

theorem extract_type {r : RelEntry} (h : OneLine r) (t : Str) :
    extractAttribute (renderRel r ++ t) c!"Type" = some r.type := by
  have hp : '"' ∉ c!"Type=" := by decide
  have r0 := renderRel_quotes r t
  unfold extractAttribute
  have e : splitOnce? (c!"Type" ++ c!"=\"") (renderRel r ++ t) = some (c!"<Relationship Id=" ++ '"' :: (r.id ++ '"' :: c!" "),
      r.type ++ '"' :: (c!" Target=" ++ '"' :: (r.target ++ '"' :: (relTail r ++ t)))) := by
    rw [r0]
    show splitOnce? (c!"Type=" ++ '"' :: []) _ = _
    rw [splitOnce?_skip hp (by decide) (by rintro ⟨hx, _⟩; revert hx; decide),
      splitOnce?_skip hp h.quotes.1 (by rintro ⟨hx, _⟩; exact eq_notMem_suffix h.id.2 c!"Type" hx)]
    have := splitOnce?_hit (q := '"') (p1 := c!"Type=") (p2 := []) (s := c!" ")
      (t := r.type ++ '"' :: (c!" Target=" ++ '"' :: (r.target ++ '"' :: (relTail r ++ t)))) hp (by decide)
    rw [List.nil_append] at this
    rw [show c!" Type=" = c!" " ++ c!"Type=" from rfl, this]
    rfl
  rw [e, Option.bind_some, splitOnce?_quote h.quotes.2.1]
  rfl

theorem extract_id {r : RelEntry} (h : OneLine r) (t : Str) : extractAttribute (renderRel r ++ t) c!"Id" = some r.id := by
  have hp : '"' ∉ c!"Id=" := by decide
  have r0 := renderRel_quotes r t
  unfold extractAttribute
  have := splitOnce?_hit (q := '"') (p1 := c!"Id=") (p2 := []) (s := c!"<Relationship ") (t := r.id ++ '"' :: (c!" Type=" ++ '"' ::
      (r.type ++ '"' :: (c!" Target=" ++ '"' :: (r.target ++ '"' :: (relTail r ++ t)))))) hp (by decide)
  rw [List.nil_append] at this
  have e : splitOnce? (c!"Id" ++ c!"=\"") (renderRel r ++ t) = some (c!"<Relationship ", r.id ++ '"' :: (c!" Type=" ++ '"' ::
      (r.type ++ '"' :: (c!" Target=" ++ '"' :: (r.target ++ '"' :: (relTail r ++ t)))))) := by
    rw [r0]; exact this
  rw [e, Option.bind_some, splitOnce?_quote h.quotes.1]
  rfl

open Classical in
/-- The issue of one relationship. -/
noncomputable def relIssue (p : Package) (relsPath : Str) (r : RelEntry) : List RepairIssue :=
  if IsWeb r.target ∨ p.hasPart (resolvePath relsPath r.target) = true ∨ c!".." <:+: r.target then []
  else [.brokenRelationship relsPath (resolvePath relsPath r.target) r.id]

theorem checkRelsLine_with (p : Package) (relsPath : Str) {r : RelEntry} (h : OneLine r) (t : Str) :
    checkRelsLine p relsPath (renderRel r ++ t) = relIssue p relsPath r := by
  unfold checkRelsLine
  have h1 : containsStr c!"Relationship" (renderRel r ++ t) = true := by
    refine containsStr_iff.mpr ⟨c!"<", c!" Id=\"" ++ r.id ++ c!"\" Type=\"" ++ r.type ++ c!"\" Target=\"" ++ r.target ++
        c!"\"" ++ (if r.external then c!" TargetMode=\"External\"" else []) ++ c!"/>" ++ t, ?_⟩
    · unfold renderRel
      simp
  have h2 : containsStr c!"Target=" (renderRel r ++ t) = true := by
    refine containsStr_iff.mpr ⟨c!"<Relationship Id=\"" ++ r.id ++ c!"\" Type=\"" ++ r.type ++ c!"\" ",
      c!"\"" ++ r.target ++ c!"\"" ++ (if r.external then c!" TargetMode=\"External\"" else []) ++ c!"/>" ++ t, ?_⟩
    · unfold renderRel
      simp
  rw [h1, h2, extract_target h t, extract_id h t]
  simp only [Bool.and_self, if_true, Option.getD_some]
  unfold relIssue IsWeb
  simp only [Bool.or_eq_true, startsWith_prefix]
  by_cases hw : c!"http://" <+: r.target ∨ c!"https://" <+: r.target
  · rw [if_pos hw, if_pos (.inl hw)]
  · rw [if_neg hw]
    have h3 : containsStr c!".." r.target = true ↔ c!".." <:+: r.target := containsStr_iff_infix
    simp only [Bool.and_eq_true, Bool.not_eq_true', Bool.eq_false_iff, ne_eq, h3]
    by_cases hd : c!".." <:+: r.target
    · simp [hd]
    · by_cases hpart : p.hasPart (resolvePath relsPath r.target) = true
      · simp [hpart]
      · rw [if_pos ⟨hpart, hd⟩, if_neg]
        rintro (hx | hx | hx)
        exacts [hw hx, hpart hx, hd hx]

theorem checkRelsLine_rel (p : Package) (relsPath : Str) {r : RelEntry} (h : OneLine r) :
    checkRelsLine p relsPath (renderRel r) = relIssue p relsPath r := by
  have := checkRelsLine_with p relsPath h []
  rwa [List.append_nil] at this

theorem checkRelsFile_rendered (p : Package) (relsPath : Str) {l : List RelEntry}
    (hs : p.getPartString relsPath = some (renderRels l)) (h : ∀ r ∈ l, OneLine r) :
    checkRelsFile p relsPath = l.flatMap (relIssue p relsPath) := by
  unfold checkRelsFile
  rw [hs]
  simp only
  rw [strLines_renderRels h]
  unfold relLines
  have hl : ∀ x ∈ [declLine, openLine, c!"</Relationships>"], checkRelsLine p relsPath x = [] := by
    intro x hx
    unfold checkRelsLine
    have : containsStr c!"Target=" x = false := by revert x; decide
    rw [this, Bool.and_false]
    rfl
  rw [List.flatMap_cons, hl _ (by simp), List.flatMap_cons, hl _ (by simp), List.flatMap_append, List.flatMap_cons,
    hl _ (by simp), List.flatMap_nil, List.flatMap_map]
  simp only [List.nil_append, List.append_nil]
  induction l with
  | nil => rfl
  | cons r l ih =>
    rw [List.flatMap_cons, List.flatMap_cons, checkRelsLine_rel p relsPath (h r (by simp))]
    congr 1
    clear hs
    have : ∀ (l : List RelEntry), (∀ x ∈ l, OneLine x) →
        (l.flatMap fun x => checkRelsLine p relsPath (renderRel x)) = l.flatMap (relIssue p relsPath) := by
      intro l hl
      induction l with
      | nil => rfl
      | cons x l ih2 =>
        rw [List.flatMap_cons, List.flatMap_cons, checkRelsLine_rel p relsPath (hl x (by simp)),
          ih2 fun y hy => hl y (by simp [hy])]
    exact this l fun x hx => h x (by simp [hx])

/-- The directory that the targets of a relationship part start from, with a slash behind it. -/
def baseOf (relsPath : Str) (dir : Str) : Prop :=
  (relsPath = c!"_rels/.rels" ∧ dir = []) ∨
  (relsPath = c!"ppt/_rels/presentation.xml.rels" ∧ dir = c!"ppt/") ∨
  ∃ name, relsPath = c!"ppt/slides/_rels/" ++ name ++ c!".xml.rels" ∧ '/' ∉ name ∧ dir = c!"ppt/slides/"

theorem resolvePath_base {relsPath dir target : Str} (h : baseOf relsPath dir) (h1 : ¬ c!"/" <+: target)
    (h2 : ¬ c!".." <:+: target) : resolvePath relsPath target = dir ++ target := by
  unfold resolvePath
  have e1 : stripPrefix? c!"/" target = none := by
    rw [← Option.not_isSome_iff_eq_none, stripPrefix?_isSome, startsWith_prefix]
    exact h1
  have e2 : startsWith c!"../" target = false := by
    rw [Bool.eq_false_iff]
    intro hs
    exact h2 ((List.prefix_append c!".." c!"/").isInfix.trans (startsWith_prefix.mp hs).isInfix)
  rw [e1]
  simp only
  rw [e2]
  simp only [Bool.false_eq_true, if_false]
  rcases h with ⟨rfl, rfl⟩ | ⟨rfl, rfl⟩ | ⟨name, rfl, hn, rfl⟩
  · rfl
  · rfl
  · have : rsplitOnceChar? '/' (c!"ppt/slides/_rels/" ++ name ++ c!".xml.rels") =
        some (c!"ppt/slides/_rels", name ++ c!".xml.rels") := by
      have := rsplitOnceChar?_append (c := '/') (a := c!"ppt/slides/_rels") (b := name ++ c!".xml.rels") (by simp [hn])
      simpa using this
    rw [this]
    rfl

theorem checked_of_base {p : Package} {relsPath dir : Str} (h : baseOf relsPath dir) {xml : Str}
    (hs : p.getPartString relsPath = some xml) {i : RepairIssue} (hi : i ∈ checkRelsFile p relsPath) : i ∈ validate p := by
  have hv : i ∈ checkRelationships p := by
    unfold checkRelationships
    rcases h with ⟨rfl, rfl⟩ | ⟨rfl, rfl⟩ | ⟨name, rfl, hn, rfl⟩
    · simp [hi]
    · simp [hi]
    · rw [List.mem_append]
      right
      rw [List.mem_flatMap]
      refine ⟨_, List.mem_filter.mpr ⟨?_, ?_⟩, hi⟩
      · unfold Package.getPartString at hs
        obtain ⟨d, hd, _⟩ := Option.map_eq_some_iff.mp hs
        exact (AMap.get_isSome_iff p _).mp (by unfold Package.getPart at hd; rw [hd]; rfl)
      · rw [Bool.and_eq_true, startsWith_prefix, endsWith_suffix]
        exact ⟨by rw [List.append_assoc]; exact List.prefix_append _ _, List.suffix_append _ _⟩
  unfold validate
  simp [hv]

/-- **C74** (part): validation reports every relationship of the package, the presentation and the slides
whose target is neither on the web nor in the package. Missing: targets that are written with `..` or with
a leading slash, and parts with several relationships on a line, see `C74_found_violated`. -/
theorem C74_found_partial (p : Package) (relsPath dir : Str) (hb : baseOf relsPath dir) (l : List RelEntry)
    (hs : p.getPartString relsPath = some (renderRels l)) (h : ∀ r ∈ l, OneLine r) (r : RelEntry) (hr : r ∈ l)
    (hweb : ¬ IsWeb r.target) (h1 : ¬ c!"/" <+: r.target) (h2 : ¬ c!".." <:+: r.target)
    (hmiss : p.getPart (dir ++ r.target) = none) :
    .brokenRelationship relsPath (dir ++ r.target) r.id ∈ validate p := by
  refine checked_of_base hb hs ?_
  rw [checkRelsFile_rendered p relsPath hs h, List.mem_flatMap]
  refine ⟨r, hr, ?_⟩
  unfold relIssue
  rw [resolvePath_base hb h1 h2, if_neg]
  · simp
  · rintro (hx | hx | hx)
    · exact hweb hx
    · unfold Package.hasPart at hx
      rw [AMap.has_eq] at hx
      unfold Package.getPart at hmiss
      rw [hmiss] at hx
      cases hx
    · exact h2 hx

/-- **C74** (part): what is reported as broken is a relationship of the part it is reported for, with a target
that is not in the package and not on the web. -/
theorem C74_sound_partial (p : Package) (relsPath full rid : Str) (l : List RelEntry)
    (hs : p.getPartString relsPath = some (renderRels l)) (h : ∀ r ∈ l, OneLine r)
    (hi : .brokenRelationship relsPath full rid ∈ validate p) :
    ∃ r ∈ l, r.id = rid ∧ ¬ IsWeb r.target ∧ p.getPart full = none ∧
      ∀ dir, baseOf relsPath dir → ¬ c!"/" <+: r.target → full = dir ++ r.target := by
  have key : ∀ q, RepairIssue.brokenRelationship relsPath full rid ∈ checkRelsFile p q → q = relsPath := by
    intro q hq
    unfold checkRelsFile at hq
    split at hq
    · simp at hq
    · obtain ⟨x, _, hx⟩ := List.mem_flatMap.mp hq
      unfold checkRelsLine at hx
      split at hx
      · split at hx
        · simp at hx
        · simp only at hx
          split at hx
          · simp at hx
          · split at hx
            · simp only [List.mem_singleton, RepairIssue.brokenRelationship.injEq] at hx
              exact hx.1.symm
            · simp at hx
      · simp at hx
  have hv : RepairIssue.brokenRelationship relsPath full rid ∈ checkRelsFile p relsPath := by
    unfold validate at hi
    simp only [List.mem_append] at hi
    rcases hi with (((hi | hi) | hi) | hi) | hi
    · simp [checkRequiredParts] at hi
    · unfold checkXmlValidity at hi
      obtain ⟨x, _, hx⟩ := List.mem_flatMap.mp hi
      split at hx
      · split at hx <;> simp at hx
      · simp at hx
    · unfold checkRelationships at hi
      simp only [List.mem_append, List.mem_flatMap] at hi
      rcases hi with (hi | hi) | ⟨q, _, hi⟩
      · have := key _ hi; rw [this] at hi; exact hi
      · have := key _ hi; rw [this] at hi; exact hi
      · have := key _ hi; rw [this] at hi; exact hi
    · simp [checkSlideReferences] at hi
    · unfold checkContentTypes at hi
      split at hi <;> simp at hi
  rw [checkRelsFile_rendered p relsPath hs h] at hv
  obtain ⟨r, hr, hx⟩ := List.mem_flatMap.mp hv
  unfold relIssue at hx
  split at hx
  · simp at hx
  · rename_i hn
    simp only [List.mem_singleton, RepairIssue.brokenRelationship.injEq, true_and] at hx
    refine ⟨r, hr, hx.2.symm, fun hw => hn (.inl hw), ?_, ?_⟩
    · have : ¬ p.hasPart full = true := by
        rw [hx.1]
        exact fun hp => hn (.inr (.inl hp))
      unfold Package.hasPart at this
      rw [AMap.has_eq] at this
      unfold Package.getPart
      simpa using this
    · intro dir hb h1
      rw [hx.1]
      exact resolvePath_base hb h1 fun hd => hn (.inr (.inr hd))

/-- A package with a presentation whose slide is missing. -/
def brokenPackage : Package :=
  [(c!"ppt/_rels/presentation.xml.rels", encode (renderRels brokenRels))]

example : .brokenRelationship c!"ppt/_rels/presentation.xml.rels" c!"ppt/slides/slide1.xml" c!"rId1" ∈ validate brokenPackage := by
  have := C74_found_partial brokenPackage c!"ppt/_rels/presentation.xml.rels" c!"ppt/" (.inr (.inl ⟨rfl, rfl⟩)) brokenRels
    (by unfold Package.getPartString
        show (some (encode (renderRels brokenRels))).map decodeLossy = _
        rw [Option.map_some, decodeLossy_encode])
    brokenRels_oneLine ⟨c!"rId1", relTypeBase ++ c!"slide", c!"slides/slide1.xml", false⟩ (by simp [brokenRels])
    (by rintro (h | h) <;> (revert h; decide)) (by decide) (by rw [← containsStr_iff_infix]; decide) (by decide)
  exact this

/-- **C74** fails as stated: a broken target with `..` is not reported, of several relationships on one line
only the first is looked at, and a link that is no part of the package, here an e-mail address, is reported
although it is not broken. -/
theorem C74_found_violated :
    checkRelsLine [] c!"ppt/slides/_rels/slide1.xml.rels" c!"<Relationship Id=\"rId1\" Type=\"t\" Target=\"../media/gone.png\"/>" = [] ∧
    checkRelsLine [(c!"ppt/a.xml", [])] c!"ppt/_rels/presentation.xml.rels"
      c!"<Relationship Id=\"rId1\" Type=\"t\" Target=\"a.xml\"/><Relationship Id=\"rId2\" Type=\"t\" Target=\"gone.xml\"/>" = [] ∧
    checkRelsLine [] c!"ppt/slides/_rels/slide1.xml.rels"
      c!"<Relationship Id=\"rId1\" Type=\"t\" Target=\"mailto:a@b.c\" TargetMode=\"External\"/>" =
      [.brokenRelationship c!"ppt/slides/_rels/slide1.xml.rels" c!"ppt/slides/mailto:a@b.c" c!"rId1"] := by
  decide +kernel

end PptRs.Props
