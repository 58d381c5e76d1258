import Verif.Model.FullText
import Verif.Props.PartOrder
import Verif.Props.WholeFonts
import Verif.Props.ValidateAll
import Verif.Props.Signature
import Verif.Props.Quick
import Verif.Props.Theme
import Verif.Props.EditRepair
import Verif.Lemmas.Charts
import Verif.Lemmas.Ink

/-!
# C158: every part is a well-formed document

All XML parts of a written file, of any deck and any settings: each is one element with well-formed content.
-/

namespace PptRs.Props

open PptRs PptRs.Spec PptRs.Full PptRs.Settings PptRs.Themes

/-- The text is a well-formed document with one root element. -/
def OneRoot (t : Str) : Prop := ∃ n as ks, document t = some [.elem n as ks]

/-! ### Texts that can be read between tags -/

/-- The text is read as elements and text, wherever it stands. -/
def Fine (s : Str) : Prop :=
  ∀ n as k st t, ∃ k' t', Reads s ⟨⟨n, as, k⟩, st, .text t⟩ ⟨⟨n, as, k'⟩, st, .text t'⟩

theorem Fine.nil : Fine [] := fun _ _ k _ t => ⟨k, t, Reads.nil _⟩

theorem Fine.append {a b : Str} (ha : Fine a) (hb : Fine b) : Fine (a ++ b) := by
  intro n as k st t
  obtain ⟨k1, t1, h1⟩ := ha n as k st t
  obtain ⟨k2, t2, h2⟩ := hb n as k1 st t1
  exact ⟨k2, t2, h1.append h2⟩

theorem Fine.flatMap {α : Type} {f : α → Str} {l : List α} (h : ∀ a ∈ l, Fine (f a)) : Fine (l.flatMap f) := by
  induction l with
  | nil => exact .nil
  | cons a l ih =>
    rw [List.flatMap_cons]
    exact (h a (by simp)).append (ih fun b hb => h b (by simp [hb]))

theorem Fine.nl : Fine c!"\n" := fun _ _ k _ t => ⟨k, t ++ c!"\n", reads_lit rfl⟩

theorem Fine.when {b : Bool} {s : Str} (h : Fine s) : Fine (if b then s else []) := by
  cases b
  · exact .nil
  · exact h

theorem Fine.of_nodes {ps : List Part} {ks : List Node} (h : ReadsNodes ps ks) (hs : ∃ r, fmt ps = '<' :: r) : Fine (fmt ps) :=
  fun n as k st t => ⟨_, _, h.tagged hs n as k st t⟩

theorem oneRoot_of_reads {x n : Str} {as : List (Str × Str)} {ks : List Node}
    (h : Reads x ⟨⟨[], [], []⟩, [], .text []⟩ ⟨⟨[], [], [.elem n as ks]⟩, [], .text []⟩) (hx : ∃ r, x = '<' :: r) :
    OneRoot (xmlDecl ++ x) := by
  have hp : parse x = some [.elem n as ks] := by
    obtain ⟨c, e, r⟩ := h ⟨⟨[], [], []⟩, [], .text []⟩ ⟨rfl, rfl, .text rfl⟩
    obtain ⟨top, st, m⟩ := c
    obtain ⟨r1, r2, r3⟩ := r
    simp only at r1 r2 r3
    subst r1 r2
    cases r3 with
    | text hr =>
      simp only [parse, e, flush_of hr, Option.map_some]
      simp [textNode]
  obtain ⟨r, rfl⟩ := hx
  have e : document (xmlDecl ++ '<' :: r) = parse ('<' :: r) := by krfl
  exact ⟨n, as, ks, e.trans hp⟩

theorem oneRoot_types {s : Str} (h : Fine s) :
    OneRoot (xmlDecl ++ (c!"<Types xmlns=\"http://schemas.openxmlformats.org/package/2006/content-types\">" ++ s ++ c!"</Types>")) := by
  obtain ⟨k, t, h⟩ := h c!"Types" [(c!"xmlns", c!"http://schemas.openxmlformats.org/package/2006/content-types")] [] [⟨[], [], []⟩] []
  refine oneRoot_of_reads (((reads_lit ?_).append h).append (reads_lit (s' := ⟨⟨[], [], [.elem c!"Types"
    [(c!"xmlns", c!"http://schemas.openxmlformats.org/package/2006/content-types")] (addText k t)]⟩, [], .text []⟩) ?_)) ⟨_, rfl⟩
  · krfl
  · krfl

theorem oneRoot_relationships {s : Str} (h : Fine s) : OneRoot (relsHeader ++ s ++ c!"</Relationships>") := by
  obtain ⟨k, t, h⟩ := h c!"Relationships" [(c!"xmlns", c!"http://schemas.openxmlformats.org/package/2006/relationships")] []
    [⟨[], [], []⟩] []
  have e : relsHeader ++ s ++ c!"</Relationships>" =
      xmlDecl ++ (c!"<Relationships xmlns=\"http://schemas.openxmlformats.org/package/2006/relationships\">" ++ s ++ c!"</Relationships>") := by
    simp [relsHeader, xmlDecl]
  rw [e]
  refine oneRoot_of_reads (((reads_lit ?_).append h).append (reads_lit (s' := ⟨⟨[], [], [.elem c!"Relationships"
    [(c!"xmlns", c!"http://schemas.openxmlformats.org/package/2006/relationships")] (addText k t)]⟩, [], .text []⟩) ?_)) ⟨_, rfl⟩
  · krfl
  · krfl

/-! ### Content types -/

theorem plain_mime (c : ContentType) : Plain c.mime := by
  unfold Plain
  cases c <;> decide +kernel

theorem fine_default {x : Str × ContentType} (h : Plain x.1) : Fine (defaultText x) := by
  have hm := plain_mime x.2
  have : ReadsNodes t!"<Default Extension=\"{.raw x.1}\" ContentType=\"{.raw x.2.mime}\"/>"
      [E c!"Default" [(c!"Extension", x.1), (c!"ContentType", x.2.mime)] []] := by
    generalize x.1 = a at *
    generalize x.2.mime = b at *
    exact (Splits.lit (by parts_ok)).readsNodes (by krfl)
  have f := Fine.of_nodes this ⟨_, rfl⟩
  have e : fmt t!"<Default Extension=\"{.raw x.1}\" ContentType=\"{.raw x.2.mime}\"/>" = defaultText x := by
    simp [defaultText, fmt, Part.render]
  rwa [e] at f

theorem fine_override {x : Str × ContentType} (h : Plain x.1) : Fine (overrideText x) := by
  have hm := plain_mime x.2
  have : ReadsNodes t!"<Override PartName=\"{.raw x.1}\" ContentType=\"{.raw x.2.mime}\"/>"
      [E c!"Override" [(c!"PartName", x.1), (c!"ContentType", x.2.mime)] []] := by
    generalize x.1 = a at *
    generalize x.2.mime = b at *
    exact (Splits.lit (by parts_ok)).readsNodes (by krfl)
  have f := Fine.of_nodes this ⟨_, rfl⟩
  have e : fmt t!"<Override PartName=\"{.raw x.1}\" ContentType=\"{.raw x.2.mime}\"/>" = overrideText x := by
    simp [overrideText, fmt, Part.render]
  rwa [e] at f

theorem fine_overrideLines {l : List (Str × ContentType)} (h : ∀ x ∈ l, Plain x.1) : Fine (overrideLines l) := by
  unfold overrideLines
  exact .flatMap fun x hx => Fine.nl.append (fine_override (h x hx))

theorem plain_numberedPath {a b : Str} (ha : Plain a) (hb : Plain b) (n : Nat) : Plain (a ++ dec n ++ b) :=
  plain_append (plain_append ha (plain_dec n)) hb

/-- The names of parts that do not come from the caller. -/
def isOwnName : PartName → Bool
  | .media _ _ => false
  | .font _ => false
  | .templatePart _ => false
  | _ => true

theorem plain_ownPath {p : PartName} (h : isOwnName p = true) : Plain ('/' :: p.path) := by
  cases p <;> simp only [isOwnName, Bool.false_eq_true] at h <;> simp only [PartName.path] <;>
    first
    | (unfold Plain; decide +kernel)
    | exact plain_numberedPath (a := '/' :: _) (by unfold Plain; decide +kernel) (by unfold Plain; decide +kernel) _

theorem plain_overrides (d : Deck) (st : BuildSettings) : ∀ x ∈ (upTo d.count).map (fun i => overrideOf (.slide i) .slide) ++
    notesOverrides (notesCount d.slides) ++ handoutOverrides st.handout ++ chartOverrides (totalCharts d.slides) ++
    layoutOverrides ++ contentTypesFooter, Plain x.1 := by
  intro x hx
  have key : ∃ p t, isOwnName p = true ∧ x = overrideOf p t := by
    simp only [List.mem_append, List.mem_map, notesOverrides, handoutOverrides, chartOverrides, layoutOverrides,
      contentTypesFooter] at hx
    rcases hx with ((((⟨i, _, rfl⟩ | ⟨i, _, rfl⟩ | hx) | hx) | hx) | hx) | hx
    · exact ⟨_, _, rfl, rfl⟩
    · exact ⟨_, _, rfl, rfl⟩
    · split at hx
      · simp only [List.mem_cons, List.not_mem_nil, or_false] at hx
        rcases hx with rfl | rfl <;> exact ⟨_, _, rfl, rfl⟩
      · simp at hx
    · split at hx
      · simp only [List.mem_cons, List.not_mem_nil, or_false] at hx
        rcases hx with rfl | rfl <;> exact ⟨_, _, rfl, rfl⟩
      · simp at hx
    · obtain ⟨i, _, hx⟩ := List.mem_flatMap.mp hx
      simp only [List.mem_cons, List.not_mem_nil, or_false] at hx
      rcases hx with rfl | rfl <;> exact ⟨_, _, rfl, rfl⟩
    · obtain ⟨i, _, rfl⟩ := hx
      exact ⟨_, _, rfl, rfl⟩
    · simp only [List.mem_cons, List.not_mem_nil, or_false] at hx
      rcases hx with rfl | rfl | rfl | rfl | rfl | rfl | rfl <;> exact ⟨_, _, rfl, rfl⟩
  obtain ⟨p, t, hp, rfl⟩ := key
  exact plain_ownPath hp

theorem plain_imageDefaults (exts : List Str) : ∀ x ∈ imageDefaults exts, Plain x.1 := by
  intro x hx
  simp only [imageDefaults, List.mem_append] at hx
  rcases hx with (hx | hx) | hx <;> split at hx <;> simp only [List.mem_singleton, List.not_mem_nil] at hx <;> subst hx <;>
    simp [Plain]

/-- **C158, content types.** The list of content types of every deck is well-formed. -/
theorem C158_content_types (d : Deck) (st : BuildSettings) : OneRoot (contentTypesText d st) := by
  have hsx : ∀ {s : Str}, Plain s → ∀ t, Fine (defaultText (s, t)) := fun h t => fine_default h
  have hs : Fine ((imageDefaults (buildMediaRegistry d.slides).extensions).flatMap defaultText
      ++ defaultText (c!"rels", .rels) ++ c!"\n" ++ defaultText (c!"xml", .xml)
      ++ (if totalCharts d.slides > 0 then defaultText (c!"xlsx", .xlsx) else [])
      ++ overrideText (overrideOf .presentation .presentation)
      ++ overrideLines ((upTo d.count).map (fun i => overrideOf (.slide i) .slide) ++
        notesOverrides (notesCount d.slides) ++ handoutOverrides st.handout ++ chartOverrides (totalCharts d.slides) ++
        layoutOverrides ++ contentTypesFooter) ++ c!"\n"
      ++ (if st.signature then defaultText (c!"sigs", .sigOrigin) ++ overrideText (overrideOf .sig .sigXml) else [])
      ++ (if (st.fonts.getD []).isEmpty then [] else defaultText (c!"fntdata", .fontData))
      ++ overrideLines ((upTo (inkCount d.slides)).map fun i => overrideOf (.ink i) .ink)) := by
    refine (((((((((Fine.flatMap fun x hx => fine_default (plain_imageDefaults _ x hx)).append (hsx (by simp [Plain]) _)).append
      .nl).append (hsx (by simp [Plain]) _)).append ?_).append (fine_override (plain_ownPath rfl))).append
      (fine_overrideLines (plain_overrides d st))).append .nl).append ?_).append ?_ |>.append ?_
    · split
      · exact hsx (by simp [Plain]) _
      · exact .nil
    · exact .when ((hsx (by simp [Plain]) _).append (fine_override (plain_ownPath rfl)))
    · split
      · exact .nil
      · exact hsx (by simp [Plain]) _
    · refine fine_overrideLines fun x hx => ?_
      obtain ⟨i, _, rfl⟩ := List.mem_map.mp hx
      exact plain_ownPath rfl
  have := oneRoot_types hs
  have e : c!"<?xml version=\"1.0\" encoding=\"UTF-8\" standalone=\"yes\"?>\n<Types xmlns=\"http://schemas.openxmlformats.org/package/2006/content-types\">" =
      xmlDecl ++ c!"<Types xmlns=\"http://schemas.openxmlformats.org/package/2006/content-types\">" := rfl
  simp only [List.append_assoc] at this
  unfold contentTypesText contentTypesMainText contentTypesOpeningText
  rw [e]
  simp only [List.append_assoc]
  exact this

/-! ### Relationships -/

/-- A relationship that is written well-formed: its id has no markup, and its target has none or is escaped. -/
structure RelFine (r : RelEntry) : Prop where
  id : Plain r.id
  type : Plain r.type
  target : Plain r.target ∨ ∃ u, r.target = escapeXml u

theorem fine_rel {r : RelEntry} (h : RelFine r) : Fine (renderRel r) := by
  obtain ⟨h1, h2, h3⟩ := h
  rcases h3 with h3 | ⟨u, h3⟩
  · have := Fine.of_nodes (readsNodes_rel ⟨h1, h2, h3⟩) ⟨_, rfl⟩
    rwa [fmt_relParts] at this
  · obtain ⟨id, type, target, external⟩ := r
    simp only at h1 h2 h3
    subst h3
    have : ReadsNodes (t!"<Relationship Id=\"{.raw id}\" Type=\"{.raw type}\" Target=\"{.esc u}\""
        ++ whenSet external t!" TargetMode=\"External\"" ++ t!"/>") [relNode ⟨id, type, u, external⟩] :=
      ((Splits.lit (by parts_ok)).append
        (.attrs (readsAttrs_whenSet (b := external) (as := [(c!"TargetMode", c!"External")])
          ((Splits.lit (by parts_ok)).readsAttrs (fun top st n as => by krfl)))) |>.append
        (.lit (by parts_ok))).readsNodes (by krfl)
    have f := Fine.of_nodes this ⟨_, rfl⟩
    have e : fmt (t!"<Relationship Id=\"{.raw id}\" Type=\"{.raw type}\" Target=\"{.esc u}\""
        ++ whenSet external t!" TargetMode=\"External\"" ++ t!"/>") = renderRel ⟨id, type, escapeXml u, external⟩ := by
      cases external <;> simp [renderRel, fmt, Part.render, whenSet]
    rwa [e] at f

theorem oneRoot_renderRelsWith {a b : List RelEntry} (ha : ∀ r ∈ a, RelFine r) (hb : ∀ r ∈ b, RelFine r) :
    OneRoot (renderRelsWith a b) := by
  have := oneRoot_relationships (((Fine.flatMap fun r hr => Fine.nl.append (fine_rel (ha r hr))).append .nl).append
    (Fine.flatMap fun r hr => fine_rel (hb r hr)))
  simpa [renderRelsWith] using this

theorem oneRoot_renderRels {l : List RelEntry} (h : ∀ r ∈ l, RelFine r) : OneRoot (renderRels l) := by
  have := oneRoot_renderRelsWith h (b := []) (by simp)
  simpa [renderRelsWith, renderRels] using this

theorem plain_rid (n : Nat) : Plain (c!"rId" ++ dec n) := plain_append (by simp [Plain]) (plain_dec n)

theorem plain_relType {ty : Str} (h : Plain ty) : Plain (relTypeBase ++ ty) :=
  plain_append (by unfold Plain; decide +kernel) h

theorem relFine_rel {n : Nat} {ty t : Str} (h1 : Plain ty) (h2 : Plain t) : RelFine (rel n ty t) :=
  ⟨plain_rid n, plain_relType h1, .inl h2⟩

theorem relFine_num {n m : Nat} {ty a b : Str} (h1 : Plain ty) (h2 : Plain a) (h3 : Plain b) :
    RelFine (rel n ty (a ++ dec m ++ b)) := relFine_rel h1 (plain_numberedPath h2 h3 m)

/-- What the caller gives that is written without escaping has no markup: ids of links, extensions of images, ids of fonts. -/
structure PlainDeck (d : Deck) (st : BuildSettings) : Prop where
  linkIds : ∀ s ∈ d.slides, ∀ id ∈ linkIds s, Plain id
  exts : ∀ s ∈ d.slides, ∀ i ∈ s.images, Plain i.ext
  fontIds : ∀ f ∈ st.fonts.getD [], Plain f.relationshipId

macro "plain_lit" : tactic => `(tactic| (unfold Plain; decide +kernel))

theorem relFine_presentationRels (n : Nat) (a b : Bool) : ∀ r ∈ presentationRels n a b, RelFine r := by
  intro r hr
  simp only [presentationRels, List.mem_append, List.mem_map, List.mem_cons, List.not_mem_nil, or_false] at hr
  rcases hr with (((rfl | ⟨i, _, rfl⟩) | hr) | hr) | hr
  · exact relFine_rel (by plain_lit) (by plain_lit)
  · exact relFine_num (by plain_lit) (by plain_lit) (by plain_lit)
  · split at hr
    · simp only [List.mem_singleton] at hr; subst hr
      exact relFine_rel (by plain_lit) (by plain_lit)
    · simp at hr
  · split at hr
    · simp only [List.mem_singleton] at hr; subst hr
      exact relFine_rel (by plain_lit) (by plain_lit)
    · simp at hr
  · rcases hr with rfl | rfl | rfl | rfl <;> exact relFine_rel (by plain_lit) (by plain_lit)

theorem fontsOf_plain {d : Deck} {st : BuildSettings} (h : PlainDeck d st) : ∀ f ∈ (prepareFonts st d.count (hasNotes d.slides)).getD [],
    Plain f.relationshipId := by
  intro f hf
  unfold prepareFonts at hf
  cases e : st.fonts with
  | none => rw [e] at hf; simp at hf
  | some l =>
    rw [e] at hf
    exact plain_assignFontIds (fun f hf => h.fontIds f (by rw [e]; exact hf)) _ f hf

theorem relFine_of_mem {d : Deck} {st : BuildSettings} (hok : PlainDeck d st) {p : PartName} {l : List RelEntry}
    (h : ⟨p, .rels l⟩ ∈ buildPackage d st) : ∀ r ∈ l, RelFine r := by
  intro r hr
  have hb := bodyOk d st _ h
  cases p <;> simp only [BodyOk, Body.rels.injEq, reduceCtorEq, and_false, exists_false,
    or_false] at hb
  case slide m =>
    obtain ⟨_, s, _, _, e⟩ := hb
    simp [slideBody] at e
  case rootRels =>
    subst hb
    simp only [rootRels, List.mem_append, List.mem_cons, List.not_mem_nil, or_false] at hr
    rcases hr with (rfl | rfl | rfl) | hr
    · exact relFine_rel (by plain_lit) (by plain_lit)
    · exact ⟨by plain_lit, by plain_lit, .inl (by plain_lit)⟩
    · exact relFine_rel (by plain_lit) (by plain_lit)
    · split at hr
      · simp only [List.mem_singleton] at hr
        subst hr
        exact ⟨by plain_lit, by plain_lit, .inl (by plain_lit)⟩
      · simp at hr
  case presRels =>
    subst hb
    simp only [presentationRelsWithFonts, List.mem_append, List.mem_map] at hr
    rcases hr with hr | ⟨f, hf, rfl⟩
    · exact relFine_presentationRels _ _ _ r hr
    · exact ⟨fontsOf_plain hok f hf, plain_relType (by plain_lit), .inr ⟨_, rfl⟩⟩
  case handoutRels =>
    subst hb
    simp only [handoutMasterRels, List.mem_singleton] at hr
    subst hr
    exact relFine_rel (by plain_lit) (by plain_lit)
  case notesMasterRels =>
    subst hb
    simp only [notesMasterRels, List.mem_singleton] at hr
    subst hr
    exact relFine_rel (by plain_lit) (by plain_lit)
  case masterRels =>
    subst hb
    simp only [masterRels, List.mem_append, List.mem_map, List.mem_singleton] at hr
    rcases hr with ⟨i, _, rfl⟩ | rfl
    · exact relFine_num (by plain_lit) (by plain_lit) (by plain_lit)
    · exact relFine_rel (by plain_lit) (by plain_lit)
  case layoutRels n =>
    subst hb
    simp only [layoutRels, List.mem_singleton] at hr
    subst hr
    exact relFine_rel (by plain_lit) (by plain_lit)
  case notesRels m =>
    obtain ⟨j, s, hj, hs, rfl, rfl⟩ := hb
    simp only [notesRels, List.mem_cons, List.not_mem_nil, or_false] at hr
    rcases hr with rfl | rfl
    · exact relFine_num (by plain_lit) (by plain_lit) (by plain_lit)
    · exact relFine_rel (by plain_lit) (by plain_lit)
  case chartRels m =>
    subst hb
    simp only [chartRels, List.mem_singleton] at hr
    subst hr
    exact relFine_num (by plain_lit) (by plain_lit) (by plain_lit)
  case slideRels m =>
    rcases hb with ⟨j, s, hj, rfl, e⟩ | ⟨n, rfl, rfl⟩
    · have hs := List.mem_of_getElem? hj
      have e := slideRels_body hj h
      subst e
      simp only [ownRels, slideRelsWithImages, List.mem_append, List.mem_map, List.mem_singleton,
        List.append_nil] at hr
      rcases hr with ((((rfl | hr) | hr) | ⟨c, ⟨i, hi, rfl⟩, rfl⟩) | ⟨c, hc, rfl⟩) | hr
      · exact relFine_num (by plain_lit) (by plain_lit) (by plain_lit)
      · split at hr
        · simp only [List.mem_singleton] at hr
          subst hr
          exact relFine_num (by plain_lit) (by plain_lit) (by plain_lit)
        · simp at hr
      · obtain ⟨i, hi⟩ := List.mem_iff_getElem?.mp hr
        rw [imageRelsFrom_get, Option.map_eq_some_iff] at hi
        obtain ⟨x, hx, rfl⟩ := hi
        have hx := List.mem_of_getElem? hx
        simp only [slideImageRelTargets, List.mem_filterMap, Option.bind_eq_some_iff,
          Option.map_eq_some_iff] at hx
        obtain ⟨img, himg, b, hb, n, hn, rfl⟩ := hx
        have he := hok.exts s hs img himg
        have : RelFine (rel (2 + s.notes.isSome.toNat + (0 + i)) c!"image"
            (c!"../media/image" ++ dec n ++ (c!"." ++ img.ext))) :=
          relFine_num (by plain_lit) (by plain_lit) (plain_append (by plain_lit) he)
        simpa [List.append_assoc] using this
      · exact relFine_num (by plain_lit) (by plain_lit) (by plain_lit)
      · exact relFine_num (by plain_lit) (by plain_lit) (by plain_lit)
      · have hid : r.id ∈ linkIds s := by
          rw [← hyperlinkRels_ids]; exact List.mem_map_of_mem hr
        simp only [hyperlinkRels, List.mem_filterMap, Option.map_eq_some_iff] at hr
        obtain ⟨k, ⟨sh, hsh, hk⟩, id, hid', rfl⟩ := hr
        exact ⟨hok.linkIds s hs _ hid, plain_relType (by plain_lit), .inr ⟨_, rfl⟩⟩
    · simp only [List.mem_singleton] at hr
      subst hr
      exact relFine_num (by plain_lit) (by plain_lit) (by plain_lit)

/-- **C158, relationships.** Every relationship part of every deck is well-formed; the addresses of links and the names of fonts
may be any text. -/
theorem C158_relationships (d : Deck) (st : BuildSettings) (h : PlainDeck d st) {p : PartName} {l : List RelEntry}
    (hm : ⟨p, .rels l⟩ ∈ buildPackage d st) : OneRoot (relsPartText d st l p) := by
  have hr := relFine_of_mem h hm
  have h2 : ∀ k, OneRoot (renderRelsWith (l.take k) (l.drop k)) := fun k =>
    oneRoot_renderRelsWith (fun r hr' => hr r (List.mem_of_mem_take hr')) (fun r hr' => hr r (List.mem_of_mem_drop hr'))
  unfold relsPartText
  split
  · exact h2 _
  · exact h2 _
  · exact oneRoot_renderRels hr

/-! ### The presentation part -/

/-- The fonts with their ids. -/
def withIdsFrom (start : Nat) : Nat → List FontIn → List FontIn
  | _, [] => []
  | i, f :: fs =>
    { f with font := if f.font.relationshipId = [] then { f.font with relationshipId := c!"rId" ++ dec (start + i) } else f.font } ::
      withIdsFrom start (i + 1) fs

theorem withIdsFrom_map (start : Nat) : ∀ (i : Nat) (l : List FontIn),
    (withIdsFrom start i l).map (·.font) = assignFontIdsFrom start i (l.map (·.font)) := by
  intro i l
  induction l generalizing i with
  | nil => rfl
  | cons f fs ih => simp only [withIdsFrom, List.map_cons, assignFontIdsFrom, ih]

theorem variantsOf_withIds (start : Nat) (t : Str) : ∀ (i : Nat) (l : List FontIn),
    ((variantsOf (withIdsFrom start i l) t).map fun f => (f.charset, f.pitchFamily, f.panose)) =
      (variantsOf l t).map fun f => (f.charset, f.pitchFamily, f.panose) := by
  intro i l
  induction l generalizing i with
  | nil => rfl
  | cons f fs ih =>
    have hf : (if f.font.relationshipId = [] then { f.font with relationshipId := c!"rId" ++ dec (start + i) } else f.font).typeface =
        f.font.typeface := by split <;> rfl
    unfold variantsOf at ih ⊢
    simp only [withIdsFrom, List.filter_cons, hf]
    split
    · simp only [List.map_cons, ih]
    · exact ih _

theorem descOf_withIds (start i : Nat) (l : List FontIn) : descOf (withIdsFrom start i l) = descOf l := by
  funext t
  have h := congrArg List.head? (variantsOf_withIds start t i l)
  rw [List.head?_map, List.head?_map] at h
  unfold descOf
  cases e1 : (variantsOf (withIdsFrom start i l) t).head? <;> cases e2 : (variantsOf l t).head? <;> rw [e1, e2] at h <;>
    simp only [Option.map_some, Option.map_none, reduceCtorEq, Option.some.injEq, Prod.mk.injEq] at h
  obtain ⟨h1, h2, h3⟩ := h
  simp only [h1, h2, h3]

theorem plain_withIds {start : Nat} : ∀ {i : Nat} {l : List FontIn}, (∀ f ∈ l, f.Plain) → ∀ f ∈ withIdsFrom start i l, f.Plain := by
  intro i l
  induction l generalizing i with
  | nil => intro _ f hf; simp [withIdsFrom] at hf
  | cons g gs ih =>
    intro h f hf
    simp only [withIdsFrom, List.mem_cons] at hf
    rcases hf with rfl | hf
    · refine ⟨?_, (h g (by simp)).2⟩
      simp only
      split
      · exact plain_rid _
      · exact (h g (by simp)).1
    · exact ih (fun f hf => h f (by simp [hf])) f hf

/-- **C158, presentation.** The presentation part of every deck is well-formed, with fonts of any name. -/
theorem C158_presentation (d : Deck) (S : FileSettings) (h : ∀ f ∈ S.fonts.getD [], f.Plain) :
    OneRoot (presentationTextWithFonts (descOf (S.fonts.getD [])) d.count (hasNotes d.slides) S.build.handout
      ((prepareFonts S.build d.count (hasNotes d.slides)).getD [])) := by
  by_cases h0 : S.fonts.getD [] = []
  · have e : (prepareFonts S.build d.count (hasNotes d.slides)).getD [] = [] := by
      unfold prepareFonts FileSettings.build
      cases hf : S.fonts with
      | none => rfl
      | some l => rw [hf] at h0; simp only [Option.getD_some] at h0; subst h0; rfl
    rw [e, presText_noFonts]
    exact ⟨_, _, _, document_presentationText _ _ _⟩
  · obtain ⟨l, hl⟩ : ∃ l, S.fonts = some l := by
      cases hf : S.fonts with
      | none => rw [hf] at h0; simp at h0
      | some l => exact ⟨l, rfl⟩
    have e : (prepareFonts S.build d.count (hasNotes d.slides)).getD [] =
        (withIdsFrom (tableStylesRelId d.count (hasNotes d.slides) S.build.handout + 1) 0 l).map (·.font) := by
      rw [withIdsFrom_map]
      unfold prepareFonts
      simp only [FileSettings.build, hl, Option.map_some, Option.getD_some, assignFontIds]
    rw [hl, Option.getD_some] at h0 h
    rw [e, hl, Option.getD_some, ← descOf_withIds (tableStylesRelId d.count (hasNotes d.slides) S.build.handout + 1) 0 l]
    refine ⟨_, _, _, document_presentationFonts ?_ (plain_withIds h) _ _ _⟩
    cases l with
    | nil => exact absurd rfl h0
    | cons f fs => simp [withIdsFrom]

/-! ### The other parts -/

/-- `OneRoot`, computed. -/
def oneRootB (t : Str) : Bool :=
  match document t with
  | some [.elem _ _ _] => true
  | _ => false

theorem oneRoot_of_check {t : Str} (h : oneRootB t = true) : OneRoot t := by
  unfold oneRootB at h
  unfold OneRoot
  split at h
  · rename_i n as ks e
    exact ⟨n, as, ks, e⟩
  · cases h

theorem oneRoot_layout (n : Nat) : OneRoot (createSlideLayoutXml n) := by
  have key : ∀ m, m < 8 → OneRoot (createSlideLayoutXml m) := by
    intro m hm
    have : m = 0 ∨ m = 1 ∨ m = 2 ∨ m = 3 ∨ m = 4 ∨ m = 5 ∨ m = 6 ∨ m = 7 := by omega
    rcases this with rfl | rfl | rfl | rfl | rfl | rfl | rfl | rfl <;> exact oneRoot_of_check (by krfl)
  by_cases hn : n < 8
  · exact key n hn
  · have e : createSlideLayoutXml n = createSlideLayoutXml 0 := by
      obtain ⟨m, rfl⟩ : ∃ m, n = m + 8 := ⟨n - 8, by omega⟩
      rfl
    rw [e]
    exact key 0 (by omega)

theorem oneRoot_master (p : Option PrintIn) : OneRoot (createSlideMasterXml txStyles p) := by
  cases p with
  | none => exact ⟨_, _, _, document_decl (readsNodes_master_empty readsTagged_txStyles) ⟨_, rfl⟩⟩
  | some p =>
    rcases masterShapes_start p with hemp | hr
    · have hb : masterBody txStyles (some p) = masterBody txStyles none := by
        unfold masterBody
        rw [hemp]; rfl
      rw [createSlideMasterXml, hb]
      exact ⟨_, _, _, document_decl (readsNodes_master_empty readsTagged_txStyles) ⟨_, rfl⟩⟩
    · exact ⟨_, _, _, document_decl (readsNodes_master readsTagged_txStyles ((readsNodes_masterShapes _).tagged hr)) ⟨_, rfl⟩⟩

theorem oneRoot_handout (p : PrintIn) : OneRoot (toHandoutMasterXml p) := by
  have e : document (toHandoutMasterXml p) = parse (fmt (handoutBody p)) := by krfl
  exact ⟨_, _, _, e.trans (parse_of_nodes (readsNodes_handout p))⟩

theorem oneRoot_officeTheme : OneRoot officeTheme := oneRoot_of_check (by krfl)

theorem oneRoot_theme {t : Option Theme} (h : ∀ x, t = some x → PlainColors x.colors) : OneRoot (createThemeXml t) := by
  cases t with
  | none => exact oneRoot_officeTheme
  | some t =>
    by_cases hd : t.name = c!"Office Theme" ∧ t.colors = .office
    · have e : createThemeXml (some t) = officeTheme := by
        show t.toXml = _
        unfold Theme.toXml
        rw [if_pos hd]
      rw [e]
      exact oneRoot_officeTheme
    · have hc := (h t rfl).plain
      have e : createThemeXml (some t) = themeText t := by
        show t.toXml = _
        exact toXml_eq hd hc
      rw [e]
      exact ⟨_, _, _, document_theme hc⟩

theorem oneRoot_notes (n : Nat) (notes : Str) : OneRoot (createNotesXml n notes) :=
  ⟨_, _, _, document_decl (readsNodes_notes _ _ _ (plain_fieldGuid n)) ⟨_, rfl⟩⟩

theorem oneRoot_core (secs : Nat) {title : Str} (h : (readText title).isSome = true) (hl : '<' ∉ title) :
    OneRoot (createCorePropsXml secs title) := by
  obtain ⟨t, ht⟩ := Option.isSome_iff_exists.mp h
  have e := core_read (stampOf secs).text title (plain_stamp _) hl
  rw [ht] at e
  exact ⟨_, _, _, e⟩

theorem oneRoot_app (n m : Nat) (titles : List Str) : OneRoot (createAppPropsXml n m titles) :=
  ⟨_, _, _, document_decl (readsNodes_app n m titles) ⟨_, rfl⟩⟩

set_option maxRecDepth 8000 in
theorem oneRoot_plainSlide (n : Nat) : OneRoot (Quick.plainSlideXml n c!"Presentation") := by
  have hp : Plain (Quick.plainTitle n c!"Presentation") := by
    unfold Quick.plainTitle
    split
    · plain_lit
    · obtain ⟨a, b, c⟩ := plain_dec n
      refine ⟨?_, ?_, ?_⟩ <;> simp [*]
  have key : ∀ t : Str, Plain t → OneRoot (xmlDecl ++ fmt (Quick.plainSlideBody t)) := by
    intro t ht
    exact ⟨_, _, _, document_decl (ks := [plainSlideTree t])
      ((Splits.lit (by unfold Quick.plainSlideBody; parts_ok)).readsNodes (by krfl)) ⟨_, rfl⟩⟩
  exact key _ hp

theorem getElem?_notesPages : ∀ (slides : List SlideIn) (i j : Nat) (s : SlideIn) (text : Str), slides[j]? = some s →
    s.notes = some text → (notesPagesFrom i slides)[numNotes (slides.take j)]? = some (i + j + 1, text) := by
  intro slides
  induction slides with
  | nil => intro i j s text h; simp at h
  | cons x l ih =>
    intro i j s text h ht
    cases j with
    | zero =>
      simp only [List.getElem?_cons_zero, Option.some.injEq] at h
      subst h
      simp [notesPagesFrom, ht, numNotes]
    | succ j =>
      rw [List.getElem?_cons_succ] at h
      have := ih (i + 1) j s text h ht
      cases hx : x.notes with
      | none =>
        have e : numNotes ((x :: l).take (j + 1)) = numNotes (l.take j) := by simp [numNotes, hx]
        rw [e, notesPagesFrom, hx]
        simp only [Option.toList_none, List.map_nil, List.nil_append, this]
        congr 2; omega
      | some y =>
        have e : numNotes ((x :: l).take (j + 1)) = numNotes (l.take j) + 1 := by simp [numNotes, hx]
        rw [e, notesPagesFrom, hx]
        simp only [Option.toList_some, List.map_cons, List.map_nil, List.cons_append, List.nil_append, List.getElem?_cons_succ, this]
        congr 2; omega

/-! ### The whole file -/

/-- Parts that are no texts: images, fonts and workbooks. -/
def isBinary : PartName → Bool
  | .media _ _ => true
  | .font _ => true
  | .embedding _ => true
  | _ => false

/-- What is written without escaping has no markup. -/
structure PlainFile (d : Deck) (S : FileSettings) (title : Str) : Prop where
  deck : PlainDeck d S.build
  fonts : ∀ f ∈ S.fonts.getD [], f.Plain
  date : ∀ s, S.signature = some s → Plain s.when
  theme : ∀ t, S.theme = some t → PlainColors t.colors
  pen : ∀ s, S.slideShow = some s → Plain s.penColor
  title : (readText title).isSome = true ∧ '<' ∉ title

/-- The slides, charts and ink of the deck have well-formed texts. -/
def OwnWellFormed (d : Deck) (st : BuildSettings) (own : PartTexts) : Prop :=
  ∀ e ∈ buildPackage d st, (∃ n, e.name = .slide n ∧ d.slides ≠ [] ∨ e.name = .chart n ∨ e.name = .ink n) →
    ∃ t, own e.name = some t ∧ OneRoot t

/-- **C158.** Every part of a written file that is no picture, font or workbook is a well-formed XML document with one root
element: for every deck, all settings and all texts. (Partial: ids of links and fonts, extensions of images, the numbers of a
font's shape, the date of a signature, colours and the title of the presentation have no markup; slides, charts and ink
are well-formed.) -/
theorem C158_wellformed_partial (d : Deck) (S : FileSettings) (secs : Nat) (title : Str) (own : PartTexts)
    (h : PlainFile d S title) (ho : OwnWellFormed d S.build own) :
    ∀ e ∈ buildPackage d S.build, isBinary e.name = true ∨
      ∃ t, entryText d S.build (descOf (S.fonts.getD [])) (fileTexts d S secs title own) e = some t ∧ OneRoot t := by
  intro e he
  have hb := bodyOk d S.build e he
  have hn : e.name ∈ names (buildPackage d S.build) := List.mem_map.mpr ⟨e, he, rfl⟩
  obtain ⟨p, b⟩ := e
  simp only at hb hn ⊢
  cases p <;> simp only [isBinary, Bool.false_eq_true, false_or, true_or] <;> simp only [BodyOk] at hb
  case contentTypes => subst hb; exact ⟨_, rfl, C158_content_types d S.build⟩
  case rootRels => subst hb; exact ⟨_, rfl, C158_relationships d S.build h.deck he⟩
  case presRels => subst hb; exact ⟨_, rfl, C158_relationships d S.build h.deck he⟩
  case presentation => subst hb; exact ⟨_, rfl, C158_presentation d S h.fonts⟩
  case presProps => subst hb; exact ⟨_, rfl, _, _, _, document_presProps h.pen⟩
  case viewProps => subst hb; exact ⟨_, rfl, oneRoot_of_check (by krfl)⟩
  case tableStyles => subst hb; exact ⟨_, rfl, oneRoot_of_check (by krfl)⟩
  case handoutMaster => subst hb; exact ⟨_, rfl, oneRoot_handout _⟩
  case handoutRels => subst hb; exact ⟨_, rfl, C158_relationships d S.build h.deck he⟩
  case notesMaster => subst hb; exact ⟨_, rfl, oneRoot_of_check (by krfl)⟩
  case notesMasterRels => subst hb; exact ⟨_, rfl, C158_relationships d S.build h.deck he⟩
  case master => subst hb; exact ⟨_, rfl, oneRoot_master _⟩
  case masterRels => subst hb; exact ⟨_, rfl, C158_relationships d S.build h.deck he⟩
  case layout n => subst hb; exact ⟨_, rfl, oneRoot_layout n⟩
  case layoutRels n => subst hb; exact ⟨_, rfl, C158_relationships d S.build h.deck he⟩
  case theme n =>
    subst hb
    refine ⟨_, rfl, ?_⟩
    split
    · exact oneRoot_theme h.theme
    · exact oneRoot_officeTheme
  case core => subst hb; exact ⟨_, rfl, oneRoot_core secs h.title.1 h.title.2⟩
  case app => subst hb; exact ⟨_, rfl, oneRoot_app _ _ _⟩
  case sigOrigin => subst hb; exact ⟨_, rfl, oneRoot_of_check (by krfl)⟩
  case chart n =>
    subst hb
    exact ho _ he ⟨n, .inr (.inl rfl)⟩
  case chartRels n => subst hb; exact ⟨_, rfl, C158_relationships d S.build h.deck he⟩
  case ink n =>
    subst hb
    exact ho _ he ⟨n, .inr (.inr rfl)⟩
  case sig =>
    subst hb
    have hs : S.build.signature = true := by
      by_contra hc
      have hm := (mem_names rfl).mp hn
      simp [expectedParts, mediaParts, hc] at hm
      all_goals split at hm <;> simp at hm
    obtain ⟨s, hs⟩ := Option.isSome_iff_exists.mp hs
    refine ⟨signatureText s, ?_, _, _, _, document_signature (h.date s hs)⟩
    show S.signature.map signatureText = _
    rw [hs]; rfl
  case templatePart t => exact (expectedParts_own d S.build _ ((mem_names rfl).mp hn)).elim
  case slideRels n => 
    obtain ⟨l, rfl⟩ := rels_body he rfl
    exact ⟨_, rfl, C158_relationships d S.build h.deck he⟩
  case notesRels n => 
    obtain ⟨l, rfl⟩ := rels_body he rfl
    exact ⟨_, rfl, C158_relationships d S.build h.deck he⟩
  case notes n =>
    obtain ⟨j, s, text, hj, ht, rfl, rfl⟩ := hb
    have e := getElem?_notesPages d.slides 0 j s text hj ht
    refine ⟨createNotesXml (0 + j + 1) text, ?_, oneRoot_notes _ _⟩
    show ((notesPagesFrom 0 d.slides)[numNotes (d.slides.take j) + 1 - 1]?).map _ = _
    rw [Nat.add_sub_cancel, e]
    rfl
  case slide n =>
    rcases hb with ⟨j, s, hj, rfl, rfl⟩ | ⟨k, rfl, rfl⟩
    · have hne : d.slides ≠ [] := by
        intro hc
        rw [hc] at hj
        simp at hj
      obtain ⟨t, h1, h2⟩ := ho _ he ⟨_, .inl ⟨rfl, hne⟩⟩
      refine ⟨t, ?_, h2⟩
      cases d with
      | plain k => exact absurd rfl hne
      | custom l => exact h1
    · exact ⟨_, rfl, oneRoot_plainSlide n⟩

/-! ### Where the texts of slides, charts and ink come from -/

/-- The texts are those that the library writes: slides with drawings, charts and ink, where what is written without escaping
has no markup. -/
structure OwnGenerated (d : Deck) (own : PartTexts) : Prop where
  slide : ∀ n, 1 ≤ n → n ≤ d.count → ∃ (s : SlideText) (X : List Node), own (.slide n) = some s.xml ∧ s.Safe ∧ ReadsAs (fmt s.extra) X
  chart : ∀ n, 1 ≤ n → n ≤ numCharts d.slides → ∃ c : Chart, own (.chart n) = some (generateChartPartXml c) ∧ c.NumbersOk
  ink : ∀ n, 1 ≤ n → n ≤ numInk d.slides → ∃ (s : Stroke) (l : List Stroke), own (.ink n) = some (inkPartXml (s :: l)) ∧
    ∀ x ∈ s :: l, Plain x.color

/-- **C158.** Slides, charts and ink are well-formed: the condition of the theorem above holds for what the library writes. -/
theorem C158_own_partial (d : Deck) (S : FileSettings) (own : PartTexts) (h : OwnGenerated d own) : OwnWellFormed d S.build own := by
  intro e he hc
  have hm : e.name ∈ expectedParts d S.build := (mem_names rfl).mp (List.mem_map.mpr ⟨e, he, rfl⟩)
  obtain ⟨n, ⟨hn, -⟩ | hn | hn⟩ := hc
  · rw [hn] at hm ⊢
    have : 1 ≤ n ∧ n ≤ d.count := by
      simp [expectedParts, mediaParts] at hm
      omega
    obtain ⟨s, X, e1, e2, e3⟩ := h.slide n this.1 this.2
    exact ⟨_, e1, _, _, _, document_slide e2 e3⟩
  · rw [hn] at hm ⊢
    have : 1 ≤ n ∧ n ≤ numCharts d.slides := by
      simp [expectedParts, mediaParts] at hm
      omega
    obtain ⟨c, e1, e2⟩ := h.chart n this.1 this.2
    exact ⟨_, e1, _, _, _, document_chart e2⟩
  · rw [hn] at hm ⊢
    have : 1 ≤ n ∧ n ≤ numInk d.slides := by
      simp [expectedParts, mediaParts] at hm
      omega
    obtain ⟨s, l, e1, e2⟩ := h.ink n this.1 this.2
    exact ⟨_, e1, _, _, _, document_ink e2⟩

/-- **C158.** Every part of what `create_pptx` writes is a well-formed document, for every number of slides. (Partial: the title
of the presentation, which is written without escaping.) -/
theorem C158_simple_partial (n secs : Nat) (title : Str) (h : (readText title).isSome = true ∧ '<' ∉ title) :
    ∀ e ∈ buildPackage (.plain n) .none, ∃ t,
      entryText (.plain n) .none (descOf []) (fileTexts (.plain n) {} secs title fun _ => none) e = some t ∧ OneRoot t := by
  intro e he
  have hm : e.name ∈ expectedParts (.plain n) .none := (mem_names rfl).mp (List.mem_map.mpr ⟨e, he, rfl⟩)
  have hp : PlainFile (.plain n) {} title :=
    ⟨⟨by simp [Deck.slides], by simp [Deck.slides], by simp [FileSettings.build]⟩, by simp, by simp, by simp, by simp, h⟩
  have hb : isBinary e.name = false := by
    cases hn : e.name <;> rw [hn] at hm <;> try rfl
    all_goals (simp [expectedParts, mediaParts, Deck.slides, numCharts, distinctImages, allImages, BuildSettings.none] at hm)
  have ho : OwnWellFormed (.plain n) .none fun _ => none := by
    intro e he ⟨k, hk⟩
    have hm : e.name ∈ expectedParts (.plain n) .none := (mem_names rfl).mp (List.mem_map.mpr ⟨e, he, rfl⟩)
    rcases hk with ⟨_, hk⟩ | hk | hk
    · exact absurd rfl hk
    · rw [hk] at hm
      simp [expectedParts, mediaParts, Deck.slides, numCharts, distinctImages, allImages] at hm
    · rw [hk] at hm
      simp [expectedParts, mediaParts, Deck.slides, numInk, distinctImages, allImages] at hm
  rcases C158_wellformed_partial (.plain n) {} secs title (fun _ => none) hp ho e he with h1 | h1
  · rw [hb] at h1; cases h1
  · exact h1

/-- **C158 does not hold in full.** The title of the presentation is written into the properties of the document without
escaping: no file with the title "Q & A" has well-formed properties, whatever its slides and settings. -/
theorem C158_title_violated (d : Deck) (S : FileSettings) (secs : Nat) (own : PartTexts) :
    ∃ e ∈ buildPackage d S.build, ∃ t, e.name.path = c!"docProps/core.xml" ∧
      entryText d S.build (descOf (S.fonts.getD [])) (fileTexts d S secs c!"Q & A" own) e = some t ∧ document t = none := by
  obtain ⟨b, hb⟩ := part_in (d := d) (st := S.build) (p := .core) rfl (by simp [expectedParts])
  have e := bodyOk d S.build _ hb
  simp only [BodyOk] at e
  subst e
  refine ⟨_, hb, _, rfl, rfl, ?_⟩
  exact core_read (stampOf secs).text c!"Q & A" (plain_stamp _) (by decide)

/-- **C158 does not hold in full.** The extension of an image is written into the relationships of its slide without escaping:
with the extension `a&b` they are not well-formed. -/
theorem C158_extension_violated (texts : PartTexts) : ∃ e ∈ buildPackage (.custom [imageSlide c!"a&b"]) .none,
    e.name = .slideRels 1 ∧ ∃ t, entryText (.custom [imageSlide c!"a&b"]) .none (descOf []) texts e = some t ∧ document t = none := by
  have h : (buildPackage (.custom [imageSlide c!"a&b"]) .none).find? (fun e => e.name = .slideRels 1) = some ⟨.slideRels 1, .rels
      [⟨c!"rId1", c!"http://schemas.openxmlformats.org/officeDocument/2006/relationships/slideLayout",
        c!"../slideLayouts/slideLayout6.xml", false⟩,
      ⟨c!"rId2", c!"http://schemas.openxmlformats.org/officeDocument/2006/relationships/image", c!"../media/image1.a&b", false⟩]⟩ := by
    krfl
  exact ⟨_, List.mem_of_find?_eq_some h, rfl, _, rfl, by krfl⟩

/-- Not vacuous: a deck with an image, a chart, ink and notes, an embedded font, a signature, a handout and a theme of its
own. -/
example : ∃ (d : Deck) (S : FileSettings) (own : PartTexts), d.count = 1 ∧ S.build.signature = true ∧ S.build.handout = true ∧
    numCharts d.slides = 1 ∧ numInk d.slides = 1 ∧ PlainFile d S c!"Title" ∧ OwnGenerated d own := by
  refine ⟨.custom [⟨c!"T", .titleOnly, 0, false, [], [⟨some [1], c!"png"⟩], some c!"a & b", 0, 0, 1, true⟩],
    { fonts := some [{ font := { typeface := c!"A & B", style := .bold, relationshipId := [] } }],
      signature := some { name := c!"<N>" }, print := some { what := .handouts }, theme := some { name := c!"Mine" } },
    fun p => match p with
      | .slide _ => some (SlideText.xml { title := c!"a < b", layout := .titleOnly })
      | .chart _ => some (generateChartPartXml ⟨c!"Q & A", .bar, [], []⟩)
      | _ => some (inkPartXml [⟨[(1, 2)], c!"FF0000", 3, false, none⟩]), rfl, rfl, rfl, rfl, rfl, ?_, ?_⟩
  · refine ⟨⟨?_, ?_, ?_⟩, ?_, ?_, ?_, ?_, by decide⟩
    · simp [Deck.slides, linkIds]
    · simp [Deck.slides, Plain]
    · simp [FileSettings.build, Plain]
    · simp [FontIn.Plain, PptRs.Plain]
    · simp [Signature.when, PptRs.Plain]
    · intro t ht
      cases ht
      unfold PlainColors Plain
      decide +kernel
    · simp
  · refine ⟨fun n _ _ => ⟨_, [], rfl, ?_, readsNodes_nil.readsAs⟩, fun n _ _ => ⟨_, rfl, ?_⟩, fun n _ _ => ⟨_, _, rfl, ?_⟩⟩
    · exact ⟨by simp, by simp, by simp [BulletStyle.Safe], by simp, by simp⟩
    · intro s hs; simp at hs
    · simp [Plain]

end PptRs.Props
