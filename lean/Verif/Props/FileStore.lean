import Verif.Model.FileStore
import Verif.Props.WholeEdit
import Verif.Props.WholeCompress
import Verif.Props.Handlers

/-!
# C151: commands on files
-/

namespace PptRs.Spec

open PptRs PptRs.Import PptRs.Whole PptRs.FileStore PptRs.Handlers PptRs.Props

/-- Presentations by their paths: what a user believes to have. -/
abbrev Decks := Str → Option Loaded

/-- What a call should do to the slides one sees. -/
def editSeen (l : List LoadedSlide) : Editor.Op → List LoadedSlide
  | .add c => l ++ [expectedSlide c]
  | .insert i c => if i ≤ l.length then l.take i ++ [expectedSlide c] ++ l.drop i else l
  | .update i c => if i < l.length then l.set i (expectedSlide c) else l
  | .remove i => if i < l.length then l.take i ++ l.drop (i + 1) else l
  | .duplicate i =>
    match l[i]? with
    | some s => l.take (i + 1) ++ [s] ++ l.drop (i + 1)
    | none => l
  | .reorder a b =>
    match l[a]? with
    | some s => if b < l.length then (l.take a ++ l.drop (a + 1)).take b ++ [s] ++ (l.take a ++ l.drop (a + 1)).drop b else l
    | none => l

/-- A presentation without slides is not saved, nor one to a path that cannot be written. -/
def keep (can : Str → Bool) (ds : Decks) (path : Str) (d : Loaded) : Decks :=
  if d.slides.length = 0 ∨ can path = false then ds else fun p => if p = path then some d else ds p

/-- The presentations one after the other, under the title of the first. -/
def joined (ds : Decks) (inputs : List Str) : Option Loaded :=
  (inputs.mapM ds).bind fun l => l.head?.map fun d => { title := d.title, slides := l.flatMap (·.slides) }

/-- What a command should do. -/
def perform (can : Str → Bool) (ds : Decks) : Command → Decks
  | .create title path slides =>
    keep can ds path ⟨visible title, slides.map fun s =>
      { text := plainSlide (visible s.title) (s.bullets.filter fun t => ¬ BlankText t) none }⟩
  | .write title path pages => keep can ds path ⟨visible title, pages.map fun p => expectedSlide p.text⟩
  | .merge inputs path => if inputs.length < 2 then ds else (joined ds inputs).elim ds (keep can ds path)
  | .join first more path => (joined ds (first :: more)).elim ds (keep can ds path)
  | .edit path ops => if can path then fun p => if p = path then (ds path).map fun d => { d with slides := ops.foldl editSeen d.slides } else ds p else ds
  | .compress _ input output => if can output ∧ (ds input).isSome then fun p => if p = output then ds input else ds p else ds

/-- What a sequence of commands should do. -/
def performAll (can : Str → Bool) (ds : Decks) (cs : List Command) : Decks := cs.foldl (perform can) ds

/-- Titles without markup, slides that are read back, compression that keeps the properties and the XML. -/
def GoodCommand : Command → Prop
  | .create title _ _ => '&' ∉ title ∧ '<' ∉ title
  | .write title _ pages => '&' ∉ title ∧ '<' ∉ title ∧ Readable pages
  | .merge _ _ | .join _ _ _ => True
  | .edit _ ops => ∀ op ∈ ops, ∀ c, op = .add c ∨ (∃ i, op = .insert i c) ∨ (∃ i, op = .update i c) →
      c.Safe ∧ SmallNumbers c ∧ c.extra = []
  | .compress o _ _ => o.removeProperties = false ∧ o.optimizeXml = false

/-- No presentation has more slides than there are numbers for. -/
def SmallDecks (ds : Decks) : Prop := ∀ path d, ds path = some d → d.slides.length + 1 < 4294967296

/-- The same at every moment. -/
def SmallRun (can : Str → Bool) (ds : Decks) : List Command → Prop
  | [] => SmallDecks ds
  | c :: cs => SmallDecks ds ∧ SmallRun can (perform can ds c) cs

end PptRs.Spec

namespace PptRs.Props

open PptRs PptRs.Spec PptRs.Import PptRs.Whole PptRs.FileStore PptRs.Handlers PptRs.Editor

/-- The archive holds the presentation. -/
def HoldsDeck (a : List (Str × Bytes)) (d : Loaded) : Prop :=
  ∃ t secs title, '&' ∉ title ∧ '<' ∉ title ∧ FileOf a t (encode (createCorePropsXml secs title)) ∧
    (∀ s ∈ t, s.Safe ∧ SmallNumbers s ∧ s.extra = []) ∧ d = { title := visible title, slides := t.map expectedSlide }

/-- The files hold the presentations. -/
def HoldAll (fs : Files) (ds : Decks) : Prop :=
  ∀ path, (fs path = none ∧ ds path = none) ∨ ∃ a d, fs path = some a ∧ ds path = some d ∧ HoldsDeck a d

theorem HoldsDeck.opened {a : List (Str × Bytes)} {d : Loaded} (h : HoldsDeck a d) (hn : d.slides.length + 1 < 4294967296) :
    Whole.opened a = some d := by
  obtain ⟨t, secs, title, h1, h2, hf, hs, rfl⟩ := h
  rw [hf.opened (by simpa using hn) hs, coreInfo_written h2 hf.core, openedTitle_plain h1 h2]

theorem visible_clean {c : Char} {t : Str} (h : c ∉ t) : c ∉ visible t := by
  unfold visible
  split
  · simp
  · exact h

theorem HoldsDeck.clean {a : List (Str × Bytes)} {d : Loaded} (h : HoldsDeck a d) :
    '&' ∉ d.title ∧ '<' ∉ d.title ∧ visible d.title = d.title ∧ ∀ s ∈ d.slides, s.shapes = [] ∧ expectedSlide s.text = s := by
  obtain ⟨t, secs, title, h1, h2, hf, hs, rfl⟩ := h
  refine ⟨visible_clean h1, visible_clean h2, visible_visible title, ?_⟩
  intro s hm
  obtain ⟨x, _, rfl⟩ := List.mem_map.mp hm
  exact ⟨rfl, C111_stable_partial x⟩

theorem holds_put {fs : Files} {ds : Decks} (h : HoldAll fs ds) {path : Str} {a : List (Str × Bytes)} {d : Loaded} (hd : HoldsDeck a d) :
    HoldAll (put fs path a) (fun p => if p = path then some d else ds p) := by
  intro p
  unfold put
  by_cases e : p = path
  · simp only [if_pos e]
    exact Or.inr ⟨a, d, rfl, rfl, hd⟩
  · simp only [if_neg e]
    exact h p

/-- A saved presentation. -/
theorem holds_saved {d : Pres} {a : List (Str × Bytes)} (h : SavedAs d a) (h1 : '&' ∉ d.title) (h2 : '<' ∉ d.title)
    (hp : ∀ s ∈ d.slides, s.shapes = [] ∧ s.charts = []) (hs : ∀ s ∈ d.slides, s.text.Safe ∧ SmallNumbers s.text ∧ s.text.extra = []) :
    HoldsDeck a { title := visible d.title, slides := d.slides.map fun s => expectedSlide s.text } := by
  obtain ⟨secs, st, desc, other, ht, hf, rfl⟩ := h hp
  refine ⟨d.slides.map (·.text), secs, d.title, h1, h2, ?_, ?_, ?_⟩
  · have := FileOf.written secs d.title (d.slides.map fun s => ({ text := s.text } : PageIn)) desc other ht hf
    rwa [List.map_map] at this
  · intro s hm
    obtain ⟨x, hx, rfl⟩ := List.mem_map.mp hm
    exact hs x hx
  · rw [List.map_map]
    rfl

/-- What `saveAs` does to the files. -/
theorem holds_saveAs {can : Str → Bool} {fs fs' : Files} {ds : Decks} (h : HoldAll fs ds) {d : Pres} {path ok bad : Str}
    (hw : Wrote fs (saveAs (world can fs) d path ok bad).written fs') (h1 : '&' ∉ d.title) (h2 : '<' ∉ d.title)
    (hp : ∀ s ∈ d.slides, s.shapes = [] ∧ s.charts = []) (hs : ∀ s ∈ d.slides, s.text.Safe ∧ SmallNumbers s.text ∧ s.text.extra = []) :
    HoldAll fs' (keep can ds path { title := visible d.title, slides := d.slides.map fun s => expectedSlide s.text }) := by
  unfold saveAs at hw
  unfold keep
  split at hw
  · rename_i e
    cases hw
    rw [if_pos (Or.inl (by rw [e]; rfl))]
    exact h
  · rename_i e
    split at hw
    · rename_i hc
      have hc' : can path = true := hc
      cases hw with
      | file saved later =>
        cases later
        rw [if_neg]
        · exact holds_put h (holds_saved saved h1 h2 hp hs)
        · rintro (e' | e')
          · exact e (by simpa using e')
          · rw [hc'] at e'; cases e'
    · rename_i hc
      cases hw
      rw [if_pos (Or.inr (by simpa [world] using hc))]
      exact h

theorem load_holds {can : Str → Bool} {fs : Files} {ds : Decks} (h : HoldAll fs ds) (hn : SmallDecks ds) (path : Str) :
    (world can fs).load path = (ds path).map ofLoaded := by
  show (fs path).bind _ = _
  rcases h path with ⟨e1, e2⟩ | ⟨a, d, e1, e2, hd⟩
  · rw [e1, e2]; rfl
  · rw [e1, e2, Option.bind_some, hd.opened (hn path d e2)]

theorem loadMore_holds {can : Str → Bool} {fs : Files} {ds : Decks} (h : HoldAll fs ds) (hn : SmallDecks ds) (paths : List Str) :
    ∀ d : Pres, loadMore (world can fs) d paths =
      match paths.mapM ds with
      | some l => .ok { d with slides := d.slides ++ l.flatMap fun x => (ofLoaded x).slides }
      | none => loadMore (world can fs) d paths := by
  induction paths with
  | nil => intro d; simp [loadMore]
  | cons p ps ih =>
    intro d
    rw [List.mapM_cons]
    cases e : ds p with
    | none => rfl
    | some x =>
      have hl : loadMore (world can fs) d (p :: ps) = loadMore (world can fs) (d.append (ofLoaded x)) ps := by
        rw [loadMore, load_holds h hn, e]
        rfl
      rw [hl, ih]
      cases e2 : ps.mapM ds with
      | none => simp
      | some l => simp [Pres.append]

theorem loadMore_missing {can : Str → Bool} {fs : Files} {ds : Decks} (h : HoldAll fs ds) (hn : SmallDecks ds) {paths : List Str}
    (hm : paths.mapM ds = none) : ∀ d : Pres, ∃ q, loadMore (world can fs) d paths = .error q := by
  induction paths with
  | nil => simp at hm
  | cons p ps ih =>
    intro d
    rw [loadMore, load_holds h hn]
    rw [List.mapM_cons] at hm
    cases e : ds p with
    | none => exact ⟨p, rfl⟩
    | some x =>
      rw [e] at hm
      have : ps.mapM ds = none := by
        cases e2 : ps.mapM ds with
        | none => rfl
        | some l => rw [e2] at hm; simp at hm
      exact ih this _

theorem mapM_mem {ds : Decks} {paths : List Str} {l : List Loaded} (h : paths.mapM ds = some l) : ∀ d ∈ l, ∃ p ∈ paths, ds p = some d := by
  induction paths generalizing l with
  | nil => simp at h; subst h; simp
  | cons p ps ih =>
    rw [List.mapM_cons] at h
    cases e : ds p with
    | none => rw [e] at h; simp at h
    | some x =>
      cases e2 : ps.mapM ds with
      | none => rw [e, e2] at h; simp at h
      | some k =>
        rw [e, e2] at h
        simp at h
        subst h
        intro d hd
        rcases List.mem_cons.mp hd with rfl | hd
        · exact ⟨p, by simp, e⟩
        · obtain ⟨q, hq, e'⟩ := ih e2 d hd
          exact ⟨q, by simp [hq], e'⟩

/-- Joining files. -/
theorem holds_join {can : Str → Bool} {fs fs' : Files} {ds : Decks} (h : HoldAll fs ds) (hn : SmallDecks ds) {first : Str}
    {more : List Str} {path : Str} (hw : Wrote fs (mergeCommand (world can fs) first more path).written fs') :
    HoldAll fs' ((joined ds (first :: more)).elim ds (keep can ds path)) := by
  unfold mergeCommand at hw
  rw [load_holds h hn] at hw
  unfold joined
  rw [List.mapM_cons]
  cases e : ds first with
  | none =>
    rw [e] at hw
    cases hw
    exact h
  | some d =>
    rw [e] at hw
    simp only [Option.map_some] at hw
    cases e2 : more.mapM ds with
    | none =>
      obtain ⟨q, hq⟩ := loadMore_missing (can := can) h hn e2 (ofLoaded d)
      rw [hq] at hw
      cases hw
      exact h
    | some l =>
      have hl := loadMore_holds (can := can) h hn more (ofLoaded d)
      rw [e2] at hl
      simp only at hl
      rw [hl] at hw
      have holds : ∀ x ∈ d :: l, ∃ a, HoldsDeck a x := by
        intro x hx
        have : ∃ p, ds p = some x := by
          rcases List.mem_cons.mp hx with rfl | hx
          · exact ⟨first, e⟩
          · obtain ⟨p, _, hp⟩ := mapM_mem e2 x hx
            exact ⟨p, hp⟩
        obtain ⟨p, hp⟩ := this
        rcases h p with ⟨_, e'⟩ | ⟨a, y, _, e', hd⟩
        · rw [hp] at e'; cases e'
        · rw [hp] at e'; cases e'; exact ⟨a, hd⟩
      have slide : ∀ s ∈ (ofLoaded d).slides ++ l.flatMap (fun x => (ofLoaded x).slides),
          ∃ y ∈ (d :: l).flatMap (·.slides), s = { text := y.text, shapes := y.shapes } := by
        intro s hs
        have hs' : s ∈ ((d :: l).flatMap fun x => (ofLoaded x).slides) := hs
        obtain ⟨x, hx, hs'⟩ := List.mem_flatMap.mp hs'
        obtain ⟨y, hy, rfl⟩ := List.mem_map.mp hs'
        exact ⟨y, List.mem_flatMap.mpr ⟨x, hx, hy⟩, rfl⟩
      have clean : ∀ y ∈ (d :: l).flatMap (·.slides), y.shapes = [] ∧ expectedSlide y.text = y := by
        intro y hy
        obtain ⟨x, hx, hy⟩ := List.mem_flatMap.mp hy
        obtain ⟨a, ha⟩ := holds x hx
        exact ha.clean.2.2.2 y hy
      obtain ⟨a0, ha0⟩ := holds d (by simp)
      have := holds_saveAs h hw ha0.clean.1 ha0.clean.2.1 ?_ ?_
      · have e3 : ((ofLoaded d).slides ++ l.flatMap fun x => (ofLoaded x).slides).map (fun s => expectedSlide s.text) =
            (d :: l).flatMap (·.slides) := by
          have hq : ∀ k : List Loaded, (∀ y ∈ k.flatMap (·.slides), expectedSlide y.text = y) →
              (k.flatMap fun x => (ofLoaded x).slides).map (fun s => expectedSlide s.text) = k.flatMap (·.slides) := by
            intro k hk
            induction k with
            | nil => rfl
            | cons x k ih =>
              rw [List.flatMap_cons, List.flatMap_cons, List.map_append, ih fun y hy => hk y (by
                rw [List.flatMap_cons]; exact List.mem_append_right _ hy)]
              congr 1
              unfold ofLoaded
              simp only [List.map_map]
              conv_rhs => rw [← List.map_id x.slides]
              exact List.map_congr_left fun y hy => hk y (by rw [List.flatMap_cons]; exact List.mem_append_left _ hy)
          exact hq (d :: l) fun y hy => (clean y hy).2
        rw [e3, show visible (ofLoaded d).title = d.title from ha0.clean.2.2.1] at this
        simpa using this
      · intro s hs
        obtain ⟨y, hy, rfl⟩ := slide s hs
        exact ⟨(clean y hy).1, rfl⟩
      · intro s hs
        obtain ⟨y, hy, rfl⟩ := slide s hs
        have := expectedSlide_readable y.text
        rw [(clean y hy).2] at this
        exact this

theorem editSeen_map (t : List SlideText) (op : Op) :
    ((editContents t op).1).map expectedSlide = editSeen (t.map expectedSlide) op := by
  cases op with
  | add c => simp [editContents, editSeen]
  | insert i c => simp only [editContents, editSeen, List.length_map]; split <;> simp
  | update i c => simp only [editContents, editSeen, List.length_map]; split <;> simp
  | remove i => simp only [editContents, editSeen, List.length_map]; split <;> simp
  | duplicate i =>
    simp only [editContents, editSeen, List.getElem?_map]
    cases t[i]? <;> simp
  | reorder a b =>
    simp only [editContents, editSeen, List.getElem?_map, List.length_map]
    cases t[a]? with
    | none => rfl
    | some s =>
      simp only [Option.map_some]
      split <;> simp

theorem editSeenAll_map (ops : List Op) : ∀ t : List SlideText,
    (editContentsAll t ops).map expectedSlide = ops.foldl editSeen (t.map expectedSlide) := by
  induction ops with
  | nil => intro t; rfl
  | cons op ops ih =>
    intro t
    rw [List.foldl_cons, ← editSeen_map]
    exact ih _

theorem HoldsDeck.edit {a b : List (Str × Bytes)} {d : Loaded} (h : HoldsDeck a d) {ops : List Op} (he : Edited a [ops] b)
    (ho : GoodCommand (.edit path ops)) : HoldsDeck b { d with slides := ops.foldl editSeen d.slides } := by
  obtain ⟨t, secs, title, h1, h2, hf, hs, rfl⟩ := h
  refine ⟨editContentsAll t ops, secs, title, h1, h2, ?_, safe_editAll hs ops ho, ?_⟩
  · have := hf.sessions he
    simpa using this
  · rw [editSeenAll_map]

/-- Compressing keeps slides, their relationships, the presentation and its properties. -/
theorem FileOf.compressed {a b : List (Str × Bytes)} {t : List SlideText} {core : Bytes} (h : FileOf a t core)
    {o : CompressionOptions} (hc : Compressed o a b) (h1 : o.removeProperties = false) (h2 : o.optimizeXml = false) : FileOf b t core := by
  obtain ⟨entries, ho, rfl⟩ := hc
  have hok : AMap.Ok (compressPackage o (Package.openReader a)).1 := ok_compress (ok_openReader a)
  have part : ∀ {path : Str}, Package.isDirName path = false → startsWith c!"ppt/media/" path = false →
      startsWith c!"ppt/notesSlides/" path = false →
      (Package.openReader (Package.saveWriter entries)).getPart path = (Package.openReader a).getPart path := by
    classical
    intro path hd hm hn
    rw [saved_part hok ho hd, C72_exact_partial o _ (ok_openReader a),
      if_neg (not_dropped hm (fun e => by rw [h1] at e; cases e) hn), if_neg (by rw [h2]; simp)]
  obtain ⟨l, hl, hi⟩ := h.slides
  have hs1 : ∀ n, startsWith c!"ppt/media/" (slidePath n) = false ∧ startsWith c!"ppt/notesSlides/" (slidePath n) = false :=
    fun n => ⟨rfl, rfl⟩
  have hs2 : ∀ n, startsWith c!"ppt/media/" (slideRelsPath n) = false ∧ startsWith c!"ppt/notesSlides/" (slideRelsPath n) = false :=
    fun n => ⟨rfl, rfl⟩
  have hare : SlidesAre (Package.openReader (Package.saveWriter entries)) l := by
    refine ⟨fun i => ?_, fun i => ?_, fun path hp hs => ?_⟩
    · exact (part (slidePath_notDir (i + 1)) (hs1 _).1 (hs1 _).2).trans (hi.are.slides i)
    · exact (part (slideRelsPath_notDir (i + 1)) (hs2 _).1 (hs2 _).2).trans (hi.are.rels i)
    · obtain ⟨m, rfl, hm⟩ := id hp
      rw [part (isSlideName_notDir hp) rfl rfl] at hs
      exact hi.are.only _ hp hs
  have hcount := countSlides_eq (ok_openReader _) hare
  refine ⟨⟨l, hl, hare, ?_, hcount⟩, ?_, ?_⟩
  · exact ⟨(part (by decide) (by decide) (by decide)).trans hi.temps.1, (part (by decide) (by decide) (by decide)).trans hi.temps.2⟩
  · refine listed_same h.listed ?_ ?_
    · exact hcount.trans hi.count.symm
    · unfold Package.getPartString
      exact congrArg (Option.map decodeLossy) (part (by decide) (by decide) (by decide))
  · exact (part (by decide) (by decide) (by decide)).trans h.core

theorem create_expected (s : SlideArg) : expectedSlide (s.bullets.foldl SlideText.addBullet (SlideText.new s.title)) =
    { text := plainSlide (visible s.title) (s.bullets.filter fun t => ¬ BlankText t) none } := by
  have e1 : (s.bullets.foldl SlideText.addBullet (SlideText.new s.title)).texts = s.bullets := by
    rw [addBullets_eq]
    cases s.bullets with
    | nil => rfl
    | cons b l => simp [SlideText.texts, SlideText.new, List.map_map, Function.comp_def]
  have e2 : (s.bullets.foldl SlideText.addBullet (SlideText.new s.title)).layout = .titleAndContent := by rw [addBullets_eq]; rfl
  have e3 : (s.bullets.foldl SlideText.addBullet (SlideText.new s.title)).table = none := by rw [addBullets_eq]; rfl
  have e4 : (s.bullets.foldl SlideText.addBullet (SlideText.new s.title)).title = s.title := by rw [addBullets_eq]; rfl
  have e5 : showsBullets (s.bullets.foldl SlideText.addBullet (SlideText.new s.title)) = true := by
    unfold showsBullets
    rw [e2, e3]
    rfl
  unfold expectedSlide
  rw [e1, e2, e3, e4, e5]
  rfl

/-- **C151.** Whatever a command does to the files, they hold afterwards the presentations they should. -/
theorem C151_step_partial {can : Str → Bool} {fs fs' : Files} {ds : Decks} {c : Command} (h : HoldAll fs ds) (hn : SmallDecks ds)
    (hg : GoodCommand c) (hs : Step can fs c fs') : HoldAll fs' (perform can ds c) := by
  cases hs with
  | create hw =>
    rename_i title path slides
    unfold Handlers.create at hw
    simp only at hw
    split at hw
    · rename_i e
      cases hw
      have e' : slides = [] := by simpa using e
      subst e'
      show HoldAll fs (keep can ds path _)
      unfold keep
      rw [if_pos (Or.inl (by simp))]
      exact h
    · have := holds_saveAs h hw hg.1 hg.2 ?_ ?_
      · rw [List.map_map] at this
        have e : (slides.map ((fun s : DeckSlide => expectedSlide s.text) ∘ fun s : SlideArg =>
            ({ text := s.bullets.foldl SlideText.addBullet (SlideText.new s.title) } : DeckSlide))) =
            slides.map fun s => { text := plainSlide (visible s.title) (s.bullets.filter fun t => ¬ BlankText t) none } :=
          List.map_congr_left fun s _ => create_expected s
        rw [e] at this
        exact this
      · intro s hm
        obtain ⟨x, _, rfl⟩ := List.mem_map.mp hm
        exact ⟨rfl, rfl⟩
      · intro s hm
        obtain ⟨x, _, rfl⟩ := List.mem_map.mp hm
        have := addBullets_readable x.title x.bullets none .titleAndContent (by simp)
        simp only [addBullets_eq] at this ⊢
        exact this
  | write hw =>
    rename_i title path pages
    have := holds_saveAs h hw hg.1 hg.2.1 ?_ ?_
    · rw [List.map_map] at this
      exact this
    · intro s hm
      obtain ⟨x, _, rfl⟩ := List.mem_map.mp hm
      exact ⟨rfl, rfl⟩
    · intro s hm
      obtain ⟨x, hx, rfl⟩ := List.mem_map.mp hm
      exact hg.2.2 x hx
  | merge hw =>
    rename_i inputs path
    show HoldAll fs' (if inputs.length < 2 then ds else _)
    by_cases hl : inputs.length < 2
    · rw [if_pos hl]
      unfold Handlers.merge at hw
      rw [if_pos hl] at hw
      cases hw
      exact h
    · rw [if_neg hl]
      cases inputs with
      | nil => exact absurd (show 0 < 2 by decide) hl
      | cons first l =>
        cases l with
        | nil => exact absurd (show 1 < 2 by decide) hl
        | cons second more =>
          rw [← C112_merge_command] at hw
          exact holds_join h hn hw
  | join hw => exact holds_join h hn hw
  | edit hp hw he =>
    rename_i path ops a b
    show HoldAll _ (if can path then _ else ds)
    rw [if_pos hw]
    rcases h path with ⟨e, _⟩ | ⟨a', d, e1, e2, hd⟩
    · rw [hp] at e; cases e
    · rw [hp] at e1
      cases e1
      rw [e2]
      exact holds_put h (hd.edit (path := path) he hg)
  | noEdit hp =>
    rename_i path ops
    show HoldAll _ (if can path then _ else ds)
    split
    · rename_i hc
      rcases hp with hp | hp
      · rcases h path with ⟨_, e⟩ | ⟨a', d, e1, _⟩
        · have : (fun p => if p = path then (ds path).map fun d => { d with slides := ops.foldl editSeen d.slides } else ds p) = ds := by
            funext p
            split
            · rename_i e'
              rw [e', e]
              rfl
            · rfl
          rw [this]
          exact h
        · rw [hp] at e1; cases e1
      · rw [hc] at hp; cases hp
    · exact h
  | compress hp hw hc =>
    rename_i o input output a b
    show HoldAll _ (if can output ∧ (ds input).isSome then _ else ds)
    rcases h input with ⟨e, _⟩ | ⟨a', d, e1, e2, hd⟩
    · rw [hp] at e; cases e
    · rw [hp] at e1
      cases e1
      rw [if_pos ⟨hw, by rw [e2]; rfl⟩, e2]
      refine holds_put h ?_
      obtain ⟨t, secs, title, h1, h2, hf, hs, rfl⟩ := hd
      exact ⟨t, secs, title, h1, h2, hf.compressed hc hg.1 hg.2, hs, rfl⟩
  | noCompress hp =>
    rename_i o input output
    show HoldAll _ (if can output ∧ (ds input).isSome then _ else ds)
    rw [if_neg]
    · exact h
    · rintro ⟨h1, h2⟩
      rcases hp with hp | hp
      · rcases h input with ⟨_, e⟩ | ⟨a', d, e1, _⟩
        · rw [e] at h2; cases h2
        · rw [hp] at e1; cases e1
      · rw [h1] at hp; cases hp

theorem holds_run {can : Str → Bool} {fs fs' : Files} {cs : List Command} (hr : Run can fs cs fs') : ∀ {ds : Decks}, HoldAll fs ds →
    SmallRun can ds cs → (∀ c ∈ cs, GoodCommand c) → HoldAll fs' (performAll can ds cs) ∧ SmallDecks (performAll can ds cs) := by
  induction hr with
  | done fs => intro ds h hn _; exact ⟨h, hn⟩
  | step now later ih =>
    intro ds h hn hg
    exact ih (C151_step_partial h hn.1 (hg _ (by simp)) now) hn.2 fun c hc => hg c (by simp [hc])

/-- **C151.** After any sequence of commands, beginning without files, there are just the files that should be there, and each is
opened as the presentation it should hold. -/
theorem C151_run_partial {can : Str → Bool} {fs : Files} {cs : List Command} (hr : Run can (fun _ => none) cs fs)
    (hg : ∀ c ∈ cs, GoodCommand c) (hn : SmallRun can (fun _ => none) cs) (path : Str) :
    (fs path).bind opened = performAll can (fun _ => none) cs path ∧
    ((fs path).isSome = (performAll can (fun _ => none) cs path).isSome) := by
  obtain ⟨h, hs⟩ := holds_run hr (ds := fun _ => none) (fun _ => Or.inl ⟨rfl, rfl⟩) hn hg
  rcases h path with ⟨e1, e2⟩ | ⟨a, d, e1, e2, hd⟩
  · rw [e1, e2]; exact ⟨rfl, rfl⟩
  · rw [e1, e2]
    exact ⟨hd.opened (hs path d e2), rfl⟩

/-! ### Every command can be carried out -/

theorem saved_exists (d : Pres) : ∃ a, SavedAs d a :=
  ⟨_, fun _ => ⟨0, .none, id, fun _ => [], rfl, rfl, Eq.refl (written 0 d.title (d.slides.map fun s => { text := s.text }) .none id fun _ => [])⟩⟩

theorem wrote_exists (fs : Files) (l : List (Str × Format × Pres)) (h : ∀ x ∈ l, x.2.1 = .pptx) : ∃ fs', Wrote fs l fs' := by
  induction l generalizing fs with
  | nil => exact ⟨fs, .nothing fs⟩
  | cons x l ih =>
    obtain ⟨path, f, d⟩ := x
    have : f = .pptx := h (path, f, d) List.mem_cons_self
    subst this
    obtain ⟨a, ha⟩ := saved_exists d
    obtain ⟨fs', hf⟩ := ih (put fs path a) fun x hx => h x (by simp [hx])
    exact ⟨fs', .file ha hf⟩

theorem saveAs_pptx (w : World) (d : Pres) (path ok bad : Str) : ∀ x ∈ (saveAs w d path ok bad).written, x.2.1 = .pptx := by
  unfold saveAs
  split
  · intro x hx; cases hx
  · split
    · intro x hx
      have : x = _ := List.mem_singleton.mp hx
      rw [this]
    · intro x hx; cases hx

theorem join_pptx (w : World) (first : Str) (more : List Str) (path : Str) : ∀ x ∈ (mergeCommand w first more path).written, x.2.1 = .pptx := by
  unfold mergeCommand
  split
  · intro x hx; cases hx
  · split
    · intro x hx; cases hx
    · exact saveAs_pptx _ _ _ _ _

theorem step_exists (can : Str → Bool) (fs : Files) (c : Command) : ∃ fs', Step can fs c fs' := by
  cases c with
  | create title path slides =>
    obtain ⟨fs', h⟩ := wrote_exists fs (Handlers.create (world can fs) title path slides).written (by
      unfold Handlers.create
      simp only
      split
      · intro x hx; cases hx
      · exact saveAs_pptx _ _ _ _ _)
    exact ⟨fs', .create h⟩
  | write title path pages =>
    obtain ⟨fs', h⟩ := wrote_exists fs (save (world can fs) title path pages).written (saveAs_pptx _ _ _ _ _)
    exact ⟨fs', .write h⟩
  | merge inputs path =>
    obtain ⟨fs', h⟩ := wrote_exists fs (Handlers.merge (world can fs) inputs path).written (by
      match inputs with
      | [] => intro x hx; cases hx
      | [a] => intro x hx; cases hx
      | a :: b :: l => rw [← C112_merge_command]; exact join_pptx _ _ _ _)
    exact ⟨fs', .merge h⟩
  | join first more path =>
    obtain ⟨fs', h⟩ := wrote_exists fs (mergeCommand (world can fs) first more path).written (join_pptx _ _ _ _)
    exact ⟨fs', .join h⟩
  | edit path ops =>
    cases e : fs path with
    | none => exact ⟨fs, .noEdit (Or.inl e)⟩
    | some a =>
      cases hc : can path with
      | false => exact ⟨fs, .noEdit (Or.inr hc)⟩
      | true =>
        obtain ⟨b, hb⟩ := edited_exists a [ops]
        exact ⟨_, .edit e hc hb⟩
  | compress o input output =>
    cases e : fs input with
    | none => exact ⟨fs, .noCompress (Or.inl e)⟩
    | some a =>
      cases hc : can output with
      | false => exact ⟨fs, .noCompress (Or.inr hc)⟩
      | true =>
        obtain ⟨b, hb⟩ := compressed_exists o a
        exact ⟨_, .compress e hc hb⟩

theorem run_exists (can : Str → Bool) (cs : List Command) : ∀ fs : Files, ∃ fs', Run can fs cs fs' := by
  induction cs with
  | nil => intro fs; exact ⟨fs, .done fs⟩
  | cons c cs ih =>
    intro fs
    obtain ⟨f1, h1⟩ := step_exists can fs c
    obtain ⟨f2, h2⟩ := ih f1
    exact ⟨f2, .step h1 h2⟩

/-- **C151.** Files that a command does not name are left alone. -/
theorem C151_others {can : Str → Bool} {fs fs' : Files} {c : Command} (hs : Step can fs c fs') (path : Str)
    (hp : match c with
      | .create _ p _ | .write _ p _ | .merge _ p | .join _ _ p | .edit p _ | .compress _ _ p => path ≠ p) : fs' path = fs path := by
  have one : ∀ {p : Str} {d : Pres} {ok bad : Str}, path ≠ p → Wrote fs (saveAs (world can fs) d p ok bad).written fs' → fs' path = fs path := by
    intro p d ok bad hne hw
    unfold saveAs at hw
    split at hw
    · cases hw; rfl
    · split at hw
      · cases hw with
        | file saved later =>
          cases later
          exact if_neg hne
      · cases hw; rfl
  have two : ∀ {first : Str} {more : List Str} {p : Str}, path ≠ p → Wrote fs (mergeCommand (world can fs) first more p).written fs' →
      fs' path = fs path := by
    intro first more p hne hw
    unfold mergeCommand at hw
    split at hw
    · cases hw; rfl
    · split at hw
      · cases hw; rfl
      · exact one hne hw
  cases hs with
  | create hw =>
    unfold Handlers.create at hw
    simp only at hw
    split at hw
    · cases hw; rfl
    · exact one hp hw
  | write hw => exact one hp hw
  | merge hw =>
    rename_i inputs p
    match inputs with
    | [] => cases hw; rfl
    | [a] => cases hw; rfl
    | a :: b :: l => rw [← C112_merge_command] at hw; exact two hp hw
  | join hw => exact two hp hw
  | edit _ _ _ => exact if_neg hp
  | noEdit _ => rfl
  | compress _ _ _ => exact if_neg hp
  | noCompress _ => rfl

/-- **C151 does not hold in full.** A presentation whose title has an ampersand that does not begin an entity, such as `R&D`, is
created without a complaint, but has no title for the commands that follow. -/
theorem C151_title_violated {can : Str → Bool} {fs fs' : Files} {title path : Str} {slides : List SlideArg} (hc : can path = true)
    (h0 : slides ≠ []) (hn : slides.length + 1 < 4294967296) (h1 : readText title = none) (h2 : '<' ∉ title)
    (hs : Step can fs (.create title path slides) fs') : ((world can fs').load path).map (·.title) = some [] := by
  cases hs with
  | create hw =>
    unfold Handlers.create at hw
    simp only at hw
    rw [if_neg (by simpa using h0)] at hw
    unfold saveAs at hw
    rw [if_neg (by simpa using h0), if_pos (show (world can fs).canWrite _ path = true from hc)] at hw
    cases hw with
    | file saved later =>
      cases later
      obtain ⟨secs, st, desc, other, ht, hf, rfl⟩ := saved (by
        intro s hm
        obtain ⟨x, _, rfl⟩ := List.mem_map.mp hm
        exact ⟨rfl, rfl⟩)
      have hr : Readable ((slides.map fun s => ({ text := s.bullets.foldl SlideText.addBullet (SlideText.new s.title) } : DeckSlide)).map
          fun s => ({ text := s.text } : PageIn)) := by
        intro s hm
        rw [List.map_map] at hm
        obtain ⟨x, _, rfl⟩ := List.mem_map.mp hm
        have := addBullets_readable x.title x.bullets none .titleAndContent (by simp)
        simp only [addBullets_eq, Function.comp_apply] at this ⊢
        exact this
      have := C144_title_violated secs desc other ht hf (by simpa using h0) (by simpa using hn) hr h1 h2
      show ((put fs path _ path).bind _).map _ = _
      rw [put, if_pos rfl, Option.bind_some, Option.map_map]
      exact this

/-! ### Example -/

/-- The file a command writes. -/
def targetOf : Command → Str
  | .create _ p _ | .write _ p _ | .merge _ p | .join _ _ p | .edit p _ | .compress _ _ p => p

theorem keep_other {can : Str → Bool} {ds : Decks} {path p : Str} {d : Loaded} (h : p ≠ path) : keep can ds path d p = ds p := by
  unfold keep
  split
  · rfl
  · exact if_neg h

theorem perform_other {can : Str → Bool} {ds : Decks} {c : Command} {p : Str} (h : p ≠ targetOf c) : perform can ds c p = ds p := by
  cases c with
  | create title path slides => exact keep_other h
  | write title path pages => exact keep_other h
  | merge inputs path =>
    unfold perform
    simp only
    split
    · rfl
    · cases joined ds inputs with
      | none => rfl
      | some d => exact keep_other h
  | join first more path =>
    unfold perform
    simp only
    cases joined ds (first :: more) with
    | none => rfl
    | some d => exact keep_other h
  | edit path ops =>
    unfold perform
    simp only
    split
    · exact if_neg h
    · rfl
  | compress o input output =>
    unfold perform
    simp only
    split
    · exact if_neg h
    · rfl

/-- A check for `SmallRun`. -/
def smallRun (can : Str → Bool) (ds : Decks) : List Command → Bool
  | [] => true
  | c :: cs =>
    decide (((perform can ds c (targetOf c)).map fun d => d.slides.length).getD 0 + 1 < 4294967296) && smallRun can (perform can ds c) cs

theorem smallRun_sound {can : Str → Bool} (cs : List Command) : ∀ {ds : Decks}, SmallDecks ds → smallRun can ds cs = true → SmallRun can ds cs := by
  induction cs with
  | nil => intro ds h _; exact h
  | cons c cs ih =>
    intro ds h hc
    rw [smallRun, Bool.and_eq_true, decide_eq_true_eq] at hc
    refine ⟨h, ih ?_ hc.2⟩
    intro path d hd
    by_cases e : path = targetOf c
    · rw [e] at hd
      have := hc.1
      rw [hd] at this
      exact this
    · rw [perform_other e] at hd
      exact h path d hd

/-- Two presentations are made, joined, the result edited and compressed, then copied over the first. -/
def dayAtWork : List Command :=
  [.create c!"One" c!"a.pptx" [⟨c!"A1", [c!"x"], none⟩, ⟨c!"A2", [], none⟩],
   .write c!"Two" c!"b.pptx" [{ text := SlideText.new c!"B1" }],
   .merge [c!"b.pptx", c!"a.pptx", c!"b.pptx"] c!"c.pptx",
   .merge [c!"b.pptx", c!"missing.pptx"] c!"d.pptx",
   .edit c!"c.pptx" [.remove 1, .reorder 2 0],
   .compress { removeUnusedMedia := true, removeProperties := false, removeNotes := true, removeComments := false, optimizeXml := false } c!"c.pptx" c!"e.pptx",
   .join c!"e.pptx" [] c!"a.pptx"]

theorem dayAtWork_good : ∀ c ∈ dayAtWork, GoodCommand c := by
  intro c hc
  simp only [dayAtWork, List.mem_cons, List.not_mem_nil, or_false] at hc
  rcases hc with rfl | rfl | rfl | rfl | rfl | rfl | rfl
  · exact ⟨by decide, by decide⟩
  · refine ⟨by decide, by decide, ?_⟩
    intro s hs
    rw [List.mem_singleton.mp hs]
    exact addBullets_readable c!"B1" [] none .titleAndContent (by simp)
  · trivial
  · trivial
  · intro op ho c hc
    simp only [List.mem_cons, List.not_mem_nil, or_false] at ho
    rcases ho with rfl | rfl <;> rcases hc with e | ⟨i, e⟩ | ⟨i, e⟩ <;> cases e
  · exact ⟨rfl, rfl⟩
  · trivial

/-- The titles of a presentation and its slides. -/
def titlesIn (d : Loaded) : Str × List Str := (d.title, d.slides.map (·.text.title))

example : ∃ fs, Run (fun _ => true) (fun _ => none) dayAtWork fs ∧
    ((fs c!"a.pptx").bind opened).map titlesIn = some (c!"Two", [c!"B1", c!"B1", c!"A2"]) ∧
    ((fs c!"b.pptx").bind opened).map titlesIn = some (c!"Two", [c!"B1"]) ∧ (fs c!"d.pptx").isSome = false := by
  obtain ⟨fs, hr⟩ := run_exists (fun _ => true) dayAtWork (fun _ => none)
  have h := C151_run_partial hr dayAtWork_good
    (smallRun_sound _ (fun path d hd => by cases hd) (show smallRun _ _ dayAtWork = true by decide +kernel))
  refine ⟨fs, hr, ?_, ?_, ?_⟩
  · rw [(h c!"a.pptx").1]; decide +kernel
  · rw [(h c!"b.pptx").1]; decide +kernel
  · rw [(h c!"d.pptx").2]; decide +kernel

/-- The premises of `C151_title_violated` can be met. -/
example : readText c!"R&D" = none ∧ '<' ∉ c!"R&D" := by decide +kernel

end PptRs.Props
