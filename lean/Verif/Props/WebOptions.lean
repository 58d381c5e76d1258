import Verif.Model.WebOptions
import Verif.Props.WebLost

/-!
# The options of the web converter (C173)
-/

namespace PptRs.Props

open PptRs PptRs.Web PptRs.Whole PptRs.WebOptions

/-- Does the configuration want blocks of this kind? -/
def Spec.wantedKind (c : Config) : WebKind → Prop
  | .image _ _ => c.images = true
  | .table _ => c.tables = true
  | .code => c.code = true
  | _ => True

/-- All blocks of what was found are wanted. -/
def foundWanted (c : Config) (f : Found) : Prop := ∀ b ∈ f.blocks, Spec.wantedKind c b.1.kind

theorem wanted_ite (c : Config) {p : Prop} [Decidable p] {x y : Found} (h : p → foundWanted c x) (k : ¬p → foundWanted c y) :
    foundWanted c (if p then x else y) := by
  by_cases hp : p
  · rw [if_pos hp]; exact h hp
  · rw [if_neg hp]; exact k hp

theorem wanted_none (c : Config) : foundWanted c {} := fun b hb => by simp at hb

theorem wanted_block (c : Config) (k : WebKind) (t : Str) (h : Spec.wantedKind c k) : foundWanted c (.block k t) := by
  intro b hb
  simp only [Found.block, List.mem_singleton] at hb
  subst hb
  exact h

theorem own_wanted (c : Config) (depth : Nat) (d : Dom) : foundWanted c (ownOf c.parser depth d) := by
  have hh : ∀ k, Spec.wantedKind c k → foundWanted c (headingOf k d) := fun k hk =>
    wanted_ite c (fun _ => wanted_block c _ _ hk) fun _ => wanted_none c
  unfold ownOf
  iterate 6
    refine wanted_ite c (fun _ => hh _ trivial) fun _ => ?_
  refine wanted_ite c (fun _ => wanted_ite c (fun _ => wanted_block c _ _ trivial) fun _ => wanted_none c) fun _ => ?_
  refine wanted_ite c (fun _ => wanted_ite c (fun _ => ?_) fun _ => wanted_none c) fun _ => ?_
  · intro b hb
    simp only [List.mem_singleton] at hb
    subst hb
    trivial
  refine wanted_ite c (fun _ => wanted_ite c (fun _ => wanted_block c _ _ trivial) fun _ => wanted_none c) fun _ => ?_
  refine wanted_ite c (fun _ => wanted_ite c (fun h => wanted_block c _ _ h.1) fun _ => wanted_none c) fun _ => ?_
  refine wanted_ite c (fun _ => wanted_ite c (fun hi => ?_) fun _ => wanted_none c) fun _ => ?_
  · split
    · refine wanted_ite c (fun _ => ?_) fun _ => wanted_none c
      intro b hb
      simp only [List.mem_singleton] at hb
      subst hb
      exact hi
    · exact wanted_none c
  exact wanted_ite c (fun _ => wanted_ite c (fun ht => wanted_ite c (fun _ => wanted_block c _ _ ht) fun _ => wanted_none c)
    fun _ => wanted_none c) fun _ => wanted_none c

mutual
theorem walk_wanted (low : Str → Str) (c : Config) : ∀ (d : Dom) (depth : Nat) (f : Found),
    walkElement low c.parser depth d = some f → ∀ b ∈ f.blocks, Spec.wantedKind c b.1.kind
  | .text _, depth, f, h => by
    simp only [walkElement, Option.some.injEq] at h
    subst h
    intro b hb
    simp at hb
  | .el n a l, depth, f, h => by
    intro b hb
    rw [walkElement] at h
    by_cases hs : skipped low n a = true
    · rw [if_pos hs] at h
      simp only [Option.some.injEq] at h
      subst h
      simp at hb
    rw [if_neg hs] at h
    by_cases hl : leafTags.contains n = true
    · rw [if_pos hl] at h
      simp only [Option.some.injEq] at h
      subst h
      exact own_wanted c depth _ b hb
    · rw [if_neg hl, Option.map_eq_some_iff] at h
      obtain ⟨g, hg, rfl⟩ := h
      rcases List.mem_append.1 hb with hb | hb
      · exact own_wanted c depth _ b hb
      · exact walkAll_wanted low c l depth g hg b hb

theorem walkAll_wanted (low : Str → Str) (c : Config) : ∀ (l : List Dom) (depth : Nat) (f : Found),
    walkAll low c.parser depth l = some f → ∀ b ∈ f.blocks, Spec.wantedKind c b.1.kind
  | [], depth, f, h => by
    simp only [walkAll, Option.some.injEq] at h
    subst h
    intro b hb
    simp at hb
  | .text s :: l, depth, f, h => by
    intro b hb
    rw [walkAll] at h
    exact walkAll_wanted low c l depth f h b hb
  | .el n a k :: l, depth, f, h => by
    intro b hb
    rw [walkAll] at h
    by_cases hd : depth + 1 < 256
    · rw [if_pos hd, Option.bind_eq_some_iff] at h
      obtain ⟨g, hg, h⟩ := h
      rw [Option.map_eq_some_iff] at h
      obtain ⟨g', hg', rfl⟩ := h
      rcases List.mem_append.1 hb with hb | hb
      · exact walk_wanted low c (.el n a k) (depth + 1) g hg b hb
      · exact walkAll_wanted low c l depth g' hg' b hb
    · rw [if_neg hd] at h
      simp at h
end

/-- **C173.** Pictures, tables and code that are switched off are not taken from a page: no block of such a kind is found, and without
pictures the list of pictures is empty. -/
theorem C173_off (low : Str → Str) (c : Config) (doc : Dom) (url : Str) (p : ParsedPage)
    (h : parsePage low c.parser doc url = some (.ok p)) :
    (∀ b ∈ p.page.blocks, Spec.wantedKind c b.kind) ∧ (c.images = false → p.images = []) := by
  have hb : ∀ b ∈ p.page.blocks, Spec.wantedKind c b.kind := by
    unfold parsePage at h
    cases hm : mainElement doc with
    | none => rw [hm] at h; simp at h
    | some m =>
      rw [hm] at h
      simp only [Option.map_eq_some_iff] at h
      obtain ⟨f, hf, h⟩ := h
      split at h
      · simp at h
      · simp only [Except.ok.injEq] at h
        subst h
        intro b hb
        obtain ⟨⟨b', k⟩, hb', rfl⟩ := List.mem_map.1 hb
        exact walk_wanted low c m 0 f hf _ hb'
  refine ⟨hb, fun hi => ?_⟩
  rw [(C143_sound low c.parser doc url p h).2.2.2.1]
  apply List.eq_nil_iff_forall_not_mem.2
  intro x hx
  unfold Spec.pictures at hx
  obtain ⟨b, hm, he⟩ := List.mem_filterMap.1 hx
  have := hb b hm
  cases hk : b.kind <;> rw [hk] at he <;> simp at he
  rw [hk] at this
  simp [Spec.wantedKind, hi] at this

/-! ### Options without effect -/

/-- **C173 does not hold in full.** Five options of the web converter have no effect at all: the author, page numbers, the sizes of titles
and content, and the extraction of links. Whatever they are set to, the file is the same. -/
theorem C173_unused_violated (low : Str → Str) (c : Config) (o : Options) (author : Option Str) (pages : Bool) (titleSize contentSize : Nat)
    (links : Bool) (doc : Dom) (url : Str) (secs : Nat) (desc : Str → Str) (other : PartName → Bytes) :
    fileOf low ({ c with titleSize, contentSize, links }, { o with author, pageNumbers := pages }) doc url secs desc other =
      fileOf low (c, o) doc url secs desc other := by
  unfold fileOf
  have e : parsePage low ({ c with titleSize, contentSize, links } : Config).parser doc url = parsePage low c.parser doc url :=
    (C143_links_violated low c.parser doc url links).1
  simp only [e]
  rfl

/-- Two lists of slides that differ in nothing but the bullets of the first, which has this title. -/
def Spec.SameButFirst (t : Str) (a b : List WebSlide) : Prop :=
  ∃ x y rest, a = ⟨t, x⟩ :: rest ∧ b = ⟨t, y⟩ :: rest

theorem same_length {w : Str} {a b : List WebSlide} (h : Spec.SameButFirst w a b) : a.length = b.length := by
  obtain ⟨x, y, rest, rfl, rfl⟩ := h
  rfl

theorem same_append {w : Str} {a b : List WebSlide} (h : Spec.SameButFirst w a b) (l : List WebSlide) : Spec.SameButFirst w (a ++ l) (b ++ l) := by
  obtain ⟨x, y, rest, rfl, rfl⟩ := h
  exact ⟨x, y, rest ++ l, rfl, rfl⟩

theorem same_fill {w : Str} (cfg : WebConfig) (heading : Str) (bs : List WebBlock) : ∀ (a b : FillState), Spec.SameButFirst w a.slides b.slides →
    a.slide = b.slide → a.count = b.count → a.stop = b.stop →
    Spec.SameButFirst w (bs.foldl (fillStep cfg heading) a).slides (bs.foldl (fillStep cfg heading) b).slides ∧
    (bs.foldl (fillStep cfg heading) a).slide = (bs.foldl (fillStep cfg heading) b).slide ∧
    (bs.foldl (fillStep cfg heading) a).count = (bs.foldl (fillStep cfg heading) b).count ∧
    (bs.foldl (fillStep cfg heading) a).stop = (bs.foldl (fillStep cfg heading) b).stop := by
  induction bs with
  | nil => exact fun a b h1 h2 h3 h4 => ⟨h1, h2, h3, h4⟩
  | cons x bs ih =>
    intro a b h1 h2 h3 h4
    obtain ⟨as, al, ac, ax⟩ := a
    obtain ⟨bs', bl, bc, bx⟩ := b
    simp only at h1 h2 h3 h4
    subst h2 h3 h4
    rw [List.foldl_cons, List.foldl_cons]
    have hl : (as ++ [al]).length = (bs' ++ [al]).length := same_length (same_append h1 _)
    unfold fillStep
    by_cases hx : ax = true
    · simp only [hx, if_true]
      exact ih _ _ h1 rfl rfl rfl
    · simp only [hx, if_false]
      by_cases hc : ac ≥ cfg.maxBullets
      · simp only [hc, if_true, hl]
        by_cases hm : (bs' ++ [al]).length ≥ cfg.maxSlides
        · simp only [hm, if_true]
          exact ih _ _ (same_append h1 _) rfl rfl rfl
        · simp only [hm, if_false]
          unfold addBlock
          cases groupBullet cfg x with
          | none => exact ih _ _ (same_append h1 _) rfl rfl rfl
          | some t => exact ih _ _ (same_append h1 _) rfl rfl rfl
      · simp only [hc, if_false]
        unfold addBlock
        cases groupBullet cfg x with
        | none => exact ih _ _ h1 rfl rfl rfl
        | some t => exact ih _ _ h1 rfl rfl rfl

theorem same_groups {w : Str} (cfg : WebConfig) (gs : List (WebBlock × List WebBlock)) : ∀ a b, Spec.SameButFirst w a b →
    Spec.SameButFirst w (gs.foldl (groupSlides cfg) a) (gs.foldl (groupSlides cfg) b) := by
  induction gs with
  | nil => exact fun a b h => h
  | cons g gs ih =>
    intro a b h
    rw [List.foldl_cons, List.foldl_cons]
    apply ih
    unfold groupSlides
    rw [same_length h]
    split
    · exact h
    · obtain ⟨h1, h2, h3, -⟩ := same_fill cfg g.1.text g.2 ⟨a, ⟨g.1.text, []⟩, 0, false⟩ ⟨b, ⟨g.1.text, []⟩, 0, false⟩ h rfl rfl rfl
      unfold finishGroup
      rw [h2, h3]
      split
      · exact same_append h1 _
      · exact h1

theorem same_saved {w : Str} {a b : LinearState} (h1 : Spec.SameButFirst w a.slides b.slides) (h2 : a.current = b.current) (h3 : a.count = b.count) :
    Spec.SameButFirst w a.saved b.saved := by
  unfold LinearState.saved
  rw [h2, h3]
  split
  · split
    · exact same_append h1 _
    · exact h1
  · exact h1

theorem same_linear {w : Str} (cfg : WebConfig) (bs : List WebBlock) : ∀ (a b : LinearState), Spec.SameButFirst w a.slides b.slides →
    a.current = b.current → a.count = b.count →
    Spec.SameButFirst w (bs.foldl (linearStep cfg) a).saved (bs.foldl (linearStep cfg) b).saved := by
  induction bs with
  | nil => exact fun a b h1 h2 h3 => same_saved h1 h2 h3
  | cons x bs ih =>
    intro a b h1 h2 h3
    rw [List.foldl_cons, List.foldl_cons]
    have hs := same_saved h1 h2 h3
    obtain ⟨as, ac, an⟩ := a
    obtain ⟨bs', bc, bn⟩ := b
    simp only at h1 h2 h3
    subst h2 h3
    unfold linearStep
    simp only [same_length h1]
    split
    · exact ih _ _ h1 rfl rfl
    · unfold linearBlock
      split
      · exact ih _ _ hs rfl rfl
      · exact ih _ _ hs rfl rfl
      · unfold linearParagraph
        by_cases hm : an < cfg.maxBullets
        · simp only [hm, if_true]; exact ih _ _ h1 rfl rfl
        · simp only [hm, if_false]; exact ih _ _ (same_append h1 _) rfl rfl
      · unfold linearDrop
        by_cases hm : an < cfg.maxBullets
        · simp only [hm, if_true]; exact ih _ _ h1 rfl rfl
        · simp only [hm, if_false]; exact ih _ _ h1 rfl rfl
      · cases ac with
        | some s =>
          simp only
          unfold linearDrop
          by_cases hm : an < cfg.maxBullets
          · simp only [hm, if_true]; exact ih _ _ h1 rfl rfl
          · simp only [hm, if_false]; exact ih _ _ h1 rfl rfl
        | none => exact ih _ _ h1 rfl rfl
      · exact ih _ _ h1 rfl rfl

/-- The slides of two pages with the same blocks and the same title differ in the bullets of the first only. -/
theorem same_slides (cfg : WebConfig) (p q : WebPage) (t u : Option Str) (s r : Bool) (hb : p.blocks = q.blocks) (hn : p.blocks ≠ [])
    (ht : t.getD p.title = u.getD q.title) :
    ∃ a b, Spec.SameButFirst (t.getD p.title) a b ∧ buildWebSlides cfg p t s = a.take cfg.maxSlides ∧ buildWebSlides cfg q u r = b.take cfg.maxSlides := by
  have h0 : Spec.SameButFirst (t.getD p.title) [webTitleSlide p t s] [webTitleSlide q u r] := ⟨_, _, [], rfl, by unfold webTitleSlide; rw [ht]⟩
  have hl : Spec.SameButFirst (t.getD p.title) (buildLinear cfg p [webTitleSlide p t s]) (buildLinear cfg q [webTitleSlide q u r]) := by
    unfold buildLinear
    have hn' : p.blocks.isEmpty = false := by simpa using hn
    rw [← hb, hn']
    exact same_linear cfg p.blocks _ _ h0 rfl rfl
  unfold buildWebSlides
  refine ⟨_, _, ?_, rfl, rfl⟩
  split
  · unfold buildGrouped
    rw [← hb]
    simp only
    split
    · exact hl
    · exact same_groups cfg _ _ _ h0
  · exact hl

theorem addBullets_title (l : List Str) (s : SlideText) (h : s.layout = .centeredTitle) :
    ({ l.foldl SlideText.addBullet s with layout := .centeredTitle }).xml = s.xml := by
  induction l generalizing s with
  | nil => rw [List.foldl_nil, ← h]
  | cons t l ih => rw [List.foldl_cons, ih (s.addBullet t) h]; unfold SlideText.xml SlideText.body SlideText.shapes; rw [show (s.addBullet t).layout = .centeredTitle from h, h]; rfl

theorem centred_first (l : List Str) (t : Str) :
    ({ l.foldl SlideText.addBullet (SlideText.new t) with layout := .centeredTitle }).xml = ({ SlideText.new t with layout := .centeredTitle } : SlideText).xml := by
  have e : ({ l.foldl SlideText.addBullet (SlideText.new t) with layout := .centeredTitle } : SlideText) =
      { l.foldl SlideText.addBullet ({ SlideText.new t with layout := .centeredTitle } : SlideText) with layout := .centeredTitle } := by
    have : ∀ (l : List Str) (s : SlideText), ({ l.foldl SlideText.addBullet s with layout := .centeredTitle } : SlideText) =
        { l.foldl SlideText.addBullet ({ s with layout := .centeredTitle } : SlideText) with layout := .centeredTitle } := by
      intro l
      induction l with
      | nil => intro s; rfl
      | cons x l ih => intro s; rw [List.foldl_cons, List.foldl_cons, ih (s.addBullet x)]; rfl
    exact this l _
  rw [e, addBullets_title _ _ rfl]

theorem same_written {w : Str} {a b : List WebSlide} (h : Spec.SameButFirst w a b) (n : Nat) :
    (ofWeb (a.take n)).map (·.text.xml) = (ofWeb (b.take n)).map (·.text.xml) := by
  obtain ⟨x, y, rest, rfl, rfl⟩ := h
  cases n with
  | zero => rfl
  | succ n =>
    simp only [List.take_succ_cons, ofWeb, List.map_cons]
    rw [centred_first x w, centred_first y w]

/-- **C173 does not hold in full.** The address of a page, which `include_source_url` and the command ask for by default, is on no slide, and
neither is the description of the page: both are bullets of a slide with a centred title, and that layout writes no bullets. With and
without them all slides are written alike. -/
theorem C173_source_violated (cfg : WebConfig) (page : WebPage) (title : Option Str) (s r : Bool) (description : Option Str) (url : Str)
    (hn : page.blocks ≠ []) :
    (ofWeb (buildWebSlides cfg page title s)).map (·.text.xml) =
      (ofWeb (buildWebSlides cfg { page with description, url } title r)).map (·.text.xml) := by
  obtain ⟨a, b, h, e1, e2⟩ := same_slides cfg page { page with description, url } title title s r rfl hn rfl
  rw [e1, e2]
  exact same_written h _

/-- **C173.** The title asked for is the title of the first slide; without one it is the title of the page. -/
theorem C173_title (cfg : WebConfig) (page : WebPage) (title : Option Str) (s : Bool) (hm : 0 < cfg.maxSlides) (hn : page.blocks ≠ []) :
    (buildWebSlides cfg page title s).head?.map (·.title) = some (title.getD page.title) := by
  obtain ⟨a, b, ⟨x, y, rest, rfl, rfl⟩, e, -⟩ := same_slides cfg page page title title s s rfl hn rfl
  rw [e]
  obtain ⟨n, hn'⟩ : ∃ n, cfg.maxSlides = n + 1 := ⟨cfg.maxSlides - 1, by omega⟩
  rw [hn']
  rfl

/-! ### Setting the options -/

/-- The value of the last call that sets something, or else the default. -/
def Spec.lastCall {α : Type} (f : Op → Option α) (d : α) (ops : List Op) : α := ((ops.filterMap f).getLast?).getD d

theorem lastCall_snoc {α : Type} (f : Op → Option α) (d : α) (ops : List Op) (o : Op) :
    Spec.lastCall f d (ops ++ [o]) = (f o).getD (Spec.lastCall f d ops) := by
  unfold Spec.lastCall
  rw [List.filterMap_append]
  cases h : f o <;> simp [h]

theorem lastCall_spec {α : Type} (f : Op → Option α) (get : Config × Options → α)
    (h : ∀ c o, get (apply c o) = (f o).getD (get c)) (ops : List Op) (c : Config × Options) :
    get (ops.foldl apply c) = Spec.lastCall f (get c) ops := by
  induction ops using List.reverseRecOn with
  | nil => rfl
  | append_singleton ops o ih => rw [List.foldl_append, List.foldl_cons, List.foldl_nil, h, ih, lastCall_snoc]

/-- **C173.** After any calls of the methods, in any order, each option has the value of the last call that sets it, and its default where
there is none: twenty slides of six bullets, with pictures, tables, code and groups, the title of the page, and the address. -/
theorem C173_setters (ops : List Op) :
    let c := ops.foldl apply ({}, {})
    c.1.maxSlides = Spec.lastCall (fun | .maxSlides n => some n | _ => none) 20 ops ∧
    c.1.maxBullets = Spec.lastCall (fun | .maxBullets n => some n | _ => none) 6 ops ∧
    c.1.images = Spec.lastCall (fun | .images b => some b | _ => none) true ops ∧
    c.1.tables = Spec.lastCall (fun | .tables b => some b | _ => none) true ops ∧
    c.1.code = Spec.lastCall (fun | .code b => some b | _ => none) true ops ∧
    c.1.group = Spec.lastCall (fun | .group b => some b | _ => none) true ops ∧
    c.1.links = Spec.lastCall (fun | .links b => some b | _ => none) true ops ∧
    c.1.timeout = Spec.lastCall (fun | .timeout n => some n | _ => none) 30 ops ∧
    c.1.titleSize = Spec.lastCall (fun | .titleSize n => some n | _ => none) 44 ops ∧
    c.1.contentSize = Spec.lastCall (fun | .contentSize n => some n | _ => none) 24 ops ∧
    c.2.title = Spec.lastCall (fun | .title s => some (some s) | _ => none) none ops ∧
    c.2.author = Spec.lastCall (fun | .author s => some (some s) | _ => none) none ops ∧
    c.2.source = Spec.lastCall (fun | .source b => some b | _ => none) true ops ∧
    c.2.pageNumbers = Spec.lastCall (fun | .pageNumbers b => some b | _ => none) false ops := by
  refine ⟨?_, ?_, ?_, ?_, ?_, ?_, ?_, ?_, ?_, ?_, ?_, ?_, ?_, ?_⟩
  · exact lastCall_spec _ (·.1.maxSlides) (by intro c o; cases o <;> rfl) ops ({}, {})
  · exact lastCall_spec _ (·.1.maxBullets) (by intro c o; cases o <;> rfl) ops ({}, {})
  · exact lastCall_spec _ (·.1.images) (by intro c o; cases o <;> rfl) ops ({}, {})
  · exact lastCall_spec _ (·.1.tables) (by intro c o; cases o <;> rfl) ops ({}, {})
  · exact lastCall_spec _ (·.1.code) (by intro c o; cases o <;> rfl) ops ({}, {})
  · exact lastCall_spec _ (·.1.group) (by intro c o; cases o <;> rfl) ops ({}, {})
  · exact lastCall_spec _ (·.1.links) (by intro c o; cases o <;> rfl) ops ({}, {})
  · exact lastCall_spec _ (·.1.timeout) (by intro c o; cases o <;> rfl) ops ({}, {})
  · exact lastCall_spec _ (·.1.titleSize) (by intro c o; cases o <;> rfl) ops ({}, {})
  · exact lastCall_spec _ (·.1.contentSize) (by intro c o; cases o <;> rfl) ops ({}, {})
  · exact lastCall_spec _ (·.2.title) (by intro c o; cases o <;> rfl) ops ({}, {})
  · exact lastCall_spec _ (·.2.author) (by intro c o; cases o <;> rfl) ops ({}, {})
  · exact lastCall_spec _ (·.2.source) (by intro c o; cases o <;> rfl) ops ({}, {})
  · exact lastCall_spec _ (·.2.pageNumbers) (by intro c o; cases o <;> rfl) ops ({}, {})

/-! ### Examples -/

/-- A page of a heading, a paragraph, code and a picture. -/
def exampleOptionsDoc : Dom :=
  .el c!"html" [] [.el c!"body" [] [.el c!"h2" [] [.text c!"Plan"], .el c!"p" [] [.text (List.replicate 120 'a')], .el c!"pre" [] [.text c!"let x"],
    .el c!"img" [(c!"src", c!"a.png"), (c!"alt", c!"A")] []]]

example : ((parsePage id ({} : Config).parser exampleOptionsDoc c!"u").map fun r => r.map fun p => p.page.blocks.map (·.kind)) =
    some (.ok [.heading 2, .paragraph, .code, .image c!"a.png" c!"A"]) := by decide +kernel

example : ((parsePage id ({ code := false, images := false } : Config).parser exampleOptionsDoc c!"u").map fun r =>
    r.map fun p => p.page.blocks.map (·.kind)) = some (.ok [.heading 2, .paragraph]) := by decide +kernel

/-- The address is a bullet of the first slide before it is written. -/
example : (buildWebSlides ({} : Config).converter ⟨c!"T", c!"u", none, [WebBlock.new .paragraph c!"x"]⟩ none true).head? =
    some ⟨c!"T", [c!"Source: u"]⟩ := by decide +kernel

example : ([Op.maxSlides 3, .title c!"A", .maxSlides 5].foldl apply ({}, {})).1.maxSlides = 5 := rfl

end PptRs.Props
