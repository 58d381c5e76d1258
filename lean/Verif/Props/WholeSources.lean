import Verif.Props.Whole
import Verif.Props.MdImport
import Verif.Props.HtmlStyled
import Verif.Props.Web
import Verif.Props.WebPage
import Verif.Props.WebLost
import Verif.Props.Repair

/-!
# C144: from Markdown, HTML and web pages to opened presentations
-/

namespace PptRs.Props

open PptRs PptRs.Spec PptRs.Reader PptRs.Import PptRs.Whole PptRs.MdImport

/-- What can be read on a loaded slide: its title, its bullets and the texts of its table. -/
def slideView (s : LoadedSlide) : Str × List Str × List (List Str) :=
  (s.text.title, s.text.texts, (s.text.table.toList.flatMap (·.rows)).map fun r => r.cells.map (·.text))

theorem plainSlide_texts (title : Str) (bullets : List Str) (table : Option TableIn) : (plainSlide title bullets table).texts = bullets := by
  cases bullets with
  | nil => rfl
  | cons b l => simp [SlideText.texts, plainSlide, List.map_map, Function.comp_def]

theorem slideView_expected (s : SlideText) (hl : s.layout = .titleAndContent) :
    slideView (expectedSlide s) =
      (visible s.title, if s.table = none then s.texts.filter (fun t => ¬ BlankText t) else [], (s.table.map seenTexts).getD []) := by
  unfold slideView expectedSlide
  simp only [plainSlide_texts, hl, if_true, showsBullets]
  cases ht : s.table with
  | none => simp [plainSlide]
  | some t =>
    by_cases h : seenTexts t = []
    · simp [h, plainSlide, Option.filter]
    · simp [h, plainSlide, Option.filter, tableOfTexts, List.map_map, Function.comp_def]

theorem addBullets_texts (title : Str) (l : List Str) : (l.foldl SlideText.addBullet (SlideText.new title)).texts = l := by
  rw [addBullets_eq]
  cases l with
  | nil => rfl
  | cons b l => simp [SlideText.texts, SlideText.new, List.map_map, Function.comp_def]

theorem tableIn_plain (t : TextTable) : ∀ r ∈ (tableIn t).rows, ∀ c ∈ r.cells, ∃ x : Str, c = { text := x } := by
  intro r hr c hc
  obtain ⟨r0, _, rfl⟩ := List.mem_map.mp hr
  obtain ⟨x, _, rfl⟩ := List.mem_map.mp hc
  exact ⟨x, rfl⟩

theorem seenTexts_tableIn (t : TextTable) : seenTexts (tableIn t) = (t.rows.map fun r => r.map visible).filter (· ≠ []) := by
  simp [seenTexts, tableIn, List.map_map, Function.comp_def]

/-! ### Markdown -/

/-- A table with at least one row, whose rows have the same positive number of cells. -/
def Rectangular (rows : List (List Str)) : Prop := rows ≠ [] ∧ ∃ n, 0 < n ∧ n < 4294967296 ∧ ∀ r ∈ rows, r.length = n

/-- What should be read on the slide of a document: the title, the bullets (on slides without a table) and the last table. -/
def docView (d : DocSlide) : Str × List Str × List (List Str) :=
  (visible d.title, if d.tables = [] then d.bullets.filter (fun t => ¬ BlankText t) else [],
    (d.tables.getLast?.getD []).map fun r => r.map visible)

theorem rectangular_table {rows : List (List Str)} (h : Rectangular rows) : ∃ t, tableFromStringRows rows = some t ∧ t.rows = rows := by
  obtain ⟨h0, n, hn, hm, hr⟩ := h
  obtain ⟨r0, hr0⟩ := List.exists_mem_of_ne_nil _ h0
  have hmax : maxCells rows = n := by
    have h1 := length_le_maxCells hr0
    rw [hr r0 hr0] at h1
    have h2 := maxCells_lt rows (n + 1) (by omega) (fun r h => by rw [hr r h]; omega)
    omega
  refine ⟨_, equalColumns_some (by omega) (by omega), ?_⟩
  show rows.map (padRow (maxCells rows)) = rows
  refine (List.map_congr_left fun r h => ?_).trans (List.map_id _)
  simp [padRow, hmax, hr r h]

theorem ofMd_view (d : DocSlide) (h : ∀ rows ∈ d.tables.getLast?, Rectangular rows) :
    slideView (expectedSlide (ofMd d.kept).text) = docView d := by
  have htext : (ofMd d.kept).text.texts = d.bullets := by
    show (SlideText.texts _) = _
    rw [← addBullets_texts d.title d.bullets]
    rfl
  have hl : (ofMd d.kept).text.layout = .titleAndContent := by
    simp only [ofMd, addBullets_eq]; rfl
  have htitle : (ofMd d.kept).text.title = d.title := by
    simp only [ofMd, addBullets_eq]; rfl
  rw [slideView_expected _ hl, htext, htitle]
  unfold docView
  cases e : d.tables.getLast? with
  | none =>
    have : d.tables = [] := List.getLast?_eq_none_iff.mp e
    simp [ofMd, DocSlide.kept, this]
  | some rows =>
    have hne : d.tables ≠ [] := by intro h; rw [h] at e; cases e
    obtain ⟨t, h1, h2⟩ := rectangular_table (h rows e)
    have ht : (ofMd d.kept).text.table = some (tableIn t) := by simp [ofMd, DocSlide.kept, e, h1]
    rw [ht]
    simp only [hne, if_false, reduceCtorEq, Option.map_some, Option.getD_some, seenTexts_tableIn, h2]
    congr 2
    rw [List.filter_eq_self]
    intro r hr
    obtain ⟨r0, hr0, rfl⟩ := List.mem_map.mp hr
    obtain ⟨_, n, hn, _, hrn⟩ := h rows e
    have := hrn r0 hr0
    have : r0 ≠ [] := by intro h; simp [h] at this; omega
    simpa using this

/-- **C144.** A presentation made from Markdown opens with the title of every heading, the items of its lists and the texts
of its table. (Partial: no code, diagrams and pictures; tables with equal rows; a title without markup.) -/
theorem C144_markdown_partial (load : Str → Bool) (dt : Str → Str) (secs : Nat) (title : Option Str) (desc : Str → Str)
    (other : PartName → Bytes) (doc : List DocBlock) (ho : ∀ b ∈ doc, blockOk b = true) (h0 : docSlides load dt doc ≠ [])
    (hn : (docSlides load dt doc).length + 1 < 4294967296)
    (hd : ∀ d ∈ docSlides load dt doc, d.codes = [] ∧ d.figures = [] ∧ d.pictures = [] ∧ ∀ rows ∈ d.tables.getLast?, Rectangular rows)
    (ht : ∀ t ∈ title, '&' ∉ t ∧ '<' ∉ t) :
    ∃ file p, mdFile load dt secs title desc other (docEvs doc) = some file ∧ opened file = some p ∧
      p.title = visible (title.getD c!"Presentation from Markdown") ∧
      p.slides.map slideView = (docSlides load dt doc).map docView := by
  have hm : mdFile load dt secs title desc other (docEvs doc) = some (written secs (title.getD c!"Presentation from Markdown")
      (((docSlides load dt doc).map DocSlide.kept).map ofMd) .none desc other) := by
    unfold mdFile
    rw [C89_import_partial load dt doc ho, if_neg h0]
    simp only
    rw [if_pos]
    rw [List.all_eq_true]
    intro s hs
    obtain ⟨d, hd', rfl⟩ := List.mem_map.mp hs
    obtain ⟨h1, h2, h3, _⟩ := hd d hd'
    simp [mdSimple, DocSlide.kept, h1, h2, h3]
  have hr : Readable (((docSlides load dt doc).map DocSlide.kept).map ofMd) := by
    intro s hs
    obtain ⟨x, _, rfl⟩ := List.mem_map.mp hs
    have h := addBullets_readable x.title x.bullets (x.table.map tableIn) .titleAndContent (by
      intro t ht
      obtain ⟨t0, _, rfl⟩ := Option.map_eq_some_iff.mp ht
      exact tableIn_plain t0)
    have e : (ofMd x).text = { (x.bullets.foldl SlideText.addBullet (SlideText.new x.title)) with
        table := x.table.map tableIn, layout := .titleAndContent } := by
      simp only [ofMd, addBullets_eq]; rfl
    rw [e]
    exact h
  have ht' : '&' ∉ title.getD c!"Presentation from Markdown" ∧ '<' ∉ title.getD c!"Presentation from Markdown" := by
    cases title with
    | none => decide
    | some t => exact ht t rfl
  have := C144_open_partial secs desc other (st := .none) rfl rfl (by simpa using h0) (by simpa using hn) hr ht'.1 ht'.2
  refine ⟨_, _, hm, this, rfl, ?_⟩
  rw [List.map_map, List.map_map, List.map_map]
  exact List.map_congr_left fun d hd' => ofMd_view d (hd d hd').2.2.2

/-- **C144 does not hold in full.** On a slide with a table the items of the lists of a Markdown document are lost: the slide
shows the table alone. -/
theorem C144_mixed_violated (load : Str → Bool) (dt : Str → Str) (secs : Nat) (title : Option Str) (desc : Str → Str)
    (other : PartName → Bytes) (doc : List DocBlock) (ho : ∀ b ∈ doc, blockOk b = true) (h0 : docSlides load dt doc ≠ [])
    (hn : (docSlides load dt doc).length + 1 < 4294967296)
    (hd : ∀ d ∈ docSlides load dt doc, d.codes = [] ∧ d.figures = [] ∧ d.pictures = [] ∧ ∀ rows ∈ d.tables.getLast?, Rectangular rows)
    (ht : ∀ t ∈ title, '&' ∉ t ∧ '<' ∉ t) (i : Nat) (d : DocSlide) (hi : (docSlides load dt doc)[i]? = some d) (htab : d.tables ≠ []) :
    ∃ file p s, mdFile load dt secs title desc other (docEvs doc) = some file ∧ opened file = some p ∧ p.slides[i]? = some s ∧
      s.text.texts = [] := by
  obtain ⟨file, p, h1, h2, -, h3⟩ := C144_markdown_partial load dt secs title desc other doc ho h0 hn hd ht
  have e := congrArg (·[i]?) h3
  simp only [List.getElem?_map, hi, Option.map_some] at e
  obtain ⟨s, hs, e⟩ := Option.map_eq_some_iff.mp e
  refine ⟨file, p, s, h1, h2, hs, ?_⟩
  have := congrArg (fun v => v.2.1) e
  simpa [docView, htab, slideView] using this

/-- A document with a list on one slide and a list and a table on the next. -/
def priceDoc : List DocBlock :=
  [.heading 1 [.text c!"Fruit"], .list [(true, [.text c!"Apple"]), (false, [.text c!"a < b"])],
   .heading 1 [.text c!"Prices & more"], .list [(true, [.text c!"lost"])],
   .table [[.text c!"Kind"], [.text c!"Price"]] [[[.text c!"Apple"], [.text c!"5"]]]]

theorem price_slides : (docSlides (fun _ => false) (fun _ => []) priceDoc).map docView =
    [(c!"Fruit", [c!"Apple", c!"a < b"], []), (c!"Prices & more", [], [[c!"Kind", c!"Price"], [c!"Apple", c!"5"]])] := by
  decide +kernel

theorem price_ok : ∀ d ∈ docSlides (fun _ => false) (fun _ => []) priceDoc,
    d.codes = [] ∧ d.figures = [] ∧ d.pictures = [] ∧ ∀ rows ∈ d.tables.getLast?, Rectangular rows := by
  have e : docSlides (fun _ => false) (fun _ => []) priceDoc =
      [{ title := c!"Fruit", bullets := [c!"Apple", c!"a < b"] },
       { title := c!"Prices & more", bullets := [c!"lost"], tables := [[[c!"Kind", c!"Price"], [c!"Apple", c!"5"]]] }] := by krfl
  rw [e]
  intro d hd
  simp only [List.mem_cons, List.not_mem_nil, or_false] at hd
  rcases hd with rfl | rfl
  · simp
  · refine ⟨rfl, rfl, rfl, ?_⟩
    rintro rows ⟨⟩
    exact ⟨by simp, 2, by decide, by decide, by simp⟩

/-- The premises of `C144_markdown_partial` can be met. -/
example : ∃ file p, mdFile (fun _ => false) (fun _ => []) 0 none id (fun _ => []) (docEvs priceDoc) = some file ∧ opened file = some p ∧
    p.title = c!"Presentation from Markdown" ∧ p.slides.map slideView =
      [(c!"Fruit", [c!"Apple", c!"a < b"], []), (c!"Prices & more", [], [[c!"Kind", c!"Price"], [c!"Apple", c!"5"]])] := by
  obtain ⟨file, p, h1, h2, h3, h4⟩ := C144_markdown_partial (fun _ => false) (fun _ => []) 0 none id (fun _ => []) priceDoc
    (by decide +kernel) (by intro h; have := congrArg (List.map docView) h; rw [price_slides] at this; cases this)
    (by have := congrArg List.length price_slides; rw [List.length_map] at this; rw [this]; decide) price_ok (by simp)
  exact ⟨file, p, h1, h2, by rw [h3]; decide +kernel, by rw [h4, price_slides]⟩

/-! ### HTML -/

theorem blank_trim {t : Str} (h : BlankText t) : trim t = [] := by
  rw [trim_eq_nil]
  intro c hc
  rcases h c hc with rfl | rfl | rfl | rfl <;> decide

theorem not_blank_trim {t : Str} (h : trim t ≠ []) : ¬ BlankText (trim t) := by
  intro hb
  have := blank_trim hb
  rw [trim_trim] at this
  exact h this

/-- All declarations of a block. -/
def blockDecls : StyledBlock → List Decl
  | .para ds _ => ds
  | .sub _ ds _ => ds
  | .list _ ds items => ds ++ items.flatMap (·.1)

/-- All declarations of a section. -/
def sectionDecls (s : StyledSection) : List Decl := s.decls ++ s.blocks.flatMap blockDecls

/-- Fonts without markup and sizes that fit, as hundredths of a point, into 32 bits. -/
def FineDecls (ds : List Decl) : Prop := (∀ n, Decl.font n ∈ ds → Plain n) ∧ ∀ n, Decl.size n ∈ ds → n < 40000000

theorem FineDecls.append {a b : List Decl} (ha : FineDecls a) (hb : FineDecls b) : FineDecls (a ++ b) :=
  ⟨fun n hn => (List.mem_append.mp hn).elim (ha.1 n) (hb.1 n), fun n hn => (List.mem_append.mp hn).elim (ha.2 n) (hb.2 n)⟩

theorem FineDecls.sub {a b : List Decl} (hb : FineDecls b) (h : ∀ d ∈ a, d ∈ b) : FineDecls a :=
  ⟨fun n hn => hb.1 n (h _ hn), fun n hn => hb.2 n (h _ hn)⟩

theorem wantedFormat_size {ds : List Decl} (h : FineDecls ds) : ∀ f ∈ wantedFormat ds, ∀ n ∈ f.fontSize, n < 40000000 := by
  intro f hf
  unfold wantedFormat at hf
  split at hf
  · cases hf
  · cases hf
    refine lastSet_prop (fun x : Option Nat => ∀ c ∈ x, c < 40000000) _ _ _ (by simp) fun d hd x hx => ?_
    cases d <;> cases hx
    rintro c ⟨⟩
    exact h.2 _ hd

theorem bullets_fine {outer : List Decl} (ho : FineDecls outer) {s : StyledSection} (hs : FineDecls (sectionDecls s)) :
    ∀ p ∈ s.bullets outer, ¬ BlankText p.1 ∧ ∀ f ∈ p.2, f.Safe ∧ ∀ n ∈ f.fontSize, n < 40000000 := by
  have hf : ∀ t u, u ∈ filled t → ¬ BlankText u := by
    intro t u hu
    unfold filled at hu
    split at hu
    · simp at hu
    · rename_i h
      rw [List.mem_singleton] at hu
      subst hu
      exact not_blank_trim h
  have key : ∀ ds : List Decl, (∀ d ∈ ds, d ∈ outer ∨ d ∈ sectionDecls s) → ∀ f ∈ wantedFormat ds, f.Safe ∧ ∀ n ∈ f.fontSize, n < 40000000 := by
    intro ds hds f hf
    have hd : FineDecls ds := (ho.append hs).sub fun d h => List.mem_append.mpr (hds d h)
    exact ⟨wantedFormat_safe hd.1 f hf, wantedFormat_size hd f hf⟩
  have hin : ∀ b ∈ s.blocks, ∀ d ∈ blockDecls b, d ∈ sectionDecls s := fun b hb d hd =>
    List.mem_append_right _ (List.mem_flatMap.mpr ⟨b, hb, hd⟩)
  intro p hp
  obtain ⟨b, hb, hp⟩ := List.mem_flatMap.mp hp
  cases b with
  | para ds l =>
    obtain ⟨t, ht, rfl⟩ := List.mem_map.mp hp
    exact ⟨hf _ _ ht, key _ fun d hd => (List.mem_append.mp hd).imp id (hin _ hb d)⟩
  | sub lv ds l =>
    obtain ⟨t, ht, rfl⟩ := List.mem_map.mp hp
    refine ⟨fun h => ?_, key _ fun d hd => (List.mem_append.mp hd).imp id (hin _ hb d)⟩
    have := h '*' (by simp)
    revert this; decide
  | list ord ds items =>
    obtain ⟨q, hq, hp⟩ := List.mem_flatMap.mp hp
    obtain ⟨t, ht, rfl⟩ := List.mem_map.mp hp
    refine ⟨hf _ _ ht, key _ fun d hd => ?_⟩
    rcases List.mem_append.mp hd with h | h
    · exact (List.mem_append.mp h).imp id fun h => hin _ hb d (List.mem_append_left _ h)
    · exact .inr (hin _ hb d (List.mem_append_right _ (List.mem_flatMap.mpr ⟨q, hq, h⟩)))

/-- The title of a section. -/
def sectionTitle (s : StyledSection) : Str := if trim (showL s.title) = [] then c!"Slide" else trim (showL s.title)

/-- **C144.** A presentation made from a styled web page opens with a slide for every section, with its heading and the texts
of its paragraphs and lists. (Partial: no code, tables and pictures; room for the bullets; fonts and the title of the
document without markup.) -/
theorem C144_html_partial (env : HtmlEnv) (o : HtmlOptions) (secs : Nat) (title : Option Str) (desc : Str → Str)
    (other : PartName → Bytes) (outer : List Decl) (a : List StyledSection) (hne : a ≠ []) (ho : ∀ d ∈ outer, d.Ok)
    (ha : ∀ s ∈ a, s.Ok) (hr : ∀ s ∈ a, (s.bullets outer).length ≤ o.maxBullets) (hp : properL [styledPage outer a] = true)
    (hfo : FineDecls outer) (hfs : ∀ s ∈ a, FineDecls (sectionDecls s)) (hm : 0 < o.maxSlides) (hl : a.length + 1 < 4294967296)
    (ht : ∀ t ∈ title, '&' ∉ t ∧ '<' ∉ t) :
    ∃ file p, htmlFile env o secs title desc other (writeL [styledPage outer a]) = some file ∧ opened file = some p ∧
      p.title = visible (title.getD c!"Presentation from HTML") ∧
      p.slides.map slideView = (a.take o.maxSlides).map fun s => (sectionTitle s, (s.bullets outer).map (·.1), []) := by
  have hz : ∀ l : List (Str × Option BulletTextFormat), (l.map (·.1)).zip (l.map (·.2)) = l := by
    intro l; induction l with
    | nil => rfl
    | cons p l ih => simp [ih]
  have hb : ∀ s, (ofHtml (styledSlide outer s)).text.bullets = (s.bullets outer).map fun p => { text := p.1, format := p.2 } := by
    intro s
    show ((((s.bullets outer).map (·.1)).zip ((s.bullets outer).map (·.2))).map _) = _
    rw [hz]
  have hfile : htmlFile env o secs title desc other (writeL [styledPage outer a]) = some (written secs
      (title.getD c!"Presentation from HTML") (((a.map (styledSlide outer)).take o.maxSlides).map ofHtml) .none desc other) := by
    unfold htmlFile
    rw [C142_page env o outer ho a hne ha hr hp]
    simp only
    rw [if_neg]
    have h1 : ((a.map (styledSlide outer)).take o.maxSlides).isEmpty = false := by
      cases a with
      | nil => exact absurd rfl hne
      | cons s a =>
        obtain ⟨k, hk⟩ := Nat.exists_eq_succ_of_ne_zero (Nat.pos_iff_ne_zero.mp hm)
        rw [hk]; rfl
    have h2 : ((a.map (styledSlide outer)).take o.maxSlides).all htmlSimple = true := by
      rw [List.all_eq_true]
      intro x hx
      obtain ⟨s, _, rfl⟩ := List.mem_map.mp (List.mem_of_mem_take hx)
      rfl
    simp [h1, h2]
  have hread : Readable (((a.map (styledSlide outer)).take o.maxSlides).map ofHtml) := by
    intro x hx
    obtain ⟨y, hy, rfl⟩ := List.mem_map.mp hx
    obtain ⟨s, hs, rfl⟩ := List.mem_map.mp (List.mem_of_mem_take hy)
    have hf := bullets_fine hfo (hfs s hs)
    have htd : FineDecls (outer ++ s.decls) := hfo.append ((hfs s hs).sub fun d hd => List.mem_append_left _ hd)
    refine ⟨⟨?_, ?_, ?_, ?_, ?_⟩, ⟨?_, ?_, ?_, ?_, ?_⟩, rfl⟩
    · show ∀ c ∈ ((wantedFormat (outer ++ s.decls)).getD {}).color, Plain c
      have h := wantedFormat_safe htd.1
      cases e : wantedFormat (outer ++ s.decls) with
      | none => simp
      | some f => exact (h f e).color
    · intro c hc; cases hc
    · intro c hc; cases hc
    · rw [hb]
      intro b hb
      obtain ⟨p, hp, rfl⟩ := List.mem_map.mp hb
      exact ⟨(by intro c hc; cases hc), fun f hf' => ((hf p hp).2 f hf').1⟩
    · intro t ht; cases ht
    · show ∀ n ∈ ((wantedFormat (outer ++ s.decls)).getD {}).fontSize.or (some 44), n < 40000000
      have h := wantedFormat_size htd
      cases e : wantedFormat (outer ++ s.decls) with
      | none => rintro n ⟨⟩; decide
      | some f =>
        have h' := h f e
        cases e2 : f.fontSize with
        | none => simp [e2]
        | some n => rw [e2] at h'; rintro m hm; simp [e2] at hm; subst hm; exact h' _ rfl
    · intro n hn; cases hn; decide
    · rw [hb]
      intro b hb
      obtain ⟨p, hp, rfl⟩ := List.mem_map.mp hb
      show 0 < 4294967296
      decide
    · rw [hb]
      intro b hb
      obtain ⟨p, hp, rfl⟩ := List.mem_map.mp hb
      exact fun f hf' => ((hf p hp).2 f hf').2
    · intro t ht; cases ht
  have ht' : '&' ∉ title.getD c!"Presentation from HTML" ∧ '<' ∉ title.getD c!"Presentation from HTML" := by
    cases title with
    | none => decide
    | some t => exact ht t rfl
  have := C144_open_partial secs desc other (st := .none) rfl rfl (l := ((a.map (styledSlide outer)).take o.maxSlides).map ofHtml)
    (by simp [hne]; omega) (by simp; omega) hread ht'.1 ht'.2
  refine ⟨_, _, hfile, this, rfl, ?_⟩
  rw [List.map_map, List.map_map, ← List.map_take, List.map_map]
  refine List.map_congr_left fun s hs => ?_
  have hs' := List.mem_of_mem_take hs
  simp only [Function.comp_apply]
  rw [slideView_expected _ rfl]
  have hf := bullets_fine hfo (hfs s hs')
  have e1 : (ofHtml (styledSlide outer s)).text.texts = (s.bullets outer).map (·.1) := by
    unfold SlideText.texts
    rw [hb]
    by_cases h : s.bullets outer = []
    · rw [h]; simp; show (s.bullets outer).map (·.1) = []; rw [h]; rfl
    · rw [if_neg (by simpa using h), List.map_map]; rfl
  rw [e1, if_pos (show (ofHtml (styledSlide outer s)).text.table = none from rfl), List.filter_eq_self.mpr]
  · refine Prod.ext ?_ rfl
    show visible (sectionTitle s) = sectionTitle s
    unfold sectionTitle
    split
    · decide
    · rename_i h
      rw [visible, if_neg (not_blank_trim h)]
  · intro t ht
    obtain ⟨p, hp, rfl⟩ := List.mem_map.mp ht
    simpa using (hf p hp).1

/-- The premises of `C144_html_partial` can be met. -/
example (env : HtmlEnv) : ∃ file p, htmlFile env defaultHtml 0 (some c!"My page") id (fun _ => [])
      (writeL [styledPage [.size 20] sampleStyled]) = some file ∧ opened file = some p ∧ p.title = c!"My page" ∧
    p.slides.map slideView = [(c!"One", [c!"x", c!"i", c!"j", c!"**more**"], [])] := by
  have hf : ∀ s ∈ sampleStyled, FineDecls (sectionDecls s) := by
    intro s hs
    simp only [sampleStyled, List.mem_singleton] at hs
    subst hs
    constructor <;> simp [sectionDecls, blockDecls, Plain]
  obtain ⟨file, p, h1, h2, h3, h4⟩ := C144_html_partial env defaultHtml 0 (some c!"My page") id (fun _ => []) [.size 20] sampleStyled
    (by simp [sampleStyled]) (by intro d hd; rw [List.mem_singleton] at hd; subst hd; show 20 < 4294967296; decide) sampleStyled_ok
    (by intro s hs; simp only [sampleStyled, List.mem_singleton] at hs; subst hs; decide +kernel) (by decide +kernel)
    ⟨by simp, by simp⟩ hf (by decide) (by decide) (by simp)
  exact ⟨file, p, h1, h2, by rw [h3]; decide +kernel, by rw [h4]; decide +kernel⟩

/-! ### Web pages -/

theorem slideView_centered (s : SlideText) (hl : s.layout = .centeredTitle) : slideView (expectedSlide s) = (visible s.title, [], []) := by
  unfold slideView expectedSlide
  simp only [plainSlide_texts, hl, showsBullets]
  rfl

/-- What can be read of the slides the web converter makes: nothing but the title on the first one. -/
def webViews : List WebSlide → List (Str × List Str × List (List Str))
  | [] => []
  | s :: l => (visible s.title, [], []) :: l.map fun s => (visible s.title, s.bullets.filter (fun t => ¬ BlankText t), [])

theorem ofWeb_views (l : List WebSlide) : (ofWeb l).map (fun s => slideView (expectedSlide s.text)) = webViews l := by
  cases l with
  | nil => rfl
  | cons s l =>
    simp only [ofWeb, webViews, List.map_cons, List.map_map]
    congr 1
    · rw [slideView_centered _ rfl, addBullets_eq]
      rfl
    · refine List.map_congr_left fun x _ => ?_
      simp only [Function.comp_apply]
      rw [slideView_expected _ (by rw [addBullets_eq]; rfl), addBullets_texts, addBullets_eq]
      rfl

theorem ofWeb_readable (l : List WebSlide) : Readable (ofWeb l) := by
  intro s hs
  cases l with
  | nil => simp [ofWeb] at hs
  | cons x l =>
    simp only [ofWeb, List.mem_cons, List.mem_map] at hs
    rcases hs with rfl | ⟨y, _, rfl⟩
    · have := addBullets_readable x.title x.bullets none .centeredTitle (by simp)
      rw [addBullets_eq] at this ⊢
      exact this
    · have := addBullets_readable y.title y.bullets none .titleAndContent (by simp)
      rw [addBullets_eq] at this ⊢
      exact this

theorem ofWeb_length (l : List WebSlide) : (ofWeb l).length = l.length := by
  cases l <;> simp [ofWeb]

theorem webSlides_head (cfg : WebConfig) (page : WebPage) (title : Option Str) (source : Bool) (hm : 0 < cfg.maxBullets) :
    ∃ new, buildWebSlides cfg page title source = (webTitleSlide page title source :: new).take cfg.maxSlides := by
  by_cases hg : cfg.group = true ∧ ∃ b ∈ page.blocks, b.isHeading = true
  · exact ⟨_, C79_grouped_partial cfg page title source hm hg.1 hg.2⟩
  · have e : buildWebSlides cfg page title source = (buildLinear cfg page [webTitleSlide page title source]).take cfg.maxSlides := by
      unfold buildWebSlides buildGrouped
      cases hgr : cfg.group with
      | false => simp
      | true =>
        have hn : ∀ b ∈ page.blocks, b.isHeading = false := by
          intro b hb
          by_contra hc
          exact hg ⟨hgr, b, hb, by simpa using hc⟩
        simp [grouped_none hn]
    obtain ⟨new, h1, _⟩ := linear_good hm page [webTitleSlide page title source]
    exact ⟨new, by rw [e, h1]; rfl⟩

/-- **C144.** The slides of a converted page are those that are opened. -/
theorem C144_web_slides_partial (cfg : WebConfig) (page : WebPage) (title : Option Str) (source : Bool) (secs : Nat)
    (desc : Str → Str) (other : PartName → Bytes) (hm : 0 < cfg.maxSlides) (hb : 0 < cfg.maxBullets)
    (hl : cfg.maxSlides + 1 < 4294967296) (ht : '&' ∉ title.getD page.title ∧ '<' ∉ title.getD page.title) :
    ∃ p, opened (webFile cfg page title source secs desc other) = some p ∧ p.title = visible (title.getD page.title) ∧
      p.slides.map slideView = webViews (buildWebSlides cfg page title source) := by
  have h1 : (buildWebSlides cfg page title source).length ≤ cfg.maxSlides := C48_slides cfg page title source
  have h0 : buildWebSlides cfg page title source ≠ [] := by
    obtain ⟨new, hnew⟩ := webSlides_head cfg page title source hb
    obtain ⟨k, hk⟩ := Nat.exists_eq_succ_of_ne_zero (Nat.pos_iff_ne_zero.mp hm)
    rw [hnew, hk]
    simp
  have := C144_open_partial secs desc other (st := .none) (title := title.getD page.title) (l := ofWeb (buildWebSlides cfg page title source))
    rfl rfl (by intro e; have := congrArg List.length e; rw [ofWeb_length] at this; exact h0 (List.length_eq_zero_iff.mp this))
    (by rw [ofWeb_length]; omega) (ofWeb_readable _) ht.1 ht.2
  refine ⟨_, this, rfl, ?_⟩
  rw [List.map_map]
  exact ofWeb_views _

/-- **C144 does not hold in full.** The description of a web page and its address are put on the title slide, whose layout
shows no bullets: the opened presentation has neither. -/
theorem C144_web_source_violated (cfg : WebConfig) (page : WebPage) (title : Option Str) (secs : Nat)
    (desc : Str → Str) (other : PartName → Bytes) (hm : 0 < cfg.maxSlides) (hb : 0 < cfg.maxBullets)
    (hl : cfg.maxSlides + 1 < 4294967296) (ht : '&' ∉ title.getD page.title ∧ '<' ∉ title.getD page.title) :
    (webTitleSlide page title true).bullets = page.description.toList ++ [c!"Source: " ++ page.url] ∧
    ∃ p s, opened (webFile cfg page title true secs desc other) = some p ∧ p.slides.head? = some s ∧
      slideView s = (visible (title.getD page.title), [], []) := by
  refine ⟨rfl, ?_⟩
  obtain ⟨p, h1, -, h3⟩ := C144_web_slides_partial cfg page title true secs desc other hm hb hl ht
  obtain ⟨new, hnew⟩ := webSlides_head cfg page title true hb
  obtain ⟨k, hk⟩ := Nat.exists_eq_succ_of_ne_zero (Nat.pos_iff_ne_zero.mp hm)
  rw [hnew, hk, List.take_succ_cons, webViews] at h3
  have e := congrArg List.head? h3
  rw [List.head?_map, List.head?_cons] at e
  obtain ⟨s, hs, e⟩ := Option.map_eq_some_iff.mp e
  exact ⟨p, s, h1, hs, e⟩

/-- **C144.** A web page, read, converted and opened: behind the title slide the bullets are the texts of the page, in order.
(Partial: the page begins with a heading and is within the limits of the parser and the converter; the title is without
markup.) -/
theorem C144_web_partial (low : Str → Str) (pc : Web.ParserConfig) (cfg : WebConfig) (d : WebDoc) (url t : Str) (secs : Nat)
    (source : Bool) (desc : Str → Str) (other : PartName → Bytes) (ht : d.title = some t) (ht' : trim t ≠ [])
    (h : FlowsOk low d.body) (hd : flowsHeight d.body < 256) (hm : ∀ e ∈ Web.elementsOf (flowDoms d.body), ¬ Mainish e)
    (hl : 100 < utf8Len (domTexts (flowDoms d.body))) (b : WebBlock) (rest : List WebBlock)
    (hb : flowBlocks pc.images pc.tables pc.code d.body = b :: rest) (hh : b.isHeading = true) (hg : cfg.group = true)
    (hmax : 0 < cfg.maxBullets) (hsl : cfg.maxSlides + 1 < 4294967296) (hmk : '&' ∉ trim t ∧ '<' ∉ trim t) :
    ∃ w, Web.parsePage low pc d.dom url = some (.ok w) ∧
      ((buildWebSlides cfg w.page none source).length < cfg.maxSlides →
        ∃ p, opened (webFile cfg w.page none source secs desc other) = some p ∧ p.title = trim t ∧
          p.slides.head?.map slideView = some (trim t, [], []) ∧
          p.slides.tail.flatMap (fun s => (slideView s).2.1) =
            ((b :: rest).filterMap (groupBullet cfg)).filter fun t => ¬ BlankText t) := by
  obtain ⟨w, h1, h2, h3, h4, h5, h6⟩ := C143_page_partial low pc d url t ht ht' h hd hm hl (by rw [hb]; simp)
  refine ⟨w, h1, fun hlen => ?_⟩
  obtain ⟨p, hp1, hp2, hp3⟩ := C144_web_slides_partial cfg w.page none source secs desc other (by omega) hmax hsl (by rw [Option.getD_none, h2]; exact hmk)
  have hv : visible (trim t) = trim t := by rw [visible, if_neg (not_blank_trim ht')]
  refine ⟨p, hp1, by rw [hp2, Option.getD_none, h2, hv], ?_, ?_⟩
  · obtain ⟨new, hnew⟩ := webSlides_head cfg w.page none source hmax
    obtain ⟨k, hk⟩ := Nat.exists_eq_succ_of_ne_zero (n := cfg.maxSlides) (by omega)
    rw [← List.head?_map, hp3, hnew, hk, List.take_succ_cons, webViews, List.head?_cons]
    simp [webTitleSlide, h2, hv]
  · have e := C79_bullets_partial cfg w.page none source hmax hg b rest (by rw [h4, hb]) hh hlen
    rw [h4, hb] at e
    rw [← e]
    have e2 : p.slides.tail.flatMap (fun s => (slideView s).2.1) = ((p.slides.map slideView).tail).flatMap (·.2.1) := by
      rw [← List.map_tail, List.flatMap_map]
    rw [e2, hp3]
    cases buildWebSlides cfg w.page none source with
    | nil => rfl
    | cons s l =>
      rw [webViews, List.tail_cons, List.tail_cons, List.flatMap_map]
      clear * -
      induction l with
      | nil => rfl
      | cons x l ih => simp only [List.flatMap_cons, List.filter_append, ih]

/-- The premises of `C144_web_partial` can be met. -/
example : ∃ w p, Web.parsePage id {} fruitPage.dom c!"http://a" = some (.ok w) ∧
    opened (webFile .default w.page none true 0 id fun _ => []) = some p ∧ p.title = c!"Fruit" ∧
    p.slides.head?.map slideView = some (c!"Fruit", [], []) := by
  obtain ⟨w, h1, h2⟩ := C144_web_partial id {} .default fruitPage c!"http://a" c!" Fruit \n" 0 true id (fun _ => []) rfl
    (by decide +kernel) sample_ok (by decide +kernel) sample_notMain (by decide +kernel) _ _ sample_blocks rfl rfl (by decide) (by decide)
    (by decide +kernel)
  obtain ⟨w', g1, g2, g3, g4, -, g5⟩ := C143_page_partial id {} fruitPage c!"http://a" c!" Fruit \n" rfl (by decide +kernel) sample_ok
    (by decide +kernel) sample_notMain (by decide +kernel) (by rw [sample_blocks]; decide +kernel)
  rw [h1] at g1
  cases g1
  obtain ⟨p, h3, h4, h5, -⟩ := h2 (by
    have e : w.page = ⟨trim c!" Fruit \n", c!"http://a", some (trim c!" About fruit "), sampleBlocks⟩ := by
      rw [← g2, ← g3, ← sample_blocks]
      rw [show flowBlocks true true true fruitPage.body = w.page.blocks from g4.symm, ← g5 _ rfl (by decide +kernel)]
    rw [e]
    decide +kernel)
  exact ⟨w, p, h1, h3, by rw [h4]; decide +kernel, by rw [h5]; decide +kernel⟩

end PptRs.Props
