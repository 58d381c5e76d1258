import Verif.Spec.Web
import Mathlib.Data.List.Infix

/-!
# C47, C48, C79: web pages as slides
-/

namespace PptRs.Props

open PptRs PptRs.Spec

/-! ### C47: grouping by headings -/

/-- The groups and the open group, as one list of groups. -/
def GroupState.all (st : GroupState) : List (WebBlock × List WebBlock) :=
  match st.heading with
  | some h => st.groups ++ [(h, st.content)]
  | none => st.groups

def ungroup (gs : List (WebBlock × List WebBlock)) : List WebBlock := gs.flatMap fun g => g.1 :: g.2

theorem group_fold_some (bs : List WebBlock) (gs : List (WebBlock × List WebBlock)) (h : WebBlock) (c : List WebBlock)
    (hh : h.isHeading = true) (hgs : ∀ g ∈ gs, g.1.isHeading = true ∧ ∀ b ∈ g.2, b.isHeading = false)
    (hc : ∀ b ∈ c, b.isHeading = false) :
    ungroup (GroupState.all (bs.foldl groupStep ⟨gs, some h, c⟩)) = ungroup gs ++ h :: c ++ bs ∧
      ∀ g ∈ GroupState.all (bs.foldl groupStep ⟨gs, some h, c⟩), g.1.isHeading = true ∧ ∀ b ∈ g.2, b.isHeading = false := by
  induction bs generalizing gs h c with
  | nil =>
    refine ⟨by simp [GroupState.all, ungroup], ?_⟩
    intro g hg
    simp only [List.foldl_nil, GroupState.all, List.mem_append, List.mem_singleton] at hg
    rcases hg with hg | rfl
    · exact hgs g hg
    · exact ⟨hh, hc⟩
  | cons b bs ih =>
    rw [List.foldl_cons]
    by_cases hb : b.isHeading = true
    · have e : groupStep ⟨gs, some h, c⟩ b = ⟨gs ++ [(h, c)], some b, []⟩ := by simp [groupStep, hb]
      rw [e]
      have := ih (gs ++ [(h, c)]) b [] hb (by
        intro g hg
        rcases List.mem_append.mp hg with hg | hg
        · exact hgs g hg
        · rw [List.mem_singleton] at hg
          subst hg
          exact ⟨hh, hc⟩) (by simp)
      refine ⟨?_, this.2⟩
      rw [this.1]
      simp [ungroup]
    · have e : groupStep ⟨gs, some h, c⟩ b = ⟨gs, some h, c ++ [b]⟩ := by simp [groupStep, hb]
      rw [e]
      have := ih gs h (c ++ [b]) hh hgs (by
        intro x hx
        rcases List.mem_append.mp hx with hx | hx
        · exact hc x hx
        · rw [List.mem_singleton] at hx
          subst hx
          simpa using hb)
      refine ⟨?_, this.2⟩
      rw [this.1]
      simp

theorem group_fold_none (pre rest : List WebBlock) (c : List WebBlock) (h : ∀ b ∈ pre, b.isHeading = false) :
    (pre ++ rest).foldl groupStep ⟨[], none, c⟩ = rest.foldl groupStep ⟨[], none, c ++ pre⟩ := by
  induction pre generalizing c with
  | nil => simp
  | cons b pre ih =>
    have hb := h b List.mem_cons_self
    have e : groupStep ⟨[], none, c⟩ b = ⟨[], none, c ++ [b]⟩ := by simp [groupStep, hb]
    rw [List.cons_append, List.foldl_cons, e, ih _ fun x hx => h x (List.mem_cons_of_mem _ hx)]
    simp

theorem grouped_eq (bs : List WebBlock) : groupedByHeadings bs = GroupState.all (bs.foldl groupStep ⟨[], none, []⟩) := rfl

/-- **C47**: what stands before the first heading is put behind it, everything else stays in order; nothing is lost and
nothing is doubled. -/
theorem C47_flatten (pre : List WebBlock) (h : WebBlock) (rest : List WebBlock)
    (hpre : ∀ b ∈ pre, b.isHeading = false) (hh : h.isHeading = true) :
    ((groupedByHeadings (pre ++ h :: rest)).flatMap fun g => g.1 :: g.2) = h :: pre ++ rest := by
  have e : groupStep ⟨[], none, [] ++ pre⟩ h = ⟨[], some h, pre⟩ := by simp [groupStep, hh]
  rw [grouped_eq, group_fold_none pre _ _ hpre, List.foldl_cons, e]
  have := (group_fold_some rest [] h pre hh (by simp) hpre).1
  simpa [ungroup] using this

/-- **C47**: a page that begins with a heading is grouped in order. -/
theorem C47_in_order_partial (h : WebBlock) (rest : List WebBlock) (hh : h.isHeading = true) :
    ((groupedByHeadings (h :: rest)).flatMap fun g => g.1 :: g.2) = h :: rest := by
  simpa using C47_flatten [] h rest (by simp) hh

theorem exists_heading_split {bs : List WebBlock} (h : ∃ b ∈ bs, b.isHeading = true) :
    ∃ pre h rest, bs = pre ++ h :: rest ∧ (∀ b ∈ pre, b.isHeading = false) ∧ h.isHeading = true := by
  induction bs with
  | nil => obtain ⟨b, hb, _⟩ := h; simp at hb
  | cons b bs ih =>
    by_cases hb : b.isHeading = true
    · exact ⟨[], b, bs, rfl, by simp, hb⟩
    · obtain ⟨x, hx, hxh⟩ := h
      rcases List.mem_cons.mp hx with rfl | hx
      · exact absurd hxh hb
      · obtain ⟨pre, y, rest, rfl, h1, h2⟩ := ih ⟨x, hx, hxh⟩
        refine ⟨b :: pre, y, rest, rfl, ?_, h2⟩
        intro z hz
        rcases List.mem_cons.mp hz with rfl | hz
        · simpa using hb
        · exact h1 z hz

theorem grouped_none {bs : List WebBlock} (h : ∀ b ∈ bs, b.isHeading = false) : groupedByHeadings bs = [] := by
  have := group_fold_none bs [] [] h
  rw [List.append_nil] at this
  rw [grouped_eq, this]
  rfl

/-- **C47**: every group is a heading followed by blocks that are not headings. -/
theorem C47_groups (bs : List WebBlock) : ∀ g ∈ groupedByHeadings bs, g.1.isHeading = true ∧ ∀ b ∈ g.2, b.isHeading = false := by
  by_cases h : ∃ b ∈ bs, b.isHeading = true
  · obtain ⟨pre, x, rest, rfl, hpre, hh⟩ := exists_heading_split h
    have e : groupStep ⟨[], none, [] ++ pre⟩ x = ⟨[], some x, pre⟩ := by simp [groupStep, hh]
    rw [grouped_eq, group_fold_none pre _ _ hpre, List.foldl_cons, e]
    exact (group_fold_some rest [] x pre hh (by simp) hpre).2
  · rw [grouped_none]
    · simp
    · intro b hb
      by_contra hc
      exact h ⟨b, hb, by simpa using hc⟩

/-- **C47**: the groups contain all blocks, each once, if the page has a heading. -/
theorem C47_nothing_lost (bs : List WebBlock) (h : ∃ b ∈ bs, b.isHeading = true) :
    ((groupedByHeadings bs).flatMap fun g => g.1 :: g.2).Perm bs := by
  obtain ⟨pre, x, rest, rfl, hpre, hh⟩ := exists_heading_split h
  rw [C47_flatten pre x rest hpre hh]
  exact List.perm_middle.symm

/-- **C47**: there is one group per heading, in order. -/
theorem C47_headings (bs : List WebBlock) : (groupedByHeadings bs).map (·.1) = bs.filter (·.isHeading) := by
  have key : ∀ gs : List (WebBlock × List WebBlock), (∀ g ∈ gs, g.1.isHeading = true ∧ ∀ b ∈ g.2, b.isHeading = false) →
      (gs.flatMap fun g => g.1 :: g.2).filter (·.isHeading) = gs.map (·.1) := by
    intro gs
    induction gs with
    | nil => intro _; rfl
    | cons g gs ih =>
      intro h
      have hg := h g List.mem_cons_self
      rw [List.flatMap_cons, List.filter_append, ih fun x hx => h x (List.mem_cons_of_mem _ hx),
        List.filter_cons_of_pos (by simp [hg.1]), List.filter_eq_nil_iff.mpr (by intro b hb; simp [hg.2 b hb])]
      rfl
  by_cases h : ∃ b ∈ bs, b.isHeading = true
  · rw [← key _ (C47_groups bs)]
    obtain ⟨pre, x, rest, rfl, hpre, hh⟩ := exists_heading_split h
    rw [C47_flatten pre x rest hpre hh]
    simp only [List.cons_append, List.filter_cons, hh, if_true, List.filter_append]
    rw [List.filter_eq_nil_iff.mpr (by intro b hb; simp [hpre b hb])]
    simp
  · have hn : ∀ b ∈ bs, b.isHeading = false := by
      intro b hb
      by_contra hc
      exact h ⟨b, hb, by simpa using hc⟩
    rw [grouped_none hn, List.filter_eq_nil_iff.mpr (by intro b hb; simp [hn b hb])]
    rfl

/-- **C47 is violated**, order: whenever something stands before the first heading, it is put behind it. -/
theorem C47_order_violated (b : WebBlock) (pre : List WebBlock) (h : WebBlock) (rest : List WebBlock)
    (hpre : ∀ x ∈ b :: pre, x.isHeading = false) (hh : h.isHeading = true) :
    ((groupedByHeadings (b :: pre ++ h :: rest)).flatMap fun g => g.1 :: g.2) ≠ b :: pre ++ h :: rest := by
  rw [C47_flatten _ h rest hpre hh]
  intro e
  simp only [List.cons_append, List.cons.injEq] at e
  have := hpre b List.mem_cons_self
  rw [← e.1, hh] at this
  cases this

/-- A page for the examples. -/
def webSample : List WebBlock :=
  [⟨.paragraph, c!"Before"⟩, ⟨.title, c!"A"⟩, ⟨.paragraph, c!"One"⟩, ⟨.listItem, c!"Two"⟩, ⟨.heading 2, c!"B"⟩, ⟨.quote, c!"Three"⟩]

example : groupedByHeadings webSample =
    [(⟨.title, c!"A"⟩, [⟨.paragraph, c!"Before"⟩, ⟨.paragraph, c!"One"⟩, ⟨.listItem, c!"Two"⟩]), (⟨.heading 2, c!"B"⟩, [⟨.quote, c!"Three"⟩])] := by
  decide +kernel

/-! ### The slides of a group -/

/-- The slides that come of a slide in progress and the bullets still to be added. -/
def fill (m : Nat) (heading : Str) : Str → List Str → List Str → List WebSlide
  | t, cur, [] => if cur.isEmpty then [] else [⟨t, cur⟩]
  | t, cur, r :: rs =>
    if cur.length ≥ m then ⟨t, cur⟩ :: fill m heading (contTitle heading) [r] rs
    else fill m heading t (cur ++ [r]) rs

theorem pagesFuel_enough {α : Type} (m : Nat) (hm : 0 < m) (n k : Nat) (l : List α) (hn : l.length ≤ n) (hk : l.length ≤ k) :
    pagesFuel m n l = pagesFuel m k l := by
  induction n generalizing k l with
  | zero =>
    have : l = [] := List.length_eq_zero_iff.mp (by omega)
    subst this
    cases k <;> rfl
  | succ n ih =>
    cases l with
    | nil => cases k <;> rfl
    | cons x l =>
      cases k with
      | zero => simp at hk
      | succ k =>
        simp only [pagesFuel, List.isEmpty_cons, Bool.false_eq_true, if_false]
        rw [ih k _ (by simp at hn ⊢; omega) (by simp at hk ⊢; omega)]

theorem pages_nil {α : Type} (m : Nat) : pages m ([] : List α) = [] := rfl

theorem pages_cons {α : Type} (m : Nat) (hm : 0 < m) (l : List α) (h : l ≠ []) : pages m l = l.take m :: pages m (l.drop m) := by
  cases l with
  | nil => exact absurd rfl h
  | cons x l =>
    unfold pages
    rw [List.length_cons, pagesFuel]
    simp only [List.isEmpty_cons, Bool.false_eq_true, if_false]
    rw [pagesFuel_enough m hm _ _ _ (by simp; omega) (Nat.le_refl _)]

/-- Pages with the first title given and the continued title for the others. -/
def headedFrom (t heading : Str) : List (List Str) → List WebSlide
  | [] => []
  | p :: ps => ⟨t, p⟩ :: ps.map fun q => ⟨contTitle heading, q⟩

theorem headedFrom_cont (heading : Str) (ps : List (List Str)) :
    headedFrom (contTitle heading) heading ps = ps.map fun q => ⟨contTitle heading, q⟩ := by
  cases ps <;> rfl

theorem fill_eq (m : Nat) (hm : 0 < m) (heading t : Str) (cur rs : List Str) (h : cur.length ≤ m) :
    fill m heading t cur rs = headedFrom t heading (pages m (cur ++ rs)) := by
  induction rs generalizing t cur with
  | nil =>
    simp only [fill, List.append_nil]
    cases cur with
    | nil => rfl
    | cons x cur =>
      rw [pages_cons m hm _ (by simp), List.drop_of_length_le h, List.take_of_length_le h, pages_nil]
      rfl
  | cons r rs ih =>
    simp only [fill]
    split
    · rename_i hc
      have hl : cur.length = m := by omega
      have hne : cur ++ r :: rs ≠ [] := by simp
      rw [pages_cons m hm _ hne, List.take_left' hl, List.drop_left' hl, ih _ [r] (by simp; omega), headedFrom_cont]
      rfl
    · rename_i hc
      rw [ih t (cur ++ [r]) (by simp; omega)]
      simp

/-- The rest of an inner loop: the slides are those of `fill`, or a beginning of them that reaches the limit. -/
theorem fill_loop (cfg : WebConfig) (hm : 0 < cfg.maxBullets) (heading : Str) (bs : List WebBlock) (slides : List WebSlide) (t : Str)
    (cur : List Str) :
    let out := finishGroup (bs.foldl (fillStep cfg heading) ⟨slides, ⟨t, cur⟩, cur.length, false⟩)
    let full := slides ++ fill cfg.maxBullets heading t cur (bs.filterMap (groupBullet cfg))
    out <+: full ∧ (out = full ∨ cfg.maxSlides ≤ out.length) := by
  have stopped : ∀ (bs : List WebBlock) (st : FillState), st.stop = true → bs.foldl (fillStep cfg heading) st = st := by
    intro bs st h
    induction bs with
    | nil => rfl
    | cons b bs ih =>
      rw [List.foldl_cons, show fillStep cfg heading st b = st by simp [fillStep, h], ih]
  induction bs generalizing slides t cur with
  | nil =>
    simp only [List.foldl_nil, List.filterMap_nil, fill, finishGroup]
    cases cur with
    | nil => simp
    | cons x cur => simp
  | cons b bs ih =>
    simp only [List.foldl_cons]
    by_cases hc : cur.length ≥ cfg.maxBullets
    · by_cases hs : slides.length + 1 ≥ cfg.maxSlides
      · have e : fillStep cfg heading ⟨slides, ⟨t, cur⟩, cur.length, false⟩ b =
            ⟨slides ++ [⟨t, cur⟩], ⟨contTitle heading, []⟩, 0, true⟩ := by
          simp [fillStep, hc, hs]
        rw [e, stopped _ _ rfl]
        have hne : cur ≠ [] := by rintro rfl; simp at hc; omega
        constructor
        · simp only [finishGroup, gt_iff_lt, Nat.lt_irrefl, if_false]
          refine (List.prefix_append_right_inj slides).mpr ?_
          cases hf : (b :: bs).filterMap (groupBullet cfg) with
          | nil => simp [fill, hne]
          | cons r rs =>
            simp only [fill, hc, if_true]
            exact List.prefix_iff_eq_append.mpr rfl
        · right
          simp [finishGroup]
          omega
      · have e : fillStep cfg heading ⟨slides, ⟨t, cur⟩, cur.length, false⟩ b =
            addBlock cfg ⟨slides ++ [⟨t, cur⟩], ⟨contTitle heading, []⟩, 0, false⟩ b := by
          simp [fillStep, hc, hs]
        rw [e]
        have hne : cur ≠ [] := by rintro rfl; simp at hc; omega
        cases hb : groupBullet cfg b with
        | none =>
          simp only [addBlock, hb, List.filterMap_cons]
          have := ih (slides ++ [⟨t, cur⟩]) (contTitle heading) []
          simp only at this
          have ef : slides ++ fill cfg.maxBullets heading t cur (bs.filterMap (groupBullet cfg)) =
              slides ++ [⟨t, cur⟩] ++ fill cfg.maxBullets heading (contTitle heading) [] (bs.filterMap (groupBullet cfg)) := by
            cases bs.filterMap (groupBullet cfg) with
            | nil => simp [fill, hne]
            | cons r rs =>
              have : ¬ ([] : List Str).length ≥ cfg.maxBullets := by simp; omega
              simp only [fill, hc, if_true, this, if_false]
              simp
          rw [ef]
          exact this
        | some x =>
          simp only [addBlock, hb, List.filterMap_cons, List.nil_append, fill, hc, if_true]
          have := ih (slides ++ [⟨t, cur⟩]) (contTitle heading) [x]
          simp only [List.length_singleton] at this
          rw [List.append_assoc] at this
          exact this
    · have e : fillStep cfg heading ⟨slides, ⟨t, cur⟩, cur.length, false⟩ b =
          addBlock cfg ⟨slides, ⟨t, cur⟩, cur.length, false⟩ b := by
        simp [fillStep, hc]
      rw [e]
      cases hb : groupBullet cfg b with
      | none =>
        simp only [addBlock, hb, List.filterMap_cons]
        exact ih slides t cur
      | some x =>
        simp only [addBlock, hb, List.filterMap_cons, fill, hc, if_false]
        have := ih slides t (cur ++ [x])
        simp only [List.length_append, List.length_singleton] at this
        exact this

/-- The slides of one group, whatever the limit on slides. -/
def groupPages (cfg : WebConfig) (g : WebBlock × List WebBlock) : List WebSlide :=
  headed g.1.text (pages cfg.maxBullets (g.2.filterMap (groupBullet cfg)))

theorem headedFrom_self (h : Str) (ps : List (List Str)) : headedFrom h h ps = headed h ps := by cases ps <;> rfl

theorem groupSlides_spec (cfg : WebConfig) (hm : 0 < cfg.maxBullets) (slides : List WebSlide) (g : WebBlock × List WebBlock) :
    groupSlides cfg slides g <+: slides ++ groupPages cfg g ∧
      (groupSlides cfg slides g = slides ++ groupPages cfg g ∨ cfg.maxSlides ≤ (groupSlides cfg slides g).length) := by
  unfold groupSlides
  split
  · rename_i h
    exact ⟨List.prefix_append _ _, .inr h⟩
  · have := fill_loop cfg hm g.1.text g.2 slides g.1.text []
    rw [fill_eq _ hm _ _ _ _ (by simp), headedFrom_self] at this
    exact this

theorem groups_loop (cfg : WebConfig) (hm : 0 < cfg.maxBullets) (gs : List (WebBlock × List WebBlock)) (slides : List WebSlide) :
    (gs.foldl (groupSlides cfg) slides).take cfg.maxSlides = (slides ++ gs.flatMap (groupPages cfg)).take cfg.maxSlides := by
  have full : ∀ (gs : List (WebBlock × List WebBlock)) (s : List WebSlide), cfg.maxSlides ≤ s.length →
      gs.foldl (groupSlides cfg) s = s := by
    intro gs s h
    induction gs with
    | nil => rfl
    | cons g gs ih => rw [List.foldl_cons, show groupSlides cfg s g = s by simp [groupSlides, h], ih]
  induction gs generalizing slides with
  | nil => simp
  | cons g gs ih =>
    rw [List.foldl_cons, List.flatMap_cons]
    obtain ⟨h1, h2⟩ := groupSlides_spec cfg hm slides g
    rcases h2 with h2 | h2
    · rw [ih, h2, List.append_assoc]
    · rw [full gs _ h2]
      obtain ⟨r, hr⟩ := h1
      rw [← List.append_assoc, ← hr, List.append_assoc, List.take_append_of_le_length h2]

/-- **C79**, grouped mode, exactly: the slides are the title slide and, for every heading of the page in order, the bullets of
its blocks in order, in pages of the configured size; the whole is cut off at the configured number of slides. -/
theorem C79_grouped_partial (cfg : WebConfig) (page : WebPage) (title : Option Str) (source : Bool) (hm : 0 < cfg.maxBullets)
    (hg : cfg.group = true) (hh : ∃ b ∈ page.blocks, b.isHeading = true) :
    buildWebSlides cfg page title source =
      (webTitleSlide page title source :: (groupedByHeadings page.blocks).flatMap fun g =>
        headed g.1.text (pages cfg.maxBullets (g.2.filterMap (groupBullet cfg)))).take cfg.maxSlides := by
  unfold buildWebSlides buildGrouped
  have hne : groupedByHeadings page.blocks ≠ [] := by
    intro e
    have := C47_headings page.blocks
    rw [e] at this
    obtain ⟨b, hb, hbh⟩ := hh
    have hm : b ∈ page.blocks.filter (·.isHeading) := List.mem_filter.mpr ⟨hb, hbh⟩
    rw [← this] at hm
    simp at hm
  simp only [hg, if_true, List.isEmpty_iff, hne, if_false]
  rw [groups_loop cfg hm]
  rfl

theorem pages_flatten {α : Type} (m : Nat) (hm : 0 < m) (l : List α) : (pages m l).flatten = l := by
  have : ∀ n (l : List α), l.length ≤ n → (pages m l).flatten = l := by
    intro n
    induction n with
    | zero => intro l h; have : l = [] := List.length_eq_zero_iff.mp (by omega); subst this; rfl
    | succ n ih =>
      intro l h
      cases l with
      | nil => rfl
      | cons x l =>
        rw [pages_cons m hm _ (by simp), List.flatten_cons, ih _ (by simp at h ⊢; omega), List.take_append_drop]
  exact this _ l (Nat.le_refl _)

theorem pages_bound {α : Type} (m : Nat) (hm : 0 < m) (l : List α) : ∀ p ∈ pages m l, p ≠ [] ∧ p.length ≤ m := by
  have : ∀ n (l : List α), l.length ≤ n → ∀ p ∈ pages m l, p ≠ [] ∧ p.length ≤ m := by
    intro n
    induction n with
    | zero =>
      intro l h
      have : l = [] := List.length_eq_zero_iff.mp (by omega)
      subst this
      simp [pages_nil]
    | succ n ih =>
      intro l h p hp
      cases l with
      | nil => simp [pages_nil] at hp
      | cons x l =>
        rw [pages_cons m hm _ (by simp)] at hp
        rcases List.mem_cons.mp hp with rfl | hp
        · refine ⟨?_, by simp; omega⟩
          cases m with
          | zero => omega
          | succ m => simp
        · exact ih _ (by simp at h ⊢; omega) p hp
  exact this _ l (Nat.le_refl _)

theorem headed_bullets (h : Str) (ps : List (List Str)) : (headed h ps).flatMap (·.bullets) = ps.flatten := by
  cases ps with
  | nil => rfl
  | cons p ps =>
    rw [headed, List.flatMap_cons, List.flatten_cons]
    congr 1
    induction ps with
    | nil => rfl
    | cons q qs ih => simp_all

theorem headed_mem {h : Str} {ps : List (List Str)} {s : WebSlide} (hs : s ∈ headed h ps) : s.bullets ∈ ps := by
  cases ps with
  | nil => simp [headed] at hs
  | cons p ps =>
    simp only [headed, List.mem_cons, List.mem_map] at hs
    rcases hs with rfl | ⟨q, hq, rfl⟩
    · simp
    · simp [hq]

/-- **C79**: if the page begins with a heading and the slide limit is not reached, the bullets behind the title slide are the
texts of all blocks, in order. -/
theorem C79_bullets_partial (cfg : WebConfig) (page : WebPage) (title : Option Str) (source : Bool) (hm : 0 < cfg.maxBullets)
    (hg : cfg.group = true) (h : WebBlock) (rest : List WebBlock) (hp : page.blocks = h :: rest) (hh : h.isHeading = true)
    (hl : (buildWebSlides cfg page title source).length < cfg.maxSlides) :
    (buildWebSlides cfg page title source).tail.flatMap (·.bullets) = page.blocks.filterMap (groupBullet cfg) := by
  have e := C79_grouped_partial cfg page title source hm hg ⟨h, by simp [hp], hh⟩
  have hshort : (webTitleSlide page title source :: (groupedByHeadings page.blocks).flatMap (groupPages cfg)).length ≤ cfg.maxSlides := by
    rw [e] at hl
    have h2 : (List.take cfg.maxSlides (webTitleSlide page title source :: (groupedByHeadings page.blocks).flatMap (groupPages cfg))).length
      < cfg.maxSlides := hl
    rw [List.length_take] at h2
    omega
  have e2 : buildWebSlides cfg page title source =
      webTitleSlide page title source :: (groupedByHeadings page.blocks).flatMap (groupPages cfg) := by
    rw [e]; exact List.take_of_length_le hshort
  rw [e2, List.tail_cons, List.flatMap_assoc]
  have e3 : (fun g => (groupPages cfg g).flatMap (·.bullets)) = fun g : WebBlock × List WebBlock => g.2.filterMap (groupBullet cfg) := by
    funext g
    rw [groupPages, headed_bullets, pages_flatten _ hm]
  rw [e3]
  have e4 : ∀ gs : List (WebBlock × List WebBlock), (∀ g ∈ gs, g.1.isHeading = true) →
      (gs.flatMap fun g => g.2.filterMap (groupBullet cfg)) = (gs.flatMap fun g => g.1 :: g.2).filterMap (groupBullet cfg) := by
    intro gs
    induction gs with
    | nil => intro _; rfl
    | cons g gs ih =>
      intro hgs
      have hb : groupBullet cfg g.1 = none := by
        have := hgs g List.mem_cons_self
        unfold WebBlock.isHeading at this
        unfold groupBullet
        split at this <;> simp_all
      rw [List.flatMap_cons, List.flatMap_cons, List.filterMap_append, ih fun x hx => hgs x (List.mem_cons_of_mem _ hx),
        List.filterMap_cons, hb]
  rw [e4 _ fun g hg => (C47_groups _ g hg).1, hp, C47_in_order_partial h rest hh]

/-! ### Linear mode -/

/-- Slides behind the first ones have at least one and at most `m` bullets. -/
def Good (m : Nat) (s : WebSlide) : Prop := s.bullets ≠ [] ∧ s.bullets.length ≤ m

/-- Invariant of the linear loop. -/
structure LinInv (m : Nat) (first : List WebSlide) (st : LinearState) : Prop where
  slides : ∃ new, st.slides = first ++ new ∧ ∀ s ∈ new, Good m s
  count : ∀ s, st.current = some s → s.bullets.length = st.count ∧ st.count ≤ m
  none : st.current = none → st.count = 0

theorem LinInv.saved {m : Nat} {first : List WebSlide} {st : LinearState} (h : LinInv m first st) :
    ∃ new, st.saved = first ++ new ∧ ∀ s ∈ new, Good m s := by
  obtain ⟨new, h1, h2⟩ := h.slides
  unfold LinearState.saved
  split
  · rename_i s hs
    split
    · rename_i hc
      refine ⟨new ++ [s], by rw [h1, List.append_assoc], ?_⟩
      intro x hx
      rcases List.mem_append.mp hx with hx | hx
      · exact h2 x hx
      · rw [List.mem_singleton] at hx
        subst hx
        have := h.count _ hs
        refine ⟨?_, by omega⟩
        intro e
        rw [e] at this
        simp at this
        omega
    · exact ⟨new, h1, h2⟩
  · exact ⟨new, h1, h2⟩

theorem LinInv.getD {m : Nat} {first : List WebSlide} {st : LinearState} (h : LinInv m first st) (t : Str) :
    (st.current.getD ⟨t, []⟩).bullets.length = st.count ∧ st.count ≤ m := by
  cases hc : st.current with
  | none => simp [h.none hc]
  | some s => exact h.count s hc

theorem LinInv.drop {cfg : WebConfig} {first : List WebSlide} {st : LinearState} (h : LinInv cfg.maxBullets first st) {s : WebSlide}
    (hs : s.bullets.length = st.count ∧ st.count ≤ cfg.maxBullets) (t : Str) : LinInv cfg.maxBullets first (linearDrop cfg st s t) := by
  unfold linearDrop
  split
  · refine ⟨h.slides, ?_, by simp⟩
    intro x hx
    simp only [Option.some.injEq] at hx
    subst hx
    simp
    omega
  · refine ⟨h.slides, ?_, by simp⟩
    intro x hx
    simp only [Option.some.injEq] at hx
    subst hx
    exact hs

theorem LinInv.paragraph {cfg : WebConfig} (hm : 0 < cfg.maxBullets) {first : List WebSlide} {st : LinearState}
    (h : LinInv cfg.maxBullets first st) {s : WebSlide} (hs : s.bullets.length = st.count ∧ st.count ≤ cfg.maxBullets) (t : Str) :
    LinInv cfg.maxBullets first (linearParagraph cfg st s t) := by
  unfold linearParagraph
  split
  · refine ⟨h.slides, ?_, by simp⟩
    intro x hx
    simp only [Option.some.injEq] at hx
    subst hx
    simp
    omega
  · obtain ⟨new, h1, h2⟩ := h.slides
    refine ⟨⟨new ++ [s], by simp [h1], ?_⟩, ?_, by simp⟩
    · intro x hx
      rcases List.mem_append.mp hx with hx | hx
      · exact h2 x hx
      · rw [List.mem_singleton] at hx
        subst hx
        refine ⟨?_, by omega⟩
        intro e
        rw [e] at hs
        simp at hs
        omega
    · intro x hx
      simp only [Option.some.injEq] at hx
      subst hx
      simp
      omega

theorem LinInv.step {cfg : WebConfig} (hm : 0 < cfg.maxBullets) {first : List WebSlide} {st : LinearState}
    (h : LinInv cfg.maxBullets first st) (b : WebBlock) : LinInv cfg.maxBullets first (linearStep cfg st b) := by
  have hhead : LinInv cfg.maxBullets first ⟨st.saved, some ⟨b.text, []⟩, 0⟩ := by
    refine ⟨h.saved, ?_, by simp⟩
    intro x hx
    simp only [Option.some.injEq] at hx
    subst hx
    simp
  unfold linearStep
  split
  · exact h
  · unfold linearBlock
    split
    · exact hhead
    · exact hhead
    · exact h.paragraph hm (h.getD _) _
    · exact h.drop (h.getD _) _
    · split
      · rename_i s hs
        exact h.drop (h.count s hs) _
      · exact h
    · exact h

theorem linear_good {cfg : WebConfig} (hm : 0 < cfg.maxBullets) (page : WebPage) (first : List WebSlide) :
    ∃ new, buildLinear cfg page first = first ++ new ∧ ∀ s ∈ new, Good cfg.maxBullets s := by
  unfold buildLinear
  split
  · split
    · exact ⟨_, rfl, by
        intro s hs
        rw [List.mem_singleton] at hs
        subst hs
        exact ⟨by simp, by simp; omega⟩⟩
    · exact ⟨[], by simp, by simp⟩
  · have : ∀ (bs : List WebBlock) (st : LinearState), LinInv cfg.maxBullets first st →
        LinInv cfg.maxBullets first (bs.foldl (linearStep cfg) st) := by
      intro bs
      induction bs with
      | nil => intro st h; exact h
      | cons b bs ih => intro st h; exact ih _ (h.step hm b)
    exact (this _ _ ⟨⟨[], by simp, by simp⟩, by simp, by simp⟩).saved

/-- **C48**: never more slides than the limit. -/
theorem C48_slides (cfg : WebConfig) (page : WebPage) (title : Option Str) (source : Bool) :
    (buildWebSlides cfg page title source).length ≤ cfg.maxSlides := by
  unfold buildWebSlides
  rw [List.length_take]
  omega

/-- **C48 (partial)**: behind the title slide every slide has at least one bullet and not more than the limit. Missing: the limit
zero, which is not respected (`C48_zero_violated`). -/
theorem C48_bullets_partial (cfg : WebConfig) (page : WebPage) (title : Option Str) (source : Bool) (hm : 0 < cfg.maxBullets) :
    ∀ s ∈ (buildWebSlides cfg page title source).tail, s.bullets ≠ [] ∧ s.bullets.length ≤ cfg.maxBullets := by
  have key : ∀ new : List WebSlide, (∀ s ∈ new, Good cfg.maxBullets s) →
      ∀ s ∈ (([webTitleSlide page title source] ++ new).take cfg.maxSlides).tail, Good cfg.maxBullets s := by
    intro new h s hs
    cases hk : cfg.maxSlides with
    | zero => simp [hk] at hs
    | succ k =>
      rw [hk] at hs
      exact h s (List.mem_of_mem_take (by simpa using hs))
  by_cases hg : cfg.group = true ∧ ∃ b ∈ page.blocks, b.isHeading = true
  · rw [C79_grouped_partial cfg page title source hm hg.1 hg.2]
    apply key
    intro s hs
    obtain ⟨g, _, hs⟩ := List.mem_flatMap.mp hs
    exact pages_bound _ hm _ _ (headed_mem hs)
  · have e : buildWebSlides cfg page title source = (buildLinear cfg page [webTitleSlide page title source]).take cfg.maxSlides := by
      unfold buildWebSlides buildGrouped
      cases hgr : cfg.group with
      | false => simp
      | true =>
        have hn : ∀ b ∈ page.blocks, b.isHeading = false := by
          intro b hb
          by_contra hc
          exact hg ⟨hgr, b, hb, by simpa using hc⟩
        simp [grouped_none hn]
    obtain ⟨new, h1, h2⟩ := linear_good hm page [webTitleSlide page title source]
    rw [e, h1]
    exact key new h2

/-- **C48 is violated** for the limit zero, in both modes: slides with one bullet are made. -/
theorem C48_zero_violated :
    let page : WebPage := ⟨c!"T", c!"u", none, [⟨.title, c!"A"⟩, ⟨.paragraph, c!"One"⟩]⟩
    buildWebSlides ⟨20, 0, true, true, true, true⟩ page none true =
      [⟨c!"T", [c!"Source: u"]⟩, ⟨c!"A", []⟩, ⟨c!"A (cont.)", [c!"One"]⟩] ∧
    buildWebSlides ⟨20, 0, true, true, true, false⟩ page none true =
      [⟨c!"T", [c!"Source: u"]⟩, ⟨c!"A", []⟩, ⟨c!"A (cont.)", [c!"One"]⟩] := by decide +kernel

/-- The text `x` is on a slide made so far. -/
def OnSlides (st : LinearState) (x : Str) : Prop :=
  (∃ s ∈ st.slides, x ∈ s.bullets) ∨ ∃ s, st.current = some s ∧ 0 < st.count ∧ x ∈ s.bullets

theorem OnSlides.saved {st : LinearState} {x : Str} (h : OnSlides st x) : ∃ s ∈ st.saved, x ∈ s.bullets := by
  rcases h with ⟨s, hs, hx⟩ | ⟨s, hs, hc, hx⟩
  · unfold LinearState.saved
    split
    · split
      · exact ⟨s, List.mem_append_left _ hs, hx⟩
      · exact ⟨s, hs, hx⟩
    · exact ⟨s, hs, hx⟩
  · unfold LinearState.saved
    rw [hs]
    simp only [gt_iff_lt, hc, if_true]
    exact ⟨s, by simp, hx⟩

theorem OnSlides.drop {cfg : WebConfig} {st : LinearState} {x : Str} (h : OnSlides st x) (d t : Str) :
    OnSlides (linearDrop cfg st (st.current.getD ⟨d, []⟩) t) x := by
  unfold linearDrop
  rcases h with h | ⟨s, hs, hc, hx⟩
  · split
    · exact .inl h
    · exact .inl h
  · rw [hs]
    split
    · exact .inr ⟨_, rfl, by simp, by simp [hx]⟩
    · exact .inr ⟨_, rfl, hc, hx⟩

theorem OnSlides.paragraph {cfg : WebConfig} {st : LinearState} {x : Str} (h : OnSlides st x) (d t : Str) :
    OnSlides (linearParagraph cfg st (st.current.getD ⟨d, []⟩) t) x := by
  unfold linearParagraph
  rcases h with ⟨s, hs, hx⟩ | ⟨s, hs, hc, hx⟩
  · split
    · exact .inl ⟨s, hs, hx⟩
    · exact .inl ⟨s, List.mem_append_left _ hs, hx⟩
  · rw [hs]
    split
    · exact .inr ⟨_, rfl, by simp, by simp [hx]⟩
    · exact .inl ⟨s, by simp, hx⟩

theorem onSlides_paragraph (cfg : WebConfig) (st : LinearState) (s : WebSlide) (t : Str) : OnSlides (linearParagraph cfg st s t) t := by
  unfold linearParagraph
  split
  · exact .inr ⟨_, rfl, by simp, by simp⟩
  · exact .inr ⟨_, rfl, by simp, by simp⟩

theorem OnSlides.step {cfg : WebConfig} {st : LinearState} {x : Str} (h : OnSlides st x) (b : WebBlock) : OnSlides (linearStep cfg st b) x := by
  unfold linearStep
  split
  · exact h
  · unfold linearBlock
    split
    · exact .inl h.saved
    · exact .inl h.saved
    · exact h.paragraph _ _
    · exact h.drop _ _
    · split
      · rename_i s hs
        have := h.drop (cfg := cfg) [] (c!"\"" ++ truncateText b.text 180 ++ c!"\"")
        rw [hs] at this
        exact this
      · exact h
    · exact h

theorem saved_length (st : LinearState) : st.slides.length ≤ st.saved.length := by
  unfold LinearState.saved
  split
  · split
    · simp
    · exact Nat.le_refl _
  · exact Nat.le_refl _

theorem step_length (cfg : WebConfig) (st : LinearState) (b : WebBlock) : st.slides.length ≤ (linearStep cfg st b).slides.length := by
  have hd : ∀ s t, (linearDrop cfg st s t).slides = st.slides := by intro s t; unfold linearDrop; split <;> rfl
  have hp : ∀ s t, st.slides.length ≤ (linearParagraph cfg st s t).slides.length := by
    intro s t; unfold linearParagraph; split <;> simp
  unfold linearStep
  split
  · exact Nat.le_refl _
  · unfold linearBlock
    split
    · exact saved_length st
    · exact saved_length st
    · exact hp _ _
    · rw [hd]
    · split
      · rw [hd]
      · exact Nat.le_refl _
    · exact Nat.le_refl _

theorem linear_paragraphs (cfg : WebConfig) (bs : List WebBlock) (st : LinearState)
    (hl : (bs.foldl (linearStep cfg) st).slides.length < cfg.maxSlides) :
    (∀ x, OnSlides st x → OnSlides (bs.foldl (linearStep cfg) st) x) ∧
    ∀ b ∈ bs, b.kind = .paragraph → OnSlides (bs.foldl (linearStep cfg) st) (truncateText b.text 200) := by
  induction bs generalizing st with
  | nil => exact ⟨fun x h => h, by simp⟩
  | cons b bs ih =>
    rw [List.foldl_cons] at hl ⊢
    obtain ⟨h1, h2⟩ := ih _ hl
    refine ⟨fun x h => h1 x (h.step b), ?_⟩
    intro c hc hk
    rcases List.mem_cons.mp hc with rfl | hc
    · apply h1
      have mono : ∀ (l : List WebBlock) (s : LinearState), s.slides.length ≤ (l.foldl (linearStep cfg) s).slides.length := by
        intro l
        induction l with
        | nil => intro s; exact Nat.le_refl _
        | cons y l ih => intro s; exact Nat.le_trans (step_length cfg s y) (ih _)
      have := mono bs (linearStep cfg st c)
      have := step_length cfg st c
      unfold linearStep
      rw [if_neg (by omega)]
      unfold linearBlock
      rw [hk]
      exact onSlides_paragraph _ _ _ _
    · exact h2 c hc hk

/-- **C79**, linear mode: if the slide limit is not reached, every paragraph of the page is a bullet of some slide. -/
theorem C79_paragraphs_partial (cfg : WebConfig) (page : WebPage) (title : Option Str) (source : Bool) (hg : cfg.group = false)
    (hl : (buildWebSlides cfg page title source).length < cfg.maxSlides) :
    ∀ b ∈ page.blocks, b.kind = .paragraph → ∃ s ∈ buildWebSlides cfg page title source, truncateText b.text 200 ∈ s.bullets := by
  intro b hb hk
  have hne : page.blocks.isEmpty = false := by
    cases hp : page.blocks with
    | nil => rw [hp] at hb; simp at hb
    | cons => rfl
  have e : buildWebSlides cfg page title source =
      ((page.blocks.foldl (linearStep cfg) ⟨[webTitleSlide page title source], none, 0⟩).saved).take cfg.maxSlides := by
    unfold buildWebSlides buildLinear
    simp [hg, hne]
  rw [e, List.length_take] at hl
  have hs := saved_length (page.blocks.foldl (linearStep cfg) ⟨[webTitleSlide page title source], none, 0⟩)
  rw [e, List.take_of_length_le (by omega)]
  exact ((linear_paragraphs cfg page.blocks _ (by omega)).2 b hb hk).saved

/-! ### C79: what is lost -/

/-- **C79 is violated** without headings (or without grouping): list items that do not fit on a slide are dropped. -/
theorem C79_list_items_violated :
    buildWebSlides ⟨20, 2, true, true, true, true⟩
      ⟨c!"T", c!"u", none, [⟨.listItem, c!"1"⟩, ⟨.listItem, c!"2"⟩, ⟨.listItem, c!"3"⟩]⟩ none false =
      [⟨c!"T", []⟩, ⟨c!"Key Points", [c!"• 1", c!"• 2"]⟩] := by decide +kernel

/-- **C79 is violated**, headings: a heading without text below it is dropped, in both modes. -/
theorem C79_heading_violated (group : Bool) :
    buildWebSlides ⟨20, 6, true, true, true, group⟩
      ⟨c!"T", c!"u", none, [⟨.title, c!"A"⟩, ⟨.heading 2, c!"B"⟩, ⟨.paragraph, c!"One"⟩]⟩ none false =
      [⟨c!"T", []⟩, ⟨c!"B", [c!"One"]⟩] := by revert group; decide +kernel

/-- **C79 is violated** in linear mode for code, tables and images, which are dropped although they are switched on. -/
theorem C79_code_violated :
    buildWebSlides ⟨20, 6, true, true, true, false⟩
      ⟨c!"T", c!"u", none, [⟨.title, c!"A"⟩, ⟨.code, c!"x"⟩, ⟨.table [[c!"c"]], []⟩, ⟨.image c!"s" c!"a", []⟩]⟩ none false =
      [⟨c!"T", []⟩] := by decide +kernel

example : buildWebSlides ⟨20, 2, true, true, true, true⟩ ⟨c!"T", c!"u", some c!"d", webSample⟩ none true =
    [⟨c!"T", [c!"d", c!"Source: u"]⟩, ⟨c!"A", [c!"Before", c!"One"]⟩, ⟨c!"A (cont.)", [c!"• Two"]⟩, ⟨c!"B", [c!"\"Three\""]⟩] := by
  decide +kernel

end PptRs.Props
