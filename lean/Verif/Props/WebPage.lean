import Verif.Props.WebParser
import Verif.Props.Web

/-!
# C143: whole pages
-/

namespace PptRs.Props

open PptRs PptRs.Web PptRs.Spec

/-- **C143**: the blocks read from an element are those of its content, in order, with their texts as a browser shows them,
and the pictures are listed. Not covered: content beyond the limits of the parser. -/
theorem C143_blocks_partial (low : Str → Str) (cfg : ParserConfig) (name : Str) (a : List (Str × Str)) (l : List Flow)
    (h : FlowOk low (.box name a l)) (hd : flowsHeight l < 256) :
    ∃ f, walkElement low cfg 0 (.el name a (flowDoms l)) = some f ∧
      f.blocks.map (·.1) = flowBlocks cfg.images cfg.tables cfg.code l ∧
      f.images = pictures (flowBlocks cfg.images cfg.tables cfg.code l) := by
  have := walk_flow low cfg (.box name a l) 0 h (by rw [Flow.height]; omega)
  rw [Flow.dom, Flow.blocks] at this
  cases hw : walkElement low cfg 0 (.el name a (flowDoms l)) with
  | none => rw [hw] at this; simp at this
  | some f =>
    rw [hw] at this
    simp only [Option.map_some, Option.some.injEq, Found.plain, foundOf, Prod.mk.injEq] at this
    exact ⟨f, rfl, this.1, this.2⟩

/-- An element that is looked for before the body. -/
def Mainish (d : Dom) : Prop :=
  d.name ∈ [c!"article", c!"main", c!"body"] ∨ attr d.attrs c!"role" = some c!"main" ∨
    (∃ c ∈ [c!"content", c!"post-content", c!"article-content", c!"entry-content", c!"markdown-body", c!"prose", c!"article"],
      hasClass c d = true) ∨ ∃ i ∈ [c!"content", c!"main", c!"article"], hasId i d = true

theorem first_none {p : Dom → Bool} {doc : Dom} (h : ∀ e ∈ doc.elements, p e = false) : first p doc = none := by
  rw [first, List.find?_eq_none]
  intro e he
  simp [h e he]

/-- The elements of the head. -/
theorem head_elements (d : WebDoc) : d.head.elements =
    d.head :: ((d.title.map fun t => Dom.el c!"title" [] [.text t]).toList
      ++ (d.description.map fun t => Dom.el c!"meta" [(c!"name", c!"description"), (c!"content", t)] []).toList) := by
  rw [WebDoc.head, Dom.elements, elementsOf_append]
  cases d.title <;> cases d.description <;> simp [elementsOf, Dom.elements]

theorem doc_elements (d : WebDoc) : d.dom.elements =
    d.dom :: d.head.elements ++ (.el c!"body" [] (flowDoms d.body) :: elementsOf (flowDoms d.body)) := by
  rw [WebDoc.dom, Dom.elements, elementsOf, elementsOf, elementsOf, Dom.elements.eq_def (.el c!"body" _ _)]
  simp

/-- The elements outside of the body are not looked for. -/
theorem head_plain (d : WebDoc) : ∀ e ∈ d.dom :: d.head.elements, ¬ Mainish e := by
  have noAttrs : ∀ (n : Str) (l : List Dom), n ∉ [c!"article", c!"main", c!"body"] → ¬ Mainish (.el n [] l) := by
    intro n l hn h
    rcases h with h | h | ⟨c, -, h⟩ | ⟨c, -, h⟩
    · exact hn h
    · simp [attr, Dom.attrs] at h
    · simp [hasClass, attr, Dom.attrs] at h
    · simp [hasId, attr, Dom.attrs] at h
  intro e he
  rw [head_elements] at he
  rcases List.mem_cons.1 he with rfl | he
  · exact noAttrs _ _ (by decide +kernel)
  · rcases List.mem_cons.1 he with rfl | he
    · exact noAttrs _ _ (by decide +kernel)
    · rcases List.mem_append.1 he with he | he
      · cases ht : d.title with
        | none => rw [ht] at he; simp at he
        | some t =>
          rw [ht] at he
          simp only [Option.map_some, Option.toList_some, List.mem_singleton] at he
          rw [he]
          exact noAttrs _ _ (by decide +kernel)
      · cases ht : d.description with
        | none => rw [ht] at he; simp at he
        | some t =>
          rw [ht] at he
          simp only [Option.map_some, Option.toList_some, List.mem_singleton] at he
          rw [he]
          intro h
          rcases h with h | h | ⟨c, -, h⟩ | ⟨c, -, h⟩
          · revert h; simp [Dom.name]
          · simp [attr, Dom.attrs] at h
          · simp [hasClass, attr, Dom.attrs] at h
          · simp [hasId, attr, Dom.attrs] at h

theorem body_plain (l : List Dom) (e : Dom) (he : e = .el c!"body" [] l) :
    e.name ∉ [c!"article", c!"main"] ∧ attr e.attrs c!"role" = none ∧ (∀ c, hasClass c e = false) ∧ ∀ i, hasId i e = false := by
  subst he
  refine ⟨by simp [Dom.name], by simp [attr, Dom.attrs], fun c => by simp [hasClass, attr, Dom.attrs],
    fun i => by simp [hasId, attr, Dom.attrs]⟩

/-- The main content of a page without special elements is its body. -/
theorem mainElement_body (d : WebDoc) (h : ∀ e ∈ elementsOf (flowDoms d.body), ¬ Mainish e)
    (ht : 100 < utf8Len (domTexts (flowDoms d.body))) : mainElement d.dom = some (.el c!"body" [] (flowDoms d.body)) := by
  have all : ∀ p : Dom → Bool, (∀ e, ¬ Mainish e → p e = false) → p (.el c!"body" [] (flowDoms d.body)) = false →
      ∀ e ∈ d.dom.elements, p e = false := by
    intro p hp hb e he
    rw [doc_elements] at he
    rcases List.mem_append.1 he with he | he
    · exact hp e (head_plain d e he)
    · rcases List.mem_cons.1 he with rfl | he
      · exact hb
      · exact hp e (h e he)
  obtain ⟨b1, b2, b3, b4⟩ := body_plain (flowDoms d.body) _ rfl
  have name : ∀ n ∈ [c!"article", c!"main"], first (fun d => d.name = n) d.dom = none := by
    intro n hn
    refine first_none (all _ (fun e he => ?_) ?_)
    · simp only [decide_eq_false_iff_not]
      intro e2
      exact he (Or.inl (by rw [e2]; simp only [List.mem_cons, List.not_mem_nil, or_false] at hn ⊢; tauto))
    · simp only [decide_eq_false_iff_not]
      intro e2
      exact b1 (e2 ▸ hn)
  have cls : ∀ c ∈ [c!"content", c!"post-content", c!"article-content", c!"entry-content", c!"markdown-body", c!"prose",
      c!"article"], first (hasClass c) d.dom = none := by
    intro c hc
    refine first_none (all _ (fun e he => ?_) (b3 c))
    rw [← Bool.not_eq_true]
    exact fun hh => he (Or.inr (Or.inr (Or.inl ⟨c, hc, hh⟩)))
  have ids : ∀ c ∈ [c!"content", c!"main", c!"article"], first (hasId c) d.dom = none := by
    intro c hc
    refine first_none (all _ (fun e he => ?_) (b4 c))
    rw [← Bool.not_eq_true]
    exact fun hh => he (Or.inr (Or.inr (Or.inr ⟨c, hc, hh⟩)))
  have role : first (fun d => attr d.attrs c!"role" = some c!"main") d.dom = none := by
    refine first_none (all _ (fun e he => ?_) (by rw [b2]; rfl))
    simp only [decide_eq_false_iff_not]
    exact fun hh => he (Or.inr (Or.inl hh))
  have art : mainArticle d.dom = none := by
    rw [mainArticle]
    have : (d.dom.elements.filter fun d => d.name = c!"main") = [] := by
      rw [List.filter_eq_nil_iff]
      intro e he
      have := first_eq (name c!"main" (by simp)) e he
      simpa using this
    rw [this]
    rfl
  have body : first (fun d => d.name = c!"body") d.dom = some (.el c!"body" [] (flowDoms d.body)) := by
    rw [first, doc_elements, List.find?_append]
    have : (d.dom :: d.head.elements).find? (fun d => d.name = c!"body") = none := by
      rw [List.find?_eq_none]
      intro e he hh
      exact head_plain d e he (Or.inl (by simp only [decide_eq_true_eq] at hh; rw [hh]; simp))
    rw [this]
    rfl
  have hp : (mainPlaces d.dom).filterMap id = [.el c!"body" [] (flowDoms d.body)] := by
    rw [mainPlaces, art, name c!"article" (by simp), name c!"main" (by simp), role, body, cls c!"article" (by simp)]
    simp only [List.map_cons, List.map_nil]
    rw [cls c!"content" (by simp), cls c!"post-content" (by simp), cls c!"article-content" (by simp),
      cls c!"entry-content" (by simp), cls c!"markdown-body" (by simp), cls c!"prose" (by simp),
      ids c!"content" (by simp), ids c!"main" (by simp), ids c!"article" (by simp)]
    rfl
  rw [mainElement, hp, List.find?_cons_of_pos]
  simp only [decide_eq_true_eq]
  rw [textOf_eq, domText]
  exact ht
where
  first_eq {p : Dom → Bool} {doc : Dom} (h : first p doc = none) : ∀ e ∈ doc.elements, p e = false := by
    rw [first, List.find?_eq_none] at h
    intro e he
    simpa using h e he

theorem extractTitle_given (d : WebDoc) {t : Str} (h : d.title = some t) (ht : trim t ≠ []) : extractTitle d.dom = trim t := by
  have : first (fun d => d.name = c!"title") d.dom = some (.el c!"title" [] [.text t]) := by
    rw [first, doc_elements, head_elements, h]
    rfl
  rw [extractTitle, this]
  have e : Dom.textOf (.el c!"title" [] [.text t]) = t := by simp [Dom.textOf, textsOf]
  simp [e, filled, ht]

theorem extractDescription_given (d : WebDoc) {t : Str} (h : d.description = some t) (ht : trim t ≠ []) :
    extractDescription d.dom = some (trim t) := by
  have : first (isMeta c!"name" c!"description") d.dom
      = some (.el c!"meta" [(c!"name", c!"description"), (c!"content", t)] []) := by
    rw [first, doc_elements, head_elements, h]
    cases d.title <;> rfl
  rw [extractDescription, this]
  simp [Dom.attrs, attr, filled, ht]

/-- **C143**: a page is read with its title, its description and the blocks of its body. Not covered: pages in which an
element is preferred to the body (see `C143_article_partial`), and content beyond the limits of the parser. -/
theorem C143_page_partial (low : Str → Str) (cfg : ParserConfig) (d : WebDoc) (url t : Str) (ht : d.title = some t) (ht' : trim t ≠ [])
    (h : FlowsOk low d.body) (hd : flowsHeight d.body < 256) (hm : ∀ e ∈ elementsOf (flowDoms d.body), ¬ Mainish e)
    (hl : 100 < utf8Len (domTexts (flowDoms d.body))) (hb : flowBlocks cfg.images cfg.tables cfg.code d.body ≠ []) :
    ∃ p, parsePage low cfg d.dom url = some (.ok p) ∧ p.page.title = trim t ∧ p.page.url = url ∧
      p.page.blocks = flowBlocks cfg.images cfg.tables cfg.code d.body ∧
      p.images = pictures (flowBlocks cfg.images cfg.tables cfg.code d.body) ∧
      ∀ s, d.description = some s → trim s ≠ [] → p.page.description = some (trim s) := by
  obtain ⟨f, h1, h2, h3⟩ := C143_blocks_partial low cfg c!"body" [] d.body
    (by rw [FlowOk]; exact ⟨by decide +kernel, by decide +kernel, classOk_nil low, h⟩) hd
  have hne : f.blocks.isEmpty = false := by
    cases hf : f.blocks with
    | nil => rw [hf] at h2; exact absurd h2.symm hb
    | cons _ _ => rfl
  refine ⟨⟨⟨extractTitle d.dom, url, extractDescription d.dom, f.blocks.map (·.1)⟩, f.blocks.map (·.2), f.images⟩, ?_,
    extractTitle_given d ht ht', rfl, h2, h3, fun s hs hs' => extractDescription_given d hs hs'⟩
  rw [parsePage, mainElement_body d hm hl]
  simp only [h1, Option.map_some, hne]
  rfl

/-- A page with an article between other things. -/
def articlePage (head : Dom) (before : List Dom) (a : List (Str × Str)) (l : List Flow) (after : List Dom) : Dom :=
  .el c!"html" [] [head, .el c!"body" [] (before ++ Dom.el c!"article" a (flowDoms l) :: after)]

theorem articlePage_elements (head : Dom) (before : List Dom) (a : List (Str × Str)) (l : List Flow) (after : List Dom) :
    (articlePage head before a l after).elements =
      (articlePage head before a l after :: head.elements ++
        (.el c!"body" [] (before ++ Dom.el c!"article" a (flowDoms l) :: after) :: elementsOf before)) ++
      (.el c!"article" a (flowDoms l) :: (elementsOf (flowDoms l) ++ elementsOf after)) := by
  rw [articlePage, Dom.elements, elementsOf, elementsOf, elementsOf, Dom.elements.eq_def (.el c!"body" _ _)]
  simp only [elementsOf_append]
  rw [elementsOf, Dom.elements.eq_def (.el c!"article" _ _)]
  simp

/-- The main content of a page with an article is the first article. -/
theorem mainElement_article (head : Dom) (before : List Dom) (a : List (Str × Str)) (l : List Flow) (after : List Dom)
    (hh : ∀ e ∈ head.elements, e.name ∉ [c!"article", c!"main"]) (hb : ∀ e ∈ elementsOf before, e.name ∉ [c!"article", c!"main"])
    (hl : ∀ e ∈ elementsOf (flowDoms l), e.name ≠ c!"main") (ha : ∀ e ∈ elementsOf after, e.name ≠ c!"main")
    (ht : 100 < utf8Len (domTexts (flowDoms l))) :
    mainElement (articlePage head before a l after) = some (.el c!"article" a (flowDoms l)) := by
  have noMain : ((articlePage head before a l after).elements.filter fun d => d.name = c!"main") = [] := by
    rw [List.filter_eq_nil_iff, articlePage_elements]
    intro e he
    simp only [decide_eq_true_eq]
    rcases List.mem_append.1 he with he | he
    · rcases List.mem_append.1 he with he | he
      · rcases List.mem_cons.1 he with rfl | he
        · simp [articlePage, Dom.name]
        · have := hh e he
          simp only [List.mem_cons, not_or] at this
          exact this.2.1
      · rcases List.mem_cons.1 he with rfl | he
        · simp [Dom.name]
        · have := hb e he
          simp only [List.mem_cons, not_or] at this
          exact this.2.1
    · rcases List.mem_cons.1 he with rfl | he
      · simp [Dom.name]
      · rcases List.mem_append.1 he with he | he
        · exact hl e he
        · exact ha e he
  have e1 : mainArticle (articlePage head before a l after) = none := by rw [mainArticle, noMain]; rfl
  have e2 : first (fun d => d.name = c!"article") (articlePage head before a l after) = some (.el c!"article" a (flowDoms l)) := by
    rw [first, articlePage_elements, List.find?_append]
    have : (articlePage head before a l after :: head.elements ++
        (.el c!"body" [] (before ++ Dom.el c!"article" a (flowDoms l) :: after) :: elementsOf before)).find?
          (fun d => d.name = c!"article") = none := by
      rw [List.find?_eq_none]
      intro e he
      simp only [decide_eq_true_eq]
      rcases List.mem_append.1 he with he | he
      · rcases List.mem_cons.1 he with rfl | he
        · simp [articlePage, Dom.name]
        · have := hh e he
          simp only [List.mem_cons, not_or] at this
          exact this.1
      · rcases List.mem_cons.1 he with rfl | he
        · simp [Dom.name]
        · have := hb e he
          simp only [List.mem_cons, not_or] at this
          exact this.1
    rw [this]
    rfl
  have e3 : ∃ rest, (mainPlaces (articlePage head before a l after)).filterMap id = .el c!"article" a (flowDoms l) :: rest := by
    rw [mainPlaces, e1, e2]
    exact ⟨_, rfl⟩
  obtain ⟨rest, e3⟩ := e3
  rw [mainElement, e3, List.find?_cons_of_pos]
  simp only [decide_eq_true_eq]
  rw [textOf_eq, domText]
  exact ht

/-- **C143**: of a page with an article of more than 100 bytes, the content of the article is read. Not covered: pages with a
`main` element; content beyond the limits of the parser. -/
theorem C143_article_partial (low : Str → Str) (cfg : ParserConfig) (url : Str) (head : Dom) (before : List Dom) (a : List (Str × Str))
    (l : List Flow) (after : List Dom)
    (hh : ∀ e ∈ head.elements, e.name ∉ [c!"article", c!"main"]) (hb : ∀ e ∈ elementsOf before, e.name ∉ [c!"article", c!"main"])
    (hl : ∀ e ∈ elementsOf (flowDoms l), e.name ≠ c!"main") (ha : ∀ e ∈ elementsOf after, e.name ≠ c!"main")
    (ht : 100 < utf8Len (domTexts (flowDoms l))) (hc : ClassOk low a) (h : FlowsOk low l) (hd : flowsHeight l < 256)
    (hn : flowBlocks cfg.images cfg.tables cfg.code l ≠ []) :
    ∃ p, parsePage low cfg (articlePage head before a l after) url = some (.ok p) ∧
      p.page.blocks = flowBlocks cfg.images cfg.tables cfg.code l := by
  obtain ⟨f, h1, h2, h3⟩ := C143_blocks_partial low cfg c!"article" a l
    (by rw [FlowOk]; exact ⟨by decide +kernel, by decide +kernel, hc, h⟩) hd
  have hne : f.blocks.isEmpty = false := by
    cases hf : f.blocks with
    | nil => rw [hf] at h2; exact absurd h2.symm hn
    | cons _ _ => rfl
  refine ⟨⟨⟨extractTitle (articlePage head before a l after), url, extractDescription (articlePage head before a l after),
    f.blocks.map (·.1)⟩, f.blocks.map (·.2), f.images⟩, ?_, h2⟩
  rw [parsePage, mainElement_article head before a l after hh hb hl ha ht]
  simp only [h1, Option.map_some, hne]
  rfl

end PptRs.Props
