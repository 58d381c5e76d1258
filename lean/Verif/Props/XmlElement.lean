import Verif.Lemmas.XmlElement
import Verif.Lemmas.Template
import Mathlib.Data.List.TakeWhile

/-!
# The library's own XML tree: C51
-/

namespace PptRs.Props

open PptRs PptRs.Spec

/-- Events that say nothing about elements: the declaration, white space, comments, processing
instructions and the end of the document. -/
def Ignored (l : List XmlEvent) : Prop := ∀ e ∈ l, e = .other

/-- **C51.** The tree built from the events of a document is the element tree of the document: names,
attributes, the order and nesting of the elements at every depth, and the character data of each
element that is not white space only. -/
theorem C51_rebuilds_partial (n : Str) (as : List (Str × Str)) (ks : List Node) (pre post : List XmlEvent)
    (h : AttrsOk (.elem n as ks)) (h1 : Ignored pre) (h2 : Ignored post) :
    XmlElement.ofEvents (pre ++ events (.elem n as ks) ++ post) =
      some (.mk n (realAttrs as) (toElements ks) (solidText ks)) := by
  rw [ofEvents_elem n as ks h1 h2, attrMap_eq h.1, builtIn_eq ks h.2]

/-- An error of the reader is an error of the parser, wherever it occurs. -/
theorem C51_error (pre post : List XmlEvent) : XmlElement.ofEvents (pre ++ .error :: post) = none := by
  unfold XmlElement.ofEvents
  rw [run_append]
  cases TreeBuilder.run {} pre <;> simp [TreeBuilder.run]

/-- A CDATA section is read like any other character data. -/
theorem C51_cdata (l : List XmlEvent) :
    XmlElement.ofEvents l = XmlElement.ofEvents (l.map fun | .cdata t => .characters t | e => e) := by
  have key : ∀ (l : List XmlEvent) (b : TreeBuilder), b.run l = b.run (l.map fun | .cdata t => .characters t | e => e) := by
    intro l
    induction l with
    | nil => intro b; rfl
    | cons e l ih => intro b; cases e <;> simp [TreeBuilder.run, ih]
  unfold XmlElement.ofEvents
  rw [key]

example : (XmlElement.ofEvents [.startElement c!"a:t" [], .cdata c!"a < b", .endElement]).map (·.textContent) = some c!"a < b" := by
  decide +kernel

/-- Without an element there is no tree. -/
theorem C51_empty (l : List XmlEvent) (h : Ignored l) : XmlElement.ofEvents l = none := by
  unfold XmlElement.ofEvents
  rw [run_ignored h]
  rfl

theorem localName_eq (e : XmlElement) : e.localName = afterColon e.tag := by
  unfold XmlElement.localName afterColon
  generalize e.tag = t
  have key : ∀ t : Str, ∃ l, splitChar ':' t = l ++ [(t.reverse.takeWhile (· ≠ ':')).reverse] ∧
      (l = [] ↔ ':' ∉ t) := by
    intro t
    induction t with
    | nil => exact ⟨[], by simp [splitChar]⟩
    | cons c t ih =>
      obtain ⟨l, h1, h2⟩ := ih
      by_cases hc : c = ':'
      · subst hc
        refine ⟨[] :: l, ?_, by simp⟩
        rw [splitChar, if_pos rfl, h1]
        simp [List.takeWhile_append]
        intro hx
        have : t.reverse.takeWhile (fun x => !decide (x = ':')) = t.reverse :=
          List.Sublist.eq_of_length (List.takeWhile_sublist _) (by simpa using hx)
        rw [List.takeWhile_eq_self_iff] at this
        simpa using this
      · rw [splitChar, if_neg hc, h1]
        cases l with
        | nil =>
          have hn : ':' ∉ t := h2.mp rfl
          have e1 : (t.reverse.takeWhile (· ≠ ':')) = t.reverse := by
            rw [List.takeWhile_eq_self_iff]
            intro x hx
            simp only [ne_eq, decide_eq_true_eq]
            rintro rfl
            exact hn (by simpa using hx)
          have e2 : ((c :: t).reverse.takeWhile (· ≠ ':')) = (c :: t).reverse := by
            rw [List.takeWhile_eq_self_iff]
            intro x hx
            simp only [ne_eq, decide_eq_true_eq]
            rintro rfl
            simp only [List.mem_reverse, List.mem_cons] at hx
            rcases hx with hx | hx
            · exact hc hx.symm
            · exact hn hx
          refine ⟨[], ?_, by simp [hn, Ne.symm hc]⟩
          rw [e1, e2]
          simp
        | cons x l =>
          have hn : ':' ∈ t := by
            by_contra hn
            exact absurd (h2.mpr hn) (by simp)
          refine ⟨(c :: x) :: l, ?_, by simp [hn]⟩
          have e2 : ((c :: t).reverse.takeWhile (· ≠ ':')) = t.reverse.takeWhile (· ≠ ':') := by
            rw [List.reverse_cons, List.takeWhile_append, if_neg]
            intro hl
            have : t.reverse.takeWhile (· ≠ ':') = t.reverse :=
              List.Sublist.eq_of_length (List.takeWhile_sublist _) hl
            rw [List.takeWhile_eq_self_iff] at this
            simpa using this ':' (by simpa using hn)
          rw [e2]
          rfl
  obtain ⟨l, h, -⟩ := key t
  rw [h]
  simp

mutual
theorem collect_eq (name : Str) : ∀ e : XmlElement,
    (if e.localName = name then [e] else []) ++ e.findAllDescendants name =
      (preorder e).filter fun x => x.localName = name
  | .mk n as ks t => by
    rw [XmlElement.findAllDescendants, preorder, List.filter_cons, collectIn_eq name ks]
    split <;> simp_all
theorem collectIn_eq (name : Str) : ∀ l : List XmlElement,
    XmlElement.collectIn name l = (preorderIn l).filter fun x => x.localName = name
  | [] => rfl
  | e :: l => by
    rw [XmlElement.collectIn, preorderIn, List.filter_append, collect_eq name e, collectIn_eq name l]
end

mutual
theorem findDescendant_eq (name : Str) : ∀ e : XmlElement,
    e.findDescendant name = (e.findAllDescendants name).head?
  | .mk n as ks t => by
    rw [XmlElement.findDescendant, XmlElement.findAllDescendants, findIn_eq name ks]
theorem findIn_eq (name : Str) : ∀ l : List XmlElement,
    XmlElement.findIn name l = (XmlElement.collectIn name l).head?
  | [] => rfl
  | e :: l => by
    rw [XmlElement.findIn, XmlElement.collectIn]
    by_cases h : e.localName = name
    · simp [h]
    · rw [if_neg h, if_neg h, findDescendant_eq name e, findIn_eq name l]
      cases e.findAllDescendants name <;> simp
end

/-- **C51.** Searches follow document order: `find_all_descendants` returns exactly the elements below
the element with the given local name, in document order, and `find_descendant` the first of them. -/
theorem C51_search_order (n : Str) (as : AMap Str Str) (ks : List XmlElement) (t name : Str) :
    (XmlElement.mk n as ks t).findAllDescendants name =
      ((preorderIn ks).filter fun x => afterColon x.tag = name) ∧
    (XmlElement.mk n as ks t).findDescendant name =
      (preorderIn ks).find? fun x => afterColon x.tag = name := by
  constructor
  · rw [XmlElement.findAllDescendants, collectIn_eq]
    simp only [localName_eq]
  · rw [findDescendant_eq, XmlElement.findAllDescendants, collectIn_eq, List.head?_filter]
    simp only [localName_eq]

/-- **C51.** Attributes are found under their names. -/
theorem C51_attributes (n : Str) (as : List (Str × Str)) (ks : List XmlElement) (t : Str) (k v : Str)
    (h : (as.map (·.1)).Nodup) : (XmlElement.mk n as ks t).attr k = some v ↔ (k, v) ∈ as := by
  show AMap.get as k = some v ↔ _
  unfold AMap.get
  induction as with
  | nil => simp
  | cons a as ih =>
    simp only [List.map_cons, List.nodup_cons] at h
    rw [List.find?_cons]
    by_cases hk : a.1 = k
    · simp only [hk, decide_true, Option.map_some, Option.some.injEq, List.mem_cons]
      constructor
      · rintro rfl; left; rw [← hk]
      · rintro (e | e)
        · rw [← e]
        · exact absurd (List.mem_map_of_mem (f := (·.1)) e) (by rw [← hk] at *; exact h.1)
    · simp only [hk, decide_false, List.mem_cons]
      rw [ih h.2]
      constructor
      · exact .inr
      · rintro (e | e)
        · rw [← e] at hk; exact absurd rfl hk
        · exact e

mutual
/-- Each element has either elements or text, and the text of the elements without elements has
something other than white space. -/
def Tidy : Node → Prop
  | .text _ => True
  | .elem _ _ ks => TidyIn ks ∧ ((∃ t, ks = [.text t] ∧ (t = [] ∨ ¬ BlankText t)) ∨ textOf ks = [])
/-- For each of some nodes. -/
def TidyIn : List Node → Prop
  | [] => True
  | k :: ks => Tidy k ∧ TidyIn ks
end

theorem solidText_of_textOf {ks : List Node} (h : textOf ks = []) : solidText ks = [] := by
  induction ks with
  | nil => rfl
  | cons k ks ih =>
    cases k with
    | text t =>
      simp only [textOf, List.append_eq_nil_iff] at h
      simp [solidText, h.1, ih h.2]
    | elem n as l => exact ih h

mutual
theorem textContent_eq : ∀ (n : Str) (as : List (Str × Str)) (ks : List Node), Tidy (.elem n as ks) →
    (XmlElement.mk n (realAttrs as) (toElements ks) (solidText ks)).textContent = allTextIn ks
  | n, as, ks, ⟨h1, h2⟩ => by
    rw [XmlElement.textContent]
    rcases h2 with ⟨t, rfl, ht⟩ | h2
    · rcases ht with rfl | ht
      · simp [toElements, toElement, XmlElement.textIn, solidText, allTextIn, allText]
      · simp [toElements, toElement, XmlElement.textIn, solidText, allTextIn, allText, ht]
    · rw [solidText_of_textOf h2, List.nil_append]
      exact textIn_eq ks h1 h2
theorem textIn_eq : ∀ ks : List Node, TidyIn ks → textOf ks = [] →
    XmlElement.textIn (toElements ks) = allTextIn ks
  | [], _, _ => rfl
  | .text t :: ks, h, ht => by
    simp only [textOf, List.append_eq_nil_iff] at ht
    simp only [toElements, toElement, List.nil_append, allTextIn, allText, ht.1]
    exact textIn_eq ks h.2 ht.2
  | .elem n as l :: ks, h, ht => by
    simp only [toElements, toElement, List.cons_append, List.nil_append, allTextIn, allText,
      XmlElement.textIn]
    rw [textContent_eq n as l h.1, textIn_eq ks h.2 ht]
end

/-- **C51**, the text (partial: each element has either elements or text, and no text is white space
only). The text of an element is the text of the document in document order. -/
theorem C51_text_partial (n : Str) (as : List (Str × Str)) (ks : List Node) (pre post : List XmlEvent)
    (h : AttrsOk (.elem n as ks)) (h1 : Ignored pre) (h2 : Ignored post) (ht : Tidy (.elem n as ks)) :
    (XmlElement.ofEvents (pre ++ events (.elem n as ks) ++ post)).map (·.textContent) =
      some (allText (.elem n as ks)) := by
  rw [C51_rebuilds_partial n as ks pre post h h1 h2, Option.map_some, textContent_eq n as ks ht]
  rfl

/-- **C51** fails for white space: the text of an element that has only white space is lost. -/
theorem C51_blank_text_violated (n : Str) (as : List (Str × Str)) (t : Str) (h : BlankText t)
    (ha : ((realAttrs as).map (·.1)).Nodup) :
    (XmlElement.ofEvents (events (.elem n as [.text t]))).map (·.textContent) = some [] := by
  have := C51_rebuilds_partial n as [.text t] [] [] ⟨ha, trivial, trivial⟩ (by simp [Ignored]) (by simp [Ignored])
  simp only [List.nil_append, List.append_nil] at this
  rw [this]
  simp [XmlElement.textContent, toElements, toElement, solidText, h, XmlElement.textIn]

/-- **C51** fails for mixed content: text after a child element is read before the text of the child. -/
theorem C51_mixed_text_violated :
    ∃ d : Node, allText d = c!"xyz" ∧
      (XmlElement.ofEvents (events d)).map (·.textContent) = some c!"xzy" :=
  ⟨.elem c!"a" [] [.text c!"x", .elem c!"b" [] [.text c!"y"], .text c!"z"], rfl, by decide +kernel⟩

/-- Not vacuous: a document with nesting, attributes and text. -/
def sampleNode : Node :=
  .elem c!"p:sp" [(c!"xmlns:p", c!"u"), (c!"id", c!"2")]
    [.elem c!"a:p" [] [.elem c!"a:r" [] [.elem c!"a:t" [] [.text c!"x"]]], .elem c!"a:p" [] []]

example : AttrsOk sampleNode ∧ Tidy sampleNode ∧
    (XmlElement.ofEvents ([.other] ++ events sampleNode ++ [.other])).map (fun e => (e.attr c!"id",
      e.attr c!"xmlns:p", (e.findAllDescendants c!"p").length,
      (e.findDescendant c!"t").map (·.textContent))) =
    some (some c!"2", none, 2, some c!"x") := by
  refine ⟨?_, ?_, by decide +kernel⟩
  · simp [sampleNode, AttrsOk, AttrsOkIn, realAttrs]
    decide
  · simp [sampleNode, Tidy, TidyIn, textOf]
    decide

end PptRs.Props
