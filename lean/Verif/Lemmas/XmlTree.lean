import Verif.Lemmas.Xml

/-!
# Lemmas: reading back what the writer wrote
-/

namespace PptRs

open PptRs.Spec

theorem prependText_nil (r : List Node) : prependText [] r = r := by
  cases r with
  | nil => rfl
  | cons n r => cases n <;> rfl

theorem prependText_append (s t : Str) (r : List Node) :
    prependText (s ++ t) r = prependText s (prependText t r) := by
  by_cases hs : s = []
  · subst hs; simp [prependText_nil]
  · by_cases ht : t = []
    · subst ht; simp [prependText_nil]
    · cases r with
      | nil => simp [prependText, hs, ht]
      | cons n r => cases n <;> simp [prependText, hs, ht]

theorem prependText_elem (s : Str) (n : Str) (as : List (Str × Str)) (ks r : List Node) :
    prependText s (.elem n as ks :: r) = (if s = [] then [] else [.text s]) ++ .elem n as ks :: r := by
  by_cases h : s = [] <;> simp [prependText, h]

theorem prependText_of_nil (s : Str) :
    prependText s [] = (if s = [] then [] else [.text s]) := by
  by_cases h : s = [] <;> simp [prependText, h]

theorem treesDoc_eq (ts : List WTree) : treesDoc ts = ts.foldr treeDoc [] := by
  induction ts with
  | nil => rfl
  | cons t ts ih => simp [treesDoc, ih]

mutual
theorem steps_writeTree : ∀ (t : WTree) (_ : NamesOk t) (top : Frame) (st : List Frame) (u : Str),
    ∃ K u', steps ⟨top, st, .text (escapeXml u)⟩ (writeTree [] t) =
        some ⟨{ top with kids := top.kids ++ K }, st, .text (escapeXml u')⟩ ∧
      ∀ rest, K ++ prependText u' rest = prependText u (treeDoc t rest)
  | .text s, _, top, st, u => by
    refine ⟨[], u ++ s, ?_, ?_⟩
    · simp only [writeTree, writeText, appendEscapeXml_eq, List.nil_append]
      rw [steps_text _ _ _ _ (fun h => (mem_escapeXml h).1 rfl), escapeXml_append]
      simp
    · intro rest; simp [treeDoc, prependText_append]
  | .empty n as, hok, top, st, u => by
    refine ⟨(if u = [] then [] else [.text u]) ++ [.elem n as []], [], ?_, ?_⟩
    · simp only [writeTree, emptyElement, List.nil_append, List.cons_append]
      rw [steps_open n as hok.1 hok.2 (flush_escape top u) _ ⟨'/', _, rfl, Or.inr rfl⟩]
      simp [steps, step, Frame.push]
    · intro rest
      simp [treeDoc, prependText_elem, prependText_nil]
  | .elem n as ks, hok, top, st, u => by
    obtain ⟨⟨hn, hk⟩, hks⟩ := hok
    refine ⟨(if u = [] then [] else [.text u]) ++ [.elem n as (treesDoc ks)], [], ?_, ?_⟩
    · simp only [writeTree, endElement, startElement, List.nil_append]
      rw [writeTrees_buf]
      simp only [List.append_assoc, List.cons_append, List.nil_append]
      rw [steps_open n as hn hk (flush_escape top u) _ ⟨'>', _, rfl, Or.inl rfl⟩]
      obtain ⟨K, u', h1, h2⟩ := steps_writeTrees ks hks ⟨n, as, []⟩
        ({ top with kids := top.kids ++ if u = [] then [] else [.text u] } :: st) []
      have h2' := h2 []
      simp only [steps, step, if_neg (by decide : ¬ '>' = ' '), if_true, Option.bind_some]
      rw [steps_append]
      rw [escapeXml_nil] at h1
      rw [h1]
      simp only [Option.bind_some, steps, step, if_true, flush_escape, Option.map_some]
      rw [steps_append, steps_close _ _ _ _ hn.2]
      have hkids : K ++ (if u' = [] then [] else [Node.text u']) = treesDoc ks := by
        rw [prependText_nil, prependText_of_nil] at h2'
        rw [h2', treesDoc_eq]
      simp [steps, step, Frame.push, hkids]
    · intro rest
      simp [treeDoc, prependText_elem, prependText_nil]
theorem steps_writeTrees : ∀ (ts : List WTree) (_ : AllNamesOk ts) (top : Frame) (st : List Frame)
    (u : Str),
    ∃ K u', steps ⟨top, st, .text (escapeXml u)⟩ (writeTrees [] ts) =
        some ⟨{ top with kids := top.kids ++ K }, st, .text (escapeXml u')⟩ ∧
      ∀ rest, K ++ prependText u' rest = prependText u (ts.foldr treeDoc rest)
  | [], _, top, st, u => ⟨[], u, by simp [writeTrees, steps], by simp⟩
  | t :: ts, hok, top, st, u => by
    obtain ⟨K1, u1, h1, e1⟩ := steps_writeTree t hok.1 top st u
    obtain ⟨K2, u2, h2, e2⟩ := steps_writeTrees ts hok.2 { top with kids := top.kids ++ K1 } st u1
    refine ⟨K1 ++ K2, u2, ?_, ?_⟩
    · rw [writeTrees, writeTrees_buf, steps_append, h1, Option.bind_some, h2]
      simp
    · intro rest
      rw [List.foldr_cons, ← e1, ← e2, List.append_assoc]
end

end PptRs
