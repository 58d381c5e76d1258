import Verif.Model.Comments
import Verif.Lemmas.AMap
import Mathlib.Data.List.Dedup

/-!
# C15: comment authors
-/

namespace PptRs.Props

open PptRs

/-- Runs a history of lookups `(name, initials)`. -/
def runAuthors (l : CommentAuthorList) (reqs : List (Str × Str)) : CommentAuthorList :=
  reqs.foldl (fun l q => (l.getOrAdd q.1 q.2).1) l

/-- The names in order of first appearance. -/
def firstNames : List Str → List (Str × Str) → List Str
  | seen, [] => seen
  | seen, q :: qs => firstNames (if q.1 ∈ seen then seen else seen ++ [q.1]) qs

/-- The author list is in the order of first appearance, ids count up from 0 and the map agrees
with it. -/
structure AuthorInv (l : CommentAuthorList) (names : List Str) : Prop where
  names_eq : l.authors.map (·.name) = names
  nodup : names.Nodup
  ids : l.authors.map (·.id) = List.range names.length
  next : l.nextId = names.length
  map : ∀ n, l.nameToId.get n = if n ∈ names then some (names.idxOf n) else none

theorem authorInv_step (l : CommentAuthorList) (names : List Str) (h : AuthorInv l names)
    (n i : Str) : AuthorInv (l.getOrAdd n i).1 (if n ∈ names then names else names ++ [n]) := by
  unfold CommentAuthorList.getOrAdd
  have hm := h.map n
  by_cases hn : n ∈ names
  · rw [if_pos hn] at hm
    rw [hm, if_pos hn]
    exact h
  · rw [if_neg hn] at hm
    rw [hm, if_neg hn]
    constructor
    · simp [h.names_eq]
    · rw [List.nodup_append]
      refine ⟨h.nodup, by simp, ?_⟩
      intro a ha b hb
      rw [List.mem_singleton] at hb
      subst hb
      exact fun e => hn (e ▸ ha)
    · simp [h.ids, h.next, List.range_succ]
    · simp [h.next]
    · intro k
      rw [AMap.get_insert, h.map k, h.next]
      by_cases hk : k = n
      · subst hk
        simp [List.idxOf_append, hn]
      · by_cases hk2 : k ∈ names
        · simp [hk, hk2, List.idxOf_append]
        · simp [hk, hk2]

theorem authorInv_run (reqs : List (Str × Str)) (l : CommentAuthorList) (names : List Str)
    (h : AuthorInv l names) : AuthorInv (runAuthors l reqs) (firstNames names reqs) := by
  induction reqs generalizing l names with
  | nil => exact h
  | cons q qs ih => exact ih _ _ (authorInv_step l names h q.1 q.2)

theorem authorInv_new : AuthorInv .new [] :=
  ⟨rfl, List.nodup_nil, rfl, rfl, fun n => by simp [CommentAuthorList.new, AMap.get_nil]⟩

/-- **C15**: after any history the authors are the distinct names in order of first appearance,
with ids `0, 1, 2, …`. -/
theorem C15_ids_in_order (reqs : List (Str × Str)) :
    (runAuthors .new reqs).authors.map (fun a => (a.id, a.name)) =
      (firstNames [] reqs).mapIdx (fun i n => (i, n)) ∧ (firstNames [] reqs).Nodup ∧
    ∀ n, n ∈ firstNames [] reqs ↔ n ∈ reqs.map (·.1) := by
  have h := authorInv_run reqs _ _ authorInv_new
  refine ⟨?_, h.nodup, ?_⟩
  · have hl : (runAuthors .new reqs).authors.length = (firstNames [] reqs).length := by
      rw [← h.names_eq]; simp
    apply List.ext_getElem
    · simp [hl]
    · intro i h1 h2
      simp only [List.getElem_map, List.getElem_mapIdx, Prod.mk.injEq]
      rw [List.length_map] at h1
      constructor
      · have := congrArg (fun l => l[i]?) h.ids
        simp only [List.getElem?_map, List.getElem?_eq_getElem h1, Option.map_some,
          List.getElem?_range (hl ▸ h1)] at this
        exact Option.some.inj this
      · have := congrArg (fun l => l[i]?) h.names_eq
        simp only [List.getElem?_map, List.getElem?_eq_getElem h1, Option.map_some,
          List.getElem?_eq_getElem (hl ▸ h1)] at this
        exact Option.some.inj this
  · have : ∀ (reqs : List (Str × Str)) (seen : List Str) (n : Str),
        n ∈ firstNames seen reqs ↔ n ∈ seen ∨ n ∈ reqs.map (·.1) := by
      intro reqs
      induction reqs with
      | nil => simp [firstNames]
      | cons q qs ih =>
        intro seen n
        rw [firstNames, ih]
        by_cases hq : q.1 ∈ seen
        · simp only [hq, if_true, List.map_cons, List.mem_cons]
          constructor
          · rintro (h | h) <;> simp [h]
          · rintro (h | h | h)
            · exact Or.inl h
            · exact Or.inl (h ▸ hq)
            · exact Or.inr h
        · simp only [hq, if_false, List.mem_append, List.mem_singleton, List.map_cons,
            List.mem_cons, or_assoc, List.not_mem_nil, false_or]
    intro n; simpa using this reqs [] n

/-- **C15**: the id handed out for a name resolves to the author with that name. -/
theorem C15_id_resolves (reqs : List (Str × Str)) (name initials : Str) :
    ∃ a, (((runAuthors .new reqs).getOrAdd name initials).1).getById
        ((runAuthors .new reqs).getOrAdd name initials).2 = some a ∧ a.name = name := by
  have h := authorInv_run reqs _ _ authorInv_new
  have h' := authorInv_step _ _ h name initials
  set l := runAuthors .new reqs with hl
  set names := firstNames [] reqs with hnm
  set l' := (l.getOrAdd name initials).1 with hl'
  set names' := (if name ∈ names then names else names ++ [name]) with hnm'
  have hid : (l.getOrAdd name initials).2 = names'.idxOf name := by
    unfold CommentAuthorList.getOrAdd
    have hm := h.map name
    by_cases hn : name ∈ names
    · rw [if_pos hn] at hm; rw [hm]; simp [hnm', hn]
    · rw [if_neg hn] at hm; rw [hm]; simp [hnm', hn, List.idxOf_append, h.next]
  have hmem : name ∈ names' := by rw [hnm']; split <;> simp_all
  rw [hid]
  have hlt := List.idxOf_lt_length_of_mem hmem
  have hlen : l'.authors.length = names'.length := by rw [← h'.names_eq]; simp
  have hget : names'[names'.idxOf name] = name := List.getElem_idxOf hlt
  generalize names'.idxOf name = k at *
  refine ⟨l'.authors[k]'(by omega), ?_, ?_⟩
  · unfold CommentAuthorList.getById
    rw [List.find?_eq_some_iff_getElem]
    have hids : ∀ j (hj : j < l'.authors.length), (l'.authors[j]).id = j := by
      intro j hj
      have := congrArg (fun l => l[j]?) h'.ids
      simp only [List.getElem?_map, List.getElem?_eq_getElem hj, Option.map_some,
        List.getElem?_range (hlen ▸ hj)] at this
      exact Option.some.inj this
    refine ⟨by simp [hids], k, by omega, rfl, ?_⟩
    intro j hj
    simp only [hids, decide_eq_true_eq, Bool.not_eq_true', decide_eq_false_iff_not]
    omega
  · have := congrArg (fun l => l[k]?) h'.names_eq
    simp only [List.getElem?_map, List.getElem?_eq_getElem (hlen ▸ hlt), Option.map_some,
      List.getElem?_eq_getElem hlt, hget] at this
    exact Option.some.inj this

/-- **C15**: asking again for a known name returns the same id and changes nothing. -/
theorem C15_idempotent (reqs : List (Str × Str)) (name i1 i2 : Str) (more : List (Str × Str)) :
    let l1 := (runAuthors .new reqs).getOrAdd name i1
    let l2 := runAuthors l1.1 more
    l2.getOrAdd name i2 = (l2, l1.2) := by
  intro l1 l2
  have h := authorInv_run reqs _ _ authorInv_new
  have hid : ∀ (l : CommentAuthorList) (names : List Str), AuthorInv l names →
      name ∈ names → l.getOrAdd name i2 = (l, names.idxOf name) := by
    intro l names h hn
    unfold CommentAuthorList.getOrAdd
    have hm := h.map name
    rw [if_pos hn] at hm
    rw [hm]
  have h1 : l1.2 = (if name ∈ firstNames [] reqs then firstNames [] reqs
      else firstNames [] reqs ++ [name]).idxOf name := by
    simp only [l1]
    unfold CommentAuthorList.getOrAdd
    have hm := h.map name
    by_cases hn : name ∈ firstNames [] reqs
    · rw [if_pos hn] at hm; rw [hm]; simp [hn]
    · rw [if_neg hn] at hm; rw [hm]; simp [hn, List.idxOf_append, h.next]
  have hs := authorInv_step _ _ h name i1
  have hmore : ∀ (more : List (Str × Str)) (names : List Str), name ∈ names →
      name ∈ firstNames names more ∧ (firstNames names more).idxOf name = names.idxOf name := by
    intro more
    induction more with
    | nil => intro names hn; exact ⟨hn, rfl⟩
    | cons q qs ih =>
      intro names hn
      rw [firstNames]
      have : name ∈ (if q.1 ∈ names then names else names ++ [q.1]) := by
        split <;> simp [hn]
      obtain ⟨a, b⟩ := ih _ this
      refine ⟨a, b.trans ?_⟩
      split
      · rfl
      · simp [List.idxOf_append, hn]
  have hn : name ∈ (if name ∈ firstNames [] reqs then firstNames [] reqs
      else firstNames [] reqs ++ [name]) := by split <;> simp_all
  obtain ⟨a, b⟩ := hmore more _ hn
  have h2 := authorInv_run more _ _ hs
  rw [hid l2 _ h2 a, b, h1]

/-- **C15**: different names have different ids. -/
theorem C15_distinct (reqs : List (Str × Str)) (a b : CommentAuthor)
    (ha : a ∈ (runAuthors .new reqs).authors) (hb : b ∈ (runAuthors .new reqs).authors) :
    a.id = b.id ↔ a.name = b.name := by
  have h := C15_ids_in_order reqs
  have pos : ∀ x ∈ (runAuthors .new reqs).authors, ∃ i, ∃ hi : i < (firstNames [] reqs).length,
      x.id = i ∧ x.name = (firstNames [] reqs)[i] := by
    intro x hx
    have : (x.id, x.name) ∈ (runAuthors .new reqs).authors.map (fun a => (a.id, a.name)) :=
      List.mem_map_of_mem hx
    rw [h.1] at this
    obtain ⟨i, hi, e⟩ := List.mem_mapIdx.mp this
    simp only [Prod.mk.injEq] at e
    exact ⟨i, hi, e.1.symm, e.2.symm⟩
  obtain ⟨i, hi, e1, e2⟩ := pos a ha
  obtain ⟨j, hj, e3, e4⟩ := pos b hb
  rw [e1, e2, e3, e4]
  constructor
  · rintro rfl; rfl
  · intro e; exact (List.Nodup.getElem_inj_iff h.2.1).mp e

example : (runAuthors .new [(c!"Ann", c!"A"), (c!"Bo", c!"B"), (c!"Ann", c!"X"), (c!"Cy", c!"C")]).authors =
    [⟨0, c!"Ann", c!"A", 0⟩, ⟨1, c!"Bo", c!"B", 1⟩, ⟨2, c!"Cy", c!"C", 2⟩] := by decide

end PptRs.Props
