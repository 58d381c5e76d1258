import Verif.Model.Flowchart
import Verif.Model.Builder
import Verif.Lemmas.AMap
import Verif.Lemmas.Str
import Mathlib.Data.List.Nodup
import Mathlib.Data.List.Basic
import Mathlib.Data.List.Perm.Basic

/-!
# C61: flowcharts
-/

namespace PptRs.Props

open PptRs PptRs.Flow

/-- The outline of each kind of node. -/
def figureOf : NodeShape → Str
  | .rectangle => c!"Rectangle"
  | .roundedRect | .stadium => c!"RoundedRectangle"
  | .diamond => c!"Diamond"
  | .circle => c!"Ellipse"
  | .hexagon => c!"Hexagon"

/-- The shape of a node: its outline and its label, at a position, with a number. -/
def nodeBox (n : Node) (p : Nat × Nat) (i : Nat) : Drawn :=
  ⟨figureOf n.shape, p.1, p.2, 1400000, 500000, some i, some n.label⟩

theorem nodeShape_eq (n : Node) (x y i : Nat) : nodeShape n x y i = nodeBox n (x, y) i := by
  unfold nodeShape nodeBox
  cases n.shape <;> rfl

/-- A drawing in which the nodes `seen` have been placed, with `extra` other shapes. -/
structure FlowInv (d : Drawing) (seen : List Node) (extra : Nat) : Prop where
  distinct : (seen.map (·.id)).Nodup
  node : ∀ n ∈ seen, ∃ i p, d.ids.get n.id = some i ∧ d.positions.get n.id = some p ∧
    d.shapes.filter (fun s => s.id = some i) = [nodeBox n p i]
  others : ∀ k, k ∉ seen.map (·.id) → d.ids.get k = none ∧ d.positions.get k = none
  inj : ∀ k k' i, d.ids.get k = some i → d.ids.get k' = some i → k = k'
  small : ∀ s ∈ d.shapes, ∀ i, s.id = some i → i < d.next
  idSmall : ∀ k i, d.ids.get k = some i → i < d.next
  nodup : (d.shapes.filterMap (·.id)).Nodup
  count : d.shapes.length = seen.length + extra

theorem flowInv_start : FlowInv {} [] 0 :=
  ⟨by simp, by simp, fun k _ => ⟨rfl, rfl⟩, fun k k' i h => (by cases h), by simp, fun k i h => (by cases h), by simp, rfl⟩

/-- Shapes of which the numbered ones have fresh distinct numbers. -/
theorem FlowInv.extend {d d' : Drawing} {seen : List Node} {e : Nat} (h : FlowInv d seen e) (ss : List Drawn)
    (hs : d'.shapes = d.shapes ++ ss) (hi : d'.ids = d.ids) (hp : d'.positions = d.positions)
    (hss : ss.filterMap (·.id) = [d.next]) (hn : d'.next = d.next + 1) : FlowInv d' seen (e + ss.length) := by
  have hmem : ∀ s ∈ ss, ∀ i, s.id = some i → i = d.next := by
    intro s hs i hi
    have : i ∈ ss.filterMap (·.id) := List.mem_filterMap.mpr ⟨s, hs, hi⟩
    rw [hss] at this
    exact List.mem_singleton.mp this
  refine ⟨h.distinct, ?_, ?_, ?_, ?_, ?_, ?_, ?_⟩
  · intro n hns
    obtain ⟨i, p, h1, h2, h3⟩ := h.node n hns
    refine ⟨i, p, by rw [hi]; exact h1, by rw [hp]; exact h2, ?_⟩
    rw [hs, List.filter_append, h3]
    have : ss.filter (fun s => s.id = some i) = [] := by
      rw [List.filter_eq_nil_iff]
      intro s hs' hid
      have := hmem s hs' i (by simpa using hid)
      have := h.idSmall _ _ h1
      omega
    rw [this, List.append_nil]
  · rw [hi, hp]; exact h.others
  · rw [hi]; exact h.inj
  · intro s hs' i hid
    rw [hs, List.mem_append] at hs'
    rw [hn]
    rcases hs' with hs' | hs'
    · have := h.small s hs' i hid
      omega
    · have := hmem s hs' i hid
      omega
  · intro k i hk
    rw [hi] at hk
    have := h.idSmall k i hk
    omega
  · rw [hs, List.filterMap_append, hss]
    refine List.nodup_append.mpr ⟨h.nodup, by simp, ?_⟩
    intro a ha b hb
    obtain ⟨s, hs', hid⟩ := List.mem_filterMap.mp ha
    have := h.small s hs' a hid
    have := List.mem_singleton.mp hb
    omega
  · rw [hs, List.length_append, h.count]
    omega

theorem FlowInv.place {d : Drawing} {seen : List Node} {e : Nat} (h : FlowInv d seen e) {n : Node} (hn : n.id ∉ seen.map (·.id))
    (x y : Nat) : FlowInv (d.place n x y) (seen ++ [n]) e := by
  have hget : ∀ k, (d.place n x y).ids.get k = if n.id = k then some d.next else d.ids.get k := by
    intro k
    show (d.ids.insert n.id d.next).get k = _
    rw [AMap.get_insert]
    by_cases hk : k = n.id
    · subst hk; simp
    · simp [hk, Ne.symm hk]
  have hpos : ∀ k, (d.place n x y).positions.get k = if n.id = k then some (x, y) else d.positions.get k := by
    intro k
    show (d.positions.insert n.id (x, y)).get k = _
    rw [AMap.get_insert]
    by_cases hk : k = n.id
    · subst hk; simp
    · simp [hk, Ne.symm hk]
  have hsh : (d.place n x y).shapes = d.shapes ++ [nodeBox n (x, y) d.next] := by
    show d.shapes ++ [nodeShape n x y d.next] = _
    rw [nodeShape_eq]
  have hnext : (d.place n x y).next = d.next + 1 := rfl
  refine ⟨?_, ?_, ?_, ?_, ?_, ?_, ?_, ?_⟩
  · rw [List.map_append]
    refine List.nodup_append.mpr ⟨h.distinct, by simp, ?_⟩
    intro a ha b hb hab
    simp only [List.map_cons, List.map_nil, List.mem_singleton] at hb
    subst hb hab
    exact hn ha
  · intro m hm
    rw [List.mem_append, List.mem_singleton] at hm
    rcases hm with hm | rfl
    · obtain ⟨i, p, h1, h2, h3⟩ := h.node m hm
      have hne : n.id ≠ m.id := fun he => hn (he ▸ List.mem_map_of_mem hm)
      refine ⟨i, p, by rw [hget, if_neg hne]; exact h1, by rw [hpos, if_neg hne]; exact h2, ?_⟩
      rw [hsh, List.filter_append, h3]
      have : i ≠ d.next := by have := h.idSmall _ _ h1; omega
      simp [nodeBox, Ne.symm this]
    · refine ⟨d.next, (x, y), by rw [hget, if_pos rfl], by rw [hpos, if_pos rfl], ?_⟩
      rw [hsh, List.filter_append]
      have : d.shapes.filter (fun s => s.id = some d.next) = [] := by
        rw [List.filter_eq_nil_iff]
        intro s hs hid
        have := h.small s hs d.next (by simpa using hid)
        omega
      rw [this]
      simp [nodeBox]
  · intro k hk
    simp only [List.map_append, List.map_cons, List.map_nil, List.mem_append, List.mem_singleton, not_or] at hk
    rw [hget, hpos, if_neg (Ne.symm hk.2), if_neg (Ne.symm hk.2)]
    exact h.others k hk.1
  · intro k k' i hk hk'
    rw [hget] at hk hk'
    split at hk <;> split at hk'
    · rename_i a b; exact a.symm.trans b
    · have := h.idSmall _ _ hk'
      cases hk
      omega
    · have := h.idSmall _ _ hk
      cases hk'
      omega
    · exact h.inj _ _ _ hk hk'
  · intro s hs i hid
    rw [hsh, List.mem_append, List.mem_singleton] at hs
    rw [hnext]
    rcases hs with hs | rfl
    · have := h.small s hs i hid
      omega
    · have : some d.next = some i := hid
      cases this
      omega
  · intro k i hk
    rw [hget] at hk
    rw [hnext]
    split at hk
    · cases hk; omega
    · have := h.idSmall _ _ hk; omega
  · rw [hsh, List.filterMap_append]
    refine List.nodup_append.mpr ⟨h.nodup, List.nodup_singleton d.next, ?_⟩
    intro a ha b hb
    obtain ⟨s, hs', hid⟩ := List.mem_filterMap.mp ha
    have := h.small s hs' a hid
    have : b = d.next := by
      have hb' : b ∈ [d.next] := hb
      exact List.mem_singleton.mp hb'
    omega
  · rw [hsh, List.length_append, List.length_append, h.count]
    simp only [List.length_cons, List.length_nil]
    omega

theorem FlowInv.frame {d : Drawing} {seen : List Node} {e : Nat} (h : FlowInv d seen e) (sg : Subgraph) (x y : Nat) :
    FlowInv (d.frame sg x y) seen (e + 2) := h.extend (d' := d.frame sg x y) _ rfl rfl rfl rfl rfl

theorem FlowInv.label {d : Drawing} {seen : List Node} {e : Nat} (h : FlowInv d seen e) (a b : Nat × Nat) (l : Option Str) :
    FlowInv (d.label a b l) seen (e + l.toList.length) := by
  cases l with
  | none => exact h
  | some l => exact h.extend (d' := d.label a b (some l)) _ rfl rfl rfl rfl rfl

/-- The members of a subgraph. -/
theorem FlowInv.members {all : List Node} (x y : Nat) (ids : List Str) (i : Nat) {d : Drawing} {seen : List Node} {e : Nat}
    (h : FlowInv d seen e) (hnd : ids.Nodup) (hdis : ∀ k ∈ ids, k ∉ seen.map (·.id)) :
    FlowInv (placeMembers all x y i ids d) (seen ++ ids.filterMap fun k => all.find? fun n => n.id = k) e := by
  induction ids generalizing i d seen with
  | nil => simpa [placeMembers] using h
  | cons k ks ih =>
    unfold placeMembers
    have hk := hdis k (List.mem_cons_self ..)
    cases hf : all.find? (fun n => n.id = k) with
    | none =>
      simp only [List.filterMap_cons, hf]
      exact ih _ h hnd.of_cons fun k' hk' => hdis k' (List.mem_cons_of_mem _ hk')
    | some n =>
      have hid : n.id = k := by simpa using List.find?_some hf
      simp only [List.filterMap_cons, hf]
      have := ih (i + 1) (h.place (n := n) (by rw [hid]; exact hk) (x + 200000) (y + 250000 + 200000 + i * vSpacing))
        hnd.of_cons (by
          intro k' hk'
          simp only [List.map_append, List.map_cons, List.map_nil, List.mem_append, List.mem_singleton, not_or]
          refine ⟨hdis k' (List.mem_cons_of_mem _ hk'), ?_⟩
          rw [hid]
          intro he
          exact (List.nodup_cons.mp hnd).1 (he ▸ hk'))
      rwa [List.append_assoc, List.singleton_append] at this

/-- All subgraphs. -/
theorem FlowInv.subgraphs {all : List Node} (sgs : List Subgraph) (x : Nat) {d : Drawing} {seen : List Node} {e : Nat}
    (h : FlowInv d seen e) (hnd : (sgs.flatMap (·.nodes)).Nodup)
    (hdis : ∀ k ∈ sgs.flatMap (·.nodes), k ∉ seen.map (·.id)) :
    FlowInv (placeSubgraphs all sgs x d).1
      (seen ++ (sgs.flatMap (·.nodes)).filterMap fun k => all.find? fun n => n.id = k) (e + 2 * sgs.length) := by
  induction sgs generalizing x d seen e with
  | nil => simpa [placeSubgraphs] using h
  | cons sg sgs ih =>
    rw [List.flatMap_cons] at hnd hdis ⊢
    obtain ⟨hnd1, hnd2, hnd3⟩ := List.nodup_append.mp hnd
    unfold placeSubgraphs
    have h1 := (h.frame sg x 1600000).members (all := all) x 1600000 sg.nodes 0 hnd1
      (fun k hk => hdis k (List.mem_append_left _ hk))
    have h2 := ih (x + (nodeWidth + 400000 + 600000)) h1 hnd2 (by
      intro k hk hk'
      rw [List.map_append, List.mem_append] at hk'
      rcases hk' with hk' | hk'
      · exact hdis k (List.mem_append_right _ hk) hk'
      · obtain ⟨n, hn, rfl⟩ := List.mem_map.mp hk'
        obtain ⟨k', hk1, hk2⟩ := List.mem_filterMap.mp hn
        have : n.id = k' := by simpa using List.find?_some hk2
        exact hnd3 k' hk1 n.id hk this.symm)
    rw [List.filterMap_append, ← List.append_assoc]
    have he : e + 2 + 2 * sgs.length = e + 2 * (sg :: sgs).length := by
      rw [List.length_cons]; omega
    rw [← he]
    exact h2

/-- The nodes outside subgraphs. -/
theorem FlowInv.orphans (x : Nat) (ns : List Node) (y : Nat) {d : Drawing} {seen : List Node} {e : Nat} (h : FlowInv d seen e)
    (hnd : (ns.map (·.id)).Nodup) :
    FlowInv (placeOrphans x ns y d) (seen ++ ns.filter fun n => n.id ∉ seen.map (·.id)) e := by
  induction ns generalizing y d seen with
  | nil => simpa [placeOrphans] using h
  | cons n ns ih =>
    rw [List.map_cons, List.nodup_cons] at hnd
    have hhas : d.positions.has n.id = true ↔ n.id ∈ seen.map (·.id) := by
      rw [AMap.has_eq]
      constructor
      · intro hp
        by_contra hc
        rw [(h.others _ hc).2] at hp
        cases hp
      · intro hm
        obtain ⟨m, hm, he⟩ := List.mem_map.mp hm
        obtain ⟨i, p, _, hp, _⟩ := h.node m hm
        rw [← he, hp]
        rfl
    unfold placeOrphans
    by_cases hm : n.id ∈ seen.map (·.id)
    · rw [if_pos (hhas.mpr hm), List.filter_cons_of_neg (by simpa using hm)]
      exact ih y h hnd.2
    · rw [if_neg (fun hc => hm (hhas.mp hc)), List.filter_cons_of_pos (by simpa using hm)]
      have := ih (y + vSpacing) (h.place hm x y) hnd.2
      rw [List.append_assoc, List.singleton_append] at this
      have he : (ns.filter fun m => m.id ∉ (seen ++ [n]).map (·.id)) = ns.filter fun m => m.id ∉ seen.map (·.id) := by
        refine List.filter_congr fun m hm' => ?_
        have : m.id ≠ n.id := fun hc => hnd.1 (hc ▸ List.mem_map_of_mem hm')
        simp [this]
      rwa [he] at this

/-- The grid. -/
theorem FlowInv.grid (b : Bool) (c : Nat) (ns : List Node) (i : Nat) {d : Drawing} {seen : List Node} {e : Nat}
    (h : FlowInv d seen e) (hnd : (ns.map (·.id)).Nodup) (hdis : ∀ n ∈ ns, n.id ∉ seen.map (·.id)) :
    FlowInv (placeGrid b c i ns d) (seen ++ ns) e := by
  induction ns generalizing i d seen with
  | nil => simpa [placeGrid] using h
  | cons n ns ih =>
    rw [List.map_cons, List.nodup_cons] at hnd
    unfold placeGrid
    have := ih (i + 1) (h.place (hdis n (List.mem_cons_self ..)) (gridPosition b c i).1 (gridPosition b c i).2) hnd.2 (by
      intro m hm
      simp only [List.map_append, List.map_cons, List.map_nil, List.mem_append, List.mem_singleton, not_or]
      exact ⟨hdis m (List.mem_cons_of_mem _ hm), fun hc => hnd.1 (hc ▸ List.mem_map_of_mem hm)⟩)
    rwa [List.append_assoc, List.singleton_append] at this

/-- All nodes are placed. -/
theorem layout_inv (f : Flowchart) (hn : (f.nodes.map (·.id)).Nodup) (hs : (f.subgraphs.flatMap (·.nodes)).Nodup) :
    ∃ seen, seen.Perm f.nodes ∧ FlowInv (layout f) seen (2 * f.subgraphs.length) := by
  unfold layout
  by_cases h : f.subgraphs = []
  · rw [if_neg (by simpa using h), h]
    have := FlowInv.grid f.direction.horizontal f.nodes.length f.nodes 0 flowInv_start hn (by simp)
    exact ⟨_, .refl _, by simpa using this⟩
  · rw [if_pos (by simpa using h)]
    have h1 := FlowInv.subgraphs (all := f.nodes) f.subgraphs 500000 flowInv_start hs (by simp)
    have h2 := h1.orphans (placeSubgraphs f.nodes f.subgraphs 500000 {}).2 f.nodes 1600000 hn
    rw [Nat.zero_add] at h2
    refine ⟨_, ?_, h2⟩
    refine (List.perm_ext_iff_of_nodup h2.distinct.of_map hn.of_map).mpr fun n => ?_
    simp only [List.nil_append, List.mem_append, List.mem_filter, List.mem_filterMap]
    constructor
    · rintro (⟨k, _, hk⟩ | ⟨hm, _⟩)
      · exact List.mem_of_find?_eq_some hk
      · exact hm
    · intro hm
      by_cases hk : n.id ∈ List.map (·.id) ((f.subgraphs.flatMap (·.nodes)).filterMap fun k => f.nodes.find? fun n => n.id = k)
      · left
        obtain ⟨m, hm1, hm2⟩ := List.mem_map.mp hk
        obtain ⟨k, hk1, hk2⟩ := List.mem_filterMap.mp hm1
        have : m = n := List.inj_on_of_nodup_map hn (List.mem_of_find?_eq_some hk2) hm hm2
        subst this
        exact ⟨k, hk1, hk2⟩
      · right
        exact ⟨hm, by simpa using hk⟩

/-- Where a connector leaves and enters the shapes of its nodes: from the right side to the left side, or from the
bottom to the top. -/
def touches (d : Direction) (u v : Nat × Nat) : (Nat × Nat) × (Nat × Nat) :=
  if d = .leftToRight ∨ d = .rightToLeft then ((u.1 + 1400000, u.2 + 250000), (v.1, v.2 + 250000))
  else ((u.1 + 700000, u.2 + 500000), (v.1 + 700000, v.2))

theorem wireEnds_eq (d : Direction) (u v : Nat × Nat) : wireEnds d.horizontal u v = touches d u v := by
  cases d <;> rfl

/-- The connections whose ends are both nodes. -/
def drawn (f : Flowchart) : List Connection :=
  f.connections.filter fun c => c.source ∈ f.nodes.map (·.id) ∧ c.target ∈ f.nodes.map (·.id)

/-- What a connector says: its ends and the shapes it is attached to. -/
def attached (w : Wire) : (Option Nat × Option Nat) × (Nat × Nat) × (Nat × Nat) :=
  ((w.startShape, w.endShape), (w.startX, w.startY), (w.endX, w.endY))

theorem connect_fold {dir : Direction} {seen : List Node} {num : Str → Nat} {pos : Str → Nat × Nat} (cs : List Connection)
    {d : Drawing} {e : Nat} (h : FlowInv d seen e)
    (hnum : ∀ n ∈ seen, d.ids.get n.id = some (num n.id) ∧ d.positions.get n.id = some (pos n.id)) :
    FlowInv (cs.foldl (Drawing.connect dir.horizontal) d) seen
      (e + ((cs.filter fun c => c.source ∈ seen.map (·.id) ∧ c.target ∈ seen.map (·.id)).filterMap (·.label)).length) ∧
    (cs.foldl (Drawing.connect dir.horizontal) d).ids = d.ids ∧
    (cs.foldl (Drawing.connect dir.horizontal) d).positions = d.positions ∧
    (cs.foldl (Drawing.connect dir.horizontal) d).connectors.map attached = d.connectors.map attached ++
      (cs.filter fun c => c.source ∈ seen.map (·.id) ∧ c.target ∈ seen.map (·.id)).map fun c =>
        ((some (num c.source), some (num c.target)), touches dir (pos c.source) (pos c.target)) := by
  induction cs generalizing d e with
  | nil => exact ⟨h, rfl, rfl, by simp⟩
  | cons c cs ih =>
    rw [List.foldl_cons]
    by_cases hc : c.source ∈ seen.map (·.id) ∧ c.target ∈ seen.map (·.id)
    · obtain ⟨⟨n, hn, hn'⟩, ⟨m, hm, hm'⟩⟩ := And.intro (List.mem_map.mp hc.1) (List.mem_map.mp hc.2)
      obtain ⟨a1, a2⟩ := hnum n hn
      obtain ⟨b1, b2⟩ := hnum m hm
      rw [hn'] at a1 a2
      rw [hm'] at b1 b2
      have hd : d.connect dir.horizontal c =
          { d.label (touches dir (pos c.source) (pos c.target)).1 (touches dir (pos c.source) (pos c.target)).2 c.label with
            connectors := (d.label (touches dir (pos c.source) (pos c.target)).1
                (touches dir (pos c.source) (pos c.target)).2 c.label).connectors ++
              [wire (touches dir (pos c.source) (pos c.target)).1 (touches dir (pos c.source) (pos c.target)).2
                (c.arrow = .dotted) (some (num c.source)) (some (num c.target))] } := by
        unfold Drawing.connect
        rw [a2, b2]
        simp only [wireEnds_eq, a1, b1]
      have hl := h.label (touches dir (pos c.source) (pos c.target)).1 (touches dir (pos c.source) (pos c.target)).2 c.label
      have hids : (d.connect dir.horizontal c).ids = d.ids := by
        rw [hd]; cases c.label <;> rfl
      have hposs : (d.connect dir.horizontal c).positions = d.positions := by
        rw [hd]; cases c.label <;> rfl
      have hcon : (d.connect dir.horizontal c).connectors.map attached = d.connectors.map attached ++
          [((some (num c.source), some (num c.target)), touches dir (pos c.source) (pos c.target))] := by
        rw [hd]; cases c.label <;> simp [Drawing.label, attached, wire]
      have hinv : FlowInv (d.connect dir.horizontal c) seen (e + c.label.toList.length) := by
        rw [hd]
        exact ⟨hl.distinct, hl.node, hl.others, hl.inj, hl.small, hl.idSmall, hl.nodup, hl.count⟩
      obtain ⟨i1, i2, i3, i4⟩ := ih hinv (by rw [hids, hposs]; exact hnum)
      rw [List.filter_cons_of_pos (by simpa using hc)]
      refine ⟨?_, i2.trans hids, i3.trans hposs, ?_⟩
      · have : ∀ l : List Connection, (List.filterMap (·.label) (c :: l)).length =
            c.label.toList.length + (l.filterMap (·.label)).length := by
          intro l
          rw [List.filterMap_cons]
          cases c.label <;> simp [Nat.add_comm]
        rw [this, ← Nat.add_assoc]
        exact i1
      · rw [i4, hcon, List.map_cons, List.append_assoc, List.singleton_append]
    · have hd : d.connect dir.horizontal c = d := by
        unfold Drawing.connect
        rw [not_and_or] at hc
        rcases hc with hc | hc
        · rw [(h.others _ hc).2]
        · rw [(h.others _ hc).2]
          cases d.positions.get c.source <;> rfl
      rw [hd, List.filter_cons_of_neg (by simpa using hc)]
      exact ih h hnum

theorem placeMembers_connectors {all : List Node} {x y : Nat} (ids : List Str) (i : Nat) (d : Drawing) :
    (placeMembers all x y i ids d).connectors = d.connectors := by
  induction ids generalizing i d with
  | nil => rfl
  | cons k ks ih =>
    unfold placeMembers
    rw [ih]
    cases all.find? (fun n => n.id = k) <;> rfl

theorem placeSubgraphs_connectors {all : List Node} (sgs : List Subgraph) (x : Nat) (d : Drawing) :
    (placeSubgraphs all sgs x d).1.connectors = d.connectors := by
  induction sgs generalizing x d with
  | nil => rfl
  | cons sg sgs ih =>
    unfold placeSubgraphs
    rw [ih, placeMembers_connectors]
    rfl

theorem placeOrphans_connectors {x : Nat} (ns : List Node) (y : Nat) (d : Drawing) :
    (placeOrphans x ns y d).connectors = d.connectors := by
  induction ns generalizing y d with
  | nil => rfl
  | cons n ns ih =>
    unfold placeOrphans
    split
    · exact ih _ _
    · rw [ih]; rfl

theorem placeGrid_connectors {b : Bool} {c : Nat} (ns : List Node) (i : Nat) (d : Drawing) :
    (placeGrid b c i ns d).connectors = d.connectors := by
  induction ns generalizing i d with
  | nil => rfl
  | cons n ns ih =>
    unfold placeGrid
    rw [ih]
    rfl

theorem layout_connectors (f : Flowchart) : (layout f).connectors = [] := by
  unfold layout
  split
  · rw [placeOrphans_connectors, placeSubgraphs_connectors]
  · rw [placeGrid_connectors]

/-- **C61.** Every node of a flowchart has exactly one shape, with its outline and label; all shape numbers are
different; there are no other shapes than these, two for each subgraph and the labels of connections; and the
connectors are those of the connections between nodes, attached to the shapes of their ends. This holds for every order
of the nodes, as long as no node is in two subgraphs. -/
theorem C61_layout_partial (f : Flowchart) (hn : (f.nodes.map (·.id)).Nodup) (hs : (f.subgraphs.flatMap (·.nodes)).Nodup)
    (hne : f.nodes ≠ []) :
    ∃ (num : Str → Nat) (pos : Str → Nat × Nat),
      (∀ n ∈ f.nodes, (elements f).shapes.filter (fun s => s.id = some (num n.id)) = [nodeBox n (pos n.id) (num n.id)]) ∧
      (∀ n ∈ f.nodes, ∀ m ∈ f.nodes, num n.id = num m.id → n = m) ∧
      ((elements f).shapes.filterMap (·.id)).Nodup ∧
      (elements f).shapes.length =
        f.nodes.length + 2 * f.subgraphs.length + ((drawn f).filterMap (·.label)).length ∧
      (elements f).connectors.map attached = (drawn f).map fun c =>
        ((some (num c.source), some (num c.target)), touches f.direction (pos c.source) (pos c.target)) := by
  obtain ⟨seen, hp, h⟩ := layout_inv f hn hs
  have hmem : ∀ n, n ∈ seen ↔ n ∈ f.nodes := fun n => hp.mem_iff
  refine ⟨fun k => ((layout f).ids.get k).getD 0, fun k => ((layout f).positions.get k).getD (0, 0), ?_⟩
  have hnum : ∀ n ∈ seen, (layout f).ids.get n.id = some (((layout f).ids.get n.id).getD 0) ∧
      (layout f).positions.get n.id = some (((layout f).positions.get n.id).getD (0, 0)) := by
    intro n hn
    obtain ⟨i, p, h1, h2, _⟩ := h.node n hn
    rw [h1, h2]
    exact ⟨rfl, rfl⟩
  have hkeys : ∀ k, k ∈ seen.map (·.id) ↔ k ∈ f.nodes.map (·.id) := fun k => (hp.map _).mem_iff
  have hdr : (f.connections.filter fun c => c.source ∈ seen.map (·.id) ∧ c.target ∈ seen.map (·.id)) = drawn f := by
    unfold drawn
    refine List.filter_congr fun c _ => ?_
    simp only [hkeys]
  obtain ⟨i1, i2, i3, i4⟩ := connect_fold (dir := f.direction) (num := fun k => ((layout f).ids.get k).getD 0)
    (pos := fun k => ((layout f).positions.get k).getD (0, 0)) f.connections h hnum
  rw [hdr] at i1 i4
  have hel : elements f = ⟨(f.connections.foldl (Drawing.connect f.direction.horizontal) (layout f)).shapes,
      (f.connections.foldl (Drawing.connect f.direction.horizontal) (layout f)).connectors,
      boundingBox (f.connections.foldl (Drawing.connect f.direction.horizontal) (layout f)).bounds⟩ := by
    unfold elements
    rw [if_neg hne]
  rw [hel]
  have hnd := hn
  refine ⟨?_, ?_, i1.nodup, ?_, ?_⟩
  · intro n hn
    obtain ⟨i, p, h1, h2, h3⟩ := i1.node n ((hmem n).mpr hn)
    rw [i2] at h1
    rw [i3] at h2
    simp only [h1, h2, Option.getD_some]
    exact h3
  · intro n hn m hm he
    obtain ⟨a, _, ha, _⟩ := h.node n ((hmem n).mpr hn)
    obtain ⟨b, _, hb, _⟩ := h.node m ((hmem m).mpr hm)
    simp only [ha, hb, Option.getD_some] at he
    subst he
    exact List.inj_on_of_nodup_map hnd hn hm (h.inj _ _ _ ha hb)
  · rw [i1.count, hp.length_eq]
    omega
  · rw [i4]
    have : (layout f).connectors = [] := layout_connectors f
    rw [this]
    rfl

end PptRs.Props
