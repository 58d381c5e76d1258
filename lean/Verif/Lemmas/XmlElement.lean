import Verif.Spec.XmlElement
import Verif.Lemmas.AMap

/-!
# The element tree of a document
-/

namespace PptRs

open PptRs.Spec

/-- The attributes of an element, later ones replacing earlier ones of the same name. -/
def attrMap (as : List (Str × Str)) : AMap Str Str := as.foldl (fun m a => m.insert a.1 a.2) []

theorem setAttrs_foldl (as : List (Str × Str)) (t : Str) (m : AMap Str Str) (c : List XmlElement) (x : Str) :
    as.foldl (fun e a => e.setAttr a.1 a.2) (XmlElement.mk t m c x) =
      .mk t (as.foldl (fun m a => m.insert a.1 a.2) m) c x := by
  induction as generalizing m with
  | nil => rfl
  | cons a as ih => exact ih _

theorem attrMap_foldl (as : List (Str × Str)) (m : AMap Str Str)
    (h : (m.map (·.1) ++ as.map (·.1)).Nodup) :
    as.foldl (fun m a => m.insert a.1 a.2) m = m ++ as := by
  induction as generalizing m with
  | nil => simp
  | cons a as ih =>
    have hm : m.has a.1 = false := by
      simp only [List.map_cons, List.nodup_append, List.mem_cons, forall_eq_or_imp] at h
      simp only [AMap.has, List.any_eq_false, decide_eq_true_eq]
      intro e he hc
      exact (h.2.2 e.1 (List.mem_map_of_mem he)).1 hc
    have e : m.insert a.1 a.2 = m ++ [a] := by simp [AMap.insert, hm]
    rw [List.foldl_cons, e, ih]
    · simp
    · simpa using h

theorem attrMap_eq {as : List (Str × Str)} (h : (as.map (·.1)).Nodup) : attrMap as = as :=
  attrMap_foldl as [] (by simpa using h)

mutual
/-- The element that is built for a node. -/
def built : Node → List XmlElement
  | .text _ => []
  | .elem n as ks => [.mk n (attrMap (realAttrs as)) (builtIn ks) (solidText ks)]
/-- The elements that are built for some nodes. -/
def builtIn : List Node → List XmlElement
  | [] => []
  | k :: ks => built k ++ builtIn ks
end

mutual
theorem built_eq : ∀ k : Node, AttrsOk k → built k = toElement k
  | .text _, _ => rfl
  | .elem n as ks, h => by rw [built, toElement, attrMap_eq h.1, builtIn_eq ks h.2]
theorem builtIn_eq : ∀ ks : List Node, AttrsOkIn ks → builtIn ks = toElements ks
  | [], _ => rfl
  | k :: ks, h => by rw [builtIn, toElements, built_eq k h.1, builtIn_eq ks h.2]
end

/-- Adding children and text to the innermost open element. -/
def XmlElement.extend : XmlElement → List XmlElement → Str → XmlElement
  | .mk t a c x, ks, y => .mk t a (c ++ ks) (x ++ y)

theorem run_append (b : TreeBuilder) (l r : List XmlEvent) :
    b.run (l ++ r) = (b.run l).bind fun b' => b'.run r := by
  induction l generalizing b with
  | nil => rfl
  | cons e l ih => cases e <;> simp [TreeBuilder.run, ih]

mutual
theorem run_events : ∀ (k : Node) (e : XmlElement) (st : List XmlElement)
    (root : Option XmlElement), TreeBuilder.run ⟨e :: st, root⟩ (events k) =
      some ⟨e.extend (built k) (solidText [k]) :: st, root⟩
  | .text t, .mk n a c x, st, root => by
    by_cases h : BlankText t <;>
      simp [events, h, TreeBuilder.run, TreeBuilder.chars, XmlElement.extend, XmlElement.pushText,
        built, solidText]
  | .elem n as ks, .mk n' a c x, st, root => by
    rw [events, TreeBuilder.run, TreeBuilder.start, XmlElement.new, setAttrs_foldl, run_append,
      run_eventsIn ks]
    simp [TreeBuilder.run, TreeBuilder.finish, XmlElement.extend, XmlElement.addChild, built, solidText,
      attrMap]
theorem run_eventsIn : ∀ (ks : List Node) (e : XmlElement) (st : List XmlElement)
    (root : Option XmlElement), TreeBuilder.run ⟨e :: st, root⟩ (eventsIn ks) =
      some ⟨e.extend (builtIn ks) (solidText ks) :: st, root⟩
  | [], .mk n a c x, st, root => by simp [eventsIn, TreeBuilder.run, XmlElement.extend, builtIn, solidText]
  | k :: ks, .mk n a c x, st, root => by
    rw [eventsIn, run_append, run_events k, Option.bind_some, run_eventsIn ks]
    cases k <;> simp [XmlElement.extend, builtIn, built, solidText]
end

theorem run_ignored {l : List XmlEvent} (h : ∀ e ∈ l, e = .other) (b : TreeBuilder) : b.run l = some b := by
  induction l with
  | nil => rfl
  | cons e l ih =>
    obtain rfl : e = .other := h e (by simp)
    exact ih fun x hx => h x (by simp [hx])

theorem ofEvents_elem (n : Str) (as : List (Str × Str)) (ks : List Node) {pre post : List XmlEvent}
    (h1 : ∀ e ∈ pre, e = .other) (h2 : ∀ e ∈ post, e = .other) :
    XmlElement.ofEvents (pre ++ events (.elem n as ks) ++ post) =
      some (.mk n (attrMap (realAttrs as)) (builtIn ks) (solidText ks)) := by
  unfold XmlElement.ofEvents
  rw [run_append, run_append, run_ignored h1, Option.bind_some, events, TreeBuilder.run, TreeBuilder.start,
    XmlElement.new, setAttrs_foldl, run_append, run_eventsIn ks]
  simp only [Option.bind_some, TreeBuilder.run, TreeBuilder.finish, run_ignored h2]
  simp [XmlElement.extend, attrMap]

end PptRs
