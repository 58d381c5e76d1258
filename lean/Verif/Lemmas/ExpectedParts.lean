import Verif.Lemmas.PartPath
import Mathlib.Data.List.Induction

/-!
# The expected parts have distinct names
-/

namespace PptRs

open PptRs.Spec

theorem nodup_eraseDups (l : List (List UInt8 × Str)) : l.eraseDups.Nodup := by
  induction l using List.reverseRecOn with
  | nil => simp
  | append_singleton l e ih =>
    rw [eraseDups_concat]
    split
    · exact ih
    · rename_i h
      rw [List.nodup_append]
      refine ⟨ih, by simp, ?_⟩
      intro a ha b hb
      simp only [List.mem_singleton] at hb
      rintro rfl
      subst hb
      exact h (mem_eraseDups.mp ha)

theorem mediaParts_nodup (l : List (List UInt8 × Str)) : (mediaParts l).Nodup := by
  unfold mediaParts
  refine List.Nodup.of_map (fun p => match p with | .media n _ => n | _ => 0) ?_
  rw [List.map_map]
  have : ((fun p => match p with | PartName.media n _ => n | _ => 0) ∘
      fun e : (List UInt8 × Str) × Nat => PartName.media e.2 e.1.2) = Prod.snd := by
    funext e; rfl
  rw [this, List.zipIdx_map_snd]
  exact List.nodup_range'

theorem mem_mediaParts {p : PartName} {l : List (List UInt8 × Str)} (h : p ∈ mediaParts l) :
    ∃ n x, p = .media n x := by
  simp only [mediaParts, List.mem_map] at h
  obtain ⟨e, _, rfl⟩ := h; exact ⟨_, _, rfl⟩

theorem range'_map_nodup {f : Nat → PartName} (hf : ∀ a b, f a = f b → a = b) (a n : Nat) :
    ((List.range' a n).map f).Nodup := List.Nodup.map (fun a b h => hf a b h) List.nodup_range'

set_option maxHeartbeats 4000000 in
theorem expectedParts_nodup (d : Deck) (st : BuildSettings)
    (hf : ((st.fonts.getD []).map (·.fileName)).Nodup) : (expectedParts d st).Nodup := by
  have hfont : ((st.fonts.getD []).map fun f => PartName.font f.fileName).Nodup := by
    have := hf.map (f := PartName.font) (fun a b h => by simpa using h)
    rwa [List.map_map] at this
  have hd : ∀ p ∈ mediaParts (distinctImages d.slides), ∃ n x, p = .media n x :=
    fun p h => mem_mediaParts h
  unfold expectedParts
  repeat' apply List.Nodup.append
  all_goals try (first
    | exact hfont
    | exact mediaParts_nodup _
    | exact range'_map_nodup (by simp) _ _
    | (split <;> decide)
    | decide)
  all_goals
    intro a ha hb
    cases a <;> simp [mediaParts] at ha hb
    all_goals omega


theorem expectedParts_own (d : Deck) (st : BuildSettings) : ∀ p ∈ expectedParts d st, p.Own := by
  intro p hp
  cases p <;> simp only [PartName.Own]
  simp [expectedParts, mediaParts] at hp
  all_goals split at hp <;> simp at hp

theorem path_nodup {l : List PartName} (h : l.Nodup) (ho : ∀ p ∈ l, p.Own) :
    (l.map PartName.path).Nodup :=
  h.map_on (fun p hp q hq e => PartName.path_inj (ho p hp) (ho q hq) e)

theorem mem_names {d : Deck} {st : BuildSettings} (h : st.template = none) {p : PartName} :
    p ∈ names (buildPackage d st) ↔ p ∈ expectedParts d st :=
  (buildPackage_names d st h).mem_iff

end PptRs
