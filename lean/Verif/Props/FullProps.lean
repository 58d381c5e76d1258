import Verif.Model.FullText
import Verif.Props.Parts

/-!
# The counts in the properties of a file (C158)
-/

namespace PptRs.Props

open PptRs PptRs.Full PptRs.Settings PptRs PptRs.Spec

/-- **C158.** The properties of every file tell how many slides it has and how many of them have notes. -/
theorem C158_counts (d : Deck) (S : FileSettings) (secs : Nat) (title : Str) (own : PartTexts) :
    ∃ x doc, fileTexts d S secs title own .app = some x ∧ document x = some doc ∧
      textsOf c!"Slides" doc = [dec (match d with | .custom l => l.length | .plain n => n)] ∧
      textsOf c!"Notes" doc = [dec (match d with | .custom l => (l.filter fun s => s.notes.isSome).length | .plain _ => 0)] := by
  obtain ⟨doc, h1, h2, h3, -⟩ := C54_app d.count (notesCount d.slides) (titlesOf d)
  refine ⟨_, doc, rfl, h1, ?_, ?_⟩
  · rw [h2]; cases d <;> rfl
  · rw [h3]
    cases d with
    | custom l => simp [notesCount, Deck.slides]
    | plain n => rfl

example : (Deck.plain 3).count = 3 := rfl

end PptRs.Props
