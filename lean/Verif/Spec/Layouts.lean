import Verif.Model.Layouts
import Verif.Spec.SlideText
import Verif.Spec.Drawing

/-!
# What the second writer of slides is expected to write
-/

namespace PptRs.Layouts
open PptRs.Spec PptRs.Draw

/-- A slide whose texts can be written. -/
structure Page.Safe (p : Page) : Prop where
  text : p.text.Safe
  shapes : ∀ s ∈ p.shapes, s.Safe

/-- What is read for the placeholder of a picture. -/
def placeholderRead (i : Picture) (id : Nat) : ShapeRead where
  id := some (dec id)
  name := some (c!"Image Placeholder: " ++ i.filename)
  place := ⟨some (dec i.x), some (dec i.y), some (dec i.width), some (dec i.height)⟩
  rotation := none
  geometry := some c!"rect"
  fill := .solid (some c!"E0E0E0") none
  line := (some c!"12700", some c!"808080")
  paragraphs := [c!"📷 " ++ i.filename]
  link := none

/-- What is read for the shapes and pictures: nothing unless the layout is title and content. -/
def Page.drawnExpected (p : Page) : List ShapeRead :=
  match p.text.layout with
  | .titleAndContent => (p.shapes.zipIdx.map fun s => s.1.expected (s.2 + 10))
      ++ p.images.zipIdx.map fun i => placeholderRead i.1 (i.2 + (20 + p.shapes.length))
  | _ => []

end PptRs.Layouts
