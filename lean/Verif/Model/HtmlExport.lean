import Verif.Model.Xml
import Verif.Model.Base64

/-!
# Export to HTML: src/export/html.rs, src/export/html_navigation.js

The style sheets and the script are parameters: their texts do not depend on the presentation.
-/

namespace PptRs.HtmlExport

open PptRs

/-- `HtmlExportOptions`, src/export/html.rs 6-18. -/
structure Options where
  notes : Bool := true
  navigation : Bool := true
  highlight : Bool := true
  files : Bool := false
  dir : Option Str := none
deriving DecidableEq

/-- The files html_style.css, html_navigation.css, html_notes.css and html_navigation.js, src/export/html.rs 76-92. -/
structure Assets where
  style : Str
  navigationCss : Str
  notesCss : Str
  navigationJs : Str

/-- An image with its bytes, if they can be had (`get_bytes`). -/
structure Picture where
  name : Str
  format : Str
  bytes : Option Bytes
deriving DecidableEq

/-- What is used of a slide. A table is given by the texts of its cells. -/
structure Slide where
  title : Str
  content : List Str := []
  table : Option (List (List Str)) := none
  images : List Picture := []
  code : List (Str × Str) := []
  notes : Option Str := none
deriving DecidableEq

/-- The type of an image, src/export/html.rs 206-212. Other letters than those of ASCII do not matter for lower case. -/
def mime (format : Str) : Str :=
  let f := format.map Char.toLower
  if f = c!"jpg" ∨ f = c!"jpeg" then c!"image/jpeg"
  else if f = c!"png" then c!"image/png"
  else if f = c!"gif" then c!"image/gif"
  else if f = c!"svg" then c!"image/svg+xml"
  else c!"application/octet-stream"

/-- The address of an image, src/export/html.rs 214-232. -/
def imageSource (o : Options) (i : Picture) (b : Bytes) : Str :=
  if o.files then
    match o.dir with
    | some d => d ++ c!"/" ++ c!"slide_img_" ++ i.name ++ c!"." ++ i.format
    | none => c!"slide_img_" ++ i.name ++ c!"." ++ i.format
  else c!"data:" ++ mime i.format ++ c!";base64," ++ base64Encode b

/-- `render_image_with_options`, src/export/html.rs 204-235. -/
def renderImage (o : Options) (i : Picture) : Option Str :=
  i.bytes.map fun b =>
    c!"<div class=\"image-container\"><img src=\"" ++ imageSource o i b ++ c!"\" alt=\"" ++ i.name ++ c!"\" /></div>\n"

/-- `render_table_html`, src/export/html.rs 181-193. -/
def renderTable (_table : List (List Str)) : Str := c!"<table class=\"ppt-table\">\n<tbody>\n<tr><td>Table content</td></tr>\n</tbody>\n</table>\n"

/-- A block of code, src/export/html.rs 158-166. -/
def renderCode (o : Options) (c : Str × Str) : Str :=
  (if o.highlight then c!"<pre><code class=\"language-" ++ c.1 ++ c!"\">" else c!"<pre><code>") ++ escapeHtml c.2 ++ c!"</code></pre>\n"

/-- The bullets, src/export/html.rs 137-143. -/
def renderBullets (l : List Str) : Str :=
  if l = [] then [] else c!"<ul>\n" ++ (l.flatMap fun t => c!"<li>" ++ t ++ c!"</li>\n") ++ c!"</ul>\n"

/-- The notes, src/export/html.rs 169-172. -/
def renderNotes (o : Options) (n : Option Str) : Str :=
  if o.notes then
    match n with
    | some t => c!"<div class=\"speaker-notes\"><strong>Notes:</strong> " ++ escapeHtml t ++ c!"</div>\n"
    | none => []
  else []

/-- `render_slide_with_options`, src/export/html.rs 122-178. -/
def renderSlide (o : Options) (i : Nat) (s : Slide) : Str :=
  c!"<div class=\"slide\" id=\"slide-" ++ dec i ++ c!"\" data-slide=\"" ++ dec i ++ c!"\">\n"
  ++ (c!"<div class=\"slide-number\">" ++ dec i ++ c!"</div>\n")
  ++ (c!"<h2>" ++ s.title ++ c!"</h2>\n")
  ++ c!"<div class=\"content\">\n"
  ++ renderBullets s.content
  ++ (match s.table with | some t => renderTable t | none => [])
  ++ (s.images.flatMap fun i => (renderImage o i).getD [])
  ++ s.code.flatMap (renderCode o)
  ++ renderNotes o s.notes
  ++ c!"</div>\n" ++ c!"</div>\n"

/-- The controls, src/export/html.rs 109-115. -/
def controls : Str :=
  c!"<div class=\"navigation-controls\">\n<button onclick=\"previousSlide()\" id=\"prevBtn\">Previous</button>\n<button onclick=\"nextSlide()\" id=\"nextBtn\">Next</button>\n<span id=\"slideCounter\"></span>\n</div>\n"

/-- `export_to_html_with_options`, src/export/html.rs 65-120. -/
def exportHtml (a : Assets) (o : Options) (title : Str) (slides : List Slide) : Str :=
  c!"<!DOCTYPE html>\n<html>\n<head>\n<meta charset=\"UTF-8\">\n<meta name=\"viewport\" content=\"width=device-width, initial-scale=1.0\">\n"
  ++ (c!"<title>" ++ title ++ c!"</title>\n")
  ++ (c!"<style>\n" ++ (a.style ++ (if o.navigation then a.navigationCss else []) ++ (if o.notes then a.notesCss else [])) ++ c!"</style>\n")
  ++ (if o.navigation then c!"<script>\n" ++ a.navigationJs ++ c!"</script>\n" else [])
  ++ c!"</head>\n<body>\n"
  ++ (c!"<div class=\"slide title-slide\" data-slide=\"0\">\n<h1>" ++ title ++ c!"</h1>\n</div>\n")
  ++ (slides.mapIdx fun i s => renderSlide o (i + 1) s).flatten
  ++ (if o.navigation then controls else [])
  ++ c!"</body>\n</html>"

/-! ### The script: src/export/html_navigation.js -/

/-- The number of slides and the current one, src/export/html_navigation.js 3-4. -/
structure Nav where
  count : Nat
  current : Nat
deriving DecidableEq

/-- The two buttons. -/
inductive NavButton where
  | previous
  | next
deriving DecidableEq

/-- What can happen: keys (lines 89-123, with the button that has the focus), clicks on the two buttons, swipes (src/export/html_navigation.js 16-38, with the distance
moved to the left), and one turn of the automatic show (lines 126-134). -/
inductive NavEvent where
  | key (name : Str) (focus : Option NavButton)
  | clickPrevious
  | clickNext
  | swipe (left : Int)
  | tick
deriving DecidableEq

/-- `nextSlide`, src/export/html_navigation.js 61-66. -/
def Nav.next (n : Nav) : Nav := if n.current + 1 < n.count then { n with current := n.current + 1 } else n

/-- `previousSlide`, src/export/html_navigation.js 68-73. -/
def Nav.previous (n : Nav) : Nav := if 0 < n.current then { n with current := n.current - 1 } else n

/-- `goToSlide`, src/export/html_navigation.js 75-80. -/
def Nav.goTo (n : Nav) (i : Int) : Nav := if 0 ≤ i ∧ i < n.count then { n with current := i.toNat } else n

/-- src/export/html_navigation.js 16-38, 89-134. A disabled button is not clicked, which makes no difference to these functions. `preventDefault` keeps the key from
pressing the button that has the focus. -/
def Nav.step (n : Nav) : NavEvent → Nav
  | .key k _ =>
    if k = c!"ArrowRight" ∨ k = c!" " ∨ k = c!"Enter" then n.next
    else if k = c!"ArrowLeft" then n.previous
    else if k = c!"Home" then n.goTo 0
    else if k = c!"End" then n.goTo ((n.count : Int) - 1)
    else n
  | .clickPrevious => n.previous
  | .clickNext => n.next
  | .swipe d => if d > 50 then n.next else if d < -50 then n.previous else n
  | .tick => if n.current + 1 < n.count then n.next else n.goTo 0

/-- What is shown, src/export/html_navigation.js 41-59, 82-87: which slides are active, whether the buttons are disabled, and the counter. -/
structure View where
  active : List Bool
  previousOff : Bool
  nextOff : Bool
  counter : Str
deriving DecidableEq

/-- `showSlide` and `updateCounter`, src/export/html_navigation.js 41-59, 82-87. -/
def Nav.view (n : Nav) : View where
  active := (List.range n.count).map (· == n.current)
  previousOff := n.current == 0
  nextOff := n.current + 1 == n.count
  counter := dec (n.current + 1) ++ c!" / " ++ dec n.count

end PptRs.HtmlExport
