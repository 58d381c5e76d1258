import Verif.Model.Parts
import Verif.Model.Theme
import Verif.Model.PackageText

/-!
# The parts that are the same in many presentations

src/generator/package_cache.rs keeps the slide master, its relationships and the layouts in static variables, which
all presentations made in one process share, whichever thread makes them. A `OnceLock` is empty, is being filled by
one thread, or has a value; a thread that needs the value while another one computes it waits. Taking a value and
starting and ending its computation are single steps (trusted: the standard library). The threads take their steps
in any order.
-/

namespace PptRs.Cache

open PptRs.Themes

/-- A `OnceLock` (src/generator/package_cache.rs 14-16). `running i`: thread `i` is computing the value. -/
inductive Slot where
  | empty
  | running (thread : Nat)
  | full (value : List Str)
deriving DecidableEq

/-- The static variables, src/generator/package_cache.rs 14-16. The values of the first two are single strings,
here lists with one string. -/
inductive Which where
  | masterRels | master | layouts
deriving DecidableEq

/-- `print_affects_theme_parts`, src/generator/package_cache.rs 19-26. -/
def printAffects : Option PrintIn → Bool
  | none => false
  | some p => p.header.isSome || p.footer.isSome || p.printDate || p.printPageNumbers

/-- The closures given to `get_or_init`, src/generator/package_cache.rs 34-38, 41-45, 52-58. -/
def initial : Which → List Str
  | .masterRels => [renderRels (PptRs.masterRels standardLayoutCount)]
  | .master => [createSlideMasterXml txStyles none]
  | .layouts => (upTo standardLayoutCount).map createSlideLayoutXml

/-- What `write_theme_and_layouts` writes, src/generator/builder.rs 626-688. -/
inductive Item where
  | layout (n : Nat) | layoutRels (n : Nat) | master | masterRels | theme
deriving DecidableEq

/-- src/generator/builder.rs 650, 658, 662, 670, 680 and 684. -/
def Item.path : Item → Str
  | .layout n => c!"ppt/slideLayouts/slideLayout" ++ dec n ++ c!".xml"
  | .layoutRels n => c!"ppt/slideLayouts/_rels/slideLayout" ++ dec n ++ c!".xml.rels"
  | .master => c!"ppt/slideMasters/slideMaster1.xml"
  | .masterRels => c!"ppt/slideMasters/_rels/slideMaster1.xml.rels"
  | .theme => c!"ppt/theme/theme1.xml"

/-- The items in their order, without a template: src/generator/builder.rs 649-687. -/
def items : List Item :=
  ((upTo standardLayoutCount).flatMap fun n => [.layout n, .layoutRels n]) ++ [.master, .masterRels, .theme]

/-- The static variable with the text of an item: src/generator/builder.rs 652, 664 and 672. -/
def Item.cached : Item → Option Which
  | .layout _ => some .layouts
  | .master => some .master
  | .masterRels => some .masterRels
  | _ => none

/-- The text of an item made for this presentation: src/generator/builder.rs 654, 659, 666, 674, 679-685. -/
def Item.made (print : Option PrintIn) (theme : Option Theme) : Item → Str
  | .layout n => createSlideLayoutXml n
  | .layoutRels _ => renderRels PptRs.layoutRels
  | .master => createSlideMasterXml txStyles print
  | .masterRels => renderRels (PptRs.masterRels standardLayoutCount)
  | .theme => createThemeXml theme

/-- The text of an item taken from the value of its variable: src/generator/package_cache.rs 34-50; `none` is the
panic of an index that is out of range. -/
def Item.taken (value : List Str) : Item → Option Str
  | .layout n => if n = 0 then none else value[n - 1]?
  | _ => value.head?

/-- A thread in `write_theme_and_layouts`: the settings of its presentation, the items it has not written yet and
what it has written. -/
structure Writer where
  print : Option PrintIn
  theme : Option Theme
  rest : List Item
  out : List (Str × Str)

/-- The process. -/
structure Process where
  statics : Which → Slot
  writers : List Writer

/-- What thread `i` can do. -/
inductive Move where
  | finished
  | waits
  | panics
  | goes (next : Process)

/-- A value is put into a variable. -/
def Process.put (w : Process) (s : Which) (v : Slot) : Process :=
  { w with statics := fun x => if x = s then v else w.statics x }

/-- Thread `i` writes an item. -/
def Process.write (w : Process) (i : Nat) (t : Writer) (it : Item) (rest : List Item) (text : Str) : Process :=
  { w with writers := w.writers.set i { t with rest, out := t.out ++ [(it.path, text)] } }

/-- The static variable a presentation takes an item from: src/generator/builder.rs 647, 651, 663 and 671. -/
def source (print : Option PrintIn) (it : Item) : Option Which :=
  if printAffects print then none else it.cached

/-- The next step of thread `i`, src/generator/builder.rs 647-688 with `OnceLock::get_or_init`. -/
def step (i : Nat) (w : Process) : Move :=
  match w.writers[i]? with
  | none => .finished
  | some t =>
    match t.rest with
    | [] => .finished
    | it :: rest =>
      match source t.print it with
      | none => .goes (w.write i t it rest (it.made t.print t.theme))
      | some s =>
        match w.statics s with
        | .empty => .goes (w.put s (.running i))
        | .running j => if j = i then .goes (w.put s (.full (initial s))) else .waits
        | .full value =>
          match it.taken value with
          | none => .panics
          | some text => .goes (w.write i t it rest text)

/-- The process before the first presentation. -/
def Process.start : Process := ⟨fun _ => .empty, []⟩

/-- A presentation is begun, in a thread of its own. -/
def Process.begin (w : Process) (print : Option PrintIn) (theme : Option Theme) : Process :=
  { w with writers := w.writers ++ [⟨print, theme, items, []⟩] }

/-- `Moves n w w'`: `n` steps of the threads lead from `w` to `w'`. -/
inductive Moves : Nat → Process → Process → Prop where
  | none (w : Process) : Moves 0 w w
  | more {n : Nat} {w w' w'' : Process} (i : Nat) : Moves n w w' → step i w' = .goes w'' → Moves (n + 1) w w''

/-- What can follow in a process in which further presentations are begun. -/
inductive Later : Process → Process → Prop where
  | same (w : Process) : Later w w
  | begun {w w' : Process} (print : Option PrintIn) (theme : Option Theme) : Later w w' → Later w (w'.begin print theme)
  | moved {w w' w'' : Process} (i : Nat) : Later w w' → step i w' = .goes w'' → Later w w''

end PptRs.Cache
