import Verif.Model.Str

/-!
# `prelude::layouts`: positions of shapes

`u32` arithmetic panics on overflow in a debug build; `none` is that panic. `n as u32` keeps the low 32 bits.
-/

namespace PptRs.Place

/-- `u32` addition. -/
def add32 (a b : Nat) : Option Nat := if a + b < 4294967296 then some (a + b) else none
/-- `u32` subtraction. -/
def sub32 (a b : Nat) : Option Nat := if b ≤ a then some (a - b) else none
/-- `u32` multiplication. -/
def mul32 (a b : Nat) : Option Nat := if a * b < 4294967296 then some (a * b) else none
/-- `n as u32`. -/
def as32 (n : Nat) : Nat := n % 4294967296

/-- src/prelude.rs 697. -/
def slideWidth : Nat := 9144000
/-- src/prelude.rs 698. -/
def slideHeight : Nat := 6858000
/-- src/prelude.rs 701. -/
def margin : Nat := 457200

/-- src/prelude.rs 706-708. -/
def centerX (w : Nat) : Option Nat := (sub32 slideWidth w).map (· / 2)
/-- src/prelude.rs 711-713. -/
def centerY (h : Nat) : Option Nat := (sub32 slideHeight h).map (· / 2)
/-- src/prelude.rs 716-718. -/
def center (w h : Nat) : Option (Nat × Nat) := (centerX w).bind fun x => (centerY h).map fun y => (x, y)

/-- `f` for every index in order; a panic ends the loop. -/
def loop {α : Type} (f : Nat → Option α) : List Nat → Option (List α)
  | [] => some []
  | i :: is => (f i).bind fun a => (loop f is).map fun as => a :: as

/-- `start + (i as u32 * step)`. -/
def place (start step i : Nat) : Option Nat := (mul32 (as32 i) step).bind (add32 start)

/-- src/prelude.rs 722-737. -/
def grid (rows cols w h : Nat) : Option (List (Nat × Nat)) :=
  (mul32 w (as32 cols)).bind fun tw => (mul32 h (as32 rows)).bind fun th =>
  (centerX tw).bind fun sx => (centerY th).bind fun sy =>
  (loop (fun row => loop (fun col => (place sx w col).bind fun x => (place sy h row).map fun y => (x, y))
    (List.range cols)) (List.range rows)).map List.flatten

/-- The positions of a stack: src/prelude.rs 746-747 and 761-762, with the centering function. `count - 1` panics for an
empty stack. -/
def stackFrom (centre : Nat → Option Nat) (count size spacing : Nat) : Option (List Nat) :=
  (mul32 size (as32 count)).bind fun a => (sub32 count 1).bind fun c => (mul32 spacing (as32 c)).bind fun b =>
  (add32 a b).bind fun total => (centre total).bind fun start =>
  loop (fun i => (add32 size spacing).bind fun step => place start step i) (List.range count)

/-- src/prelude.rs 740-752. -/
def stackHorizontal (count w spacing y : Nat) : Option (List (Nat × Nat)) :=
  (stackFrom centerX count w spacing).map fun l => l.map fun x => (x, y)

/-- src/prelude.rs 755-767. -/
def stackVertical (count h spacing x : Nat) : Option (List (Nat × Nat)) :=
  (stackFrom centerY count h spacing).map fun l => l.map fun y => (x, y)

/-- src/prelude.rs 770-784. Division by zero panics, as for `count as u32 = 1`. -/
def distributeHorizontal (count w y : Nat) : Option (List (Nat × Nat)) :=
  if count = 0 then some []
  else if count = 1 then (centerX w).map fun x => [(x, y)]
  else
    (mul32 w (as32 count)).bind fun a => (sub32 (slideWidth - 2 * margin) a).bind fun rest =>
    (sub32 (as32 count) 1).bind fun n =>
    if n = 0 then none
    else loop (fun i => (add32 w (rest / n)).bind fun step => (place margin step i).map fun x => (x, y)) (List.range count)

end PptRs.Place
