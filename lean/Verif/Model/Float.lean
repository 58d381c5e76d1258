import Mathlib.Data.Int.Log
import Mathlib.Data.Rat.Floor

/-!
Binary floating point numbers, as `f32` and `f64` of Rust (IEEE 754, rounding to the nearest, ties to
even). A number is its rational value; subnormal numbers, overflow, infinities and NaN are modelled.

Simplifications: the sign of a zero is not kept, so `1.0 / -0.0` is not modelled.
-/

namespace PptRs.Fl

/-- A format: the bits of the significand, the exponent of the smallest positive number and the exponent
of the first power of two that is too large. -/
structure Fmt where
  digits : Nat
  low : Int
  high : Int

/-- `f64`. -/
def b64 : Fmt := ⟨53, -1074, 1024⟩

/-- `f32`. -/
def b32 : Fmt := ⟨24, -149, 128⟩

/-- The nearest whole number, ties to even. -/
def nearest (q : Rat) : Int :=
  if q - ⌊q⌋ < 1 / 2 then ⌊q⌋
  else if 1 / 2 < q - ⌊q⌋ then ⌊q⌋ + 1
  else if ⌊q⌋ % 2 = 0 then ⌊q⌋ else ⌊q⌋ + 1

/-- The exponent of the last place of the numbers around `q`. -/
def place (F : Fmt) (q : Rat) : Int := max (Int.log 2 |q| - (F.digits - 1)) F.low

/-- `q` rounded to the format, without overflow. -/
def rnd (F : Fmt) (q : Rat) : Rat := nearest (q / 2 ^ place F q) * 2 ^ place F q

/-- A floating point number. -/
inductive Val where
  | nan
  | inf (negative : Bool)
  | fin (q : Rat)
  deriving DecidableEq, Repr

/-- The result of an operation whose exact value is `q`; also `as f64` and literals. -/
def mk (F : Fmt) (q : Rat) : Val :=
  if 2 ^ F.high ≤ |rnd F q| then .inf (decide (q < 0)) else .fin (rnd F q)

/-- Multiplication. -/
def mul (F : Fmt) : Val → Val → Val
  | .fin a, .fin b => mk F (a * b)
  | .inf s, .inf t => .inf (s != t)
  | .inf s, .fin b => if b = 0 then .nan else .inf (s != decide (b < 0))
  | .fin a, .inf t => if a = 0 then .nan else .inf (t != decide (a < 0))
  | _, _ => .nan

/-- Addition. -/
def add (F : Fmt) : Val → Val → Val
  | .fin a, .fin b => mk F (a + b)
  | .inf s, .inf t => if s = t then .inf s else .nan
  | .inf s, .fin _ => .inf s
  | .fin _, .inf t => .inf t
  | _, _ => .nan

/-- The opposite. -/
def neg : Val → Val
  | .fin a => .fin (-a)
  | .inf s => .inf (!s)
  | .nan => .nan

/-- Subtraction. -/
def sub (F : Fmt) (a b : Val) : Val := add F a (neg b)

/-- Division; a zero divisor is `+0.0`. -/
def div (F : Fmt) : Val → Val → Val
  | .fin a, .fin b => if b = 0 then (if a = 0 then .nan else .inf (decide (a < 0))) else mk F (a / b)
  | .inf s, .fin b => .inf (s != decide (b < 0))
  | .fin _, .inf _ => .fin 0
  | _, _ => .nan

/-- `<`; false when one side is NaN. -/
def lt : Val → Val → Bool
  | .fin a, .fin b => decide (a < b)
  | .inf s, .inf t => s && !t
  | .inf s, .fin _ => s
  | .fin _, .inf t => !t
  | _, _ => false

/-- `max`: a NaN is ignored. -/
def maxv (a b : Val) : Val :=
  match a, b with
  | .nan, b => b
  | a, .nan => a
  | a, b => if lt a b then b else a

/-- `min`: a NaN is ignored. -/
def minv (a b : Val) : Val :=
  match a, b with
  | .nan, b => b
  | a, .nan => a
  | a, b => if lt b a then b else a

/-- `clamp(0.0, 1.0)`: NaN stays NaN. -/
def clamp01 (a : Val) : Val :=
  if lt a (.fin 0) then .fin 0 else if lt (.fin 1) a then .fin 1 else a

/-- `as u8`, `as u32`: towards zero, saturating at `top`, NaN is zero. -/
def toU (top : Nat) : Val → Nat
  | .nan => 0
  | .inf s => if s then 0 else top
  | .fin q => min ⌊q⌋.toNat top

/-- Towards zero. -/
def trunc (q : Rat) : Int := if q < 0 then -⌊-q⌋ else ⌊q⌋

/-- `as i32`, `as i64`: towards zero, saturating at `-top - 1` and `top`, NaN is zero. -/
def toI (top : Nat) : Val → Int
  | .nan => 0
  | .inf s => if s then -top - 1 else top
  | .fin q => max (-top - 1) (min (trunc q) top)

/-- `u32::MAX`. -/
def maxU32 : Nat := 4294967295

/-- `i32::MAX`. -/
def maxI32 : Nat := 2147483647

/-- `i64::MAX`. -/
def maxI64 : Nat := 9223372036854775807

end PptRs.Fl
