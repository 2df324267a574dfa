import Verif.Model.Basic
/-
IEEE 754 binary formats as bit patterns.  REAL is `f32` (8 exponent bits, 23 fraction
bits), LREAL is `f64` (11, 52).  A value is the natural number of its bit pattern
(`to_bits`).  Models the std functions the library calls on floats:
`is_nan`, `is_infinite`, `is_sign_negative`, `abs`, the comparison operators,
`f32::max/min` (as documented: a NaN operand is ignored; which of two equal operands
(`+0`/`-0`) is returned is not specified, so it is a parameter `tie`).
-/
namespace Verif

/-- A binary interchange format (the `f32` and `f64` of src/types.rs:142-143 and the other files). -/
structure FloatFmt where
  ebits : Nat
  mbits : Nat
  deriving DecidableEq, Repr

namespace FloatFmt

def f32 : FloatFmt := ⟨8, 23⟩
def f64 : FloatFmt := ⟨11, 52⟩

variable (f : FloatFmt)

/-- Fraction field (of the floats in src/types.rs:142-143 and the other files). -/
def frac (x : Nat) : Nat := x % 2 ^ f.mbits
/-- Exponent field (same floats as `frac`, src/types.rs:142-143). -/
def expo (x : Nat) : Nat := x / 2 ^ f.mbits % 2 ^ f.ebits
/-- `is_sign_negative`: the top bit (src/date_time_numeric_functions.rs:678). -/
def neg (x : Nat) : Bool := decide (x / 2 ^ (f.mbits + f.ebits) % 2 = 1)
/-- All ones in the exponent field (same floats as `frac`, src/types.rs:142-143). -/
def emax : Nat := 2 ^ f.ebits - 1

/-- `is_nan` (src/validation_functions.rs:13, 23, and in comparisons, src/types.rs:106). -/
def is_nan (x : Nat) : Bool := decide (f.expo x = f.emax) && decide (f.frac x ≠ 0)
/-- `is_infinite` (src/validation_functions.rs:13, 23). -/
def is_infinite (x : Nat) : Bool := decide (f.expo x = f.emax) && decide (f.frac x = 0)
/-- Significand with the hidden bit (the numbers compared in src/types.rs:106). -/
def signif (x : Nat) : Nat := if f.expo x = 0 then f.frac x else f.frac x + 2 ^ f.mbits
/-- Magnitude in units of the smallest positive subnormal number. For an infinity this is a
number larger than that of every finite value. (The numbers compared in src/types.rs:106-108.) -/
def mag (x : Nat) : Nat := f.signif x * 2 ^ (max (f.expo x) 1 - 1)
/-- Signed value in units of the smallest positive subnormal number (the numbers compared in src/types.rs:106-108). -/
def val (x : Nat) : Int := if f.neg x then -(f.mag x : Int) else f.mag x

/-- `a < b` of `PartialOrd` for floats (src/types.rs:106). -/
def lt (a b : Nat) : Bool := !f.is_nan a && !f.is_nan b && decide (f.val a < f.val b)
/-- `a > b` (src/types.rs:108). -/
def gt (a b : Nat) : Bool := f.lt b a

/-- `f32::max` / `f64::max` (src/types.rs:28). -/
def fmax (tie : Nat → Nat → Bool) (a b : Nat) : Nat :=
  if f.is_nan a then b
  else if f.is_nan b then a
  else if f.val a < f.val b then b
  else if f.val b < f.val a then a
  else if tie a b then a else b

/-- `f32::min` / `f64::min` (src/types.rs:45). -/
def fmin (tie : Nat → Nat → Bool) (a b : Nat) : Nat :=
  if f.is_nan a then b
  else if f.is_nan b then a
  else if f.val a < f.val b then a
  else if f.val b < f.val a then b
  else if tie a b then a else b

end FloatFmt
end Verif
