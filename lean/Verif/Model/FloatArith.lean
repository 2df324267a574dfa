import Verif.Model.Float
/-
IEEE 754 arithmetic with rounding to nearest, ties to even, on non-negative values (the only ones on
which the library does arithmetic of its own, in `std::time::Duration`).  As in Model/Float a value is its bit
pattern; `mag` is its value in units of the smallest subnormal number, `2^-qexp`.
-/
namespace Verif
namespace FloatFmt
variable (f : FloatFmt)

/-- The smallest subnormal number is `2^-qexp`: 149 for f32, 1074 for f64 (the floats of
src/date_time_numeric_functions.rs:667-831). -/
def qexp : Nat := 2 ^ (f.ebits - 1) - 2 + f.mbits

/-- Bit pattern of positive infinity (overflow in src/date_time_numeric_functions.rs:679). -/
def inf : Nat := f.emax * 2 ^ f.mbits
/-- A NaN (e.g. the result of src/arithmetic_functions.rs:24). -/
def nan : Nat := f.inf + 2 ^ (f.mbits - 1)

/-- `num / den` rounded to the nearest integer, ties to even (rounding of the float operations reached from
src/date_time_numeric_functions.rs:679-823). -/
def rne (num den : Nat) : Nat :=
  let q := num / den
  let r := num % den
  if 2 * r < den then q else if den < 2 * r then q + 1 else q + q % 2

/-- By how many binary digits the integer `q` exceeds the precision `mbits + 1` (same operations as `rne`,
src/date_time_numeric_functions.rs:679-823). -/
def excess (q : Nat) : Nat := if q < 2 ^ (f.mbits + 1) then 0 else q.log2 - f.mbits

/-- The float nearest to `num / den` (in units of the smallest subnormal), ties to even; infinity on
overflow. Adding the rounded significand `m` (with its hidden bit) to `s * 2^mbits` yields the exponent field, also
when rounding carries into the next power of two. (Same operations as `rne`, src/date_time_numeric_functions.rs:679-823.) -/
def roundMag (num den : Nat) : Nat :=
  let s := f.excess (num / den)
  let p := s * 2 ^ f.mbits + rne num (den * 2 ^ s)
  if p < f.inf then p else f.inf

/-- `n as f32` / `n as f64` for an unsigned integer (inside `as_secs_f32/f64`, src/date_time_numeric_functions.rs:679-823). -/
def ofNat (n : Nat) : Nat := f.roundMag (n * 2 ^ f.qexp) 1

/-- `a + b` for non-negative operands (inside `as_secs_f32/f64`, src/date_time_numeric_functions.rs:679-823). -/
def addPos (a b : Nat) : Nat :=
  if f.is_nan a ∨ f.is_nan b then f.nan
  else if f.is_infinite a ∨ f.is_infinite b then f.inf
  else f.roundMag (f.mag a + f.mag b) 1

/-- `a * b` for non-negative operands (inside `mul_f32/f64`, src/date_time_numeric_functions.rs:679, 727). -/
def mulPos (a b : Nat) : Nat :=
  if f.is_nan a ∨ f.is_nan b then f.nan
  else if f.is_infinite a ∨ f.is_infinite b then
    (if f.mag a = 0 ∨ f.mag b = 0 then f.nan else f.inf)
  else f.roundMag (f.mag a * f.mag b) (2 ^ f.qexp)

/-- `a / b` for non-negative operands (inside `div_f32/f64`, src/date_time_numeric_functions.rs:775, 823). -/
def divPos (a b : Nat) : Nat :=
  if f.is_nan a ∨ f.is_nan b then f.nan
  else if f.is_infinite a then (if f.is_infinite b then f.nan else f.inf)
  else if f.is_infinite b then 0
  else if f.mag b = 0 then (if f.mag a = 0 then f.nan else f.inf)
  else f.roundMag (f.mag a * 2 ^ f.qexp) (f.mag b)

/-- `abs`: clears the sign bit (src/date_time_numeric_functions.rs:679, 727, 775, 823). -/
def abs (x : Nat) : Nat := x % 2 ^ (f.mbits + f.ebits)

/-- Negation: flips the sign bit (ABS of floats, iec61131-st/numerical_functions.st). -/
def negate (x : Nat) : Nat := if f.neg x then x - 2 ^ (f.mbits + f.ebits) else x + 2 ^ (f.mbits + f.ebits)

end FloatFmt
end Verif
