import Verif.Model.FloatArith
/-
src/numerical_functions.rs.
-/
namespace Verif
open FloatFmt

/-- `f32::round` / `f64::round` (std): the sign bit is kept; the magnitude `m` (in units `2^-qexp`, one being
`2^qexp`) becomes `⌊m + 1/2⌋` ones, converted back to a float. NaNs and infinities are returned
unchanged. (src/numerical_functions.rs:6-17.) -/
def FloatFmt.round (f : FloatFmt) (x : Nat) : Nat :=
  if f.is_nan x ∨ f.is_infinite x then x
  else
    let one := 2 ^ f.qexp
    let n := (2 * f.mag x + one) / (2 * one)
    f.roundMag (n * one) 1 + (if f.neg x then 2 ^ (f.mbits + f.ebits) else 0)

/-- `ROUND__REAL` (src/numerical_functions.rs:6-8). -/
def ROUND__REAL (input : Nat) : Nat := FloatFmt.f32.round input
/-- `ROUND__LREAL` (src/numerical_functions.rs:15-17). -/
def ROUND__LREAL (input : Nat) : Nat := FloatFmt.f64.round input

end Verif
