import Mathlib.Algebra.Order.Field.Rat
import Verif.Model.FloatArith
/-
What a float bit pattern denotes, and rounding to integers.
-/
namespace Verif

/-- The number denoted by an IEEE 754 bit pattern: from the top a sign bit, `ebits` bits of biased exponent and
`mbits` bits of fraction; exponent field 0 means no hidden one. (For an infinity this formula gives the first power
of two that is too large for the format.) -/
def floatValue (f : FloatFmt) (x : Nat) : ℚ :=
  let sign : ℚ := if x / 2 ^ (f.mbits + f.ebits) % 2 = 1 then -1 else 1
  let exponent : Nat := x / 2 ^ f.mbits % 2 ^ f.ebits
  let fraction : ℚ := ((x % 2 ^ f.mbits : Nat) : ℚ) / 2 ^ f.mbits
  let bias : ℤ := 2 ^ (f.ebits - 1) - 1
  sign * (if exponent = 0 then fraction * 2 ^ (1 - bias) else (1 + fraction) * 2 ^ ((exponent : ℤ) - bias))

/-- NaN: exponent field all ones, fraction not zero. -/
def IsNaN (f : FloatFmt) (x : Nat) : Prop :=
  x / 2 ^ f.mbits % 2 ^ f.ebits = 2 ^ f.ebits - 1 ∧ x % 2 ^ f.mbits ≠ 0

/-- Neither NaN nor infinite: the exponent field is not all ones. -/
def IsFinite (f : FloatFmt) (x : Nat) : Prop := x / 2 ^ f.mbits % 2 ^ f.ebits ≠ 2 ^ f.ebits - 1

/-- Half a unit in the last place, `2^-24` for REAL and `2^-53` for LREAL. -/
def halfUlp (f : FloatFmt) : ℚ := 1 / 2 ^ (f.mbits + 1)

/-- The formats of REAL and LREAL. -/
def IsFloatTy (f : FloatFmt) : Prop := f = .f32 ∨ f = .f64

/-- `n` is the integer nearest to `v`, and of two equally near ones the one farther from zero. -/
def IsNearestInt (v : ℚ) (n : ℤ) : Prop :=
  |v - n| ≤ 1 / 2 ∧ (|v - n| = 1 / 2 → |v| ≤ |(n : ℚ)|)

/-- `r` is the number of the format that is nearest to `v`; of two equally near ones the one whose last bit
is 0. For this purpose an infinity counts as the first power of two that is too large for the format, so
that numbers beyond the half-way point become infinite (see `floatValue` and `floatValue_inf`). -/
def IsNearestFloat (f : FloatFmt) (v : ℚ) (r : Nat) : Prop :=
  r < 2 ^ (1 + f.mbits + f.ebits) ∧ ¬ IsNaN f r ∧
  ∀ y, y < 2 ^ (1 + f.mbits + f.ebits) → ¬ IsNaN f y →
    |v - floatValue f r| ≤ |v - floatValue f y| ∧
    (|v - floatValue f r| = |v - floatValue f y| → floatValue f y = floatValue f r ∨ r % 2 = 0)

/-- `n` is `v` without its fraction. -/
def IsTruncation (v : ℚ) (n : ℤ) : Prop := |(n : ℚ)| ≤ |v| ∧ |v| < |(n : ℚ)| + 1 ∧ 0 ≤ v * n

namespace Spec

/-- The sign bit is set. -/
def SignBit (f : FloatFmt) (x : Nat) : Prop := x / 2 ^ (f.mbits + f.ebits) % 2 = 1

instance (f : FloatFmt) (x : Nat) : Decidable (SignBit f x) := by unfold SignBit; infer_instance

/-- `y` is `x` with the other sign: two bit patterns that differ in the sign bit only. -/
def OppositeSign (f : FloatFmt) (x y : Nat) : Prop :=
  x < 2 ^ (1 + f.mbits + f.ebits) ∧ y < 2 ^ (1 + f.mbits + f.ebits) ∧
  x % 2 ^ (f.mbits + f.ebits) = y % 2 ^ (f.mbits + f.ebits) ∧ (SignBit f x ↔ ¬ SignBit f y)

end Spec

end Verif
