import Mathlib.Data.Real.Basic
import Mathlib.Data.Rat.Cast.Order
import Verif.Spec.Float
/-
Rounding of real numbers to floats.
-/
namespace Verif

/-- `IsNearestFloat` for a real number: `r` is the number of the format that is nearest to `v`; of two equally near ones
the one whose last bit is 0. -/
def IsNearestFloatR (f : FloatFmt) (v : ℝ) (r : Nat) : Prop :=
  r < 2 ^ (1 + f.mbits + f.ebits) ∧ ¬ IsNaN f r ∧
  ∀ y, y < 2 ^ (1 + f.mbits + f.ebits) → ¬ IsNaN f y →
    |v - (floatValue f r : ℝ)| ≤ |v - (floatValue f y : ℝ)| ∧
    (|v - (floatValue f r : ℝ)| = |v - (floatValue f y : ℝ)| → floatValue f y = floatValue f r ∨ r % 2 = 0)

/-- For rational numbers the two notions agree. -/
theorem isNearestFloatR_rat (f : FloatFmt) (v : ℚ) (r : Nat) : IsNearestFloatR f (v : ℝ) r ↔ IsNearestFloat f v r := by
  unfold IsNearestFloatR IsNearestFloat
  have e : ∀ a b : ℚ, |(a : ℝ) - (b : ℝ)| = ((|a - b| : ℚ) : ℝ) := by intro a b; push_cast; rfl
  simp only [e, Rat.cast_le, Rat.cast_inj]

end Verif
