import Mathlib.Analysis.SpecialFunctions.Log.Base
import Mathlib.Analysis.SpecialFunctions.Trigonometric.Arctan
import Mathlib.Analysis.SpecialFunctions.Complex.Arg
import Mathlib.Analysis.SpecialFunctions.Pow.Real
import Verif.Spec.Float
import Verif.Model.Libm
/-
What a libm function has to compute, up to a relative error.
-/
namespace Verif

/-- The float `r` approximates the real number `v` with relative error `ε`; next to zero an error of the smallest positive
number of the format is allowed. Nothing is said about numbers beyond the largest power of two of the format. -/
def Approximates (f : FloatFmt) (ε v : ℝ) (r : Nat) : Prop :=
  |v| ≤ 2 ^ (2 ^ (f.ebits - 1) - 1) → IsFinite f r ∧ |(floatValue f r : ℝ) - v| ≤ ε * |v| + (floatValue f 1 : ℝ)

/-- The library computes its functions with relative error `ε`. -/
structure Libm.Accurate (f : FloatFmt) (ε : ℝ) (m : Libm) : Prop where
  ln : ∀ x, IsFinite f x → 0 < floatValue f x → Approximates f ε (Real.log (floatValue f x)) (m.ln x)
  log10 : ∀ x, IsFinite f x → 0 < floatValue f x → Approximates f ε (Real.logb 10 (floatValue f x)) (m.log10 x)
  exp : ∀ x, IsFinite f x → Approximates f ε (Real.exp (floatValue f x)) (m.exp x)
  sin : ∀ x, IsFinite f x → Approximates f ε (Real.sin (floatValue f x)) (m.sin x)
  cos : ∀ x, IsFinite f x → Approximates f ε (Real.cos (floatValue f x)) (m.cos x)
  tan : ∀ x, IsFinite f x → Approximates f ε (Real.tan (floatValue f x)) (m.tan x)
  asin : ∀ x, IsFinite f x → |floatValue f x| ≤ 1 → Approximates f ε (Real.arcsin (floatValue f x)) (m.asin x)
  acos : ∀ x, IsFinite f x → |floatValue f x| ≤ 1 → Approximates f ε (Real.arccos (floatValue f x)) (m.acos x)
  atan : ∀ x, IsFinite f x → Approximates f ε (Real.arctan (floatValue f x)) (m.atan x)
  atan2 : ∀ y x, IsFinite f y → IsFinite f x → floatValue f y ≠ 0 ∨ 0 < floatValue f x →
    Approximates f ε (Complex.arg ⟨floatValue f x, floatValue f y⟩) (m.atan2 y x)
  powf : ∀ x y, IsFinite f x → IsFinite f y → 0 < floatValue f x →
    Approximates f ε ((floatValue f x : ℝ) ^ (floatValue f y : ℝ)) (m.powf x y)

end Verif
