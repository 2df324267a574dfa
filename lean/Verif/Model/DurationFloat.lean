import Verif.Model.FloatArith
/-
src/date_time_numeric_functions.rs, multiplication and division of TIME by REAL/LREAL, and the
parts of `std::time::Duration` they use.
-/
namespace Verif

/-- How `Duration::from_secs_f32/f64` converts to whole nanoseconds: truncation (std 1.60 to 1.62) or to
nearest, ties to even (std since then). The repository does not pin a toolchain, so the theorems hold for both. (Reached from
src/date_time_numeric_functions.rs:679, 727, 775, 823.) -/
inductive DurRounding
  | trunc
  | nearestEven
  deriving DecidableEq, Repr

namespace StdDuration

/-- Nanoseconds for `num / den` nanoseconds (reached from src/date_time_numeric_functions.rs:679, 727, 775, 823). -/
def roundNanos : DurRounding → Nat → Nat → Nat
  | .trunc, num, den => num / den
  | .nearestEven, num, den => FloatFmt.rne num den

/-- `Duration::as_secs_f32/f64` of a duration of `n` nanoseconds: `(secs as f) + (nanos as f) / (1e9 as f)` (inside `mul_f32`
etc., src/date_time_numeric_functions.rs:679, 727, 775, 823). -/
def as_secs (f : FloatFmt) (n : Nat) : Nat :=
  f.addPos (f.ofNat (n / 1000000000)) (f.divPos (f.ofNat (n % 1000000000)) (f.ofNat 1000000000))

/-- `Duration::from_secs_f32/f64` of a non-negative float, as a number of nanoseconds: panics on NaN, infinity,
and values of 2^64 seconds or more. (Negative arguments also panic; they do not occur here.) (inside `mul_f32` etc.,
src/date_time_numeric_functions.rs:679, 727, 775, 823). -/
def from_secs (f : FloatFmt) (r : DurRounding) (x : Nat) : Res Nat :=
  if f.is_nan x ∨ f.is_infinite x then .panic
  else if 2 ^ 64 * 2 ^ f.qexp ≤ f.mag x then .panic
  else .ok (roundNanos r (f.mag x * 1000000000) (2 ^ f.qexp))

/-- `Duration::mul_f32/f64`: `Duration::from_secs(rhs * self.as_secs())` (src/date_time_numeric_functions.rs:679, 727). -/
def mul (f : FloatFmt) (r : DurRounding) (n rhs : Nat) : Res Nat := from_secs f r (f.mulPos rhs (as_secs f n))

/-- `Duration::div_f32/f64`: `Duration::from_secs(self.as_secs() / rhs)` (src/date_time_numeric_functions.rs:775, 823). -/
def div (f : FloatFmt) (r : DurRounding) (n rhs : Nat) : Res Nat := from_secs f r (f.divPos (as_secs f n) rhs)

end StdDuration

/-- The common tail of the four functions: `as_nanos().try_into::<i64>().unwrap()` and the sign
(src/date_time_numeric_functions.rs:679-687, 727-735, 775-783, 823-831). -/
def signedResult (neg1 neg2 : Bool) (d : Res Nat) : Res Int := do
  let n ← d
  let res ← Res.unwrap (IntTy.i64.checked n)
  pure (if xor neg1 neg2 then -res else res)

/-- `checked_mul_time_with_f32` (src/date_time_numeric_functions.rs:671-687) and
`checked_mul_time_with_f64` (719-735); `MUL__TIME__REAL/LREAL`, `MUL_TIME__REAL/LREAL`,
`MUL_LTIME__REAL/LREAL` (647-669, 695-717) call them directly. `in2` is a bit pattern. -/
def MUL_TIME_FLOAT (f : FloatFmt) (r : DurRounding) (in1 : Int) (in2 : Nat) : Res Int :=
  signedResult (decide (in1 < 0)) (f.neg in2) (StdDuration.mul f r in1.natAbs (f.abs in2))

/-- `checked_div_time_by_f32` (src/date_time_numeric_functions.rs:767-783) and `checked_div_time_by_f64`
(815-831); `DIV__TIME__REAL/LREAL`, `DIV_TIME__REAL/LREAL`, `DIV_LTIME__REAL/LREAL` (743-765, 791-813). -/
def DIV_TIME_FLOAT (f : FloatFmt) (r : DurRounding) (in1 : Int) (in2 : Nat) : Res Int :=
  signedResult (decide (in1 < 0)) (f.neg in2) (StdDuration.div f r in1.natAbs (f.abs in2))

end Verif
