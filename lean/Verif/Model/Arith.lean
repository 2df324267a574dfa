import Verif.Model.FloatText
/-
Arithmetic functions: SQRT, the constants and EXPT with an integer exponent (src/arithmetic_functions.rs,
iec61131-st/arithmetic_functions.st).

LN, LOG, EXP, SIN, COS, TAN, ASIN, ACOS, ATAN, ATAN2 and EXPT with a REAL or LREAL exponent are in Model/Libm.lean.
-/
namespace Verif
namespace FloatFmt
variable (f : FloatFmt)

/-- The float nearest to the square root of `n` (in units of the smallest subnormal), ties to even, as it is
computed bit by bit: twice the root, rounded down, and a sticky digit that says whether anything was cut off
(src/arithmetic_functions.rs:24, 33). -/
def roundSqrt (n : Nat) : Nat :=
  let k := Nat.sqrt (4 * n)
  f.roundMag (2 * k + (if k * k = 4 * n then 0 else 1)) 4

/-- `f32::sqrt` / `f64::sqrt`: IEEE 754 squareRoot, correctly rounded. The payload and sign of a NaN are not modelled.
(src/arithmetic_functions.rs:24, 33.) -/
def sqrt (x : Nat) : Nat :=
  if f.is_nan x then f.nan
  else if f.mag x = 0 then x
  else if f.neg x then f.nan
  else if f.is_infinite x then x
  else f.roundSqrt (f.mag x * 2 ^ f.qexp)

/-- The operator `*` (IEEE 754 multiplication). The sign of a NaN is not modelled. (Inside `powi`,
src/arithmetic_functions.rs:222, 228.) -/
def mul (a b : Nat) : Nat :=
  let p := f.mulPos (f.abs a) (f.abs b)
  if f.is_nan p then p else f.withSign (f.neg a != f.neg b) p

/-- The operator `/` (IEEE 754 division). The sign of a NaN is not modelled. (Inside `powi`, src/arithmetic_functions.rs:222,
228.) -/
def div (a b : Nat) : Nat :=
  let p := f.divPos (f.abs a) (f.abs b)
  if f.is_nan p then p else f.withSign (f.neg a != f.neg b) p

/-- The number 1 (inside `powi`, src/arithmetic_functions.rs:222, 228). -/
def one : Nat := f.ofNat 1

/-- The loop of compiler-builtins' `__powisf2` / `__powidf2` from `a`, `b` and `mul` on: square and multiply (reached from
src/arithmetic_functions.rs:222, 228). -/
def powiLoop (a b acc : Nat) : Nat :=
  let acc' := if b % 2 = 1 then f.mul acc a else acc
  if h : b / 2 = 0 then acc' else powiLoop (f.mul a a) (b / 2) acc'
termination_by b
decreasing_by omega

/-- `f32::powi` / `f64::powi`: the LLVM intrinsic becomes a call of `__powisf2` / `__powidf2` (compiler-builtins
src/float/pow.rs). -/
def powi (a : Nat) (b : Int) : Nat :=
  let r := f.powiLoop a b.natAbs f.one
  if b < 0 then f.div f.one r else r

end FloatFmt

/-- src/arithmetic_functions.rs:21-25 -/
def SQRT__REAL (input : Nat) : Nat := FloatFmt.f32.sqrt input

/-- src/arithmetic_functions.rs:30-34 -/
def SQRT__LREAL (input : Nat) : Nat := FloatFmt.f64.sqrt input

/-! The constants, src/arithmetic_functions.rs:1-16. `std::f32::consts` and `std::f64::consts` define them by decimal literals,
which the compiler rounds to the nearest float. -/

/-- src/arithmetic_functions.rs:1-2, `std::f64::consts::PI` -/
def PI_LREAL : Nat := decimalToFloat .f64 314159265358979323846264338327950288 (-35)
/-- src/arithmetic_functions.rs:3-4, `std::f32::consts::PI` -/
def PI_REAL : Nat := decimalToFloat .f32 314159265358979323846264338327950288 (-35)
/-- src/arithmetic_functions.rs:5-6, `std::f64::consts::FRAC_PI_2` -/
def FRAC_PI_2_LREAL : Nat := decimalToFloat .f64 157079632679489661923132169163975144 (-35)
/-- src/arithmetic_functions.rs:7-8, `std::f32::consts::FRAC_PI_2` -/
def FRAC_PI_2_REAL : Nat := decimalToFloat .f32 157079632679489661923132169163975144 (-35)
/-- src/arithmetic_functions.rs:9-10, `std::f64::consts::FRAC_PI_4` -/
def FRAC_PI_4_LREAL : Nat := decimalToFloat .f64 785398163397448309615660845819875721 (-36)
/-- src/arithmetic_functions.rs:11-12, `std::f32::consts::FRAC_PI_4` -/
def FRAC_PI_4_REAL : Nat := decimalToFloat .f32 785398163397448309615660845819875721 (-36)
/-- src/arithmetic_functions.rs:13-14, `std::f32::consts::E` -/
def E_REAL : Nat := decimalToFloat .f32 271828182845904523536028747135266250 (-35)
/-- src/arithmetic_functions.rs:15-16, `std::f64::consts::E` -/
def E_LREAL : Nat := decimalToFloat .f64 271828182845904523536028747135266250 (-35)

/-- src/arithmetic_functions.rs:219-223 -/
def EXPT__REAL__DINT (in1 : Nat) (in2 : Int) : Nat := FloatFmt.f32.powi in1 in2

/-- src/arithmetic_functions.rs:225-229 -/
def EXPT__LREAL__DINT (in1 : Nat) (in2 : Int) : Nat := FloatFmt.f64.powi in1 in2

/-- `EXPT__REAL__USINT`, `_UINT`, `_UDINT`, `_ULINT`, `_SINT`, `_INT`, `_LINT` (arithmetic_functions.st:170-224): the
exponent is passed to the DINT parameter of EXPT__REAL__DINT, which keeps its low 32 bits. -/
def EXPT__REAL__int (in1 : Nat) (in2 : Int) : Nat := EXPT__REAL__DINT in1 (IntTy.i32.wrap in2)

/-- `EXPT__LREAL__USINT`, ..., `EXPT__LREAL__LINT` (arithmetic_functions.st:226-280), in the same way. -/
def EXPT__LREAL__int (in1 : Nat) (in2 : Int) : Nat := EXPT__LREAL__DINT in1 (IntTy.i32.wrap in2)

end Verif
