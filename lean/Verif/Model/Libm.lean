import Verif.Model.Arith
/-
The functions of src/arithmetic_functions.rs that call the platform's libm. Rust leaves its results unspecified, so the
library is a parameter here.
-/
namespace Verif

/-- The libm functions for one float type, on bit patterns (called in src/arithmetic_functions.rs:42-255). -/
structure Libm where
  ln : Nat → Nat
  log10 : Nat → Nat
  exp : Nat → Nat
  sin : Nat → Nat
  cos : Nat → Nat
  tan : Nat → Nat
  asin : Nat → Nat
  acos : Nat → Nat
  atan : Nat → Nat
  atan2 : Nat → Nat → Nat
  powf : Nat → Nat → Nat

/-- The platform's libm: the functions of `f32` and of `f64` (called in src/arithmetic_functions.rs:42-255). -/
structure Platform where
  f32 : Libm
  f64 : Libm

namespace Platform
variable (libm : Platform)

/-- src/arithmetic_functions.rs:39-43 -/
def LN__REAL (input : Nat) : Nat := libm.f32.ln input
/-- src/arithmetic_functions.rs:48-52 -/
def LN__LREAL (input : Nat) : Nat := libm.f64.ln input
/-- src/arithmetic_functions.rs:57-61 -/
def LOG__REAL (input : Nat) : Nat := libm.f32.log10 input
/-- src/arithmetic_functions.rs:66-70 -/
def LOG__LREAL (input : Nat) : Nat := libm.f64.log10 input
/-- src/arithmetic_functions.rs:75-79 -/
def EXP__REAL (input : Nat) : Nat := libm.f32.exp input
/-- src/arithmetic_functions.rs:84-88 -/
def EXP__LREAL (input : Nat) : Nat := libm.f64.exp input
/-- src/arithmetic_functions.rs:94-98 -/
def SIN__REAL (input : Nat) : Nat := libm.f32.sin input
/-- src/arithmetic_functions.rs:103-107 -/
def SIN__LREAL (input : Nat) : Nat := libm.f64.sin input
/-- src/arithmetic_functions.rs:112-116 -/
def COS__REAL (input : Nat) : Nat := libm.f32.cos input
/-- src/arithmetic_functions.rs:121-125 -/
def COS__LREAL (input : Nat) : Nat := libm.f64.cos input
/-- src/arithmetic_functions.rs:130-134 -/
def TAN__REAL (input : Nat) : Nat := libm.f32.tan input
/-- src/arithmetic_functions.rs:139-143 -/
def TAN__LREAL (input : Nat) : Nat := libm.f64.tan input
/-- src/arithmetic_functions.rs:148-152 -/
def ASIN__REAL (input : Nat) : Nat := libm.f32.asin input
/-- src/arithmetic_functions.rs:157-161 -/
def ASIN__LREAL (input : Nat) : Nat := libm.f64.asin input
/-- src/arithmetic_functions.rs:166-170 -/
def ACOS__REAL (input : Nat) : Nat := libm.f32.acos input
/-- src/arithmetic_functions.rs:176-180 -/
def ACOS__LREAL (input : Nat) : Nat := libm.f64.acos input
/-- src/arithmetic_functions.rs:185-189 -/
def ATAN__REAL (input : Nat) : Nat := libm.f32.atan input
/-- src/arithmetic_functions.rs:194-198 -/
def ATAN__LREAL (input : Nat) : Nat := libm.f64.atan input
/-- src/arithmetic_functions.rs:204-208; the parameters are called `y`, `x` in iec61131-st/arithmetic_functions.st:104-109. -/
def ATAN2__REAL (in1 in2 : Nat) : Nat := libm.f32.atan2 in1 in2
/-- src/arithmetic_functions.rs:213-217 -/
def ATAN2__LREAL (in1 in2 : Nat) : Nat := libm.f64.atan2 in1 in2
/-- src/arithmetic_functions.rs:231-235 -/
def EXPT__REAL__REAL (in1 in2 : Nat) : Nat := libm.f32.powf in1 in2
/-- src/arithmetic_functions.rs:237-243: `in2 as f32` -/
def EXPT__REAL__LREAL (in1 in2 : Nat) : Nat := libm.f32.powf in1 (FloatFmt.f64.convert .f32 in2)
/-- src/arithmetic_functions.rs:245-250: `in2 as f64` -/
def EXPT__LREAL__REAL (in1 in2 : Nat) : Nat := libm.f64.powf in1 (FloatFmt.f32.convert .f64 in2)
/-- src/arithmetic_functions.rs:252-256 -/
def EXPT__LREAL__LREAL (in1 in2 : Nat) : Nat := libm.f64.powf in1 in2

end Platform
end Verif
