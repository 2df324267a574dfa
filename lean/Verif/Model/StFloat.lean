import Verif.Model.StConv
import Verif.Model.Round
/-
Structured Text conversions that involve REAL or LREAL (iec61131-st/num_conversion.st, extra_functions.st), TRUNC
(extra_functions.st) and ABS of REAL/LREAL (numerical_functions.st).

An ST assignment between a float and another numeric type becomes an LLVM cast: `sitofp`/`uitofp` and `fptrunc`
round to nearest, ties to even; `fptosi`/`fptoui` truncate towards zero and give poison when the
truncated value does not fit the integer type (also for NaN and infinities).  Poison is `Res.ub`.  That compiler
contract is trusted.
-/
namespace Verif
namespace FloatFmt
variable (f : FloatFmt)

/-- The sign bit put in front of a pattern without sign (of the casts in iec61131-st/num_conversion.st). -/
def withSign (negative : Bool) (p : Nat) : Nat := p + (if negative then 2 ^ (f.mbits + f.ebits) else 0)

/-- LLVM `sitofp` / `uitofp`: nearest float, ties to even; zero gives `+0` (for the assignments in
iec61131-st/num_conversion.st). -/
def ofInt (n : Int) : Nat := f.withSign (decide (n < 0)) (f.roundMag (n.natAbs * 2 ^ f.qexp) 1)

/-- LLVM `fptosi` / `fptoui`: the fraction is cut off; poison if the rest is not a value of `t` (for the assignments in
iec61131-st/num_conversion.st). -/
def toInt (t : IntTy) (x : Nat) : Res Int :=
  if f.is_nan x ∨ f.is_infinite x then .ub
  else
    let n := (f.val x).tdiv (2 ^ f.qexp : Nat)
    if t.InRange n then .ok n else .ub

/-- LLVM `fpext` / `fptrunc` to the format `g`: nearest float, ties to even, sign kept. The payload of a NaN is
not modelled. (For the assignments in iec61131-st/num_conversion.st.) -/
def convert (g : FloatFmt) (x : Nat) : Nat :=
  if f.is_nan x then g.withSign (f.neg x) g.nan
  else if f.is_infinite x then g.withSign (f.neg x) g.inf
  else g.withSign (f.neg x) (g.roundMag (f.mag x * 2 ^ g.qexp) (2 ^ f.qexp))

end FloatFmt

/-- A numeric type: an integer-like one, or REAL (`.flt .f32`) or LREAL (`.flt .f64`) (in iec61131-st/num_conversion.st). -/
inductive StNum where
  | int (t : StType)
  | flt (f : FloatFmt)
  deriving DecidableEq, Repr

/-- A number as stored: an integer or the bit pattern of a float (in iec61131-st/num_conversion.st). -/
inductive StValue where
  | int (n : Int)
  | flt (bits : Nat)
  deriving DecidableEq, Repr

/-- Assignment of a value of the first type to a variable of the second. (A stored value that does not belong to
the first type does not occur; it gives `ub` here.) (in iec61131-st/num_conversion.st). -/
def stCast : StNum → StNum → StValue → Res StValue
  | .int _, .int t, .int n => .ok (.int (t.ty.wrap n))
  | .int _, .flt g, .int n => .ok (.flt (g.ofInt n))
  | .flt f, .int t, .flt x => do .ok (.int (← f.toInt t.ty x))
  | .flt f, .flt g, .flt x => if f = g then .ok (.flt x) else .ok (.flt (f.convert g x))
  | _, _, _ => .ub

/-- Bodies of these conversion functions (`F` is the function itself) (iec61131-st/num_conversion.st, extra_functions.st). -/
inductive StFloatBody where
  /-- `F := in;` -/
  | assign
  /-- `F := ROUND(in);` with the ROUND of the input's type (numerical_functions.st:71-82) -/
  | round
  deriving DecidableEq, Repr

/-- One conversion function: `<src>_TO_<dst>` in its name, declared input and result types, body
(iec61131-st/num_conversion.st, extra_functions.st). -/
structure StFloatConv where
  src : StNum
  dst : StNum
  inTy : StNum
  outTy : StNum
  body : StFloatBody
  deriving DecidableEq, Repr

/-- Running a conversion on a value of its input type (iec61131-st/num_conversion.st, extra_functions.st). -/
def StFloatConv.run (c : StFloatConv) (v : StValue) : Res StValue :=
  match c.body, c.inTy, v with
  | .round, .flt f, .flt x => stCast c.inTy c.outTy (.flt (f.round x))
  | _, _, _ => stCast c.inTy c.outTy v

/-- `TRUNC__REAL` (iec61131-st/extra_functions.st:1029-1034): `TRUNC__REAL := IN` with a LINT result. -/
def TRUNC__REAL (x : Nat) : Res Int := FloatFmt.f32.toInt .i64 x
/-- `TRUNC__LREAL` (iec61131-st/extra_functions.st:1036-1041). -/
def TRUNC__LREAL (x : Nat) : Res Int := FloatFmt.f64.toInt .i64 x

/-- `ABS__LREAL` (iec61131-st/numerical_functions.st:61-69): the comparison `< 0` is false for NaN and `-0.0`;
`-1.0 * x` flips the sign bit of a number that is not a NaN. -/
def ABS__LREAL (x : Nat) : Nat := if FloatFmt.f64.lt x 0 then FloatFmt.f64.negate x else x
/-- `ABS__REAL` (iec61131-st/numerical_functions.st:53-58): through `ABS__LREAL`. -/
def ABS__REAL (x : Nat) : Nat := FloatFmt.f64.convert .f32 (ABS__LREAL (FloatFmt.f32.convert .f64 x))

end Verif
