import Verif.Model.Basic
/-
Structured Text conversion functions (iec61131-st/num_conversion.st, bit_conversion.st,
bit_num_conversion.st, extra_functions.st) and ABS (numerical_functions.st).

An ST assignment between integer types of different width or signedness truncates or extends like
LLVM's trunc/sext/zext as emitted by the RuSTy compiler (extension by the signedness of the *source*), i.e. it is
the two's complement `wrap` of the mathematical value.  That compiler contract is trusted.
-/
namespace Verif

/-- BOOL: one byte holding 0 or 1 (only these two values are modelled) (used in iec61131-st/bit_conversion.st). -/
def IntTy.bool : IntTy := ⟨false, 1⟩

/-- Names of the elementary ST types without floats and strings (as in iec61131-st/bit_conversion.st, num_conversion.st). -/
inductive StType where
  | BOOL | BYTE | WORD | DWORD | LWORD | SINT | INT | DINT | LINT | USINT | UINT | UDINT | ULINT
  | CHAR | WCHAR | TIME | LTIME | DATE | LDATE | DT | LDT | TOD | LTOD
  deriving DecidableEq, Repr

/-- Storage of the ST types; the date and time types are 64-bit signed nanosecond counts (of the declarations in
iec61131-st/bit_conversion.st, num_conversion.st, date_time_conversion.st). -/
def StType.ty : StType → IntTy
  | BOOL => .bool
  | BYTE | USINT | CHAR => .u8
  | WORD | UINT | WCHAR => .u16
  | DWORD | UDINT => .u32
  | LWORD | ULINT => .u64
  | SINT => .i8
  | INT => .i16
  | DINT => .i32
  | LINT | TIME | LTIME | DATE | LDATE | DT | LDT | TOD | LTOD => .i64

/-- Shapes of the bodies of ST conversion functions (`F` is the function itself) (of iec61131-st/bit_conversion.st,
bit_num_conversion.st, num_conversion.st). -/
inductive StBody where
  /-- `F := in;` -/
  | assign
  /-- `F := in.0;` -/
  | bit0
  /-- `IF in <> 0 THEN F := 1; ELSE F := 0; END_IF;` (also written `IF IN = 0 THEN F := FALSE; ELSE F := TRUE;`) -/
  | nonzero
  /-- `ptr : REF_TO <result type>; ptr := &in; F := ptr^;` (only between types of the same size) -/
  | reinterpret
  /-- `F := <src>_TO_<dst>(in);` -/
  | call (src dst : StType)
  deriving DecidableEq, Repr

/-- One conversion function: `<src>_TO_<dst>` in its name, declared input and result types, body (in iec61131-st/*.st). -/
structure StConv where
  src : StType
  dst : StType
  inTy : StType
  outTy : StType
  body : StBody
  deriving DecidableEq, Repr

/-- Body without calls (the bodies in iec61131-st/*.st). -/
def StBody.run (outTy : IntTy) (x : Int) : StBody → Int
  | .assign => outTy.wrap x
  | .bit0 => x % 2
  | .nonzero => if x ≠ 0 then 1 else 0
  | .reinterpret => outTy.wrap x
  | .call _ _ => 0

/-- Running a conversion on a value of its input type. A call passes the argument to the callee's
input type, runs its body and assigns the result. (Callees in the library contain no
further calls; a deeper call would evaluate to 0.) (the functions in iec61131-st/*.st). -/
def StConv.run (env : List StConv) (c : StConv) (x : Int) : Int :=
  match c.body with
  | .call s d =>
    match env.find? (fun g => g.src = s ∧ g.dst = d) with
    | some g => c.outTy.ty.wrap (g.body.run g.outTy.ty (g.inTy.ty.wrap x))
    | none => 0
  | b => b.run c.outTy.ty x

/-- `ABS__DINT`, `ABS__LINT` (iec61131-st/numerical_functions.st:15-23, 42-50): `-1 * x` wraps (ST
arithmetic has no overflow check). -/
def ABS_direct (t : IntTy) (x : Int) : Int := if x < 0 then t.wrap (-1 * x) else x
/-- `ABS__SINT`, `ABS__INT` (iec61131-st/numerical_functions.st:26-39): through `ABS__DINT`, result assigned
to the narrow type. -/
def ABS_via_dint (t : IntTy) (x : Int) : Int := t.wrap (ABS_direct .i32 x)
/-- `ABS` for SINT, INT, DINT, LINT (iec61131-st/numerical_functions.st). -/
def ABS (t : IntTy) (x : Int) : Int :=
  if t.bits < 32 then ABS_via_dint t x else ABS_direct t x

end Verif
