import Verif.Model.FloatText
/-
The Structured Text side of the string functions and conversions to strings: iec61131-st/string_functions.st,
string_conversion.st and extra_functions.st.

A function of type STRING[2048] or WSTRING[2048] has a result variable of 2049 units that is zero when the function starts
(compiler contract). It is passed to the Rust function as destination.
-/
namespace Verif

/-- `__STRING_LENGTH` (string_functions.st:1-3). -/
def STRING_LENGTH : Nat := 2048

/-- The result variable of a function of type STRING[2048] / WSTRING[2048] (as in iec61131-st/string_conversion.st:6). -/
def resultVar : List Nat := List.replicate (STRING_LENGTH + 1) 0

namespace St

/-- `LEFT__STRING`, `LEFT__WSTRING` (string_functions.st:47-65). -/
def LEFT (k : Codec) (src : Ptr) (L : Int) : Res (List Nat) := left k src L (some resultVar)

/-- `RIGHT__STRING`, `RIGHT__WSTRING` (string_functions.st:122-140). -/
def RIGHT (k : Codec) (src : Ptr) (L : Int) : Res (List Nat) := right k src L (some resultVar)

/-- `MID__STRING`, `MID__WSTRING` (string_functions.st:202-222). -/
def MID (p : Profile) (k : Codec) (src : Ptr) (L P : Int) : Res (List Nat) := mid p k src L P (some resultVar)

/-- `INSERT__STRING`, `INSERT__WSTRING` (string_functions.st:324-344). -/
def INSERT (k : Codec) (in1 in2 : Ptr) (P : Int) : Res (List Nat) := insert k in1 in2 P (some resultVar)

/-- `DELETE__STRING`, `DELETE__WSTRING` (string_functions.st:406-426). -/
def DELETE (p : Profile) (k : Codec) (src : Ptr) (L P : Int) : Res (List Nat) := delete p k src L P (some resultVar)

/-- `REPLACE__STRING`, `REPLACE__WSTRING` (string_functions.st:490-512). -/
def REPLACE (p : Profile) (k : Codec) (in1 in2 : Ptr) (L P : Int) : Res (List Nat) :=
  replace p k in1 in2 L P (some resultVar)

/-- `CONCAT__STRING`, `CONCAT__WSTRING` (string_functions.st:261-273): external functions of type STRING[2048] /
WSTRING[2048]; the caller passes the result variable, the number of arguments and the arguments. -/
def CONCAT (k : Codec) (args : List Ptr) : Res (List Nat) := concat k (some resultVar) args.length (some args)

/-- `STRING_TO_WSTRING` (string_conversion.st:45-50). -/
def STRING_TO_WSTRING (src : Ptr) : Res (List Nat) := STRING_TO_WSTRING_EXT src (some resultVar)

/-- `WSTRING_TO_STRING` (string_conversion.st:6-11). -/
def WSTRING_TO_STRING (src : Ptr) : Res (List Nat) := WSTRING_TO_STRING_EXT src (some resultVar)

/-! ### Conversions to STRING -/

/-- extra_functions.st:6-11 -/
def BYTE_TO_STRING (x : Nat) : Res (List Nat) := BYTE_TO_STRING_EXT x (some resultVar)
/-- extra_functions.st:38-43 -/
def LWORD_TO_STRING (x : Nat) : Res (List Nat) := LWORD_TO_STRING_EXT x (some resultVar)
/-- extra_functions.st:50-55 -/
def DWORD_TO_STRING (x : Nat) : Res (List Nat) := LWORD_TO_STRING_EXT x (some resultVar)
/-- extra_functions.st:72-77 -/
def LINT_TO_STRING (x : Int) : Res (List Nat) := LINT_TO_STRING_EXT x (some resultVar)
/-- extra_functions.st:84-89 -/
def DINT_TO_STRING (x : Int) : Res (List Nat) := LINT_TO_STRING_EXT x (some resultVar)
/-- `DT_TO_STRING`, `LDT_TO_STRING` (extra_functions.st:106-118) -/
def DT_TO_STRING (x : Int) : Res (List Nat) := DT_TO_STRING_EXT x (some resultVar)
/-- `TIME_TO_STRING`, `LTIME_TO_STRING` (extra_functions.st:154-166) -/
def TIME_TO_STRING (x : Int) : Res (List Nat) := TIME_TO_STRING_EXT x resultVar
/-- `DATE_TO_STRING`, `LDATE_TO_STRING` (extra_functions.st:202-214) -/
def DATE_TO_STRING (x : Int) : Res (List Nat) := DATE_TO_STRING_EXT x (some resultVar)
/-- `TOD_TO_STRING`, `LTOD_TO_STRING` (extra_functions.st:250-262) -/
def TOD_TO_STRING (x : Int) : Res (List Nat) := TOD_TO_STRING_EXT x (some resultVar)
/-- extra_functions.st:358-363 -/
def LREAL_TO_STRING (x : Nat) : Res (List Nat) := LREAL_TO_STRING_EXT x (some resultVar)
/-- extra_functions.st:370-375 -/
def REAL_TO_STRING (x : Nat) : Res (List Nat) := Verif.REAL_TO_STRING x (some resultVar)

/-! ### Conversions to WSTRING -/

/-- extra_functions.st:298-303 -/
def BYTE_TO_WSTRING (x : Nat) : Res (List Nat) := do
  let s ← BYTE_TO_STRING x
  STRING_TO_WSTRING_EXT (some s) (some resultVar)
/-- extra_functions.st:310-315 -/
def LWORD_TO_WSTRING (x : Nat) : Res (List Nat) := do
  let s ← LWORD_TO_STRING x
  STRING_TO_WSTRING_EXT (some s) (some resultVar)
/-- extra_functions.st:322-327 -/
def DWORD_TO_WSTRING (x : Nat) : Res (List Nat) := LWORD_TO_WSTRING x
/-- extra_functions.st:334-339 -/
def LINT_TO_WSTRING (x : Int) : Res (List Nat) := do
  let s ← LINT_TO_STRING x
  STRING_TO_WSTRING_EXT (some s) (some resultVar)
/-- extra_functions.st:346-351 -/
def DINT_TO_WSTRING (x : Int) : Res (List Nat) := LINT_TO_WSTRING x
/-- `DT_TO_WSTRING`, `LDT_TO_WSTRING` (extra_functions.st:135-147) -/
def DT_TO_WSTRING (x : Int) : Res (List Nat) := do
  let s ← DT_TO_STRING x
  STRING_TO_WSTRING_EXT (some s) (some resultVar)
/-- `TIME_TO_WSTRING`, `LTIME_TO_WSTRING` (extra_functions.st:183-195) -/
def TIME_TO_WSTRING (x : Int) : Res (List Nat) := do
  let s ← TIME_TO_STRING x
  STRING_TO_WSTRING_EXT (some s) (some resultVar)
/-- `DATE_TO_WSTRING`, `LDATE_TO_WSTRING` (extra_functions.st:231-243) -/
def DATE_TO_WSTRING (x : Int) : Res (List Nat) := do
  let s ← DATE_TO_STRING x
  STRING_TO_WSTRING_EXT (some s) (some resultVar)
/-- `TOD_TO_WSTRING`, `LTOD_TO_WSTRING` (extra_functions.st:279-291) -/
def TOD_TO_WSTRING (x : Int) : Res (List Nat) := do
  let s ← TOD_TO_STRING x
  STRING_TO_WSTRING_EXT (some s) (some resultVar)
/-- extra_functions.st:382-387 -/
def LREAL_TO_WSTRING (x : Nat) : Res (List Nat) := do
  let s ← LREAL_TO_STRING x
  STRING_TO_WSTRING_EXT (some s) (some resultVar)
/-- extra_functions.st:394-399: the REAL is extended to LREAL. -/
def REAL_TO_WSTRING (x : Nat) : Res (List Nat) := LREAL_TO_WSTRING (FloatFmt.f32.convert .f64 x)

/-! ### Comparison operators -/

/-- A parameter `a : STRING` / `a : WSTRING` (80 units and a terminator) passed by value (compiler contract): the units of the
argument, at most 80, in a variable of its own (as in iec61131-st/string_functions.st, STRING_EQUAL). -/
def byValue (src : Ptr) : Res (List Nat) := do
  let s ← ptr_to_slice src
  pure (s.take 80 ++ [0])

/-- `STRING_EQUAL`, `WSTRING_EQUAL` (string_functions.st:616-628), which the compiler calls for `=`. -/
def EQUAL (a b : Ptr) : Res Bool := do
  let a ← byValue a
  let b ← byValue b
  EQ 2 (some [some a, some b])

/-- `STRING_LESS`, `WSTRING_LESS` (string_functions.st:658-670), which the compiler calls for `<`. -/
def LESS (a b : Ptr) : Res Bool := do
  let a ← byValue a
  let b ← byValue b
  LT 2 (some [some a, some b])

/-- `STRING_GREATER`, `WSTRING_GREATER` (string_functions.st:575-587), which the compiler calls for `>`. -/
def GREATER (a b : Ptr) : Res Bool := do
  let a ← byValue a
  let b ← byValue b
  GT 2 (some [some a, some b])

/-! ### Single characters -/

/-- `STRING_TO_CHAR` (string_conversion.st:67-76) and `WSTRING_TO_WCHAR` (28-37): the first unit of the memory of the string. -/
def STRING_TO_CHAR (src : Ptr) : Res Nat :=
  match src with
  | some (u :: _) => .ok u
  | _ => .ub

/-- `CHAR_TO_STRING` (string_conversion.st:111-120) and `WCHAR_TO_WSTRING` (83-92): a pointer to the parameter is used as a pointer to
a STRING / WSTRING, from which the 80 units of a string are copied. `mem` is the memory from the parameter on; the
parameter itself is its first unit. -/
def CHAR_TO_STRING (mem : List Nat) : Res (List Nat) :=
  if mem.length < 80 then .ub else .ok (mem.take 80 ++ [0])

end St
end Verif
