import Verif.Model.StFloat
import Verif.Model.Text
/-
src/extra_functions.rs: REAL and LREAL as text, text to REAL and LREAL, and the ST functions
built on them (iec61131-st/extra_functions.st).

Formatting and parsing of floats is done by core.  Modelled from its contract: `{:.6}` and `{:.6e}` round the exact
value of the float to the requested digits, ties to even; `str::parse` returns the float nearest to the exact value of
the text, ties to even.  (core stops counting an exponent at 65536, which can change the result only for texts of
more than 60000 digits; not modelled.)
-/
namespace Verif
open FloatFmt

/-! ### `core::fmt` of floats -/

/-- `-` for a set sign bit (core: also for `-0.0`, not for NaN) (src/extra_functions.rs:63, 81). -/
def fmtSign (f : FloatFmt) (x : Nat) : List Nat := if f.neg x then [45] else []

/-- `n` millionths as `n / 1000000`, a point and six digits (src/extra_functions.rs:63, 81). -/
def fmtMicro (n : Nat) : List Nat := fmtNat (n / 1000000) ++ [46] ++ fmtZeros 6 (n % 1000000)

/-- `{:.6}` of a float (core) (src/extra_functions.rs:63, 81). -/
def fmtFixed (f : FloatFmt) (x : Nat) : List Nat :=
  if f.is_nan x then [78, 97, 78]
  else if f.is_infinite x then fmtSign f x ++ [105, 110, 102]
  else fmtSign f x ++ fmtMicro (rne (f.mag x * 1000000) (2 ^ f.qexp))

/-- `{:.6e}` of a float whose absolute value is at least 1000000 (core); a smaller one does not get here. Seven
significant digits; when they are rounded up to 10000000 the exponent grows by one. (src/extra_functions.rs:65, 83.) -/
def fmtExp (f : FloatFmt) (x : Nat) : List Nat :=
  if f.is_nan x then [78, 97, 78]
  else if f.is_infinite x then fmtSign f x ++ [105, 110, 102]
  else
    let k := (fmtNat (f.mag x / 2 ^ f.qexp)).length - 1
    let n := rne (f.mag x) (2 ^ f.qexp * 10 ^ (k - 6))
    if n < 10000000 then fmtSign f x ++ fmtMicro n ++ [101] ++ fmtNat k
    else fmtSign f x ++ fmtMicro 1000000 ++ [101] ++ fmtNat (k + 1)

/-- `input.floor() < bound` for an integer `bound` that is a float: false for NaN; the infinities compare like the
too large numbers that `val` gives for them (src/extra_functions.rs:62, 80). -/
def floorLt (f : FloatFmt) (x : Nat) (bound : Int) : Bool :=
  !f.is_nan x && decide (f.val x / (2 ^ f.qexp : Nat) < bound)

/-- `LREAL_TO_STRING_EXT` (src/extra_functions.rs:59-69). -/
def LREAL_TO_STRING_EXT (input : Nat) (dest : Ptr) : Res (List Nat) :=
  if floorLt .f64 input 100000000000000 then writeBuf dest (fmtFixed .f64 input)
  else writeBuf dest (fmtExp .f64 input)

/-- `REAL_TO_STRING_EXT` (src/extra_functions.rs:75-87); the input is an `f64`. -/
def REAL_TO_STRING_EXT (input : Nat) (dest : Ptr) : Res (List Nat) :=
  if floorLt .f64 input 1000000 then writeBuf dest (fmtFixed .f64 input)
  else writeBuf dest (fmtExp .f64 input)

/-- `REAL_TO_STRING` (iec61131-st/extra_functions.st:370-375): calls `LREAL_TO_STRING_EXT` with the REAL
extended to LREAL. -/
def REAL_TO_STRING (input : Nat) (dest : Ptr) : Res (List Nat) :=
  LREAL_TO_STRING_EXT (FloatFmt.f32.convert .f64 input) dest

/-! ### `core::num::dec2flt` -/

/-- The values of the leading decimal digits, and the rest of the text (inside `parse`, src/extra_functions.rs:139). -/
def takeDigits : List Nat → List Nat × List Nat
  | [] => ([], [])
  | c :: cs =>
    match toDigit 10 c with
    | some d => (d :: (takeDigits cs).1, (takeDigits cs).2)
    | none => ([], c :: cs)

/-- The number with these decimal digits (inside `parse`, src/extra_functions.rs:139). -/
def digitsValue (ds : List Nat) : Nat := ds.foldl (fun acc d => acc * 10 + d) 0

/-- What follows `e` (core `parse_scientific`): optional sign and at least one digit, up to the end (inside `parse`,
src/extra_functions.rs:139). -/
def parseExponent (s : List Nat) : Option Int :=
  let negative := [45].isPrefixOf s
  let r := takeDigits (if negative || [43].isPrefixOf s then s.drop 1 else s)
  if r.1.isEmpty || !r.2.isEmpty then none
  else some (if negative then -(digitsValue r.1 : Int) else digitsValue r.1)

/-- The part of a number that follows the mantissa (inside `parse`, src/extra_functions.rs:139). -/
def parseSuffix : List Nat → Option Int
  | [] => some 0
  | c :: cs => if c == 101 || c == 69 then parseExponent cs else none

/-- core `parse_number`: digits, optionally a point and digits, at least one digit in all, optionally an exponent.
The number is `m * 10^e` (inside `parse`, src/extra_functions.rs:139). -/
def parse_number (s : List Nat) : Option (Nat × Int) :=
  let i := takeDigits s
  let p := if [46].isPrefixOf i.2 then takeDigits (i.2.drop 1) else ([], i.2)
  if i.1.isEmpty && p.1.isEmpty then none
  else (parseSuffix p.2).map fun e => (digitsValue (i.1 ++ p.1), e - p.1.length)

/-- The float nearest to `m * 10^e`, without sign (inside `parse`, src/extra_functions.rs:139). -/
def decimalToFloat (f : FloatFmt) (m : Nat) (e : Int) : Nat :=
  f.roundMag (m * 10 ^ e.toNat * 2 ^ f.qexp) (10 ^ (-e).toNat)

/-- Upper case of an ASCII letter. (core clears bit 5 of every byte before comparing with the words below, which is
the same for this purpose.) (inside `parse`, src/extra_functions.rs:139). -/
def upperAscii (c : Nat) : Nat := if 97 ≤ c && c ≤ 122 then c - 32 else c

/-- core `parse_inf_nan`: INF, INFINITY and NAN in any case (inside `parse`, src/extra_functions.rs:139). -/
def parse_inf_nan (f : FloatFmt) (s : List Nat) : Option Nat :=
  let t := s.map upperAscii
  if t == [73, 78, 70] || t == [73, 78, 70, 73, 78, 73, 84, 89] then some f.inf
  else if t == [78, 65, 78] then some f.nan
  else none

/-- core `dec2flt` behind the sign (inside `parse`, src/extra_functions.rs:139). -/
def parseMagnitude (f : FloatFmt) (s : List Nat) : Option Nat :=
  match parse_number s with
  | some (m, e) => some (decimalToFloat f m e)
  | none => parse_inf_nan f s

/-- `str::parse::<f32/f64>` (core `dec2flt`) (src/extra_functions.rs:139). -/
def parseFloat (f : FloatFmt) (s : List Nat) : Option Nat :=
  match s with
  | [] => none
  | c :: cs =>
    if c == 45 then (parseMagnitude f cs).map (f.withSign true)
    else if c == 43 then parseMagnitude f cs
    else parseMagnitude f (c :: cs)

/-- `string_to_float` (src/extra_functions.rs:130-146). -/
def string_to_float (f : FloatFmt) (src : Ptr) : Res Nat := do
  let slice ← ptr_to_slice src
  if from_utf8 slice then Res.unwrap (parseFloat f slice) else .panic

/-- `STRING_TO_LREAL` (src/extra_functions.rs:152-154). -/
def STRING_TO_LREAL (src : Ptr) : Res Nat := string_to_float .f64 src
/-- `STRING_TO_REAL` (src/extra_functions.rs:160-162). -/
def STRING_TO_REAL (src : Ptr) : Res Nat := string_to_float .f32 src

/-- `WSTRING_TO_LREAL` (iec61131-st/extra_functions.st:714-723). -/
def WSTRING_TO_LREAL (src : Ptr) : Res Nat := do
  let str ← WSTRING_TO_STRING_EXT src (some tempString)
  STRING_TO_LREAL (some str)

/-- `WSTRING_TO_REAL` (iec61131-st/extra_functions.st:730-739). -/
def WSTRING_TO_REAL (src : Ptr) : Res Nat := do
  let str ← WSTRING_TO_STRING_EXT src (some tempString)
  STRING_TO_REAL (some str)

end Verif
