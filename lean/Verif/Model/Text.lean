import Verif.Model.Strings
import Verif.Model.Chrono
/-
src/extra_functions.rs: numbers, durations and dates to text, text to integers, TIME().
Floating point text is not in this file.

`write!(&mut *buf, ..)` into a `&mut [u8]` of 81 bytes writes the formatted bytes from the
start of the slice and returns an error if they do not fit; nothing else is written, in
particular no terminator.
-/
namespace Verif
open Chrono

/-- `DEFAULT_STRING_LEN` (src/extra_functions.rs:17). -/
def DEFAULT_STRING_LEN : Nat := 81

/-! ### `core::fmt` -/

/-- `Display` of an unsigned integer (core) (src/extra_functions.rs:27, 39). -/
def fmtNat (n : Nat) : List Nat :=
  if n < 10 then [48 + n] else fmtNat (n / 10) ++ [48 + n % 10]

/-- `Display` of a signed integer (core): '-' and the absolute value (src/extra_functions.rs:50). -/
def fmtInt (x : Int) : List Nat := if x < 0 then 45 :: fmtNat x.natAbs else fmtNat x.natAbs

/-- `{:0w}` of an unsigned integer (core) (inside `Display` of dates, src/extra_functions.rs:217-218). -/
def fmtZeros (w n : Nat) : List Nat := List.replicate (w - (fmtNat n).length) 48 ++ fmtNat n

/-- `from_raw_parts_mut(dest, DEFAULT_STRING_LEN)` and `write!(&mut *buf, ..).unwrap()`
(src/extra_functions.rs:25-27, 37-39, 49-50).  A buffer of fewer than 81 bytes is undefined
behaviour; a text of more than 81 bytes panics. -/
def writeBuf (dest : Ptr) (text : List Nat) : Res (List Nat) :=
  match dest with
  | none => .ub
  | some mem =>
    if mem.length < DEFAULT_STRING_LEN then .ub
    else if DEFAULT_STRING_LEN < text.length then .panic
    else .ok (text ++ mem.drop text.length)

/-! ### Integers -/

/-- `BYTE_TO_STRING_EXT` (src/extra_functions.rs:24-30). -/
def BYTE_TO_STRING_EXT (input : Nat) (dest : Ptr) : Res (List Nat) := writeBuf dest (fmtNat input)

/-- `LWORD_TO_STRING_EXT` (src/extra_functions.rs:36-42); DWORD_TO_STRING passes its argument
to it (iec61131-st/extra_functions.st:50-55). -/
def LWORD_TO_STRING_EXT (input : Nat) (dest : Ptr) : Res (List Nat) := writeBuf dest (fmtNat input)

/-- `LINT_TO_STRING_EXT` (src/extra_functions.rs:48-53); DINT_TO_STRING passes its argument to
it (iec61131-st/extra_functions.st:84-89). -/
def LINT_TO_STRING_EXT (input : Int) (dest : Ptr) : Res (List Nat) := writeBuf dest (fmtInt input)

/-- `char::to_digit` (core) (inside `from_str_radix`, src/extra_functions.rs:106). -/
def toDigit (radix c : Nat) : Option Nat :=
  let d? :=
    if 48 ≤ c && c ≤ 57 then some (c - 48)
    else if 97 ≤ c && c ≤ 122 then some (c - 97 + 10)
    else if 65 ≤ c && c ≤ 90 then some (c - 65 + 10)
    else none
  d?.filter (· < radix)

/-- The digit loop of `from_str_radix` (core) with its checked arithmetic: the digits are
added for a positive and subtracted for a negative number.  (For few digits core uses
unchecked arithmetic, which cannot overflow then.) (inside `from_str_radix`, src/extra_functions.rs:106). -/
def parseDigits (t : IntTy) (radix : Nat) (positive : Bool) : List Nat → Int → Option Int
  | [], acc => some acc
  | c :: cs, acc => do
    let d ← toDigit radix c
    let acc ← t.checked (acc * radix)
    let acc ← t.checked (if positive then acc + d else acc - d)
    parseDigits t radix positive cs acc

/-- `from_str_radix` of a signed integer type (core, through `num::Num`) (src/extra_functions.rs:106). -/
def from_str_radix (t : IntTy) (radix : Nat) (s : List Nat) : Option Int :=
  match s with
  | [] => none
  | c :: cs =>
    if (c == 43 || c == 45) && cs.isEmpty then none
    else if c == 43 then parseDigits t radix true cs 0
    else if c == 45 then parseDigits t radix false cs 0
    else parseDigits t radix true (c :: cs) 0

/-- The match on the prefix in `string_to_int` (src/extra_functions.rs:95-103). -/
def splitPrefix (slice : List Nat) : List Nat × Nat :=
  if [49, 54, 35].isPrefixOf slice then (slice.drop 3, 16)
  else if [48, 120].isPrefixOf slice || [48, 88].isPrefixOf slice then (slice.drop 2, 16)
  else if [56, 35].isPrefixOf slice then (slice.drop 2, 8)
  else if [50, 35].isPrefixOf slice || [48, 98].isPrefixOf slice || [48, 66].isPrefixOf slice then
    (slice.drop 2, 2)
  else (slice, 10)

/-- `string_to_int` (src/extra_functions.rs:89-112). -/
def string_to_int (t : IntTy) (src : Ptr) : Res Int := do
  let slice ← ptr_to_slice src
  let r := splitPrefix slice
  if from_utf8 r.1 then Res.unwrap (from_str_radix t r.2 r.1) else .panic

/-- `STRING_TO_LINT` (src/extra_functions.rs:118-120). -/
def STRING_TO_LINT (src : Ptr) : Res Int := string_to_int .i64 src

/-- `STRING_TO_DINT` (src/extra_functions.rs:126-128). -/
def STRING_TO_DINT (src : Ptr) : Res Int := string_to_int .i32 src

/-- A `VAR_TEMP STR : STRING` (80 characters and a terminator), zero at the start (as in iec61131-st/extra_functions.st). -/
def tempString : List Nat := List.replicate 81 0

/-- `WSTRING_TO_LINT` (iec61131-st/extra_functions.st:494-503). -/
def WSTRING_TO_LINT (src : Ptr) : Res Int := do
  let str ← WSTRING_TO_STRING_EXT src (some tempString)
  STRING_TO_LINT (some str)

/-- `WSTRING_TO_DINT` (iec61131-st/extra_functions.st:674-683): the LINT result is assigned
to a DINT, which keeps its low 32 bits. -/
def WSTRING_TO_DINT (src : Ptr) : Res Int := do
  let str ← WSTRING_TO_STRING_EXT src (some tempString)
  let x ← STRING_TO_LINT (some str)
  pure (IntTy.i32.wrap x)

/-! ### Durations -/

/-- `parse_timestamp` (src/extra_functions.rs:187-209): value and unit of the seven parts. -/
def parse_timestamp (timestamp_nanos : Int) : List (Nat × List Nat) :=
  let datetime := timestamp_nanos_utc timestamp_nanos
  let nanos := datetime.timestamp_subsec_nanos % 1000
  let micros := datetime.timestamp_subsec_micros % 1000
  let millis := datetime.timestamp_subsec_millis
  let seconds := datetime.time.second
  let minutes := datetime.time.minute
  let hours := datetime.time.hour
  let days := (IntTy.u32.wrap (timestamp_nanos.tdiv nanosPerDay)).toNat
  [(days, [100]), (hours, [104]), (minutes, [109]), (seconds, [115]), (millis, [109, 115]),
    (micros, [117, 115]), (nanos, [110, 115])]

/-- The loop of `TIME_TO_STRING_EXT` (src/extra_functions.rs:177-182) over the parts that are
not 0: `written` is in front of the moving `dest`, `room` behind it. -/
def timeLoop : List (Nat × List Nat) → (written room : List Nat) → Res (List Nat)
  | [], written, room => .ok (written ++ room)
  | it :: rest, written, room => do
    let room ← writeBuf (some room) (fmtNat it.1 ++ it.2)
    let idx ← Res.unwrap ((room.take DEFAULT_STRING_LEN).findIdx? (· == 0))
    timeLoop rest (written ++ room.take idx) (room.drop idx)

/-- `TIME_TO_STRING_EXT` (src/extra_functions.rs:174-185) for a non-null destination. -/
def TIME_TO_STRING_EXT (input : Int) (dest : List Nat) : Res (List Nat) :=
  timeLoop ((parse_timestamp input).filter fun it => it.1 != 0) [] dest

/-- `TIME_TO_STRING_EXT` (src/extra_functions.rs:174-185) for a null destination: no slice is made of it unless there is a part
that is not 0. -/
def TIME_TO_STRING_EXT_null (input : Int) : Res (List Nat) :=
  if ((parse_timestamp input).filter fun it => it.1 != 0).isEmpty then .ok [] else .ub

/-! ### Dates and times of day -/

/-- `write_hundreds` (chrono): two digits (inside `to_string`, src/extra_functions.rs:217-218). -/
def write_hundreds (n : Nat) : List Nat := [48 + n / 10, 48 + n % 10]

/-- `Display` of `NaiveDate` (chrono): years outside 0..=9999 are written with `{:+05}` (src/extra_functions.rs:217, 232). -/
def fmtDate (d : NaiveDate) : List Nat :=
  (if 0 ≤ d.year ∧ d.year ≤ 9999 then
    write_hundreds (d.year.toNat / 100) ++ write_hundreds (d.year.toNat % 100)
  else (if d.year < 0 then 45 else 43) :: fmtZeros 4 d.year.natAbs) ++
  [45] ++ write_hundreds d.month ++ [45] ++ write_hundreds d.day

/-- `Display` of `NaiveTime` (chrono): a leap second is shown as second 60 (src/extra_functions.rs:218, 246). -/
def fmtTime (t : NaiveTime) : List Nat :=
  let sec := if t.frac ≥ 1000000000 then t.second + 1 else t.second
  let nano := if t.frac ≥ 1000000000 then t.frac - 1000000000 else t.frac
  write_hundreds t.hour ++ [58] ++ write_hundreds t.minute ++ [58] ++ write_hundreds sec ++
    (if nano = 0 then []
    else if nano % 1000000 = 0 then 46 :: fmtZeros 3 (nano / 1000000)
    else if nano % 1000 = 0 then 46 :: fmtZeros 6 (nano / 1000)
    else 46 :: fmtZeros 9 nano)

/-- `DT_TO_STRING_EXT` (src/extra_functions.rs:215-224). -/
def DT_TO_STRING_EXT (input : Int) (dest : Ptr) : Res (List Nat) :=
  let datetime := timestamp_nanos_utc input
  writeBuf dest (fmtDate datetime.date ++ [45] ++ fmtTime datetime.time)

/-- `DATE_TO_STRING_EXT` (src/extra_functions.rs:230-238). -/
def DATE_TO_STRING_EXT (input : Int) (dest : Ptr) : Res (List Nat) :=
  writeBuf dest (fmtDate (timestamp_nanos_utc input).date)

/-- `TOD_TO_STRING_EXT` (src/extra_functions.rs:244-252). -/
def TOD_TO_STRING_EXT (input : Int) (dest : Ptr) : Res (List Nat) :=
  writeBuf dest (fmtTime (timestamp_nanos_utc input).time)

/-! ### The clock -/

/-- `TIME` (src/extra_functions.rs:165-168); the argument is the time of day of
`Local::now()`. -/
def TIME (p : Profile) (now : NaiveTime) : Res Int := do
  let s ← IntTy.i64.arith p ((now.secs : Int) * 1000000000)
  IntTy.i64.arith p (s + now.frac)

end Verif
