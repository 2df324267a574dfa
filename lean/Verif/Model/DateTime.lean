import Verif.Model.Chrono
/-
src/date_time_conversion.rs and src/date_time_extra_functions.rs.  Timestamps are 64-bit signed
nanosecond counts (`i64`).  A `&mut` output parameter becomes a field of the result.
-/
namespace Verif
open Chrono

/-- `DATE_AND_TIME_TO_DATE` (src/date_time_conversion.rs:8-16). -/
def DATE_AND_TIME_TO_DATE (input : Int) : Res Int := do
  let date_time := timestamp_nanos_utc input
  let t ← Res.unwrap (NaiveTime.from_hms_nano_opt 0 0 0 0)
  NaiveDateTime.timestamp_nanos ⟨date_time.date, t⟩

/-- `DATE_AND_TIME_TO_TIME_OF_DAY` (src/date_time_conversion.rs:23-35). -/
def DATE_AND_TIME_TO_TIME_OF_DAY (input : Int) : Res Int := do
  let date_time := timestamp_nanos_utc input
  let dt ← Res.unwrap (do
    let date ← NaiveDate.from_ymd_opt 1970 1 1
    let t ← NaiveTime.from_hms_nano_opt date_time.time.hour date_time.time.minute
      date_time.time.second date_time.timestamp_subsec_nanos
    pure (⟨date, t⟩ : NaiveDateTime))
  dt.timestamp_nanos

/-- `LDT_TO_DATE` (iec61131-st/date_time_conversion.st:66-71); all these types are 64-bit counts, so that passing and
assigning them changes nothing. -/
def LDT_TO_DATE (input : Int) : Res Int := DATE_AND_TIME_TO_DATE input
/-- `DT_TO_DATE` (iec61131-st/date_time_conversion.st:114-119). -/
def DT_TO_DATE (input : Int) : Res Int := DATE_AND_TIME_TO_DATE input
/-- `LDT_TO_LTOD` (iec61131-st/date_time_conversion.st:78-83). -/
def LDT_TO_LTOD (input : Int) : Res Int := DATE_AND_TIME_TO_TIME_OF_DAY input
/-- `LDT_TO_TOD` (iec61131-st/date_time_conversion.st:90-95). -/
def LDT_TO_TOD (input : Int) : Res Int := DATE_AND_TIME_TO_TIME_OF_DAY input
/-- `DT_TO_LTOD` (iec61131-st/date_time_conversion.st:126-131). -/
def DT_TO_LTOD (input : Int) : Res Int := DATE_AND_TIME_TO_TIME_OF_DAY input
/-- `DT_TO_TOD` (iec61131-st/date_time_conversion.st:138-143). -/
def DT_TO_TOD (input : Int) : Res Int := DATE_AND_TIME_TO_TIME_OF_DAY input

/-- `CONCAT_DATE_TOD` (src/date_time_extra_functions.rs:8-19). -/
def CONCAT_DATE_TOD (in1 in2 : Int) : Res Int := do
  let date := (timestamp_nanos_utc in1).date
  let tod := timestamp_nanos_utc in2
  let t ← Res.unwrap (NaiveTime.from_hms_nano_opt tod.time.hour tod.time.minute tod.time.second
    tod.timestamp_subsec_nanos)
  NaiveDateTime.timestamp_nanos ⟨date, t⟩

/-- `concat_date` (src/date_time_extra_functions.rs:80-85); `in1 : i32`, `in2 in3 : u32`. -/
def concat_date (in1 : Int) (in2 in3 : Nat) : Res Int := do
  let dt ← Res.unwrap (do
    let date ← NaiveDate.from_ymd_opt in1 in2 in3
    let t ← NaiveTime.from_hms_nano_opt 0 0 0 0
    pure (⟨date, t⟩ : NaiveDateTime))
  dt.timestamp_nanos

/-- `CONCAT_DATE__INT/UINT/DINT/UDINT/LINT/ULINT` (src/date_time_extra_functions.rs:26-73): the year is
converted to `i32` and month and day to `u32` with `as` (or `into`, where that is the same). `t` is the
argument type. -/
def CONCAT_DATE (_t : IntTy) (in1 in2 in3 : Int) : Res Int :=
  concat_date (IntTy.i32.wrap in1) (IntTy.u32.wrap in2).toNat (IntTy.u32.wrap in3).toNat

/-- `concat_tod` (src/date_time_extra_functions.rs:164-169); all arguments `u32`. -/
def concat_tod (in1 in2 in3 in4 : Nat) : Res Int := do
  let dt ← Res.unwrap (do
    let date ← NaiveDate.from_ymd_opt 1970 1 1
    let t ← NaiveTime.from_hms_milli_opt in1 in2 in3 in4
    pure (⟨date, t⟩ : NaiveDateTime))
  dt.timestamp_nanos

/-- `CONCAT_TOD__SINT/USINT/INT/UINT/DINT/UDINT/LINT/ULINT`
(src/date_time_extra_functions.rs:92-157): arguments of type `t`, cast to `u32`. -/
def CONCAT_TOD (_t : IntTy) (in1 in2 in3 in4 : Int) : Res Int :=
  concat_tod (IntTy.u32.wrap in1).toNat (IntTy.u32.wrap in2).toNat (IntTy.u32.wrap in3).toNat
    (IntTy.u32.wrap in4).toNat

/-- `CONCAT_DT__*` and `CONCAT_LDT__*` (iec61131-st/date_time_extra_functions.st:176-257, 277-358):
`CONCAT_DATE_TOD(CONCAT_DATE(year, month, day), CONCAT_TOD(hour, minute, second, millisecond))`. -/
def CONCAT_DT (t : IntTy) (year month day hour minute second milli : Int) : Res Int := do
  let d ← CONCAT_DATE t year month day
  let tod ← CONCAT_TOD t hour minute second milli
  CONCAT_DATE_TOD d tod

/-- Outputs of SPLIT_DATE: return value and out1..out3 (src/date_time_extra_functions.rs:176-285). -/
structure SplitDate where
  ret : Int
  year : Int
  month : Int
  day : Int
  deriving DecidableEq, Repr

/-- `SPLIT_DATE__INT/UINT/DINT/UDINT/LINT/ULINT` (src/date_time_extra_functions.rs:176-285): the year by
`try_into().unwrap()` (plain assignment for DINT, which is the same), month and day by `as`. -/
def SPLIT_DATE (t : IntTy) (in1 : Int) : Res SplitDate := do
  let date := (timestamp_nanos_utc in1).date
  let y ← Res.unwrap (t.checked date.year)
  pure ⟨0, y, t.wrap date.month, t.wrap date.day⟩

/-- Outputs of SPLIT_TOD (src/date_time_extra_functions.rs:292-411). -/
structure SplitTod where
  ret : Int
  hour : Int
  minute : Int
  second : Int
  milli : Int
  deriving DecidableEq, Repr

/-- `SPLIT_TOD__INT/UINT/DINT/UDINT/LINT/ULINT` (src/date_time_extra_functions.rs:292-411). -/
def SPLIT_TOD (t : IntTy) (in1 : Int) : Res SplitTod := do
  let tod := timestamp_nanos_utc in1
  pure ⟨0, t.wrap tod.time.hour, t.wrap tod.time.minute, t.wrap tod.time.second,
    t.wrap tod.timestamp_subsec_millis⟩

/-- Outputs of SPLIT_DT (src/date_time_extra_functions.rs:418-578). -/
structure SplitDt where
  ret : Int
  year : Int
  month : Int
  day : Int
  hour : Int
  minute : Int
  second : Int
  milli : Int
  deriving DecidableEq, Repr

/-- `SPLIT_DT__INT/UINT/DINT/UDINT/LINT/ULINT` (src/date_time_extra_functions.rs:418-578). -/
def SPLIT_DT (t : IntTy) (in1 : Int) : Res SplitDt := do
  let dt := timestamp_nanos_utc in1
  let y ← Res.unwrap (t.checked dt.date.year)
  pure ⟨0, y, t.wrap dt.date.month, t.wrap dt.date.day, t.wrap dt.time.hour, t.wrap dt.time.minute,
    t.wrap dt.time.second, t.wrap dt.timestamp_subsec_millis⟩

/-- `DAY_OF_WEEK` (src/date_time_extra_functions.rs:585-588). -/
def DAY_OF_WEEK (in1 : Int) : Int :=
  IntTy.i8.wrap (timestamp_nanos_utc in1).date.num_days_from_sunday

end Verif
