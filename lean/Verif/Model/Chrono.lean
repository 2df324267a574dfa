import Verif.Model.Basic
/-
The parts of the `chrono` 0.4 crate that the library calls.  The crate is a dependency and
not part of /repo; this file fixes the contracts the model assumes for it (chrono >= 0.4.31), following the
algorithms of the crate where they are not obvious.  Dates are proleptic Gregorian.
-/
namespace Verif.Chrono

/-- Units of `timestamp_nanos` (src/date_time_extra_functions.rs:9): nanoseconds of a second, seconds and nanoseconds of a day. -/
def nanosPerSec : Int := 1000000000
def secsPerDay : Int := 86400
def nanosPerDay : Int := 86400000000000

/-! ### NaiveDate -/

/-- `NaiveDate`: year and ordinal (1 = January 1st) (src/date_time_extra_functions.rs:9, 81). -/
structure NaiveDate where
  year : Int
  ordinal : Nat
  deriving DecidableEq, Repr

/-- `NaiveDate::leap_year` (inside `from_ymd_opt`, src/date_time_extra_functions.rs:81). -/
def isLeap (y : Int) : Bool := y % 4 = 0 && (y % 100 ≠ 0 || y % 400 = 0)

/-- Month lengths (inside `month()`, `day()`, src/date_time_extra_functions.rs:180-181). -/
def monthLengths (leap : Bool) : List Nat :=
  [31, if leap then 29 else 28, 31, 30, 31, 30, 31, 31, 30, 31, 30, 31]

/-- Walks the month lengths: month and day of a zero-based ordinal (chrono: the table
`OL_TO_MDL`) (inside `month()`, `day()`, src/date_time_extra_functions.rs:180-181). -/
def ordToMd : List Nat → Nat → Nat → Nat × Nat
  | [], m, o => (m, o + 1)
  | l :: ls, m, o => if o < l then (m, o + 1) else ordToMd ls (m + 1) (o - l)

/-- `Datelike::month` (src/date_time_extra_functions.rs:180). -/
def NaiveDate.month (d : NaiveDate) : Nat := (ordToMd (monthLengths (isLeap d.year)) 1 (d.ordinal - 1)).1
/-- `Datelike::day` (src/date_time_extra_functions.rs:181). -/
def NaiveDate.day (d : NaiveDate) : Nat := (ordToMd (monthLengths (isLeap d.year)) 1 (d.ordinal - 1)).2

/-- Days of the months before month `m` (chrono: the table `MDL_TO_OL`) (inside `from_ymd_opt`,
src/date_time_extra_functions.rs:81). -/
def daysBefore (leap : Bool) (m : Nat) : Nat := ((monthLengths leap).take (m - 1)).sum

/-- `NaiveDate::from_ymd_opt`. The year bounds are those of chrono's packed representation; dates
outside the range of 64-bit nanosecond timestamps are rejected later anyway, so their exact value is not
observable through the library. (src/date_time_extra_functions.rs:81, 165, src/date_time_conversion.rs:30.) -/
def NaiveDate.from_ymd_opt (y : Int) (m d : Nat) : Option NaiveDate :=
  if -262143 ≤ y ∧ y ≤ 262142 then
    match (monthLengths (isLeap y))[m - 1]? with
    | some len =>
      if 1 ≤ m ∧ 1 ≤ d ∧ d ≤ len then some ⟨y, daysBefore (isLeap y) m + d⟩ else none
    | none => none
  else none

/-- chrono's `YEAR_DELTAS[y]`: number of leap years among the years `0 .. y-1` of a 400-year
cycle. (Inside `timestamp_nanos`, src/date_time_extra_functions.rs:9.) -/
def yearDelta (y : Nat) : Nat := (y + 3) / 4 - (y + 99) / 100 + (y + 399) / 400

/-- chrono's `cycle_to_yo`: year in the 400-year cycle and ordinal of a day of the cycle (inside `timestamp_nanos`,
src/date_time_extra_functions.rs:9). -/
def cycle_to_yo (cycle : Nat) : Nat × Nat :=
  let y := cycle / 365
  let o := cycle % 365
  if o < yearDelta y then (y - 1, o + (365 - yearDelta (y - 1)) + 1)
  else (y, o - yearDelta y + 1)

/-- `NaiveDate::from_num_days_from_ce_opt` (day 1 is 0001-01-01), without its range check (never
exceeded by 64-bit nanosecond timestamps) (inside `timestamp_nanos`, src/date_time_extra_functions.rs:9). -/
def NaiveDate.from_num_days_from_ce (days : Int) : NaiveDate :=
  let d := days + 365
  let yo := cycle_to_yo (d % 146097).toNat
  ⟨d / 146097 * 400 + yo.1, yo.2⟩

/-- `Datelike::num_days_from_ce` (inside `timestamp_nanos`, src/date_time_extra_functions.rs:84). -/
def NaiveDate.num_days_from_ce (d : NaiveDate) : Int :=
  let y := d.year - 1
  let excess := if y < 0 then 1 + (-y) / 400 else 0
  let y' := y + excess * 400
  let div100 := y' / 100
  (y' * 1461 / 4 - div100 + div100 / 4) - excess * 146097 + d.ordinal

/-- `Weekday::num_days_from_sunday` of `Datelike::weekday` (day 1 CE is a Monday; chrono computes the
weekday from the year's flags and the ordinal) (src/date_time_extra_functions.rs:587). -/
def NaiveDate.num_days_from_sunday (d : NaiveDate) : Nat := (d.num_days_from_ce % 7).toNat

/-! ### NaiveTime, NaiveDateTime -/

/-- `NaiveTime`: seconds from midnight and nanoseconds (1e9 and more encode a leap second) (src/extra_functions.rs:166, 218). -/
structure NaiveTime where
  secs : Nat
  frac : Nat
  deriving DecidableEq, Repr

/-- `Timelike::hour` (src/date_time_extra_functions.rs:11). -/
def NaiveTime.hour (t : NaiveTime) : Nat := t.secs / 3600
/-- `Timelike::minute` (src/date_time_extra_functions.rs:12). -/
def NaiveTime.minute (t : NaiveTime) : Nat := t.secs / 60 % 60
/-- `Timelike::second` (src/date_time_extra_functions.rs:13). -/
def NaiveTime.second (t : NaiveTime) : Nat := t.secs % 60

/-- `NaiveTime::from_hms_nano_opt` (inside `and_hms_nano_opt`, src/date_time_extra_functions.rs:16,
src/date_time_conversion.rs:31). -/
def NaiveTime.from_hms_nano_opt (h m s nano : Nat) : Option NaiveTime :=
  if h ≥ 24 ∨ m ≥ 60 ∨ s ≥ 60 ∨ (nano ≥ 1000000000 ∧ s ≠ 59) ∨ nano ≥ 2000000000 then none
  else some ⟨h * 3600 + m * 60 + s, nano⟩

/-- `NaiveTime::from_hms_milli_opt`: `milli.checked_mul(1_000_000)` in `u32` (inside `and_hms_milli_opt`,
src/date_time_extra_functions.rs:166). -/
def NaiveTime.from_hms_milli_opt (h m s milli : Nat) : Option NaiveTime :=
  if milli * 1000000 < 2 ^ 32 then from_hms_nano_opt h m s (milli * 1000000) else none

/-- `NaiveDateTime`; `DateTime<Utc>` is represented by its UTC value (src/date_time_conversion.rs:9-15). -/
structure NaiveDateTime where
  date : NaiveDate
  time : NaiveTime
  deriving DecidableEq, Repr

/-- `Utc.timestamp_nanos(n)`: total on 64-bit values (src/date_time_conversion.rs:9, 24,
src/date_time_extra_functions.rs:9-10). -/
def timestamp_nanos_utc (n : Int) : NaiveDateTime :=
  let secs := n / nanosPerSec
  let nanos := n % nanosPerSec
  let days := secs / secsPerDay
  ⟨NaiveDate.from_num_days_from_ce (days + 719163), ⟨(secs % secsPerDay).toNat, nanos.toNat⟩⟩

/-- Exact value of a date-time in nanoseconds since the epoch (inside `timestamp_nanos()`, src/date_time_conversion.rs:15). -/
def NaiveDateTime.exactNanos (dt : NaiveDateTime) : Int :=
  ((dt.date.num_days_from_ce - 719163) * secsPerDay + dt.time.secs) * nanosPerSec + dt.time.frac

/-- `timestamp_nanos()` of a `NaiveDateTime`: panics if the value does not fit in `i64` (src/date_time_conversion.rs:15, 34,
src/date_time_extra_functions.rs:18, 84, 168). -/
def NaiveDateTime.timestamp_nanos (dt : NaiveDateTime) : Res Int :=
  Res.unwrap (IntTy.i64.checked dt.exactNanos)

/-- `timestamp_subsec_nanos` (src/date_time_conversion.rs:28). -/
def NaiveDateTime.timestamp_subsec_nanos (dt : NaiveDateTime) : Nat := dt.time.frac
/-- `timestamp_subsec_micros` (src/extra_functions.rs:191). -/
def NaiveDateTime.timestamp_subsec_micros (dt : NaiveDateTime) : Nat := dt.time.frac / 1000
/-- `timestamp_subsec_millis` (src/date_time_extra_functions.rs:303). -/
def NaiveDateTime.timestamp_subsec_millis (dt : NaiveDateTime) : Nat := dt.time.frac / 1000000

end Verif.Chrono
