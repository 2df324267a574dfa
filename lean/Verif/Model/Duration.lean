import Verif.Model.Chrono
/-
src/date_time_numeric_functions.rs, the part with integer operands, and the chrono functions
it calls (`chrono::Duration`, which is `TimeDelta`, and `DateTime` arithmetic), transcribed from chrono 0.4.
TIME values are `i64` nanosecond counts.
-/
namespace Verif
open Chrono

namespace Chrono

/-- `chrono::Duration` (`TimeDelta`): whole seconds (floor) and nanoseconds in `[0, 1e9)`
(src/date_time_numeric_functions.rs:10). -/
structure Duration where
  secs : Int
  nanos : Int
  deriving DecidableEq, Repr

/-- `Duration::nanoseconds`: `div_mod_floor_64` (src/date_time_numeric_functions.rs:10-11, 40, 52-53, 110). -/
def Duration.nanoseconds (n : Int) : Duration := ⟨n / nanosPerSec, n % nanosPerSec⟩

/-- The bound of `Duration`: `i64::MAX` milliseconds (inside `checked_add`, src/date_time_numeric_functions.rs:11). -/
def maxMillis : Int := 9223372036854775807

/-- The range check in `checked_add`/`checked_sub`: `MIN ≤ d ≤ MAX`, with bounds ± `i64::MAX`
milliseconds (older 0.4 versions: `i64::MIN` milliseconds below; the difference is far outside what these functions reach)
(src/date_time_numeric_functions.rs:11, 53). -/
def Duration.inBounds (d : Duration) : Prop :=
  -(maxMillis * 1000000) ≤ d.secs * nanosPerSec + d.nanos ∧
    d.secs * nanosPerSec + d.nanos ≤ maxMillis * 1000000

instance (d : Duration) : Decidable d.inBounds := by unfold Duration.inBounds; infer_instance

/-- `Duration::checked_add` (src/date_time_numeric_functions.rs:11). -/
def Duration.checked_add (a b : Duration) : Option Duration := do
  let secs ← IntTy.i64.checked (a.secs + b.secs)
  let nanos := a.nanos + b.nanos
  let r ← if nanos ≥ nanosPerSec then (do
      let s ← IntTy.i64.checked (secs + 1)
      pure (⟨s, nanos - nanosPerSec⟩ : Duration))
    else some ⟨secs, nanos⟩
  if r.inBounds then some r else none

/-- `Duration::checked_sub` (src/date_time_numeric_functions.rs:53). -/
def Duration.checked_sub (a b : Duration) : Option Duration := do
  let secs ← IntTy.i64.checked (a.secs - b.secs)
  let nanos := a.nanos - b.nanos
  let r ← if nanos < 0 then (do
      let s ← IntTy.i64.checked (secs - 1)
      pure (⟨s, nanos + nanosPerSec⟩ : Duration))
    else some ⟨secs, nanos⟩
  if r.inBounds then some r else none

/-- `Duration::num_seconds`: toward zero (inside `num_nanoseconds`, src/date_time_numeric_functions.rs:13). -/
def Duration.num_seconds (d : Duration) : Int :=
  if d.secs < 0 ∧ d.nanos > 0 then d.secs + 1 else d.secs

/-- `Duration::nanos_mod_sec` / `subsec_nanos`: signed as the duration (inside `num_nanoseconds`,
src/date_time_numeric_functions.rs:13). -/
def Duration.nanos_mod_sec (d : Duration) : Int :=
  if d.secs < 0 ∧ d.nanos > 0 then d.nanos - nanosPerSec else d.nanos

/-- `Duration::num_nanoseconds` (src/date_time_numeric_functions.rs:13, 55, 93). -/
def Duration.num_nanoseconds (d : Duration) : Option Int := do
  let secs_part ← IntTy.i64.checked (d.num_seconds * nanosPerSec)
  IntTy.i64.checked (secs_part + d.nanos_mod_sec)

/-- `NaiveDate::checked_add_signed` on a whole number of seconds that is a multiple of a day; the year bound
(±262143) is out of reach here and omitted (inside `checked_add_signed`, src/date_time_numeric_functions.rs:40). -/
def NaiveDate.addSeconds (d : NaiveDate) (secs : Int) : NaiveDate :=
  NaiveDate.from_num_days_from_ce (d.num_days_from_ce + secs / secsPerDay)

/-- `NaiveTime::overflowing_add_signed` for times without a leap second: new time and the seconds carried
over to the date (inside `checked_add_signed`, src/date_time_numeric_functions.rs:40). -/
def NaiveTime.overflowing_add (t : NaiveTime) (rhs_secs rhs_frac : Int) : NaiveTime × Int :=
  let secs := (t.secs : Int) + rhs_secs
  let frac := (t.frac : Int) + rhs_frac
  let (secs, frac) :=
    if frac < 0 then (secs - 1, frac + nanosPerSec)
    else if frac ≥ nanosPerSec then (secs + 1, frac - nanosPerSec)
    else (secs, frac)
  let secs_in_day := secs % secsPerDay
  (⟨secs_in_day.toNat, frac.toNat⟩, secs - secs_in_day)

/-- `DateTime::checked_add_signed` (src/date_time_numeric_functions.rs:40). -/
def NaiveDateTime.checked_add_signed (dt : NaiveDateTime) (rhs : Duration) : NaiveDateTime :=
  let r := dt.time.overflowing_add rhs.num_seconds rhs.nanos_mod_sec
  ⟨dt.date.addSeconds r.2, r.1⟩

/-- `DateTime::checked_sub_signed` (`overflowing_sub_signed` adds the negated duration)
(src/date_time_numeric_functions.rs:110). -/
def NaiveDateTime.checked_sub_signed (dt : NaiveDateTime) (rhs : Duration) : NaiveDateTime :=
  let r := dt.time.overflowing_add (-rhs.num_seconds) (-rhs.nanos_mod_sec)
  ⟨dt.date.addSeconds r.2, r.1⟩

/-- `DateTime::signed_duration_since` for date-times without leap seconds (src/date_time_numeric_functions.rs:92). -/
def NaiveDateTime.signed_duration_since (a b : NaiveDateTime) : Duration :=
  let days := a.date.num_days_from_ce - b.date.num_days_from_ce
  let secs := (a.time.secs : Int) - b.time.secs
  let frac := (a.time.frac : Int) - b.time.frac
  let secs := days * secsPerDay + secs
  if frac < 0 then ⟨secs - 1, frac + nanosPerSec⟩ else ⟨secs, frac⟩

end Chrono

/-- `ADD_TIME` (src/date_time_numeric_functions.rs:9-15). -/
def ADD_TIME (in1 in2 : Int) : Res Int := do
  let d ← Res.unwrap ((Duration.nanoseconds in1).checked_add (Duration.nanoseconds in2))
  Res.unwrap d.num_nanoseconds

/-- `SUB_TIME` (src/date_time_numeric_functions.rs:51-57). -/
def SUB_TIME (in1 in2 : Int) : Res Int := do
  let d ← Res.unwrap ((Duration.nanoseconds in1).checked_sub (Duration.nanoseconds in2))
  Res.unwrap d.num_nanoseconds

/-- `add_datetime_time` (src/date_time_numeric_functions.rs:37-43). -/
def add_datetime_time (in1 in2 : Int) : Res Int :=
  ((timestamp_nanos_utc in1).checked_add_signed (Duration.nanoseconds in2)).timestamp_nanos

/-- `ADD_TOD_TIME` (src/date_time_numeric_functions.rs:23-25). -/
def ADD_TOD_TIME (in1 in2 : Int) : Res Int := add_datetime_time in1 in2
/-- `ADD_DT_TIME` (src/date_time_numeric_functions.rs:33-35). -/
def ADD_DT_TIME (in1 in2 : Int) : Res Int := add_datetime_time in1 in2

/-- `sub_datetimes` (src/date_time_numeric_functions.rs:89-95). -/
def sub_datetimes (in1 in2 : Int) : Res Int :=
  Res.unwrap ((timestamp_nanos_utc in1).signed_duration_since (timestamp_nanos_utc in2)).num_nanoseconds

/-- `SUB_DATE_DATE` (src/date_time_numeric_functions.rs:65-67). -/
def SUB_DATE_DATE (in1 in2 : Int) : Res Int := sub_datetimes in1 in2
/-- `SUB_TOD_TOD` (src/date_time_numeric_functions.rs:85-87). -/
def SUB_TOD_TOD (in1 in2 : Int) : Res Int := sub_datetimes in1 in2
/-- `SUB_DT_DT` (src/date_time_numeric_functions.rs:121-123). -/
def SUB_DT_DT (in1 in2 : Int) : Res Int := sub_datetimes in1 in2

/-- `sub_datetime_duration` (src/date_time_numeric_functions.rs:107-113). -/
def sub_datetime_duration (in1 in2 : Int) : Res Int :=
  ((timestamp_nanos_utc in1).checked_sub_signed (Duration.nanoseconds in2)).timestamp_nanos

/-- `SUB_TOD_TIME` (src/date_time_numeric_functions.rs:75-77). -/
def SUB_TOD_TIME (in1 in2 : Int) : Res Int := sub_datetime_duration in1 in2
/-- `SUB_DT_TIME` (src/date_time_numeric_functions.rs:103-105). -/
def SUB_DT_TIME (in1 in2 : Int) : Res Int := sub_datetime_duration in1 in2

/-- `checked_mul_time_with_signed_int` (src/date_time_numeric_functions.rs:249-251). -/
def checked_mul_time_with_signed_int (in1 in2 : Int) : Res Int :=
  Res.unwrap (IntTy.i64.checked (in1 * in2))

/-- `checked_mul_time_with_unsigned_int` (src/date_time_numeric_functions.rs:377-381). -/
def checked_mul_time_with_unsigned_int (in1 in2 : Int) : Res Int := do
  let y ← Res.unwrap (IntTy.i64.checked in2)
  Res.unwrap (IntTy.i64.checked (in1 * y))

/-- `i64::checked_div`: `None` for a zero divisor and for `MIN / -1`; truncates toward zero
(src/date_time_numeric_functions.rs:508, 638). -/
def i64_checked_div (a b : Int) : Option Int :=
  if b = 0 then none else IntTy.i64.checked (a.tdiv b)

/-- `checked_div_time_by_signed_int` (src/date_time_numeric_functions.rs:507-509). -/
def checked_div_time_by_signed_int (in1 in2 : Int) : Res Int :=
  Res.unwrap (i64_checked_div in1 in2)

/-- `checked_div_time_by_unsigned_int` (src/date_time_numeric_functions.rs:635-639). -/
def checked_div_time_by_unsigned_int (in1 in2 : Int) : Res Int := do
  let y ← Res.unwrap (IntTy.i64.checked in2)
  Res.unwrap (i64_checked_div in1 y)

/-- `MUL__TIME__T`, `MUL_TIME__T`, `MUL_LTIME__T` for `T` = SINT, INT, DINT, LINT (lines 131-243) and
USINT, UINT, UDINT, ULINT (lines 259-371): the second argument, of type `t`, is widened with `into`
(src/date_time_numeric_functions.rs). -/
def MUL_TIME_INT (t : IntTy) (in1 in2 : Int) : Res Int :=
  if t.signed then checked_mul_time_with_signed_int in1 in2
  else checked_mul_time_with_unsigned_int in1 in2

/-- `DIV__TIME__T`, `DIV_TIME__T`, `DIV_LTIME__T` for `T` = SINT, INT, DINT, LINT (lines 389-501) and
USINT, UINT, UDINT, ULINT (lines 517-629) (src/date_time_numeric_functions.rs). -/
def DIV_TIME_INT (t : IntTy) (in1 in2 : Int) : Res Int :=
  if t.signed then checked_div_time_by_signed_int in1 in2
  else checked_div_time_by_unsigned_int in1 in2

end Verif
