import Verif.Proofs.Calendar
import Verif.Proofs.Ints
import Verif.Model.DateTime
/-
Timestamps as (day, time of day).
-/
namespace Verif
open Chrono Spec

/-- Nanoseconds of a day. -/
abbrev D : Int := 86400000000000

theorem i64_range (x : Int) : IntTy.i64.InRange x ↔ -9223372036854775808 ≤ x ∧ x ≤ 9223372036854775807 := by
  unfold IntTy.InRange IntTy.lo IntTy.hi IntTy.i64
  simp only [if_true]
  norm_num

theorem ts_date (n : Int) : (timestamp_nanos_utc n).date = civil (dayOf n) := by
  unfold timestamp_nanos_utc civil dayOf
  simp only [nanosPerSec, secsPerDay]
  rw [show n / 1000000000 / 86400 = n / 86400000000000 by omega]

theorem ts_secs (n : Int) : ((timestamp_nanos_utc n).time.secs : Int) = timeOfDay n / 1000000000 := by
  unfold timestamp_nanos_utc timeOfDay
  simp only [nanosPerSec, secsPerDay]
  omega

theorem ts_frac (n : Int) : ((timestamp_nanos_utc n).time.frac : Int) = timeOfDay n % 1000000000 := by
  unfold timestamp_nanos_utc timeOfDay
  simp only [nanosPerSec]
  omega

theorem tod_bounds (n : Int) : 0 ≤ timeOfDay n ∧ timeOfDay n < D := by
  unfold timeOfDay D; omega

theorem day_tod (n : Int) : dayOf n * D + timeOfDay n = n := by
  unfold dayOf timeOfDay D; omega

theorem dayOf_mk (k r : Int) (h : 0 ≤ r ∧ r < D) : dayOf (k * D + r) = k := by
  unfold dayOf D at *; omega

theorem timeOfDay_mk (k r : Int) (h : 0 ≤ r ∧ r < D) : timeOfDay (k * D + r) = r := by
  unfold timeOfDay D at *; omega

theorem civil_num_days (k : Int) : (civil k).num_days_from_ce = k + 719163 := num_days_from_days _

/-- Exact value of a date-time on day `k`. -/
theorem exact_civil (k : Int) (t : NaiveTime) :
    NaiveDateTime.exactNanos ⟨civil k, t⟩ = k * D + (t.secs * 1000000000 + t.frac) := by
  unfold NaiveDateTime.exactNanos
  rw [civil_num_days]
  simp only [secsPerDay, nanosPerSec, D]
  omega

theorem timestamp_nanos_civil (k : Int) (t : NaiveTime) :
    NaiveDateTime.timestamp_nanos ⟨civil k, t⟩ =
      if IntTy.i64.InRange (k * D + (t.secs * 1000000000 + t.frac))
      then .ok (k * D + (t.secs * 1000000000 + t.frac)) else .panic := by
  unfold NaiveDateTime.timestamp_nanos IntTy.checked
  rw [exact_civil]
  split <;> rfl

theorem epoch_date : NaiveDate.from_ymd_opt 1970 1 1 = some (civil 0) := by decide +kernel

/-- The time of day of a timestamp can always be rebuilt from its fields. -/
theorem time_rebuild (n : Int) :
    NaiveTime.from_hms_nano_opt (timestamp_nanos_utc n).time.hour (timestamp_nanos_utc n).time.minute
      (timestamp_nanos_utc n).time.second (timestamp_nanos_utc n).timestamp_subsec_nanos =
      some (timestamp_nanos_utc n).time := by
  have h1 := ts_secs n
  have h2 := ts_frac n
  have h3 := tod_bounds n
  unfold NaiveTime.from_hms_nano_opt NaiveTime.hour NaiveTime.minute NaiveTime.second
    NaiveDateTime.timestamp_subsec_nanos
  generalize (timestamp_nanos_utc n).time = t at *
  obtain ⟨s, f⟩ := t
  simp only at h1 h2 ⊢
  unfold D at h3
  rw [if_neg (by omega)]
  congr 2
  omega

theorem dayOf_range {n : Int} (h : IntTy.i64.InRange n) : -106752 ≤ dayOf n ∧ dayOf n ≤ 106751 := by
  rw [i64_range] at h; unfold dayOf; omega

theorem year_range {n : Int} (h : IntTy.i64.InRange n) :
    1677 ≤ (civilDate (dayOf n)).year ∧ (civilDate (dayOf n)).year ≤ 2262 := by
  have hd := dayOf_range h
  apply year_bounds
  · have : yearStart 1677 = 612513 := by decide +kernel
    omega
  · have : yearStart (2262 + 1) = 826544 := by decide +kernel
    omega

theorem year_range_day {k : Int} (h : IntTy.i64.InRange (k * D)) :
    1677 ≤ (civilDate k).year ∧ (civilDate k).year ≤ 2262 := by
  have := year_range h
  rwa [show dayOf (k * D) = k by unfold dayOf D; omega] at this

end Verif
