import Verif.Props.DateTime
import Verif.Props.Duration
/-
C119: arithmetic on DATE and DATE_AND_TIME agrees with the calendar. Adding whole days moves the date shown by
SPLIT_DT by that many days, keeps the time of day and moves the weekday; the difference of two DATEs counts the days
between them; DATEs are ordered as their year, month and day; months and years have their calendar length.
-/
namespace Verif
open Chrono Spec

namespace Spec

/-- 24 hours in nanoseconds. -/
def aDay : Int := 24 * 60 * 60 * 1000000000

/-- The date `k` days after `d`. -/
def Date.later (d : Date) : Nat → Date
  | 0 => d
  | k + 1 => (d.later k).next

/-- The order of dates: by year, then month, then day. -/
def Date.Before (d d' : Date) : Prop :=
  d.year < d'.year ∨ d.year = d'.year ∧ (d.month < d'.month ∨ d.month = d'.month ∧ d.day < d'.day)
instance (d d' : Date) : Decidable (d.Before d') := by unfold Date.Before; infer_instance

/-- A year CONCAT_DATE takes as it is (its argument is converted to a 32-bit number). -/
def PlainYear (y : Int) : Prop := IntTy.i32.InRange y
instance (y : Int) : Decidable (PlainYear y) := by unfold PlainYear; infer_instance

end Spec

/-- CONCAT_DATE of a date. -/
def concatDate (t : IntTy) (d : Date) : Res Int := CONCAT_DATE t d.year d.month d.day

/-- The outputs of SPLIT_DT show the date `d`. -/
def ShowsDate (r : SplitDt) (d : Date) : Prop := r.year = d.year ∧ r.month = d.month ∧ r.day = d.day

/-- Two results of SPLIT_DT show the same time of day. -/
def SameTime (r r' : SplitDt) : Prop :=
  r.hour = r'.hour ∧ r.minute = r'.minute ∧ r.second = r'.second ∧ r.milli = r'.milli

theorem later_civil (a : Int) (k : Nat) : (civilDate a).later k = civilDate (a + k) := by
  induction k with
  | zero => simp [Date.later]
  | succ k ih =>
    rw [Date.later, ih, ← civilDate_succ]
    congr 1; omega

private theorem next_before (d : Date) : d.Before d.next := by
  unfold Date.next Date.Before
  split
  · dsimp only; omega
  · split <;> dsimp only <;> omega

private theorem before_trans {a b c : Date} (h : a.Before b) (h' : b.Before c) : a.Before c := by
  unfold Date.Before at *; omega

private theorem later_before (d : Date) (k : Nat) : d.Before (d.later (k + 1)) := by
  induction k with
  | zero => exact next_before d
  | succ k ih => exact before_trans ih (next_before _)

theorem civil_lt {a b : Int} : a < b ↔ (civilDate a).Before (civilDate b) := by
  have mono : ∀ {a b : Int}, a < b → (civilDate a).Before (civilDate b) := by
    intro a b h
    obtain ⟨n, rfl⟩ : ∃ n : Nat, b = a + ((n + 1 : Nat) : Int) := ⟨(b - a - 1).toNat, by omega⟩
    rw [← later_civil]; exact later_before _ _
  refine ⟨mono, fun h => ?_⟩
  rcases (show a < b ∨ a = b ∨ b < a by omega) with h' | h' | h'
  · exact h'
  · subst h'; unfold Date.Before at h; omega
  · have := mono h'; unfold Date.Before at h this; omega

theorem concatDate_eq (t : IntTy) (d : Date) (hv : d.Valid) (hy : PlainYear d.year) :
    concatDate t d = concat_date d.year d.month d.day := by
  obtain ⟨y, m, n⟩ := d
  obtain ⟨h1, h2, h3, h4⟩ := valid_bounds hv
  unfold concatDate CONCAT_DATE
  rw [IntTy.wrap_of_inRange _ (by decide) hy, IntTy.wrap_of_inRange, IntTy.wrap_of_inRange]
  · simp
  · decide
  · simp [IntTy.InRange, IntTy.u32, IntTy.lo, IntTy.hi]; omega
  · decide
  · simp [IntTy.InRange, IntTy.u32, IntTy.lo, IntTy.hi]; omega

/-- The day number of a date CONCAT_DATE accepts. -/
theorem concatDate_ok {t : IntTy} {d : Date} {a : Int} (hv : d.Valid) (hy : PlainYear d.year)
    (h : concatDate t d = .ok a) : ∃ k, civilDate k = d ∧ IntTy.i64.InRange (k * D) ∧ a = k * D := by
  rw [concatDate_eq t d hv hy] at h
  by_cases he : ∃ k, civilDate k = ⟨d.year, d.month, d.day⟩ ∧ IntTy.i64.InRange (k * D)
  · obtain ⟨k, hk, hr⟩ := he
    rw [(C33_concat_date d.year d.month d.day).1 k hk hr] at h
    exact ⟨k, hk, hr, (Res.ok.inj h).symm⟩
  · rw [(C33_concat_date d.year d.month d.day).2 he] at h
    cases h

private theorem weekday_later (n : Int) (k : Nat) : DAY_OF_WEEK (n + k * aDay) = (DAY_OF_WEEK n + k) % 7 := by
  induction k with
  | zero =>
    have := (C37_day_of_week n).1
    simp; omega
  | succ k ih =>
    have h := (C37_day_of_week (n + k * aDay)).2.2.2 (n + ((k + 1 : Nat) : Int) * aDay) (by
      unfold dayOf aDay
      rw [show ((k + 1 : Nat) : Int) = k + 1 by omega]
      omega)
    rw [h, ih]; omega

theorem exact_ok {x y : Int} (h : exactOrPanic x = .ok y) : IntTy.i64.InRange x ∧ y = x := by
  unfold exactOrPanic at h
  split at h
  · exact ⟨by assumption, (Res.ok.inj h).symm⟩
  · cases h

private theorem shifted (t : IntTy) (ht : IsDateTy t) (n : Int) (hn : IntTy.i64.InRange n) (k : Nat)
    (hn' : IntTy.i64.InRange (n + k * aDay)) :
    ∃ d r r', SPLIT_DT t n = .ok r ∧ SPLIT_DT t (n + k * aDay) = .ok r' ∧ ShowsDate r d ∧
      ShowsDate r' (d.later k) ∧ SameTime r r' := by
  have e1 : dayOf (n + k * aDay) = dayOf n + k := by unfold dayOf aDay; omega
  have e2 : timeOfDay (n + k * aDay) = timeOfDay n := by unfold timeOfDay aDay; omega
  refine ⟨civilDate (dayOf n), _, _, C30_split_dt t ht n hn, C30_split_dt t ht _ hn', ⟨rfl, rfl, rfl⟩, ?_, ?_⟩
  · rw [later_civil, e1]; exact ⟨rfl, rfl, rfl⟩
  · rw [e2]; exact ⟨rfl, rfl, rfl, rfl⟩

/-- **C119.** Adding `k` times 24 hours to a DATE_AND_TIME: SPLIT_DT then shows the date `k` days later and the same
time of day, and the day of the week has advanced by `k` modulo 7. -/
theorem C119_add_days (t : IntTy) (ht : IsDateTy t) (n n' : Int) (k : Nat) (hn : IntTy.i64.InRange n)
    (h : ADD_DT_TIME n (k * aDay) = .ok n') :
    (∃ d r r', SPLIT_DT t n = .ok r ∧ SPLIT_DT t n' = .ok r' ∧ ShowsDate r d ∧ ShowsDate r' (d.later k) ∧
      SameTime r r') ∧
    DAY_OF_WEEK n' = (DAY_OF_WEEK n + k) % 7 := by
  rw [(C39_datetime_arithmetic n (k * aDay)).1] at h
  obtain ⟨hr, rfl⟩ := exact_ok h
  exact ⟨shifted t ht n hn k hr, weekday_later n k⟩

/-- **C119.** Subtracting `k` times 24 hours moves the date back by `k` days and keeps the time of day. -/
theorem C119_sub_days (t : IntTy) (ht : IsDateTy t) (n n' : Int) (k : Nat) (hn : IntTy.i64.InRange n)
    (h : SUB_DT_TIME n (k * aDay) = .ok n') :
    (∃ d r r', SPLIT_DT t n' = .ok r' ∧ SPLIT_DT t n = .ok r ∧ ShowsDate r' d ∧ ShowsDate r (d.later k) ∧
      SameTime r' r) ∧
    DAY_OF_WEEK n = (DAY_OF_WEEK n' + k) % 7 := by
  rw [(C39_datetime_arithmetic n (k * aDay)).2.2.1] at h
  obtain ⟨hr, rfl⟩ := exact_ok h
  have e : n - k * aDay + k * aDay = n := by omega
  have hs := shifted t ht (n - k * aDay) hr k (by rw [e]; exact hn)
  have hw := weekday_later (n - k * aDay) k
  rw [e] at hs hw
  obtain ⟨d, r, r', a1, a2, a3, a4, a5⟩ := hs
  exact ⟨⟨d, r', r, a1, a2, a3, a4, a5⟩, hw⟩

/-- 28 February 2023, 12:34:56, three days later is 3 March. -/
example : ADD_DT_TIME 1677587696000000000 ((3 : Nat) * aDay) = .ok 1677846896000000000 ∧
    SPLIT_DT .u16 1677587696000000000 = .ok ⟨0, 2023, 2, 28, 12, 34, 56, 0⟩ ∧
    SPLIT_DT .u16 1677846896000000000 = .ok ⟨0, 2023, 3, 3, 12, 34, 56, 0⟩ ∧
    Date.later ⟨2023, 2, 28⟩ 3 = ⟨2023, 3, 3⟩ ∧
    DAY_OF_WEEK 1677587696000000000 = 2 ∧ DAY_OF_WEEK 1677846896000000000 = 5 := by decide +kernel

/-- **C119.** The date `k` days after a date differs from it by exactly `k` times 24 hours: SUB_DATE_DATE of the two
gives that duration if it can be represented (and panics otherwise), and adding it to the first gives the second. -/
theorem C119_days_between (t : IntTy) (d : Date) (k : Nat) (a b : Int) (hv : d.Valid) (hv' : (d.later k).Valid)
    (hy : PlainYear d.year) (hy' : PlainYear (d.later k).year) (ha : concatDate t d = .ok a)
    (hb : concatDate t (d.later k) = .ok b) :
    b - a = k * aDay ∧ SUB_DATE_DATE b a = exactOrPanic (k * aDay) ∧ ADD_DT_TIME a (k * aDay) = .ok b := by
  obtain ⟨i, hi, hri, rfl⟩ := concatDate_ok hv hy ha
  obtain ⟨j, hj, hrj, rfl⟩ := concatDate_ok hv' hy' hb
  rw [← hi, later_civil] at hj
  have hj := civilDate_inj hj
  subst hj
  have e : (i + (k : Int)) * D - i * D = k * aDay := by unfold D aDay; omega
  refine ⟨e, ?_, ?_⟩
  · rw [(C39_datetime_arithmetic _ _).2.2.2.2.2.2, e]
  · rw [(C39_datetime_arithmetic _ _).1, show i * D + k * aDay = (i + k) * D by omega]
    exact if_pos hrj

example : concatDate .u16 ⟨1900, 2, 28⟩ = .ok (-2203977600000000000) ∧
    Date.later ⟨1900, 2, 28⟩ 2 = ⟨1900, 3, 2⟩ ∧ concatDate .u16 ⟨1900, 3, 2⟩ = .ok (-2203804800000000000) ∧
    SUB_DATE_DATE (-2203804800000000000) (-2203977600000000000) = .ok (2 * aDay) := by decide +kernel

/-- **C119.** DATE values compare as their dates do: by year, then month, then day. -/
theorem C119_order (t : IntTy) (d d' : Date) (a b : Int) (hv : d.Valid) (hv' : d'.Valid) (hy : PlainYear d.year)
    (hy' : PlainYear d'.year) (ha : concatDate t d = .ok a) (hb : concatDate t d' = .ok b) :
    (a < b ↔ d.Before d') ∧ (a = b ↔ d = d') := by
  obtain ⟨i, hi, hri, rfl⟩ := concatDate_ok hv hy ha
  obtain ⟨j, hj, hrj, rfl⟩ := concatDate_ok hv' hy' hb
  subst hi hj
  refine ⟨?_, ?_⟩
  · rw [← civil_lt]; unfold D; omega
  · constructor
    · intro h
      have : i = j := by unfold D at h; omega
      rw [this]
    · intro h; rw [civilDate_inj h]

example : concatDate .i16 ⟨1999, 12, 31⟩ = .ok 946598400000000000 ∧
    concatDate .i16 ⟨2000, 1, 1⟩ = .ok 946684800000000000 ∧ Date.Before ⟨1999, 12, 31⟩ ⟨2000, 1, 1⟩ := by
  decide +kernel

/-! ### Lengths of months and years -/

private theorem later_add (d : Date) (i j : Nat) : d.later (i + j) = (d.later i).later j := by
  induction j with
  | zero => rfl
  | succ j ih => rw [← Nat.add_assoc, Date.later, ih, Date.later]

private theorem later_in_month (y : Int) (m : Nat) (j : Nat) (h : j < daysIn y m) :
    Date.later ⟨y, m, 1⟩ j = ⟨y, m, 1 + j⟩ := by
  induction j with
  | zero => rfl
  | succ j ih =>
    rw [Date.later, ih (by omega), Date.next, if_pos (show 1 + j < daysIn y m by omega)]
    rfl

private theorem later_month (y : Int) (m : Nat) (h1 : 1 ≤ m) (h2 : m ≤ 12) :
    Date.later ⟨y, m, 1⟩ (daysIn y m) = if m < 12 then ⟨y, m + 1, 1⟩ else ⟨y + 1, 1, 1⟩ := by
  have hp : 1 ≤ daysIn y m := by
    rcases (show m = 1 ∨ m = 2 ∨ m = 3 ∨ m = 4 ∨ m = 5 ∨ m = 6 ∨ m = 7 ∨ m = 8 ∨ m = 9 ∨ m = 10 ∨ m = 11 ∨ m = 12 by
      omega) with rfl | rfl | rfl | rfl | rfl | rfl | rfl | rfl | rfl | rfl | rfl | rfl <;>
      simp only [daysIn] <;> (try split) <;> omega
  obtain ⟨j, hj⟩ : ∃ j, daysIn y m = j + 1 := ⟨daysIn y m - 1, by omega⟩
  rw [hj, Date.later, later_in_month y m j (by omega), Date.next, if_neg (by show ¬ (1 + j < daysIn y m); omega)]

/-- Days in a year. -/
def Spec.yearDays (y : Int) : Nat := if LeapYear y then 366 else 365

private theorem later_year (y : Int) : Date.later ⟨y, 1, 1⟩ (yearDays y) = ⟨y + 1, 1, 1⟩ := by
  have hm : ∀ m, 1 ≤ m → m < 12 → Date.later ⟨y, m, 1⟩ (daysIn y m) = ⟨y, m + 1, 1⟩ := by
    intro m h1 h2; rw [later_month y m h1 (by omega), if_pos h2]
  have hd : Date.later ⟨y, 12, 1⟩ (daysIn y 12) = ⟨y + 1, 1, 1⟩ := later_month y 12 (by omega) (by omega)
  have e : yearDays y = daysIn y 1 + daysIn y 2 + daysIn y 3 + daysIn y 4 + daysIn y 5 + daysIn y 6 + daysIn y 7 +
      daysIn y 8 + daysIn y 9 + daysIn y 10 + daysIn y 11 + daysIn y 12 := by
    unfold yearDays; simp only [daysIn]; split <;> rfl
  rw [e]
  simp only [later_add]
  rw [hm 1 (by omega) (by omega), hm 2 (by omega) (by omega), hm 3 (by omega) (by omega), hm 4 (by omega) (by omega),
    hm 5 (by omega) (by omega), hm 6 (by omega) (by omega), hm 7 (by omega) (by omega), hm 8 (by omega) (by omega),
    hm 9 (by omega) (by omega), hm 10 (by omega) (by omega), hm 11 (by omega) (by omega), hd]

private theorem first_valid (y : Int) (m : Nat) (h1 : 1 ≤ m) (h2 : m ≤ 12) : Date.Valid ⟨y, m, 1⟩ := by
  refine ⟨by show 1 ≤ 1; omega, ?_⟩
  show 1 ≤ daysIn y m
  rcases (show m = 1 ∨ m = 2 ∨ m = 3 ∨ m = 4 ∨ m = 5 ∨ m = 6 ∨ m = 7 ∨ m = 8 ∨ m = 9 ∨ m = 10 ∨ m = 11 ∨ m = 12 by
    omega) with rfl | rfl | rfl | rfl | rfl | rfl | rfl | rfl | rfl | rfl | rfl | rfl <;>
    simp only [daysIn] <;> (try split) <;> omega

/-- **C119.** From the first of a month to the first of the next month (in the same year) is the length of the month;
from 1 January to 1 January of the next year is 366 days in a leap year and 365 days otherwise. -/
theorem C119_lengths (t : IntTy) (y : Int) (hy : PlainYear y) (hy' : PlainYear (y + 1)) (a b : Int) :
    (∀ m : Nat, 1 ≤ m → m < 12 → concatDate t ⟨y, m, 1⟩ = .ok a → concatDate t ⟨y, m + 1, 1⟩ = .ok b →
      b - a = daysIn y m * aDay) ∧
    (concatDate t ⟨y, 1, 1⟩ = .ok a → concatDate t ⟨y + 1, 1, 1⟩ = .ok b →
      b - a = (if LeapYear y then 366 else 365) * aDay) := by
  constructor
  · intro m h1 h2 ha hb
    have e := later_month y m h1 (by omega)
    rw [if_pos h2] at e
    have := C119_days_between t ⟨y, m, 1⟩ (daysIn y m) a b (first_valid y m h1 (by omega))
      (by rw [e]; exact first_valid y _ (by omega) (by omega)) hy (by rw [e]; exact hy) ha (by rw [e]; exact hb)
    exact this.1
  · intro ha hb
    have e := later_year y
    have := C119_days_between t ⟨y, 1, 1⟩ (yearDays y) a b (first_valid y 1 (by omega) (by omega))
      (by rw [e]; exact first_valid _ _ (by omega) (by omega)) hy (by rw [e]; exact hy') ha (by rw [e]; exact hb)
    rw [this.1]
    unfold yearDays
    split <;> rfl

example : concatDate .u16 ⟨2024, 1, 1⟩ = .ok 1704067200000000000 ∧
    concatDate .u16 ⟨2025, 1, 1⟩ = .ok 1735689600000000000 ∧
    1735689600000000000 - 1704067200000000000 = 366 * aDay ∧ PlainYear 2024 := by decide +kernel

/-- **C119.** For the years 1678 to 2261 CONCAT_DATE accepts 29 February exactly in leap years and panics otherwise. -/
theorem C119_leap_day (t : IntTy) (y : Int) (h : 1678 ≤ y ∧ y ≤ 2261) :
    ((∃ a, concatDate t ⟨y, 2, 29⟩ = .ok a) ↔ LeapYear y) ∧ (¬ LeapYear y → concatDate t ⟨y, 2, 29⟩ = .panic) := by
  have hy : PlainYear y := by
    unfold PlainYear; simp [IntTy.InRange, IntTy.i32, IntTy.lo, IntTy.hi]; omega
  have e : concatDate t ⟨y, 2, 29⟩ = concat_date y 2 29 := by
    unfold concatDate CONCAT_DATE
    rw [IntTy.wrap_of_inRange _ (by decide) hy]
    rfl
  have hp : ¬ LeapYear y → concatDate t ⟨y, 2, 29⟩ = .panic := by
    intro hl
    rw [e]
    refine (C33_concat_date y 2 29).2 ?_
    rintro ⟨k, hk, -⟩
    have := (C33_valid_dates y 2 29).1 ⟨k, hk⟩
    have := this.2
    simp only [daysIn, if_neg hl] at this
    omega
  refine ⟨⟨?_, ?_⟩, hp⟩
  · rintro ⟨a, ha⟩
    exact Classical.byContradiction fun hl => by rw [hp hl] at ha; cases ha
  · intro hl
    obtain ⟨k, hk⟩ := (C33_valid_dates y 2 29).2 ⟨by show 1 ≤ 29; omega, by simp [daysIn, hl]⟩
    refine ⟨k * D, ?_⟩
    rw [e]
    refine (C33_concat_date y 2 29).1 k hk ?_
    -- between 1678-01-01 and 2262-01-01
    have lo : civilDate (-106650) = ⟨1678, 1, 1⟩ := by rw [← civil_eq]; decide +kernel
    have hi : civilDate 106651 = ⟨2262, 1, 1⟩ := by rw [← civil_eq]; decide +kernel
    have h1 : -106650 < k := civil_lt.2 (by rw [lo, hk]; unfold Date.Before; dsimp only; omega)
    have h2 : k < 106651 := civil_lt.2 (by rw [hi, hk]; unfold Date.Before; dsimp only; omega)
    rw [i64_range]; unfold D; omega

example : concatDate .i16 ⟨2000, 2, 29⟩ = .ok 951782400000000000 ∧ concatDate .i16 ⟨2100, 2, 29⟩ = .panic := by
  decide +kernel

end Verif
