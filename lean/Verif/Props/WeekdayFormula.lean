import Verif.Props.CalendarArith
/-
C125: DATEs and weekdays in closed form. The number behind a DATE and the result of DAY_OF_WEEK are those of the usual formulas, in which
the year begins in March; weekdays repeat after 400 years and, away from the ends of a century, after 28.
-/
namespace Verif
open Chrono Spec

namespace Spec

/-- The year of a date when years begin in March. -/
def marchYear (d : Date) : Int := if d.month ≤ 2 then d.year - 1 else d.year
/-- The month of a date when years begin in March: 3 to 14. -/
def marchMonth (d : Date) : Int := if d.month ≤ 2 then d.month + 12 else d.month

/-- Days from 1970-01-01: 365 days a year, one more every 4 years, but not every 100, but every 400; months from March of
30.6 days, rounded down. -/
def dayNumber (d : Date) : Int :=
  365 * marchYear d + marchYear d / 4 - marchYear d / 100 + marchYear d / 400 + (306 * (marchMonth d - 3) + 4) / 10 + d.day - 719469

/-- Zeller's congruence: 0 is Saturday. -/
def zeller (d : Date) : Int :=
  let k := marchYear d % 100
  let j := marchYear d / 100
  (d.day + 13 * (marchMonth d + 1) / 5 + k + k / 4 + j / 4 + 5 * j) % 7

/-- The weekday of a date, counted from Sunday as 0. -/
def weekday (d : Date) : Int := (zeller d + 6) % 7

end Spec

private theorem month_cases {m : Nat} (h1 : 1 ≤ m) (h2 : m ≤ 12) :
    m = 1 ∨ m = 2 ∨ m = 3 ∨ m = 4 ∨ m = 5 ∨ m = 6 ∨ m = 7 ∨ m = 8 ∨ m = 9 ∨ m = 10 ∨ m = 11 ∨ m = 12 := by omega

/-- The formula counts days. -/
private theorem dayNumber_next (d : Date) (hv : d.Valid) (h1 : 1 ≤ d.month) (h2 : d.month ≤ 12) :
    dayNumber d.next = dayNumber d + 1 := by
  obtain ⟨y, m, n⟩ := d
  obtain ⟨v1, v2⟩ := hv
  dsimp only at h1 h2 v1 v2
  unfold Date.next
  dsimp only
  by_cases hlt : n < daysIn y m
  · rw [if_pos hlt]
    simp only [dayNumber, marchYear, marchMonth]
    split <;> omega
  · rw [if_neg hlt]
    have hn : n = daysIn y m := by omega
    subst hn
    by_cases hl : LeapYear y
    · rcases month_cases h1 h2 with rfl | rfl | rfl | rfl | rfl | rfl | rfl | rfl | rfl | rfl | rfl | rfl <;>
        simp [daysIn, hl, dayNumber, marchYear, marchMonth] <;> unfold LeapYear at hl <;> omega
    · rcases month_cases h1 h2 with rfl | rfl | rfl | rfl | rfl | rfl | rfl | rfl | rfl | rfl | rfl | rfl <;>
        simp [daysIn, hl, dayNumber, marchYear, marchMonth] <;> unfold LeapYear at hl <;> omega

theorem dayNumber_civil (k : Int) : dayNumber (civilDate k) = k := by
  have h0 : dayNumber (civilDate 0) = 0 := by decide
  induction k using Int.induction_on with
  | zero => exact h0
  | succ n ih =>
    rw [civilDate_succ, dayNumber_next _ (civilDate_valid _).1 (civilDate_valid _).2.1 (civilDate_valid _).2.2, ih]
  | pred n ih =>
    have e := civilDate_succ (-(n : Int) - 1)
    rw [show -(n : Int) - 1 + 1 = -n by omega] at e
    rw [e, dayNumber_next _ (civilDate_valid _).1 (civilDate_valid _).2.1 (civilDate_valid _).2.2] at ih
    omega

theorem day_of_week_eq (n : Int) : DAY_OF_WEEK n = (dayOf n + 4) % 7 := by
  have h := C37_day_of_week
  have hk : ∀ k : Nat, DAY_OF_WEEK (k * aDay) = ((k : Int) + 4) % 7 ∧ DAY_OF_WEEK (-k * aDay) = (-(k : Int) + 4) % 7 := by
    intro k
    induction k with
    | zero => exact ⟨(h 0).2.1 rfl, (h 0).2.1 rfl⟩
    | succ k ih =>
      constructor
      · rw [(h (k * aDay)).2.2.2 (((k + 1 : Nat) : Int) * aDay) (by unfold dayOf aDay; omega), ih.1]; omega
      · have := (h (-((k + 1 : Nat) : Int) * aDay)).2.2.2 (-k * aDay) (by unfold dayOf aDay; omega)
        have hb := (h (-((k + 1 : Nat) : Int) * aDay)).1
        rw [ih.2] at this; omega
  rcases (show 0 ≤ dayOf n ∨ dayOf n < 0 by omega) with h0 | h0
  · have := (h ((dayOf n).toNat * aDay)).2.2.1 n (by unfold dayOf aDay at *; omega)
    rw [this, (hk _).1]; omega
  · have := (h (-((-dayOf n).toNat : Int) * aDay)).2.2.1 n (by unfold dayOf aDay at *; omega)
    rw [this, (hk _).2]; omega

/-- The two formulas agree. -/
private theorem weekday_eq (d : Date) (h1 : 1 ≤ d.month) (h2 : d.month ≤ 12) : weekday d = (dayNumber d + 4) % 7 := by
  obtain ⟨y, m, n⟩ := d
  unfold weekday zeller dayNumber
  dsimp only
  generalize hy : marchYear ⟨y, m, n⟩ = a
  have hm : marchMonth ⟨y, m, n⟩ = if m ≤ 2 then (m : Int) + 12 else m := rfl
  have hA : a / 100 / 4 = a / 400 := by omega
  have hB : a % 100 / 4 = a / 4 - 25 * (a / 100) := by omega
  have hC : a % 100 = a - 100 * (a / 100) := by omega
  rw [hm, hA, hB, hC]
  clear hA hB hC hy hm
  generalize a / 4 = b, a / 100 = c, a / 400 = e
  rcases month_cases h1 h2 with rfl | rfl | rfl | rfl | rfl | rfl | rfl | rfl | rfl | rfl | rfl | rfl <;> simp <;> omega

private theorem concatDate_ok' {t : IntTy} {d : Date} {a : Int} (hv : d.Valid) (hy : PlainYear d.year)
    (h : concatDate t d = .ok a) : a = dayNumber d * aDay := by
  obtain ⟨y, m, n⟩ := d
  obtain ⟨k, hk, -, e⟩ := concatDate_ok hv hy h
  rw [← hk, dayNumber_civil, e]; rfl

private theorem valid_month {d : Date} (hv : d.Valid) : 1 ≤ d.month ∧ d.month ≤ 12 := by
  have := valid_bounds (y := d.year) (m := d.month) (d := d.day) hv
  omega

/-- **C125.** The DATE of a calendar date is its day number times 24 hours in nanoseconds. -/
theorem C125_day_number (t : IntTy) (d : Date) (a : Int) (hv : d.Valid) (hy : PlainYear d.year) (h : concatDate t d = .ok a) :
    a = dayNumber d * aDay := concatDate_ok' hv hy h

/-- **C125.** DAY_OF_WEEK of a DATE is the weekday by Zeller's congruence. -/
theorem C125_weekday (t : IntTy) (d : Date) (a : Int) (hv : d.Valid) (hy : PlainYear d.year) (h : concatDate t d = .ok a) :
    DAY_OF_WEEK a = weekday d := by
  rw [concatDate_ok' hv hy h, day_of_week_eq, weekday_eq d (valid_month hv).1 (valid_month hv).2]
  unfold dayOf aDay; omega

/-- **C125**, for every timestamp: DAY_OF_WEEK is the weekday of the date that SPLIT_DT shows. -/
theorem C125_weekday_of_timestamp (t : IntTy) (ht : IsDateTy t) (n : Int) (hn : IntTy.i64.InRange n) (r : SplitDt) (d : Date)
    (h : SPLIT_DT t n = .ok r) (hd : ShowsDate r d) : DAY_OF_WEEK n = weekday d := by
  rw [C30_split_dt t ht n hn] at h
  cases h
  obtain ⟨e1, e2, e3⟩ := hd
  have e : d = civilDate (dayOf n) := by
    obtain ⟨y, m, k⟩ := d
    generalize civilDate (dayOf n) = c at *
    obtain ⟨y', m', k'⟩ := c
    dsimp only at e1 e2 e3
    subst e1
    rw [show m = m' by omega, show k = k' by omega]
  rw [e, day_of_week_eq, weekday_eq _ (civilDate_valid _).2.1 (civilDate_valid _).2.2, dayNumber_civil]

/-- **C125.** The calendar repeats after 400 years: the same date is 146097 days, 20871 weeks, later. -/
theorem C125_400_years (t : IntTy) (d d' : Date) (a b : Int) (hd : d' = ⟨d.year + 400, d.month, d.day⟩) (hv : d.Valid)
    (hy : PlainYear d.year) (hy' : PlainYear d'.year) (ha : concatDate t d = .ok a) (hb : concatDate t d' = .ok b) :
    d'.Valid ∧ b = a + 146097 * aDay ∧ DAY_OF_WEEK b = DAY_OF_WEEK a := by
  obtain ⟨y, m, n⟩ := d
  have hv' : d'.Valid := by
    rw [hd]
    obtain ⟨v1, v2⟩ := hv
    refine ⟨v1, ?_⟩
    have : daysIn (y + 400) m = daysIn y m := by
      have : LeapYear (y + 400) ↔ LeapYear y := by unfold LeapYear; omega
      unfold daysIn
      simp [this]
    dsimp only at *
    rw [this]; exact v2
  have e : dayNumber d' = dayNumber ⟨y, m, n⟩ + 146097 := by
    rw [hd]
    simp only [dayNumber, marchYear, marchMonth]
    split <;> omega
  refine ⟨hv', ?_, ?_⟩
  · rw [concatDate_ok' hv' hy' hb, concatDate_ok' hv hy ha, e]; unfold aDay; omega
  · rw [concatDate_ok' hv' hy' hb, concatDate_ok' hv hy ha, e, day_of_week_eq, day_of_week_eq]; unfold dayOf aDay; omega

/-- **C125.** Within a century the weekdays repeat after 28 years. -/
theorem C125_28_years (t : IntTy) (d d' : Date) (a b : Int) (hd : d' = ⟨d.year + 28, d.month, d.day⟩) (hv : d.Valid) (hv' : d'.Valid)
    (hc : 1 ≤ d.year % 100 ∧ d.year % 100 ≤ 71) (hy : PlainYear d.year) (hy' : PlainYear d'.year) (ha : concatDate t d = .ok a)
    (hb : concatDate t d' = .ok b) : DAY_OF_WEEK b = DAY_OF_WEEK a := by
  obtain ⟨y, m, n⟩ := d
  have e : dayNumber d' = dayNumber ⟨y, m, n⟩ + 7 * 1461 := by
    rw [hd]
    simp only [dayNumber, marchYear, marchMonth] at *
    split <;> omega
  rw [concatDate_ok' hv' hy' hb, concatDate_ok' hv hy ha, e, day_of_week_eq, day_of_week_eq]; unfold dayOf aDay; omega

/-- **C125.** From a date to the same date of the next year the weekday advances by one, by two if a 29 February is between. -/
theorem C125_next_year (t : IntTy) (d d' : Date) (a b : Int) (hd : d' = ⟨d.year + 1, d.month, d.day⟩) (hv : d.Valid) (hv' : d'.Valid)
    (hy : PlainYear d.year) (hy' : PlainYear d'.year) (ha : concatDate t d = .ok a) (hb : concatDate t d' = .ok b) :
    DAY_OF_WEEK b = (DAY_OF_WEEK a +
      if (d.month ≤ 2 ∧ LeapYear d.year) ∨ (2 < d.month ∧ LeapYear (d.year + 1)) then 2 else 1) % 7 := by
  obtain ⟨y, m, n⟩ := d
  have e : dayNumber d' = dayNumber ⟨y, m, n⟩ +
      if (m ≤ 2 ∧ LeapYear y) ∨ (2 < m ∧ LeapYear (y + 1)) then 366 else 365 := by
    rw [hd]
    simp only [dayNumber, marchYear, marchMonth, LeapYear]
    by_cases hm : m ≤ 2
    · simp only [hm, if_true, true_and]
      split <;> omega
    · simp only [hm, if_false, false_and, false_or]
      split <;> omega
  rw [concatDate_ok' hv' hy' hb, concatDate_ok' hv hy ha, e, day_of_week_eq, day_of_week_eq]
  unfold dayOf aDay
  split <;> omega

/-- 20 July 1969 was a Sunday, 29 February 2000 a Tuesday; the hypotheses hold for these dates and the year 2400. -/
example : concatDate .i32 ⟨1969, 7, 20⟩ = .ok (-165 * aDay) ∧ dayNumber ⟨1969, 7, 20⟩ = -165 ∧ weekday ⟨1969, 7, 20⟩ = 0 ∧
    DAY_OF_WEEK (-165 * aDay) = 0 ∧ concatDate .i32 ⟨2000, 2, 29⟩ = .ok (11016 * aDay) ∧ weekday ⟨2000, 2, 29⟩ = 2 ∧
    DAY_OF_WEEK (11016 * aDay) = 2 := by decide +kernel
example : Date.Valid ⟨1850, 2, 28⟩ ∧ PlainYear 1850 ∧ PlainYear 2250 ∧ concatDate .i32 ⟨1850, 2, 28⟩ = .ok (-43771 * aDay) ∧
    concatDate .i32 ⟨2250, 2, 28⟩ = .ok (102326 * aDay) ∧ concatDate .i32 ⟨1878, 2, 28⟩ = .ok (-33544 * aDay) ∧
    concatDate .i32 ⟨1851, 2, 28⟩ = .ok (-43406 * aDay) := by decide +kernel

end Verif
