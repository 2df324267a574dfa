import Verif.Props.WeekdayFormula
/-
C157: calendar programs made of DAY_OF_WEEK, SPLIT_DATE, CONCAT_DATE and the arithmetic on dates: the calendar week of
ISO 8601, and the first and the last of the days of a month that fall on a given weekday (the last Sunday of March, on
which summer time begins).
-/
namespace Verif
open Chrono Spec

namespace Spec

/-- The Monday of the week in which day `k` lies. Days are counted from 1970-01-01; day -3, 1969-12-29, was a Monday. -/
def mondayOf (k : Int) : Int := k - (k + 3) % 7

/-- ISO 8601: day `k` lies in week `w` of the year `y`. Weeks begin on Monday; week 1 is the one in which 4 January
lies, and the last week is the one before week 1 of the next year. -/
def InWeek (k y w : Int) : Prop :=
  ∃ a b, civilDate a = ⟨y, 1, 4⟩ ∧ civilDate b = ⟨y + 1, 1, 4⟩ ∧ 1 ≤ w ∧ mondayOf k = mondayOf a + 7 * (w - 1) ∧
    mondayOf k < mondayOf b

end Spec

/-- The calendar week, year and number:
`thursday := d + (3 - (DAY_OF_WEEK(d) + 6) MOD 7) * T#24h; SPLIT_DATE(thursday, year, month, day);`
`week := (thursday - CONCAT_DATE(year, 1, 1)) / T#24h / 7 + 1`. The year is a variable of the type `t`. -/
def calendarWeek (t : IntTy) (n : Int) : Res (Int × Int) := do
  let thursday ← ADD_DT_TIME n ((3 - (DAY_OF_WEEK n + 6) % 7) * aDay)
  let r ← SPLIT_DATE t thursday
  let january ← CONCAT_DATE t r.year 1 1
  let past ← SUB_DT_DT thursday january
  pure (r.year, past / aDay / 7 + 1)

/-- The last day of the month on which the weekday `w` falls: `d := CONCAT_DATE(y, m, length);`
`d := d - ((DAY_OF_WEEK(d) + 7 - w) MOD 7) * T#24h`. -/
def lastWeekday (t : IntTy) (y : Int) (m : Nat) (w : Int) : Res Int := do
  let d ← CONCAT_DATE t y m (daysIn y m)
  SUB_DT_TIME d ((DAY_OF_WEEK d + 7 - w) % 7 * aDay)

/-- The first day of the month on which the weekday `w` falls: `d := CONCAT_DATE(y, m, 1);`
`d := d + ((w + 7 - DAY_OF_WEEK(d)) MOD 7) * T#24h`. -/
def firstWeekday (t : IntTy) (y : Int) (m : Nat) (w : Int) : Res Int := do
  let d ← CONCAT_DATE t y m 1
  ADD_DT_TIME d ((w + 7 - DAY_OF_WEEK d) % 7 * aDay)

private theorem day_of {d : Date} (hv : d.Valid) : civilDate (dayNumber d) = d := by
  obtain ⟨k, hk⟩ := (C33_valid_dates d.year d.month d.day).2 hv
  have : dayNumber d = k := (congrArg dayNumber hk.symm).trans (dayNumber_civil k)
  rw [this]; exact hk

private theorem concat_in {t : IntTy} {d : Date} (hv : d.Valid) (hy : PlainYear d.year)
    (hr : IntTy.i64.InRange (dayNumber d * D)) : concatDate t d = .ok (dayNumber d * D) := by
  rw [concatDate_eq t d hv hy]
  exact (C33_concat_date d.year d.month d.day).1 _ (day_of hv) hr

private theorem concat_out {t : IntTy} {d : Date} (hv : d.Valid) (hy : PlainYear d.year)
    (hr : ¬ IntTy.i64.InRange (dayNumber d * D)) : concatDate t d = .panic := by
  rw [concatDate_eq t d hv hy]
  refine (C33_concat_date d.year d.month d.day).2 ?_
  rintro ⟨k, hk, h⟩
  have : dayNumber d = k := by
    rw [show d = (⟨d.year, d.month, d.day⟩ : Date) from rfl, ← hk]; exact dayNumber_civil k
  rw [this] at hr; exact hr h

private theorem january (y : Int) (n : Nat) (h : 1 ≤ n) (h' : n ≤ 31) : Date.Valid ⟨y, 1, n⟩ := ⟨h, h'⟩

/-- The year of a day, by the first of January. -/
private theorem january_bounds (k : Int) :
    dayNumber ⟨(civilDate k).year, 1, 1⟩ ≤ k ∧ k < dayNumber ⟨(civilDate k).year + 1, 1, 1⟩ := by
  obtain ⟨hv, hm, _⟩ := civilDate_valid k
  have j1 := day_of (january (civilDate k).year 1 (by omega) (by omega))
  have j2 := day_of (january ((civilDate k).year + 1) 1 (by omega) (by omega))
  constructor
  · by_contra hc
    have := civil_lt.1 (show k < dayNumber ⟨(civilDate k).year, 1, 1⟩ by omega)
    rw [j1] at this
    have h1 := hv.1
    unfold Date.Before at this; dsimp only at this; omega
  · refine civil_lt.2 ?_
    rw [j2]; unfold Date.Before; dsimp only; omega

private theorem january_number (y : Int) (n : Nat) :
    dayNumber ⟨y, 1, n⟩ = 365 * (y - 1) + (y - 1) / 4 - (y - 1) / 100 + (y - 1) / 400 + 306 + n - 719469 := by
  simp [dayNumber, marchYear, marchMonth]

private theorem january_next (y : Int) (n : Nat) :
    dayNumber ⟨y + 1, 1, n⟩ = dayNumber ⟨y, 1, n⟩ + if LeapYear y then 366 else 365 := by
  rw [january_number, january_number]
  split
  · rename_i h; unfold LeapYear at h; omega
  · rename_i h; unfold LeapYear at h; omega

private theorem january_mono {y y' : Int} (n : Nat) (h : y < y') : dayNumber ⟨y + 1, 1, n⟩ ≤ dayNumber ⟨y', 1, n⟩ := by
  obtain ⟨j, rfl⟩ : ∃ j : Nat, y' = y + 1 + j := ⟨(y' - y - 1).toNat, by omega⟩
  clear h
  induction j with
  | zero => simp
  | succ j ih =>
    have := january_next (y + 1 + j) n
    rw [show y + 1 + ((j + 1 : Nat) : Int) = y + 1 + j + 1 by omega, this]
    split <;> omega

private theorem range_iff (x : Int) : IntTy.i64.InRange x ↔ -9223372036854775808 ≤ x ∧ x ≤ 9223372036854775807 := by
  simp only [IntTy.InRange, IntTy.lo, IntTy.hi, IntTy.i64]; norm_num

private theorem exact_in {x : Int} (h : IntTy.i64.InRange x) : exactOrPanic x = .ok x := by
  unfold exactOrPanic; rw [if_pos h]

private theorem begin_of {t : IntTy} {a : Int} (ha : concatDate t ⟨1678, 1, 3⟩ = .ok a) : a = -106648 * aDay := by
  obtain ⟨k, hk, _, rfl⟩ := concatDate_ok (january 1678 3 (by omega) (by omega)) (by decide) ha
  have : k = dayNumber ⟨1678, 1, 3⟩ := by rw [← hk, dayNumber_civil]
  rw [this]; decide

/-- The value of the program when the arithmetic stays in range. -/
private theorem week_value (t : IntTy) (ht : IsDateTy t) (n : Int) (hn : IntTy.i64.InRange n)
    (hlow : -106648 * aDay ≤ n) :
    calendarWeek t n = .ok ((civilDate (mondayOf (dayOf n) + 3)).year,
      (mondayOf (dayOf n) + 3 - dayNumber ⟨(civilDate (mondayOf (dayOf n) + 3)).year, 1, 1⟩) / 7 + 1) := by
  have hn' := (range_iff n).1 hn
  have hday : dayOf (n + (3 - (DAY_OF_WEEK n + 6) % 7) * aDay) = mondayOf (dayOf n) + 3 := by
    rw [day_of_week_eq]; unfold dayOf mondayOf aDay; omega
  have hin : IntTy.i64.InRange (n + (3 - (DAY_OF_WEEK n + 6) % 7) * aDay) := by
    rw [range_iff, day_of_week_eq]; unfold dayOf aDay at *; omega
  have hT : -106648 + 3 ≤ mondayOf (dayOf n) + 3 ∧ mondayOf (dayOf n) + 3 ≤ 106752 := by
    unfold mondayOf dayOf aDay at *; omega
  obtain ⟨b1, b2⟩ := january_bounds (mondayOf (dayOf n) + 3)
  generalize hx : n + (3 - (DAY_OF_WEEK n + 6) % 7) * aDay = x at *
  generalize hTT : mondayOf (dayOf n) + 3 = T at *
  generalize hyy : (civilDate T).year = y at *
  rw [january_number] at b1 b2
  have hy : 1678 ≤ y ∧ y ≤ 2262 := by omega
  have hj : IntTy.i64.InRange (dayNumber ⟨y, 1, 1⟩ * D) := by
    rw [range_iff, january_number]; unfold D; omega
  have hc : CONCAT_DATE t y 1 1 = .ok (dayNumber ⟨y, 1, 1⟩ * D) :=
    concat_in (d := ⟨y, 1, 1⟩) (january y 1 (by omega) (by omega))
      (by simp only [PlainYear, IntTy.InRange, IntTy.lo, IntTy.hi, IntTy.i32]; norm_num; omega) hj
  have hs : IntTy.i64.InRange (x - dayNumber ⟨y, 1, 1⟩ * D) := by
    rw [range_iff, january_number]; unfold dayOf at hday; unfold D; omega
  unfold calendarWeek
  rw [(C39_datetime_arithmetic _ _).1, hx, exact_in hin]
  simp only [Res.bind_ok]
  rw [C30_split_date t ht x hin, hday]
  simp only [Res.bind_ok]
  rw [hyy, hc]
  simp only [Res.bind_ok]
  rw [(C39_datetime_arithmetic _ _).2.2.2.2.1, exact_in hs]
  simp only [Res.bind_ok, Res.pure_eq]
  congr 2
  unfold dayOf at hday
  unfold D aDay
  omega

/-- The value of the program is the calendar week. -/
private theorem value_in (k : Int) :
    InWeek k (civilDate (mondayOf k + 3)).year
      ((mondayOf k + 3 - dayNumber ⟨(civilDate (mondayOf k + 3)).year, 1, 1⟩) / 7 + 1) := by
  obtain ⟨b1, b2⟩ := january_bounds (mondayOf k + 3)
  generalize (civilDate (mondayOf k + 3)).year = y at *
  refine ⟨_, _, day_of (january y 4 (by omega) (by omega)), day_of (january (y + 1) 4 (by omega) (by omega)), ?_, ?_, ?_⟩
  all_goals
    simp only [january_number] at *
    unfold mondayOf at *
    omega

/-- **C157**, the specification: a day lies in one calendar week only. -/
theorem C157_unique (k y w y' w' : Int) (h : InWeek k y w) (h' : InWeek k y' w') : y = y' ∧ w = w' := by
  obtain ⟨a, b, ha, hb, h1, h2, h3⟩ := h
  obtain ⟨a', b', ha', hb', h1', h2', h3'⟩ := h'
  have ea := dayNumber_civil a; have eb := dayNumber_civil b
  have ea' := dayNumber_civil a'; have eb' := dayNumber_civil b'
  rw [ha] at ea; rw [hb] at eb; rw [ha'] at ea'; rw [hb'] at eb'
  have : y = y' := by
    rcases (show y < y' ∨ y = y' ∨ y' < y by omega) with h | h | h
    · have := january_mono 4 h; unfold mondayOf at *; omega
    · exact h
    · have := january_mono 4 h; unfold mondayOf at *; omega
  subst this
  unfold mondayOf at *
  exact ⟨rfl, by omega⟩

/-- **C157.** From 1678-01-03 to the end of the range of DATE_AND_TIME the program returns, and it returns the calendar
week of ISO 8601 in which the day lies. -/
theorem C157_week (t : IntTy) (ht : IsDateTy t) (a n : Int) (ha : concatDate t ⟨1678, 1, 3⟩ = .ok a)
    (hn : IntTy.i64.InRange n) (h : a ≤ n) :
    ∃ y w, calendarWeek t n = .ok (y, w) ∧ InWeek (dayOf n) y w ∧ w ≤ 53 := by
  rw [begin_of ha] at h
  refine ⟨_, _, week_value t ht n hn h, value_in _, ?_⟩
  obtain ⟨b1, b2⟩ := january_bounds (mondayOf (dayOf n) + 3)
  generalize (civilDate (mondayOf (dayOf n) + 3)).year = y at *
  simp only [january_number] at *
  omega

/-- **C157.** Before 1678-01-03 the program ends the process: the calendar week belongs to the year 1677, of which
CONCAT_DATE cannot represent the first day. -/
theorem C157_week_panics (t : IntTy) (ht : IsDateTy t) (a n : Int) (ha : concatDate t ⟨1678, 1, 3⟩ = .ok a)
    (hn : IntTy.i64.InRange n) (h : n < a) : calendarWeek t n = .panic := by
  rw [begin_of ha] at h
  have hn' := (range_iff n).1 hn
  have hday : dayOf (n + (3 - (DAY_OF_WEEK n + 6) % 7) * aDay) = mondayOf (dayOf n) + 3 := by
    rw [day_of_week_eq]; unfold dayOf mondayOf aDay; omega
  have hT : -106755 ≤ mondayOf (dayOf n) + 3 ∧ mondayOf (dayOf n) + 3 ≤ -106648 - 4 := by
    unfold mondayOf dayOf aDay at *; omega
  obtain ⟨b1, b2⟩ := january_bounds (mondayOf (dayOf n) + 3)
  generalize hx : n + (3 - (DAY_OF_WEEK n + 6) % 7) * aDay = x at *
  generalize hTT : mondayOf (dayOf n) + 3 = T at *
  generalize hyy : (civilDate T).year = y at *
  have hy : y = 1677 := by
    have e1 : dayNumber ⟨1677 + 1, 1, 1⟩ = -106650 := by decide
    have e2 : dayNumber ⟨1676 + 1, 1, 1⟩ = -107015 := by decide
    rcases (show y < 1677 ∨ y = 1677 ∨ 1677 < y by omega) with h | h | h
    · have h1 := january_mono 1 h
      rw [show (1677 : Int) = 1676 + 1 by rfl, e2] at h1; omega
    · exact h
    · have := january_mono 1 h; omega
  subst hy
  have hc : CONCAT_DATE t 1677 1 1 = .panic :=
    concat_out (d := ⟨1677, 1, 1⟩) (january 1677 1 (by omega) (by omega)) (by decide) (by decide)
  unfold calendarWeek
  rw [(C39_datetime_arithmetic _ _).1, hx]
  by_cases hin : IntTy.i64.InRange x
  · rw [exact_in hin]
    simp only [Res.bind_ok]
    rw [C30_split_date t ht x hin, hday]
    simp only [Res.bind_ok]
    rw [hyy, hc]; rfl
  · unfold exactOrPanic; rw [if_neg hin]; rfl

/-- **C157.** A year has a week 53 iff its 1 January is a Thursday, or a Wednesday in a leap year. -/
theorem C157_long_years (t : IntTy) (ht : IsDateTy t) (y a : Int) (hy : 1678 ≤ y) (hy' : y ≤ 2261)
    (ha : concatDate t ⟨y, 1, 1⟩ = .ok a) :
    (∃ n, IntTy.i64.InRange n ∧ calendarWeek t n = .ok (y, 53)) ↔
      DAY_OF_WEEK a = 4 ∨ LeapYear y ∧ DAY_OF_WEEK a = 3 := by
  obtain ⟨k, hk, _, rfl⟩ := concatDate_ok (january y 1 (by omega) (by omega))
    (by simp only [PlainYear, IntTy.InRange, IntTy.lo, IntTy.hi, IntTy.i32]; norm_num; omega) ha
  have ek := dayNumber_civil k
  rw [hk] at ek
  have e4 : ∀ y, dayNumber ⟨y, 1, 4⟩ = dayNumber ⟨y, 1, 1⟩ + 3 := by intro y; rw [january_number, january_number]; omega
  have eb := ek
  rw [january_number] at eb
  have nx := january_next y 1
  have hdw : DAY_OF_WEEK (k * D) = (k + 4) % 7 := by rw [day_of_week_eq]; unfold dayOf D; congr 2; omega
  obtain ⟨b, hb⟩ : ∃ b, concatDate t ⟨1678, 1, 3⟩ = .ok b :=
    ⟨_, concat_in (january 1678 3 (by omega) (by omega)) (by decide) (by decide)⟩
  rw [hdw]
  constructor
  · rintro ⟨n, hn, hw⟩
    have hbn : b ≤ n := by
      by_contra hc
      rw [C157_week_panics t ht b n hb hn (by omega)] at hw; cases hw
    obtain ⟨y1, w1, e, hi, _⟩ := C157_week t ht b n hb hn hbn
    rw [hw] at e
    obtain ⟨rfl, rfl⟩ := Prod.mk.inj (Res.ok.inj e)
    obtain ⟨p, q, hp, hq, _, g2, g3⟩ := hi
    have ep := dayNumber_civil p; have eq := dayNumber_civil q
    rw [hp, e4] at ep; rw [hq, e4] at eq
    unfold mondayOf at g2 g3
    clear eb
    have hk7 : k % 7 = 0 ∨ k % 7 = 1 ∨ k % 7 = 2 ∨ k % 7 = 3 ∨ k % 7 = 4 ∨ k % 7 = 5 ∨ k % 7 = 6 := by omega
    by_cases hl : LeapYear y
    · rw [if_pos hl] at nx
      simp only [hl, true_and]
      rcases hk7 with h | h | h | h | h | h | h <;> omega
    · rw [if_neg hl] at nx
      simp only [hl, false_and, or_false]
      rcases hk7 with h | h | h | h | h | h | h <;> omega
  · intro hc
    have hr : IntTy.i64.InRange ((k + 3 - (k + 6) % 7 + 364) * D) := by
      rw [range_iff]; unfold D; omega
    have hlow : b ≤ (k + 3 - (k + 6) % 7 + 364) * D := by rw [begin_of hb]; unfold aDay D; omega
    obtain ⟨y1, w1, e, hi, _⟩ := C157_week t ht b _ hb hr hlow
    have hi' : InWeek (dayOf ((k + 3 - (k + 6) % 7 + 364) * D)) y 53 := by
      refine ⟨_, _, day_of (january y 4 (by omega) (by omega)), day_of (january (y + 1) 4 (by omega) (by omega)), by omega, ?_, ?_⟩
      · rw [e4]; unfold mondayOf dayOf D; omega
      · rw [e4]
        by_cases hl : LeapYear y
        · rw [if_pos hl] at nx
          simp only [hl, true_and] at hc
          unfold mondayOf dayOf D; omega
        · rw [if_neg hl] at nx
          simp only [hl, false_and, or_false] at hc
          unfold mondayOf dayOf D; omega
    obtain ⟨rfl, rfl⟩ := C157_unique _ _ _ _ _ hi hi'
    exact ⟨_, hr, e⟩

/-- Hypotheses are met, and the boundaries: 2027-01-01 lies in week 53 of 2026, 2024-12-30 in week 1 of 2025; 2026 is a
long year because its 1 January is a Thursday. -/
example : concatDate .u32 ⟨1678, 1, 3⟩ = .ok (-9214387200000000000) ∧
    (concatDate .u32 ⟨2027, 1, 1⟩ >>= calendarWeek .u32) = .ok (2026, 53) ∧
    (concatDate .u32 ⟨2024, 12, 30⟩ >>= calendarWeek .u32) = .ok (2025, 1) ∧
    (concatDate .i16 ⟨2262, 4, 11⟩ >>= calendarWeek .i16) = .ok (2262, 15) ∧
    (concatDate .i16 ⟨1678, 1, 3⟩ >>= calendarWeek .i16) = .ok (1678, 1) ∧
    (concatDate .i16 ⟨1678, 1, 2⟩ >>= calendarWeek .i16) = .panic ∧
    (concatDate .u32 ⟨2026, 1, 1⟩ >>= fun a => pure (DAY_OF_WEEK a)) = .ok 4 := by decide +kernel

private theorem in_month (y : Int) (m n : Nat) :
    dayNumber ⟨y, m, n⟩ = dayNumber ⟨y, m, 1⟩ + n - 1 := by
  simp only [dayNumber, marchYear, marchMonth]; omega

private theorem month_length (y : Int) (m : Nat) (hm : 1 ≤ m) (hm' : m ≤ 12) : 28 ≤ daysIn y m ∧ daysIn y m ≤ 31 := by
  rcases (show m = 1 ∨ m = 2 ∨ m = 3 ∨ m = 4 ∨ m = 5 ∨ m = 6 ∨ m = 7 ∨ m = 8 ∨ m = 9 ∨ m = 10 ∨ m = 11 ∨ m = 12 by
    omega) with rfl | rfl | rfl | rfl | rfl | rfl | rfl | rfl | rfl | rfl | rfl | rfl <;>
    simp only [daysIn] <;> (try split) <;> omega

private theorem month_in (y : Int) (m n : Nat) (hm : 1 ≤ m) (hm' : m ≤ 12) (hy : 1678 ≤ y) (hy' : y ≤ 2261)
    (hn : 1 ≤ n) (hn' : n ≤ 31) : IntTy.i64.InRange (dayNumber ⟨y, m, n⟩ * D) := by
  rw [range_iff]
  have : -106650 ≤ dayNumber ⟨y, m, n⟩ ∧ dayNumber ⟨y, m, n⟩ ≤ 106750 := by
    simp only [dayNumber, marchYear, marchMonth]
    split <;> omega
  unfold D; omega

private theorem plain {y : Int} (hy : 1678 ≤ y) (hy' : y ≤ 2261) : PlainYear y := by
  simp only [PlainYear, IntTy.InRange, IntTy.lo, IntTy.hi, IntTy.i32]; norm_num; omega

/-- **C157.** In the years 1678 to 2261: the program returns a day of the month, that day falls on the weekday asked for
(0 is Sunday), and no later day of the month does. -/
theorem C157_last (t : IntTy) (y : Int) (m : Nat) (w : Int) (hy : 1678 ≤ y) (hy' : y ≤ 2261) (hm : 1 ≤ m)
    (hm' : m ≤ 12) (hw : 0 ≤ w) (hw' : w ≤ 6) :
    ∃ (n : Nat) (x : Int), lastWeekday t y m w = .ok x ∧ n ≤ daysIn y m ∧ concatDate t ⟨y, m, n⟩ = .ok x ∧
      DAY_OF_WEEK x = w ∧
      ∀ (n' : Nat) (x' : Int), n < n' → n' ≤ daysIn y m → concatDate t ⟨y, m, n'⟩ = .ok x' → DAY_OF_WEEK x' ≠ w := by
  have hl := month_length y m hm hm'
  have c : ∀ j : Nat, 1 ≤ j → j ≤ daysIn y m → concatDate t ⟨y, m, j⟩ = .ok ((dayNumber ⟨y, m, 1⟩ + j - 1) * D) := by
    intro j h1 h2
    have := concat_in (t := t) (d := ⟨y, m, j⟩) ⟨h1, h2⟩ (plain hy hy') (month_in y m j hm hm' hy hy' h1 (by omega))
    rwa [in_month y m j] at this
  have dw : ∀ k : Int, DAY_OF_WEEK (k * D) = (k + 4) % 7 := by
    intro k; rw [day_of_week_eq]; unfold dayOf D; congr 2; omega
  have hr := month_in y m 1 hm hm' hy hy' (by omega) (by omega)
  have hr2 := month_in y m (daysIn y m) hm hm' hy hy' (by omega) (by omega)
  rw [in_month y m (daysIn y m)] at hr2
  generalize hf : dayNumber ⟨y, m, 1⟩ = f at *
  generalize hL : daysIn y m = L at *
  rw [range_iff] at hr hr2
  have hc := c L (by omega) (by omega)
  have hv : lastWeekday t y m w = .ok ((f + L - 1 - (f + L + 3 + 7 - w) % 7) * D) := by
    unfold lastWeekday
    rw [hL, show CONCAT_DATE t y m L = concatDate t ⟨y, m, L⟩ from rfl, hc]
    simp only [Res.bind_ok]
    rw [(C39_datetime_arithmetic _ _).2.2.1, dw, exact_in]
    · congr 1; unfold D aDay; omega
    · rw [range_iff]; unfold D aDay at *; omega
  refine ⟨(L - (f + L + 3 + 7 - w) % 7).toNat, _, hv, by omega, ?_, ?_, ?_⟩
  · rw [c _ (by omega) (by omega)]; congr 2; omega
  · rw [dw]; omega
  · intro n' x' h1 h2 h3
    rw [c n' (by omega) h2] at h3
    rw [← Res.ok.inj h3, dw]; omega

/-- **C157.** In the years 1678 to 2261: the program returns a day of the month, that day falls on the weekday asked for,
and no earlier day of the month does. -/
theorem C157_first (t : IntTy) (y : Int) (m : Nat) (w : Int) (hy : 1678 ≤ y) (hy' : y ≤ 2261) (hm : 1 ≤ m)
    (hm' : m ≤ 12) (hw : 0 ≤ w) (hw' : w ≤ 6) :
    ∃ (n : Nat) (x : Int), firstWeekday t y m w = .ok x ∧ 1 ≤ n ∧ concatDate t ⟨y, m, n⟩ = .ok x ∧
      DAY_OF_WEEK x = w ∧
      ∀ (n' : Nat) (x' : Int), 1 ≤ n' → n' < n → concatDate t ⟨y, m, n'⟩ = .ok x' → DAY_OF_WEEK x' ≠ w := by
  have hl := month_length y m hm hm'
  have c : ∀ j : Nat, 1 ≤ j → j ≤ daysIn y m → concatDate t ⟨y, m, j⟩ = .ok ((dayNumber ⟨y, m, 1⟩ + j - 1) * D) := by
    intro j h1 h2
    have := concat_in (t := t) (d := ⟨y, m, j⟩) ⟨h1, h2⟩ (plain hy hy') (month_in y m j hm hm' hy hy' h1 (by omega))
    rwa [in_month y m j] at this
  have dw : ∀ k : Int, DAY_OF_WEEK (k * D) = (k + 4) % 7 := by
    intro k; rw [day_of_week_eq]; unfold dayOf D; congr 2; omega
  have hr := month_in y m 1 hm hm' hy hy' (by omega) (by omega)
  have hr2 := month_in y m (daysIn y m) hm hm' hy hy' (by omega) (by omega)
  rw [in_month y m (daysIn y m)] at hr2
  generalize hf : dayNumber ⟨y, m, 1⟩ = f at *
  rw [range_iff] at hr hr2
  have hc := c 1 (by omega) (by omega)
  have hv : firstWeekday t y m w = .ok ((f + (w + 7 - (f + 4) % 7) % 7) * D) := by
    unfold firstWeekday
    rw [show CONCAT_DATE t y m 1 = concatDate t ⟨y, m, 1⟩ from rfl, hc]
    simp only [Res.bind_ok]
    rw [(C39_datetime_arithmetic _ _).1, dw, exact_in]
    · congr 1; unfold D aDay; omega
    · rw [range_iff]; unfold D aDay at *; omega
  refine ⟨(1 + (w + 7 - (f + 4) % 7) % 7).toNat, _, hv, by omega, ?_, ?_, ?_⟩
  · rw [c _ (by omega) (by omega)]; congr 2; omega
  · rw [dw]; omega
  · intro n' x' h1 h2 h3
    rw [c n' (by omega) (by omega)] at h3
    rw [← Res.ok.inj h3, dw]; omega

/-- Summer time of 2026 begins on 29 March and ends on 25 October; the first Monday of September 2026 is the 7th. -/
example : lastWeekday .u32 2026 3 0 = concatDate .u32 ⟨2026, 3, 29⟩ ∧
    lastWeekday .u32 2026 10 0 = concatDate .u32 ⟨2026, 10, 25⟩ ∧
    firstWeekday .u32 2026 9 1 = concatDate .u32 ⟨2026, 9, 7⟩ ∧
    concatDate .u32 ⟨2026, 9, 7⟩ = .ok 1788739200000000000 := by decide +kernel

end Verif
