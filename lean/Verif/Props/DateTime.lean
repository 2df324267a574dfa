import Verif.Proofs.Timestamps
/-
C30-C37, C71: calendar dates, times of day, CONCAT and SPLIT.
A timestamp is a number `n` of nanoseconds with `IntTy.i64.InRange n`.
-/
namespace Verif
open Chrono Spec

/-- The argument types of CONCAT_DATE, SPLIT_DATE, SPLIT_TOD, SPLIT_DT:
INT, UINT, DINT, UDINT, LINT, ULINT. -/
def IsDateTy (t : IntTy) : Prop :=
  t = .i16 ∨ t = .u16 ∨ t = .i32 ∨ t = .u32 ∨ t = .i64 ∨ t = .u64
/-- The argument types of CONCAT_TOD: those and SINT, USINT. -/
def IsTodTy (t : IntTy) : Prop := t = .i8 ∨ t = .u8 ∨ IsDateTy t

private theorem dateTy_small {t : IntTy} (ht : IsDateTy t) {x : Int} (h : 0 ≤ x ∧ x ≤ 32767) :
    t.InRange x := by
  rcases ht with rfl | rfl | rfl | rfl | rfl | rfl <;>
    simp [IntTy.InRange, IntTy.i16, IntTy.u16, IntTy.i32, IntTy.u32, IntTy.i64, IntTy.u64, IntTy.lo, IntTy.hi] <;>
    omega

private theorem dateTy_bits {t : IntTy} (ht : IsDateTy t) : 0 < t.bits := by
  rcases ht with rfl | rfl | rfl | rfl | rfl | rfl <;> decide

private theorem wrap_small {t : IntTy} (ht : IsDateTy t) {x : Nat} (h : x ≤ 32767) : t.wrap x = x :=
  IntTy.wrap_of_inRange t (dateTy_bits ht) (dateTy_small ht (by omega))

private theorem checked_small {t : IntTy} (ht : IsDateTy t) {x : Int} (h : 0 ≤ x ∧ x ≤ 32767) :
    t.checked x = some x := if_pos (dateTy_small ht h)

private theorem civil_fields (k : Int) : (civil k).year = (civilDate k).year ∧
    (civil k).month = (civilDate k).month ∧ (civil k).day = (civilDate k).day := by
  rw [← civil_eq]; exact ⟨rfl, rfl, rfl⟩

private theorem date_small (k : Int) : (civilDate k).month ≤ 12 ∧ 1 ≤ (civilDate k).month ∧
    1 ≤ (civilDate k).day ∧ (civilDate k).day ≤ 31 := by
  obtain ⟨hv, h1, h2⟩ := civilDate_valid k
  exact ⟨h2, h1, hv.1, Nat.le_trans hv.2 (daysIn_le _ _)⟩

/-! ### SPLIT -/

/-- **C30**, SPLIT_DATE: for every timestamp the outputs are the date of the timestamp's day, where the
date of a day is obtained by counting days from 1970-01-01 in the Gregorian calendar (`civilDate`). -/
theorem C30_split_date (t : IntTy) (ht : IsDateTy t) (n : Int) (hn : IntTy.i64.InRange n) :
    SPLIT_DATE t n = .ok ⟨0, (civilDate (dayOf n)).year, (civilDate (dayOf n)).month,
      (civilDate (dayOf n)).day⟩ := by
  have hy := year_range hn
  obtain ⟨a, b, c, d⟩ := date_small (dayOf n)
  obtain ⟨e, f, g⟩ := civil_fields (dayOf n)
  unfold SPLIT_DATE
  simp only [ts_date, e, f, g]
  rw [checked_small ht (by omega), wrap_small ht (by omega), wrap_small ht (by omega)]
  rfl

/-- **C30**, SPLIT_DT agrees: date of the day, and hour/minute/second/millisecond of the time of day. -/
theorem C30_split_dt (t : IntTy) (ht : IsDateTy t) (n : Int) (hn : IntTy.i64.InRange n) :
    SPLIT_DT t n = .ok ⟨0, (civilDate (dayOf n)).year, (civilDate (dayOf n)).month,
      (civilDate (dayOf n)).day, timeOfDay n / 3600000000000, timeOfDay n / 60000000000 % 60,
      timeOfDay n / 1000000000 % 60, timeOfDay n / 1000000 % 1000⟩ := by
  have hy := year_range hn
  obtain ⟨a, b, c, d⟩ := date_small (dayOf n)
  obtain ⟨e, f, g⟩ := civil_fields (dayOf n)
  have h1 := ts_secs n
  have h2 := ts_frac n
  have h3 := tod_bounds n
  unfold D at h3
  unfold SPLIT_DT
  simp only [ts_date, e, f, g, NaiveTime.hour, NaiveTime.minute, NaiveTime.second,
    NaiveDateTime.timestamp_subsec_millis]
  generalize (timestamp_nanos_utc n).time.secs = s at *
  generalize (timestamp_nanos_utc n).time.frac = fr at *
  rw [checked_small ht (by omega), wrap_small ht (by omega), wrap_small ht (by omega),
    wrap_small ht (by omega), wrap_small ht (by omega), wrap_small ht (by omega), wrap_small ht (by omega)]
  simp only [Res.unwrap_some, Res.bind_ok, Res.pure_eq, Res.ok.injEq, SplitDt.mk.injEq, true_and]
  refine ⟨?_, ?_, ?_, ?_⟩ <;> omega

/-- **C30**, the calendar: day 0 is 1970-01-01 and each day is followed by the next calendar day;
different days have different dates. (About the specification `civilDate` used above, over
all integers.) -/
theorem C30_calendar : civilDate 0 = ⟨1970, 1, 1⟩ ∧ (∀ k, civilDate (k + 1) = (civilDate k).next) ∧
    (∀ k, (civilDate k).Valid) ∧ (∀ j k, civilDate j = civilDate k → j = k) :=
  ⟨rfl, civilDate_succ, fun k => (civilDate_valid k).1, fun _ _ => civilDate_inj⟩

example : SPLIT_DATE .u16 951782400000000000 = .ok ⟨0, 2000, 2, 29⟩ ∧
    SPLIT_DATE .i32 (-1) = .ok ⟨0, 1969, 12, 31⟩ := by decide +kernel

/-- SPLIT_TOD in terms of the time of day. -/
private theorem split_tod_eq (t : IntTy) (ht : IsDateTy t) (n : Int) :
    SPLIT_TOD t n = .ok ⟨0, timeOfDay n / 3600000000000, timeOfDay n / 60000000000 % 60,
      timeOfDay n / 1000000000 % 60, timeOfDay n / 1000000 % 1000⟩ := by
  have h1 := ts_secs n
  have h2 := ts_frac n
  have h3 := tod_bounds n
  unfold D at h3
  unfold SPLIT_TOD
  simp only [NaiveTime.hour, NaiveTime.minute, NaiveTime.second, NaiveDateTime.timestamp_subsec_millis]
  generalize (timestamp_nanos_utc n).time.secs = s at *
  generalize (timestamp_nanos_utc n).time.frac = fr at *
  rw [wrap_small ht (by omega), wrap_small ht (by omega), wrap_small ht (by omega), wrap_small ht (by omega)]
  simp only [Res.pure_eq, Res.ok.injEq, SplitTod.mk.injEq, true_and]
  refine ⟨?_, ?_, ?_, ?_⟩ <;> omega

/-- **C31.** On every timestamp and for every integer type, SPLIT_DATE, SPLIT_TOD and SPLIT_DT
succeed, return 0, and all outputs are in range. -/
theorem C31_split_total (t : IntTy) (ht : IsDateTy t) (n : Int) (hn : IntTy.i64.InRange n) :
    (∃ r, SPLIT_DATE t n = .ok r ∧ r.ret = 0 ∧ 1677 ≤ r.year ∧ r.year ≤ 2262 ∧ 1 ≤ r.month ∧ r.month ≤ 12 ∧
      1 ≤ r.day ∧ r.day ≤ 31) ∧
    (∃ r, SPLIT_TOD t n = .ok r ∧ r.ret = 0 ∧ 0 ≤ r.hour ∧ r.hour ≤ 23 ∧ 0 ≤ r.minute ∧ r.minute ≤ 59 ∧
      0 ≤ r.second ∧ r.second ≤ 59 ∧ 0 ≤ r.milli ∧ r.milli ≤ 999) ∧
    (∃ r, SPLIT_DT t n = .ok r ∧ r.ret = 0 ∧ 1677 ≤ r.year ∧ r.year ≤ 2262 ∧ 1 ≤ r.month ∧ r.month ≤ 12 ∧
      1 ≤ r.day ∧ r.day ≤ 31 ∧ 0 ≤ r.hour ∧ r.hour ≤ 23 ∧ 0 ≤ r.minute ∧ r.minute ≤ 59 ∧
      0 ≤ r.second ∧ r.second ≤ 59 ∧ 0 ≤ r.milli ∧ r.milli ≤ 999) := by
  have hy := year_range hn
  obtain ⟨a, b, c, d⟩ := date_small (dayOf n)
  have h3 := tod_bounds n
  unfold D at h3
  refine ⟨⟨_, C30_split_date t ht n hn, rfl, hy.1, hy.2, ?_, ?_, ?_, ?_⟩,
    ⟨_, split_tod_eq t ht n, rfl, ?_, ?_, ?_, ?_, ?_, ?_, ?_, ?_⟩,
    ⟨_, C30_split_dt t ht n hn, rfl, hy.1, hy.2, ?_, ?_, ?_, ?_, ?_, ?_, ?_, ?_, ?_, ?_, ?_, ?_⟩⟩ <;>
    simp only <;> omega

/-! ### CONCAT_DATE -/

private theorem concat_date_eq (y : Int) (m d : Nat) :
    concat_date y m d = match NaiveDate.from_ymd_opt y m d with
      | some nd => NaiveDateTime.timestamp_nanos ⟨nd, ⟨0, 0⟩⟩
      | none => .panic := by
  unfold concat_date
  cases h : NaiveDate.from_ymd_opt y m d with
  | none => rfl
  | some nd => rfl

/-- **C33.** `concat_date y m d` returns midnight of the day whose date is `y-m-d` if there is such a day
and that midnight fits in 64 bits, and panics otherwise. -/
theorem C33_concat_date (y : Int) (m d : Nat) :
    (∀ k, civilDate k = ⟨y, m, d⟩ → IntTy.i64.InRange (k * D) → concat_date y m d = .ok (k * D)) ∧
    ((¬ ∃ k, civilDate k = ⟨y, m, d⟩ ∧ IntTy.i64.InRange (k * D)) → concat_date y m d = .panic) := by
  constructor
  · intro k hk hr
    have hy := year_range_day hr
    rw [hk] at hy
    simp only at hy
    rw [concat_date_eq, (from_ymd_spec y m d).1 k hk (by omega)]
    simp only
    rw [timestamp_nanos_civil]
    simp only [Nat.cast_zero, Int.zero_mul, Int.add_zero]
    rw [if_pos (by simpa using hr)]
  · intro hno
    rw [concat_date_eq]
    cases h : NaiveDate.from_ymd_opt y m d with
    | none => rfl
    | some nd =>
      obtain ⟨k, hk, hnd, _⟩ := (from_ymd_spec y m d).2 nd h
      simp only
      rw [hnd, timestamp_nanos_civil, if_neg]
      intro hr
      exact hno ⟨k, hk, by simpa using hr⟩

/-- **C33**, the dates: a date exists iff its day is between 1 and the length of its month. -/
theorem C33_valid_dates (y : Int) (m d : Nat) :
    (∃ k, civilDate k = ⟨y, m, d⟩) ↔ Date.Valid ⟨y, m, d⟩ := by
  constructor
  · rintro ⟨k, hk⟩
    rw [← hk]; exact (civilDate_valid k).1
  · intro h
    exact ⟨_, (civil_of_valid h).2⟩

example : concat_date 2000 2 29 = .ok 951782400000000000 ∧ concat_date 1900 2 29 = .panic ∧
    concat_date 2263 1 1 = .panic := by decide +kernel

private theorem concat_date_ok {y : Int} {m d : Nat} {n : Int} (h : concat_date y m d = .ok n) :
    ∃ k, civilDate k = ⟨y, m, d⟩ ∧ IntTy.i64.InRange (k * D) ∧ n = k * D := by
  by_cases hex : ∃ k, civilDate k = ⟨y, m, d⟩ ∧ IntTy.i64.InRange (k * D)
  · obtain ⟨k, hk, hr⟩ := hex
    rw [(C33_concat_date y m d).1 k hk hr] at h
    exact ⟨k, hk, hr, (Res.ok.inj h).symm⟩
  · rw [(C33_concat_date y m d).2 hex] at h; cases h

/-- The claim of C32 about SPLIT_DATE after CONCAT_DATE. -/
def SplitInvertsConcatDate (t : IntTy) : Prop :=
  ∀ y m d n, t.InRange y → t.InRange m → t.InRange d → CONCAT_DATE t y m d = .ok n →
    SPLIT_DATE t n = .ok ⟨0, y, m, d⟩

/-- **C32 is false** for LINT and ULINT: CONCAT_DATE(2^32 + 1970, 1, 1) is accepted and splits to
1970-01-01. -/
theorem C32_refuted : ¬ SplitInvertsConcatDate .i64 ∧ ¬ SplitInvertsConcatDate .u64 :=
  ⟨fun H => absurd (H 4294969266 1 1 0 (by decide) (by decide) (by decide) (by decide +kernel)) (by decide +kernel),
   fun H => absurd (H 4294969266 1 1 0 (by decide) (by decide) (by decide) (by decide +kernel)) (by decide +kernel)⟩

/-- **C32, what holds**, SPLIT after CONCAT: whenever CONCAT_DATE of INT, UINT, DINT or UDINT arguments succeeds,
SPLIT_DATE returns the three arguments. (64-bit arguments are truncated first, see C36.) -/
theorem C32_split_concat_partial (t : IntTy) (ht : IsDateTy t) (y m d : Int) (hb : t.bits ≤ 32) (hy : t.InRange y)
    (hm : t.InRange m) (hd : t.InRange d) (n : Int) (h : CONCAT_DATE t y m d = .ok n) :
    SPLIT_DATE t n = .ok ⟨0, y, m, d⟩ := by
  unfold CONCAT_DATE at h
  obtain ⟨k, hk, hr, rfl⟩ := concat_date_ok h
  have hyr := year_range_day hr
  obtain ⟨e1, e2, e3, e4⟩ := date_small k
  rw [C30_split_date t ht _ hr, show dayOf (k * D) = k by unfold dayOf D; omega]
  rw [hk] at *
  simp only at hyr e1 e2 e3 e4 ⊢
  have key32 : ∀ x : Int, t.InRange x → -2147483648 ≤ x ∧ x ≤ 4294967295 := by
    intro x hx
    rcases ht with rfl | rfl | rfl | rfl | rfl | rfl <;>
      simp [IntTy.InRange, IntTy.i16, IntTy.u16, IntTy.i32, IntTy.u32, IntTy.i64, IntTy.u64, IntTy.lo,
        IntTy.hi] at hx hb ⊢ <;> omega
  have wi : ∀ x : Int, IntTy.i32.wrap x = Int.bmod x (2 ^ 32) := fun _ => rfl
  have wu : ∀ x : Int, IntTy.u32.wrap x = x % 4294967296 := fun x => by
    show x % ((2 ^ 32 : Nat) : Int) = _; norm_num
  have a1 := key32 y hy
  have a2 := key32 m hm
  have a3 := key32 d hd
  rw [wi] at hyr ⊢
  rw [wu] at e1 e2 ⊢
  rw [wu] at e3 e4 ⊢
  have b1 : Int.bmod y (2 ^ 32) = y := by
    have c : (2 ^ 32 : Nat) = 4294967296 := by norm_num
    rw [c] at hyr ⊢
    rw [Int.bmod_def] at hyr ⊢
    split at hyr <;> rename_i hs <;> simp only [hs, if_true, if_false] <;> omega
  rw [b1]
  have b2 : (((m % 4294967296).toNat : Nat) : Int) = m := by omega
  have b3 : (((d % 4294967296).toNat : Nat) : Int) = d := by omega
  rw [b2, b3]

/-- **C32**, CONCAT after SPLIT: for every timestamp whose midnight is representable (all but those of the
first, partial, day of the 64-bit range), CONCAT_DATE of the outputs of SPLIT_DATE is that midnight. -/
theorem C32_concat_split (t : IntTy) (ht : IsDateTy t) (n : Int) (hn : IntTy.i64.InRange n)
    (hmid : IntTy.i64.InRange (n - timeOfDay n)) (r : SplitDate) (hr : SPLIT_DATE t n = .ok r) :
    CONCAT_DATE t r.year r.month r.day = .ok (n - timeOfDay n) := by
  rw [C30_split_date t ht n hn] at hr
  have hr := (Res.ok.inj hr).symm
  subst hr
  simp only
  have hy := year_range hn
  obtain ⟨a, b, c, d⟩ := date_small (dayOf n)
  have hdt := day_tod n
  have hk : n - timeOfDay n = dayOf n * D := by omega
  rw [hk] at hmid ⊢
  unfold CONCAT_DATE
  rw [IntTy.wrap_of_inRange .i32 (by decide) (dateTy_small (.inr (.inr (.inl rfl))) (by omega)),
    IntTy.wrap_of_inRange .u32 (by decide) (dateTy_small (.inr (.inr (.inr (.inl rfl)))) (by omega)),
    IntTy.wrap_of_inRange .u32 (by decide) (dateTy_small (.inr (.inr (.inr (.inl rfl)))) (by omega))]
  simp only [Int.toNat_natCast]
  exact (C33_concat_date _ _ _).1 (dayOf n) rfl hmid

/-- Non-vacuity: on the very first day the midnight is not representable, and CONCAT_DATE
panics. -/
example : SPLIT_DATE .i16 (-2 ^ 63) = .ok ⟨0, 1677, 9, 21⟩ ∧ CONCAT_DATE .i16 1677 9 21 = .panic ∧
    CONCAT_DATE .i16 1677 9 22 = .ok (-9223286400000000000) := by decide +kernel

/-! ### DATE_AND_TIME and its parts -/

/-- **C34**, DATE_AND_TIME_TO_DATE rounds down to midnight (and panics only on the first, partial, day of the
64-bit range). -/
theorem C34_date (n : Int) (hn : IntTy.i64.InRange n) :
    (IntTy.i64.InRange (n - timeOfDay n) → DATE_AND_TIME_TO_DATE n = .ok (n - timeOfDay n)) ∧
    (¬ IntTy.i64.InRange (n - timeOfDay n) → DATE_AND_TIME_TO_DATE n = .panic ∧
      dayOf n = dayOf (-9223372036854775808)) := by
  have hdt := day_tod n
  have hb := tod_bounds n
  have e : DATE_AND_TIME_TO_DATE n = if IntTy.i64.InRange (n - timeOfDay n)
      then .ok (n - timeOfDay n) else .panic := by
    unfold DATE_AND_TIME_TO_DATE
    show NaiveDateTime.timestamp_nanos ⟨(timestamp_nanos_utc n).date, ⟨0, 0⟩⟩ = _
    rw [ts_date, timestamp_nanos_civil]
    simp only [Nat.cast_zero, Int.zero_mul, Int.add_zero]
    rw [show dayOf n * D = n - timeOfDay n by omega]
  rw [e]
  constructor
  · intro h; rw [if_pos h]
  · intro h
    refine ⟨if_neg h, ?_⟩
    rw [i64_range] at h hn
    unfold dayOf timeOfDay at *
    omega

private theorem unwrap_dt {a : Option NaiveDate} {b : Option NaiveTime} {d : NaiveDate} {t : NaiveTime}
    (ha : a = some d) (hb : b = some t) :
    (Res.unwrap (do
      let date ← a
      let t ← b
      pure (⟨date, t⟩ : NaiveDateTime)) >>= fun dt => dt.timestamp_nanos) =
      NaiveDateTime.timestamp_nanos ⟨d, t⟩ := by
  subst ha hb; rfl

/-- **C34**, DATE_AND_TIME_TO_TIME_OF_DAY is the remainder in [0, 24h). -/
theorem C34_time_of_day (n : Int) :
    DATE_AND_TIME_TO_TIME_OF_DAY n = .ok (timeOfDay n) ∧ 0 ≤ timeOfDay n ∧ timeOfDay n < D := by
  have hb := tod_bounds n
  have h1 := ts_secs n
  have h2 := ts_frac n
  refine ⟨?_, hb⟩
  unfold DATE_AND_TIME_TO_TIME_OF_DAY
  refine (unwrap_dt epoch_date (time_rebuild n)).trans ?_
  refine (timestamp_nanos_civil 0 _).trans ?_
  have e : (0 : Int) * D + ((timestamp_nanos_utc n).time.secs * 1000000000 + (timestamp_nanos_utc n).time.frac) =
      timeOfDay n := by rw [h1, h2]; omega
  rw [e]
  exact if_pos (by rw [i64_range]; unfold D at hb; omega)

/-- **C34**, CONCAT_DATE_TOD takes the day of its first and the time of day of its second argument, and
panics iff the result does not fit. -/
theorem C34_concat (a b : Int) :
    CONCAT_DATE_TOD a b = if IntTy.i64.InRange (dayOf a * D + timeOfDay b)
      then .ok (dayOf a * D + timeOfDay b) else .panic := by
  have h1 := ts_secs b
  have h2 := ts_frac b
  unfold CONCAT_DATE_TOD
  simp only [time_rebuild, ts_date]
  show NaiveDateTime.timestamp_nanos ⟨civil (dayOf a), (timestamp_nanos_utc b).time⟩ = _
  rw [timestamp_nanos_civil, h1, h2,
    show timeOfDay b / 1000000000 * 1000000000 + timeOfDay b % 1000000000 = timeOfDay b by omega]

/-- **C34**, recombining the two parts gives back the timestamp. -/
theorem C34_recombine (n d tod : Int) (hn : IntTy.i64.InRange n) (hd : DATE_AND_TIME_TO_DATE n = .ok d)
    (ht : DATE_AND_TIME_TO_TIME_OF_DAY n = .ok tod) : CONCAT_DATE_TOD d tod = .ok n := by
  have hdt := day_tod n
  have hb := tod_bounds n
  by_cases h : IntTy.i64.InRange (n - timeOfDay n)
  · rw [(C34_date n hn).1 h] at hd
    rw [(C34_time_of_day n).1] at ht
    have hd := (Res.ok.inj hd).symm
    have ht := (Res.ok.inj ht).symm
    subst hd ht
    rw [C34_concat]
    rw [show dayOf (n - timeOfDay n) = dayOf n by unfold dayOf timeOfDay; omega,
      show timeOfDay (timeOfDay n) = timeOfDay n by unfold timeOfDay; omega, hdt, if_pos hn]
  · rw [((C34_date n hn).2 h).1] at hd; cases hd

/-- **C34** for the Structured Text conversions DT/LDT_TO_DATE and DT/LDT_TO_TOD/LTOD: each gives the day or the
time of day, and together they give back the timestamp. -/
theorem C34_conversions (n : Int) (hn : IntTy.i64.InRange n) :
    (∀ F ∈ [DT_TO_DATE, LDT_TO_DATE], (IntTy.i64.InRange (dayOf n * D) → F n = .ok (dayOf n * D)) ∧
      (¬ IntTy.i64.InRange (dayOf n * D) → F n = .panic)) ∧
    (∀ G ∈ [DT_TO_TOD, DT_TO_LTOD, LDT_TO_TOD, LDT_TO_LTOD], G n = .ok (timeOfDay n)) := by
  have hdt := day_tod n
  have e : n - timeOfDay n = dayOf n * D := by omega
  refine ⟨?_, ?_⟩
  · intro F hF
    have : F n = DATE_AND_TIME_TO_DATE n := by
      simp only [List.mem_cons, List.not_mem_nil, or_false] at hF
      rcases hF with rfl | rfl <;> rfl
    rw [this, ← e]
    exact ⟨(C34_date n hn).1, fun h => ((C34_date n hn).2 h).1⟩
  · intro G hG
    have : G n = DATE_AND_TIME_TO_TIME_OF_DAY n := by
      simp only [List.mem_cons, List.not_mem_nil, or_false] at hG
      rcases hG with rfl | rfl | rfl | rfl <;> rfl
    rw [this]
    exact (C34_time_of_day n).1

example : DATE_AND_TIME_TO_DATE 1000000000123456789 = .ok 999993600000000000 ∧
    DATE_AND_TIME_TO_TIME_OF_DAY 1000000000123456789 = .ok 6400123456789 := by decide +kernel

/-! ### CONCAT_TOD -/

/-- The claim of C35 about acceptance. -/
def ConcatTodRejectsInvalid : Prop :=
  ∀ h m s ms : Nat, h < 2 ^ 32 → m < 2 ^ 32 → s < 2 ^ 32 → ms < 2 ^ 32 →
    ((∃ n, concat_tod h m s ms = .ok n) ↔ (h < 24 ∧ m < 60 ∧ s < 60 ∧ ms < 1000))

/-- **C35 is false** of the code: in second 59, milliseconds 1000..1999 are accepted (chrono's leap
seconds), e.g. 23:59:59 + 1500 ms, which yields a TIME_OF_DAY beyond 24 h. -/
theorem C35_refuted : ¬ ConcatTodRejectsInvalid := by
  intro H
  have := (H 23 59 59 1500 (by decide) (by decide) (by decide) (by decide)).1
    ⟨86400500000000, by decide +kernel⟩
  omega

/-- Exact outcome of CONCAT_TOD. -/
private theorem concat_tod_eq (h m s ms : Nat) :
    concat_tod h m s ms = if h < 24 ∧ m < 60 ∧ s < 60 ∧ (ms < 1000 ∨ (s = 59 ∧ ms < 2000))
      then .ok ((((h * 60 + m) * 60 + s) * 1000 + ms : Nat) * 1000000) else .panic := by
  unfold concat_tod
  by_cases hv : h < 24 ∧ m < 60 ∧ s < 60 ∧ (ms < 1000 ∨ (s = 59 ∧ ms < 2000))
  · have hms : NaiveTime.from_hms_milli_opt h m s ms = some ⟨h * 3600 + m * 60 + s, ms * 1000000⟩ := by
      unfold NaiveTime.from_hms_milli_opt NaiveTime.from_hms_nano_opt
      rw [if_pos (by omega), if_neg (by omega)]
    rw [if_pos hv]
    refine (unwrap_dt epoch_date hms).trans ?_
    refine (timestamp_nanos_civil 0 _).trans ?_
    simp only
    have e : (0 : Int) * D + (((h * 3600 + m * 60 + s : Nat) : Int) * 1000000000 + ((ms * 1000000 : Nat) : Int)) =
        (((h * 60 + m) * 60 + s) * 1000 + ms : Nat) * 1000000 := by
      push_cast; omega
    rw [e, if_pos (by rw [i64_range]; push_cast; omega)]
  · have hms : NaiveTime.from_hms_milli_opt h m s ms = none := by
      unfold NaiveTime.from_hms_milli_opt NaiveTime.from_hms_nano_opt
      split
      · rw [if_pos (by omega)]
      · rfl
    rw [hms, if_neg hv]
    rfl

/-- **C35, what holds.** CONCAT_TOD succeeds iff hour < 24, minute < 60, second < 60 and the
milliseconds are below 1000 — or below 2000 in second 59 —, with the exact value; for milliseconds below 1000
SPLIT_TOD inverts it, and CONCAT_TOD of the outputs of SPLIT_TOD is the time of day rounded down to
milliseconds. -/
theorem C35_partial (t : IntTy) (ht : IsDateTy t) :
    (∀ h m s ms : Nat, (h < 24 ∧ m < 60 ∧ s < 60 ∧ (ms < 1000 ∨ (s = 59 ∧ ms < 2000))) →
      concat_tod h m s ms = .ok ((((h * 60 + m) * 60 + s) * 1000 + ms : Nat) * 1000000)) ∧
    (∀ h m s ms : Nat, ¬ (h < 24 ∧ m < 60 ∧ s < 60 ∧ (ms < 1000 ∨ (s = 59 ∧ ms < 2000))) →
      concat_tod h m s ms = .panic) ∧
    (∀ (h m s ms : Nat) (n : Int), ms < 1000 → concat_tod h m s ms = .ok n →
      SPLIT_TOD t n = .ok ⟨0, h, m, s, ms⟩) ∧
    (∀ n, IntTy.i64.InRange n → ∀ r, SPLIT_TOD t n = .ok r →
      concat_tod r.hour.toNat r.minute.toNat r.second.toNat r.milli.toNat =
        .ok (timeOfDay n / 1000000 * 1000000)) := by
  refine ⟨?_, ?_, ?_, ?_⟩
  · intro h m s ms hv; rw [concat_tod_eq, if_pos hv]
  · intro h m s ms hv; rw [concat_tod_eq, if_neg hv]
  · intro h m s ms n hms hn
    rw [concat_tod_eq] at hn
    split at hn
    · rename_i hv
      have hn := (Res.ok.inj hn).symm
      subst hn
      rw [split_tod_eq t ht]
      have e : timeOfDay ((((h * 60 + m) * 60 + s) * 1000 + ms : Nat) * 1000000) =
          (((h * 60 + m) * 60 + s) * 1000 + ms : Nat) * 1000000 := by
        unfold timeOfDay; push_cast; omega
      rw [e]
      simp only [Res.ok.injEq, SplitTod.mk.injEq, true_and]
      push_cast
      refine ⟨?_, ?_, ?_, ?_⟩ <;> omega
    · cases hn
  · intro n hn r hr
    rw [split_tod_eq t ht] at hr
    have hr := (Res.ok.inj hr).symm
    subst hr
    have h3 := tod_bounds n
    unfold D at h3
    simp only
    rw [concat_tod_eq, if_pos (by omega)]
    congr 1
    push_cast
    omega

example : CONCAT_TOD .i16 13 5 7 250 = .ok 47107250000000 ∧
    SPLIT_TOD .i16 47107250000000 = .ok ⟨0, 13, 5, 7, 250⟩ := by decide +kernel

/-! ### Argument types of CONCAT -/

/-- The claim of C36: arguments outside their legal range are rejected. -/
def ConcatRejectsOutOfRange (t : IntTy) : Prop :=
  (∀ y m d, t.InRange y → t.InRange m → t.InRange d →
    (∃ n, CONCAT_DATE t y m d = .ok n) → 1677 ≤ y ∧ y ≤ 2262 ∧ 1 ≤ m ∧ m ≤ 12 ∧ 1 ≤ d ∧ d ≤ 31) ∧
  (∀ h m s ms, t.InRange h → t.InRange m → t.InRange s → t.InRange ms →
    (∃ n, CONCAT_TOD t h m s ms = .ok n) →
    0 ≤ h ∧ h < 24 ∧ 0 ≤ m ∧ m < 60 ∧ 0 ≤ s ∧ s < 60 ∧ 0 ≤ ms ∧ ms < 1000)

/-- **C36 is false** for every type with more than 8 bits. For LINT and ULINT the date half is false:
year 2^32 + 1970 is accepted as 1970. For all of them the time half is false (leap second). -/
theorem C36_refuted (t : IntTy) (ht : IsDateTy t) : ¬ ConcatRejectsOutOfRange t := by
  intro H
  rcases ht with rfl | rfl | rfl | rfl | rfl | rfl
  · exact absurd (H.2 0 0 59 1000 (by decide) (by decide) (by decide) (by decide) ⟨60000000000, by decide +kernel⟩)
      (by decide)
  · exact absurd (H.2 0 0 59 1000 (by decide) (by decide) (by decide) (by decide) ⟨60000000000, by decide +kernel⟩)
      (by decide)
  · exact absurd (H.2 0 0 59 1000 (by decide) (by decide) (by decide) (by decide) ⟨60000000000, by decide +kernel⟩)
      (by decide)
  · exact absurd (H.2 0 0 59 1000 (by decide) (by decide) (by decide) (by decide) ⟨60000000000, by decide +kernel⟩)
      (by decide)
  · exact absurd (H.1 4294969266 1 1 (by decide) (by decide) (by decide) ⟨0, by decide +kernel⟩) (by decide)
  · exact absurd (H.1 4294969266 1 1 (by decide) (by decide) (by decide) ⟨0, by decide +kernel⟩) (by decide)

private theorem todTy_range {t : IntTy} (ht : IsTodTy t) (hb : t.bits ≤ 32) {x : Int} (hx : t.InRange x) :
    -2147483648 ≤ x ∧ x ≤ 4294967295 := by
  rcases ht with rfl | rfl | rfl | rfl | rfl | rfl | rfl | rfl <;>
    simp [IntTy.InRange, IntTy.i8, IntTy.u8, IntTy.i16, IntTy.u16, IntTy.i32, IntTy.u32, IntTy.i64, IntTy.u64,
      IntTy.lo, IntTy.hi] at hx hb ⊢ <;> omega

private theorem u32_wrap (x : Int) : IntTy.u32.wrap x = x % 4294967296 := by
  show x % ((2 ^ 32 : Nat) : Int) = _; norm_num

private theorem i32_wrap_cases (x : Int) : ∃ k, IntTy.i32.wrap x = x + 4294967296 * k := by
  obtain ⟨k, hk⟩ := IntTy.wrap_congr .i32 x
  have e : ((2 ^ IntTy.i32.bits : Nat) : Int) = 4294967296 := by decide
  rw [e] at hk
  exact ⟨k, by omega⟩

/-- **C36, what holds.** (i) For types of at most 32 bits, CONCAT_DATE succeeds only on an existing
calendar date (which must then be the date of the result); (ii) for these types CONCAT_TOD succeeds only
with hour < 24, minute < 60, second < 60, milliseconds < 1000 (< 2000 in second 59), no argument
negative; for SINT and USINT the milliseconds are always below 1000; (iii) for LINT and ULINT the functions depend only on
the arguments modulo 2^32. -/
theorem C36_partial (t : IntTy) (ht : IsTodTy t) :
    (t.bits ≤ 32 → ∀ y m d n, t.InRange y → t.InRange m → t.InRange d → CONCAT_DATE t y m d = .ok n →
      0 ≤ m ∧ 0 ≤ d ∧ civilDate (dayOf n) = ⟨y, m.toNat, d.toNat⟩) ∧
    (t.bits ≤ 32 → ∀ h m s ms n, t.InRange h → t.InRange m → t.InRange s → t.InRange ms →
      CONCAT_TOD t h m s ms = .ok n →
      0 ≤ h ∧ h < 24 ∧ 0 ≤ m ∧ m < 60 ∧ 0 ≤ s ∧ s < 60 ∧ 0 ≤ ms ∧ (ms < 1000 ∨ (s = 59 ∧ ms < 2000)) ∧
      (t.bits = 8 → ms < 1000)) ∧
    (∀ a b c a' b' c', a % 4294967296 = a' % 4294967296 → b % 4294967296 = b' % 4294967296 →
      c % 4294967296 = c' % 4294967296 → CONCAT_DATE t a b c = CONCAT_DATE t a' b' c') ∧
    (∀ a b c d a' b' c' d', a % 4294967296 = a' % 4294967296 → b % 4294967296 = b' % 4294967296 →
      c % 4294967296 = c' % 4294967296 → d % 4294967296 = d' % 4294967296 →
      CONCAT_TOD t a b c d = CONCAT_TOD t a' b' c' d') := by
  refine ⟨?_, ?_, ?_, ?_⟩
  · intro hb y m d n hy hm hd h
    unfold CONCAT_DATE at h
    obtain ⟨k, hk, hr, rfl⟩ := concat_date_ok h
    have hyr := year_range_day hr
    obtain ⟨e1, e2, e3, e4⟩ := date_small k
    rw [hk] at hyr e1 e2 e3 e4
    simp only at hyr e1 e2 e3 e4
    have a1 := todTy_range ht hb hy
    have a2 := todTy_range ht hb hm
    have a3 := todTy_range ht hb hd
    obtain ⟨j, hj⟩ := i32_wrap_cases y
    rw [u32_wrap] at e1 e2 e3 e4
    have hyy : IntTy.i32.wrap y = y := by omega
    rw [show dayOf (k * D) = k by unfold dayOf D; omega, hk, hyy, u32_wrap, u32_wrap]
    have b2 : m % 4294967296 = m := by omega
    have b3 : d % 4294967296 = d := by omega
    rw [b2, b3]
    exact ⟨by omega, by omega, rfl⟩
  · intro hb h m s ms n hh hm hs hms hc
    unfold CONCAT_TOD at hc
    rw [concat_tod_eq, u32_wrap, u32_wrap, u32_wrap, u32_wrap] at hc
    have a1 := todTy_range ht hb hh
    have a2 := todTy_range ht hb hm
    have a3 := todTy_range ht hb hs
    have a4 := todTy_range ht hb hms
    have a5 : t.bits = 8 → ms < 1000 := by
      intro h8
      rcases ht with rfl | rfl | rfl | rfl | rfl | rfl | rfl | rfl <;>
        simp [IntTy.InRange, IntTy.i8, IntTy.u8, IntTy.i16, IntTy.u16, IntTy.i32, IntTy.u32, IntTy.i64, IntTy.u64,
          IntTy.lo, IntTy.hi] at hms h8 <;> omega
    split at hc
    · rename_i hv
      refine ⟨by omega, by omega, by omega, by omega, by omega, by omega, by omega, by omega, a5⟩
    · cases hc
  · intro a b c a' b' c' h1 h2 h3
    unfold CONCAT_DATE
    have : IntTy.i32.wrap a = IntTy.i32.wrap a' := by
      apply IntTy.eq_of_congr .i32 (by decide) (IntTy.wrap_inRange _ (by decide) _)
        (IntTy.wrap_inRange _ (by decide) _)
      obtain ⟨k, hk⟩ := i32_wrap_cases a
      obtain ⟨k', hk'⟩ := i32_wrap_cases a'
      have : ((2 ^ IntTy.i32.bits : Nat) : Int) = 4294967296 := by decide
      rw [this]
      omega
    rw [this, u32_wrap, u32_wrap, u32_wrap, u32_wrap, h2, h3]
  · intro a b c d a' b' c' d' h1 h2 h3 h4
    unfold CONCAT_TOD
    simp only [u32_wrap, h1, h2, h3, h4]

example : CONCAT_DATE .i16 2024 (-1) 5 = .panic ∧ CONCAT_DATE .i16 2024 12 31 = .ok 1735603200000000000 ∧
    CONCAT_TOD .i8 (-1) 0 0 0 = .panic := by decide +kernel

/-! ### DAY_OF_WEEK -/

/-- **C37.** DAY_OF_WEEK is in 0..6, is 4 on 1970-01-01, depends only on the day, and advances by one
modulo 7 from each day to the next. -/
theorem C37_day_of_week (n : Int) :
    (0 ≤ DAY_OF_WEEK n ∧ DAY_OF_WEEK n ≤ 6) ∧
    (dayOf n = 0 → DAY_OF_WEEK n = 4) ∧
    (∀ n', dayOf n' = dayOf n → DAY_OF_WEEK n' = DAY_OF_WEEK n) ∧
    (∀ n', dayOf n' = dayOf n + 1 → DAY_OF_WEEK n' = (DAY_OF_WEEK n + 1) % 7) := by
  have key : ∀ n, DAY_OF_WEEK n = (dayOf n + 4) % 7 := by
    intro n
    unfold DAY_OF_WEEK
    rw [ts_date]
    unfold NaiveDate.num_days_from_sunday
    rw [civil_num_days, IntTy.wrap_of_inRange _ (by decide)]
    · omega
    · simp [IntTy.InRange, IntTy.i8, IntTy.lo, IntTy.hi]; omega
  refine ⟨by rw [key]; omega, by intro h; rw [key, h]; rfl, by intro n' h; rw [key, key, h], ?_⟩
  intro n' h
  rw [key, key, h]; omega

example : DAY_OF_WEEK 951782400000000000 = 2 := by decide +kernel

/-! ### CONCAT_DT -/

/-- The claim of C71: CONCAT_DT puts the seven parts together, or panics. -/
def ConcatDtExact (t : IntTy) : Prop :=
  ∀ y m d h mi s ms n, t.InRange y → t.InRange m → t.InRange d → t.InRange h → t.InRange mi → t.InRange s →
    t.InRange ms → CONCAT_DT t y m d h mi s ms = .ok n → SPLIT_DT t n = .ok ⟨0, y, m, d, h, mi, s, ms⟩

/-- **C71 is false** of the code: `CONCAT_DT(2000,1,1,23,59,59,1500)` is accepted and is the instant
2000-01-01 00:00:00.5, one day too early. -/
theorem C71_refuted (t : IntTy) (ht : IsDateTy t) : ¬ ConcatDtExact t := by
  intro H
  rcases ht with rfl | rfl | rfl | rfl | rfl | rfl <;>
    exact absurd (H 2000 1 1 23 59 59 1500 946684800500000000 (by decide) (by decide) (by decide) (by decide)
      (by decide) (by decide) (by decide) (by decide +kernel)) (by decide +kernel)

/-- **C71, what holds.** For argument types of at most 32 bits and milliseconds below 1000,
whenever CONCAT_DT succeeds SPLIT_DT gives back all seven arguments. -/
theorem C71_partial (t : IntTy) (ht : IsDateTy t) (hb : t.bits ≤ 32) (y m d h mi s ms n : Int)
    (hy : t.InRange y) (hm : t.InRange m) (hd : t.InRange d) (hh : t.InRange h) (hmi : t.InRange mi)
    (hs : t.InRange s) (hms : t.InRange ms) (hlt : ms < 1000) (hok : CONCAT_DT t y m d h mi s ms = .ok n) :
    SPLIT_DT t n = .ok ⟨0, y, m, d, h, mi, s, ms⟩ := by
  unfold CONCAT_DT at hok
  rw [Res.bind_eq_ok] at hok
  obtain ⟨da, hda, hok⟩ := hok
  rw [Res.bind_eq_ok] at hok
  obtain ⟨td, htd, hok⟩ := hok
  have hp := (C36_partial t (.inr (.inr ht))).1 hb y m d da hy hm hd hda
  have hq := (C36_partial t (.inr (.inr ht))).2.1 hb h mi s ms td hh hmi hs hms htd
  unfold CONCAT_TOD at htd
  rw [concat_tod_eq] at htd
  have e : ∀ x : Int, 0 ≤ x → x < 4294967296 → IntTy.u32.wrap x = x := by
    intro x h1 h2; rw [u32_wrap]; omega
  rw [e h (by omega) (by omega), e mi (by omega) (by omega), e s (by omega) (by omega),
    e ms (by omega) (by omega), if_pos (by omega)] at htd
  have htd := (Res.ok.inj htd).symm
  subst htd
  rw [C34_concat] at hok
  split at hok
  · rename_i hr
    have hok := (Res.ok.inj hok).symm
    subst hok
    rw [C30_split_dt t ht _ hr, dayOf_mk _ _ (tod_bounds _), timeOfDay_mk _ _ (tod_bounds _), hp.2.2]
    simp only [Res.ok.injEq, SplitDt.mk.injEq, true_and]
    unfold timeOfDay
    push_cast
    refine ⟨by omega, by omega, by omega, by omega, by omega, by omega⟩
  · cases hok

example : CONCAT_DT .i32 2000 2 29 12 30 15 999 = .ok 951827415999000000 ∧
    SPLIT_DT .i32 951827415999000000 = .ok ⟨0, 2000, 2, 29, 12, 30, 15, 999⟩ := by decide +kernel

/-! ### CONCAT then SPLIT for every argument type -/

/-- `x` and `y` agree in their low 32 bits. -/
def SameLow32 (x y : Int) : Prop := x % 4294967296 = y % 4294967296

/-- **C32, what holds** for every argument type: whenever CONCAT_DATE succeeds, the three outputs of SPLIT_DATE agree with the three
arguments in the low 32 bits; nothing else of LINT and ULINT arguments is kept. -/
theorem C32_any_type_partial (t : IntTy) (ht : IsDateTy t) (y m d n : Int) (h : CONCAT_DATE t y m d = .ok n) :
    ∃ r, SPLIT_DATE t n = .ok r ∧ r.ret = 0 ∧ SameLow32 r.year y ∧ SameLow32 r.month m ∧ SameLow32 r.day d := by
  unfold CONCAT_DATE at h
  obtain ⟨k, hk, hr, rfl⟩ := concat_date_ok h
  rw [C30_split_date t ht _ hr, show dayOf (k * D) = k by unfold dayOf D; omega, hk]
  refine ⟨_, rfl, rfl, ?_, ?_, ?_⟩
  · obtain ⟨j, hj⟩ := i32_wrap_cases y
    simp only [SameLow32, hj]; omega
  · simp only [SameLow32, u32_wrap]; omega
  · simp only [SameLow32, u32_wrap]; omega

/-- Year 2^32 + 2024 of a LINT is the year 2024. -/
example : CONCAT_DATE .i64 4294969320 12 31 = .ok 1735603200000000000 ∧
    SPLIT_DATE .i64 1735603200000000000 = .ok ⟨0, 2024, 12, 31⟩ := by decide +kernel

/-- **C71, what holds** for every argument type and all milliseconds: whenever CONCAT_DT succeeds, SPLIT_DT shows the date of the
arguments (in the low 32 bits).  If the milliseconds are below 1000, it shows the time of the arguments as well; otherwise the second
is 59 and SPLIT_DT shows the beginning of the next minute, which after 23:59 is 00:00 of the same day. -/
theorem C71_any_type_partial (t : IntTy) (ht : IsDateTy t) (y m d h mi s ms n : Int) (hok : CONCAT_DT t y m d h mi s ms = .ok n) :
    ∃ r, SPLIT_DT t n = .ok r ∧ r.ret = 0 ∧ SameLow32 r.year y ∧ SameLow32 r.month m ∧ SameLow32 r.day d ∧
      (ms % 4294967296 < 1000 → SameLow32 r.hour h ∧ SameLow32 r.minute mi ∧ SameLow32 r.second s ∧ SameLow32 r.milli ms) ∧
      (1000 ≤ ms % 4294967296 → SameLow32 s 59 ∧ r.second = 0 ∧ SameLow32 r.milli (ms - 1000) ∧
        r.hour * 60 + r.minute = (h % 4294967296 * 60 + mi % 4294967296 + 1) % 1440) := by
  unfold CONCAT_DT at hok
  rw [Res.bind_eq_ok] at hok
  obtain ⟨da, hda, hok⟩ := hok
  rw [Res.bind_eq_ok] at hok
  obtain ⟨td, htd, hok⟩ := hok
  unfold CONCAT_DATE at hda
  obtain ⟨k, hk, hr, rfl⟩ := concat_date_ok hda
  unfold CONCAT_TOD at htd
  rw [concat_tod_eq, u32_wrap, u32_wrap, u32_wrap, u32_wrap] at htd
  split at htd
  · rename_i hv
    have htd := (Res.ok.inj htd).symm
    subst htd
    rw [C34_concat] at hok
    split at hok
    · rename_i hr'
      have hok := (Res.ok.inj hok).symm
      subst hok
      rw [C30_split_dt t ht _ hr', dayOf_mk _ _ (tod_bounds _), timeOfDay_mk _ _ (tod_bounds _),
        show dayOf (k * D) = k by unfold dayOf D; omega, hk]
      refine ⟨_, rfl, rfl, ?_, ?_, ?_, ?_, ?_⟩
      · obtain ⟨j, hj⟩ := i32_wrap_cases y
        simp only [SameLow32, hj]; omega
      · simp only [SameLow32, u32_wrap]; omega
      · simp only [SameLow32, u32_wrap]; omega
      · intro hlt
        unfold timeOfDay SameLow32
        push_cast
        refine ⟨by omega, by omega, by omega, by omega⟩
      · intro hge
        unfold timeOfDay SameLow32
        push_cast
        refine ⟨by omega, by omega, by omega, by omega⟩
    · cases hok
  · cases htd

example : CONCAT_DT .i64 2000 1 1 12 30 59 1500 = .ok 946729860500000000 ∧
    SPLIT_DT .i64 946729860500000000 = .ok ⟨0, 2000, 1, 1, 12, 31, 0, 500⟩ ∧
    CONCAT_DT .i64 2000 1 1 23 59 59 1500 = .ok 946684800500000000 ∧
    SPLIT_DT .i64 946684800500000000 = .ok ⟨0, 2000, 1, 1, 0, 0, 0, 500⟩ := by decide +kernel

end Verif
