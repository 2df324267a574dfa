import Verif.Proofs.Timestamps
import Verif.Model.Duration
/-
C38-C41: arithmetic with TIME, TOD, DT and integer operands.
-/
namespace Verif
open Chrono Spec

/-- Specification: the integer `x` if it is a 64-bit signed value, otherwise a panic. -/
def exactOrPanic (x : Int) : Res Int := if IntTy.i64.InRange x then .ok x else .panic

private theorem checked_eq (x : Int) : Res.unwrap (IntTy.i64.checked x) = exactOrPanic x := by
  unfold IntTy.checked exactOrPanic; split <;> rfl

private theorem num_ns (s n : Int) (hn : 0 ≤ n ∧ n < 1000000000) :
    Res.unwrap (Duration.num_nanoseconds ⟨s, n⟩) = exactOrPanic (s * 1000000000 + n) := by
  unfold Duration.num_nanoseconds Duration.num_seconds Duration.nanos_mod_sec exactOrPanic IntTy.checked
  simp only [nanosPerSec, i64_range]
  by_cases hc : s < 0 ∧ n > 0
  · simp only [hc, and_self, if_true]
    by_cases h : -9223372036854775808 ≤ s * 1000000000 + n ∧ s * 1000000000 + n ≤ 9223372036854775807
    · rw [if_pos h, if_pos (by omega)]
      show Res.unwrap (if _ then _ else none) = _
      rw [if_pos (by omega)]
      show Res.ok _ = Res.ok _
      congr 1; omega
    · rw [if_neg h]
      by_cases h2 : -9223372036854775808 ≤ (s + 1) * 1000000000 ∧ (s + 1) * 1000000000 ≤ 9223372036854775807
      · rw [if_pos h2]
        show Res.unwrap (if _ then _ else none) = _
        rw [if_neg (by omega)]
        rfl
      · rw [if_neg h2]; rfl
  · simp only [hc, if_false]
    by_cases h : -9223372036854775808 ≤ s * 1000000000 + n ∧ s * 1000000000 + n ≤ 9223372036854775807
    · rw [if_pos h, if_pos (by omega)]
      show Res.unwrap (if _ then _ else none) = _
      rw [if_pos (by omega)]
      rfl
    · rw [if_neg h]
      by_cases h2 : -9223372036854775808 ≤ s * 1000000000 ∧ s * 1000000000 ≤ 9223372036854775807
      · rw [if_pos h2]
        show Res.unwrap (if _ then _ else none) = _
        rw [if_neg (by omega)]
        rfl
      · rw [if_neg h2]; rfl

private theorem checked_some {x : Int} (h : -9223372036854775808 ≤ x ∧ x ≤ 9223372036854775807) :
    IntTy.i64.checked x = some x := if_pos ((i64_range x).2 h)

private theorem bounds_ok {s n : Int} (hs : -20000000000 ≤ s ∧ s ≤ 20000000000) (hn : 0 ≤ n ∧ n < 1000000000) :
    Duration.inBounds ⟨s, n⟩ := by
  unfold Duration.inBounds maxMillis nanosPerSec
  simp only
  omega

private theorem add_eq (a b : Int) (ha : IntTy.i64.InRange a) (hb : IntTy.i64.InRange b) :
    ∃ s n, (Duration.nanoseconds a).checked_add (Duration.nanoseconds b) = some ⟨s, n⟩ ∧
      (0 ≤ n ∧ n < 1000000000) ∧ s * 1000000000 + n = a + b := by
  rw [i64_range] at ha hb
  unfold Duration.checked_add Duration.nanoseconds
  simp only [nanosPerSec]
  rw [checked_some (by omega)]
  by_cases hc : a % 1000000000 + b % 1000000000 ≥ 1000000000
  · refine ⟨a / 1000000000 + b / 1000000000 + 1, a % 1000000000 + b % 1000000000 - 1000000000, ?_, by omega, by omega⟩
    simp only [Option.bind_eq_bind, Option.bind_some, hc, if_true, Option.pure_def]
    rw [checked_some (by omega)]
    simp only [Option.bind_some]
    rw [if_pos (bounds_ok (by omega) (by omega))]
  · refine ⟨a / 1000000000 + b / 1000000000, a % 1000000000 + b % 1000000000, ?_, by omega, by omega⟩
    simp only [Option.bind_eq_bind, Option.bind_some, hc, if_false]
    rw [if_pos (bounds_ok (by omega) (by omega))]

private theorem sub_eq (a b : Int) (ha : IntTy.i64.InRange a) (hb : IntTy.i64.InRange b) :
    ∃ s n, (Duration.nanoseconds a).checked_sub (Duration.nanoseconds b) = some ⟨s, n⟩ ∧
      (0 ≤ n ∧ n < 1000000000) ∧ s * 1000000000 + n = a - b := by
  rw [i64_range] at ha hb
  unfold Duration.checked_sub Duration.nanoseconds
  simp only [nanosPerSec]
  rw [checked_some (by omega)]
  by_cases hc : a % 1000000000 - b % 1000000000 < 0
  · refine ⟨a / 1000000000 - b / 1000000000 - 1, a % 1000000000 - b % 1000000000 + 1000000000, ?_, by omega, by omega⟩
    simp only [Option.bind_eq_bind, Option.bind_some, hc, if_true, Option.pure_def]
    rw [checked_some (by omega)]
    simp only [Option.bind_some]
    rw [if_pos (bounds_ok (by omega) (by omega))]
  · refine ⟨a / 1000000000 - b / 1000000000, a % 1000000000 - b % 1000000000, ?_, by omega, by omega⟩
    simp only [Option.bind_eq_bind, Option.bind_some, hc, if_false]
    rw [if_pos (bounds_ok (by omega) (by omega))]

/-- **C38.** ADD_TIME and SUB_TIME return the exact sum and difference if representable and panic otherwise. -/
theorem C38_add_sub_time (a b : Int) (ha : IntTy.i64.InRange a) (hb : IntTy.i64.InRange b) :
    ADD_TIME a b = exactOrPanic (a + b) ∧ SUB_TIME a b = exactOrPanic (a - b) := by
  constructor
  · obtain ⟨s, n, h, hn, he⟩ := add_eq a b ha hb
    unfold ADD_TIME
    rw [h]
    refine (num_ns s n hn).trans ?_
    rw [he]
  · obtain ⟨s, n, h, hn, he⟩ := sub_eq a b ha hb
    unfold SUB_TIME
    rw [h]
    refine (num_ns s n hn).trans ?_
    rw [he]

example : ADD_TIME (-1500000000) 700000000 = .ok (-800000000) ∧ ADD_TIME (2 ^ 63 - 1) 1 = .panic ∧
    SUB_TIME (-2 ^ 63) 1 = .panic ∧ SUB_TIME (-1) (-2 ^ 63) = .ok (2 ^ 63 - 1) := by decide +kernel

/-! ### date-time plus or minus a duration -/

private theorem addSeconds_civil (k j : Int) : (civil k).addSeconds (j * 86400) = civil (k + j) := by
  unfold NaiveDate.addSeconds
  rw [civil_num_days]
  unfold civil secsPerDay
  congr 1
  omega

/-- Adding `rs` seconds and `rf` nanoseconds to a timestamp. -/
private theorem shift_eq (n rs rf : Int) (hf : -1000000000 < rf ∧ rf < 1000000000) :
    NaiveDateTime.timestamp_nanos
      ⟨(timestamp_nanos_utc n).date.addSeconds ((timestamp_nanos_utc n).time.overflowing_add rs rf).2,
        ((timestamp_nanos_utc n).time.overflowing_add rs rf).1⟩ = exactOrPanic (n + (rs * 1000000000 + rf)) := by
  have h1 := ts_secs n
  have h2 := ts_frac n
  have h3 := tod_bounds n
  have h4 := day_tod n
  rw [ts_date]
  generalize (timestamp_nanos_utc n).time = t at *
  generalize dayOf n = k at *
  generalize timeOfDay n = r at *
  obtain ⟨s, f⟩ := t
  simp only at h1 h2
  unfold NaiveTime.overflowing_add
  simp only [nanosPerSec, secsPerDay]
  unfold D at h3 h4
  have main : ∀ S F : Int, 0 ≤ F → S * 1000000000 + F = (s : Int) * 1000000000 + f + (rs * 1000000000 + rf) →
      NaiveDateTime.timestamp_nanos ⟨(civil k).addSeconds (S - S % 86400), ⟨(S % 86400).toNat, F.toNat⟩⟩ =
        exactOrPanic (n + (rs * 1000000000 + rf)) := by
    intro S F hF he
    rw [show S - S % 86400 = S / 86400 * 86400 by omega, addSeconds_civil]
    refine (timestamp_nanos_civil _ _).trans ?_
    have e : (k + S / 86400) * D + (((S % 86400).toNat : Int) * 1000000000 + (F.toNat : Int)) =
        n + (rs * 1000000000 + rf) := by unfold D; omega
    rw [e]
    rfl
  by_cases c1 : (f : Int) + rf < 0
  · simp only [c1, if_true]
    exact main _ _ (by omega) (by omega)
  · simp only [c1, if_false]
    by_cases c2 : (f : Int) + rf ≥ 1000000000
    · simp only [c2, if_true]
      exact main _ _ (by omega) (by omega)
    · simp only [c2, if_false]
      exact main _ _ (by omega) (by omega)

private theorem ns_parts (b : Int) :
    let d := Duration.nanoseconds b
    d.num_seconds * 1000000000 + d.nanos_mod_sec = b ∧ -1000000000 < d.nanos_mod_sec ∧
      d.nanos_mod_sec < 1000000000 := by
  unfold Duration.nanoseconds Duration.num_seconds Duration.nanos_mod_sec
  simp only [nanosPerSec]
  by_cases hc : b / 1000000000 < 0 ∧ b % 1000000000 > 0
  · simp only [hc, and_self, if_true]; omega
  · simp only [hc, if_false]; omega

private theorem sub_datetimes_eq (a b : Int) : sub_datetimes a b = exactOrPanic (a - b) := by
  have h1 := ts_secs a
  have h2 := ts_frac a
  have h3 := tod_bounds a
  have h4 := day_tod a
  have g1 := ts_secs b
  have g2 := ts_frac b
  have g3 := tod_bounds b
  have g4 := day_tod b
  unfold sub_datetimes NaiveDateTime.signed_duration_since
  rw [ts_date, ts_date, civil_num_days, civil_num_days]
  generalize (timestamp_nanos_utc a).time = t at *
  generalize dayOf a = k at *
  generalize timeOfDay a = r at *
  generalize (timestamp_nanos_utc b).time = t' at *
  generalize dayOf b = k' at *
  generalize timeOfDay b = r' at *
  obtain ⟨s, f⟩ := t
  obtain ⟨s', f'⟩ := t'
  simp only [nanosPerSec, secsPerDay] at *
  unfold D at h3 h4 g3 g4
  split
  · refine (num_ns _ _ (by omega)).trans ?_
    congr 1; omega
  · refine (num_ns _ _ (by omega)).trans ?_
    congr 1; omega

/-- **C39.** Adding a duration to and subtracting one from a TOD or DT, and the difference of two TODs, DTs
or DATEs, are exact if representable and panic otherwise. -/
theorem C39_datetime_arithmetic (a b : Int) :
    ADD_DT_TIME a b = exactOrPanic (a + b) ∧ ADD_TOD_TIME a b = exactOrPanic (a + b) ∧
    SUB_DT_TIME a b = exactOrPanic (a - b) ∧ SUB_TOD_TIME a b = exactOrPanic (a - b) ∧
    SUB_DT_DT a b = exactOrPanic (a - b) ∧ SUB_TOD_TOD a b = exactOrPanic (a - b) ∧
    SUB_DATE_DATE a b = exactOrPanic (a - b) := by
  have hadd : add_datetime_time a b = exactOrPanic (a + b) := by
    obtain ⟨p1, p2, p3⟩ := ns_parts b
    unfold add_datetime_time NaiveDateTime.checked_add_signed
    refine (shift_eq a _ _ ⟨p2, p3⟩).trans ?_
    rw [p1]
  have hsub : sub_datetime_duration a b = exactOrPanic (a - b) := by
    obtain ⟨p1, p2, p3⟩ := ns_parts b
    unfold sub_datetime_duration NaiveDateTime.checked_sub_signed
    refine (shift_eq a _ _ ⟨by omega, by omega⟩).trans ?_
    congr 1; omega
  exact ⟨hadd, hadd, hsub, hsub, sub_datetimes_eq a b, sub_datetimes_eq a b, sub_datetimes_eq a b⟩

/-- **C39**, ADD then SUB of the same duration is the identity. -/
theorem C39_add_sub_cancel (a b c : Int) (ha : IntTy.i64.InRange a) :
    (ADD_DT_TIME a b = .ok c → SUB_DT_TIME c b = .ok a) ∧
    (ADD_TOD_TIME a b = .ok c → SUB_TOD_TIME c b = .ok a) ∧
    (ADD_DT_TIME a b = .ok c → SUB_DT_DT c a = (if IntTy.i64.InRange b then .ok b else .panic)) := by
  obtain ⟨e1, e2, -, -, -, -, -⟩ := C39_datetime_arithmetic a b
  obtain ⟨-, -, e3, e4, -, -, -⟩ := C39_datetime_arithmetic c b
  obtain ⟨-, -, -, -, e5, -, -⟩ := C39_datetime_arithmetic c a
  rw [e1, e2, e3, e4, e5]
  have key : exactOrPanic (a + b) = .ok c → c = a + b := by
    intro h
    unfold exactOrPanic at h
    split at h
    · exact (Res.ok.inj h).symm
    · cases h
  refine ⟨?_, ?_, ?_⟩
  · intro h
    rw [key h, show a + b - b = a by omega]
    exact if_pos ha
  · intro h
    rw [key h, show a + b - b = a by omega]
    exact if_pos ha
  · intro h
    rw [key h, show a + b - a = b by omega]
    rfl

example : ADD_DT_TIME 1700000000123456789 (-86400000000001) = .ok 1699913600123456788 ∧
    SUB_DT_DT (-2 ^ 63) 1 = .panic ∧ ADD_TOD_TIME 86399999999999 1 = .ok 86400000000000 := by decide +kernel

/-! ### multiplication and division by integers -/

private theorem unsigned_nonneg {t : IntTy} (hs : t.signed = false) {x : Int} (hx : t.InRange x) : 0 ≤ x := by
  obtain ⟨s, b⟩ := t
  simp only at hs
  subst hs
  exact hx.1

/-- **C40**, multiplication: exact product or panic, for every integer type (ULINT up to 2^63-1). -/
theorem C40_mul (t : IntTy) (a x : Int) (hx' : x < 2 ^ 63)
    (hx : t.InRange x) :
    MUL_TIME_INT t a x = exactOrPanic (a * x) := by
  unfold MUL_TIME_INT
  by_cases hs : t.signed = true
  · rw [if_pos hs]; exact checked_eq _
  · rw [if_neg hs]
    have h0 := unsigned_nonneg (by simpa using hs) hx
    unfold checked_mul_time_with_unsigned_int
    rw [checked_some (by omega)]
    exact checked_eq _

private theorem div_eq (a x : Int) (ha : IntTy.i64.InRange a) (hx : x ≠ 0) (hmin : ¬ (a = -2 ^ 63 ∧ x = -1)) :
    Res.unwrap (i64_checked_div a x) = .ok (a.tdiv x) := by
  unfold i64_checked_div
  rw [if_neg hx, checked_some]
  · rfl
  · rw [i64_range] at ha
    have hle : (a.tdiv x).natAbs ≤ a.natAbs := by
      rw [Int.natAbs_tdiv]; exact Nat.div_le_self _ _
    by_cases hneg : a = -2 ^ 63
    · -- magnitude strictly below unless x = ±1
      by_cases h1 : x = 1
      · subst h1; simp only [Int.tdiv_one]; omega
      · have h2 : x ≠ -1 := fun h => hmin ⟨hneg, h⟩
        have hlt : (a.tdiv x).natAbs < a.natAbs := by
          rw [Int.natAbs_tdiv]
          exact Nat.div_lt_self (by omega) (by omega)
        omega
    · omega

/-- **C40**, division: the quotient truncated toward zero (`a = q·x + r` with `|r| < |x|` and `r` of the sign of `a`);
panics exactly for a zero divisor or for `MIN / -1`. -/
theorem C40_div (t : IntTy) (a x : Int) (ha : IntTy.i64.InRange a)
    (hx : t.InRange x) (hx' : x < 2 ^ 63) :
    (x = 0 ∨ (a = -2 ^ 63 ∧ x = -1) → DIV_TIME_INT t a x = .panic) ∧
    (¬ (x = 0 ∨ (a = -2 ^ 63 ∧ x = -1)) → ∃ q, DIV_TIME_INT t a x = .ok q ∧
      ∃ r, a = q * x + r ∧ r.natAbs < x.natAbs ∧ (r = 0 ∨ r.sign = a.sign)) := by
  have hred : DIV_TIME_INT t a x = Res.unwrap (i64_checked_div a x) := by
    unfold DIV_TIME_INT
    by_cases hs : t.signed = true
    · rw [if_pos hs]; rfl
    · rw [if_neg hs]
      have h0 := unsigned_nonneg (by simpa using hs) hx
      unfold checked_div_time_by_unsigned_int
      rw [checked_some (by omega)]
      rfl
  rw [hred]
  constructor
  · rintro (rfl | ⟨rfl, rfl⟩)
    · rfl
    · decide +kernel
  · intro h
    refine ⟨a.tdiv x, div_eq a x ha (by omega) (by omega), a.tmod x, ?_, ?_, ?_⟩
    · rw [Int.mul_comm]; exact (Int.mul_tdiv_add_tmod a x).symm
    · rw [Int.natAbs_tmod]; exact Nat.mod_lt _ (by omega)
    · by_cases hr : a.tmod x = 0
      · exact .inl hr
      · right
        rcases Int.lt_trichotomy a 0 with hneg | hz | hpos
        · have : a.tmod x ≤ 0 := by
            have := Int.tmod_nonneg x (show 0 ≤ -a by omega)
            rw [Int.neg_tmod] at this; omega
          rw [Int.sign_eq_neg_one_of_neg hneg, Int.sign_eq_neg_one_of_neg (by omega)]
        · subst hz; simp at hr
        · have := Int.tmod_nonneg x (show 0 ≤ a by omega)
          rw [Int.sign_eq_one_of_pos hpos, Int.sign_eq_one_of_pos (by omega)]

/-- **C40**, all width variants agree on operands both types can hold. -/
theorem C40_variants_agree (t u : IntTy) (a x : Int) (hx' : x < 2 ^ 63)
    (h1 : t.InRange x) (h2 : u.InRange x) :
    MUL_TIME_INT t a x = MUL_TIME_INT u a x ∧ DIV_TIME_INT t a x = DIV_TIME_INT u a x := by
  rw [C40_mul t a x hx' h1, C40_mul u a x hx' h2]
  refine ⟨rfl, ?_⟩
  have hred : ∀ v : IntTy, v.InRange x → DIV_TIME_INT v a x = Res.unwrap (i64_checked_div a x) := by
    intro v hv
    unfold DIV_TIME_INT
    by_cases hs : v.signed = true
    · rw [if_pos hs]; rfl
    · rw [if_neg hs]
      have h0 := unsigned_nonneg (by simpa using hs) hv
      unfold checked_div_time_by_unsigned_int
      rw [checked_some (by omega)]
      rfl
  rw [hred t h1, hred u h2]

example : MUL_TIME_INT .i8 1000000000 (-100) = .ok (-100000000000) ∧ DIV_TIME_INT .i16 (-7) 2 = .ok (-3) ∧
    DIV_TIME_INT .u32 7 0 = .panic ∧ MUL_TIME_INT .u64 (2 ^ 62) 2 = .panic := by decide +kernel

/-- The claim of C41. -/
def UlintExact : Prop :=
  (∀ a x, IntTy.i64.InRange a → IntTy.u64.InRange x → IntTy.i64.InRange (a * x) → MUL_TIME_INT .u64 a x = .ok (a * x)) ∧
  (∀ a x, IntTy.i64.InRange a → IntTy.u64.InRange x → x ≠ 0 → DIV_TIME_INT .u64 a x = .ok (a.tdiv x))

/-- **C41 is false** of the code, in both halves: `MUL(T#0, 2^63)` and `DIV(t, 2^63)` for every `t` panic,
although the exact results are representable (0 for all but the smallest TIME). The code's comment claims they never are. -/
theorem C41_refuted :
    ¬ UlintExact ∧ MUL_TIME_INT .u64 0 (2 ^ 63) = .panic ∧ ∀ a, DIV_TIME_INT .u64 a (2 ^ 63) = .panic := by
  have h1 : MUL_TIME_INT .u64 0 (2 ^ 63) = .panic := by decide +kernel
  refine ⟨fun H => ?_, h1, fun a => rfl⟩
  have := H.1 0 (2 ^ 63) (by decide) (by decide) (by decide)
  rw [h1] at this
  cases this

/-- **C41, what holds.** For ULINT operands below 2^63 the result is exact when representable; for operands of 2^63 or
more both functions always panic. -/
theorem C41_partial (a x : Int) (ha : IntTy.i64.InRange a) (hx : IntTy.u64.InRange x) :
    (x < 2 ^ 63 → MUL_TIME_INT .u64 a x = exactOrPanic (a * x) ∧ (x ≠ 0 → DIV_TIME_INT .u64 a x = .ok (a.tdiv x))) ∧
    (2 ^ 63 ≤ x → MUL_TIME_INT .u64 a x = .panic ∧ DIV_TIME_INT .u64 a x = .panic) := by
  constructor
  · intro h
    refine ⟨C40_mul _ a x h hx, fun h0 => ?_⟩
    have hn := unsigned_nonneg (t := .u64) rfl hx
    show checked_div_time_by_unsigned_int a x = _
    unfold checked_div_time_by_unsigned_int
    rw [checked_some (by omega)]
    exact div_eq a x ha h0 (by omega)
  · intro h
    have hc : IntTy.i64.checked x = none := if_neg (by rw [i64_range]; omega)
    constructor
    · show checked_mul_time_with_unsigned_int a x = _
      unfold checked_mul_time_with_unsigned_int
      rw [hc]; rfl
    · show checked_div_time_by_unsigned_int a x = _
      unfold checked_div_time_by_unsigned_int
      rw [hc]; rfl

example : IntTy.u64.InRange (2 ^ 63 + 5) ∧ DIV_TIME_INT .u64 (-7) (2 ^ 63 - 1) = .ok 0 := by decide +kernel

end Verif
