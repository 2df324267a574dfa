import Verif.Model.LocalClock
import Verif.Props.Duration
import Verif.Props.TimeText
import Mathlib.Data.Int.Interval
import Mathlib.Data.Set.Card
/-
C163: durations measured with TIME().
-/
namespace Verif
open Spec Chrono

/-- `start := TIME(); ...; d := SUB_TIME(TIME(), start);` with the calls of TIME() at `utc1` and `utc2`, when local time is `offset1` and `offset2` seconds ahead of UTC (`SUB_TIME`,
src/date_time_numeric_functions.rs:51-57). -/
def stopwatch (p : Profile) (utc1 offset1 utc2 offset2 : Int) : Res Int := do
  let start ← TIME_at p utc1 offset1
  let now ← TIME_at p utc2 offset2
  SUB_TIME now start

/-- The same, followed by `IF d < T#0s THEN d := ADD_TIME(d, T#24h); END_IF` (`ADD_TIME`, src/date_time_numeric_functions.rs:9-15). -/
def stopwatchOverMidnight (p : Profile) (utc1 offset1 utc2 offset2 : Int) : Res Int := do
  let d ← stopwatch p utc1 offset1 utc2 offset2
  if d < 0 then ADD_TIME d 86400000000000 else pure d

/-- A scan of `now := TIME(); d := SUB_TIME(now, last); IF d < T#0s THEN d := ADD_TIME(d, T#24h); days := days + 1; END_IF total := ADD_TIME(total, d); last := now;` at the time `utc`. -/
def dayMeter (p : Profile) (offset : Int) (s : Int × Int × Nat) (utc : Int) : Res (Int × Int × Nat) := do
  let now ← TIME_at p utc offset
  let d ← SUB_TIME now s.1
  let d' ← if d < 0 then ADD_TIME d 86400000000000 else pure d
  let total ← ADD_TIME s.2.1 d'
  pure (now, total, if d < 0 then s.2.2 + 1 else s.2.2)

namespace Spec

/-- 24 hours in nanoseconds. -/
def day : Int := 24 * 60 * 60 * 10 ^ 9

/-- `utc` is a local midnight. -/
def IsMidnight (offset utc : Int) : Prop := ∃ n : Int, utc + offset * 10 ^ 9 = n * day

/-- The number of local midnights after `a`, up to `b`. -/
noncomputable def midnights (offset a b : Int) : Nat := {utc : Int | a < utc ∧ utc ≤ b ∧ IsMidnight offset utc}.ncard

end Spec

/-- The difference of two calls of TIME() is the time between them. -/
def Measures (p : Profile) : Prop :=
  ∀ utc1 utc2 offset1 offset2 : Int, utc1 ≤ utc2 → stopwatch p utc1 offset1 utc2 offset2 = .ok (utc2 - utc1)

private theorem exact_ok {x : Int} (h : IntTy.i64.InRange x) : exactOrPanic x = .ok x := by
  unfold exactOrPanic; rw [if_pos h]

private theorem in64 (x : Int) : IntTy.i64.InRange x ↔ -2 ^ 63 ≤ x ∧ x < 2 ^ 63 := by
  simp only [IntTy.InRange, IntTy.lo, IntTy.hi, IntTy.i64]
  norm_num
  omega

/-- **C163.** TIME() never aborts; it is the time since the last local midnight. -/
theorem C163_time (p : Profile) (utc offset : Int) : ∃ t, TIME_at p utc offset = .ok t ∧ 0 ≤ t ∧ t < day ∧ IsMidnight offset (utc - t) := by
  unfold TIME_at
  have h : ClockReading (localNow utc offset) := by
    constructor <;> dsimp only [localNow] <;> omega
  rw [(C67_time p _ h).1]
  refine ⟨_, rfl, ?_, ?_, (utc / 1000000000 + offset) / 86400, ?_⟩ <;> dsimp only [localNow, day] <;> omega

private theorem time_mod (p : Profile) (utc offset : Int) : TIME_at p utc offset = .ok ((utc + offset * 10 ^ 9) % day) := by
  obtain ⟨t, e, h0, h1, n, hn⟩ := C163_time p utc offset
  rw [e]
  dsimp only [day] at *
  congr 1
  omega

private theorem sub_small {a b : Int} (ha : 0 ≤ a ∧ a < day) (hb : 0 ≤ b ∧ b < day) : SUB_TIME a b = .ok (a - b) := by
  dsimp only [day] at ha hb
  rw [(C38_add_sub_time a b ((in64 a).2 (by omega)) ((in64 b).2 (by omega))).2, exact_ok ((in64 _).2 (by omega))]

private theorem add_ok {a b : Int} (ha : IntTy.i64.InRange a) (hb : IntTy.i64.InRange b) (h : IntTy.i64.InRange (a + b)) : ADD_TIME a b = .ok (a + b) := by
  rw [(C38_add_sub_time a b ha hb).1, exact_ok h]

private theorem mod_range (x : Int) : 0 ≤ x % day ∧ x % day < day := by dsimp only [day]; omega

private theorem stopwatch_eq (p : Profile) (u1 o1 u2 o2 : Int) :
    stopwatch p u1 o1 u2 o2 = .ok ((u2 + o2 * 10 ^ 9) % day - (u1 + o1 * 10 ^ 9) % day) := by
  unfold stopwatch
  rw [time_mod, time_mod, Res.bind_ok, Res.bind_ok, sub_small (mod_range _) (mod_range _)]

/-- **C163.** The measurement never aborts.  It is less than a day in both directions, and apart from whole days it is the time that has gone by and the change of the offset. -/
theorem C163_modulo (p : Profile) (utc1 utc2 offset1 offset2 : Int) :
    ∃ d, stopwatch p utc1 offset1 utc2 offset2 = .ok d ∧ -day < d ∧ d < day ∧ ∃ n : Int, d = (utc2 - utc1) + (offset2 - offset1) * 10 ^ 9 + n * day := by
  refine ⟨_, stopwatch_eq p _ _ _ _, ?_, ?_, (utc1 + offset1 * 10 ^ 9) / day - (utc2 + offset2 * 10 ^ 9) / day, ?_⟩ <;> dsimp only [day] <;> omega

/-- **C163**, on one day: the measurement is right, if the offset does not change and no midnight passes. -/
theorem C163_same_day_partial (p : Profile) (utc1 utc2 offset : Int) (h : utc1 ≤ utc2) (hm : ∀ m, IsMidnight offset m → ¬ (utc1 < m ∧ m ≤ utc2)) :
    stopwatch p utc1 offset utc2 offset = .ok (utc2 - utc1) := by
  rw [stopwatch_eq]
  congr 1
  have := hm ((utc2 + offset * 10 ^ 9) / day * day - offset * 10 ^ 9) ⟨(utc2 + offset * 10 ^ 9) / day, by omega⟩
  dsimp only [day] at *
  omega

/-- **C163**, over midnight: with the correction the measurement is right for less than 24 hours, if the offset does not change. -/
theorem C163_over_midnight (p : Profile) (utc1 utc2 offset : Int) (h : utc1 ≤ utc2) (hd : utc2 - utc1 < day) :
    stopwatchOverMidnight p utc1 offset utc2 offset = .ok (utc2 - utc1) := by
  unfold stopwatchOverMidnight
  rw [stopwatch_eq, Res.bind_ok]
  split
  · rw [add_ok ((in64 _).2 (by dsimp only [day] at *; omega)) ((in64 _).2 (by omega)) ((in64 _).2 (by dsimp only [day] at *; omega))]
    congr 1
    dsimp only [day] at *
    omega
  · rw [Res.pure_eq]
    congr 1
    dsimp only [day] at *
    omega

/-- When local time changes by `s` seconds, the corrected measurement is wrong by just as much, as long as the result is in the day. -/
theorem C163_offset_change (p : Profile) (utc1 utc2 offset s : Int) (h0 : 0 ≤ utc2 - utc1 + s * 10 ^ 9) (h1 : utc2 - utc1 + s * 10 ^ 9 < day) :
    stopwatchOverMidnight p utc1 offset utc2 (offset + s) = .ok (utc2 - utc1 + s * 10 ^ 9) := by
  unfold stopwatchOverMidnight
  rw [stopwatch_eq, Res.bind_ok]
  split
  · rw [add_ok ((in64 _).2 (by dsimp only [day] at *; omega)) ((in64 _).2 (by omega)) ((in64 _).2 (by dsimp only [day] at *; omega))]
    congr 1
    dsimp only [day] at *
    omega
  · rw [Res.pure_eq]
    congr 1
    dsimp only [day] at *
    omega

/-- **C163 is false of the code**: from one nanosecond before midnight to midnight it measures one nanosecond less than a day, backwards. -/
theorem C163_refuted (p : Profile) : ¬ Measures p := by
  intro h
  have := h 86399999999999 86400000000000 0 0 (by omega)
  rw [stopwatch_eq] at this
  have := Res.ok.inj this
  dsimp only [day] at this
  omega

/-! ### Many scans -/

private theorem midnights_eq (offset a b : Int) : (midnights offset a b : Int) = max 0 ((b + offset * 10 ^ 9) / day - (a + offset * 10 ^ 9) / day) := by
  have e : {utc : Int | a < utc ∧ utc ≤ b ∧ IsMidnight offset utc} =
      (fun n : Int => n * day - offset * 10 ^ 9) '' ((Finset.Ioc ((a + offset * 10 ^ 9) / day) ((b + offset * 10 ^ 9) / day) : Finset Int) : Set Int) := by
    ext x
    simp only [Set.mem_ofPred_eq, Set.mem_image, Finset.coe_Ioc, Set.mem_Ioc, IsMidnight]
    dsimp only [day]
    constructor
    · rintro ⟨h1, h2, n, hn⟩
      exact ⟨n, by omega, by omega⟩
    · rintro ⟨n, hn, rfl⟩
      exact ⟨by omega, by omega, n, by omega⟩
  unfold midnights
  rw [e, Set.ncard_image_of_injective _ (fun x y h => by dsimp only [day] at h; omega), Set.ncard_coe_finset, Int.card_Ioc, Int.toNat_eq_max]
  omega

/-- **C163.** If the offset does not change, the clock does not go backwards and the scans are less than 24 hours apart, the meter shows the time from the first call to the last one and the number of
midnights between them, for as long as the time fits into a TIME. -/
theorem C163_meter (p : Profile) (offset first : Int) (h : List Int) (hc : (first :: h).IsChain fun a b => a ≤ b ∧ b - a < day)
    (hr : (h.getLast?).getD first - first < 2 ^ 63) :
    ∃ start now, TIME_at p first offset = .ok start ∧ TIME_at p ((h.getLast?).getD first) offset = .ok now ∧
      runFB (dayMeter p offset) (start, 0, 0) h = .ok (now, (h.getLast?).getD first - first, midnights offset first ((h.getLast?).getD first)) := by
  have last_ge : ∀ (h : List Int) (cur : Int), (cur :: h).IsChain (fun a b => a ≤ b ∧ b - a < day) → cur ≤ (h.getLast?).getD cur := by
    intro h
    induction h with
    | nil => intro cur _; exact Int.le_refl _
    | cons x h ih =>
      intro cur hc
      have h1 := (List.isChain_cons_cons.1 hc).1
      have := ih x (List.isChain_cons_cons.1 hc).2
      rw [List.getLast?_cons, Option.getD_some]
      omega
  have key : ∀ (h : List Int) (cur : Int) (k : Nat), first ≤ cur → (k : Int) = (cur + offset * 10 ^ 9) / day - (first + offset * 10 ^ 9) / day →
      (cur :: h).IsChain (fun a b => a ≤ b ∧ b - a < day) → (h.getLast?).getD cur - first < 2 ^ 63 →
      ∃ k' : Nat, (k' : Int) = ((h.getLast?).getD cur + offset * 10 ^ 9) / day - (first + offset * 10 ^ 9) / day ∧
        runFB (dayMeter p offset) ((cur + offset * 10 ^ 9) % day, cur - first, k) h =
          .ok (((h.getLast?).getD cur + offset * 10 ^ 9) % day, (h.getLast?).getD cur - first, k') := by
    intro h
    induction h with
    | nil => intro cur k _ hk _ _; exact ⟨k, hk, rfl⟩
    | cons x h ih =>
      intro cur k hcur hk hc hr
      obtain ⟨⟨hx, hx'⟩, hc⟩ := List.isChain_cons_cons.1 hc
      have hl := last_ge h x hc
      rw [List.getLast?_cons, Option.getD_some] at hr ⊢
      have hsub := sub_small (mod_range (x + offset * 10 ^ 9)) (mod_range (cur + offset * 10 ^ 9))
      rw [runFB_cons]
      unfold dayMeter
      dsimp only
      rw [time_mod, Res.bind_ok, hsub, Res.bind_ok]
      by_cases hd : (x + offset * 10 ^ 9) % day - (cur + offset * 10 ^ 9) % day < 0
      · rw [if_pos hd, if_pos hd, add_ok ((in64 _).2 (by dsimp only [day] at *; omega)) ((in64 _).2 (by omega)) ((in64 _).2 (by dsimp only [day] at *; omega)), Res.bind_ok,
          show (x + offset * 10 ^ 9) % day - (cur + offset * 10 ^ 9) % day + 86400000000000 = x - cur by dsimp only [day] at *; omega,
          add_ok ((in64 _).2 (by omega)) ((in64 _).2 (by omega)) ((in64 _).2 (by omega)), Res.bind_ok, Res.pure_eq, Res.bind_ok, show cur - first + (x - cur) = x - first by omega]
        exact ih x (k + 1) (by omega) (by dsimp only [day] at *; omega) hc hr
      · rw [if_neg hd, if_neg hd, Res.pure_eq, Res.bind_ok,
          show (x + offset * 10 ^ 9) % day - (cur + offset * 10 ^ 9) % day = x - cur by dsimp only [day] at *; omega,
          add_ok ((in64 _).2 (by omega)) ((in64 _).2 (by omega)) ((in64 _).2 (by omega)), Res.bind_ok, Res.pure_eq, Res.bind_ok, show cur - first + (x - cur) = x - first by omega]
        exact ih x k (by omega) (by dsimp only [day] at *; omega) hc hr
  obtain ⟨k, hk, e⟩ := key h first 0 (Int.le_refl _) (by omega) hc hr
  refine ⟨_, _, time_mod p _ _, time_mod p _ _, ?_⟩
  rw [show first - first = 0 by omega] at e
  rw [e]
  have := midnights_eq offset first ((h.getLast?).getD first)
  rw [show k = midnights offset first ((h.getLast?).getD first) by omega]

/-! ### The hypotheses are met -/

/-- From 23:59:59 on a day to 00:00:01 on the next one, in a zone one hour ahead of UTC. -/
example (p : Profile) : stopwatch p 82799000000000 3600 82801000000000 3600 = .ok (-86398000000000) ∧ stopwatchOverMidnight p 82799000000000 3600 82801000000000 3600 = .ok 2000000000 ∧
    IsMidnight 3600 82800000000000 ∧ runFB (dayMeter p 3600) (86399000000000, 0, 0) [82801000000000, 82802000000000] = .ok (2000000000, 3000000000, 1) := by
  refine ⟨by cases p <;> decide, by cases p <;> decide, ⟨1, by decide⟩, by cases p <;> decide⟩

/-- The hypotheses of `C163_same_day_partial`: from 08:00 to 16:00 UTC. -/
example (m : Int) (h : IsMidnight 0 m) : ¬ (28800000000000 < m ∧ m ≤ 57600000000000) := by
  obtain ⟨n, hn⟩ := h
  dsimp only [day] at hn
  omega

/-- The hypotheses of `C163_meter`. -/
example : ([82799000000000, 82801000000000, 160000000000000] : List Int).IsChain fun a b => a ≤ b ∧ b - a < day := by decide

end Verif
