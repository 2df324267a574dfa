import Verif.Props.Duration
/-
C140: an hour meter and appointments at a fixed interval.
-/
namespace Verif
open Spec

/-- `d := SUB_DT_DT(now, last); IF run THEN total := ADD_TIME(total, d); END_IF last := now;` on the state `(total, last)` with the inputs
`(now, run)` (`SUB_DT_DT`, src/date_time_numeric_functions.rs:121-123, `ADD_TIME`, 9-15). -/
def hourMeter (s : Int × Int) (c : Int × Bool) : Res (Int × Int) := do
  let d ← SUB_DT_DT c.1 s.2
  let total ← if c.2 then ADD_TIME s.1 d else pure s.1
  pure (total, c.1)

/-- `IF now >= next THEN count := count + 1; next := ADD_DT_TIME(next, period); END_IF` on the state
`(next, count)` (`ADD_DT_TIME`, src/date_time_numeric_functions.rs:33-35). -/
def appointment (period : Int) (s : Int × Nat) (now : Int) : Res (Int × Nat) := do
  if now ≥ s.1 then
    let next ← ADD_DT_TIME s.1 period
    pure (next, s.2 + 1)
  else pure s

namespace Spec

/-- The time from each scan to the next one is counted if `run` was TRUE in the latter. -/
def runTime (first : Int) (h : List (Int × Bool)) : Int :=
  (((first :: h.map (·.1)).zip h).map fun x => if x.2.2 then x.2.1 - x.1 else 0).sum

end Spec

private theorem runTime_cons (first : Int) (c : Int × Bool) (h : List (Int × Bool)) :
    runTime first (c :: h) = (if c.2 then c.1 - first else 0) + runTime c.1 h := by
  simp [runTime]

private theorem exact_ok {x : Int} (h : IntTy.i64.InRange x) : exactOrPanic x = .ok x := by
  unfold exactOrPanic; rw [if_pos h]

private theorem in64 (x : Int) : IntTy.i64.InRange x ↔ -2 ^ 63 ≤ x ∧ x < 2 ^ 63 := by
  simp only [IntTy.InRange, IntTy.lo, IntTy.hi, IntTy.i64]
  norm_num
  omega

/-- **C140.** If the clock does not go backwards and not more than the largest TIME goes by in all, the hour meter never aborts and shows the sum of the
times in which `run` was TRUE; this is not negative, at most the time that has gone by, and equal to it if `run` was always TRUE. -/
theorem C140_hour_meter (first : Int) (h : List (Int × Bool)) (hc : (first :: h.map (·.1)).Pairwise (· ≤ ·))
    (hr : ∀ c ∈ h, IntTy.i64.InRange (c.1 - first)) :
    let last := ((h.map (·.1)).getLast?).getD first
    runFB hourMeter (0, first) h = .ok (runTime first h, last) ∧ 0 ≤ runTime first h ∧ runTime first h ≤ last - first ∧
      ((∀ c ∈ h, c.2 = true) → runTime first h = last - first) := by
  have key : ∀ (h : List (Int × Bool)) (start total first : Int), 0 ≤ total → total ≤ first - start → start ≤ first →
      (first :: h.map (·.1)).Pairwise (· ≤ ·) → (∀ c ∈ h, IntTy.i64.InRange (c.1 - start)) →
      runFB hourMeter (total, first) h = .ok (total + runTime first h, ((h.map (·.1)).getLast?).getD first) ∧ 0 ≤ runTime first h ∧
      runTime first h ≤ ((h.map (·.1)).getLast?).getD first - first ∧
      ((∀ c ∈ h, c.2 = true) → runTime first h = ((h.map (·.1)).getLast?).getD first - first) := by
    intro h
    induction h with
    | nil =>
      intro start total first h0 h1 h2 _ _
      refine ⟨?_, ?_, ?_, ?_⟩ <;> simp [runTime, runFB]
    | cons c h ih =>
      intro start total first h0 h1 h2 hc hr
      obtain ⟨now, run⟩ := c
      have hc1 : first ≤ now := (List.pairwise_cons.1 hc).1 now (by simp)
      have hin := (in64 _).1 (hr (now, run) (by simp))
      simp only at hin
      have hd : SUB_DT_DT now first = .ok (now - first) := by
        rw [(C39_datetime_arithmetic now first).2.2.2.2.1, exact_ok ((in64 _).2 (by omega))]
      have hadd : ADD_TIME total (now - first) = .ok (total + (now - first)) := by
        rw [(C38_add_sub_time total (now - first) ((in64 _).2 (by omega)) ((in64 _).2 (by omega))).1, exact_ok ((in64 _).2 (by omega))]
      have step : hourMeter (total, first) (now, run) = .ok (total + (if run then now - first else 0), now) := by
        unfold hourMeter
        simp only
        rw [hd, Res.bind_ok]
        cases run
        · simp
        · simp only [if_true]; rw [hadd, Res.bind_ok]; rfl
      have hval : 0 ≤ (if run then now - first else 0) ∧ (if run then now - first else 0) ≤ now - first := by split <;> omega
      have hrun : run = true → (if run then now - first else 0) = now - first := by rintro rfl; rfl
      rw [runTime_cons]
      simp only
      generalize (if run then now - first else 0) = v at *
      obtain ⟨i1, i2, i3, i4⟩ := ih start (total + v) now (by omega) (by omega) (by omega) (List.pairwise_cons.1 hc).2
        (fun c hc => hr c (by simp [hc]))
      have el : (((now, run) :: h).map (·.1)).getLast?.getD first = ((h.map (·.1)).getLast?).getD now := by
        rw [List.map_cons, List.getLast?_cons]; rfl
      rw [el]
      refine ⟨?_, by omega, by omega, fun hall => ?_⟩
      · unfold runFB at i1 ⊢
        rw [List.foldlM_cons, step]
        show List.foldlM hourMeter (total + v, now) h = _
        rw [i1, Int.add_assoc]
      · rw [hrun (hall (now, run) (by simp)), i4 fun c hc => hall c (by simp [hc])]; omega
  have := key h first 0 first (by omega) (by omega) (by omega) hc hr
  simpa using this

/-- **C140.** If the scans are not further apart than the period, every appointment `start`, `start + period`, `start + 2 * period`, ... is met in the first scan
at or after it, none twice and none left out: after the scan at the time `now` the number of appointments met is the number of those up to `now`. -/
theorem C140_appointments (start period : Int) (hp : 0 < period) (h : List Int) (now : Int)
    (hfirst : ∀ x ∈ (h ++ [now]).head?, x < start + period)
    (hgap : (h ++ [now]).IsChain fun x y => x ≤ y ∧ y - x ≤ period)
    (hr : ∀ x ∈ start :: h ++ [now], IntTy.i64.InRange (x + period)) :
    ∃ k : Nat, runFB (appointment period) (start, 0) (h ++ [now]) = .ok (start + k * period, k) ∧
      ∀ i : Nat, i < k ↔ start + i * period ≤ now := by
  have hs0 := (in64 _).1 (hr start (by simp))
  have key : ∀ (h : List Int) (prev : Int) (k : Nat), prev < start + k * period → (k = 0 ∨ start + (k - 1) * period ≤ prev) →
      (prev :: h).IsChain (fun x y => x ≤ y ∧ y - x ≤ period) → (∀ x ∈ h, IntTy.i64.InRange (x + period)) →
      ∃ k' : Nat, runFB (appointment period) (start + k * period, k) h = .ok (start + k' * period, k') ∧
        (h.getLast?.getD prev) < start + k' * period ∧ (k' = 0 ∨ start + (k' - 1) * period ≤ h.getLast?.getD prev) := by
    intro h
    induction h with
    | nil => intro prev k h1 h2 _ _; exact ⟨k, rfl, h1, h2⟩
    | cons x h ih =>
      intro prev k h1 h2 hc hr
      rw [List.isChain_cons_cons] at hc
      obtain ⟨⟨c1, c2⟩, c3⟩ := hc
      have hx := (in64 _).1 (hr x (by simp))
      have el : (x :: h).getLast?.getD prev = h.getLast?.getD x := by rw [List.getLast?_cons]; rfl
      rw [el]
      unfold runFB
      rw [List.foldlM_cons]
      by_cases hge : x ≥ start + k * period
      · have e : start + (k : Int) * period + period = start + ((k + 1 : Nat) : Int) * period := by push_cast; ring
        have step : appointment period (start + k * period, k) x = .ok (start + ((k + 1 : Nat) : Int) * period, k + 1) := by
          unfold appointment
          simp only
          rw [if_pos hge, (C39_datetime_arithmetic _ period).1, e, exact_ok ?_]
          · rfl
          · rw [in64, ← e]
            have : 0 ≤ (k : Int) * period := Int.mul_nonneg (by omega) (by omega)
            omega
        rw [step]
        exact ih x (k + 1) (by rw [← e]; omega) (.inr (by push_cast; rw [show ((k : Int) + 1 - 1) = k by omega]; exact hge)) c3 (fun y hy => hr y (by simp [hy]))
      · have step : appointment period (start + k * period, k) x = .ok (start + k * period, k) := by
          unfold appointment
          simp only
          rw [if_neg hge]; rfl
        rw [step]
        exact ih x k (by omega) (by rcases h2 with h2 | h2; exact .inl h2; exact .inr (by omega)) c3 (fun y hy => hr y (by simp [hy]))
  have hl : (h ++ [now]).getLast? = some now := by simp
  have hr' : ∀ x ∈ h ++ [now], IntTy.i64.InRange (x + period) := fun x hx => hr x (by simp at hx ⊢; exact .inr hx)
  generalize h ++ [now] = l at *
  cases l with
  | nil => simp at hl
  | cons first rest =>
    have hf : first < start + period := hfirst first (by simp)
    obtain ⟨k, k1, k2, k3⟩ := key (first :: rest) (min first (start - 1)) 0 (by simp) (.inl rfl)
      (List.isChain_cons_cons.2 ⟨by omega, hgap⟩) hr'
    rw [hl, Option.getD_some] at k2 k3
    refine ⟨k, by simpa using k1, fun i => ⟨fun hi => ?_, fun hi => ?_⟩⟩
    · have : (i : Int) * period ≤ ((k : Int) - 1) * period := Int.mul_le_mul_of_nonneg_right (by omega) (by omega)
      omega
    · have : (i : Int) * period < (k : Int) * period := by omega
      have := Int.lt_of_mul_lt_mul_right this (by omega)
      omega

/-- **C140.** However far apart the scans are, no appointment is met before its time, and at most one in each scan. -/
theorem C140_never_early (start period : Int) (hp : 0 < period) (h : List Int) (hc : h.Pairwise (· ≤ ·))
    (hr : ∀ x ∈ start :: h, IntTy.i64.InRange (x + period)) :
    ∃ k : Nat, runFB (appointment period) (start, 0) h = .ok (start + k * period, k) ∧ k ≤ h.length ∧
      ∀ now ∈ h.getLast?, ∀ i : Nat, i < k → start + i * period ≤ now := by
  have hs0 := (in64 _).1 (hr start (by simp))
  have key : ∀ (h : List Int) (prev : Int) (k : Nat), (k = 0 ∨ start + (k - 1) * period ≤ prev) →
      (prev :: h).Pairwise (· ≤ ·) → (∀ x ∈ h, IntTy.i64.InRange (x + period)) →
      ∃ k' : Nat, runFB (appointment period) (start + k * period, k) h = .ok (start + k' * period, k') ∧ k' ≤ k + h.length ∧
        (k' = 0 ∨ start + (k' - 1) * period ≤ h.getLast?.getD prev) := by
    intro h
    induction h with
    | nil => intro prev k h2 _ _; exact ⟨k, rfl, by simp, h2⟩
    | cons x h ih =>
      intro prev k h2 hc hr
      have c1 : prev ≤ x := (List.pairwise_cons.1 hc).1 x (by simp)
      have c3 := (List.pairwise_cons.1 hc).2
      have hx := (in64 _).1 (hr x (by simp))
      have el : (x :: h).getLast?.getD prev = h.getLast?.getD x := by rw [List.getLast?_cons]; rfl
      rw [el]
      unfold runFB
      rw [List.foldlM_cons]
      by_cases hge : x ≥ start + k * period
      · have e : start + (k : Int) * period + period = start + ((k + 1 : Nat) : Int) * period := by push_cast; ring
        have step : appointment period (start + k * period, k) x = .ok (start + ((k + 1 : Nat) : Int) * period, k + 1) := by
          unfold appointment
          simp only
          rw [if_pos hge, (C39_datetime_arithmetic _ period).1, e, exact_ok ?_]
          · rfl
          · rw [in64, ← e]
            have : 0 ≤ (k : Int) * period := Int.mul_nonneg (by omega) (by omega)
            omega
        rw [step]
        obtain ⟨k', i1, i2, i3⟩ := ih x (k + 1) (.inr (by push_cast; rw [show ((k : Int) + 1 - 1) = k by omega]; exact hge)) c3
          (fun y hy => hr y (by simp [hy]))
        exact ⟨k', i1, by simp; omega, i3⟩
      · have step : appointment period (start + k * period, k) x = .ok (start + k * period, k) := by
          unfold appointment
          simp only
          rw [if_neg hge]; rfl
        rw [step]
        obtain ⟨k', i1, i2, i3⟩ := ih x k (by rcases h2 with h2 | h2; exact .inl h2; exact .inr (by omega)) c3 (fun y hy => hr y (by simp [hy]))
        exact ⟨k', i1, by simp; omega, i3⟩
  cases h with
  | nil => exact ⟨0, by simp [runFB], by simp, by simp⟩
  | cons first rest =>
    obtain ⟨k, k1, k2, k3⟩ := key (first :: rest) first 0 (.inl rfl)
      (List.pairwise_cons.2 ⟨fun y hy => by rcases List.mem_cons.1 hy with rfl | hy; exact le_refl _; exact (List.pairwise_cons.1 hc).1 y hy, hc⟩)
      (fun x hx => hr x (List.mem_cons_of_mem _ hx))
    refine ⟨k, by simpa using k1, by simpa using k2, fun now hnow i hi => ?_⟩
    rw [Option.mem_def] at hnow
    rw [hnow, Option.getD_some] at k3
    have : (i : Int) * period ≤ ((k : Int) - 1) * period := Int.mul_le_mul_of_nonneg_right (by omega) (by omega)
    omega

/-! ### Examples -/

/-- Two of three intervals counted. -/
example : runFB hourMeter (0, 1000) [(1010, true), (1025, false), (1025, true), (1100, true)] = .ok (85, 1100) := by decide +kernel

/-- A period of 10 from 100 on, scans at most 10 apart: three appointments up to 121. -/
example : [95, 99, 103, 110, 112, 121].IsChain (fun x y : Int => x ≤ y ∧ y - x ≤ 10) ∧
    runFB (appointment 10) (100, 0) [95, 99, 103, 110, 112, 121] = .ok (130, 3) := by
  constructor
  · decide
  · decide +kernel

/-- Scans further apart than the period fall behind: at 200 only one appointment is met. -/
example : runFB (appointment 10) (100, 0) [95, 200] = .ok (110, 1) := by decide +kernel

end Verif
