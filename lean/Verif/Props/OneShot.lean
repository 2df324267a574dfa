import Verif.Props.DelayChain
/-
C171: a pulse timer made of an edge detector, a latch and an on-delay:
`r(CLK := x); t(IN := l.Q1, PT := T); l(SET := r.Q, RESET1 := t.Q); q := l.Q1;`
The block TP of the library aborts when it is idle (C14) and can miss every further edge (C16); this program does what C15 and C16 ask
of a pulse timer.
-/
namespace Verif
open Spec TimerParams

/-- The blocks of the program. -/
structure OneShot where
  r : Trigger
  t : TimerParams
  l : SetResetParams

/-- One scan of the program (`R_TRIG`, src/flanks.rs:19-22, `TON`, src/timers.rs:109-131, and `RS`,
src/bistable_functionblocks.rs:35-37). -/
def oneShotScan (T : Int) (s : OneShot) (x : Bool) (c1 c2 : Nat) : Res OneShot := do
  let r ← R_TRIG.call s.r x
  let t ← TON.call s.t ⟨s.l.output, T, c1, c2⟩
  let l ← RS.call s.l ⟨r.output, t.output⟩
  pure ⟨r, t, l⟩

/-- The blocks after the first `k` scans: the inputs are `x 0, x 1, ...`, the clock readings of scan `i` are `c1 i` and `c2 i`. -/
def oneShotRun (T : Int) (x : Nat → Bool) (c1 c2 : Nat → Nat) : Nat → Res OneShot
  | 0 => .ok ⟨Trigger.default, TimerParams.default, SetResetParams.default⟩
  | k + 1 => do oneShotScan T (← oneShotRun T x c1 c2 k) (x k) (c1 k) (c2 k)

/-- The output of scan `k` (counted from 0), or how the program ended. -/
def oneShot (T : Int) (x : Nat → Bool) (c1 c2 : Nat → Nat) (k : Nat) : Res Bool := do
  pure (← oneShotRun T x c1 c2 (k + 1)).l.output

/-- The input before scan `k`, the output before it and the start of the timer. -/
private def st (T : Int) (x : Nat → Bool) (c1 c2 : Nat → Nat) : Nat → Bool × Bool × Option Nat
  | 0 => (false, false, none)
  | k + 1 =>
    let p := st T x c1 c2 k
    (x k, !tonQ T p.2.2 p.2.1 (c2 k) && ((x k && !p.1) || p.2.1), tonNext p.2.2 p.2.1 (c1 k))

private theorem run_is {T : Int} (hT : 0 ≤ T ∧ T < 2 ^ 63) (x : Nat → Bool) (c1 c2 : Nat → Nat) (k : Nat) :
    ∃ s, oneShotRun T x c1 c2 k = .ok s ∧ s.r.internal.current_value = (st T x c1 c2 k).1 ∧ s.l.output = (st T x c1 c2 k).2.1 ∧
      TonIs s.t (st T x c1 c2 k).2.2 := by
  induction k with
  | zero => exact ⟨_, rfl, rfl, rfl, rfl, fun _ => rfl⟩
  | succ k ih =>
    obtain ⟨s, e, h1, h2, h3⟩ := ih
    obtain ⟨t, e1, j1, q1⟩ := ton_is hT h3 s.l.output (c1 k) (c2 k)
    have e' : oneShotRun T x c1 c2 (k + 1) =
        .ok ⟨R_TRIG { s.r with clk := x k }, t, RS { s.l with set := (R_TRIG { s.r with clk := x k }).output, reset := t.output }⟩ := by
      rw [oneShotRun, e, Res.bind_ok, oneShotScan, R_TRIG.call, Res.bind_ok, e1, Res.bind_ok, RS.call, Res.bind_ok]; rfl
    refine ⟨_, e', ?_, ?_, ?_⟩
    · simp [R_TRIG, Signal.rising_edge, st]
    · simp only [R_TRIG, Signal.rising_edge, RS, st, q1, h1, h2]
      cases x k <;> cases (st T x c1 c2 k).1 <;> rfl
    · rw [h2] at j1; exact j1

private theorem shot_eq {T : Int} (hT : 0 ≤ T ∧ T < 2 ^ 63) (x : Nat → Bool) (c1 c2 : Nat → Nat) (k : Nat) :
    oneShot T x c1 c2 k = .ok (st T x c1 c2 (k + 1)).2.1 := by
  obtain ⟨s, e, -, h, -⟩ := run_is hT x c1 c2 (k + 1)
  rw [oneShot, e, Res.bind_ok, ← h]; rfl

private theorem idle (T : Int) (x : Nat → Bool) (c1 c2 : Nat → Nat) (k : Nat) (h : (st T x c1 c2 k).2.1 = false) :
    (st T x c1 c2 (k + 1)).2.1 = (x k && !(st T x c1 c2 k).1) ∧ (st T x c1 c2 (k + 1)).2.2 = none := by
  cases hs : (st T x c1 c2 k).2.2 <;> simp [st, h, hs, tonQ, tonNext]

/-- **C171.** The first output is the first input. -/
theorem C171_first (T : Int) (hT : 0 ≤ T ∧ T < 2 ^ 63) (x : Nat → Bool) (c1 c2 : Nat → Nat) : oneShot T x c1 c2 0 = .ok (x 0) := by
  rw [shot_eq hT, (idle T x c1 c2 0 rfl).1]
  simp [st]

/-- **C171.** The program never aborts. -/
theorem C171_total (T : Int) (hT : 0 ≤ T ∧ T < 2 ^ 63) (x : Nat → Bool) (c1 c2 : Nat → Nat) (k : Nat) :
    ∃ q, oneShot T x c1 c2 k = .ok q := ⟨_, shot_eq hT x c1 c2 k⟩

/-- **C171.** While there is no pulse, a pulse starts exactly at a rising edge of the input. -/
theorem C171_starts (T : Int) (hT : 0 ≤ T ∧ T < 2 ^ 63) (x : Nat → Bool) (c1 c2 : Nat → Nat) (k : Nat)
    (h : oneShot T x c1 c2 k = .ok false) : oneShot T x c1 c2 (k + 1) = .ok true ↔ x k = false ∧ x (k + 1) = true := by
  rw [shot_eq hT] at h ⊢
  rw [(idle T x c1 c2 (k + 1) (Res.ok.inj h)).1]
  have : (st T x c1 c2 (k + 1)).1 = x k := rfl
  rw [this]
  cases x k <;> cases x (k + 1) <;> simp

/-- **C171.** A pulse that starts in scan `j` is TRUE in every scan in which at most `T` has passed since the scan after `j`, whatever the
input does, and it ends in the first scan in which more has passed; it is at least two scans long. -/
theorem C171_lasts (T : Int) (hT : 0 ≤ T ∧ T < 2 ^ 63) (x : Nat → Bool) (c1 c2 : Nat → Nat) (j k : Nat)
    (hs : j = 0 ∨ oneShot T x c1 c2 (j - 1) = .ok false) (hjk : j < k) (h : ∀ i, j ≤ i → i < k → oneShot T x c1 c2 i = .ok true) :
    oneShot T x c1 c2 k = .ok true ↔ k = j + 1 ∨ (c2 k : Int) - c1 (j + 1) ≤ T := by
  have h : ∀ i, j ≤ i → i < k → (st T x c1 c2 (i + 1)).2.1 = true := fun i a b => by
    have := h i a b
    rw [shot_eq hT] at this
    exact Res.ok.inj this
  have h0 : (st T x c1 c2 (j + 1)).2.2 = none := by
    refine (idle T x c1 c2 j ?_).2
    rcases hs with rfl | hs
    · rfl
    · cases j with
      | zero => rfl
      | succ j => rw [shot_eq hT] at hs; exact Res.ok.inj hs
  have next : ∀ i, st T x c1 c2 (i + 1) = (x i, !tonQ T (st T x c1 c2 i).2.2 (st T x c1 c2 i).2.1 (c2 i) &&
      ((x i && !(st T x c1 c2 i).1) || (st T x c1 c2 i).2.1), tonNext (st T x c1 c2 i).2.2 (st T x c1 c2 i).2.1 (c1 i)) := fun _ => rfl
  have run : ∀ n, j + 1 + n < k → (st T x c1 c2 (j + 1 + n + 1)).2.2 = some (c1 (j + 1)) := by
    intro n
    induction n with
    | zero =>
      intro hn
      rw [next (j + 1 + 0)]
      simp only [Nat.add_zero, tonNext, h0, h j (by omega) (by omega), if_true, Option.getD_none]
    | succ n ih =>
      intro hn
      rw [show j + 1 + (n + 1) + 1 = (j + 1 + n + 1) + 1 by omega, next (j + 1 + n + 1)]
      simp only [tonNext, h (j + 1 + n) (by omega) (by omega), ih (by omega), if_true, Option.getD_some]
  rw [shot_eq hT, Res.ok.injEq, next k]
  obtain ⟨m, rfl⟩ : ∃ m, k = j + 1 + m := ⟨k - (j + 1), by omega⟩
  have ho : (st T x c1 c2 (j + 1 + m)).2.1 = true := by
    rw [show j + 1 + m = (j + m) + 1 by omega]
    exact h (j + m) (by omega) (by omega)
  cases m with
  | zero =>
    simp only [Nat.add_zero] at ho ⊢
    simp [h0, ho, tonQ]
  | succ n =>
    have hr := run n (by omega)
    rw [show j + 1 + n + 1 = j + 1 + (n + 1) by omega] at hr
    simp only [hr, ho, tonQ, Bool.or_true, Bool.and_true, Bool.true_and, Bool.not_eq_true', decide_eq_false_iff_not]
    omega

/-- **C171.** A pulse ends: once more than `T` has passed since the scan after its start, it is over or was over before. -/
theorem C171_ends (T : Int) (hT : 0 ≤ T ∧ T < 2 ^ 63) (x : Nat → Bool) (c1 c2 : Nat → Nat) (j k : Nat)
    (hs : j = 0 ∨ oneShot T x c1 c2 (j - 1) = .ok false) (hjk : j + 1 < k) (h : (c2 k : Int) - c1 (j + 1) > T) :
    ∃ i, j ≤ i ∧ i ≤ k ∧ oneShot T x c1 c2 i = .ok false := by
  refine Classical.byContradiction fun hn => ?_
  have all : ∀ i, j ≤ i → i ≤ k → oneShot T x c1 c2 i = .ok true := fun i a b => by
    obtain ⟨q, e⟩ := C171_total T hT x c1 c2 i
    cases q
    · exact absurd ⟨i, a, b, e⟩ hn
    · exact e
  rcases (C171_lasts T hT x c1 c2 j k hs (by omega) fun i a b => all i a (by omega)).1 (all k (by omega) (by omega)) with e | e
  · omega
  · omega

/-- Two edges and two pulses of 20; the input falls and rises again during the first one, which makes no difference. -/
example :
    let x := fun k => [false, true, false, true, false, false, true, true].getD k false
    (List.range 8).map (oneShot 20 x (fun k => 10 * k) (fun k => 10 * k + 1)) =
      [.ok false, .ok true, .ok true, .ok true, .ok false, .ok false, .ok true, .ok true] := by
  decide +kernel

/-- The block TP aborts in the first scan of that history. -/
example : TP.call TimerParams.default ⟨false, 20, 0, 1⟩ = .panic := rfl

end Verif
