import Verif.Model.Timers
import Verif.Model.Counters
/-
The tests of /repo/tests that exercise function blocks, run on the model. These are tests of the transcription, not proofs.
-/
namespace Verif.Conformance

/-- What a program observes call by call. -/
def trace {S I O : Type} (call : S → I → Res S) (obs : S → O) : S → List I → Res (List O)
  | _, [] => .ok []
  | s, i :: is => do
    let s ← call s i
    let os ← trace call obs s is
    .ok (obs s :: os)

/-! ### flank_tests.rs, src/utils.rs -/

-- flank_tests.rs:21-45, 48-74
example : trace R_TRIG.call (·.output) Trigger.default [true, true] = .ok [true, false] := by decide
example : trace F_TRIG.call (·.output) Trigger.default [true, false] = .ok [false, true] := by decide
-- src/utils.rs:43-146: rising and falling edges
example : trace R_TRIG.call (·.output) Trigger.default [true, false, true, true] = .ok [true, false, true, false] := by decide
example : trace F_TRIG.call (·.output) Trigger.default [true, false, true, false, false] = .ok [false, true, false, true, false] := by
  decide

/-! ### bistable_functionblocks_tests.rs -/

-- lines 26-68
example : trace SR.call (·.output) SetResetParams.default
    [⟨true, true⟩, ⟨false, true⟩, ⟨false, false⟩, ⟨true, false⟩, ⟨true, true⟩, ⟨true, false⟩, ⟨false, false⟩, ⟨false, true⟩,
     ⟨false, true⟩] = .ok [true, false, false, true, true, true, true, false, false] := by decide
-- lines 71-111
example : trace RS.call (·.output) SetResetParams.default
    [⟨true, true⟩, ⟨false, false⟩, ⟨true, false⟩, ⟨false, true⟩, ⟨false, true⟩, ⟨true, false⟩, ⟨true, false⟩, ⟨false, false⟩,
     ⟨true, true⟩] = .ok [false, false, true, false, false, true, true, true, false] := by decide

/-! ### counters_tests.rs -/

/-- The calls of the CTU tests (two per run of the program until Q, then a reset). -/
def ctuCalls : List CTUIn :=
  [⟨true, false, 3⟩, ⟨false, false, 3⟩, ⟨true, false, 3⟩, ⟨false, false, 3⟩, ⟨true, false, 3⟩, ⟨false, false, 3⟩, ⟨true, true, 3⟩]
-- lines 22-284: CTU and CTU_INT, CTU_DINT, CTU_UDINT, CTU_LINT, CTU_ULINT; the tests look at every second call and at the reset
example : ∀ t ∈ [IntTy.i16, .i32, .u32, .i64, .u64], ∀ p ∈ [Profile.debug, .release],
    trace (ctuCall t p) (fun s => (s.q, s.cv)) CTUParams.default ctuCalls =
      .ok [(false, 1), (false, 1), (false, 2), (false, 2), (true, 3), (true, 3), (false, 0)] := by decide +kernel

/-- The calls of the CTD tests: the load, then two per run of the program. -/
def ctdCalls : List CTDIn :=
  [⟨true, true, 3⟩, ⟨true, false, 3⟩, ⟨false, false, 3⟩, ⟨true, false, 3⟩, ⟨false, false, 3⟩, ⟨true, false, 3⟩, ⟨false, false, 3⟩,
   ⟨true, false, 3⟩, ⟨false, false, 3⟩]
-- lines 295-568: signed counters go below zero, unsigned ones stay at zero
example : ∀ t ∈ [IntTy.i16, .i32, .i64], ∀ p ∈ [Profile.debug, .release],
    trace (ctdCall t p) (fun s => (s.q, s.cv)) CTDParams.default ctdCalls =
      .ok [(false, 3), (false, 2), (false, 2), (false, 1), (false, 1), (true, 0), (true, 0), (true, -1), (true, -1)] := by
  decide +kernel
example : ∀ t ∈ [IntTy.u32, .u64], ∀ p ∈ [Profile.debug, .release],
    trace (ctdCall t p) (fun s => (s.q, s.cv)) CTDParams.default ctdCalls =
      .ok [(false, 3), (false, 2), (false, 2), (false, 1), (false, 1), (true, 0), (true, 0), (true, 0), (true, 0)] := by
  decide +kernel

/-- The calls of the CTUD tests. -/
def ctudCalls : List CTUDIn :=
  [⟨false, false, false, true, 1⟩, ⟨true, true, false, false, 1⟩, ⟨false, false, false, false, 1⟩, ⟨false, true, false, false, 1⟩,
   ⟨true, false, false, false, 1⟩, ⟨false, false, true, false, 1⟩]
-- lines 582-1047
example : ∀ t ∈ [IntTy.i16, .i32, .u32, .i64, .u64], ∀ p ∈ [Profile.debug, .release],
    trace (ctudCall t p) (fun s => (s.qu, s.qd, s.cv)) CTUDParams.default ctudCalls =
      .ok [(true, false, 1), (true, false, 1), (true, false, 1), (false, true, 0), (true, false, 1), (false, true, 0)] := by
  decide +kernel

/-! ### timer_tests.rs; the mock clock stands still during a call -/

/-- A call at `ms` milliseconds with a preset of `pt` milliseconds. -/
def at_ms (ms : Nat) (input : Bool) (pt : Int) : TimerIn := ⟨input, pt * 1000000, ms * 1000000, ms * 1000000⟩
/-- Q and ET in milliseconds. -/
def qet (s : TimerParams) : Bool × Int := (s.output, s.elapsed_time / 1000000)

-- tp_true_for_time, lines 55-105
example : trace TP.call qet TimerParams.default
    [at_ms 0 true 10, at_ms 5 true 10, at_ms 10 true 10, at_ms 15 true 10, at_ms 20 false 10] =
    .ok [(true, 0), (true, 5), (true, 10), (false, 10), (false, 0)] := by decide +kernel
-- tp_does_not_retrigger_on_consecutive_input, lines 108-153
example : trace TP.call qet TimerParams.default [at_ms 0 true 10, at_ms 10 true 10, at_ms 15 true 10, at_ms 20 true 10] =
    .ok [(true, 0), (true, 10), (false, 10), (false, 10)] := by decide +kernel
-- tp_not_interrupted_by_signal_change, lines 156-201
example : trace TP.call qet TimerParams.default [at_ms 0 true 10, at_ms 1 false 10, at_ms 2 true 10] =
    .ok [(true, 0), (true, 1), (true, 2)] := by decide +kernel
-- ton_returns_true_after_time_preset, lines 204-257
example : trace TON.call qet TimerParams.default
    [at_ms 0 true 10, at_ms 5 true 10, at_ms 10 true 10, at_ms 15 true 10, at_ms 20 false 10] =
    .ok [(false, 0), (false, 5), (false, 10), (true, 10), (false, 0)] := by decide +kernel
-- ton_counts_elapsed_time_while_waiting, lines 260-299
example : trace TON.call qet TimerParams.default [at_ms 0 true 10, at_ms 5 true 10, at_ms 6 false 10] =
    .ok [(false, 0), (false, 5), (false, 0)] := by decide +kernel
-- ton_waits_again_after_turining_off, lines 302-361
example : trace TON.call qet TimerParams.default
    [at_ms 0 true 9, at_ms 5 true 9, at_ms 10 true 9, at_ms 15 false 9, at_ms 20 true 9, at_ms 30 true 9] =
    .ok [(false, 0), (false, 5), (true, 9), (false, 0), (false, 0), (true, 9)] := by decide +kernel
-- toff_starts_timer_after_input_is_off, lines 364-401
example : trace TOF.call qet TimerParams.default [at_ms 0 true 9, at_ms 10 false 9, at_ms 15 false 9] =
    .ok [(true, 0), (true, 0), (true, 5)] := by decide +kernel
-- toff_runs_for_preset_time, lines 404-449
example : trace TOF.call qet TimerParams.default [at_ms 0 true 9, at_ms 10 false 9, at_ms 20 false 9, at_ms 25 true 9] =
    .ok [(true, 0), (true, 0), (false, 9), (true, 0)] := by decide +kernel
-- toff_keeps_returning_true_if_input_returns_to_true, lines 452-496
example : trace TOF.call qet TimerParams.default
    [at_ms 0 true 9, at_ms 10 false 9, at_ms 15 false 9, at_ms 16 true 9, at_ms 20 false 9, at_ms 25 false 9] =
    .ok [(true, 0), (true, 0), (true, 5), (true, 0), (true, 0), (true, 5)] := by decide +kernel

end Verif.Conformance
