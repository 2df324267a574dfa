import Verif.Model.Counters
import Verif.Model.Timers
/-
Function block instances that two tasks call.

A call is taken apart into its loads and stores, in the order of the program; between two of them another task may interrupt it and call the same
instance.  A field is loaded or stored at once (`start_time` has more than one word), and the clock readings of a call are given with its inputs.  A
compiler may change the order of loads and stores, load a field once where the program loads it twice, or leave out stores.
-/
namespace Verif

/-- What is left of a call on an instance with memory `S`: nothing, a panic, a load (what follows depends on the value), or a store
(the statements of src/flanks.rs:19-29, src/bistable_functionblocks.rs:23-37, src/counters.rs:37-47, 153-163, 289-310, src/timers.rs:84-152). -/
inductive Steps (S : Type) where
  | done
  | panic
  | load (next : S → Steps S)
  | store (f : S → S) (next : Steps S)

namespace Steps

/-- The rest of a call without interruption (src/flanks.rs:19-29). -/
def run {S : Type} : Steps S → S → Res S
  | done, m => .ok m
  | panic, _ => .panic
  | load next, m => (next m).run m
  | store f next, m => next.run (f m)

/-- A call that another task interrupts after `k` of its loads and stores (or at its end, if it has no more than `k`): the memory when the other task is
done and the memory when the interrupted call returns (no code in /repo keeps the tasks apart, e.g. src/flanks.rs:19-22). -/
def interrupted {S : Type} : Steps S → Nat → (S → Res S) → S → Res (S × S)
  | rest, 0, other, m => do
    let m' ← other m
    let m'' ← rest.run m'
    pure (m', m'')
  | done, _ + 1, other, m => do
    let m' ← other m
    pure (m', m')
  | panic, _ + 1, _, _ => .panic
  | load next, k + 1, other, m => (next m).interrupted k other m
  | store f next, k + 1, other, m => next.interrupted k other (f m)

/-- A call that another task interrupts again and again: `calls` are the calls of the other task before the first load or store, before the second, and so
on (no code in /repo keeps the tasks apart, e.g. src/flanks.rs:19-22). -/
def runWith {S I : Type} (call : S → I → Res S) : Steps S → List (List I) → S → Res S
  | done, _, m => .ok m
  | panic, _, _ => .panic
  | load next, calls, m => do
    let m ← runFB call m (calls.head?.getD [])
    (next m).runWith call calls.tail m
  | store f next, calls, m => do
    let m ← runFB call m (calls.head?.getD [])
    next.runWith call calls.tail (f m)

/-- One load or store (src/flanks.rs:19-29). -/
def step {S : Type} : Steps S → S → Res (Steps S × S)
  | done, m => .ok (done, m)
  | panic, _ => .panic
  | load next, m => .ok (next m, m)
  | store f next, m => .ok (next, f m)

/-- One call and then another (src/flanks.rs:19-29). -/
def andThen {S : Type} : Steps S → Steps S → Steps S
  | done, b => b
  | panic, _ => panic
  | load next, b => load fun m => (next m).andThen b
  | store f next, b => store f (next.andThen b)

/-- A task that makes calls with the given inputs one after the other (src/flanks.rs:19-29). -/
def task {S I : Type} (steps : I → Steps S) : List I → Steps S
  | [] => done
  | i :: l => (steps i).andThen (task steps l)

/-- Tasks on several cores: `schedule` says which task makes the next load or store (no code in /repo keeps the tasks apart, e.g. src/flanks.rs:19-22). Every
core sees the stores of the others at once and in the same order. -/
def runTasks {S : Type} : List (Steps S) → List Nat → S → Res (List (Steps S) × S)
  | tasks, [], m => .ok (tasks, m)
  | tasks, i :: schedule, m =>
    match tasks[i]? with
    | none => runTasks tasks schedule m
    | some t => do
      let (t, m) ← t.step m
      runTasks (tasks.set i t) schedule m

/-- A core that delays its stores: what is left of its task, and the stores that the other cores do not see yet, the oldest first (x86; no code in /repo makes it wait
for them, e.g. src/flanks.rs:19-22). -/
structure Core (S : Type) where
  rest : Steps S
  pending : List (S → S)

/-- What a core loads: its own delayed stores count (as `Core`; src/flanks.rs:19-22). -/
def Core.view {S : Type} (c : Core S) (m : S) : S := c.pending.foldl (fun m f => f m) m

/-- What happens next on cores that delay their stores: a core makes the next load or store of its task, or its oldest delayed store reaches the memory (as `Core`; src/flanks.rs:19-22). -/
inductive Turn where
  | step (core : Nat)
  | write (core : Nat)
  deriving DecidableEq

/-- The next load or store of a core (as `Core`; src/flanks.rs:19-22). -/
def Core.step {S : Type} (c : Core S) (m : S) : Res (Core S) :=
  match c.rest with
  | done => .ok c
  | panic => .panic
  | load next => .ok ⟨next (c.view m), c.pending⟩
  | store f next => .ok ⟨next, c.pending ++ [f]⟩

/-- Tasks on cores that delay their stores, in the order of `schedule` (as `Core`; src/flanks.rs:19-22): what is left of them, and the memory. -/
def runCores {S : Type} : List (Core S) → List Turn → S → Res (List (Core S) × S)
  | cores, [], m => .ok (cores, m)
  | cores, .step i :: schedule, m =>
    match cores[i]? with
    | none => runCores cores schedule m
    | some c => do
      let c ← c.step m
      runCores (cores.set i c) schedule m
  | cores, .write i :: schedule, m =>
    match cores[i]? with
    | some ⟨rest, f :: pending⟩ => runCores (cores.set i ⟨rest, pending⟩) schedule (f m)
    | _ => runCores cores schedule m

/-- `Signal::rising_edge` (src/utils.rs:10-14) for the edge memory `get` / `set`; because of `&&` the memory is loaded only if the new value is TRUE. -/
def rising_edge {S : Type} (get : S → Signal) (set : S → Signal → S) (value : Bool) (next : Bool → Steps S) : Steps S :=
  if value then load fun m => store (set · ⟨value⟩) (next ((get m).current_value ^^ value))
  else store (set · ⟨value⟩) (next false)

/-- `Signal::falling_edge` (src/utils.rs:17-21). -/
def falling_edge {S : Type} (get : S → Signal) (set : S → Signal → S) (value : Bool) (next : Bool → Steps S) : Steps S :=
  if value then store (set · ⟨value⟩) (next false)
  else load fun m => store (set · ⟨value⟩) (next ((get m).current_value ^^ value))

end Steps
open Steps TimerParams

/-- `R_TRIG` (src/flanks.rs:19-22): CLK is stored by the caller. -/
def R_TRIG.steps (clk : Bool) : Steps Trigger :=
  store ({ · with clk := clk }) <| load fun m =>
  Steps.rising_edge (·.internal) ({ · with internal := · }) m.clk fun res =>
  store ({ · with output := res }) done

/-- `F_TRIG` (src/flanks.rs:26-29). -/
def F_TRIG.steps (clk : Bool) : Steps Trigger :=
  store ({ · with clk := clk }) <| load fun m =>
  Steps.falling_edge (·.internal) ({ · with internal := · }) m.clk fun res =>
  store ({ · with output := res }) done

/-- `SR` (src/bistable_functionblocks.rs:23-25): the inputs are stored by the caller; `|` and `&` load all operands. -/
def SR.steps (i : LatchIn) : Steps SetResetParams :=
  store ({ · with set := i.set }) <| store ({ · with reset := i.reset }) <|
  load fun m1 => load fun m2 => load fun m3 =>
  store ({ · with output := m1.set || (!m2.reset && m3.output) }) done

/-- `RS` (src/bistable_functionblocks.rs:35-37). -/
def RS.steps (i : LatchIn) : Steps SetResetParams :=
  store ({ · with set := i.set }) <| store ({ · with reset := i.reset }) <|
  load fun m1 => load fun m2 => load fun m3 =>
  store ({ · with output := !m1.reset && (m2.set || m3.output) }) done

/-- `update_q` at the end of `ctu` (src/counters.rs:20-22, 46). -/
def ctuStepsEnd : Steps CTUParams :=
  load fun m1 => load fun m2 => store ({ · with q := decide (m1.cv ≥ m2.pv) }) done

/-- `ctu` (src/counters.rs:37-47): the three inputs are stored by the caller; the value is loaded for the comparison and loaded again by `inc`. -/
def ctuSteps (t : IntTy) (p : Profile) (i : CTUIn) : Steps CTUParams :=
  store ({ · with cu := i.cu }) <| store ({ · with r := i.r }) <| store ({ · with pv := i.pv }) <|
  load fun m => if m.r then store ({ · with cv := 0 }) ctuStepsEnd
  else load fun m => Steps.rising_edge (·.internal) ({ · with internal := · }) m.cu fun e =>
    load fun m => if e && decide (m.cv < t.hi) then
      load fun m => match t.arith p (m.cv + 1) with
      | .ok v => store ({ · with cv := v }) ctuStepsEnd
      | _ => panic
    else ctuStepsEnd

/-- `update_q` at the end of `ctd` (src/counters.rs:136-138, 162). -/
def ctdStepsEnd : Steps CTDParams :=
  load fun m => store ({ · with q := decide (m.cv ≤ 0) }) done

/-- `ctd` (src/counters.rs:153-163); `load` loads `PV` and stores the value. -/
def ctdSteps (t : IntTy) (p : Profile) (i : CTDIn) : Steps CTDParams :=
  store ({ · with cd := i.cd }) <| store ({ · with ld := i.ld }) <| store ({ · with pv := i.pv }) <|
  load fun m => if m.ld then load fun m => store ({ · with cv := m.pv }) ctdStepsEnd
  else load fun m => Steps.rising_edge (·.internal) ({ · with internal := · }) m.cd fun e =>
    load fun m => if e && decide (m.cv > t.lo) then
      load fun m => match t.arith p (m.cv - 1) with
      | .ok v => store ({ · with cv := v }) ctdStepsEnd
      | _ => panic
    else ctdStepsEnd

/-- `update_qu`, `update_qd` at the end of `ctud` (src/counters.rs:256-262, 308-309). -/
def ctudStepsEnd : Steps CTUDParams :=
  load fun m1 => load fun m2 => store ({ · with qu := decide (m1.cv ≥ m2.pv) }) <|
  load fun m => store ({ · with qd := decide (m.cv ≤ 0) }) done

/-- `ctud` (src/counters.rs:289-310). -/
def ctudSteps (t : IntTy) (p : Profile) (i : CTUDIn) : Steps CTUDParams :=
  store ({ · with cu := i.cu }) <| store ({ · with cd := i.cd }) <| store ({ · with r := i.r }) <| store ({ · with ld := i.ld }) <|
  store ({ · with pv := i.pv }) <|
  load fun m => if m.r then store ({ · with cv := 0 }) ctudStepsEnd
  else load fun m => if m.ld then load fun m => store ({ · with cv := m.pv }) ctudStepsEnd
  else load fun m => Steps.rising_edge (·.internal_up) ({ · with internal_up := · }) m.cu fun up =>
    load fun m => Steps.rising_edge (·.internal_down) ({ · with internal_down := · }) m.cd fun down =>
    if up && down then ctudStepsEnd
    else load fun m => if up && decide (m.cv < t.hi) then
      load fun m => match t.arith p (m.cv + 1) with
      | .ok v => store ({ · with cv := v }) ctudStepsEnd
      | _ => panic
    else load fun m => if down && decide (m.cv > t.lo) then
      load fun m => match t.arith p (m.cv - 1) with
      | .ok v => store ({ · with cv := v }) ctudStepsEnd
      | _ => panic
    else ctudStepsEnd

/-- `start` (src/timers.rs:34-37). -/
def TimerParams.startSteps (now : Nat) (next : Steps TimerParams) : Steps TimerParams :=
  store ({ · with start_time := some now }) <| store ({ · with elapsed_time := 0 }) next

/-- `reset` (src/timers.rs:39-42). -/
def TimerParams.resetSteps (next : Steps TimerParams) : Steps TimerParams :=
  store ({ · with start_time := none }) <| store ({ · with elapsed_time := 0 }) next

/-- `update_elapsed_time` (src/timers.rs:49-58): the start time is loaded by `is_running` and again by `get_run_time`, whose result is unwrapped by `expect`. -/
def TimerParams.updateSteps (now : Nat) (next : Steps TimerParams) : Steps TimerParams :=
  load fun m => if m.start_time.isSome then
    load fun m1 => load fun m2 => match m2.get_run_time now with
    | none => panic
    | some d => store ({ · with elapsed_time := min m1.preset_time (IntTy.i64.wrap d) }) next
  else next

/-- `is_in_preset_range` (src/timers.rs:60-63). -/
def TimerParams.rangeSteps (now : Nat) (next : Bool → Steps TimerParams) : Steps TimerParams :=
  load fun m1 => load fun m2 => next (({ m2 with preset_time := m1.preset_time } : TimerParams).is_in_preset_range now)

/-- The end of every timer (src/timers.rs:103-104, 129-130, 150-151). -/
def TimerParams.finishSteps (output : Bool) : Steps TimerParams :=
  store ({ · with output := output }) <| load fun m => store ({ · with input_edge := ⟨m.input⟩ }) done

/-- `input_rising_edge` (src/timers.rs:73-75). -/
def TimerParams.riseSteps (next : Bool → Steps TimerParams) : Steps TimerParams :=
  load fun m => Steps.rising_edge (·.input_edge) ({ · with input_edge := · }) m.input next

/-- `input_falling_edge` (src/timers.rs:77-79). -/
def TimerParams.fallSteps (next : Bool → Steps TimerParams) : Steps TimerParams :=
  load fun m => Steps.falling_edge (·.input_edge) ({ · with input_edge := · }) m.input next

/-- `TP` (src/timers.rs:84-105): IN and PT are stored by the caller. -/
def TP.steps (i : TimerIn) : Steps TimerParams :=
  store ({ · with input := i.input }) <| store ({ · with preset_time := i.pt }) <|
  load fun m => if m.start_time.isSome then
    updateSteps i.t1 <| rangeSteps i.t2 fun within =>
    if within then finishSteps true
    else fallSteps fun fall => if fall then resetSteps (finishSteps false) else finishSteps false
  else riseSteps fun rise => if rise then startSteps i.t1 (finishSteps true) else panic

/-- `TON` (src/timers.rs:109-131). -/
def TON.steps (i : TimerIn) : Steps TimerParams :=
  store ({ · with input := i.input }) <| store ({ · with preset_time := i.pt }) <|
  load fun m => if m.input then
    load fun m => if m.start_time.isSome then
      updateSteps i.t1 <| rangeSteps i.t2 fun within => finishSteps !within
    else riseSteps fun rise => if rise then startSteps i.t1 (finishSteps false) else finishSteps true
  else resetSteps (finishSteps false)

/-- `TOF` (src/timers.rs:135-152). -/
def TOF.steps (i : TimerIn) : Steps TimerParams :=
  store ({ · with input := i.input }) <| store ({ · with preset_time := i.pt }) <|
  load fun m => if m.input then
    riseSteps fun rise => if rise then resetSteps (finishSteps true) else finishSteps true
  else fallSteps fun fall => if fall then startSteps i.t1 (finishSteps true)
  else load fun m => if m.start_time.isSome then
    updateSteps i.t1 <| rangeSteps i.t2 fun within => finishSteps within
  else finishSteps false

end Verif
