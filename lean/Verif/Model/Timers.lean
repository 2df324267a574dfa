import Verif.Model.Flanks
/-
Timers: src/timers.rs.

`Instant` is modelled as a natural number of nanoseconds since some origin, `Duration`
as a natural number of nanoseconds.  The only two clock reads of a call are
`Instant::now()` in `start` (src/timers.rs:35) or `Instant::elapsed()` in
`update_elapsed_time` (src/timers.rs:53) and then in `is_in_preset_range`
(src/timers.rs:62); a call carries both readings `t1`, `t2`.
-/
namespace Verif

/-- `TimerParams` (src/timers.rs:17-24). -/
structure TimerParams where
  input : Bool
  preset_time : Int
  output : Bool
  elapsed_time : Int
  input_edge : Signal
  start_time : Option Nat
  deriving DecidableEq, Repr

namespace TimerParams

/-- A fresh instance (`Default`, src/timers.rs:16). -/
def default : TimerParams := ⟨false, 0, false, 0, Signal.default, none⟩

/-- `is_running` (src/timers.rs:30-32). -/
def is_running (s : TimerParams) : Bool := s.start_time.isSome

/-- `start` (src/timers.rs:34-37); `now` is the clock reading. -/
def start (s : TimerParams) (now : Nat) : TimerParams :=
  { s with start_time := some now, elapsed_time := 0 }

/-- `reset` (src/timers.rs:39-42). -/
def reset (s : TimerParams) : TimerParams := { s with start_time := none, elapsed_time := 0 }

/-- `get_run_time` (src/timers.rs:65-67); `Instant::elapsed` is the (saturating) difference of the
clock reading and the start. -/
def get_run_time (s : TimerParams) (now : Nat) : Option Nat := s.start_time.map (now - ·)

/-- `update_elapsed_time` (src/timers.rs:49-58): `min(PT, run_time.as_nanos() as i64)`. -/
def update_elapsed_time (s : TimerParams) (now : Nat) : TimerParams :=
  match s.get_run_time now with
  | some d => { s with elapsed_time := min s.preset_time (IntTy.i64.wrap d) }
  | none => s

/-- `is_in_preset_range` (src/timers.rs:60-63): `run_time <= Duration::from_nanos(PT as u64)`. -/
def is_in_preset_range (s : TimerParams) (now : Nat) : Bool :=
  match s.get_run_time now with
  | some d => decide ((d : Int) ≤ IntTy.u64.wrap s.preset_time)
  | none => false

/-- `input_rising_edge` (src/timers.rs:73-75). -/
def input_rising_edge (s : TimerParams) : Bool × TimerParams :=
  let (e, sig) := s.input_edge.rising_edge s.input
  (e, { s with input_edge := sig })

/-- `input_falling_edge` (src/timers.rs:77-79). -/
def input_falling_edge (s : TimerParams) : Bool × TimerParams :=
  let (e, sig) := s.input_edge.falling_edge s.input
  (e, { s with input_edge := sig })

/-- Last two lines of every timer: `set_output`, `input_edge.set`
(src/timers.rs:103-104, 129-130, 150-151). -/
def finish (s : TimerParams) (output : Bool) : TimerParams :=
  { s with output := output, input_edge := s.input_edge.set s.input }

end TimerParams
open TimerParams

/-- How the toolchain stores `None` in the `Option<Instant>` of `TimerParams` (src/timers.rs:23): with a tag of its
own that is 0, or (standard libraries in which the nanoseconds of an `Instant` have a restricted range) as a value of that field that
no `Instant` has and that is not 0. The repository does not pin a toolchain. -/
inductive InstantLayout where
  | tagged
  | niche
  deriving DecidableEq, Repr

/-- The instance the Structured Text side creates: all bytes are 0 (iec61131-st/timers.st:12-25, `__BUFFER__` has no initial value).
With the niche layout the zero bytes are `Some` of the origin of the clock. -/
def TimerParams.zeroed (l : InstantLayout) : TimerParams :=
  { TimerParams.default with start_time := match l with | .tagged => none | .niche => some 0 }

/-- `TP` (src/timers.rs:84-105). `t1`, `t2` are the first and second clock reading. -/
def TP (s : TimerParams) (t1 t2 : Nat) : Res TimerParams :=
  if s.is_running then
    let s := s.update_elapsed_time t1
    if s.is_in_preset_range t2 then .ok (s.finish true)
    else
      let (fall, s) := s.input_falling_edge
      let s := if fall then s.reset else s
      .ok (s.finish false)
  else
    let (rise, s) := s.input_rising_edge
    if rise then .ok ((s.start t1).finish true)
    else .panic

/-- `TON` (src/timers.rs:109-131). -/
def TON (s : TimerParams) (t1 t2 : Nat) : Res TimerParams :=
  if s.input then
    if s.is_running then
      let s := s.update_elapsed_time t1
      .ok (s.finish (!s.is_in_preset_range t2))
    else
      let (rise, s) := s.input_rising_edge
      if rise then .ok ((s.start t1).finish false)
      else .ok (s.finish true)
  else
    .ok (s.reset.finish false)

/-- `TOF` (src/timers.rs:135-152). -/
def TOF (s : TimerParams) (t1 t2 : Nat) : Res TimerParams :=
  if s.input then
    let (rise, s) := s.input_rising_edge
    let s := if rise then s.reset else s
    .ok (s.finish true)
  else
    let (fall, s) := s.input_falling_edge
    if fall then .ok ((s.start t1).finish true)
    else if s.is_running then
      let s := s.update_elapsed_time t1
      .ok (s.finish (s.is_in_preset_range t2))
    else .ok (s.finish false)

/-- Inputs of one timer call and the clock readings available to it. The aliases
`TP_TIME`, `TP_LTIME`, `TON_TIME`, ... (src/timers.rs:155-189) are the same functions. -/
structure TimerIn where
  input : Bool
  pt : Int
  t1 : Nat
  t2 : Nat
  deriving DecidableEq, Repr

/-- One scan cycle of a `TP` instance (src/timers.rs:84-105). -/
def TP.call (s : TimerParams) (i : TimerIn) : Res TimerParams :=
  TP { s with input := i.input, preset_time := i.pt } i.t1 i.t2
/-- One scan cycle of a `TON` instance (src/timers.rs:109-131). -/
def TON.call (s : TimerParams) (i : TimerIn) : Res TimerParams :=
  TON { s with input := i.input, preset_time := i.pt } i.t1 i.t2
/-- One scan cycle of a `TOF` instance (src/timers.rs:135-152). -/
def TOF.call (s : TimerParams) (i : TimerIn) : Res TimerParams :=
  TOF { s with input := i.input, preset_time := i.pt } i.t1 i.t2

end Verif
