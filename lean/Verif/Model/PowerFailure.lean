import Verif.Model.Counters
import Verif.Model.Timers
/-
Calls of function blocks that are cut off by a power failure, for instances in memory that is kept (VAR RETAIN).

For each block the memory of the instance after none, one, two, ... of the stores of a call, in the order of the program.  The inputs have been
written before.  A field is stored at once, and stores that are repeated with the same value (`input_edge.set` behind `rising_edge`) are listed once.
A compiler may change the order of stores or leave some out; Props/PowerFailure.lean also has theorems for any order.
-/
namespace Verif

/-- `R_TRIG` (src/flanks.rs:19-22): the edge memory, then the output. -/
def R_TRIG.stores (t : Trigger) : List Trigger :=
  let (res, sig) := t.internal.rising_edge t.clk
  [t, { t with internal := sig }, { t with internal := sig, output := res }]

/-- `F_TRIG` (src/flanks.rs:26-29). -/
def F_TRIG.stores (t : Trigger) : List Trigger :=
  let (res, sig) := t.internal.falling_edge t.clk
  [t, { t with internal := sig }, { t with internal := sig, output := res }]

/-- `SR` (src/bistable_functionblocks.rs:23-25). -/
def SR.stores (p : SetResetParams) : List SetResetParams := [p, SR p]

/-- `RS` (src/bistable_functionblocks.rs:35-37). -/
def RS.stores (p : SetResetParams) : List SetResetParams := [p, RS p]

/-- `ctu` (src/counters.rs:37-47): `reset`, or the edge memory and then `inc`; the output last. -/
def ctuStores (t : IntTy) (p : Profile) (s : CTUParams) : Res (List CTUParams) :=
  if s.r then .ok [s, s.reset, s.reset.update_q]
  else
    let (e, s1) := s.r_edge
    if e && decide (s1.cv < t.hi) then do
      let s2 ← s1.inc t p
      pure [s, s1, s2, s2.update_q]
    else .ok [s, s1, s1.update_q]

/-- `ctd` (src/counters.rs:153-163). -/
def ctdStores (t : IntTy) (p : Profile) (s : CTDParams) : Res (List CTDParams) :=
  if s.ld then .ok [s, s.load, s.load.update_q]
  else
    let (e, s1) := s.r_edge
    if e && decide (s1.cv > t.lo) then do
      let s2 ← s1.dec t p
      pure [s, s1, s2, s2.update_q]
    else .ok [s, s1, s1.update_q]

/-- `ctud` (src/counters.rs:289-310): both edge memories, then the value, then the two outputs. -/
def ctudStores (t : IntTy) (p : Profile) (s : CTUDParams) : Res (List CTUDParams) :=
  if s.r then .ok [s, s.reset, s.reset.update_qu, s.reset.update_qu.update_qd]
  else if s.ld then .ok [s, s.load, s.load.update_qu, s.load.update_qu.update_qd]
  else
    let (up, s1) := s.cu_r_edge
    let (down, s2) := s1.cd_r_edge
    if !(up && down) && up && decide (s2.cv < t.hi) then do
      let s3 ← s2.inc t p
      pure [s, s1, s2, s3, s3.update_qu, s3.update_qu.update_qd]
    else if !(up && down) && down && decide (s2.cv > t.lo) then do
      let s3 ← s2.dec t p
      pure [s, s1, s2, s3, s3.update_qu, s3.update_qu.update_qd]
    else .ok [s, s1, s2, s2.update_qu, s2.update_qu.update_qd]

/-- `start` (src/timers.rs:34-37): the start time, then the elapsed time. -/
def TimerParams.startStores (s : TimerParams) (now : Nat) : List TimerParams := [{ s with start_time := some now }, s.start now]

/-- `reset` (src/timers.rs:39-42). -/
def TimerParams.resetStores (s : TimerParams) : List TimerParams := [{ s with start_time := none }, s.reset]

/-- The last two stores of every timer (src/timers.rs:103-104, 129-130, 150-151). -/
def TimerParams.finishStores (s : TimerParams) (output : Bool) : List TimerParams := [{ s with output := output }, s.finish output]

/-- `TP` (src/timers.rs:84-105). -/
def TP.stores (s : TimerParams) (t1 t2 : Nat) : List TimerParams :=
  if s.is_running then
    let s1 := s.update_elapsed_time t1
    if s1.is_in_preset_range t2 then [s, s1] ++ s1.finishStores true
    else
      let (fall, s2) := s1.input_falling_edge
      if fall then [s, s1, s2] ++ s2.resetStores ++ s2.reset.finishStores false
      else [s, s1, s2] ++ s2.finishStores false
  else
    let (rise, s1) := s.input_rising_edge
    if rise then [s, s1] ++ s1.startStores t1 ++ (s1.start t1).finishStores true
    else [s, s1]

/-- `TON` (src/timers.rs:109-131). -/
def TON.stores (s : TimerParams) (t1 t2 : Nat) : List TimerParams :=
  if s.input then
    if s.is_running then
      let s1 := s.update_elapsed_time t1
      [s, s1] ++ s1.finishStores (!s1.is_in_preset_range t2)
    else
      let (rise, s1) := s.input_rising_edge
      if rise then [s, s1] ++ s1.startStores t1 ++ (s1.start t1).finishStores false
      else [s, s1] ++ s1.finishStores true
  else
    [s] ++ s.resetStores ++ s.reset.finishStores false

/-- `TOF` (src/timers.rs:135-152). -/
def TOF.stores (s : TimerParams) (t1 t2 : Nat) : List TimerParams :=
  if s.input then
    let (rise, s1) := s.input_rising_edge
    if rise then [s, s1] ++ s1.resetStores ++ s1.reset.finishStores true
    else [s, s1] ++ s1.finishStores true
  else
    let (fall, s1) := s.input_falling_edge
    if fall then [s, s1] ++ s1.startStores t1 ++ (s1.start t1).finishStores true
    else if s1.is_running then
      let s2 := s1.update_elapsed_time t1
      [s, s1, s2] ++ s2.finishStores (s2.is_in_preset_range t2)
    else [s, s1] ++ s1.finishStores false

/-- A call of `R_TRIG` (src/flanks.rs:19-22), with the stores of its inputs done. -/
def R_TRIG.callStores (t : Trigger) (clk : Bool) : Res (List Trigger) := .ok (R_TRIG.stores { t with clk := clk })
/-- A call of `F_TRIG` (src/flanks.rs:26-29). -/
def F_TRIG.callStores (t : Trigger) (clk : Bool) : Res (List Trigger) := .ok (F_TRIG.stores { t with clk := clk })
/-- A call of `SR` (src/bistable_functionblocks.rs:23-25). -/
def SR.callStores (p : SetResetParams) (i : LatchIn) : Res (List SetResetParams) := .ok (SR.stores { p with set := i.set, reset := i.reset })
/-- A call of `RS` (src/bistable_functionblocks.rs:35-37). -/
def RS.callStores (p : SetResetParams) (i : LatchIn) : Res (List SetResetParams) := .ok (RS.stores { p with set := i.set, reset := i.reset })
/-- A call of `CTU*` (src/counters.rs:57-119). -/
def ctuCallStores (t : IntTy) (p : Profile) (s : CTUParams) (i : CTUIn) : Res (List CTUParams) :=
  ctuStores t p { s with cu := i.cu, r := i.r, pv := i.pv }
/-- A call of `CTD*` (src/counters.rs:173-235). -/
def ctdCallStores (t : IntTy) (p : Profile) (s : CTDParams) (i : CTDIn) : Res (List CTDParams) :=
  ctdStores t p { s with cd := i.cd, ld := i.ld, pv := i.pv }
/-- A call of `CTUD*` (src/counters.rs:320-382). -/
def ctudCallStores (t : IntTy) (p : Profile) (s : CTUDParams) (i : CTUDIn) : Res (List CTUDParams) :=
  ctudStores t p { s with cu := i.cu, cd := i.cd, r := i.r, ld := i.ld, pv := i.pv }
/-- A call of `TP` (src/timers.rs:84-105). -/
def TP.callStores (s : TimerParams) (i : TimerIn) : Res (List TimerParams) :=
  .ok (TP.stores { s with input := i.input, preset_time := i.pt } i.t1 i.t2)
/-- A call of `TON` (src/timers.rs:109-131). -/
def TON.callStores (s : TimerParams) (i : TimerIn) : Res (List TimerParams) :=
  .ok (TON.stores { s with input := i.input, preset_time := i.pt } i.t1 i.t2)
/-- A call of `TOF` (src/timers.rs:135-152). -/
def TOF.callStores (s : TimerParams) (i : TimerIn) : Res (List TimerParams) :=
  .ok (TOF.stores { s with input := i.input, preset_time := i.pt } i.t1 i.t2)

end Verif
