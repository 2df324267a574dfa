import Verif.Model.Basic
/-
Edge detection: src/utils.rs and src/flanks.rs; latches:
src/bistable_functionblocks.rs.
-/
namespace Verif

/-- `Signal` (src/utils.rs:3-5). -/
structure Signal where
  current_value : Bool
  deriving DecidableEq, Repr

namespace Signal

/-- `Signal::default()`: also the all-zero instance of the compiler (derived at src/utils.rs:1). -/
def default : Signal := ⟨false⟩

/-- `Signal::rising_edge` (src/utils.rs:10-14). Returns the result and the new signal. -/
def rising_edge (s : Signal) (next_value : Bool) : Bool × Signal :=
  (next_value && (s.current_value ^^ next_value), ⟨next_value⟩)

/-- `Signal::falling_edge` (src/utils.rs:17-21). -/
def falling_edge (s : Signal) (next_value : Bool) : Bool × Signal :=
  (!next_value && (s.current_value ^^ next_value), ⟨next_value⟩)

/-- `Signal::set` (src/utils.rs:23-25). -/
def set (_s : Signal) (next_value : Bool) : Signal := ⟨next_value⟩

end Signal

/-- `Trigger` (src/flanks.rs:3-9). -/
structure Trigger where
  clk : Bool
  output : Bool
  internal : Signal
  deriving DecidableEq, Repr

/-- A fresh instance is all zero (the struct src/flanks.rs:5-9). -/
def Trigger.default : Trigger := ⟨false, false, Signal.default⟩

/-- `R_TRIG` (src/flanks.rs:19-22). -/
def R_TRIG (t : Trigger) : Trigger :=
  let (res, sig) := t.internal.rising_edge t.clk
  { t with output := res, internal := sig }

/-- `F_TRIG` (src/flanks.rs:26-29). -/
def F_TRIG (t : Trigger) : Trigger :=
  let (res, sig) := t.internal.falling_edge t.clk
  { t with output := res, internal := sig }

/-- One scan cycle: the PLC program writes CLK and calls the block (src/flanks.rs:19-22). -/
def R_TRIG.call (t : Trigger) (clk : Bool) : Res Trigger := .ok (R_TRIG { t with clk := clk })
/-- One scan cycle of an `F_TRIG` instance (src/flanks.rs:26-29). -/
def F_TRIG.call (t : Trigger) (clk : Bool) : Res Trigger := .ok (F_TRIG { t with clk := clk })

/-- `SetResetParams` (src/bistable_functionblocks.rs:1-7). -/
structure SetResetParams where
  set : Bool
  reset : Bool
  output : Bool
  deriving DecidableEq, Repr

/-- A fresh instance is all zero (the struct src/bistable_functionblocks.rs:3-7). -/
def SetResetParams.default : SetResetParams := ⟨false, false, false⟩

/-- `SR`, set dominant (src/bistable_functionblocks.rs:23-25). -/
def SR (p : SetResetParams) : SetResetParams :=
  { p with output := p.set || (!p.reset && p.output) }

/-- `RS` (src/bistable_functionblocks.rs:35-37). -/
def RS (p : SetResetParams) : SetResetParams :=
  { p with output := !p.reset && (p.set || p.output) }

/-- Inputs of one call of a latch (set and reset of src/bistable_functionblocks.rs:3-7). -/
structure LatchIn where
  set : Bool
  reset : Bool
  deriving DecidableEq, Repr

/-- One scan cycle of an `SR` instance (src/bistable_functionblocks.rs:23-25). -/
def SR.call (p : SetResetParams) (i : LatchIn) : Res SetResetParams :=
  .ok (SR { p with set := i.set, reset := i.reset })
/-- One scan cycle of an `RS` instance (src/bistable_functionblocks.rs:35-37). -/
def RS.call (p : SetResetParams) (i : LatchIn) : Res SetResetParams :=
  .ok (RS { p with set := i.set, reset := i.reset })

end Verif
