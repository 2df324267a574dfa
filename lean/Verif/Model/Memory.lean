import Verif.Model.AbiTable
import Verif.Model.Bits
import Verif.Model.Counters
import Verif.Model.Timers
/-
Function block instances as bytes in the memory of a program: how the native code reads and writes the fields of its struct,
and how the Structured Text side reads and writes the variables of an instance.
-/
namespace Verif.Abi

/-- Memory: a byte at every address (the instances that src/flanks.rs, src/bistable_functionblocks.rs, src/counters.rs and
src/timers.rs get the address of). Everything the code writes is below 256. -/
abbrev Mem := Nat → Nat

/-- `n` bytes from address `a` (reads through the `&mut` parameters of src/counters.rs:57 and the like). -/
def readBytes (m : Mem) (a n : Nat) : List Nat := (List.range n).map fun i => m (a + i)

/-- Memory after writing `bs` at address `a` (writes through the same `&mut` parameters, src/counters.rs:57 and the
like). -/
def writeBytes (m : Mem) (a : Nat) (bs : List Nat) : Mem := fun x => if a ≤ x ∧ x < a + bs.length then bs.getD (x - a) 0 else m x

/-- A value of a field (`bool` and `Signal`, the integers, `Option<Instant>`: src/flanks.rs:5-9,
src/bistable_functionblocks.rs:3-7, src/counters.rs:7-14, 123-130, 239-250, src/timers.rs:17-24). -/
inductive Val where
  | bool (b : Bool)
  | int (x : Int)
  | instant (t : Option Nat)
  deriving DecidableEq, Repr

/-- The platform, its byte order, and how its toolchain stores an `Option<Instant>` (src/timers.rs:23), which Rust does not
specify: left open. -/
structure Machine where
  platform : Platform
  host : Host
  instantBytes : Option Nat → List Nat
  instantOf : List Nat → Res (Option Nat)

/-- The integer types among the field types (src/counters.rs, `CTUParams<i16>` to `CTUDParams<u64>`, src/timers.rs:19, 21). -/
def RTy.intTy : RTy → IntTy
  | .i8 => .i8 | .u8 => .u8 | .i16 => .i16 | .u16 => .u16 | .i32 => .i32 | .u32 => .u32 | .i64 => .i64
  | _ => .u64

/-- Reading a field: a `bool` whose byte is neither 0 nor 1 is undefined behaviour, integers are in two's complement and the
byte order of the machine (src/flanks.rs:5-9, src/bistable_functionblocks.rs:3-7, src/counters.rs:7-14, 123-130, 239-250,
src/timers.rs:17-24). The float types do not occur in function blocks. -/
def RTy.load (mc : Machine) : RTy → List Nat → Res Val
  | .bool, [0] | .signal, [0] => .ok (.bool false)
  | .bool, [1] | .signal, [1] => .ok (.bool true)
  | .bool, _ | .signal, _ | .f32, _ | .f64, _ => .ub
  | .optInstant, bs => do
    let t ← mc.instantOf bs
    pure (.instant t)
  | ty, bs => .ok (.int (ty.intTy.wrap (match mc.host with | .little => fromLeBytes bs | .big => fromBeBytes bs)))

/-- Writing a field (src/flanks.rs:5-9, src/bistable_functionblocks.rs:3-7, src/counters.rs:7-14, 123-130, 239-250,
src/timers.rs:17-24). Values that do not belong to the type do not occur. -/
def RTy.store (mc : Machine) : RTy → Val → List Nat
  | .bool, .bool b | .signal, .bool b => [if b then 1 else 0]
  | .optInstant, .instant t => mc.instantBytes t
  | ty, .int x =>
    let n := (ty.slot mc.platform).size
    match mc.host with
    | .little => toLeBytes n (x % (256 ^ n : Nat)).toNat
    | .big => toBeBytes n (x % (256 ^ n : Nat)).toNat
  | ty, _ => List.replicate (ty.slot mc.platform).size 0

/-- Offset of the `i`-th element of a struct (`repr(C)`: src/flanks.rs:3, src/counters.rs:5, 121, 237, src/timers.rs:15). -/
def offset (ss : List Slot) (i : Nat) : Nat := (place 0 ss).getD i 0

/-- Reading field `i` of the instance at `base` (e.g. `params.cv`, src/counters.rs:43). -/
def loadField (mc : Machine) (b : FunctionBlock) (base : Nat) (m : Mem) (i : Nat) (ty : RTy) : Res Val :=
  ty.load mc (readBytes m (base + offset (b.native mc.platform) i) (ty.slot mc.platform).size)

/-- Writing field `i` of the instance at `base` (e.g. `self.cv = ...`, src/counters.rs:25). -/
def storeField (mc : Machine) (b : FunctionBlock) (base : Nat) (m : Mem) (i : Nat) (ty : RTy) (v : Val) : Mem :=
  writeBytes m (base + offset (b.native mc.platform) i) (ty.store mc v)

/-- Reading the fields from the `i`-th on (`params: &mut CTUParams<i16>` and the like, src/counters.rs:57). -/
def loadFrom (mc : Machine) (b : FunctionBlock) (base : Nat) (m : Mem) : Nat → List RTy → Res (List Val)
  | _, [] => .ok []
  | i, ty :: tys => do
    let v ← loadField mc b base m i ty
    let vs ← loadFrom mc b base m (i + 1) tys
    pure (v :: vs)

/-- Writing the fields from the `i`-th on. Simplified: the native code writes only the fields it changes; writing the others
too makes no difference, since they hold the values that were read (src/counters.rs:20-46 and the like). -/
def storeFrom (mc : Machine) (b : FunctionBlock) (base : Nat) : Mem → Nat → List RTy → List Val → Mem
  | m, i, ty :: tys, v :: vs => storeFrom mc b base (storeField mc b base m i ty v) (i + 1) tys vs
  | m, _, _, _ => m

/-- Which code belongs to a function block (src/flanks.rs:19-29, src/bistable_functionblocks.rs:23-37, src/counters.rs:57-382,
src/timers.rs:84-189). -/
inductive Code where
  | rtrig | ftrig | sr | rs
  | ctu (t : RTy) | ctd (t : RTy) | ctud (t : RTy)
  | tp | ton | tof
  deriving DecidableEq, Repr

/-- The names under which the code is exported (src/flanks.rs:19, 26, src/bistable_functionblocks.rs:23, 35, src/counters.rs:57
to 380, src/timers.rs:84 to 187). -/
def Code.of : String → Option Code
  | "R_TRIG" => some .rtrig
  | "F_TRIG" => some .ftrig
  | "SR" => some .sr
  | "RS" => some .rs
  | "CTU" | "CTU_INT" => some (.ctu .i16)
  | "CTU_DINT" => some (.ctu .i32)
  | "CTU_UDINT" => some (.ctu .u32)
  | "CTU_LINT" => some (.ctu .i64)
  | "CTU_ULINT" => some (.ctu .u64)
  | "CTD" | "CTD_INT" => some (.ctd .i16)
  | "CTD_DINT" => some (.ctd .i32)
  | "CTD_UDINT" => some (.ctd .u32)
  | "CTD_LINT" => some (.ctd .i64)
  | "CTD_ULINT" => some (.ctd .u64)
  | "CTUD" | "CTUD_INT" => some (.ctud .i16)
  | "CTUD_DINT" => some (.ctud .i32)
  | "CTUD_UDINT" => some (.ctud .u32)
  | "CTUD_LINT" => some (.ctud .i64)
  | "CTUD_ULINT" => some (.ctud .u64)
  | "TP" | "TP_TIME" | "TP_LTIME" => some .tp
  | "TON" | "TON_TIME" | "TON_LTIME" => some .ton
  | "TOF" | "TOF_TIME" | "TOF_LTIME" => some .tof
  | _ => none

/-- The values of the fields of `Trigger` in order (src/flanks.rs:5-9). -/
def triggerVals (s : Trigger) : List Val := [.bool s.clk, .bool s.output, .bool s.internal.current_value]
/-- Of `SetResetParams` (src/bistable_functionblocks.rs:3-7). -/
def latchVals (s : SetResetParams) : List Val := [.bool s.set, .bool s.reset, .bool s.output]
/-- Of `CTUParams` (src/counters.rs:7-14). -/
def ctuVals (s : CTUParams) : List Val := [.bool s.cu, .bool s.r, .int s.pv, .bool s.q, .int s.cv, .bool s.internal.current_value]
/-- Of `CTDParams` (src/counters.rs:123-130). -/
def ctdVals (s : CTDParams) : List Val := [.bool s.cd, .bool s.ld, .int s.pv, .bool s.q, .int s.cv, .bool s.internal.current_value]
/-- Of `CTUDParams` (src/counters.rs:239-250). -/
def ctudVals (s : CTUDParams) : List Val :=
  [.bool s.cu, .bool s.cd, .bool s.r, .bool s.ld, .int s.pv, .bool s.qu, .bool s.qd, .int s.cv,
    .bool s.internal_up.current_value, .bool s.internal_down.current_value]
/-- Of `TimerParams` (src/timers.rs:17-24). -/
def timerVals (s : TimerParams) : List Val :=
  [.bool s.input, .int s.preset_time, .bool s.output, .int s.elapsed_time, .bool s.input_edge.current_value, .instant s.start_time]

/-- What the native code makes of the fields; `t1` and `t2` are the clock readings a timer takes (src/flanks.rs:19-29,
src/bistable_functionblocks.rs:23-37, src/counters.rs:57-382, src/timers.rs:84-189). -/
def Code.run (p : Profile) (c : Code) (vs : List Val) (t1 t2 : Nat) : Res (List Val) :=
  match c, vs with
  | .rtrig, [.bool clk, .bool q, .bool m] => .ok (triggerVals (R_TRIG ⟨clk, q, ⟨m⟩⟩))
  | .ftrig, [.bool clk, .bool q, .bool m] => .ok (triggerVals (F_TRIG ⟨clk, q, ⟨m⟩⟩))
  | .sr, [.bool s, .bool r, .bool q] => .ok (latchVals (SR ⟨s, r, q⟩))
  | .rs, [.bool s, .bool r, .bool q] => .ok (latchVals (RS ⟨s, r, q⟩))
  | .ctu t, [.bool cu, .bool r, .int pv, .bool q, .int cv, .bool m] => do
    let s ← Verif.ctu t.intTy p ⟨cu, r, pv, q, cv, ⟨m⟩⟩
    pure (ctuVals s)
  | .ctd t, [.bool cd, .bool ld, .int pv, .bool q, .int cv, .bool m] => do
    let s ← Verif.ctd t.intTy p ⟨cd, ld, pv, q, cv, ⟨m⟩⟩
    pure (ctdVals s)
  | .ctud t, [.bool cu, .bool cd, .bool r, .bool ld, .int pv, .bool qu, .bool qd, .int cv, .bool mu, .bool md] => do
    let s ← Verif.ctud t.intTy p ⟨cu, cd, r, ld, pv, qu, qd, cv, ⟨mu⟩, ⟨md⟩⟩
    pure (ctudVals s)
  | .tp, [.bool i, .int pt, .bool q, .int et, .bool m, .instant st] => do
    let s ← TP ⟨i, pt, q, et, ⟨m⟩, st⟩ t1 t2
    pure (timerVals s)
  | .ton, [.bool i, .int pt, .bool q, .int et, .bool m, .instant st] => do
    let s ← TON ⟨i, pt, q, et, ⟨m⟩, st⟩ t1 t2
    pure (timerVals s)
  | .tof, [.bool i, .int pt, .bool q, .int et, .bool m, .instant st] => do
    let s ← TOF ⟨i, pt, q, et, ⟨m⟩, st⟩ t1 t2
    pure (timerVals s)
  | _, _ => .ub

/-- A call of the native function of the block with the address of an instance (`extern "C"` functions of
src/flanks.rs:19-29, src/bistable_functionblocks.rs:23-37, src/counters.rs:57-382, src/timers.rs:84-189). -/
def callNative (mc : Machine) (p : Profile) (b : FunctionBlock) (base : Nat) (t1 t2 : Nat) (m : Mem) : Res Mem :=
  match Code.of b.name with
  | some c => do
    let vs ← loadFrom mc b base m 0 (b.fields.map (·.2))
    let vs' ← c.run p vs t1 t2
    pure (storeFrom mc b base m 0 (b.fields.map (·.2)) vs')
  | none => .ub

/-- How the Structured Text compiler stores a variable of an elementary type: like the Rust type of the same size
(VAR_INPUT and VAR_OUTPUT in iec61131-st/flanks.st, bistable_functionblocks.st, counters.st, timers.st). -/
def STy.rep : STy → RTy
  | .BOOL => .bool
  | .BYTE | .USINT | .CHAR | .STRING => .u8
  | .WORD | .UINT | .WCHAR | .WSTRING => .u16
  | .DWORD | .UDINT => .u32
  | .LWORD | .ULINT => .u64
  | .SINT => .i8
  | .INT => .i16
  | .DINT => .i32
  | .LINT | .TIME | .DATE | .TIME_OF_DAY | .DATE_AND_TIME => .i64
  | .REAL => .f32
  | .LREAL => .f64

/-- Reading variable `i` of the instance at `base` on the Structured Text side, e.g. `x := counter.CV;`
(VAR_OUTPUT of iec61131-st/counters.st:13-30 and the like). -/
def stRead (mc : Machine) (b : FunctionBlock) (base : Nat) (m : Mem) (i : Nat) : Res Val :=
  match b.vars[i]? with
  | some (_, _, .elem t) => t.rep.load mc (readBytes m (base + offset (b.memory mc.platform) i) ((VTy.elem t).slot mc.platform).size)
  | _ => .ub

/-- Writing variable `i` of the instance at `base` on the Structured Text side, e.g. `counter.PV := 10;`
(VAR_INPUT of iec61131-st/counters.st:13-30 and the like). -/
def stWrite (mc : Machine) (b : FunctionBlock) (base : Nat) (m : Mem) (i : Nat) (v : Val) : Res Mem :=
  match b.vars[i]? with
  | some (_, _, .elem t) => .ok (writeBytes m (base + offset (b.memory mc.platform) i) (t.rep.store mc v))
  | _ => .ub

/-- An instance in a program: its function block and its address (VAR x : CTU; END_VAR with a block of iec61131-st/*.st). -/
structure Instance where
  block : FunctionBlock
  base : Nat

/-- What a program can do with an instance: write an input, or call it. `counter(CU := a, PV := b)` is two writes and a call.
(The ST side of iec61131-st/flanks.st, bistable_functionblocks.st, counters.st, timers.st.) -/
inductive Event where
  | assign (i : Nat) (v : Val)
  | call (t1 t2 : Nat)

/-- A step of a program: something done with the instance number `k`, or anything else (code around the functions of
src/*.rs). -/
inductive Step where
  | on (k : Nat) (e : Event)
  | other (f : Mem → Mem)

/-- Effect of an event on the memory (a program around src/flanks.rs, bistable_functionblocks.rs, counters.rs, timers.rs). -/
def Event.exec (mc : Machine) (p : Profile) (x : Instance) (m : Mem) : Event → Res Mem
  | .assign i v => stWrite mc x.block x.base m i v
  | .call t1 t2 => callNative mc p x.block x.base t1 t2 m

/-- Effect of a step on the memory (a program around the same files). Not modelled: the code of the program itself; its other
writes are an arbitrary function (src/*.rs has no state outside of the instances). -/
def Step.exec (mc : Machine) (p : Profile) (xs : List Instance) (m : Mem) : Step → Res Mem
  | .on k e => match xs[k]? with
    | some x => e.exec mc p x m
    | none => .ok m
  | .other f => .ok (f m)

/-- A run of a program: its steps in order, up to the first panic (src/*.rs aborts the process). -/
def exec (mc : Machine) (p : Profile) (xs : List Instance) (m : Mem) (steps : List Step) : Res Mem :=
  steps.foldlM (Step.exec mc p xs) m

end Verif.Abi
