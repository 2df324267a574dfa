/-
The border between the Structured Text declarations (iec61131-st/*.st) and the Rust code (src/*.rs): types and places of
variables in memory, parameters of functions.  The declarations themselves are in `Verif.Model.AbiTable`.
-/
namespace Verif.Abi

/-- Types of Structured Text.  The L variants of the time and date types are the same types. (Used in the declarations of
iec61131-st/*.st.) -/
inductive STy where
  | BOOL | BYTE | WORD | DWORD | LWORD | SINT | USINT | INT | UINT | DINT | UDINT | LINT | ULINT | REAL | LREAL
  | TIME | DATE | TIME_OF_DAY | DATE_AND_TIME | CHAR | WCHAR | STRING | WSTRING
  deriving DecidableEq, Repr

/-- Rust types of values, fields and pointees (used in the signatures and structs of src/*.rs). -/
inductive RTy where
  | bool | i8 | u8 | i16 | u16 | i32 | u32 | i64 | u64 | f32 | f64
  | signal       -- `Signal`, `repr(transparent)` around a `bool` (src/utils.rs:1-5)
  | optInstant   -- `Option<Instant>`
  deriving DecidableEq, Repr

/-! ### memory -/

/-- What depends on the platform: the alignment of 64-bit numbers and size and alignment of `Option<Instant>`
(`Option<Instant>` is the field src/timers.rs:23). -/
structure Platform where
  align64 : Nat
  instantSize : Nat
  instantAlign : Nat
  deriving DecidableEq, Repr

/-- Size and alignment in bytes of something in memory (for the fields of src/flanks.rs:3-9,
src/bistable_functionblocks.rs:1-7, src/counters.rs:5-14, 121-130, 237-250, src/timers.rs:15-24). -/
structure Slot where
  size : Nat
  align : Nat
  deriving DecidableEq, Repr

/-- Size and alignment of a Rust type (Rust reference, type layout) (for the same structs of src/*.rs). -/
def RTy.slot (p : Platform) : RTy → Slot
  | .bool | .i8 | .u8 | .signal => ⟨1, 1⟩
  | .i16 | .u16 => ⟨2, 2⟩
  | .i32 | .u32 | .f32 => ⟨4, 4⟩
  | .i64 | .u64 | .f64 => ⟨8, p.align64⟩
  | .optInstant => ⟨p.instantSize, p.instantAlign⟩

/-- Kinds of variables of a function block (VAR_INPUT, VAR_OUTPUT, VAR, e.g. iec61131-st/timers.st). -/
inductive Section where
  | input | output | local
  deriving DecidableEq, Repr

/-- Type of a variable of a function block: an elementary type or `ARRAY[1..n] OF BYTE` (iec61131-st/counters.st, flanks.st,
bistable_functionblocks.st, timers.st). -/
inductive VTy where
  | elem (t : STy)
  | buffer (n : Nat)
  deriving DecidableEq, Repr

/-- Size and alignment that the ST compiler gives a variable; STRING variables do not occur in function blocks (variables of
iec61131-st/counters.st, flanks.st, bistable_functionblocks.st, timers.st). -/
def VTy.slot (p : Platform) : VTy → Slot
  | .elem .BOOL | .elem .BYTE | .elem .SINT | .elem .USINT | .elem .CHAR => ⟨1, 1⟩
  | .elem .WORD | .elem .INT | .elem .UINT | .elem .WCHAR => ⟨2, 2⟩
  | .elem .DWORD | .elem .DINT | .elem .UDINT | .elem .REAL => ⟨4, 4⟩
  | .elem .STRING | .elem .WSTRING => ⟨0, 1⟩
  | .elem _ => ⟨8, p.align64⟩
  | .buffer n => ⟨n, 1⟩

/-- The smallest multiple of `a` that is at least `n` (layout rule for the structs of src/*.rs cited at `Slot`). -/
def alignUp (n a : Nat) : Nat := (n + a - 1) / a * a

/-- Offsets of the fields of a C struct (`repr(C)`, and LLVM's struct types): every field at the next multiple of its alignment
behind the one before; `n` bytes are taken already (src/flanks.rs:3, src/counters.rs:5, 121, 237, src/timers.rs:15,
src/bistable_functionblocks.rs:1). -/
def place (n : Nat) : List Slot → List Nat
  | [] => []
  | s :: ss => alignUp n s.align :: place (alignUp n s.align + s.size) ss

/-- Number of bytes up to the end of the last field (the structs of src/*.rs cited at `Slot`). -/
def placeEnd (n : Nat) : List Slot → Nat
  | [] => n
  | s :: ss => placeEnd (alignUp n s.align + s.size) ss

/-- Alignment of a C struct: the largest of its fields (the structs of src/*.rs cited at `Slot`). -/
def structAlign : List Slot → Nat
  | [] => 1
  | s :: ss => max s.align (structAlign ss)

/-- Size of a C struct: filled up to a multiple of its alignment (the structs of src/*.rs cited at `Slot`). -/
def structSize (ss : List Slot) : Nat := alignUp (placeEnd 0 ss) (structAlign ss)

/-- A function block: name, variables in the order of declaration, fields of the Rust struct (iec61131-st/timers.st,
counters.st, flanks.st, bistable_functionblocks.st with src/timers.rs, counters.rs, flanks.rs, bistable_functionblocks.rs). -/
structure FunctionBlock where
  name : String
  vars : List (Section × String × VTy)
  fields : List (String × RTy)

/-- Memory of an instance as the ST compiler lays it out (VAR blocks in iec61131-st/*.st). -/
def FunctionBlock.memory (p : Platform) (b : FunctionBlock) : List Slot := b.vars.map fun v => v.2.2.slot p

/-- Memory as the native code sees it (`repr(C)` structs in src/*.rs). -/
def FunctionBlock.native (p : Platform) (b : FunctionBlock) : List Slot := b.fields.map fun f => f.2.slot p

/-! ### functions -/

/-- Parameters of an ST function: VAR_INPUT, VAR_INPUT {ref}, VAR_OUTPUT, VAR_IN_OUT; `{sized} T...` by value and by
reference (as in iec61131-st/selectors.st:9-60 and iec61131-st/string_functions.st). -/
inductive SParam where
  | input (t : STy) | inputRef (t : STy) | output (t : STy) | inOut (t : STy) | sized (t : STy) | sizedRef (t : STy)
  deriving DecidableEq, Repr

/-- Parameter and result types of native functions (`&mut T` counts as `*mut T`) (`extern "C"` signatures of src/*.rs). -/
inductive NTy where
  | unit | val (t : RTy) | constPtr (t : RTy) | mutPtr (t : RTy) | constPtrPtr (t : RTy)
  deriving DecidableEq, Repr

/-- What implements a function: Rust code, an ST function, or nothing (src/*.rs, iec61131-st/*.st). -/
inductive Impl where
  | native (params : List NTy) (result : NTy)
  | st (params : List SParam) (result : STy)
  | missing
  deriving DecidableEq, Repr

/-- A function of the library: name of its symbol, declared parameters and result, implementation (iec61131-st/*.st). -/
structure LibFunction where
  name : String
  params : List SParam
  result : STy
  impl : Impl
  deriving DecidableEq, Repr

end Verif.Abi
