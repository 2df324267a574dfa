import Verif.Model.Abi
/-
What it means that an ST declaration and a native implementation fit together.
-/
namespace Verif.Abi

/-- Platforms: 64-bit numbers are aligned to 4 or 8 bytes; an `Option<Instant>` has at most 24 bytes and no stricter alignment than
a 64-bit number. (Linux, 64 bit: 16 or 24 bytes, aligned to 8.) -/
structure Platform.Usual (p : Platform) : Prop where
  align64 : p.align64 = 4 ∨ p.align64 = 8
  size : p.instantSize ≤ 24
  align : p.instantAlign ∣ p.align64
  multiple : p.instantAlign ∣ p.instantSize

/-- Variables of the declarations and fields of the Rust structs with the same meaning. -/
def sameMeaning : List (String × String) :=
  [("CLK", "clk"), ("Q", "output"), ("SET1", "set"), ("SET", "set"), ("RESET", "reset"), ("RESET1", "reset"), ("Q1", "output"),
   ("CU", "cu"), ("CD", "cd"), ("R", "r"), ("LD", "ld"), ("PV", "pv"), ("Q", "q"), ("QU", "qu"), ("QD", "qd"), ("CV", "cv"),
   ("IN", "input"), ("PT", "preset_time"), ("ET", "elapsed_time")]

/-- Byte range of the `i`-th element of a struct: offset and size. -/
def range (ss : List Slot) (i : Nat) : Option (Nat × Nat) :=
  match (place 0 ss)[i]?, ss[i]? with
  | some o, some s => some (o, s.size)
  | _, _ => none

/-- The byte ranges have no byte in common. -/
def Apart (a b : Nat × Nat) : Prop := a.1 + a.2 ≤ b.1 ∨ b.1 + b.2 ≤ a.1

/-- Rust types that hold a value of an ST type: the same number of bytes, the same numbers. A STRING or WSTRING is passed by
address; the pointee is one unit. -/
def STy.rust : STy → List RTy
  | .BOOL => [.bool, .u8]
  | .BYTE | .USINT | .CHAR | .STRING => [.u8]
  | .WORD | .UINT | .WCHAR | .WSTRING => [.u16]
  | .DWORD | .UDINT => [.u32]
  | .LWORD | .ULINT => [.u64]
  | .SINT => [.i8]
  | .INT => [.i16]
  | .DINT => [.i32]
  | .LINT | .TIME | .DATE | .TIME_OF_DAY | .DATE_AND_TIME => [.i64]
  | .REAL => [.f32]
  | .LREAL => [.f64]

/-- STRING and WSTRING. -/
def STy.isString : STy → Bool
  | .STRING | .WSTRING => true
  | _ => false

/-- The native parameters fit the declared ones, in order. A variable number of arguments is passed as their number and the
address of an array of them (of their addresses, if they are passed by reference). -/
def fits : List SParam → List NTy → Bool
  | [], [] => true
  | .input t :: ps, .val r :: ns => !t.isString && r ∈ t.rust && fits ps ns
  | .inputRef t :: ps, .constPtr r :: ns => r ∈ t.rust && fits ps ns
  | .output t :: ps, .mutPtr r :: ns => r ∈ t.rust && fits ps ns
  | .inOut t :: ps, .mutPtr r :: ns => r ∈ t.rust && fits ps ns
  | .sized t :: ps, .val c :: .constPtr r :: ns => (c = .i32 || c = .u32) && !t.isString && r ∈ t.rust && fits ps ns
  | .sizedRef t :: ps, .val c :: .constPtrPtr r :: ns => (c = .i32 || c = .u32) && r ∈ t.rust && fits ps ns
  | _, _ => false

/-- A function can be called: its implementation exists and takes the declared parameters and returns the declared result. A result
of type STRING or WSTRING is written to an address passed before the other parameters. -/
def LibFunction.callable (f : LibFunction) : Bool :=
  match f.impl with
  | .missing => false
  | .st ps r => ps = f.params && r = f.result
  | .native ns r =>
    if f.result.isString then fits (.output f.result :: f.params) ns && r = .unit
    else fits f.params ns && (match r with | .val t => t ∈ f.result.rust | _ => false)

end Verif.Abi
