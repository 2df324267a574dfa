import Verif.Model.Float
/-
Shifts and rotations (src/bit_shift_functions.rs), BCD and float validation
(src/validation_functions.rs), bit reinterpretation (src/bit_num_conversion.rs),
byte order (src/endianness_conversion_functions.rs).
-/
namespace Verif

/-- The build-profile dependent part of Rust's `<<` and `>>` on a `w`-bit type (`w` a power of
two): a count `>= w` panics in debug builds and is masked to its low bits in release builds (src/bit_shift_functions.rs:7-56). -/
def shiftCount (p : Profile) (w n : Nat) : Res Nat :=
  if n < w then .ok n
  else match p with
    | .debug => .panic
    | .release => .ok (n % w)

/-- `SHL__BYTE/WORD/DWORD/LWORD` (src/bit_shift_functions.rs:6-29). -/
def SHL (p : Profile) {w : Nat} (x : BitVec w) (n : Nat) : Res (BitVec w) := do
  let c ← shiftCount p w n
  pure (x <<< c)

/-- `SHR__BYTE/WORD/DWORD/LWORD` (src/bit_shift_functions.rs:34-57). -/
def SHR (p : Profile) {w : Nat} (x : BitVec w) (n : Nat) : Res (BitVec w) := do
  let c ← shiftCount p w n
  pure (x >>> c)

/-- `ROL__*` (src/bit_shift_functions.rs:62-85): `rotate_left`. -/
def ROL {w : Nat} (x : BitVec w) (n : Nat) : BitVec w := x.rotateLeft n
/-- `ROR__*` (src/bit_shift_functions.rs:90-113): `rotate_right`. -/
def ROR {w : Nat} (x : BitVec w) (n : Nat) : BitVec w := x.rotateRight n

/-- The loop of `is_valid_bcd` (src/validation_functions.rs:34-42): digits `i`, `i+1`, ... up to
`iterations`. -/
def bcdLoop {w : Nat} (x : BitVec w) (iterations i : Nat) : Bool :=
  if h : i < iterations then
    if ((x >>> (4 * i)) &&& 0b1111#w).toNat > 9 then false
    else bcdLoop x iterations (i + 1)
  else true
termination_by iterations - i

/-- `is_valid_bcd` (src/validation_functions.rs:28-44) for a `size`-byte type;
`IS_VALID_BCD__BYTE/WORD/DWORD/LWORD` are the instances 1, 2, 4, 8. -/
def is_valid_bcd (size : Nat) (x : BitVec (8 * size)) : Bool := bcdLoop x (size * 8 / 4) 0

/-- `IS_VALID__REAL`, `IS_VALID__LREAL` (src/validation_functions.rs:12-14, 22-24). -/
def IS_VALID (f : FloatFmt) (x : Nat) : Bool := !(f.is_nan x || f.is_infinite x)

/-- A Rust `f32`: in the model, the float with a given bit pattern (src/bit_num_conversion.rs:15-35). -/
structure F32 where
  bits : BitVec 32
  deriving DecidableEq, Repr
/-- A Rust `f64` (src/bit_num_conversion.rs:6-25). -/
structure F64 where
  bits : BitVec 64
  deriving DecidableEq, Repr

/-- `LWORD_TO_LREAL` (src/bit_num_conversion.rs:6-8). -/
def LWORD_TO_LREAL (x : BitVec 64) : F64 := ⟨x⟩
/-- `DWORD_TO_REAL` (src/bit_num_conversion.rs:15-17). -/
def DWORD_TO_REAL (x : BitVec 32) : F32 := ⟨x⟩
/-- `LREAL_TO_LWORD` (src/bit_num_conversion.rs:24-26). -/
def LREAL_TO_LWORD (x : F64) : BitVec 64 := x.bits
/-- `REAL_TO_DWORD` (src/bit_num_conversion.rs:33-35). -/
def REAL_TO_DWORD (x : F32) : BitVec 32 := x.bits

/-! ### Byte order -/

/-- Byte order of the machine the library runs on (src/endianness_conversion_functions.rs). -/
inductive Host where
  | little
  | big
  deriving DecidableEq, Repr

/-- `to_le_bytes` of an `n`-byte value (bit pattern `x`) (src/endianness_conversion_functions.rs:74, 110). -/
def toLeBytes : Nat → Nat → List Nat
  | 0, _ => []
  | n + 1, x => x % 256 :: toLeBytes n (x / 256)
/-- `from_le_bytes` (src/endianness_conversion_functions.rs:74, 83, 110, 119). -/
def fromLeBytes : List Nat → Nat
  | [] => 0
  | b :: bs => b + 256 * fromLeBytes bs
/-- `to_be_bytes` (src/endianness_conversion_functions.rs:65, 101). -/
def toBeBytes (n x : Nat) : List Nat := (toLeBytes n x).reverse
/-- `from_be_bytes` (src/endianness_conversion_functions.rs:65, 92, 101, 128). -/
def fromBeBytes (l : List Nat) : Nat := fromLeBytes l.reverse

/-- `swap_bytes` (inside `to_be`/`to_le`, src/endianness_conversion_functions.rs:11-38). -/
def swapBytes (n x : Nat) : Nat := fromLeBytes (toLeBytes n x).reverse

/-- `to_be` (src/endianness_conversion_functions.rs:11, 38). -/
def toBe (host : Host) (n x : Nat) : Nat :=
  match host with
  | .little => swapBytes n x
  | .big => x
/-- `to_le` (src/endianness_conversion_functions.rs:20, 29). -/
def toLe (host : Host) (n x : Nat) : Nat :=
  match host with
  | .little => x
  | .big => swapBytes n x

/-- `TO_BIG_ENDIAN__*` for integer types (src/endianness_conversion_functions.rs:10-12). -/
def TO_BIG_ENDIAN (host : Host) (n x : Nat) : Nat := toBe host n x
/-- `TO_LITTLE_ENDIAN__*` (src/endianness_conversion_functions.rs:19-21). -/
def TO_LITTLE_ENDIAN (host : Host) (n x : Nat) : Nat := toLe host n x
/-- `FROM_BIG_ENDIAN__*` (src/endianness_conversion_functions.rs:28-30). -/
def FROM_BIG_ENDIAN (host : Host) (n x : Nat) : Nat := toLe host n x
/-- `FROM_LITTLE_ENDIAN__*` (src/endianness_conversion_functions.rs:37-39). -/
def FROM_LITTLE_ENDIAN (host : Host) (n x : Nat) : Nat := toBe host n x

/-- `TO_BIG_ENDIAN__REAL/LREAL` (src/endianness_conversion_functions.rs:64-66, 100-102):
`from_be_bytes(input.to_be_bytes())`, on the bit pattern of an `n`-byte float. -/
def TO_BIG_ENDIAN_F (n x : Nat) : Nat := fromBeBytes (toBeBytes n x)
/-- `TO_LITTLE_ENDIAN__REAL/LREAL` (src/endianness_conversion_functions.rs:73-75, 109-111). -/
def TO_LITTLE_ENDIAN_F (n x : Nat) : Nat := fromLeBytes (toLeBytes n x)
/-- `FROM_BIG_ENDIAN__REAL/LREAL` (src/endianness_conversion_functions.rs:82-84, 118-120). -/
def FROM_BIG_ENDIAN_F (n x : Nat) : Nat := fromLeBytes (toLeBytes n x)
/-- `FROM_LITTLE_ENDIAN__REAL/LREAL` (src/endianness_conversion_functions.rs:91-93, 127-129). -/
def FROM_LITTLE_ENDIAN_F (n x : Nat) : Nat := fromBeBytes (toBeBytes n x)

end Verif
