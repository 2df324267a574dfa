import Verif.Model.Basic
/-
Vocabulary for the statements about bit operations.
-/
namespace Verif.Spec

/-- The packed BCD encoding of the low `d` decimal digits of `v`. -/
def bcdEncode : Nat → Nat → Nat
  | 0, _ => 0
  | d + 1, v => v % 10 + 16 * bcdEncode d (v / 10)

/-- Number of set bits. -/
def popcount {w : Nat} (x : BitVec w) : Nat := ((List.range w).filter fun i => x.getLsbD i).length

/-- Byte `k` (least significant first) of a bit pattern. -/
def byteAt (x k : Nat) : Nat := x / 256 ^ k % 256

end Verif.Spec
