import Verif.Model.Basic
/-
Vocabulary for the statements about function blocks.  Nothing here refers to the
code; only lists of input levels are involved.
-/
namespace Verif.Spec

/-- Number of rising edges in a sequence of levels, given the level before it. -/
def risingEdges : Bool → List Bool → Nat
  | _, [] => 0
  | prev, x :: xs => (if !prev && x then 1 else 0) + risingEdges x xs

/-- Number of `true`s. -/
def pulses (l : List Bool) : Nat := l.count true

/-- The five integer types for which the library instantiates counters. -/
def CounterTy (t : IntTy) : Prop :=
  t = .i16 ∨ t = .i32 ∨ t = .u32 ∨ t = .i64 ∨ t = .u64

/-- `x` moved into `[lo, hi]`. -/
def clamp (lo hi x : Int) : Int := max lo (min hi x)

end Verif.Spec
