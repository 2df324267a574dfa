import Verif.Model.PowerFailure
/-
64-bit outputs (CV of src/counters.rs with LINT and ULINT, ET of src/timers.rs) on a controller that loads and stores 32 bits at a time.
-/
namespace Verif

/-- Which half of a 64-bit field is stored first (the stores of src/counters.rs:19-45 and src/timers.rs:34-58 to a field of type i64 or u64). -/
inductive HalfFirst where
  | low
  | high
  deriving DecidableEq, Repr

/-- The lower 32 bits of a 64-bit field in two's complement (the fields of src/counters.rs and src/timers.rs:17-24). -/
def lowWord (v : Int) : Nat := (v % 2 ^ 32).toNat
/-- The upper 32 bits (as `lowWord`, src/timers.rs:17-24). -/
def highWord (v : Int) : Nat := (v / 2 ^ 32 % 2 ^ 32).toNat
/-- The value of a 64-bit field of type `t` whose halves are `lo` and `hi` (src/timers.rs:17-24). -/
def joinWords (t : IntTy) (lo hi : Nat) : Int := t.wrap (hi * 2 ^ 32 + lo : Nat)

/-- The two halves in the memory after the first of the two stores that replace `u` by `v` (as `HalfFirst`, src/timers.rs:34-58). -/
def halfStore (o : HalfFirst) (u v : Int) : Nat × Nat :=
  match o with
  | .low => (lowWord v, highWord u)
  | .high => (lowWord u, highWord v)

/-- The halves of a field in all the memories it passes through when it takes the given values one after the other (as `HalfFirst`,
src/timers.rs:34-58). -/
def halfMoments (o : HalfFirst) : List Int → List (Nat × Nat)
  | [] => []
  | [v] => [(lowWord v, highWord v)]
  | u :: v :: l => (lowWord u, highWord u) :: halfStore o u v :: halfMoments o (v :: l)

end Verif
