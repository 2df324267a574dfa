import Verif.Spec.Memory
/-
A program with function block instances, its variables by name.
-/
namespace Verif.Abi

/-- Place of the variable with this name in the declaration of the block. -/
def FunctionBlock.var (b : FunctionBlock) (n : String) : Nat := b.vars.findIdx fun v => v.2.1 == n

/-- The program writes an input, e.g. `counter.PV := 10;`. -/
def Instance.set (x : Instance) (n : String) (v : Val) : Event := .assign (x.block.var n) v

/-- The program reads the value `v` in a variable, e.g. in `counter.CV`. -/
def Instance.Reads (mc : Machine) (x : Instance) (m : Mem) (n : String) (v : Val) : Prop :=
  (∃ e ∈ x.block.vars, e.2.1 = n ∧ e.1 ≠ .local) ∧ stRead mc x.block x.base m (x.block.var n) = .ok v

/-- A program ran the steps, starting with zeroed instances, and `m` is the memory behind. The toolchain stores "not started" as
zero bytes (C100 is about those that do not). -/
structure Ran (mc : Machine) (p : Profile) (xs : List Instance) (steps : List Step) (m : Mem) : Prop where
  machine : mc.Ok
  zero : mc.instantOf (List.replicate mc.platform.instantSize 0) = .ok none
  separate : Separate mc xs
  proper : ∀ s ∈ steps, s.Proper mc xs
  run : ∃ m0 : Mem, (∀ x ∈ xs, ∀ a, x.Has mc a → m0 a = 0) ∧ exec mc p xs m0 steps = .ok m

/-- The names of the up counters and what they count with (IEC 61131-3, table 45). -/
def ctuNames : List (String × IntTy) :=
  [("CTU", .i16), ("CTU_INT", .i16), ("CTU_DINT", .i32), ("CTU_UDINT", .u32), ("CTU_LINT", .i64), ("CTU_ULINT", .u64)]
/-- Of the down counters. -/
def ctdNames : List (String × IntTy) :=
  [("CTD", .i16), ("CTD_INT", .i16), ("CTD_DINT", .i32), ("CTD_UDINT", .u32), ("CTD_LINT", .i64), ("CTD_ULINT", .u64)]
/-- Of the counters in both directions. -/
def ctudNames : List (String × IntTy) :=
  [("CTUD", .i16), ("CTUD_INT", .i16), ("CTUD_DINT", .i32), ("CTUD_UDINT", .u32), ("CTUD_LINT", .i64), ("CTUD_ULINT", .u64)]

end Verif.Abi
