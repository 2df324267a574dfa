import Verif.Model.Memory
import Verif.Spec.Abi
/-
What a program with several function block instances is expected to do: every instance as if it were alone.
-/
namespace Verif.Abi

/-- The value belongs to the type. Clock readings are below 2^64 ns. -/
def Val.Of : RTy → Val → Prop
  | .bool, .bool _ | .signal, .bool _ => True
  | .optInstant, .instant t => ∀ r, t = some r → r < 2 ^ 64
  | .bool, .int _ | .signal, .int _ | .optInstant, .int _ | .f32, .int _ | .f64, .int _ => False
  | ty, .int x => ty.intTy.InRange x
  | _, _ => False

/-- A usual platform whose toolchain stores an `Option<Instant>` in a way it can be read back. -/
structure Machine.Ok (mc : Machine) : Prop where
  usual : mc.platform.Usual
  size : ∀ t, Val.Of .optInstant (.instant t) → (mc.instantBytes t).length = mc.platform.instantSize
  back : ∀ t, Val.Of .optInstant (.instant t) → mc.instantOf (mc.instantBytes t) = .ok t

/-- The instance alone, as the values of its fields: writing an input replaces a value, a call runs the code. No memory is
involved. -/
def Event.alone (p : Profile) (b : FunctionBlock) (vs : List Val) : Event → Res (List Val)
  | .assign i v => .ok (vs.set i v)
  | .call t1 t2 => match Code.of b.name with
    | some c => c.run p vs t1 t2
    | none => .ub

/-- The instance alone, over a list of events. -/
def alone (p : Profile) (b : FunctionBlock) (vs : List Val) (es : List Event) : Res (List Val) :=
  es.foldlM (Event.alone p b) vs

/-- What the steps do with the instance number `k`. -/
def eventsOf (k : Nat) (steps : List Step) : List Event :=
  steps.filterMap fun s => match s with
    | .on j e => if j = k then some e else none
    | .other _ => none

/-- Number of bytes of an instance. -/
def Instance.size (mc : Machine) (x : Instance) : Nat := structSize (x.block.memory mc.platform)

/-- The address belongs to the instance. -/
def Instance.Has (mc : Machine) (x : Instance) (a : Nat) : Prop := x.base ≤ a ∧ a < x.base + x.size mc

/-- Function blocks of the library at addresses that do not overlap. -/
def Separate (mc : Machine) (xs : List Instance) : Prop :=
  (∀ x ∈ xs, x.block ∈ functionBlocks) ∧
  ∀ (j k : Nat) (x y : Instance), j ≠ k → xs[j]? = some x → xs[k]? = some y → ∀ a, ¬ (x.Has mc a ∧ y.Has mc a)

/-- The fields of the instance hold the values, each of them of its type. -/
def Holds (mc : Machine) (x : Instance) (m : Mem) (vs : List Val) : Prop :=
  vs.length = x.block.fields.length ∧
  ∀ i f ty, x.block.fields[i]? = some (f, ty) → ∃ v, vs[i]? = some v ∧ Val.Of ty v ∧ loadField mc x.block x.base m i ty = .ok v

/-- What a field holds in a new instance. -/
def RTy.zero : RTy → Val
  | .bool | .signal => .bool false
  | .optInstant => .instant none
  | _ => .int 0

/-- A step as a program can do it: only inputs are written, with values of their type; the clock is below 2^64 ns; the rest of
the program does not write into the memory of the instances. -/
def Step.Proper (mc : Machine) (xs : List Instance) : Step → Prop
  | .on k (.assign i v) => ∀ x, xs[k]? = some x → ∃ n t, x.block.vars[i]? = some (.input, n, .elem t) ∧ Val.Of t.rep v
  | .on _ (.call t1 t2) => t1 < 2 ^ 64 ∧ t2 < 2 ^ 64
  | .other f => ∀ (m : Mem) x a, x ∈ xs → x.Has mc a → f m a = m a

end Verif.Abi
