/-
Shared vocabulary of the model: outcomes of a call, build profiles and machine
integers.  Nothing here models a particular function of /repo; it fixes how Rust
panics, undefined behaviour and fixed-width integers are represented.
-/
namespace Verif

/-- Outcome of a call into the library.
`panic` is a Rust panic (`unwrap`, `expect`, `panic!`, `unreachable!`, overflow
check); it leaves an `extern "C"` function as a process abort.
`ub` is an access through a raw pointer outside of its allocation (for every function of src/*.rs). -/
inductive Res (α : Type) where
  | ok (a : α)
  | panic
  | ub
  deriving DecidableEq, Repr

namespace Res

/-- Sequencing: the first `panic` or `ub` ends the call (src/*.rs). -/
def bind {α β : Type} : Res α → (α → Res β) → Res β
  | ok a, f => f a
  | panic, _ => panic
  | ub, _ => ub

instance : Monad Res where
  pure := ok
  bind := bind

@[simp] theorem bind_ok {α β : Type} (a : α) (f : α → Res β) :
    (ok a >>= f) = f a := rfl
@[simp] theorem bind_panic {α β : Type} (f : α → Res β) :
    ((panic : Res α) >>= f) = panic := rfl
@[simp] theorem bind_ub {α β : Type} (f : α → Res β) :
    ((ub : Res α) >>= f) = ub := rfl
@[simp] theorem pure_eq {α : Type} (a : α) : (pure a : Res α) = ok a := rfl

instance : LawfulMonad Res := LawfulMonad.mk' (m := Res)
  (id_map := by intro α x; cases x <;> rfl)
  (pure_bind := by intros; rfl)
  (bind_assoc := by intro α β γ x f g; cases x <;> rfl)

/-- Rust's `Option::unwrap` / `expect` (e.g. src/date_time_numeric_functions.rs:10-14). -/
def unwrap {α : Type} : Option α → Res α
  | some a => ok a
  | none => panic

@[simp] theorem unwrap_some {α : Type} (a : α) : unwrap (some a) = ok a := rfl
@[simp] theorem unwrap_none {α : Type} : unwrap (none : Option α) = panic := rfl

theorem unwrap_eq_ok {α : Type} {o : Option α} {a : α} : unwrap o = ok a ↔ o = some a := by
  cases o <;> simp [unwrap]

theorem unwrap_eq_panic {α : Type} {o : Option α} : unwrap o = panic ↔ o = none := by
  cases o <;> simp [unwrap]

theorem bind_eq_ok {α β : Type} {x : Res α} {f : α → Res β} {b : β} :
    (x >>= f) = ok b ↔ ∃ a, x = ok a ∧ f a = ok b := by
  cases x <;> simp

end Res

/-- Cargo profile: `debug` compiles overflow checks in, `release` wraps (Cargo.toml has no [profile] section, so Cargo's
defaults hold for src/*.rs). -/
inductive Profile where
  | debug
  | release
  deriving DecidableEq, Repr

/-- A Rust primitive integer type (parameters and fields of src/*.rs). -/
structure IntTy where
  signed : Bool
  bits : Nat
  deriving DecidableEq, Repr

namespace IntTy

/-- The types of parameters and fields in src/*.rs: `i8`, and below `u8`, `i16` to `u64`. -/
def i8 : IntTy := ⟨true, 8⟩
def u8 : IntTy := ⟨false, 8⟩
def i16 : IntTy := ⟨true, 16⟩
def u16 : IntTy := ⟨false, 16⟩
def i32 : IntTy := ⟨true, 32⟩
def u32 : IntTy := ⟨false, 32⟩
def i64 : IntTy := ⟨true, 64⟩
def u64 : IntTy := ⟨false, 64⟩

/-- `T::MIN` (e.g. src/counters.rs, through `num::Bounded`). -/
def lo (t : IntTy) : Int := if t.signed then -(2 ^ (t.bits - 1) : Nat) else 0
/-- `T::MAX` (e.g. src/counters.rs, through `num::Bounded`). -/
def hi (t : IntTy) : Int :=
  if t.signed then (2 ^ (t.bits - 1) : Nat) - 1 else (2 ^ t.bits : Nat) - 1

/-- The value is representable in the type (src/*.rs). -/
def InRange (t : IntTy) (x : Int) : Prop := t.lo ≤ x ∧ x ≤ t.hi

instance (t : IntTy) (x : Int) : Decidable (t.InRange x) := by
  unfold InRange; infer_instance

/-- Two's complement truncation: Rust's `x as T` from a (mathematical) integer (e.g. src/date_time_extra_functions.rs:27). -/
def wrap (t : IntTy) (x : Int) : Int :=
  if t.signed then Int.bmod x (2 ^ t.bits) else x % (2 ^ t.bits : Nat)

/-- Rust's `T::try_from(x)` / `checked_*`: the value if representable (e.g. src/date_time_extra_functions.rs:179). -/
def checked (t : IntTy) (x : Int) : Option Int := if t.InRange x then some x else none

/-- Result of the plain operators `+ - *` whose exact result is `x` (e.g. src/counters.rs:29). -/
def arith (t : IntTy) (p : Profile) (x : Int) : Res Int :=
  if t.InRange x then .ok x
  else match p with
    | .debug => .panic
    | .release => .ok (t.wrap x)

end IntTy

/-- One call of a function block per input, starting from state `s`; stops at the
first panic. A *history* of an instance is the list of the inputs of its calls. (src/flanks.rs,
src/bistable_functionblocks.rs, src/counters.rs, src/timers.rs.) -/
def runFB {S I : Type} (step : S → I → Res S) (s : S) (h : List I) : Res S :=
  h.foldlM step s

@[simp] theorem runFB_nil {S I : Type} (step : S → I → Res S) (s : S) :
    runFB step s [] = .ok s := rfl

@[simp] theorem runFB_cons {S I : Type} (step : S → I → Res S) (s : S) (i : I) (h : List I) :
    runFB step s (i :: h) = (step s i >>= fun s' => runFB step s' h) := by
  simp [runFB]

theorem runFB_append {S I : Type} (step : S → I → Res S) (s : S) (h₁ h₂ : List I) :
    runFB step s (h₁ ++ h₂) = (runFB step s h₁ >>= fun s' => runFB step s' h₂) := by
  simp [runFB]

theorem runFB_snoc_ok {S I : Type} {step : S → I → Res S} {s₀ s : S} {h : List I}
    (hs : runFB step s₀ h = .ok s) (i : I) : runFB step s₀ (h ++ [i]) = step s i := by
  rw [runFB_append, hs]
  simp only [Res.bind_ok, runFB_cons, runFB_nil]
  cases step s i <;> rfl

end Verif
