import Verif.Model.StTable
/-
Vocabulary for the statements about Structured Text conversions.
-/
namespace Verif.Spec

/-- `y` is what converting the number `x` to a type must give: a value of the type, equal to `x`
if `x` is a value of the type, and congruent to `x` modulo `2^bits` in any case. -/
def ConvertsTo (t : IntTy) (x y : Int) : Prop :=
  t.InRange y ∧ (t.InRange x → y = x) ∧ ((2 ^ t.bits : Nat) : Int) ∣ y - x

/-- Signed integer types. -/
def IsSignedTy (t : IntTy) : Prop := t = .i8 ∨ t = .i16 ∨ t = .i32 ∨ t = .i64

end Verif.Spec
