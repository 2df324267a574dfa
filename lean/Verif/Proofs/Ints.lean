import Verif.Model.Basic
import Mathlib.Tactic.Ring
/-
Lemmas about machine integers.
-/
namespace Verif
namespace IntTy

theorem two_pow_pred (n : Nat) (h : 0 < n) : 2 ^ n = 2 * 2 ^ (n - 1) := by
  conv => lhs; rw [show n = n - 1 + 1 by omega, Nat.pow_succ]
  omega

/-- Wrapping lands in the type. -/
theorem wrap_inRange (t : IntTy) (h : 0 < t.bits) (x : Int) : t.InRange (t.wrap x) := by
  have hp := two_pow_pred t.bits h
  have hpos : 0 < 2 ^ (t.bits - 1) := Nat.pow_pos (by omega)
  unfold InRange lo hi wrap
  split
  · have h1 := Int.le_bmod (x := x) (m := 2 ^ t.bits) (by omega)
    have h2 := Int.bmod_lt (x := x) (m := 2 ^ t.bits) (by omega)
    omega
  · have h1 := Int.emod_nonneg x (b := ((2 ^ t.bits : Nat) : Int)) (by omega)
    have h2 := Int.emod_lt_of_pos x (b := ((2 ^ t.bits : Nat) : Int)) (by omega)
    omega

/-- Wrapping preserves the value modulo `2^bits`. -/
theorem wrap_congr (t : IntTy) (x : Int) : ((2 ^ t.bits : Nat) : Int) ∣ t.wrap x - x := by
  unfold wrap
  split
  · apply Int.dvd_of_emod_eq_zero
    rw [Int.sub_emod, Int.bmod_emod]; simp
  · refine ⟨-(x / ((2 ^ t.bits : Nat) : Int)), ?_⟩
    have := Int.emod_add_mul_ediv x ((2 ^ t.bits : Nat) : Int)
    rw [Int.mul_neg]; omega

/-- Two values of the type that agree modulo `2^bits` are equal. -/
theorem eq_of_congr (t : IntTy) (h : 0 < t.bits) {x y : Int} (hx : t.InRange x) (hy : t.InRange y)
    (hd : ((2 ^ t.bits : Nat) : Int) ∣ x - y) : x = y := by
  have hp := two_pow_pred t.bits h
  obtain ⟨k, hk⟩ := hd
  have hb : -((2 ^ t.bits : Nat) : Int) < x - y ∧ x - y < ((2 ^ t.bits : Nat) : Int) := by
    unfold InRange lo hi at hx hy
    clear hk
    generalize 2 ^ t.bits = a at *
    generalize 2 ^ (t.bits - 1) = b at *
    cases h : t.signed <;> simp only [h, if_true, if_false, Bool.false_eq_true] at hx hy <;> omega
  have hpos : (0 : Int) < ((2 ^ t.bits : Nat) : Int) := by
    have : 0 < 2 ^ t.bits := Nat.pow_pos (by omega)
    omega
  have hk0 : k = 0 := by
    rcases Int.lt_trichotomy k 0 with h1 | h1 | h1
    · have : ((2 ^ t.bits : Nat) : Int) * k ≤ ((2 ^ t.bits : Nat) : Int) * (-1) :=
        Int.mul_le_mul_of_nonneg_left (by omega) (by omega)
      omega
    · exact h1
    · have : ((2 ^ t.bits : Nat) : Int) * 1 ≤ ((2 ^ t.bits : Nat) : Int) * k :=
        Int.mul_le_mul_of_nonneg_left (by omega) (by omega)
      omega
  rw [hk0] at hk
  omega

/-- Wrapping is the identity on values of the type. -/
theorem wrap_of_inRange (t : IntTy) (h : 0 < t.bits) {x : Int} (hx : t.InRange x) :
    t.wrap x = x :=
  t.eq_of_congr h (t.wrap_inRange h x) hx (t.wrap_congr x)

end IntTy
end Verif
