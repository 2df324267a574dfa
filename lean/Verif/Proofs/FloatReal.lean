import Mathlib.Tactic.Linarith
import Mathlib.Tactic.FieldSimp
import Mathlib.Analysis.Real.Sqrt
import Verif.Spec.FloatReal
import Verif.Proofs.FloatSpacing
import Verif.Model.Arith
/-
Rounding of real numbers: comparison with midpoints, square roots.
-/
namespace Verif

theorem abs_le_mid (v a b : ℝ) : |v - a| ≤ |v - b| ↔ (a < b → 2 * v ≤ a + b) ∧ (b < a → a + b ≤ 2 * v) := by
  rw [← sq_le_sq]
  have e : (v - b) ^ 2 - (v - a) ^ 2 = (b - a) * (a + b - 2 * v) := by ring
  constructor
  · intro h
    have h1 : 0 ≤ (b - a) * (a + b - 2 * v) := by rw [← e]; linarith
    constructor
    · intro hab; have := nonneg_of_mul_nonneg_right h1 (by linarith : 0 < b - a); linarith
    · intro hab
      have h2 : 0 ≤ (a - b) * (2 * v - (a + b)) := by linarith [h1]
      have := nonneg_of_mul_nonneg_right h2 (by linarith : 0 < a - b); linarith
  · rintro ⟨h1, h2⟩
    have : 0 ≤ (b - a) * (a + b - 2 * v) := by
      rcases lt_trichotomy a b with h | h | h
      · exact mul_nonneg (by linarith) (by linarith [h1 h])
      · rw [h]; simp
      · exact mul_nonneg_of_nonpos_of_nonpos (by linarith) (by linarith [h2 h])
    linarith

theorem abs_eq_mid (v a b : ℝ) : |v - a| = |v - b| ↔ a = b ∨ 2 * v = a + b := by
  constructor
  · intro h
    rcases abs_eq_abs.1 h with h | h
    · left; linarith
    · right; linarith
  · rintro (h | h)
    · rw [h]
    · rw [show v - a = -(v - b) by linarith, abs_neg]

/-- A number that lies on the same side of every midpoint between two floats is rounded in the same way. -/
theorem nearest_transfer (f : FloatFmt) (w v : ℝ) (r : Nat) (h : IsNearestFloatR f w r)
    (hs : ∀ y, y < 2 ^ (1 + f.mbits + f.ebits) → ¬ IsNaN f y →
      (2 * w ≤ floatValue f r + floatValue f y → 2 * v ≤ floatValue f r + floatValue f y) ∧
      ((floatValue f r : ℝ) + floatValue f y ≤ 2 * w → (floatValue f r : ℝ) + floatValue f y ≤ 2 * v) ∧
      (2 * v = floatValue f r + floatValue f y → 2 * w = floatValue f r + floatValue f y)) :
    IsNearestFloatR f v r := by
  obtain ⟨h1, h2, h3⟩ := h
  refine ⟨h1, h2, fun y hy hn => ?_⟩
  obtain ⟨a1, a2⟩ := h3 y hy hn
  obtain ⟨s1, s2, s3⟩ := hs y hy hn
  rw [abs_le_mid] at a1 ⊢
  rw [abs_eq_mid] at a2 ⊢
  refine ⟨⟨fun hab => s1 (a1.1 hab), fun hab => s2 (a1.2 hab)⟩, ?_⟩
  rintro (e | e)
  · exact a2 (.inl e)
  · exact a2 (.inr (s3 e))

/-- A number between two numbers that are rounded to `r` is rounded to `r`. -/
theorem nearest_between (f : FloatFmt) (a b v : ℝ) (r : Nat) (ha : IsNearestFloatR f a r) (hb : IsNearestFloatR f b r)
    (h1 : a ≤ v) (h2 : v ≤ b) : IsNearestFloatR f v r := by
  refine ⟨ha.1, ha.2.1, fun y hy hn => ?_⟩
  obtain ⟨a1, a2⟩ := ha.2.2 y hy hn
  obtain ⟨b1, b2⟩ := hb.2.2 y hy hn
  rw [abs_le_mid] at a1 b1 ⊢
  rw [abs_eq_mid] at a2 b2 ⊢
  refine ⟨⟨fun hab => by linarith [b1.1 hab], fun hab => by linarith [a1.2 hab]⟩, ?_⟩
  rintro (e | e)
  · exact a2 (.inl e)
  · rcases lt_trichotomy (floatValue f r : ℝ) (floatValue f y) with h | h | h
    · exact b2 (.inr (by linarith [b1.1 h]))
    · exact .inl (by exact_mod_cast h.symm)
    · exact a2 (.inr (by linarith [a1.2 h]))

namespace FloatFmt
variable (f : FloatFmt)

/-- Sums of values are whole numbers of units. -/
theorem value_units (h : 2 ≤ f.ebits) (x : Nat) : ∃ j : ℤ, (floatValue f x : ℝ) = (j : ℝ) / 2 ^ f.qexp := by
  refine ⟨f.val x, ?_⟩
  rw [floatValue_val f h]; push_cast; rfl

theorem roundSqrt_le_inf (n : Nat) : f.roundSqrt n ≤ f.inf := f.roundMag_le_inf _ _

theorem sqrt_digits (n : Nat) : ∃ k σ : Nat, f.roundSqrt n = f.roundMag (2 * k + σ) 4 ∧ σ ≤ 1 ∧
    (k : ℝ) ≤ 2 * √(n : ℝ) ∧ 2 * √(n : ℝ) < k + 1 ∧ (σ = 0 ↔ 2 * √(n : ℝ) = k) := by
  have hs : 2 * √(n : ℝ) = √((4 * n : ℕ) : ℝ) := by
    push_cast
    rw [Real.sqrt_mul (by norm_num), show (4 : ℝ) = 2 ^ 2 by norm_num, Real.sqrt_sq (by norm_num)]
  refine ⟨Nat.sqrt (4 * n), if Nat.sqrt (4 * n) * Nat.sqrt (4 * n) = 4 * n then 0 else 1, rfl, by split <;> omega, ?_, ?_, ?_⟩
  · rw [hs]; exact Real.nat_sqrt_le_real_sqrt
  · rw [hs]; exact Real.real_sqrt_lt_nat_sqrt_succ
  · rw [hs]
    constructor
    · intro h
      have h1 : Nat.sqrt (4 * n) * Nat.sqrt (4 * n) = 4 * n := by
        by_contra hc; rw [if_neg hc] at h; omega
      rw [Real.sqrt_eq_iff_mul_self_eq (by positivity) (by positivity)]
      exact_mod_cast h1.symm
    · intro h
      rw [Real.sqrt_eq_iff_mul_self_eq (by positivity) (by positivity)] at h
      rw [if_pos (by exact_mod_cast h.symm)]

/-- `roundSqrt` rounds correctly. -/
theorem roundSqrt_nearest (h : StdFmt f) (n : Nat) : IsNearestFloatR f (√(n : ℝ) / 2 ^ f.qexp) (f.roundSqrt n) := by
  obtain ⟨k, σ, e, hσ, h1, h2, h3⟩ := f.sqrt_digits n
  have hQ : (0 : ℝ) < 2 ^ f.qexp := by positivity
  have hw := f.round_signed h false (2 * k + σ) 4 (by norm_num) _ rfl
  rw [← isNearestFloatR_rat] at hw
  simp only [Bool.false_eq_true, if_false] at hw
  have ew : f.withSign false (f.roundMag (2 * k + σ) 4) = f.roundMag (2 * k + σ) 4 := by
    unfold withSign; simp
  rw [ew, ← e] at hw
  refine nearest_transfer f _ _ _ hw fun y hy hn => ?_
  obtain ⟨i, hi⟩ := f.value_units h.eb (f.roundSqrt n)
  obtain ⟨j, hj⟩ := f.value_units h.eb y
  rw [hi, hj]
  push_cast
  have e1 : 2 * ((2 * (k : ℝ) + σ) / 4 / 2 ^ f.qexp) = (k + (σ : ℝ) / 2) / 2 ^ f.qexp := by ring
  have e2 : (i : ℝ) / 2 ^ f.qexp + j / 2 ^ f.qexp = (i + j) / 2 ^ f.qexp := by ring
  have e3 : 2 * (√(n : ℝ) / 2 ^ f.qexp) = (2 * √(n : ℝ)) / 2 ^ f.qexp := by ring
  rw [e1, e2, e3, div_le_div_iff_of_pos_right hQ, div_le_div_iff_of_pos_right hQ, div_le_div_iff_of_pos_right hQ,
    div_le_div_iff_of_pos_right hQ, div_left_inj' hQ.ne', div_left_inj' hQ.ne']
  generalize 2 * √(n : ℝ) = v at *
  have hc : ∀ s : ℤ, ((i : ℝ) + j) = s ↔ i + j = s := by intro s; exact_mod_cast Iff.rfl
  rcases Nat.le_one_iff_eq_zero_or_eq_one.1 hσ with s0 | s0
  · have hv := h3.1 s0
    rw [s0, hv]; simp
  · rw [s0]
    have hne : v ≠ k := fun hv => by have := h3.2 hv; omega
    have hlt : (k : ℝ) < v := lt_of_le_of_ne h1 (Ne.symm hne)
    push_cast
    refine ⟨?_, ?_, ?_⟩
    · intro hh
      have : (k : ℝ) < ((i + j : ℤ) : ℝ) := by push_cast; linarith
      have h4 : (k : ℤ) < i + j := by exact_mod_cast this
      have h5 : ((k + 1 : ℤ) : ℝ) ≤ ((i + j : ℤ) : ℝ) := by exact_mod_cast h4
      push_cast at h5; linarith
    · intro hh
      have : ((i + j : ℤ) : ℝ) < ((k + 1 : ℤ) : ℝ) := by push_cast; linarith
      have h4 : i + j < (k : ℤ) + 1 := by exact_mod_cast this
      have h5 : ((i + j : ℤ) : ℝ) ≤ ((k : ℤ) : ℝ) := by exact_mod_cast (by omega : i + j ≤ (k : ℤ))
      push_cast at h5; linarith
    · intro hh
      exfalso
      have a1 : ((k : ℤ) : ℝ) < ((i + j : ℤ) : ℝ) := by push_cast; linarith
      have a2 : ((i + j : ℤ) : ℝ) < ((k + 1 : ℤ) : ℝ) := by push_cast; linarith
      have b1 : (k : ℤ) < i + j := by exact_mod_cast a1
      have b2 : i + j < (k : ℤ) + 1 := by exact_mod_cast a2
      omega

theorem roundSqrt_mono (h : StdFmt f) (n n' : Nat) (hn : n ≤ n') : f.roundSqrt n ≤ f.roundSqrt n' := by
  refine f.roundMag_mono h.m1 h.e2 _ 4 _ 4 (by norm_num) (by norm_num) ?_
  rw [div_le_div_iff_of_pos_right (by norm_num)]
  have hk : Nat.sqrt (4 * n) ≤ Nat.sqrt (4 * n') := Nat.sqrt_le_sqrt (by omega)
  norm_cast
  rcases Nat.eq_or_lt_of_le hk with hk' | hk'
  · rw [hk']
    have h1 := Nat.sqrt_le (4 * n)
    rw [hk'] at h1
    split
    · omega
    · rename_i hc
      have : ¬ Nat.sqrt (4 * n') * Nat.sqrt (4 * n') = 4 * n' := by omega
      rw [if_neg this]
  · split <;> split <;> omega

end FloatFmt
end Verif
