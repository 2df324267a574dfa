import Mathlib.Tactic.Positivity
import Mathlib.Tactic.Ring
import Mathlib.Tactic.FieldSimp
import Mathlib.Tactic.Linarith
import Mathlib.Algebra.Order.Field.Power
import Verif.Spec.Float
/-
The model's decoding of floats agrees with the IEEE formulas of Spec/Float.
-/
namespace Verif

theorem ebits_of {f : FloatFmt} (h : IsFloatTy f) : 2 ≤ f.ebits := by
  rcases h with rfl | rfl <;> decide

theorem isNaN_iff (f : FloatFmt) (x : Nat) : IsNaN f x ↔ f.is_nan x = true := by
  simp only [IsNaN, FloatFmt.is_nan, FloatFmt.expo, FloatFmt.frac, FloatFmt.emax, Bool.and_eq_true]
  exact ⟨fun h => ⟨decide_eq_true h.1, decide_eq_true h.2⟩, fun h => ⟨of_decide_eq_true h.1, of_decide_eq_true h.2⟩⟩

theorem not_isNaN_iff (f : FloatFmt) (x : Nat) : ¬ IsNaN f x ↔ f.is_nan x = false := by
  rw [isNaN_iff, Bool.not_eq_true]

theorem isFinite_iff (f : FloatFmt) (x : Nat) : IsFinite f x ↔ f.is_nan x = false ∧ f.is_infinite x = false := by
  unfold IsFinite FloatFmt.is_nan FloatFmt.is_infinite FloatFmt.expo FloatFmt.frac FloatFmt.emax
  by_cases h : x / 2 ^ f.mbits % 2 ^ f.ebits = 2 ^ f.ebits - 1
  · simp [h]
  · simp [h]

theorem IsFinite.nan {f : FloatFmt} {x : Nat} (h : IsFinite f x) : f.is_nan x = false := ((isFinite_iff f x).1 h).1
theorem IsFinite.inf {f : FloatFmt} {x : Nat} (h : IsFinite f x) : f.is_infinite x = false := ((isFinite_iff f x).1 h).2
theorem IsFinite.mk {f : FloatFmt} {x : Nat} (h : f.is_nan x = false) (h' : f.is_infinite x = false) : IsFinite f x :=
  (isFinite_iff f x).2 ⟨h, h'⟩

theorem signBit_iff (f : FloatFmt) (x : Nat) : Spec.SignBit f x ↔ f.neg x = true := by
  unfold Spec.SignBit FloatFmt.neg; simp

/-- `negate` is the only pattern with the other sign. -/
theorem oppositeSign_iff (f : FloatFmt) (x y : Nat) :
    Spec.OppositeSign f x y ↔ x < 2 ^ (1 + f.mbits + f.ebits) ∧ y = f.negate x := by
  have e : 2 ^ (1 + f.mbits + f.ebits) = 2 * 2 ^ (f.mbits + f.ebits) := by rw [Nat.add_assoc, Nat.pow_add]
  unfold Spec.OppositeSign
  rw [signBit_iff, signBit_iff, e]
  unfold FloatFmt.negate FloatFmt.neg
  generalize 2 ^ (f.mbits + f.ebits) = B
  have key : ∀ z, z < 2 * B → (z < B ∧ z / B % 2 = 0 ∧ z % B = z) ∨ (B ≤ z ∧ z / B % 2 = 1 ∧ z % B = z - B) := by
    intro z hz
    rcases Nat.lt_or_ge z B with h | h
    · exact .inl ⟨h, by rw [Nat.div_eq_of_lt h], Nat.mod_eq_of_lt h⟩
    · refine .inr ⟨h, ?_, ?_⟩
      · rw [Nat.div_eq_of_lt_le (k := 1) (by omega) (by omega)]
      · rw [Nat.mod_eq_sub_mod h, Nat.mod_eq_of_lt (by omega)]
  constructor
  · rintro ⟨hx, hy, hm, hs⟩
    refine ⟨hx, ?_⟩
    rcases key x hx with ⟨x1, x2, x3⟩ | ⟨x1, x2, x3⟩ <;> rcases key y hy with ⟨y1, y2, y3⟩ | ⟨y1, y2, y3⟩ <;>
      simp [x2, y2] at hs ⊢ <;> omega
  · rintro ⟨hx, rfl⟩
    rcases key x hx with ⟨x1, x2, x3⟩ | ⟨x1, x2, x3⟩
    · simp only [x2, Nat.zero_ne_one, decide_false, Bool.false_eq_true, if_false]
      rcases key (x + B) (by omega) with ⟨y1, y2, y3⟩ | ⟨y1, y2, y3⟩
      · omega
      · simp [y2]; omega
    · simp only [x2, decide_true, if_true]
      rcases key (x - B) (by omega) with ⟨y1, y2, y3⟩ | ⟨y1, y2, y3⟩
      · simp [y2]; omega
      · omega

/-- `val` counts units of the smallest subnormal number. -/
theorem floatValue_val (f : FloatFmt) (h : 2 ≤ f.ebits) (x : Nat) : floatValue f x = (f.val x : ℚ) / 2 ^ f.qexp := by
  have h2 : (2 : ℚ) ≠ 0 := by norm_num
  have hM : (0 : ℚ) < 2 ^ f.mbits := by positivity
  have hb : 2 ≤ 2 ^ (f.ebits - 1) := by
    calc 2 = 2 ^ 1 := rfl
      _ ≤ _ := Nat.pow_le_pow_right (by decide) (by omega)
  obtain ⟨k, hk⟩ := Nat.exists_eq_add_of_le hb
  have hbias : ((2 : ℤ) ^ (f.ebits - 1) - 1) = (k : ℤ) + 1 := by
    have : ((2 ^ (f.ebits - 1) : Nat) : ℤ) = 2 + k := by rw [hk]; push_cast; rfl
    push_cast at this
    omega
  have hq : f.qexp = k + f.mbits := by unfold FloatFmt.qexp; omega
  have hval : (f.val x : ℚ) = (if x / 2 ^ (f.mbits + f.ebits) % 2 = 1 then -1 else 1) * (f.mag x : ℚ) := by
    unfold FloatFmt.val FloatFmt.neg
    by_cases c : x / 2 ^ (f.mbits + f.ebits) % 2 = 1
    · simp [c]
    · simp [c]
  unfold floatValue
  simp only
  rw [hval, hbias, hq, mul_div_assoc]
  congr 1
  unfold FloatFmt.mag FloatFmt.signif FloatFmt.expo FloatFmt.frac
  generalize x / 2 ^ f.mbits % 2 ^ f.ebits = e
  generalize x % 2 ^ f.mbits = m
  rcases Nat.eq_zero_or_pos e with rfl | he
  · rw [if_pos rfl, if_pos rfl, show (1 : ℤ) - ((k : ℤ) + 1) = -(k : ℤ) by omega, zpow_neg, zpow_natCast, pow_add]
    push_cast
    simp only [Nat.max_eq_right (Nat.zero_le 1), Nat.sub_self, pow_zero, mul_one]
    field_simp
  · rw [if_neg (by omega), if_neg (by omega), Nat.max_eq_left he]
    obtain ⟨j, rfl⟩ := Nat.exists_eq_add_of_le' he
    rw [Nat.add_sub_cancel, show ((j + 1 : Nat) : ℤ) - ((k : ℤ) + 1) = (j : ℤ) - k by push_cast; ring,
      zpow_sub₀ h2, zpow_natCast, zpow_natCast, pow_add]
    push_cast
    field_simp
    ring

/-- The order of the model's values is that of the numbers. -/
theorem val_le_iff (f : FloatFmt) (h : 2 ≤ f.ebits) (x y : Nat) : f.val x ≤ f.val y ↔ floatValue f x ≤ floatValue f y := by
  rw [floatValue_val f h, floatValue_val f h, div_le_div_iff_of_pos_right (by positivity)]
  exact_mod_cast Iff.rfl

end Verif
