import Mathlib.Tactic.Ring
import Mathlib.Tactic.Linarith
import Mathlib.Tactic.Positivity
import Mathlib.Tactic.FieldSimp
import Mathlib.Algebra.Order.Field.Rat
import Verif.Model.FloatArith
/-
`roundMag` really rounds: the value of its result differs from the exact one by at most half a
unit in the last place.
-/
namespace Verif
namespace FloatFmt
variable (f : FloatFmt)

theorem rne_bounds (num den : Nat) (h : 0 < den) :
    2 * num ≤ 2 * (rne num den * den) + den ∧ 2 * (rne num den * den) ≤ 2 * num + den ∧
    num / den ≤ rne num den ∧ rne num den ≤ num / den + 1 := by
  have h1 := Nat.div_add_mod num den
  have h2 := Nat.mod_lt num h
  have hc : den * (num / den) = num / den * den := Nat.mul_comm _ _
  unfold rne
  simp only
  generalize num / den = q at *
  generalize num % den = r at *
  rw [hc] at h1
  split
  · refine ⟨by omega, by omega, by omega, by omega⟩
  · split
    · rw [Nat.add_mul, Nat.one_mul]
      refine ⟨by omega, by omega, by omega, by omega⟩
    · rcases Nat.mod_two_eq_zero_or_one q with e | e
      · rw [e, Nat.add_zero]
        refine ⟨by omega, by omega, by omega, by omega⟩
      · rw [e, Nat.add_mul, Nat.one_mul]
        refine ⟨by omega, by omega, by omega, by omega⟩

theorem mag_pattern (s m : Nat) (h1 : m ≤ 2 ^ (f.mbits + 1)) (h2 : s = 0 ∨ 2 ^ f.mbits ≤ m)
    (h3 : s * 2 ^ f.mbits + m < f.inf) : f.mag (s * 2 ^ f.mbits + m) = m * 2 ^ s := by
  have hM : 0 < 2 ^ f.mbits := Nat.two_pow_pos _
  have hE : 0 < 2 ^ f.ebits := Nat.two_pow_pos _
  rw [Nat.pow_succ] at h1
  unfold inf emax at h3
  unfold mag signif expo frac
  generalize 2 ^ f.mbits = M at *
  generalize 2 ^ f.ebits = E at *
  by_cases c1 : m < M
  · have hs : s = 0 := by omega
    subst hs
    simp only [Nat.zero_mul, Nat.zero_add, Nat.div_eq_of_lt c1, Nat.zero_mod, if_true, Nat.mod_eq_of_lt c1]
    simp
  · have key : ∀ k e, k < M → s * M + m = k + M * e → 1 ≤ e → (s * M + m) / M % E = e ∧ (s * M + m) % M = k := by
      intro k e hk hp he
      rw [hp] at h3 ⊢
      rw [Nat.add_mul_div_left _ _ hM, Nat.div_eq_of_lt hk, Nat.zero_add, Nat.add_mul_mod_self_left,
        Nat.mod_eq_of_lt hk]
      refine ⟨Nat.mod_eq_of_lt ?_, rfl⟩
      have : M * e < (E - 1) * M := by omega
      rw [Nat.mul_comm] at this
      have := Nat.lt_of_mul_lt_mul_right this
      omega
    by_cases c2 : m < 2 * M
    · obtain ⟨e1, e2⟩ := key (m - M) (s + 1) (by omega)
        (by rw [Nat.mul_add, Nat.mul_comm M s]; omega) (by omega)
      rw [e1, e2, if_neg (by omega), show max (s + 1) 1 - 1 = s by omega, show m - M + M = m by omega]
    · have hm : m = 2 * M := by omega
      obtain ⟨e1, e2⟩ := key 0 (s + 2) hM (by rw [Nat.mul_add, Nat.mul_comm M s]; omega) (by omega)
      rw [e1, e2, if_neg (by omega), show max (s + 2) 1 - 1 = s + 1 by omega, hm, Nat.zero_add, Nat.pow_succ]
      ring

/-- The significand `roundMag` computes. -/
theorem excess_spec (q : Nat) : q < 2 ^ f.excess q * 2 ^ (f.mbits + 1) ∧
    (f.excess q = 0 ∨ 2 ^ f.excess q * 2 ^ f.mbits ≤ q) := by
  unfold excess
  split
  · rename_i h
    exact ⟨by simpa using h, .inl rfl⟩
  · rename_i h
    have hq : q ≠ 0 := by have := Nat.two_pow_pos (f.mbits + 1); omega
    have h1 : 2 ^ q.log2 ≤ q := Nat.log2_self_le hq
    have h2 : q < 2 ^ (q.log2 + 1) := Nat.lt_log2_self
    have h3 : f.mbits + 1 ≤ q.log2 := by
      rw [Nat.le_log2 hq]; omega
    rw [← Nat.pow_add, ← Nat.pow_add]
    rw [show q.log2 - f.mbits + (f.mbits + 1) = q.log2 + 1 by omega, show q.log2 - f.mbits + f.mbits = q.log2 by omega]
    exact ⟨h2, .inr h1⟩

theorem roundMag_spec (num den : Nat) (hd : 0 < den) (hp : f.roundMag num den < f.inf) :
    ∃ s, (s = 0 ∨ den * 2 ^ s * 2 ^ f.mbits ≤ num) ∧
      2 * num ≤ 2 * (f.mag (f.roundMag num den) * den) + den * 2 ^ s ∧
      2 * (f.mag (f.roundMag num den) * den) ≤ 2 * num + den * 2 ^ s := by
  have hs := f.excess_spec (num / den)
  unfold roundMag at hp ⊢
  simp only at hp ⊢
  generalize f.excess (num / den) = s at *
  have hb := rne_bounds num (den * 2 ^ s) (Nat.mul_pos hd (Nat.two_pow_pos s))
  rw [← Nat.div_div_eq_div_mul] at hb
  have hm1 : num / den / 2 ^ s < 2 ^ (f.mbits + 1) :=
    Nat.div_lt_of_lt_mul hs.1
  split at hp
  · rename_i hlt
    have hm2 : s = 0 ∨ 2 ^ f.mbits ≤ rne num (den * 2 ^ s) := by
      rcases hs.2 with h | h
      · exact .inl h
      · right
        have : 2 ^ f.mbits ≤ num / den / 2 ^ s := by
          rw [Nat.le_div_iff_mul_le (Nat.two_pow_pos s), Nat.mul_comm]; exact h
        omega
    rw [if_pos hlt, f.mag_pattern s _ (by omega) hm2 hlt]
    rw [show rne num (den * 2 ^ s) * 2 ^ s * den = rne num (den * 2 ^ s) * (den * 2 ^ s) by ring]
    refine ⟨s, ?_, hb.1, hb.2.1⟩
    rcases hs.2 with h | h
    · exact .inl h
    · right
      calc den * 2 ^ s * 2 ^ f.mbits = den * (2 ^ s * 2 ^ f.mbits) := by ring
        _ ≤ den * (num / den) := Nat.mul_le_mul_left _ h
        _ ≤ num := Nat.mul_div_le _ _
  · omega

/-- No overflow below `2^k` if the format has enough exponents. -/
theorem roundMag_finite (num den k : Nat) (hd : 0 < den) (hk : f.mbits + 1 ≤ k) (hk2 : k + 1 < f.emax + f.mbits)
    (hq : num < den * 2 ^ k) : f.roundMag num den < f.inf := by
  have hq' : num / den < 2 ^ k := Nat.div_lt_of_lt_mul hq
  have hs := f.excess_spec (num / den)
  have hsk : f.excess (num / den) + f.mbits + 1 ≤ k := by
    rcases hs.2 with h | h
    · omega
    · rw [← Nat.pow_add] at h
      have := (Nat.pow_lt_pow_iff_right (by decide : 1 < 2)).1 (Nat.lt_of_le_of_lt h hq')
      omega
  have hm1 : num / den / 2 ^ f.excess (num / den) < 2 ^ (f.mbits + 1) := Nat.div_lt_of_lt_mul hs.1
  unfold roundMag
  simp only
  generalize f.excess (num / den) = s at *
  have hb := (rne_bounds num (den * 2 ^ s) (Nat.mul_pos hd (Nat.two_pow_pos s))).2.2.2
  rw [← Nat.div_div_eq_div_mul] at hb
  have hr : rne num (den * 2 ^ s) ≤ 2 * 2 ^ f.mbits := by rw [Nat.pow_succ] at hm1; omega
  rw [if_pos]
  · unfold inf
    calc s * 2 ^ f.mbits + rne num (den * 2 ^ s) ≤ s * 2 ^ f.mbits + 2 * 2 ^ f.mbits := by omega
      _ = (s + 2) * 2 ^ f.mbits := by ring
      _ < f.emax * 2 ^ f.mbits := by
          apply Nat.mul_lt_mul_of_pos_right _ (Nat.two_pow_pos _)
          omega
  · unfold inf
    calc s * 2 ^ f.mbits + rne num (den * 2 ^ s) ≤ s * 2 ^ f.mbits + 2 * 2 ^ f.mbits := by omega
      _ = (s + 2) * 2 ^ f.mbits := by ring
      _ < f.emax * 2 ^ f.mbits := by
          apply Nat.mul_lt_mul_of_pos_right _ (Nat.two_pow_pos _)
          omega

theorem roundMag_le_inf (num den : Nat) : f.roundMag num den ≤ f.inf := by
  unfold roundMag; simp only; split <;> omega

/-- Patterns below infinity are finite. -/
theorem finite_of_lt_inf {x : Nat} (h : x < f.inf) : f.is_nan x = false ∧ f.is_infinite x = false := by
  have hM : 0 < 2 ^ f.mbits := Nat.two_pow_pos _
  have hE : 0 < 2 ^ f.ebits := Nat.two_pow_pos _
  have : f.expo x ≠ f.emax := by
    unfold expo
    have h1 : x / 2 ^ f.mbits < f.emax := by
      rw [Nat.div_lt_iff_lt_mul hM]; exact h
    have : x / 2 ^ f.mbits < 2 ^ f.ebits := by unfold emax at h1; omega
    rw [Nat.mod_eq_of_lt this]; omega
  simp [is_nan, is_infinite, this]

theorem inf_spec : f.is_nan f.inf = false ∧ f.is_infinite f.inf = true := by
  have hM : 0 < 2 ^ f.mbits := Nat.two_pow_pos _
  have hE : 0 < 2 ^ f.ebits := Nat.two_pow_pos _
  have h1 : f.expo f.inf = f.emax := by
    unfold expo inf
    rw [Nat.mul_div_cancel _ hM, Nat.mod_eq_of_lt (by unfold emax; omega)]
  have h2 : f.frac f.inf = 0 := by unfold frac inf; exact Nat.mul_mod_left _ _
  simp [is_nan, is_infinite, h1, h2]

theorem nan_spec (hm : 1 ≤ f.mbits) : f.is_nan f.nan = true := by
  have hM : 0 < 2 ^ f.mbits := Nat.two_pow_pos _
  have hE : 0 < 2 ^ f.ebits := Nat.two_pow_pos _
  have hlt : 2 ^ (f.mbits - 1) < 2 ^ f.mbits := Nat.pow_lt_pow_right (by decide) (by omega)
  have hpos : 0 < 2 ^ (f.mbits - 1) := Nat.two_pow_pos _
  have h1 : f.expo f.nan = f.emax := by
    unfold expo nan inf
    rw [Nat.add_comm, Nat.add_mul_div_right _ _ hM, Nat.div_eq_of_lt hlt, Nat.zero_add,
      Nat.mod_eq_of_lt (by unfold emax; omega)]
  have h2 : f.frac f.nan = 2 ^ (f.mbits - 1) := by
    unfold frac nan inf
    rw [Nat.add_comm, Nat.add_mul_mod_self_right, Nat.mod_eq_of_lt hlt]
  simp only [is_nan, h1, h2, decide_true, Bool.true_and, decide_eq_true_eq]
  omega

/-! ### as rational numbers -/

/-- Value of a non-negative float. -/
def rat (x : Nat) : ℚ := (f.mag x : ℚ) / 2 ^ f.qexp

/-- Half a unit in the last place, relative. -/
def ulp : ℚ := 1 / 2 ^ (f.mbits + 1)

theorem qpos : (0 : ℚ) < 2 ^ f.qexp := by positivity

/-- Error of rounding `num / den` units: relative half ulp in the normal range, half a quantum below. -/
theorem round_err (num den : Nat) (hd : 0 < den) (hp : f.roundMag num den < f.inf) :
    |f.rat (f.roundMag num den) - (num : ℚ) / den / 2 ^ f.qexp| ≤
      max (f.ulp * ((num : ℚ) / den / 2 ^ f.qexp)) (1 / 2 / 2 ^ f.qexp) := by
  obtain ⟨s, hs, h1, h2⟩ := f.roundMag_spec num den hd hp
  unfold rat
  generalize f.mag (f.roundMag num den) = p at *
  have hd' : (0 : ℚ) < den := by exact_mod_cast hd
  have h1' : (2 : ℚ) * num ≤ 2 * (p * den) + den * 2 ^ s := by exact_mod_cast h1
  have h2' : (2 : ℚ) * (p * den) ≤ 2 * num + den * 2 ^ s := by exact_mod_cast h2
  have e1 : |(p : ℚ) - num / den| ≤ 2 ^ s / 2 := by
    have hx : (num : ℚ) = num / den * den := by field_simp
    rw [hx] at h1' h2'
    generalize (num : ℚ) / den = y at *
    rw [abs_le]
    constructor
    · nlinarith
    · nlinarith
  have e2 : (p : ℚ) / 2 ^ f.qexp - num / den / 2 ^ f.qexp = (p - num / den) / 2 ^ f.qexp := by ring
  rw [e2, abs_div, abs_of_pos f.qpos]
  rcases hs with rfl | hs
  · apply le_max_of_le_right
    rw [pow_zero] at e1
    exact div_le_div_of_nonneg_right e1 f.qpos.le
  · apply le_max_of_le_left
    have hs' : (den : ℚ) * 2 ^ s * 2 ^ f.mbits ≤ num := by exact_mod_cast hs
    have e3 : (2 : ℚ) ^ s / 2 ≤ f.ulp * (num / den) := by
      unfold ulp
      rw [pow_succ]
      have e4 : (2 : ℚ) ^ s ≤ num / den / 2 ^ f.mbits := by
        rw [le_div_iff₀ (by positivity), le_div_iff₀ hd']
        nlinarith [hs']
      have e5 : 1 / ((2 : ℚ) ^ f.mbits * 2) * (num / den) = num / den / 2 ^ f.mbits / 2 := by field_simp
      rw [e5]
      linarith
    calc |(p : ℚ) - num / den| / 2 ^ f.qexp ≤ (f.ulp * (num / den)) / 2 ^ f.qexp :=
          div_le_div_of_nonneg_right (e1.trans e3) f.qpos.le
      _ = f.ulp * (num / den / 2 ^ f.qexp) := by ring

end FloatFmt
end Verif
