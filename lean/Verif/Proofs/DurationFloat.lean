import Verif.Proofs.FloatArith
import Verif.Model.DurationFloat
/-
Error analysis of `Duration::as_secs`, `mul`, `div`.
-/
namespace Verif
open FloatFmt StdDuration

/-- What the analysis needs of the format; true of f32 and f64. -/
structure GoodFmt (f : FloatFmt) : Prop where
  m1 : 23 ≤ f.mbits
  e1 : f.mbits + 64 ≤ f.qexp
  e2 : f.qexp + 66 < f.emax + f.mbits
  g1 : f.mag (f.ofNat 1000000000) = 1000000000 * 2 ^ f.qexp
  g2 : f.ofNat 1000000000 < f.inf

theorem good_f32 : GoodFmt .f32 := ⟨by decide, by decide, by decide, by decide +kernel, by decide +kernel⟩
theorem good_f64 : GoodFmt .f64 := ⟨by decide, by decide, by decide +kernel, by decide +kernel, by decide +kernel⟩

namespace GoodFmt
variable {f : FloatFmt} (g : GoodFmt f)
include g

omit g in
theorem ulp_pos : 0 < f.ulp := by unfold ulp; positivity

theorem ulp_le : f.ulp ≤ 1 / 2 ^ 24 := by
  unfold ulp
  apply one_div_le_one_div_of_le (by positivity)
  exact pow_le_pow_right₀ (by norm_num) (by have := g.m1; omega)

/-- A quantum is tiny. -/
theorem quantum_le : (1 : ℚ) / 2 / 2 ^ f.qexp ≤ f.ulp * (1 / 2 ^ 63) := by
  unfold ulp
  rw [div_div, div_mul_div_comm, one_mul]
  apply one_div_le_one_div_of_le (by positivity)
  rw [← pow_add, ← pow_succ']
  exact pow_le_pow_right₀ (by norm_num) (by have := g.e1; omega)

theorem round_zero (den : Nat) : f.roundMag 0 den = 0 := by
  have h : 0 < f.inf := Nat.lt_of_le_of_lt (Nat.zero_le _) g.g2
  unfold roundMag excess rne
  simp [h]

omit g in
theorem mag_zero : f.mag 0 = 0 := by
  unfold mag signif expo frac; simp

/-- Relative error, for results that are 0 or at least `2^-40`. -/
theorem rel_err (num den : Nat) (hd : 0 < den) (q : ℚ) (hq : (num : ℚ) / den / 2 ^ f.qexp = q)
    (h0 : num = 0 ∨ 1 / 2 ^ 40 ≤ q) (hu : q < 2 ^ 65) :
    f.roundMag num den < f.inf ∧ |f.rat (f.roundMag num den) - q| ≤ f.ulp * q := by
  have hd' : (0 : ℚ) < den := by exact_mod_cast hd
  have hfin : f.roundMag num den < f.inf := by
    apply f.roundMag_finite num den (f.qexp + 65) hd (by have := g.e1; omega) (by have := g.e2; omega)
    have : (num : ℚ) < den * 2 ^ (f.qexp + 65) := by
      rw [div_div, div_eq_iff (by positivity)] at hq
      rw [hq, pow_add]
      have := f.qpos
      have : q * (den * 2 ^ f.qexp) < 2 ^ 65 * (den * 2 ^ f.qexp) :=
        mul_lt_mul_of_pos_right hu (by positivity)
      linarith
    exact_mod_cast this
  refine ⟨hfin, ?_⟩
  rcases h0 with rfl | h0
  · rw [g.round_zero]
    simp only [Nat.cast_zero, zero_div] at hq
    rw [← hq]
    unfold rat
    rw [mag_zero (f := f)]
    simp
  · have := f.round_err num den hd hfin
    rw [hq] at this
    refine this.trans (max_le le_rfl ?_)
    refine g.quantum_le.trans (mul_le_mul_of_nonneg_left ?_ (ulp_pos (f := f)).le)
    refine le_trans ?_ h0
    norm_num

theorem ofNat_err (n : Nat) (hn : n < 2 ^ 64) :
    f.ofNat n < f.inf ∧ |f.rat (f.ofNat n) - n| ≤ f.ulp * n := by
  unfold FloatFmt.ofNat
  have hq : ((n * 2 ^ f.qexp : Nat) : ℚ) / (1 : Nat) / 2 ^ f.qexp = n := by
    push_cast
    have := f.qpos
    field_simp
  apply g.rel_err _ 1 (by decide) n hq
  · by_cases h : n = 0
    · left; subst h; simp
    · right
      have : (1 : ℚ) ≤ n := by exact_mod_cast Nat.one_le_iff_ne_zero.2 h
      refine le_trans ?_ this
      norm_num
  · have : (n : ℚ) < 2 ^ 64 := by exact_mod_cast hn
    refine this.trans ?_
    norm_num

omit g in
theorem rat_nonneg (x : Nat) : 0 ≤ f.rat x := by unfold rat; positivity

/-- `as_secs` is within three roundings of the exact number of seconds. -/
theorem as_secs_err (n : Nat) (hn : n ≤ 2 ^ 63) :
    as_secs f n < f.inf ∧ |f.rat (as_secs f n) - (n : ℚ) / 1000000000| ≤ 7 / 2 * f.ulp * ((n : ℚ) / 1000000000) := by
  have hu0 := ulp_pos (f := f)
  have hu1 := g.ulp_le
  obtain ⟨s1, s2⟩ := g.ofNat_err (n / 1000000000) (by omega)
  obtain ⟨t1, t2⟩ := g.ofNat_err (n % 1000000000) (by omega)
  have hG : f.rat (f.ofNat 1000000000) = 1000000000 := by
    unfold rat
    rw [g.g1]
    push_cast
    have := f.qpos
    field_simp
  have hdm : (n : ℚ) = ((n / 1000000000 : Nat) : ℚ) * 1000000000 + ((n % 1000000000 : Nat) : ℚ) := by
    exact_mod_cast (by omega : n = n / 1000000000 * 1000000000 + n % 1000000000)
  have hNlt : ((n % 1000000000 : Nat) : ℚ) < 1000000000 := by
    exact_mod_cast (by omega : n % 1000000000 < 1000000000)
  have hSlt : ((n / 1000000000 : Nat) : ℚ) < 2 ^ 40 := by
    exact_mod_cast (by omega : n / 1000000000 < 2 ^ 40)
  have hN0 : n % 1000000000 = 0 ∨ (1 : ℚ) ≤ ((n % 1000000000 : Nat) : ℚ) := by
    rcases Nat.eq_zero_or_pos (n % 1000000000) with h | h
    · exact .inl h
    · right; exact_mod_cast h
  have hS0 : n / 1000000000 = 0 ∨ (1 : ℚ) ≤ ((n / 1000000000 : Nat) : ℚ) := by
    rcases Nat.eq_zero_or_pos (n / 1000000000) with h | h
    · exact .inl h
    · right; exact_mod_cast h
  have hSn : (0 : ℚ) ≤ ((n / 1000000000 : Nat) : ℚ) := by positivity
  have hNn : (0 : ℚ) ≤ ((n % 1000000000 : Nat) : ℚ) := by positivity
  rw [abs_le] at s2 t2
  -- the quotient of the nanoseconds
  have hdiv : f.divPos (f.ofNat (n % 1000000000)) (f.ofNat 1000000000) =
      f.roundMag (f.mag (f.ofNat (n % 1000000000)) * 2 ^ f.qexp) (f.mag (f.ofNat 1000000000)) := by
    unfold divPos
    obtain ⟨a, b⟩ := f.finite_of_lt_inf t1
    obtain ⟨c, d⟩ := f.finite_of_lt_inf g.g2
    have hne : f.mag (f.ofNat 1000000000) ≠ 0 := by
      rw [g.g1]; have := Nat.two_pow_pos f.qexp; omega
    rw [a, b, c, d]
    simp [hne]
  have hz : n % 1000000000 = 0 → f.mag (f.ofNat (n % 1000000000)) = 0 := by
    intro h
    rw [h]
    unfold FloatFmt.ofNat
    rw [Nat.zero_mul, g.round_zero, mag_zero (f := f)]
  have hzS : n / 1000000000 = 0 → f.mag (f.ofNat (n / 1000000000)) = 0 := by
    intro h
    rw [h]
    unfold FloatFmt.ofNat
    rw [Nat.zero_mul, g.round_zero, mag_zero (f := f)]
  obtain ⟨d1, d2⟩ := g.rel_err (f.mag (f.ofNat (n % 1000000000)) * 2 ^ f.qexp) (f.mag (f.ofNat 1000000000))
    (by rw [g.g1]; have := Nat.two_pow_pos f.qexp; omega)
    (f.rat (f.ofNat (n % 1000000000)) / 1000000000)
    (by rw [← hG]; unfold rat; push_cast
        have := f.qpos
        have h3 : (0 : ℚ) < f.mag (f.ofNat 1000000000) := by
          rw [g.g1]; push_cast; positivity
        field_simp)
    (by rcases hN0 with h | h
        · left; rw [hz h, Nat.zero_mul]
        · right
          rw [le_div_iff₀ (by norm_num)]
          have : (1 : ℚ) / 2 ^ 40 * 1000000000 ≤ 1 / 2 := by norm_num
          nlinarith)
    (by rw [div_lt_iff₀ (by norm_num)]
        have : (2 : ℚ) ^ 65 * 1000000000 > 2000000000 := by norm_num
        nlinarith)
  rw [← hdiv] at d1 d2
  rw [abs_le] at d2
  have hadd : as_secs f n = f.roundMag (f.mag (f.ofNat (n / 1000000000)) +
      f.mag (f.divPos (f.ofNat (n % 1000000000)) (f.ofNat 1000000000))) 1 := by
    unfold as_secs addPos
    obtain ⟨a, b⟩ := f.finite_of_lt_inf s1
    obtain ⟨c, d⟩ := f.finite_of_lt_inf d1
    rw [a, b, c, d]
    simp
  have hzF : n % 1000000000 = 0 → f.mag (f.divPos (f.ofNat (n % 1000000000)) (f.ofNat 1000000000)) = 0 := by
    intro h
    rw [hdiv, hz h, Nat.zero_mul, g.round_zero, mag_zero (f := f)]
  generalize f.divPos (f.ofNat (n % 1000000000)) (f.ofNat 1000000000) = F at *
  generalize f.ofNat (n % 1000000000) = N' at *
  generalize f.ofNat (n / 1000000000) = S' at *
  have hFn := rat_nonneg (f := f) F
  have hSn' := rat_nonneg (f := f) S'
  obtain ⟨a1, a2⟩ := g.rel_err (f.mag S' + f.mag F) 1 (by decide) (f.rat S' + f.rat F)
    (by unfold rat; push_cast; ring)
    (by rcases hS0 with h | h
        · rcases hN0 with h' | h'
          · left; rw [hzS h, hzF h']
          · right
            have c1 : (1 : ℚ) / 2 ^ 40 ≤ f.rat F := by
              have c2 : f.rat N' / 1000000000 ≥ 1 / 2 / 1000000000 := by
                apply div_le_div_of_nonneg_right _ (by norm_num)
                nlinarith
              have c3 : (1 : ℚ) / 2 / 1000000000 ≥ 1 / 2 ^ 31 := by norm_num
              have c4 : (1 : ℚ) / 2 ^ 31 * (1 / 2) ≥ 1 / 2 ^ 40 := by norm_num
              nlinarith
            linarith
        · right
          have c4 : (1 : ℚ) / 2 ≥ 1 / 2 ^ 40 := by norm_num
          nlinarith)
    (by have c1 : f.rat N' / 1000000000 < 2 := by
          rw [div_lt_iff₀ (by norm_num)]; nlinarith
        have c2 : f.rat F < 4 := by nlinarith
        have c3 : f.rat S' < 2 ^ 41 := by
          have : (2 : ℚ) ^ 41 = 2 * 2 ^ 40 := by norm_num
          nlinarith
        have c4 : (2 : ℚ) ^ 41 + 4 < 2 ^ 65 := by norm_num
        linarith)
  rw [← hadd] at a1 a2
  refine ⟨a1, ?_⟩
  rw [abs_le] at a2 ⊢
  rw [hdm]
  generalize ((n / 1000000000 : Nat) : ℚ) = S at *
  generalize ((n % 1000000000 : Nat) : ℚ) = N at *
  generalize f.rat (as_secs f n) = A at *
  have eN : (S * 1000000000 + N) / 1000000000 = S + N / 1000000000 := by ring
  rw [eN]
  -- nanoseconds: two roundings
  have n1 : N = N / 1000000000 * 1000000000 := by field_simp
  have n2 : f.rat N' = f.rat N' / 1000000000 * 1000000000 := by field_simp
  have hY0 : 0 ≤ N / 1000000000 := by positivity
  generalize N / 1000000000 = Y at *
  generalize f.rat N' / 1000000000 = Z at *
  rw [n1, n2] at t2
  generalize f.rat S' = S1 at *
  generalize f.rat F = F1 at *
  generalize f.ulp = u at *
  have z1 : Y - u * Y ≤ Z := by nlinarith
  have z2 : Z ≤ Y + u * Y := by nlinarith
  have uY : 0 ≤ u * Y := by positivity
  have uS : 0 ≤ u * S := by positivity
  have uuY : u * (u * Y) ≤ 1 / 2 ^ 24 * (u * Y) := mul_le_mul_of_nonneg_right hu1 uY
  have uuS : u * (u * S) ≤ 1 / 2 ^ 24 * (u * S) := mul_le_mul_of_nonneg_right hu1 uS
  have uZ1 : u * Z ≤ u * (Y + u * Y) := mul_le_mul_of_nonneg_left z2 hu0.le
  have f1 : Y - (2 + 1 / 100) * (u * Y) ≤ F1 := by
    have : u * (Y + u * Y) = u * Y + u * (u * Y) := by ring
    norm_num at uuY ⊢
    linarith [d2.1]
  have f2 : F1 ≤ Y + (2 + 1 / 100) * (u * Y) := by
    have : u * (Y + u * Y) = u * Y + u * (u * Y) := by ring
    norm_num at uuY ⊢
    linarith [d2.2]
  have uSF : u * (S1 + F1) ≤ u * (S + u * S + (Y + (2 + 1 / 100) * (u * Y))) := by
    apply mul_le_mul_of_nonneg_left _ hu0.le
    linarith [s2.2]
  have uSF' : u * (S + u * S + (Y + (2 + 1 / 100) * (u * Y))) =
      u * S + u * (u * S) + u * Y + (2 + 1 / 100) * (u * (u * Y)) := by ring
  norm_num at uuY uuS
  constructor
  · have : 7 / 2 * u * (S + Y) = 7 / 2 * (u * S) + 7 / 2 * (u * Y) := by ring
    rw [this]
    norm_num at *
    linarith [a2.1, s2.1]
  · have : 7 / 2 * u * (S + Y) = 7 / 2 * (u * S) + 7 / 2 * (u * Y) := by ring
    rw [this]
    norm_num at *
    linarith [a2.2, s2.2]

omit g in
/-- Less than half a nanosecond becomes 0. -/
theorem roundNanos_small (r : DurRounding) (num den : Nat) (h : 2 * num < den) : roundNanos r num den = 0 := by
  cases r with
  | trunc => exact Nat.div_eq_of_lt (by omega)
  | nearestEven =>
    unfold roundNanos
    obtain ⟨-, h2, -, -⟩ := rne_bounds num den (by omega)
    rcases Nat.eq_zero_or_pos (rne num den) with h0 | h0
    · exact h0
    · have : 1 * den ≤ rne num den * den := Nat.mul_le_mul_right _ h0
      omega

omit g in
/-- Rounding to whole nanoseconds. -/
theorem roundNanos_err (r : DurRounding) (num den : Nat) (hd : 0 < den) :
    |((roundNanos r num den : Nat) : ℚ) - (num : ℚ) / den| ≤ if r = .trunc then 1 else 1 / 2 := by
  have hd' : (0 : ℚ) < den := by exact_mod_cast hd
  cases r with
  | trunc =>
    rw [if_pos rfl]
    unfold roundNanos
    have h1 := Nat.div_add_mod num den
    have h2 := Nat.mod_lt num hd
    have h1' : (den : ℚ) * ((num / den : Nat) : ℚ) + ((num % den : Nat) : ℚ) = num := by exact_mod_cast h1
    have h2' : ((num % den : Nat) : ℚ) < den := by exact_mod_cast h2
    have h3 : (0 : ℚ) ≤ ((num % den : Nat) : ℚ) := by positivity
    rw [abs_le, ← h1']
    generalize ((num / den : Nat) : ℚ) = q at *
    generalize ((num % den : Nat) : ℚ) = m at *
    have e : (den * q + m) / den = q + m / den := by field_simp
    rw [e]
    have h4 : m / den ≤ 1 := by rw [div_le_one hd']; exact h2'.le
    have h5 : 0 ≤ m / den := by positivity
    constructor <;> linarith
  | nearestEven =>
    rw [if_neg (by decide)]
    unfold roundNanos
    obtain ⟨h1, h2, -, -⟩ := rne_bounds num den hd
    have h1' : (2 : ℚ) * num ≤ 2 * (rne num den * den) + den := by exact_mod_cast h1
    have h2' : (2 : ℚ) * (rne num den * den) ≤ 2 * num + den := by exact_mod_cast h2
    have hx : (num : ℚ) = num / den * den := by field_simp
    rw [hx] at h1' h2'
    generalize (num : ℚ) / den = y at *
    rw [abs_le]
    constructor <;> nlinarith

/-- The last step: rounding the product or quotient `q`, where `q` is close to the exact number of seconds `Y`. -/
theorem finish (r : DurRounding) (num den : Nat) (hd : 0 < den) (q Y : ℚ) (hq : (num : ℚ) / den / 2 ^ f.qexp = q)
    (hY : 0 ≤ Y) (hqY : |q - Y| ≤ 7 / 2 * f.ulp * Y) :
    (∀ n, from_secs f r (f.roundMag num den) = .ok n →
      |(n : ℚ) - Y * 1000000000| ≤ 5 * f.ulp * (Y * 1000000000) + if r = .trunc then 1 else 1 / 2) ∧
    (Y * 1000000000 < 2 ^ 63 → ∃ n, from_secs f r (f.roundMag num den) = .ok n) := by
  have hu0 := ulp_pos (f := f)
  have hu1 := g.ulp_le
  have hq0 : 0 ≤ q := by
    rw [← hq]; positivity
  have main : f.roundMag num den < f.inf → |(f.rat (f.roundMag num den)) - Y| ≤
      19 / 4 * f.ulp * Y + 1 / 2 / 2 ^ f.qexp := by
    intro hfin
    have h1 := f.round_err num den hd hfin
    rw [hq] at h1
    have h2 : |f.rat (f.roundMag num den) - q| ≤ f.ulp * q + 1 / 2 / 2 ^ f.qexp := by
      refine h1.trans (max_le ?_ ?_)
      · have : (0 : ℚ) ≤ 1 / 2 / 2 ^ f.qexp := by positivity
        linarith
      · have : 0 ≤ f.ulp * q := by positivity
        linarith
    rw [abs_le] at h2 hqY ⊢
    generalize f.rat (f.roundMag num den) = P at *
    generalize (1 : ℚ) / 2 / 2 ^ f.qexp = η at *
    generalize f.ulp = u at *
    have a1 : u * q ≤ u * (Y + 7 / 2 * u * Y) := mul_le_mul_of_nonneg_left (by linarith [hqY.2]) hu0.le
    have a2 : u * (Y + 7 / 2 * u * Y) = u * Y + 7 / 2 * (u * (u * Y)) := by ring
    have uY : 0 ≤ u * Y := by positivity
    have uuY : u * (u * Y) ≤ 1 / 2 ^ 24 * (u * Y) := mul_le_mul_of_nonneg_right hu1 uY
    norm_num at uuY
    have e1 : 7 / 2 * u * Y = 7 / 2 * (u * Y) := by ring
    have e2 : 19 / 4 * u * Y = 19 / 4 * (u * Y) := by ring
    rw [e1] at hqY
    rw [e2]
    constructor
    · linarith [h2.1, hqY.1]
    · linarith [h2.2, hqY.2]
  constructor
  · intro n hn
    unfold from_secs at hn
    split at hn
    · cases hn
    · rename_i hnf
      split at hn
      · cases hn
      · have hn := (Res.ok.inj hn).symm
        subst hn
        have hfin : f.roundMag num den < f.inf := by
          rcases Nat.lt_or_ge (f.roundMag num den) f.inf with h | h
          · exact h
          · have : f.roundMag num den = f.inf := Nat.le_antisymm (f.roundMag_le_inf _ _) h
            rw [this, f.inf_spec.2] at hnf
            simp at hnf
        have h1 := main hfin
        have h2 := roundNanos_err r (f.mag (f.roundMag num den) * 1000000000) (2 ^ f.qexp) (Nat.two_pow_pos _)
        have e1 : ((f.mag (f.roundMag num den) * 1000000000 : Nat) : ℚ) / ((2 ^ f.qexp : Nat) : ℚ) =
            f.rat (f.roundMag num den) * 1000000000 := by
          unfold rat; push_cast; ring
        rw [e1] at h2
        have hη := g.quantum_le
        have hs : (1 : ℚ) / 2 ≤ if r = .trunc then 1 else 1 / 2 := by split <;> norm_num
        by_cases hsmall : Y * 1000000000 < 1 / 2 ^ 30
        · -- far less than a nanosecond
          have hP : f.rat (f.roundMag num den) * 1000000000 < 1 / 2 := by
            have h3 := (abs_le.1 h1).2
            have : f.ulp * Y ≤ 1 / 2 ^ 24 * Y := mul_le_mul_of_nonneg_right hu1 hY
            have : f.ulp * (1 / 2 ^ 63) ≤ 1 / 2 ^ 24 * (1 / 2 ^ 63) := mul_le_mul_of_nonneg_right hu1 (by positivity)
            have e2 : 19 / 4 * f.ulp * Y = 19 / 4 * (f.ulp * Y) := by ring
            rw [e2] at h3
            generalize f.rat (f.roundMag num den) = P at *
            generalize (1 : ℚ) / 2 / 2 ^ f.qexp = η at *
            norm_num at *
            linarith
          have h0 : roundNanos r (f.mag (f.roundMag num den) * 1000000000) (2 ^ f.qexp) = 0 := by
            apply roundNanos_small
            rw [← e1, div_lt_div_iff₀ (by positivity) (by norm_num), one_mul] at hP
            have : 2 * (f.mag (f.roundMag num den) * 1000000000) < 2 ^ f.qexp := by
              have hP' : ((f.mag (f.roundMag num den) * 1000000000 : Nat) : ℚ) * 2 < ((2 ^ f.qexp : Nat) : ℚ) := hP
              have : f.mag (f.roundMag num den) * 1000000000 * 2 < 2 ^ f.qexp := by exact_mod_cast hP'
              omega
            exact this
          rw [h0]
          have uY : 0 ≤ f.ulp * Y := by positivity
          have e3 : 5 * f.ulp * (Y * 1000000000) = 5000000000 * (f.ulp * Y) := by ring
          rw [e3, Nat.cast_zero, zero_sub, abs_neg, abs_of_nonneg (by positivity)]
          have : Y * 1000000000 ≤ 1 / 2 := hsmall.le.trans (by norm_num)
          linarith
        rw [abs_le] at h1 h2 ⊢
        generalize f.rat (f.roundMag num den) = P at *
        generalize ((roundNanos r (f.mag (f.roundMag num den) * 1000000000) (2 ^ f.qexp) : Nat) : ℚ) = n at *
        generalize (1 : ℚ) / 2 / 2 ^ f.qexp = η at *
        generalize f.ulp = u at *
        have hη2 : η * 1000000000 ≤ 1 / 4 * (u * (Y * 1000000000)) := by
          have : u * (1 / 2 ^ 30) ≤ u * (Y * 1000000000) := mul_le_mul_of_nonneg_left (by linarith) hu0.le
          norm_num at this hη ⊢
          linarith
        have uY : 0 ≤ u * Y := by positivity
        have e2 : 19 / 4 * u * Y = 19 / 4 * (u * Y) := by ring
        have e3 : 5 * u * (Y * 1000000000) = 5000000000 * (u * Y) := by ring
        have e4 : u * (Y * 1000000000) = 1000000000 * (u * Y) := by ring
        rw [e4] at hη2
        rw [e2] at h1
        rw [e3]
        constructor
        · linarith [h1.1, h2.1]
        · linarith [h1.2, h2.2]
  · intro hb
    have hYb : Y < 2 ^ 40 := by
      have : (2 : ℚ) ^ 63 < 2 ^ 40 * 1000000000 := by norm_num
      linarith
    rw [abs_le] at hqY
    have uY : 0 ≤ f.ulp * Y := mul_nonneg hu0.le hY
    have uYb : f.ulp * Y ≤ 1 / 2 ^ 24 * Y := mul_le_mul_of_nonneg_right hu1 hY
    have hqb : q < 2 ^ 42 := by
      have e : 7 / 2 * f.ulp * Y = 7 / 2 * (f.ulp * Y) := by ring
      rw [e] at hqY
      norm_num at *
      linarith [hqY.2]
    have hfin : f.roundMag num den < f.inf := by
      apply f.roundMag_finite num den (f.qexp + 65) hd (by have := g.e1; omega) (by have := g.e2; omega)
      have hd' : (0 : ℚ) < den := by exact_mod_cast hd
      have : (num : ℚ) < den * 2 ^ (f.qexp + 65) := by
        rw [div_div, div_eq_iff (by positivity)] at hq
        rw [hq, pow_add]
        have h65 : q < 2 ^ 65 := hqb.trans (by norm_num)
        have : q * (den * 2 ^ f.qexp) < 2 ^ 65 * (den * 2 ^ f.qexp) :=
          mul_lt_mul_of_pos_right h65 (by have := f.qpos; positivity)
        linarith
      exact_mod_cast this
    have h1 := main hfin
    obtain ⟨a, b⟩ := f.finite_of_lt_inf hfin
    unfold from_secs
    rw [a, b]
    have hm : ¬ 2 ^ 64 * 2 ^ f.qexp ≤ f.mag (f.roundMag num den) := by
      intro hge
      have hge' : (2 : ℚ) ^ 64 * 2 ^ f.qexp ≤ f.mag (f.roundMag num den) := by exact_mod_cast hge
      have : (2 : ℚ) ^ 64 ≤ f.rat (f.roundMag num den) := by
        unfold rat; rw [le_div_iff₀ f.qpos]; exact hge'
      rw [abs_le] at h1
      have hη := g.quantum_le
      have : f.ulp * (1 / 2 ^ 63) ≤ 1 / 2 ^ 24 * (1 / 2 ^ 63) := mul_le_mul_of_nonneg_right hu1 (by positivity)
      have e2 : 19 / 4 * f.ulp * Y = 19 / 4 * (f.ulp * Y) := by ring
      rw [e2] at h1
      generalize (1 : ℚ) / 2 / 2 ^ f.qexp = η at *
      norm_num at *
      linarith [h1.2]
    rw [if_neg (by simp), if_neg hm]
    exact ⟨_, rfl⟩

end GoodFmt
end Verif
