import Mathlib.Analysis.Real.Sqrt
import Mathlib.Algebra.Order.Archimedean.Real.Basic
import Verif.Props.ExptAlgebra
import Verif.Props.Arith
/-
C89, C124: how accurate SQRT is, and the square of a root.
-/
namespace Verif
open Spec FloatFmt

/-- The relative error of rounding a real number in the normal range is at most half an ulp. -/
private theorem real_err (f : FloatFmt) (hf : IsFloatTy f) (v : ℝ) (r : Nat) (h : IsNearestFloatR f v r)
    (lo : (minNormal f : ℝ) ≤ v) (hi : v < ((2 / minNormal f : ℚ) : ℝ)) : |v - (floatValue f r : ℝ)| ≤ (halfUlp f : ℝ) * v := by
  obtain ⟨u1, u2, u3, _⟩ := minNormal_units f hf
  have hu : (0 : ℝ) < (halfUlp f : ℝ) := by exact_mod_cast (by unfold halfUlp; positivity : (0 : ℚ) < halfUlp f)
  refine le_of_forall_pos_le_add fun ε hε => ?_
  have hδ : v < min (v + ε / (1 + halfUlp f)) ((2 / minNormal f : ℚ) : ℝ) := lt_min (by linarith [div_pos hε (by linarith : (0 : ℝ) < 1 + halfUlp f)]) hi
  obtain ⟨w, w1, w2⟩ := exists_rat_btwn hδ
  have hw0 : (0 : ℚ) < w := by
    have : (0 : ℝ) < w := lt_of_lt_of_le (by exact_mod_cast u3) (lo.trans w1.le)
    exact_mod_cast this
  have hwlo : minNormal f ≤ w := by
    have : (minNormal f : ℝ) ≤ w := lo.trans w1.le
    exact_mod_cast this
  have hwhi : w ≤ 2 / minNormal f := by
    have : (w : ℝ) ≤ ((2 / minNormal f : ℚ) : ℝ) := (w2.trans_le (min_le_right _ _)).le
    exact_mod_cast this
  have hwv : (w : ℝ) - v ≤ ε / (1 + halfUlp f) := by linarith [w2.trans_le (min_le_left _ _)]
  -- a rounding of w
  have hq : (0 : ℚ) < w * 2 ^ f.qexp := by positivity
  have hnum : (((w * 2 ^ f.qexp).num.toNat : ℚ)) / ((w * 2 ^ f.qexp).den : ℚ) = w * 2 ^ f.qexp := by
    have : (((w * 2 ^ f.qexp).num.toNat : ℤ)) = (w * 2 ^ f.qexp).num := Int.toNat_of_nonneg (Rat.num_nonneg.2 hq.le)
    have e : (((w * 2 ^ f.qexp).num.toNat : ℚ)) = ((w * 2 ^ f.qexp).num : ℚ) := by exact_mod_cast this
    rw [e, Rat.num_div_den]
  have hr : f.Rounds w (f.withSign false (f.roundMag (w * 2 ^ f.qexp).num.toNat (w * 2 ^ f.qexp).den)) := by
    refine ⟨false, _, _, (w * 2 ^ f.qexp).den_pos, rfl, ?_⟩
    rw [if_neg (by simp), hnum]
    field_simp
  obtain ⟨r1, r2, δ, d1, d2, d3⟩ := hr.err hf (by rw [u1, abs_of_pos hw0]; exact hwlo) (by rw [u2, abs_of_pos hw0]; exact hwhi)
  generalize f.withSign false (f.roundMag (w * 2 ^ f.qexp).num.toNat (w * 2 ^ f.qexp).den) = r' at *
  have near := (h.2.2 r' r1 ((not_isNaN_iff f r').2 r2.nan)).1
  have e : |(w : ℝ) - (floatValue f r' : ℝ)| ≤ halfUlp f * w := by
    have : |w - floatValue f r'| ≤ halfUlp f * w := by
      rw [d1, abs_le]; constructor <;> nlinarith
    exact_mod_cast this
  have tri : |v - (floatValue f r' : ℝ)| ≤ (w - v) + halfUlp f * w := by
    calc |v - (floatValue f r' : ℝ)| = |(v - w) + (w - floatValue f r')| := by ring_nf
      _ ≤ |v - w| + |(w : ℝ) - floatValue f r'| := abs_add_le _ _
      _ ≤ (w - v) + halfUlp f * w := by rw [abs_of_neg (by linarith)]; linarith
  have hfin : ((w : ℝ) - v) * (1 + halfUlp f) ≤ ε := by
    have := mul_le_mul_of_nonneg_right hwv (by linarith : (0 : ℝ) ≤ 1 + halfUlp f)
    rwa [div_mul_cancel₀ _ (by linarith)] at this
  nlinarith

/-- The root of a positive finite number is in the normal range. -/
private theorem root_range (f : FloatFmt) (hf : IsFloatTy f) (x : Nat) (hx : x < 2 ^ (1 + f.mbits + f.ebits)) (hfx : IsFinite f x)
    (h0 : 0 < floatValue f x) :
    (minNormal f : ℝ) ≤ √(floatValue f x : ℝ) ∧ √(floatValue f x : ℝ) < ((2 / minNormal f : ℚ) : ℝ) := by
  obtain ⟨u1, u2, u3, _⟩ := minNormal_units f hf
  obtain ⟨a1, -, a3, -⟩ := finite_abs_lt f x hx
  have hQ : (0 : ℚ) < 2 ^ f.qexp := by positivity
  have hval : floatValue f x = (f.mag (f.abs x) : ℚ) / 2 ^ f.qexp := by
    have e := f.floatValue_eq (stdFmt hf).eb x
    rw [a3] at e
    have : (0 : ℚ) ≤ (f.mag (f.abs x) : ℚ) / 2 ^ f.qexp := by positivity
    split at e
    · rw [e] at h0; linarith
    · exact e
  have hm1 : 1 ≤ f.mag (f.abs x) := by
    rcases Nat.eq_zero_or_pos (f.mag (f.abs x)) with h | h
    · rw [hval, h] at h0; simp at h0
    · exact h
  have hm2 : f.mag (f.abs x) < f.mag f.inf := mag_lt_inf f _ (a1.1 hfx)
  have hlo : minNormal f ^ 2 ≤ floatValue f x := by
    rw [← u1, hval, div_pow, div_le_div_iff₀ (by positivity) hQ]
    have e : (2 : ℚ) ^ f.mbits ^ 1 * 2 ^ f.mbits ≤ 2 ^ f.qexp := by
      rw [pow_one, ← pow_add]; exact pow_le_pow_right₀ (by norm_num) (by rcases hf with rfl | rfl <;> decide)
    have h1 : (1 : ℚ) ≤ f.mag (f.abs x) := by exact_mod_cast hm1
    rw [pow_one] at e
    nlinarith
  have hhi : floatValue f x < (2 / minNormal f) ^ 2 := by
    rw [← u2, hval, div_pow, div_lt_div_iff₀ hQ (by positivity)]
    have e : f.mag f.inf ≤ 2 ^ (2 * f.qexp - 2 * f.mbits + 1 + f.mbits) * 2 := by rcases hf with rfl | rfl <;> decide +kernel
    have e' : 2 * 2 ^ f.qexp ≤ 2 ^ (2 * f.qexp - 2 * f.mbits + 1 + f.mbits) := by rcases hf with rfl | rfl <;> decide +kernel
    have h2 : (f.mag (f.abs x) : ℚ) < 2 ^ (2 * f.qexp - 2 * f.mbits + 1 + f.mbits) * 2 := by exact_mod_cast lt_of_lt_of_le hm2 e
    have h3 : (2 : ℚ) * 2 ^ f.qexp ≤ 2 ^ (2 * f.qexp - 2 * f.mbits + 1 + f.mbits) := by exact_mod_cast e'
    generalize (2 : ℚ) ^ (2 * f.qexp - 2 * f.mbits + 1 + f.mbits) = K at *
    generalize (2 : ℚ) ^ f.qexp = Q at *
    generalize (f.mag (f.abs x) : ℚ) = m at *
    have : m * Q ^ 2 < K * 2 * Q ^ 2 := mul_lt_mul_of_pos_right h2 (by positivity)
    have : K * 2 * Q ^ 2 ≤ K ^ 2 * Q := by
      have : 0 ≤ K * Q * (K - 2 * Q) := by
        have : 0 ≤ K := by linarith
        have : 0 ≤ K - 2 * Q := by linarith
        positivity
      nlinarith
    linarith
  refine ⟨Real.le_sqrt_of_sq_le (by exact_mod_cast hlo), ?_⟩
  rw [Real.sqrt_lt' (by exact_mod_cast (by positivity : (0 : ℚ) < 2 / minNormal f))]
  exact_mod_cast hhi

private theorem sqrt_err (f : FloatFmt) (hf : IsFloatTy f) (x r : Nat) (hx : x < 2 ^ (1 + f.mbits + f.ebits)) (hfx : IsFinite f x)
    (h0 : 0 < floatValue f x) (hr : IsNearestFloatR f √(floatValue f x : ℝ) r) :
    |√(floatValue f x : ℝ) - (floatValue f r : ℝ)| ≤ (halfUlp f : ℝ) * √(floatValue f x : ℝ) := by
  obtain ⟨h1, h2⟩ := root_range f hf x hx hfx h0
  exact real_err f hf _ r hr h1 h2

/-- **C89.** The relative error of SQRT of a positive finite number is at most half a unit in the last place, also when the number is below the normal
range. -/
theorem C89_accuracy (x : Nat) :
    (x < 2 ^ 32 → IsFinite .f32 x → 0 < floatValue .f32 x →
      |√(floatValue .f32 x : ℝ) - (floatValue .f32 (SQRT__REAL x) : ℝ)| ≤ √(floatValue .f32 x : ℝ) / 2 ^ 24) ∧
    (x < 2 ^ 64 → IsFinite .f64 x → 0 < floatValue .f64 x →
      |√(floatValue .f64 x : ℝ) - (floatValue .f64 (SQRT__LREAL x) : ℝ)| ≤ √(floatValue .f64 x : ℝ) / 2 ^ 53) := by
  constructor
  · intro hx hf h0
    have := sqrt_err .f32 (.inl rfl) x _ hx hf h0 ((C89_nearest x).1 hx hf h0.le).1
    refine this.trans (le_of_eq ?_)
    norm_num [halfUlp, FloatFmt.f32]; ring
  · intro hx hf h0
    have := sqrt_err .f64 (.inr rfl) x _ hx hf h0 ((C89_nearest x).2 hx hf h0.le).1
    refine this.trans (le_of_eq ?_)
    norm_num [halfUlp, FloatFmt.f64]; ring

/-- Like `Rounds.err`, for a result that is known to be finite. -/
private theorem rounds_err (f : FloatFmt) (hf : IsFloatTy f) (v : ℚ) (num den : Nat) (hd : 0 < den) (hv : v = (num : ℚ) / den / 2 ^ f.qexp)
    (hlt : f.roundMag num den < f.inf) (h1 : minNormal f ≤ v) :
    |v - floatValue f (f.roundMag num den)| ≤ halfUlp f * v := by
  obtain ⟨u1, -, u3, -⟩ := minNormal_units f hf
  have hlt' := f.le_inf_lt hlt.le
  have hval := f.floatValue_withSign (stdFmt hf).eb false _ hlt'
  rw [show f.withSign false (f.roundMag num den) = f.roundMag num den by simp [FloatFmt.withSign]] at hval
  have herr := f.round_err num den hd hlt
  have hle : (1 : ℚ) / 2 / 2 ^ f.qexp ≤ f.ulp * ((num : ℚ) / den / 2 ^ f.qexp) := by
    unfold ulp
    have h3 : (1 : ℚ) / 2 / 2 ^ f.qexp = 1 / 2 ^ (f.mbits + 1) * (2 ^ f.mbits / 2 ^ f.qexp) := by
      rw [pow_succ]; field_simp
    rw [h3, u1, ← hv]
    exact mul_le_mul_of_nonneg_left h1 (by positivity)
  rw [max_eq_left hle, ← hv] at herr
  rw [hval, abs_sub_comm]
  simpa [rat, halfUlp, ulp] using herr

private theorem square_root_err (f : FloatFmt) (hf : IsFloatTy f) (x y Y : Nat) (hx : x < 2 ^ (1 + f.mbits + f.ebits)) (hfx : IsFinite f x)
    (h0 : 0 < floatValue f x) (hy : IsNearestFloatR f √(floatValue f x : ℝ) y) (hfy : IsFinite f y) (hY : Y < f.inf)
    (hYfin : f.roundMag (f.mag Y * f.mag Y) (2 ^ f.qexp) < f.inf) (hyY : floatValue f y ≤ floatValue f Y)
    (hlow : minNormal f ≤ floatValue f y ^ 2) (hy0 : 0 ≤ floatValue f y) :
    IsFinite f (f.powi y 2) ∧ ∃ δ : ℝ, (floatValue f (f.powi y 2) : ℝ) = floatValue f x * δ ∧
      (1 - (halfUlp f : ℝ)) ^ 3 ≤ δ ∧ δ ≤ (1 + (halfUlp f : ℝ)) ^ 3 := by
  have hylt := hy.1
  obtain ⟨e1, e2⟩ := powi_two f hf y hylt hfy
  obtain ⟨a1, -, a3, -⟩ := finite_abs_lt f y hylt
  have hQ : (0 : ℚ) < 2 ^ f.qexp := by positivity
  have hyval : floatValue f y = (f.mag (f.abs y) : ℚ) / 2 ^ f.qexp := by
    have e := f.floatValue_eq (stdFmt hf).eb y
    rw [a3] at e
    have : (0 : ℚ) ≤ (f.mag (f.abs y) : ℚ) / 2 ^ f.qexp := by positivity
    split at e
    · have : (f.mag (f.abs y) : ℚ) / 2 ^ f.qexp = 0 := by rw [e] at hy0; linarith
      rw [e, this, neg_zero]
    · exact e
  have hYval : floatValue f Y = (f.mag Y : ℚ) / 2 ^ f.qexp := by
    have e := f.floatValue_withSign (stdFmt hf).eb false _ (f.le_inf_lt hY.le)
    rw [show f.withSign false Y = Y by simp [FloatFmt.withSign]] at e
    simpa using e
  have hmag : f.mag (f.abs y) ≤ f.mag Y := by
    rw [hyval, hYval, div_le_div_iff_of_pos_right hQ] at hyY
    exact_mod_cast hyY
  have hlt : f.roundMag (f.mag (f.abs y) * f.mag (f.abs y)) (2 ^ f.qexp) < f.inf := by
    refine lt_of_le_of_lt (f.roundMag_mono (stdFmt hf).m1 (stdFmt hf).e2 _ _ _ _ (Nat.two_pow_pos _) (Nat.two_pow_pos _) ?_) hYfin
    rw [div_le_div_iff_of_pos_right (by positivity)]
    exact_mod_cast Nat.mul_le_mul hmag hmag
  have herr := rounds_err f hf (floatValue f y ^ 2) _ _ (Nat.two_pow_pos f.qexp) (by rw [hyval]; push_cast; field_simp) hlt hlow
  rw [← e2, ← e1] at herr hlt
  have hfin : IsFinite f (f.powi y 2) := by
    have hp := f.le_inf_lt hlt.le
    rw [(finite_abs_lt f _ (lt_of_lt_of_le hp (Nat.pow_le_pow_right (by decide) (by omega)))).1]
    unfold FloatFmt.abs
    rwa [Nat.mod_eq_of_lt hp]
  refine ⟨hfin, ?_⟩
  have e := sqrt_err f hf x y hx hfx h0 hy
  have hx0 : (0 : ℝ) < floatValue f x := by exact_mod_cast h0
  have hs : √(floatValue f x : ℝ) ^ 2 = floatValue f x := Real.sq_sqrt hx0.le
  have hs0 : 0 < √(floatValue f x : ℝ) := Real.sqrt_pos.2 hx0
  have herr' : |(floatValue f y : ℝ) ^ 2 - (floatValue f (f.powi y 2) : ℝ)| ≤ (halfUlp f : ℝ) * (floatValue f y : ℝ) ^ 2 := by exact_mod_cast herr
  have hu0 : (0 : ℝ) ≤ halfUlp f := by exact_mod_cast (by unfold halfUlp; positivity : (0 : ℚ) ≤ halfUlp f)
  have hu1 : (halfUlp f : ℝ) ≤ 1 := by
    have : halfUlp f ≤ 1 := by rcases hf with rfl | rfl <;> norm_num [halfUlp, FloatFmt.f32, FloatFmt.f64]
    exact_mod_cast this
  generalize (halfUlp f : ℝ) = u at *
  generalize √(floatValue f x : ℝ) = s at *
  have hy0' : (0 : ℝ) ≤ floatValue f y := by exact_mod_cast hy0
  generalize (floatValue f y : ℝ) = t at *
  generalize (floatValue f (f.powi y 2) : ℝ) = z at *
  rw [← hs]
  obtain ⟨e3, e4⟩ := abs_le.1 e
  obtain ⟨e5, e6⟩ := abs_le.1 herr'
  have l1 : (1 - u) * s ≤ t := by linarith
  have l2 : t ≤ (1 + u) * s := by linarith
  have p1 : ((1 - u) * s) ^ 2 ≤ t ^ 2 := pow_le_pow_left₀ (mul_nonneg (by linarith) hs0.le) l1 2
  have p2 : t ^ 2 ≤ ((1 + u) * s) ^ 2 := pow_le_pow_left₀ hy0' l2 2
  have q1 : (1 - u) * t ^ 2 ≤ z := by linarith
  have q2 : z ≤ (1 + u) * t ^ 2 := by linarith
  refine ⟨z / s ^ 2, by field_simp, ?_, ?_⟩
  · rw [le_div_iff₀ (by positivity)]
    calc (1 - u) ^ 3 * s ^ 2 = (1 - u) * ((1 - u) * s) ^ 2 := by ring
      _ ≤ (1 - u) * t ^ 2 := mul_le_mul_of_nonneg_left p1 (by linarith)
      _ ≤ z := q1
  · rw [div_le_iff₀ (by positivity)]
    calc z ≤ (1 + u) * t ^ 2 := q2
      _ ≤ (1 + u) * ((1 + u) * s) ^ 2 := mul_le_mul_of_nonneg_left p2 (by linarith)
      _ = (1 + u) ^ 3 * s ^ 2 := by ring

/-- The value of a pattern without sign is that of its magnitude. -/
private theorem value_pos (f : FloatFmt) (hf : IsFloatTy f) (Y : Nat) (hY : Y ≤ f.inf) : floatValue f Y = (f.mag Y : ℚ) / 2 ^ f.qexp := by
  have e := f.floatValue_withSign (stdFmt hf).eb false _ (f.le_inf_lt hY)
  rw [show f.withSign false Y = Y by simp [FloatFmt.withSign]] at e
  simpa using e

/-- No finite number exceeds the pattern below infinity. -/
private theorem value_le_max (f : FloatFmt) (hf : IsFloatTy f) (x M : Nat) (hx : x < 2 ^ (1 + f.mbits + f.ebits)) (hfx : IsFinite f x)
    (hM : M + 1 = f.inf) : floatValue f x ≤ floatValue f M := by
  obtain ⟨a1, -, a3, -⟩ := finite_abs_lt f x hx
  have hlt := a1.1 hfx
  have hmag := f.mag_le (show f.abs x ≤ M by omega) (by have := f.le_inf_lt (show M ≤ f.inf by omega); rwa [Nat.add_comm, pow_add] at this)
  rw [value_pos f hf M (by omega), f.floatValue_eq (stdFmt hf).eb x, a3]
  have h1 : (f.mag (f.abs x) : ℚ) / 2 ^ f.qexp ≤ (f.mag M : ℚ) / 2 ^ f.qexp := by
    rw [div_le_div_iff_of_pos_right (by positivity)]; exact_mod_cast hmag
  have h2 : (0 : ℚ) ≤ (f.mag (f.abs x) : ℚ) / 2 ^ f.qexp := by positivity
  split <;> linarith

/-- **C124.** The square of the root of any finite number in the normal range is finite and differs from the number by a factor between
`(1 - u)^3` and `(1 + u)^3`, where `u` is `2^-24` for REAL and `2^-53` for LREAL. -/
theorem C124_square_of_root (x : Nat) :
    (x < 2 ^ 32 → IsFinite .f32 x → minNormal .f32 ≤ floatValue .f32 x →
      IsFinite .f32 (EXPT__REAL__DINT (SQRT__REAL x) 2) ∧ ∃ δ : ℝ,
        (floatValue .f32 (EXPT__REAL__DINT (SQRT__REAL x) 2) : ℝ) = floatValue .f32 x * δ ∧
        (1 - 1 / 2 ^ 24) ^ 3 ≤ δ ∧ δ ≤ (1 + 1 / 2 ^ 24) ^ 3) ∧
    (x < 2 ^ 64 → IsFinite .f64 x → minNormal .f64 ≤ floatValue .f64 x →
      IsFinite .f64 (EXPT__LREAL__DINT (SQRT__LREAL x) 2) ∧ ∃ δ : ℝ,
        (floatValue .f64 (EXPT__LREAL__DINT (SQRT__LREAL x) 2) : ℝ) = floatValue .f64 x * δ ∧
        (1 - 1 / 2 ^ 53) ^ 3 ≤ δ ∧ δ ≤ (1 + 1 / 2 ^ 53) ^ 3) := by
  constructor
  · intro hx hfx hlo
    have h0 : 0 < floatValue .f32 x := lt_of_lt_of_le (minNormal_units .f32 (.inl rfl)).2.2.1 hlo
    obtain ⟨n1, n2⟩ := (C89_nearest x).1 hx hfx h0.le
    have hmin : floatValue .f32 0x00800000 = minNormal .f32 := by
      rw [value_pos .f32 (.inl rfl) _ (by decide), show FloatFmt.f32.mag 0x00800000 = 2 ^ 23 by decide +kernel]
      exact_mod_cast (minNormal_units .f32 (.inl rfl)).1
    have hmin0 : (0 : ℚ) ≤ floatValue .f32 0x00800000 := by rw [hmin]; exact (minNormal_units .f32 (.inl rfl)).2.2.1.le
    have m1 := (C89_monotone 0x00800000 x).1 (by unfold IsFinite; decide) hfx hmin0 (by rw [hmin]; exact hlo)
    have m2 := (C89_monotone x 0x7F7FFFFF).1 hfx (by unfold IsFinite; decide) h0.le (value_le_max .f32 (.inl rfl) x _ hx hfx (by decide))
    rw [show SQRT__REAL 0x00800000 = 0x20000000 by decide +kernel] at m1
    rw [show SQRT__REAL 0x7F7FFFFF = 0x5F7FFFFF by decide +kernel] at m2
    have hr : floatValue .f32 0x20000000 ^ 2 = minNormal .f32 := by
      rw [value_pos .f32 (.inl rfl) _ (by decide), ← (minNormal_units .f32 (.inl rfl)).1]; decide +kernel
    have hr0 : (0 : ℚ) ≤ floatValue .f32 0x20000000 := by rw [value_pos .f32 (.inl rfl) _ (by decide)]; exact div_nonneg (Nat.cast_nonneg _) (pow_nonneg (by norm_num) _)
    obtain ⟨c1, δ, c2, c3, c4⟩ := square_root_err .f32 (.inl rfl) x _ 0x5F7FFFFF hx hfx h0 n1 n2 (by decide) (by decide +kernel) m2
      (by rw [← hr]; exact pow_le_pow_left₀ hr0 m1 2) (hr0.trans m1)
    have hu : (halfUlp .f32 : ℝ) = 1 / 2 ^ 24 := by norm_num [halfUlp, FloatFmt.f32]
    rw [hu] at c3 c4
    exact ⟨c1, δ, c2, c3, c4⟩
  · intro hx hfx hlo
    have h0 : 0 < floatValue .f64 x := lt_of_lt_of_le (minNormal_units .f64 (.inr rfl)).2.2.1 hlo
    obtain ⟨n1, n2⟩ := (C89_nearest x).2 hx hfx h0.le
    have hmin : floatValue .f64 0x0010000000000000 = minNormal .f64 := by
      rw [value_pos .f64 (.inr rfl) _ (by decide), show FloatFmt.f64.mag 0x0010000000000000 = 2 ^ 52 by decide +kernel]
      exact_mod_cast (minNormal_units .f64 (.inr rfl)).1
    have hmin0 : (0 : ℚ) ≤ floatValue .f64 0x0010000000000000 := by rw [hmin]; exact (minNormal_units .f64 (.inr rfl)).2.2.1.le
    have m1 := (C89_monotone 0x0010000000000000 x).2 (by unfold IsFinite; decide) hfx hmin0 (by rw [hmin]; exact hlo)
    have m2 := (C89_monotone x 0x7FEFFFFFFFFFFFFF).2 hfx (by unfold IsFinite; decide) h0.le (value_le_max .f64 (.inr rfl) x _ hx hfx (by decide))
    rw [show SQRT__LREAL 0x0010000000000000 = 0x2000000000000000 by decide +kernel] at m1
    rw [show SQRT__LREAL 0x7FEFFFFFFFFFFFFF = 0x5FEFFFFFFFFFFFFF by decide +kernel] at m2
    have hr : floatValue .f64 0x2000000000000000 ^ 2 = minNormal .f64 := by
      rw [value_pos .f64 (.inr rfl) _ (by decide), ← (minNormal_units .f64 (.inr rfl)).1]; decide +kernel
    have hr0 : (0 : ℚ) ≤ floatValue .f64 0x2000000000000000 := by rw [value_pos .f64 (.inr rfl) _ (by decide)]; exact div_nonneg (Nat.cast_nonneg _) (pow_nonneg (by norm_num) _)
    obtain ⟨c1, δ, c2, c3, c4⟩ := square_root_err .f64 (.inr rfl) x _ 0x5FEFFFFFFFFFFFFF hx hfx h0 n1 n2 (by decide) (by decide +kernel) m2
      (by rw [← hr]; exact pow_le_pow_left₀ hr0 m1 2) (hr0.trans m1)
    have hu : (halfUlp .f64 : ℝ) = 1 / 2 ^ 53 := by norm_num [halfUlp, FloatFmt.f64]
    rw [hu] at c3 c4
    exact ⟨c1, δ, c2, c3, c4⟩

/-- The square of the root of 2 is one ulp above 2, that of 3 one ulp below 3, that of 2.25 is exact; all three are in the normal range. -/
example : EXPT__LREAL__DINT (SQRT__LREAL 0x4000000000000000) 2 = 0x4000000000000001 ∧
    EXPT__LREAL__DINT (SQRT__LREAL 0x4008000000000000) 2 = 0x4007FFFFFFFFFFFF ∧
    EXPT__LREAL__DINT (SQRT__LREAL 0x4002000000000000) 2 = 0x4002000000000000 ∧ IsFinite .f64 0x4000000000000000 ∧
    floatValue .f64 0x4000000000000000 = 2 ∧ minNormal .f64 ≤ 2 := by
  refine ⟨by decide +kernel, by decide +kernel, by decide +kernel, by unfold IsFinite; decide, ?_, ?_⟩
  · rw [value_pos .f64 (.inr rfl) _ (by decide)]; decide +kernel
  · rw [← (minNormal_units .f64 (.inr rfl)).1]; decide +kernel

/-- The root of 2 as an LREAL, to which `C89_accuracy` applies, is not exact. -/
example : SQRT__LREAL 0x4000000000000000 = 0x3FF6A09E667F3BCD ∧ (0x4000000000000000 : Nat) < 2 ^ 64 ∧ IsFinite .f64 0x4000000000000000 := by
  refine ⟨by decide +kernel, by decide, by unfold IsFinite; decide⟩

/-- Subnormal numbers: `SQRT (2^-1074)` is exactly `2^-537`, and squaring the roots of `2^-1074` and `3 * 2^-1074` gives them back. -/
example : SQRT__LREAL 1 = 0x1E60000000000000 ∧ EXPT__LREAL__DINT (SQRT__LREAL 1) 2 = 1 ∧ EXPT__LREAL__DINT (SQRT__LREAL 3) 2 = 3 := by
  decide +kernel

end Verif
