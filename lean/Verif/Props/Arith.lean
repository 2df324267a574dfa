import Mathlib.Analysis.Real.Pi.Bounds
import Mathlib.Analysis.Complex.ExponentialBounds
import Verif.Proofs.FloatReal
import Verif.Proofs.FloatFormat
/-
C89, C90: SQRT and the constants.
-/
namespace Verif
open Spec

/-! ### C89: SQRT -/

private theorem value_sign (f : FloatFmt) (hf : IsFloatTy f) (x : Nat) (h0 : 0 ≤ floatValue f x) (hm : f.mag x ≠ 0) :
    f.neg x = false ∧ (floatValue f x : ℝ) = (f.mag x : ℝ) / 2 ^ f.qexp := by
  have hQ : (0 : ℚ) < 2 ^ f.qexp := by positivity
  have hp : (0 : ℚ) < f.mag x := by exact_mod_cast Nat.pos_of_ne_zero hm
  rw [f.floatValue_eq (ebits_of hf)] at h0 ⊢
  cases hn : f.neg x with
  | false => simp
  | true =>
    rw [hn, if_pos rfl] at h0
    have : (0 : ℚ) < (f.mag x : ℚ) / 2 ^ f.qexp := by positivity
    linarith

private theorem value_zero_iff (f : FloatFmt) (hf : IsFloatTy f) (x : Nat) : floatValue f x = 0 ↔ f.mag x = 0 := by
  rw [f.floatValue_eq (ebits_of hf)]
  have hQ : (2 : ℚ) ^ f.qexp ≠ 0 := by positivity
  split <;> simp [hQ]

private theorem sqrt_units (m q : Nat) : √((m : ℝ) / 2 ^ q) = √((m * 2 ^ q : ℕ) : ℝ) / 2 ^ q := by
  have hQ : (0 : ℝ) < 2 ^ q := by positivity
  rw [Real.sqrt_eq_iff_mul_self_eq (by positivity) (by positivity)]
  have : √((m * 2 ^ q : ℕ) : ℝ) * √((m * 2 ^ q : ℕ) : ℝ) = ((m * 2 ^ q : ℕ) : ℝ) := Real.mul_self_sqrt (by positivity)
  rw [div_mul_div_comm, this]
  push_cast; field_simp

/-- The root of a positive finite number. -/
private theorem sqrt_pos_case (f : FloatFmt) (hf : IsFloatTy f) (x : Nat) (hfin : IsFinite f x) (h0 : 0 < floatValue f x) :
    f.sqrt x = f.roundSqrt (f.mag x * 2 ^ f.qexp) ∧
    (√(floatValue f x : ℝ) = √((f.mag x * 2 ^ f.qexp : ℕ) : ℝ) / 2 ^ f.qexp) := by
  have hm : f.mag x ≠ 0 := fun h => by rw [(value_zero_iff f hf x).2 h] at h0; exact lt_irrefl _ h0
  obtain ⟨hn, hv⟩ := value_sign f hf x h0.le hm
  constructor
  · unfold FloatFmt.sqrt
    rw [hfin.nan, if_neg (by simp), if_neg hm, hn, if_neg (by simp), hfin.inf, if_neg (by simp)]
  · rw [hv, sqrt_units]

private theorem sqrt_nearest (f : FloatFmt) (hf : IsFloatTy f) (x : Nat) (hx : x < 2 ^ (1 + f.mbits + f.ebits))
    (hfin : IsFinite f x) (h0 : 0 ≤ floatValue f x) : IsNearestFloatR f √(floatValue f x : ℝ) (f.sqrt x) := by
  rcases eq_or_lt_of_le h0 with h | h
  · have hm := (value_zero_iff f hf x).1 h.symm
    have he : f.sqrt x = x := by
      unfold FloatFmt.sqrt; rw [hfin.nan, if_neg (by simp), if_pos hm]
    rw [he, ← h]
    refine ⟨hx, (not_isNaN_iff f x).2 hfin.nan, fun y _ _ => ?_⟩
    rw [← h]
    simp only [Rat.cast_zero, Real.sqrt_zero, sub_zero, abs_zero, zero_sub, abs_neg]
    refine ⟨abs_nonneg _, fun e => .inl ?_⟩
    have := abs_eq_zero.1 e.symm
    exact_mod_cast this
  · obtain ⟨e1, e2⟩ := sqrt_pos_case f hf x hfin h
    rw [e1, e2]
    exact f.roundSqrt_nearest (stdFmt hf) _

private theorem finite_lt_inf (f : FloatFmt) (hf : IsFloatTy f) (y : Nat) (hy : y < 2 ^ (1 + f.mbits + f.ebits))
    (hyf : IsFinite f y) : floatValue f y < floatValue f f.inf := by
  have hQ : (0 : ℚ) < 2 ^ f.qexp := by positivity
  have hstd := stdFmt hf
  have hi := f.floatValue_withSign hstd.eb false f.inf f.inf_lt'
  have ew : f.withSign false f.inf = f.inf := by unfold FloatFmt.withSign; simp
  rw [ew, if_neg (by simp)] at hi
  have ey := f.eq_withSign y hy
  have sp := f.withSign_spec (f.neg y) _ (f.abs_lt y)
  rw [← ey] at sp
  have hab : f.abs y < f.inf := by
    have n1 := f.nan_iff _ (f.abs_lt y)
    have a1 := hyf.nan
    have a2 := hyf.inf
    rw [sp.2.2.1] at a1
    rw [sp.2.2.2.1] at a2
    rcases Nat.lt_trichotomy (f.abs y) f.inf with h | h | h
    · exact h
    · have := n1.2.2 h; rw [a2] at this; cases this
    · have := n1.1.2 h; rw [a1] at this; cases this
  have hm := mag_lt_inf f _ hab
  rw [← sp.2.1] at hm
  have hm' : (f.mag y : ℚ) < f.mag f.inf := by exact_mod_cast hm
  have h1 : (f.mag y : ℚ) / 2 ^ f.qexp < (f.mag f.inf : ℚ) / 2 ^ f.qexp := by
    rw [div_lt_div_iff_of_pos_right hQ]; exact hm'
  have h2 : (0 : ℚ) ≤ (f.mag y : ℚ) / 2 ^ f.qexp := by positivity
  rw [hi, f.floatValue_eq hstd.eb]
  split <;> linarith

private theorem one_pattern (f : FloatFmt) (hf : IsFloatTy f) :
    ∃ o, o < 2 ^ (1 + f.mbits + f.ebits) ∧ IsFinite f o ∧ floatValue f o = 1 := by
  rcases hf with rfl | rfl
  · exact ⟨0x3F800000, by decide, by unfold IsFinite; decide, by norm_num [floatValue, FloatFmt.f32]⟩
  · exact ⟨0x3FF0000000000000, by decide, by unfold IsFinite; decide, by norm_num [floatValue, FloatFmt.f64]⟩

/-- The root of a finite number is finite. -/
private theorem sqrt_finite (f : FloatFmt) (hf : IsFloatTy f) (x : Nat) (hx : x < 2 ^ (1 + f.mbits + f.ebits))
    (hfin : IsFinite f x) (h0 : 0 ≤ floatValue f x) : IsFinite f (f.sqrt x) := by
  rcases eq_or_lt_of_le h0 with h | h
  · have hm := (value_zero_iff f hf x).1 h.symm
    have he : f.sqrt x = x := by
      unfold FloatFmt.sqrt; rw [hfin.nan, if_neg (by simp), if_pos hm]
    rw [he]; exact hfin
  obtain ⟨e1, -⟩ := sqrt_pos_case f hf x hfin h
  have hle := f.roundSqrt_le_inf (f.mag x * 2 ^ f.qexp)
  rcases Nat.lt_or_ge (f.roundSqrt (f.mag x * 2 ^ f.qexp)) f.inf with hlt | hge
  · rw [e1]
    exact IsFinite.mk (f.finite_of_lt_inf hlt).1 (f.finite_of_lt_inf hlt).2
  · exfalso
    have hnear := sqrt_nearest f hf x hx hfin h0
    have heq : f.sqrt x = f.inf := by rw [e1]; omega
    rw [heq] at hnear
    -- the larger one of the number and 1 is nearer to the root than infinity
    have key : ∀ y, y < 2 ^ (1 + f.mbits + f.ebits) → IsFinite f y → √(floatValue f x : ℝ) ≤ floatValue f y → False := by
      intro y hy hyf hle
      have hlt : (floatValue f y : ℝ) < floatValue f f.inf := by exact_mod_cast finite_lt_inf f hf y hy hyf
      have h1 := (hnear.2.2 y hy ((not_isNaN_iff f y).2 hyf.nan)).1
      rw [abs_le_mid] at h1
      have := h1.2 hlt
      linarith
    rcases le_total (floatValue f x) 1 with hv | hv
    · obtain ⟨o, o1, o2, o3⟩ := one_pattern f hf
      refine key o o1 o2 ?_
      rw [o3, Rat.cast_one, Real.sqrt_le_left zero_le_one, one_pow]
      exact_mod_cast hv
    · refine key x hx hfin ?_
      rw [Real.sqrt_le_left (by exact_mod_cast h0)]
      have hv' : (1 : ℝ) ≤ floatValue f x := by exact_mod_cast hv
      nlinarith

/-- **C89.** SQRT of a finite number that is not negative is the float nearest to the square root, and finite. -/
theorem C89_nearest (x : Nat) :
    (x < 2 ^ 32 → IsFinite .f32 x → 0 ≤ floatValue .f32 x →
      IsNearestFloatR .f32 √(floatValue .f32 x : ℝ) (SQRT__REAL x) ∧ IsFinite .f32 (SQRT__REAL x)) ∧
    (x < 2 ^ 64 → IsFinite .f64 x → 0 ≤ floatValue .f64 x →
      IsNearestFloatR .f64 √(floatValue .f64 x : ℝ) (SQRT__LREAL x) ∧ IsFinite .f64 (SQRT__LREAL x)) :=
  ⟨fun h1 h2 h3 => ⟨sqrt_nearest .f32 (.inl rfl) x h1 h2 h3, sqrt_finite .f32 (.inl rfl) x h1 h2 h3⟩,
   fun h1 h2 h3 => ⟨sqrt_nearest .f64 (.inr rfl) x h1 h2 h3, sqrt_finite .f64 (.inr rfl) x h1 h2 h3⟩⟩

private theorem sqrt_special (f : FloatFmt) (hf : IsFloatTy f) (x : Nat) :
    (IsNaN f x → IsNaN f (f.sqrt x)) ∧
    (IsFinite f x → floatValue f x = 0 → f.sqrt x = x) ∧
    (¬ IsNaN f x → floatValue f x < 0 → IsNaN f (f.sqrt x)) ∧
    (¬ IsNaN f x → ¬ IsFinite f x → ¬ SignBit f x → f.sqrt x = x) := by
  have hnan : IsNaN f f.nan := (isNaN_iff f _).2 (f.nan_spec (stdFmt hf).m1)
  unfold FloatFmt.sqrt
  refine ⟨?_, ?_, ?_, ?_⟩
  · intro h
    rw [if_pos ((isNaN_iff f x).1 h)]; exact hnan
  · intro h h0
    rw [h.nan, if_neg (by simp), if_pos ((value_zero_iff f hf x).1 h0)]
  · intro h h0
    rw [(not_isNaN_iff f x).1 h, if_neg (by simp), if_neg (fun hm => by rw [(value_zero_iff f hf x).2 hm] at h0; exact lt_irrefl _ h0)]
    have hn : f.neg x = true := by
      rw [f.floatValue_eq (ebits_of hf)] at h0
      cases hn : f.neg x with
      | true => rfl
      | false =>
        rw [hn, if_neg (by simp)] at h0
        have : (0 : ℚ) ≤ (f.mag x : ℚ) / 2 ^ f.qexp := by positivity
        linarith
    rw [hn, if_pos rfl]; exact hnan
  · intro h1 h2 h3
    rw [(not_isNaN_iff f x).1 h1, if_neg (by simp)]
    have hi : f.is_infinite x = true := by
      cases hi : f.is_infinite x with
      | true => rfl
      | false => exact absurd (IsFinite.mk ((not_isNaN_iff f x).1 h1) hi) h2
    have hn : f.neg x = false := by
      cases hn : f.neg x with
      | false => rfl
      | true => exact absurd (by unfold FloatFmt.neg at hn; exact of_decide_eq_true hn) h3
    rw [hn, hi]
    split
    · rfl
    · simp

/-- **C89**, the other cases: NaN gives NaN, a zero itself (with its sign), a negative number or negative infinity NaN,
infinity itself. -/
theorem C89_special (x : Nat) :
    ((IsNaN .f32 x → IsNaN .f32 (SQRT__REAL x)) ∧
      (IsFinite .f32 x → floatValue .f32 x = 0 → SQRT__REAL x = x) ∧
      (¬ IsNaN .f32 x → floatValue .f32 x < 0 → IsNaN .f32 (SQRT__REAL x)) ∧
      (¬ IsNaN .f32 x → ¬ IsFinite .f32 x → ¬ SignBit .f32 x → SQRT__REAL x = x)) ∧
    ((IsNaN .f64 x → IsNaN .f64 (SQRT__LREAL x)) ∧
      (IsFinite .f64 x → floatValue .f64 x = 0 → SQRT__LREAL x = x) ∧
      (¬ IsNaN .f64 x → floatValue .f64 x < 0 → IsNaN .f64 (SQRT__LREAL x)) ∧
      (¬ IsNaN .f64 x → ¬ IsFinite .f64 x → ¬ SignBit .f64 x → SQRT__LREAL x = x)) :=
  ⟨sqrt_special .f32 (.inl rfl) x, sqrt_special .f64 (.inr rfl) x⟩

private theorem value_nonneg_of_le_inf (f : FloatFmt) (hf : IsFloatTy f) (p : Nat) (hp : p < 2 ^ (f.mbits + f.ebits)) :
    f.neg p = false ∧ floatValue f p = (f.mag p : ℚ) / 2 ^ f.qexp := by
  have e : f.withSign false p = p := by unfold FloatFmt.withSign; simp
  have h1 := f.floatValue_withSign (ebits_of hf) false p hp
  have h2 := (f.withSign_spec false p hp).1
  rw [e] at h1 h2
  exact ⟨h2, by simpa using h1⟩

private theorem sqrt_exact (f : FloatFmt) (hf : IsFloatTy f) (x y : Nat) (hx : x < 2 ^ (1 + f.mbits + f.ebits))
    (hy : y < 2 ^ (1 + f.mbits + f.ebits)) (hfx : IsFinite f x) (hfy : IsFinite f y) (hv : floatValue f x = floatValue f y ^ 2)
    (h0 : 0 < floatValue f y) : f.sqrt x = y := by
  have hx0 : 0 < floatValue f x := by rw [hv]; positivity
  have hnear := sqrt_nearest f hf x hx hfx hx0.le
  have hroot : √(floatValue f x : ℝ) = floatValue f y := by
    rw [hv]; push_cast; exact Real.sqrt_sq (by exact_mod_cast h0.le)
  rw [hroot] at hnear
  have h1 := (hnear.2.2 y hy ((not_isNaN_iff f y).2 hfy.nan)).1
  rw [sub_self, abs_zero] at h1
  have h2 : floatValue f (f.sqrt x) = floatValue f y := by
    have := abs_eq_zero.1 (le_antisymm h1 (abs_nonneg _))
    have h3 : (floatValue f y : ℝ) = floatValue f (f.sqrt x) := by linarith
    exact_mod_cast h3.symm
  refine pattern_ext f (ebits_of hf) _ _ hnear.1 hy ?_ h2
  obtain ⟨e1, -⟩ := sqrt_pos_case f hf x hfx hx0
  have hlt : f.roundSqrt (f.mag x * 2 ^ f.qexp) < 2 ^ (f.mbits + f.ebits) :=
    lt_of_le_of_lt (f.roundSqrt_le_inf _) f.inf_lt'
  rw [e1, (value_nonneg_of_le_inf f hf _ hlt).1]
  have hmy : f.mag y ≠ 0 := fun h => by rw [(value_zero_iff f hf y).2 h] at h0; exact lt_irrefl _ h0
  exact (value_sign f hf y h0.le hmy).1.symm

/-- **C89**, SQRT of a square is exact. -/
theorem C89_square (x y : Nat) :
    (x < 2 ^ 32 → y < 2 ^ 32 → IsFinite .f32 x → IsFinite .f32 y → floatValue .f32 x = floatValue .f32 y ^ 2 →
      0 < floatValue .f32 y → SQRT__REAL x = y) ∧
    (x < 2 ^ 64 → y < 2 ^ 64 → IsFinite .f64 x → IsFinite .f64 y → floatValue .f64 x = floatValue .f64 y ^ 2 →
      0 < floatValue .f64 y → SQRT__LREAL x = y) :=
  ⟨sqrt_exact .f32 (.inl rfl) x y, sqrt_exact .f64 (.inr rfl) x y⟩

private theorem sqrt_mono (f : FloatFmt) (hf : IsFloatTy f) (x y : Nat) (hfx : IsFinite f x) (hfy : IsFinite f y)
    (h0 : 0 ≤ floatValue f x) (hxy : floatValue f x ≤ floatValue f y) :
    floatValue f (f.sqrt x) ≤ floatValue f (f.sqrt y) := by
  have hpos : ∀ z, IsFinite f z → 0 < floatValue f z →
      floatValue f (f.sqrt z) = (f.mag (f.roundSqrt (f.mag z * 2 ^ f.qexp)) : ℚ) / 2 ^ f.qexp := by
    intro z hz hz0
    rw [(sqrt_pos_case f hf z hz hz0).1]
    exact (value_nonneg_of_le_inf f hf _ (lt_of_le_of_lt (f.roundSqrt_le_inf _) f.inf_lt')).2
  have hzero : ∀ z, IsFinite f z → floatValue f z = 0 → floatValue f (f.sqrt z) = 0 := by
    intro z hz hz0
    rw [(sqrt_special f hf z).2.1 hz hz0, hz0]
  rcases eq_or_lt_of_le h0 with h | h
  · rw [hzero x hfx h.symm]
    rcases eq_or_lt_of_le (h0.trans hxy) with h' | h'
    · rw [hzero y hfy h'.symm]
    · rw [hpos y hfy h']; positivity
  · have h' := lt_of_lt_of_le h hxy
    rw [hpos x hfx h, hpos y hfy h']
    have hm : f.mag x ≤ f.mag y := by
      have hmx : f.mag x ≠ 0 := fun e => by rw [(value_zero_iff f hf x).2 e] at h; exact lt_irrefl _ h
      have hmy : f.mag y ≠ 0 := fun e => by rw [(value_zero_iff f hf y).2 e] at h'; exact lt_irrefl _ h'
      have a := (value_sign f hf x h.le hmx).2
      have b := (value_sign f hf y h'.le hmy).2
      have c : (floatValue f x : ℝ) ≤ floatValue f y := by exact_mod_cast hxy
      rw [a, b, div_le_div_iff_of_pos_right (by positivity)] at c
      exact_mod_cast c
    have hr := f.roundSqrt_mono (stdFmt hf) _ _ (Nat.mul_le_mul_right (2 ^ f.qexp) hm)
    have hle := f.roundSqrt_le_inf (f.mag y * 2 ^ f.qexp)
    have := f.mag_le hr (lt_of_le_of_lt hle f.inf_lt)
    have hc : (f.mag (f.roundSqrt (f.mag x * 2 ^ f.qexp)) : ℚ) ≤ f.mag (f.roundSqrt (f.mag y * 2 ^ f.qexp)) := by
      exact_mod_cast this
    gcongr

/-- **C89**, SQRT is monotone. -/
theorem C89_monotone (x y : Nat) :
    (IsFinite .f32 x → IsFinite .f32 y → 0 ≤ floatValue .f32 x → floatValue .f32 x ≤ floatValue .f32 y →
      floatValue .f32 (SQRT__REAL x) ≤ floatValue .f32 (SQRT__REAL y)) ∧
    (IsFinite .f64 x → IsFinite .f64 y → 0 ≤ floatValue .f64 x → floatValue .f64 x ≤ floatValue .f64 y →
      floatValue .f64 (SQRT__LREAL x) ≤ floatValue .f64 (SQRT__LREAL y)) :=
  ⟨sqrt_mono .f32 (.inl rfl) x y, sqrt_mono .f64 (.inr rfl) x y⟩

/-- The root of 2; of 6.25; of -1; of the smallest subnormal LREAL `2^-1074`, which is `2^-537`. -/
example : SQRT__LREAL 0x4000000000000000 = 0x3FF6A09E667F3BCD ∧ SQRT__LREAL 0x4019000000000000 = 0x4004000000000000 ∧
    SQRT__REAL 0x40000000 = 0x3FB504F3 ∧ SQRT__LREAL 0xBFF0000000000000 = FloatFmt.f64.nan ∧
    SQRT__LREAL 1 = 0x1E60000000000000 ∧ SQRT__LREAL 0x8000000000000000 = 0x8000000000000000 := by decide +kernel
example : (0x4019000000000000 : Nat) < 2 ^ 64 ∧ IsFinite .f64 0x4019000000000000 ∧
    floatValue .f64 0x4019000000000000 = floatValue .f64 0x4004000000000000 ^ 2 ∧ 0 < floatValue .f64 0x4004000000000000 := by
  refine ⟨by norm_num, by unfold IsFinite; decide, ?_, ?_⟩ <;> norm_num [floatValue, FloatFmt.f64]

/-! ### C90: the constants -/

private theorem decimal_nearest (f : FloatFmt) (hf : IsFloatTy f) (m k : Nat) :
    IsNearestFloatR f ((m : ℝ) / 10 ^ k) (f.roundMag (m * 2 ^ f.qexp) (10 ^ k)) := by
  have h := f.round_signed (stdFmt hf) false (m * 2 ^ f.qexp) (10 ^ k) (by positivity) ((m : ℚ) / 10 ^ k) (by
    simp only [Bool.false_eq_true, if_false]
    push_cast; field_simp)
  rw [← isNearestFloatR_rat] at h
  have e : f.withSign false (f.roundMag (m * 2 ^ f.qexp) (10 ^ k)) = f.roundMag (m * 2 ^ f.qexp) (10 ^ k) := by
    unfold FloatFmt.withSign; simp
  rw [e] at h
  push_cast at h
  exact h

/-- A number between two decimals that are rounded to `r`. -/
private theorem between_decimals (f : FloatFmt) (hf : IsFloatTy f) (v : ℝ) (k a b r : Nat)
    (ha : f.roundMag (a * 2 ^ f.qexp) (10 ^ k) = r) (hb : f.roundMag (b * 2 ^ f.qexp) (10 ^ k) = r)
    (h1 : (a : ℝ) / 10 ^ k ≤ v) (h2 : v ≤ (b : ℝ) / 10 ^ k) : IsNearestFloatR f v r := by
  have na := decimal_nearest f hf a k
  have nb := decimal_nearest f hf b k
  rw [ha] at na
  rw [hb] at nb
  exact nearest_between f _ _ v r na nb h1 h2

/-- **C90.** PI_REAL and PI_LREAL are the floats nearest to π, FRAC_PI_2_x to π/2, FRAC_PI_4_x to π/4, E_x to e. -/
theorem C90_constants :
    IsNearestFloatR .f32 Real.pi PI_REAL ∧ IsNearestFloatR .f64 Real.pi PI_LREAL ∧
    IsNearestFloatR .f32 (Real.pi / 2) FRAC_PI_2_REAL ∧ IsNearestFloatR .f64 (Real.pi / 2) FRAC_PI_2_LREAL ∧
    IsNearestFloatR .f32 (Real.pi / 4) FRAC_PI_4_REAL ∧ IsNearestFloatR .f64 (Real.pi / 4) FRAC_PI_4_LREAL ∧
    IsNearestFloatR .f32 (Real.exp 1) E_REAL ∧ IsNearestFloatR .f64 (Real.exp 1) E_LREAL := by
  have p1 := Real.pi_gt_d20
  have p2 := Real.pi_lt_d20
  have e1 := abs_le.1 Real.exp_one_near_20
  refine ⟨?_, ?_, ?_, ?_, ?_, ?_, ?_, ?_⟩
  · exact between_decimals .f32 (.inl rfl) _ 20 314159265358979323846 314159265358979323847 _ (by decide +kernel) (by decide +kernel)
      (by norm_num at p1 ⊢; linarith) (by norm_num at p2 ⊢; linarith)
  · exact between_decimals .f64 (.inr rfl) _ 20 314159265358979323846 314159265358979323847 _ (by decide +kernel) (by decide +kernel)
      (by norm_num at p1 ⊢; linarith) (by norm_num at p2 ⊢; linarith)
  · exact between_decimals .f32 (.inl rfl) _ 20 157079632679489661923 157079632679489661924 _ (by decide +kernel) (by decide +kernel)
      (by norm_num at p1 ⊢; linarith) (by norm_num at p2 ⊢; linarith)
  · exact between_decimals .f64 (.inr rfl) _ 20 157079632679489661923 157079632679489661924 _ (by decide +kernel) (by decide +kernel)
      (by norm_num at p1 ⊢; linarith) (by norm_num at p2 ⊢; linarith)
  · exact between_decimals .f32 (.inl rfl) _ 20 78539816339744830961 78539816339744830962 _ (by decide +kernel) (by decide +kernel)
      (by norm_num at p1 ⊢; linarith) (by norm_num at p2 ⊢; linarith)
  · exact between_decimals .f64 (.inr rfl) _ 20 78539816339744830961 78539816339744830962 _ (by decide +kernel) (by decide +kernel)
      (by norm_num at p1 ⊢; linarith) (by norm_num at p2 ⊢; linarith)
  · exact between_decimals .f32 (.inl rfl) _ 19 27182818284590452353 27182818284590452354 _ (by decide +kernel) (by decide +kernel)
      (by norm_num at e1 ⊢; linarith [e1.1]) (by norm_num at e1 ⊢; linarith [e1.2])
  · exact between_decimals .f64 (.inr rfl) _ 19 27182818284590452353 27182818284590452354 _ (by decide +kernel) (by decide +kernel)
      (by norm_num at e1 ⊢; linarith [e1.1]) (by norm_num at e1 ⊢; linarith [e1.2])

/-- The bit patterns. -/
example : PI_REAL = 0x40490FDB ∧ PI_LREAL = 0x400921FB54442D18 ∧ FRAC_PI_2_REAL = 0x3FC90FDB ∧
    FRAC_PI_2_LREAL = 0x3FF921FB54442D18 ∧ FRAC_PI_4_REAL = 0x3F490FDB ∧ FRAC_PI_4_LREAL = 0x3FE921FB54442D18 ∧
    E_REAL = 0x402DF854 ∧ E_LREAL = 0x4005BF0A8B145769 := by decide +kernel

end Verif
