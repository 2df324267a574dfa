import Verif.Props.Expt
import Verif.Props.TimeScaling
/-
C130: where multiplying TIME by REAL or LREAL and dividing by it is exact.
-/
namespace Verif
open FloatFmt StdDuration

/-- If the exact product is a whole number of nanoseconds and fits, it is the result. -/
def ExactScaling (f : FloatFmt) (r : DurRounding) : Prop :=
  ∀ (a m : Int) (x : Nat), IntTy.i64.InRange a → IntTy.i64.InRange m → IsFinite f x → (a : ℚ) * floatValue f x = m →
    MUL_TIME_FLOAT f r a x = .ok m

/-- **C130 is false of the code**: T#123.456789123s * REAL#1.0 is 123.456787109 s, 2^60 + 1 ns times LREAL#1.0 is 2^60 ns, and
with a standard library that truncates 3 ns times LREAL#1.0 is 2 ns. -/
theorem C130_refuted : ∀ (f : FloatFmt) (r : DurRounding), IsFloatTy f → ¬ ExactScaling f r := by
  have one32 : floatValue .f32 0x3f800000 = 1 := by norm_num [floatValue, FloatFmt.f32]
  have one64 : floatValue .f64 0x3FF0000000000000 = 1 := by norm_num [floatValue, FloatFmt.f64]
  have f32 : IsFinite .f32 0x3f800000 := by unfold IsFinite; decide
  have f64 : IsFinite .f64 0x3FF0000000000000 := by unfold IsFinite; decide
  rintro f r (rfl | rfl) h
  · have := h 123456789123 123456789123 0x3f800000 (by decide) (by decide) f32 (by rw [one32]; norm_num)
    revert this
    cases r <;> decide +kernel
  · have := h (2 ^ 60 + 1) (2 ^ 60 + 1) 0x3FF0000000000000 (by decide) (by decide) f64 (by rw [one64]; norm_num)
    revert this
    cases r <;> decide +kernel

example : MUL_TIME_FLOAT .f64 .trunc 3 0x3FF0000000000000 = .ok 2 ∧ MUL_TIME_FLOAT .f64 .nearestEven 3 0x3FF0000000000000 = .ok 3 := by
  decide +kernel

private theorem int_of_close {n m : Int} (h : |(n : ℚ) - m| < 1) : n = m := by
  have : ((|n - m| : ℤ) : ℚ) < 1 := by push_cast; exact h
  have : |n - m| < 1 := by exact_mod_cast this
  have := abs_lt.1 this
  omega

private theorem small_fits {f : FloatFmt} (hf : IsFloatTy f) {m : Int} (hm : 10 * halfUlp f * |(m : ℚ)| < 1) : |(m : ℚ)| < 2 ^ 60 := by
  have hp : (0 : ℚ) ≤ |(m : ℚ)| := abs_nonneg _
  rcases hf with rfl | rfl
  · norm_num [halfUlp, FloatFmt.f32] at *; linarith
  · norm_num [halfUlp, FloatFmt.f64] at *; linarith

/-- **C130**, MUL: if the exact product is a whole number of nanoseconds below a tenth of 2^53 (LREAL: ten days) or 2^24 (REAL: 1.6 ms),
it is the result; with a standard library that truncates the result is at most one nanosecond off. -/
theorem C130_mul_partial (f : FloatFmt) (hf : IsFloatTy f) (a m : Int) (x : Nat) (ha : IntTy.i64.InRange a) (hx : IsFinite f x)
    (he : (a : ℚ) * floatValue f x = m) (hm : 10 * halfUlp f * |(m : ℚ)| < 1) :
    MUL_TIME_FLOAT f .nearestEven a x = .ok m ∧ ∃ n, MUL_TIME_FLOAT f .trunc a x = .ok n ∧ |n - m| ≤ 1 := by
  have hb := small_fits hf hm
  constructor
  · obtain ⟨h1, h2⟩ := C72_mul_accuracy f hf .nearestEven a ha x hx
    rw [he, if_neg (by decide)] at h1 h2
    obtain ⟨n, hn⟩ := h2 (by norm_num at *; linarith)
    have := h1 n hn
    rw [hn, int_of_close (lt_of_le_of_lt this (by linarith))]
  · obtain ⟨h1, h2⟩ := C72_mul_accuracy f hf .trunc a ha x hx
    rw [he, if_pos rfl] at h1 h2
    obtain ⟨n, hn⟩ := h2 (by norm_num at *; linarith)
    refine ⟨n, hn, ?_⟩
    have h3 := h1 n hn
    have h4 : ((|n - m| : ℤ) : ℚ) < 2 := by push_cast; linarith
    have : |n - m| < 2 := by exact_mod_cast h4
    omega

/-- **C130**, DIV. -/
theorem C130_div_partial (f : FloatFmt) (hf : IsFloatTy f) (a m : Int) (x : Nat) (ha : IntTy.i64.InRange a) (hx : IsFinite f x)
    (h0 : floatValue f x ≠ 0) (he : (a : ℚ) / floatValue f x = m) (hm : 10 * halfUlp f * |(m : ℚ)| < 1) :
    DIV_TIME_FLOAT f .nearestEven a x = .ok m ∧ ∃ n, DIV_TIME_FLOAT f .trunc a x = .ok n ∧ |n - m| ≤ 1 := by
  have hb := small_fits hf hm
  constructor
  · obtain ⟨h1, h2⟩ := C73_div_accuracy f hf .nearestEven a ha x hx h0
    rw [he, if_neg (by decide)] at h1 h2
    obtain ⟨n, hn⟩ := h2 (by norm_num at *; linarith)
    have := h1 n hn
    rw [hn, int_of_close (lt_of_le_of_lt this (by linarith))]
  · obtain ⟨h1, h2⟩ := C73_div_accuracy f hf .trunc a ha x hx h0
    rw [he, if_pos rfl] at h1 h2
    obtain ⟨n, hn⟩ := h2 (by norm_num at *; linarith)
    refine ⟨n, hn, ?_⟩
    have h3 := h1 n hn
    have h4 : ((|n - m| : ℤ) : ℚ) < 2 := by push_cast; linarith
    have : |n - m| < 2 := by exact_mod_cast h4
    omega

/-! ### Whole seconds -/

private theorem goodFmt' {f : FloatFmt} (h : IsFloatTy f) : GoodFmt f := by
  rcases h with rfl | rfl
  · exact good_f32
  · exact good_f64

private theorem abs_finite {f : FloatFmt} {x : Nat} (h : IsFinite f x) : f.abs x < f.inf := by
  have h1 := h
  unfold IsFinite at h1
  have h2 : f.abs x / 2 ^ f.mbits = x / 2 ^ f.mbits % 2 ^ f.ebits := by
    unfold FloatFmt.abs
    rw [Nat.pow_add, Nat.mod_mul_right_div_self]
  have h3 : f.abs x / 2 ^ f.mbits < 2 ^ f.ebits - 1 := by
    rw [h2]
    have := Nat.mod_lt (x / 2 ^ f.mbits) (Nat.two_pow_pos f.ebits)
    omega
  have h4 := (Nat.div_lt_iff_lt_mul (Nat.two_pow_pos f.mbits)).1 h3
  unfold FloatFmt.inf FloatFmt.emax
  exact h4

private theorem mag_abs (f : FloatFmt) (x : Nat) : f.mag (f.abs x) = f.mag x := by
  unfold mag signif expo frac FloatFmt.abs
  rw [Nat.pow_add, Nat.mod_mul_right_div_self, Nat.mod_mod, Nat.mod_mod_of_dvd _ (Nat.dvd_mul_right _ _)]

private theorem abs_value {f : FloatFmt} (hf : IsFloatTy f) (x : Nat) : |floatValue f x| = (f.mag x : ℚ) / 2 ^ f.qexp := by
  have hx0 : (0 : ℚ) ≤ (f.mag x : ℚ) / 2 ^ f.qexp := by positivity
  rw [f.floatValue_eq (stdFmt hf).eb]
  split
  · rw [abs_neg, abs_of_nonneg hx0]
  · exact abs_of_nonneg hx0

private theorem value_neg {f : FloatFmt} (hf : IsFloatTy f) (x : Nat) :
    floatValue f x = if f.neg x then -|floatValue f x| else |floatValue f x| := by
  rw [abs_value hf]; exact f.floatValue_eq (stdFmt hf).eb x

private theorem rne_exact (k d : Nat) (hd : 0 < d) : rne (k * d) d = k := by
  obtain ⟨h1, h2, -, -⟩ := rne_bounds (k * d) d hd
  rcases Nat.lt_trichotomy (rne (k * d) d) k with h | h | h
  · have : (rne (k * d) d + 1) * d ≤ k * d := Nat.mul_le_mul_right _ h
    rw [Nat.add_mul] at this; omega
  · exact h
  · have : (k + 1) * d ≤ rne (k * d) d * d := Nat.mul_le_mul_right _ h
    rw [Nat.add_mul] at this; omega

private theorem nanos_exact (r : DurRounding) (k d : Nat) (hd : 0 < d) : roundNanos r (k * d) d = k := by
  cases r
  · exact Nat.mul_div_cancel _ hd
  · exact rne_exact k d hd

private theorem secs_exact {f : FloatFmt} (hf : IsFloatTy f) (s : Nat) (hs : s * 1000000000 ≤ 2 ^ 63) (w : Nat) (hw : IsFinite f w)
    (hv : |floatValue f w| = s) : as_secs f (s * 1000000000) = f.abs w := by
  have g := goodFmt' hf
  have hm : f.mag (f.abs w) = s * 2 ^ f.qexp := by
    rw [mag_abs]
    rw [abs_value hf, div_eq_iff (by positivity)] at hv
    exact_mod_cast hv
  have he : f.ofNat s = f.abs w := by
    unfold FloatFmt.ofNat
    exact f.roundMag_exact g.std.m1 g.std.e2 _ 1 _ (by decide) (abs_finite hw).le (by rw [hm, Nat.mul_one])
  have h0 : f.ofNat 0 = 0 := by
    unfold FloatFmt.ofNat; rw [Nat.zero_mul]; exact g.round_zero 1
  rw [g.as_secs_eq _ hs, Nat.mul_div_cancel _ (by decide), Nat.mul_mod_left, h0, GoodFmt.mag_zero, Nat.zero_mul, g.round_zero,
    GoodFmt.mag_zero, Nat.add_zero, he]
  exact f.roundMag_exact g.std.m1 g.std.e2 _ 1 _ (by decide) (abs_finite hw).le (by rw [Nat.mul_one])

private theorem from_exact {f : FloatFmt} (hf : IsFloatTy f) (r : DurRounding) (y k : Nat) (hy : IsFinite f y)
    (hv : |floatValue f y| * 1000000000 = k) (hk : k < 2 ^ 63) : from_secs f r (f.abs y) = .ok k := by
  obtain ⟨a, b⟩ := f.finite_of_lt_inf (abs_finite hy)
  have hm : f.mag (f.abs y) * 1000000000 = k * 2 ^ f.qexp := by
    rw [mag_abs]
    rw [abs_value hf, div_mul_eq_mul_div, div_eq_iff (by positivity)] at hv
    exact_mod_cast hv
  unfold from_secs
  rw [a, b, if_neg (by simp), if_neg, hm, nanos_exact _ _ _ (Nat.two_pow_pos _)]
  intro h
  have h1 : 2 ^ 64 * 2 ^ f.qexp * 1000000000 ≤ k * 2 ^ f.qexp := by rw [← hm]; exact Nat.mul_le_mul_right _ h
  have h2 : k * 2 ^ f.qexp ≤ 2 ^ 63 * 2 ^ f.qexp := Nat.mul_le_mul_right _ hk.le
  have := Nat.two_pow_pos f.qexp
  generalize 2 ^ f.qexp = Q at *
  omega

private theorem signed_exact {f : FloatFmt} (hf : IsFloatTy f) (a m : Int) (x : Nat) (hm : |m| < 2 ^ 63)
    (hs : (0 < (a : ℚ) * floatValue f x → 0 ≤ m) ∧ ((a : ℚ) * floatValue f x < 0 → m ≤ 0) ∧ ((a : ℚ) * floatValue f x = 0 → m = 0)) :
    signedResult (decide (a < 0)) (f.neg x) (.ok m.natAbs) = .ok m := by
  have hr : IntTy.i64.InRange (m.natAbs : Int) := by
    have := abs_lt.1 hm
    have e1 : IntTy.i64.lo = -2 ^ 63 := by decide
    have e2 : IntTy.i64.hi = 2 ^ 63 - 1 := by decide
    unfold IntTy.InRange
    rw [e1, e2]
    omega
  have e : signedResult (decide (a < 0)) (f.neg x) (.ok m.natAbs) =
      .ok (if xor (decide (a < 0)) (f.neg x) then -(m.natAbs : Int) else m.natAbs) := by
    unfold signedResult IntTy.checked
    simp only [hr, if_true, Res.bind_ok, Res.unwrap]
    rfl
  rw [e]
  congr 1
  have hp : (0 : ℚ) ≤ |floatValue f x| := abs_nonneg _
  have hv := value_neg hf x
  rcases hp.eq_or_lt with h0 | h0
  · have : floatValue f x = 0 := abs_eq_zero.1 h0.symm
    have : m = 0 := hs.2.2 (by rw [this, mul_zero])
    subst this; simp
  · by_cases ha : a < 0
    · have ha' : (a : ℚ) < 0 := by exact_mod_cast ha
      cases hx : f.neg x
      · rw [hx] at hv
        simp only [Bool.false_eq_true, if_false] at hv
        have := hs.2.1 (mul_neg_of_neg_of_pos ha' (by rw [hv]; exact h0))
        rw [if_pos (by simp [ha])]; omega
      · rw [hx] at hv
        simp only [if_true] at hv
        have := hs.1 (mul_pos_of_neg_of_neg ha' (by rw [hv]; linarith))
        rw [if_neg (by simp [ha])]; omega
    · rcases Int.lt_or_eq_of_le (not_lt.1 ha) with ha0 | ha0
      · have ha' : (0 : ℚ) < a := by exact_mod_cast ha0
        cases hx : f.neg x
        · rw [hx] at hv
          simp only [Bool.false_eq_true, if_false] at hv
          have := hs.1 (mul_pos ha' (by rw [hv]; exact h0))
          rw [if_neg (by simp [ha])]; omega
        · rw [hx] at hv
          simp only [if_true] at hv
          have := hs.2.1 (mul_neg_of_pos_of_neg ha' (by rw [hv]; linarith))
          rw [if_pos (by simp [ha])]; omega
      · have : m = 0 := hs.2.2 (by rw [← ha0]; simp)
        subst this; simp

/-- **C130**, whole seconds: if the number of seconds and its product with the factor are numbers of the format and the product is a whole number
of nanoseconds, it is the result, whatever the standard library does. -/
theorem C130_mul_seconds (f : FloatFmt) (hf : IsFloatTy f) (r : DurRounding) (s m : Int) (x : Nat)
    (ha : IntTy.i64.InRange (s * 1000000000)) (hx : IsFinite f x) (hs : IsFloatNumber f s) (hp : IsFloatNumber f (s * floatValue f x))
    (he : (s : ℚ) * floatValue f x * 1000000000 = m) (hm : |m| < 2 ^ 63) :
    MUL_TIME_FLOAT f r (s * 1000000000) x = .ok m := by
  have g := goodFmt' hf
  obtain ⟨w, -, w1, w2⟩ := hs
  obtain ⟨y, -, y1, y2⟩ := hp
  have hn : (s * 1000000000).natAbs = s.natAbs * 1000000000 := by rw [Int.natAbs_mul]; rfl
  have hT : s.natAbs * 1000000000 ≤ 2 ^ 63 := by
    rw [← hn]
    have := ha.1; have := ha.2
    simp only [IntTy.i64, IntTy.lo, IntTy.hi] at *
    norm_num at *
    omega
  have hsec := secs_exact hf s.natAbs hT w w1 (by rw [w2, Nat.cast_natAbs, Int.cast_abs])
  have hmag : f.mag (f.abs x) * f.mag (f.abs w) = f.mag (f.abs y) * 2 ^ f.qexp := by
    have h1 : |floatValue f y| = |floatValue f w| * |floatValue f x| := by rw [y2, abs_mul, w2]
    rw [abs_value hf, abs_value hf, abs_value hf, div_mul_div_comm, div_eq_div_iff (by positivity) (by positivity)] at h1
    rw [mag_abs, mag_abs, mag_abs]
    have hQ : (2 : ℚ) ^ f.qexp ≠ 0 := by positivity
    have : (f.mag y : ℚ) * 2 ^ f.qexp = f.mag w * f.mag x := by
      have h2 : (f.mag y * 2 ^ f.qexp : ℚ) * 2 ^ f.qexp = (f.mag w * f.mag x) * 2 ^ f.qexp := by rw [← h1]; ring
      exact mul_right_cancel₀ hQ h2
    rw [Nat.mul_comm]
    exact_mod_cast this.symm
  have hmul : f.mulPos (f.abs x) (f.abs w) = f.abs y := by
    obtain ⟨a1, a2⟩ := f.finite_of_lt_inf (abs_finite hx)
    obtain ⟨b1, b2⟩ := f.finite_of_lt_inf (abs_finite w1)
    unfold mulPos
    rw [a1, a2, b1, b2, if_neg (by simp), if_neg (by simp)]
    exact f.roundMag_exact g.std.m1 g.std.e2 _ _ _ (Nat.two_pow_pos _) (abs_finite y1).le hmag
  unfold MUL_TIME_FLOAT StdDuration.mul
  rw [hn, hsec, hmul, from_exact hf r y m.natAbs y1 (by
    rw [y2, Nat.cast_natAbs, Int.cast_abs, ← he, abs_mul _ (1000000000 : ℚ)]; norm_num) (by
    have := abs_lt.1 hm; omega)]
  refine signed_exact hf _ m x hm ?_
  have e : ((s * 1000000000 : Int) : ℚ) * floatValue f x = m := by rw [← he]; push_cast; ring
  rw [e]
  refine ⟨fun h => ?_, fun h => ?_, fun h => ?_⟩
  · exact_mod_cast h.le
  · exact_mod_cast h.le
  · exact_mod_cast h

/-- **C130**, whole seconds, DIV. -/
theorem C130_div_seconds (f : FloatFmt) (hf : IsFloatTy f) (r : DurRounding) (s m : Int) (x : Nat)
    (ha : IntTy.i64.InRange (s * 1000000000)) (hx : IsFinite f x) (h0 : floatValue f x ≠ 0) (hs : IsFloatNumber f s)
    (hp : IsFloatNumber f (s / floatValue f x)) (he : (s : ℚ) / floatValue f x * 1000000000 = m) (hm : |m| < 2 ^ 63) :
    DIV_TIME_FLOAT f r (s * 1000000000) x = .ok m := by
  have g := goodFmt' hf
  obtain ⟨w, -, w1, w2⟩ := hs
  obtain ⟨y, -, y1, y2⟩ := hp
  have hn : (s * 1000000000).natAbs = s.natAbs * 1000000000 := by rw [Int.natAbs_mul]; rfl
  have hT : s.natAbs * 1000000000 ≤ 2 ^ 63 := by
    rw [← hn]
    have := ha.1; have := ha.2
    simp only [IntTy.i64, IntTy.lo, IntTy.hi] at *
    norm_num at *
    omega
  have hsec := secs_exact hf s.natAbs hT w w1 (by rw [w2, Nat.cast_natAbs, Int.cast_abs])
  have hx0 : f.mag (f.abs x) ≠ 0 := by
    intro h
    apply h0
    rw [mag_abs] at h
    have := abs_value hf x
    rw [h, Nat.cast_zero, zero_div] at this
    exact abs_eq_zero.1 this
  have hmag : f.mag (f.abs w) * 2 ^ f.qexp = f.mag (f.abs y) * f.mag (f.abs x) := by
    have h1 : |floatValue f w| = |floatValue f y| * |floatValue f x| := by
      rw [y2, abs_div, w2, div_mul_cancel₀]
      exact abs_ne_zero.2 h0
    rw [abs_value hf, abs_value hf, abs_value hf, div_mul_div_comm, div_eq_div_iff (by positivity) (by positivity)] at h1
    rw [mag_abs, mag_abs, mag_abs]
    have hQ : (2 : ℚ) ^ f.qexp ≠ 0 := by positivity
    have : (f.mag w : ℚ) * 2 ^ f.qexp = f.mag y * f.mag x := by
      have h2 : (f.mag w * 2 ^ f.qexp : ℚ) * 2 ^ f.qexp = (f.mag y * f.mag x) * 2 ^ f.qexp := by rw [← h1]; ring
      exact mul_right_cancel₀ hQ h2
    exact_mod_cast this
  have hdiv : f.divPos (f.abs w) (f.abs x) = f.abs y := by
    obtain ⟨a1, a2⟩ := f.finite_of_lt_inf (abs_finite hx)
    obtain ⟨b1, b2⟩ := f.finite_of_lt_inf (abs_finite w1)
    unfold divPos
    rw [a1, a2, b1, b2, if_neg (by simp), if_neg (by simp), if_neg (by simp), if_neg hx0]
    exact f.roundMag_exact g.std.m1 g.std.e2 _ _ _ (Nat.pos_of_ne_zero hx0) (abs_finite y1).le hmag
  unfold DIV_TIME_FLOAT StdDuration.div
  rw [hn, hsec, hdiv, from_exact hf r y m.natAbs y1 (by
    rw [y2, Nat.cast_natAbs, Int.cast_abs, ← he, abs_mul _ (1000000000 : ℚ)]; norm_num) (by
    have := abs_lt.1 hm; omega)]
  refine signed_exact hf _ m x hm ?_
  have e : (s : ℚ) = m / 1000000000 * floatValue f x := by rw [← he]; field_simp
  have e : ((s * 1000000000 : Int) : ℚ) * floatValue f x = m * (floatValue f x * floatValue f x) := by
    push_cast; rw [e]; field_simp
  rw [e]
  have hsq : 0 < floatValue f x * floatValue f x := mul_self_pos.2 h0
  refine ⟨fun h => ?_, fun h => ?_, fun h => ?_⟩
  · exact_mod_cast (pos_of_mul_pos_left h hsq.le).le
  · have := neg_of_mul_neg_left h hsq.le
    exact_mod_cast this.le
  · have := (mul_eq_zero.1 h).resolve_right hsq.ne'
    exact_mod_cast this

/-- T#5s * REAL#-2.5 = T#-12.5s and T#-5s / LREAL#0.5 = T#-10s. -/
example : IsFloatNumber .f32 5 ∧ IsFloatNumber .f32 (5 * floatValue .f32 0xC0200000) ∧
    MUL_TIME_FLOAT .f32 .trunc 5000000000 0xC0200000 = .ok (-12500000000) ∧
    DIV_TIME_FLOAT .f64 .trunc (-5000000000) 0x3FE0000000000000 = .ok (-10000000000) := by
  refine ⟨⟨0x40A00000, by decide, by unfold IsFinite; decide, by norm_num [floatValue, FloatFmt.f32]⟩,
    ⟨0xC1480000, by decide, by unfold IsFinite; decide, by norm_num [floatValue, FloatFmt.f32]⟩, by decide +kernel, by decide +kernel⟩

end Verif
