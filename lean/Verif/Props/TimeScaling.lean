import Verif.Proofs.DurationMono
import Verif.Proofs.FloatValue
import Verif.Proofs.FloatSign
import Verif.Props.DurationFloat
/-
C109: multiplying TIME by REAL or LREAL and dividing by it keeps the order, for both ways in which the standard library converts
seconds to nanoseconds.
-/
namespace Verif
open FloatFmt StdDuration

private theorem goodFmt {f : FloatFmt} (h : IsFloatTy f) : GoodFmt f := by
  rcases h with rfl | rfl
  · exact good_f32
  · exact good_f64

/-- A result is plus or minus the result on the magnitudes. -/
private theorem signed_ok {a b : Bool} {d : Res Nat} {n : Int} (h : signedResult a b d = .ok n) :
    ∃ k, d = .ok k ∧ IntTy.i64.InRange k ∧ n = if xor a b then -(k : Int) else k := by
  unfold signedResult at h
  cases d with
  | panic => cases h
  | ub => cases h
  | ok k =>
    refine ⟨k, rfl, ?_⟩
    unfold IntTy.checked at h
    by_cases hr : IntTy.i64.InRange k
    · simp only [hr, if_true, Res.bind_ok, Res.unwrap] at h
      exact ⟨hr, (Res.ok.inj h).symm⟩
    · simp only [hr, if_false, Res.bind_ok, Res.unwrap] at h
      cases h

private theorem signed_mk {a b : Bool} {k : Nat} (hr : IntTy.i64.InRange k) :
    signedResult a b (.ok k) = .ok (if xor a b then -(k : Int) else k) := by
  unfold signedResult IntTy.checked
  simp only [hr, if_true, Res.bind_ok, Res.unwrap]
  rfl

private theorem magAbs (f : FloatFmt) (x : Nat) : f.mag (f.abs x) = f.mag x := by
  unfold mag signif expo frac FloatFmt.abs
  rw [Nat.pow_add, Nat.mod_mul_right_div_self, Nat.mod_mod, Nat.mod_mod_of_dvd _ (Nat.dvd_mul_right _ _)]

/-- Magnitudes are ordered as values. -/
private theorem abs_le_of_mag {f : FloatFmt} {x y : Nat} (h : f.mag x ≤ f.mag y) : f.abs x ≤ f.abs y := by
  by_contra hc
  have := f.mag_lt (x := f.abs y) (y := f.abs x) (by omega) (by
    have := f.abs_lt x; rwa [Nat.pow_add, Nat.mul_comm] at this)
  rw [magAbs, magAbs] at this
  omega

private theorem value_mag {f : FloatFmt} (hf : IsFloatTy f) (x : Nat) :
    floatValue f x = (if f.neg x then -(f.mag x : ℚ) else f.mag x) / 2 ^ f.qexp := by
  rw [f.floatValue_eq (stdFmt hf).eb]
  split <;> ring

private theorem val_order {f : FloatFmt} (hf : IsFloatTy f) {x y : Nat} (h : floatValue f x ≤ floatValue f y) :
    (if f.neg x then -(f.mag x : Int) else f.mag x) ≤ (if f.neg y then -(f.mag y : Int) else f.mag y) := by
  rw [value_mag hf, value_mag hf, div_le_div_iff_of_pos_right (by positivity)] at h
  split at h <;> split at h <;> simp_all
  exact_mod_cast h

private theorem natAbs_le {a : Int} (ha : IntTy.i64.InRange a) : a.natAbs ≤ 2 ^ 63 := by
  have := ha.1; have := ha.2
  simp only [IntTy.i64, IntTy.lo, IntTy.hi] at *
  norm_num at *
  omega

private theorem natAbs_mono {a b : Int} (h : |a| ≤ |b|) : a.natAbs ≤ b.natAbs := by
  rw [Int.abs_eq_natAbs, Int.abs_eq_natAbs] at h; exact_mod_cast h

private theorem abs_lt_inf {f : FloatFmt} {x : Nat} (h : IsFinite f x) : f.abs x < f.inf := by
  have hM := Nat.two_pow_pos f.mbits
  have e : f.abs x / 2 ^ f.mbits = x / 2 ^ f.mbits % 2 ^ f.ebits := by
    unfold FloatFmt.abs
    rw [Nat.pow_add, Nat.mod_mul_right_div_self]
  have hlt := Nat.mod_lt (x / 2 ^ f.mbits) (Nat.two_pow_pos f.ebits)
  unfold inf
  refine (Nat.div_lt_iff_lt_mul hM).1 ?_
  rw [e]
  unfold IsFinite at h
  unfold emax
  omega

private theorem range_le {k m : Nat} (h : k ≤ m) (hr : IntTy.i64.InRange m) : IntTy.i64.InRange k := by
  have := hr.2
  simp only [IntTy.InRange, IntTy.i64, IntTy.lo, IntTy.hi] at *
  norm_num at *
  omega

/-- What a magnitude that is zero makes of a result. -/
private theorem mul_zero_factor {f : FloatFmt} (g : GoodFmt f) (r : DurRounding) {n x k : Nat} (hn : n ≤ 2 ^ 63) (hx : f.mag x = 0)
    (h : StdDuration.mul f r n (f.abs x) = .ok k) : k = 0 := by
  have h0 : f.abs x = 0 := by
    have := abs_le_of_mag (f := f) (x := x) (y := 0) (by omega)
    have : f.abs 0 = 0 := by simp [FloatFmt.abs]
    omega
  rw [h0] at h
  obtain ⟨s1, s2⟩ := f.finite_of_lt_inf (g.as_secs_err n hn).1
  have hi : 0 < f.inf := Nat.lt_of_le_of_lt (Nat.zero_le _) g.g2
  obtain ⟨z1, z2⟩ := f.finite_of_lt_inf hi
  have hp := Nat.two_pow_pos f.qexp
  unfold StdDuration.mul mulPos at h
  rw [s1, s2, z1, z2, if_neg (by simp), if_neg (by simp), GoodFmt.mag_zero, Nat.zero_mul, g.round_zero] at h
  unfold from_secs at h
  rw [z1, z2, if_neg (by simp), GoodFmt.mag_zero, if_neg (by omega)] at h
  have := Res.ok.inj h
  cases r <;> simp [roundNanos, rne] at this <;> omega

private theorem mul_zero_time {f : FloatFmt} (hf : IsFloatTy f) (r : DurRounding) {x k : Nat}
    (h : StdDuration.mul f r 0 (f.abs x) = .ok k) : k = 0 := by
  have g := goodFmt hf
  -- with the factor 0 the result is 0; a zero duration is not longer than with any factor
  by_contra hk
  have hs : as_secs f 0 = 0 := by
    rw [g.as_secs_eq 0 (by decide)]
    simp only [Nat.zero_div, Nat.zero_mod]
    have hz : f.ofNat 0 = 0 := by unfold FloatFmt.ofNat; rw [Nat.zero_mul, g.round_zero]
    rw [hz, GoodFmt.mag_zero, Nat.zero_mul, g.round_zero, GoodFmt.mag_zero, g.round_zero]
  have hi : 0 < f.inf := Nat.lt_of_le_of_lt (Nat.zero_le _) g.g2
  obtain ⟨z1, z2⟩ := f.finite_of_lt_inf hi
  have hp := Nat.two_pow_pos f.qexp
  have hnan : from_secs f r f.nan = .panic := by
    unfold from_secs; rw [if_pos (.inl (f.nan_spec g.std.m1))]
  unfold StdDuration.mul mulPos at h
  rw [hs, z1, z2, GoodFmt.mag_zero, Nat.mul_zero, g.round_zero] at h
  split at h
  · rw [hnan] at h; cases h
  · split at h
    · rw [if_pos (.inr rfl), hnan] at h; cases h
    · unfold from_secs at h
      rw [z1, z2, if_neg (by simp), GoodFmt.mag_zero, if_neg (by omega)] at h
      have := Res.ok.inj h
      cases r <;> simp [roundNanos, rne] at this <;> omega

/-- **C109**, no abort below: if `b * y` does not abort, then `a * x` with `|a| ≤ |b|` and `|x| ≤ |y|` does not, and the magnitude of
its result is not larger. -/
theorem C109_mul_magnitude (f : FloatFmt) (hf : IsFloatTy f) (r : DurRounding) (a b : Int) (x y : Nat) (n : Int)
    (hb : IntTy.i64.InRange b) (hab : |a| ≤ |b|) (hxy : |floatValue f x| ≤ |floatValue f y|) (hn : MUL_TIME_FLOAT f r b y = .ok n) :
    ∃ m, MUL_TIME_FLOAT f r a x = .ok m ∧ |m| ≤ |n| := by
  have hmag : f.mag x ≤ f.mag y := by
    rw [value_mag hf, value_mag hf, abs_div, abs_div, div_le_div_iff_of_pos_right (by positivity)] at hxy
    have e : ∀ z, |(if f.neg z then -(f.mag z : ℚ) else f.mag z)| = f.mag z := by intro z; split <;> simp
    rw [e, e] at hxy
    exact_mod_cast hxy
  obtain ⟨k, hk, hr, e⟩ := signed_ok hn
  obtain ⟨l, hl, hle⟩ := (goodFmt hf).mul_mono r (n := a.natAbs) (x := f.abs x) (natAbs_mono hab) (natAbs_le hb) (abs_le_of_mag hmag) (f.abs_lt y) hk
  refine ⟨_, by unfold MUL_TIME_FLOAT; rw [hl]; exact signed_mk (range_le hle hr), ?_⟩
  subst e
  split <;> split <;> simp <;> omega

/-- **C109**, order in the duration: a longer duration times the same factor is not shorter, if the factor is not negative, and not
longer, if it is not positive. -/
theorem C109_mul_time (f : FloatFmt) (hf : IsFloatTy f) (r : DurRounding) (a b : Int) (x : Nat) (m n : Int)
    (ha : IntTy.i64.InRange a) (hb : IntTy.i64.InRange b) (hab : a ≤ b)
    (hm : MUL_TIME_FLOAT f r a x = .ok m) (hn : MUL_TIME_FLOAT f r b x = .ok n) :
    (0 ≤ floatValue f x → m ≤ n) ∧ (floatValue f x ≤ 0 → n ≤ m) := by
  have g := goodFmt hf
  obtain ⟨k, hk, -, rfl⟩ := signed_ok hm
  obtain ⟨l, hl, -, rfl⟩ := signed_ok hn
  have h0 : f.mag x = 0 → k = 0 ∧ l = 0 := fun h => ⟨mul_zero_factor g r (natAbs_le ha) h hk, mul_zero_factor g r (natAbs_le hb) h hl⟩
  have hva : floatValue f x = (if f.neg x then -(f.mag x : ℚ) else f.mag x) / 2 ^ f.qexp := value_mag hf x
  have hQ : (0 : ℚ) < 2 ^ f.qexp := by positivity
  -- the sign of the factor
  have hs1 : 0 ≤ floatValue f x → f.neg x = true → f.mag x = 0 := by
    intro h hneg
    rw [hva, hneg, if_pos rfl, div_nonneg_iff] at h
    have : (0 : ℚ) ≤ f.mag x := by positivity
    have : (f.mag x : ℚ) = 0 := by rcases h with h | h <;> linarith [h.1, h.2]
    exact_mod_cast this
  have hs2 : floatValue f x ≤ 0 → f.neg x = false → f.mag x = 0 := by
    intro h hneg
    rw [hva, hneg, if_neg (by simp), div_le_iff₀ hQ] at h
    have : (0 : ℚ) ≤ f.mag x := by positivity
    have : (f.mag x : ℚ) = 0 := by linarith
    exact_mod_cast this
  have hz : (a = 0 → k = 0) ∧ (b = 0 → l = 0) := by
    constructor
    · rintro rfl; exact mul_zero_time hf r hk
    · rintro rfl; exact mul_zero_time hf r hl
  have up : a.natAbs ≤ b.natAbs → k ≤ l := fun h => by
    obtain ⟨k', hk', h⟩ := g.mul_mono r h (natAbs_le hb) (Nat.le_refl _) (f.abs_lt x) hl
    rw [hk] at hk'; obtain rfl := Res.ok.inj hk'; exact h
  have down : b.natAbs ≤ a.natAbs → l ≤ k := fun h => by
    obtain ⟨k', hk', h⟩ := g.mul_mono r h (natAbs_le ha) (Nat.le_refl _) (f.abs_lt x) hk
    rw [hl] at hk'; obtain rfl := Res.ok.inj hk'; exact h
  constructor
  · intro hx
    cases hneg : f.neg x
    · by_cases h1 : a < 0 <;> by_cases h2 : b < 0 <;> simp [h1, h2] <;> omega
    · obtain ⟨rfl, rfl⟩ := h0 (hs1 hx hneg)
      simp
  · intro hx
    cases hneg : f.neg x
    · obtain ⟨rfl, rfl⟩ := h0 (hs2 hx hneg)
      simp
    · by_cases h1 : a < 0 <;> by_cases h2 : b < 0 <;> simp [h1, h2] <;> omega

/-- **C109**, order in the factor: a larger factor gives a result that is not smaller, for a duration that is not negative, and one
that is not larger, for a duration that is not positive. -/
theorem C109_mul_factor (f : FloatFmt) (hf : IsFloatTy f) (r : DurRounding) (a : Int) (x y : Nat) (m n : Int)
    (ha : IntTy.i64.InRange a) (hxy : floatValue f x ≤ floatValue f y)
    (hm : MUL_TIME_FLOAT f r a x = .ok m) (hn : MUL_TIME_FLOAT f r a y = .ok n) :
    (0 ≤ a → m ≤ n) ∧ (a ≤ 0 → n ≤ m) := by
  have g := goodFmt hf
  obtain ⟨k, hk, -, rfl⟩ := signed_ok hm
  obtain ⟨l, hl, -, rfl⟩ := signed_ok hn
  have h0x : f.mag x = 0 → k = 0 := fun h => mul_zero_factor g r (natAbs_le ha) h hk
  have h0y : f.mag y = 0 → l = 0 := fun h => mul_zero_factor g r (natAbs_le ha) h hl
  have hv := val_order hf hxy
  have hz : a = 0 → k = 0 ∧ l = 0 := by
    rintro rfl; exact ⟨mul_zero_time hf r hk, mul_zero_time hf r hl⟩
  have up : f.mag x ≤ f.mag y → k ≤ l := fun h => by
    obtain ⟨k', hk', h⟩ := g.mul_mono r (Nat.le_refl _) (natAbs_le ha) (abs_le_of_mag h) (f.abs_lt y) hl
    rw [hk] at hk'; obtain rfl := Res.ok.inj hk'; exact h
  have down : f.mag y ≤ f.mag x → l ≤ k := fun h => by
    obtain ⟨k', hk', h⟩ := g.mul_mono r (Nat.le_refl _) (natAbs_le ha) (abs_le_of_mag h) (f.abs_lt x) hk
    rw [hl] at hk'; obtain rfl := Res.ok.inj hk'; exact h
  constructor
  · intro h
    cases hx : f.neg x <;> cases hy : f.neg y <;> simp [hx, hy] at hv <;> simp [show ¬ a < 0 by omega] <;> omega
  · intro h
    rcases Int.lt_or_eq_of_le h with h | h
    · cases hx : f.neg x <;> cases hy : f.neg y <;> simp [hx, hy] at hv <;> simp [h] <;> omega
    · obtain ⟨rfl, rfl⟩ := hz h
      simp

/-- **C109**, division: the quotient of a shorter duration by a number that is not smaller does not abort where the other does not, and
its magnitude is not larger. -/
theorem C109_div_magnitude (f : FloatFmt) (hf : IsFloatTy f) (r : DurRounding) (a b : Int) (x y : Nat) (n : Int)
    (hb : IntTy.i64.InRange b) (hab : |a| ≤ |b|) (hx : IsFinite f x) (hxy : |floatValue f y| ≤ |floatValue f x|)
    (hn : DIV_TIME_FLOAT f r b y = .ok n) :
    ∃ m, DIV_TIME_FLOAT f r a x = .ok m ∧ |m| ≤ |n| := by
  have hmag : f.mag y ≤ f.mag x := by
    rw [value_mag hf, value_mag hf, abs_div, abs_div, div_le_div_iff_of_pos_right (by positivity)] at hxy
    have e : ∀ z, |(if f.neg z then -(f.mag z : ℚ) else f.mag z)| = f.mag z := by intro z; split <;> simp
    rw [e, e] at hxy
    exact_mod_cast hxy
  obtain ⟨k, hk, hr, e⟩ := signed_ok hn
  have hxi : f.abs x ≤ f.inf := (abs_lt_inf hx).le
  obtain ⟨l, hl, hle⟩ := (goodFmt hf).div_mono r (n := a.natAbs) (x := f.abs x) (natAbs_mono hab) (natAbs_le hb) (abs_le_of_mag hmag) hxi hk
  refine ⟨_, by unfold DIV_TIME_FLOAT; rw [hl]; exact signed_mk (range_le hle hr), ?_⟩
  subst e
  split <;> split <;> simp <;> omega

private theorem div_zero_time {f : FloatFmt} (hf : IsFloatTy f) (r : DurRounding) {x : Nat} {m : Int}
    (h : DIV_TIME_FLOAT f r 0 x = .ok m) : m = 0 := by
  have := (C42_negate_time f hf r 0 x).2
  rw [Int.neg_zero, h] at this
  have := Res.ok.inj this
  omega

private theorem sign_of_value {f : FloatFmt} (hf : IsFloatTy f) {x : Nat} :
    (0 < floatValue f x → f.neg x = false) ∧ (floatValue f x < 0 → f.neg x = true) := by
  rw [value_mag hf]
  have hQ : (0 : ℚ) < 2 ^ f.qexp := by positivity
  have : (0 : ℚ) ≤ f.mag x := by positivity
  have h2 : (0 : ℚ) ≤ f.mag x / 2 ^ f.qexp := by positivity
  cases f.neg x <;> simp [neg_div] <;> linarith

/-- **C109**, division, order in the duration: a longer duration divided by the same number is not shorter, if the number is
positive, and not longer, if it is negative. -/
theorem C109_div_time (f : FloatFmt) (hf : IsFloatTy f) (r : DurRounding) (a b : Int) (x : Nat) (m n : Int)
    (ha : IntTy.i64.InRange a) (hb : IntTy.i64.InRange b) (hab : a ≤ b) (hx : IsFinite f x)
    (hm : DIV_TIME_FLOAT f r a x = .ok m) (hn : DIV_TIME_FLOAT f r b x = .ok n) :
    (0 < floatValue f x → m ≤ n) ∧ (floatValue f x < 0 → n ≤ m) := by
  have za : a = 0 → m = 0 := by rintro rfl; exact div_zero_time hf r hm
  have zb : b = 0 → n = 0 := by rintro rfl; exact div_zero_time hf r hn
  have sa := C42_sign f r a x m (.inr hm)
  have sb := C42_sign f r b x n (.inr hn)
  rw [signBit_iff] at sa sb
  have up : |a| ≤ |b| → |m| ≤ |n| := fun h => by
    obtain ⟨m', hm', h⟩ := C109_div_magnitude f hf r a b x x n hb h hx (le_refl _) hn
    rw [hm] at hm'; obtain rfl := Res.ok.inj hm'; exact h
  have down : |b| ≤ |a| → |n| ≤ |m| := fun h => by
    obtain ⟨n', hn', h⟩ := C109_div_magnitude f hf r b a x x m ha h hx (le_refl _) hm
    rw [hn] at hn'; obtain rfl := Res.ok.inj hn'; exact h
  clear hm hn
  simp only [Int.abs_eq_natAbs, Int.ofNat_le] at up down
  constructor
  · intro h
    rw [(sign_of_value hf).1 h] at sa sb
    simp at sa sb
    omega
  · intro h
    rw [(sign_of_value hf).2 h] at sa sb
    simp at sa sb
    omega

/-- **C109**, division, order in the divisor: of two divisors of the same sign the larger one gives a result that is not larger, for
a duration that is not negative, and not smaller, for a duration that is not positive. -/
theorem C109_div_divisor (f : FloatFmt) (hf : IsFloatTy f) (r : DurRounding) (a : Int) (x y : Nat) (m n : Int)
    (ha : IntTy.i64.InRange a) (hx : IsFinite f x) (hy : IsFinite f y) (hxy : floatValue f x ≤ floatValue f y)
    (hs : 0 < floatValue f x ∨ floatValue f y < 0)
    (hm : DIV_TIME_FLOAT f r a x = .ok m) (hn : DIV_TIME_FLOAT f r a y = .ok n) :
    (0 ≤ a → n ≤ m) ∧ (a ≤ 0 → m ≤ n) := by
  have z : a = 0 → m = 0 ∧ n = 0 := by rintro rfl; exact ⟨div_zero_time hf r hm, div_zero_time hf r hn⟩
  have sa := C42_sign f r a x m (.inr hm)
  have sb := C42_sign f r a y n (.inr hn)
  rw [signBit_iff] at sa sb
  have up : |floatValue f x| ≤ |floatValue f y| → |n| ≤ |m| := fun h => by
    obtain ⟨n', hn', h⟩ := C109_div_magnitude f hf r a a y x m ha (le_refl _) hy h hm
    rw [hn] at hn'; obtain rfl := Res.ok.inj hn'; exact h
  have down : |floatValue f y| ≤ |floatValue f x| → |m| ≤ |n| := fun h => by
    obtain ⟨m', hm', h⟩ := C109_div_magnitude f hf r a a x y n ha (le_refl _) hx h hn
    rw [hm] at hm'; obtain rfl := Res.ok.inj hm'; exact h
  clear hm hn
  simp only [Int.abs_eq_natAbs, Int.ofNat_le] at up down
  rcases hs with h | h
  · have h' : 0 < floatValue f y := lt_of_lt_of_le h hxy
    have := up (by rw [abs_of_pos h, abs_of_pos h']; exact hxy)
    rw [(sign_of_value hf).1 h] at sa
    rw [(sign_of_value hf).1 h'] at sb
    simp at sa sb
    omega
  · have h' : floatValue f x < 0 := lt_of_le_of_lt hxy h
    have := down (by rw [abs_of_neg h, abs_of_neg h']; linarith)
    rw [(sign_of_value hf).2 h'] at sa
    rw [(sign_of_value hf).2 h] at sb
    simp at sa sb
    omega

/-- The hypotheses are met: 1 s and 2 s, the factors 1.5 and -2.5 of REAL (and `hn` of the magnitude theorems). -/
example : floatValue .f32 0x3FC00000 = 3 / 2 ∧ floatValue .f32 0xC0200000 = -5 / 2 ∧
    MUL_TIME_FLOAT .f32 .trunc 2000000000 0x3FC00000 = .ok 3000000000 ∧
    MUL_TIME_FLOAT .f32 .trunc 2000000000 0xC0200000 = .ok (-5000000000) ∧
    MUL_TIME_FLOAT .f32 .trunc 1000000000 0xC0200000 = .ok (-2500000000) ∧
    DIV_TIME_FLOAT .f32 .trunc 3000000000 0x3FC00000 = .ok 2000000000 ∧
    DIV_TIME_FLOAT .f32 .trunc 3000000000 0xC0200000 = .ok (-1200000047) ∧
    IsFinite .f32 0x3FC00000 ∧ IsFinite .f32 0xC0200000 := by
  refine ⟨?_, ?_, by decide +kernel, by decide +kernel, by decide +kernel, by decide +kernel, by decide +kernel, by
    unfold IsFinite; decide, by unfold IsFinite; decide⟩ <;>
  · norm_num [floatValue, f32]

/-- The order is not strict: durations that differ may give the same product. -/
example : MUL_TIME_FLOAT .f32 .trunc 10000000001 0x3F800000 = MUL_TIME_FLOAT .f32 .trunc 10000000000 0x3F800000 := by decide +kernel

end Verif
