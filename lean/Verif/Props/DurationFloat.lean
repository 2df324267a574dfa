import Verif.Proofs.DurationFloat
import Verif.Proofs.FloatValue
/-
C42, C72, C73: multiplication and division of TIME by REAL and LREAL.  A float is given by its
bit pattern.
-/
namespace Verif
open FloatFmt StdDuration Spec

private theorem good {f : FloatFmt} (h : IsFloatTy f) : GoodFmt f := by
  rcases h with rfl | rfl
  · exact good_f32
  · exact good_f64

/-- Negated result: panics stay panics. -/
def negRes : Res Int → Res Int
  | .ok n => .ok (-n)
  | .panic => .panic
  | .ub => .ub

/-! ### basic facts -/

private theorem abs_expo (f : FloatFmt) (x : Nat) : f.expo (f.abs x) = f.expo x := by
  unfold expo FloatFmt.abs
  rw [Nat.pow_add, Nat.mod_mul_right_div_self, Nat.mod_mod]

private theorem abs_frac (f : FloatFmt) (x : Nat) : f.frac (f.abs x) = f.frac x := by
  unfold frac FloatFmt.abs
  rw [Nat.pow_add]
  exact Nat.mod_mod_of_dvd _ (Nat.dvd_mul_right _ _)

private theorem abs_mag (f : FloatFmt) (x : Nat) : f.mag (f.abs x) = f.mag x := by
  unfold mag signif; rw [abs_expo, abs_frac]

private theorem abs_nan (f : FloatFmt) (x : Nat) : f.is_nan (f.abs x) = f.is_nan x := by
  unfold is_nan; rw [abs_expo, abs_frac]

private theorem abs_infinite (f : FloatFmt) (x : Nat) : f.is_infinite (f.abs x) = f.is_infinite x := by
  unfold is_infinite; rw [abs_expo, abs_frac]

private theorem signed_neg (a b : Bool) (d : Res Nat) :
    signedResult (!a) b d = negRes (signedResult a b d) ∧ signedResult a (!b) d = negRes (signedResult a b d) := by
  unfold signedResult
  cases d with
  | panic => exact ⟨rfl, rfl⟩
  | ub => exact ⟨rfl, rfl⟩
  | ok n =>
    simp only [Res.bind_ok]
    cases hc : IntTy.i64.checked (n : Int) with
    | none => exact ⟨rfl, rfl⟩
    | some m => cases a <;> cases b <;> simp [negRes]

private theorem from_secs_nan {f : FloatFmt} (g : GoodFmt f) (r : DurRounding) : from_secs f r f.nan = .panic := by
  unfold from_secs
  rw [if_pos (.inl (f.nan_spec (by have := g.m1; omega)))]

private theorem from_secs_inf (f : FloatFmt) (r : DurRounding) : from_secs f r f.inf = .panic := by
  unfold from_secs
  rw [if_pos (.inr f.inf_spec.2)]

private theorem from_secs_zero {f : FloatFmt} (g : GoodFmt f) (r : DurRounding) : from_secs f r 0 = .ok 0 := by
  have h : 0 < f.inf := Nat.lt_of_le_of_lt (Nat.zero_le _) g.g2
  obtain ⟨a, b⟩ := f.finite_of_lt_inf h
  have hp := Nat.two_pow_pos f.qexp
  unfold from_secs
  rw [a, b, GoodFmt.mag_zero, if_neg (by simp), if_neg (by omega)]
  cases r <;> simp [roundNanos, rne]

private theorem as_secs_zero {f : FloatFmt} (g : GoodFmt f) : as_secs f 0 = 0 := by
  have h : 0 < f.inf := Nat.lt_of_le_of_lt (Nat.zero_le _) g.g2
  obtain ⟨a, b⟩ := f.finite_of_lt_inf h
  obtain ⟨c, d⟩ := f.finite_of_lt_inf g.g2
  have hz : f.ofNat 0 = 0 := by unfold FloatFmt.ofNat; rw [Nat.zero_mul, g.round_zero]
  have hne : f.mag (f.ofNat 1000000000) ≠ 0 := by
    rw [g.g1]; have := Nat.two_pow_pos f.qexp; omega
  have hd : f.divPos 0 (f.ofNat 1000000000) = 0 := by
    unfold divPos
    rw [a, b, c, d, GoodFmt.mag_zero, Nat.zero_mul, g.round_zero]
    simp [hne]
  unfold as_secs
  rw [Nat.zero_div, Nat.zero_mod, hz, hd]
  unfold addPos
  rw [a, b, GoodFmt.mag_zero, g.round_zero]
  simp

/-- Zero durations give 0 or a panic. -/
private theorem mul_zero_dur {f : FloatFmt} (g : GoodFmt f) (r : DurRounding) (x : Nat) :
    StdDuration.mul f r 0 x = .ok 0 ∨ StdDuration.mul f r 0 x = .panic := by
  unfold StdDuration.mul
  rw [as_secs_zero g]
  unfold mulPos
  split
  · exact .inr (from_secs_nan g r)
  · split
    · rw [GoodFmt.mag_zero, if_pos (.inr rfl)]; exact .inr (from_secs_nan g r)
    · rw [GoodFmt.mag_zero, Nat.mul_zero, g.round_zero]; exact .inl (from_secs_zero g r)

private theorem div_zero_dur {f : FloatFmt} (g : GoodFmt f) (r : DurRounding) (x : Nat) :
    StdDuration.div f r 0 x = .ok 0 ∨ StdDuration.div f r 0 x = .panic := by
  have h : 0 < f.inf := Nat.lt_of_le_of_lt (Nat.zero_le _) g.g2
  obtain ⟨a, b⟩ := f.finite_of_lt_inf h
  unfold StdDuration.div
  rw [as_secs_zero g]
  unfold divPos
  rw [b]
  split
  · exact .inr (from_secs_nan g r)
  · simp only [Bool.false_eq_true, if_false]
    split
    · exact .inl (from_secs_zero g r)
    · split
      · rw [GoodFmt.mag_zero, if_pos rfl]; exact .inr (from_secs_nan g r)
      · rw [GoodFmt.mag_zero, Nat.zero_mul, g.round_zero]; exact .inl (from_secs_zero g r)

private theorem signed_zero (a b : Bool) {d : Res Nat} (h : d = .ok 0 ∨ d = .panic) :
    signedResult a b d = negRes (signedResult a b d) := by
  rcases h with rfl | rfl
  · cases a <;> cases b <;> rfl
  · rfl

/-! ### C42 -/

/-- **C42**, negating the duration negates the result (panics stay panics). -/
theorem C42_negate_time (f : FloatFmt) (hf : IsFloatTy f) (r : DurRounding) (a : Int) (x : Nat) :
    MUL_TIME_FLOAT f r (-a) x = negRes (MUL_TIME_FLOAT f r a x) ∧
    DIV_TIME_FLOAT f r (-a) x = negRes (DIV_TIME_FLOAT f r a x) := by
  unfold MUL_TIME_FLOAT DIV_TIME_FLOAT
  rw [Int.natAbs_neg]
  by_cases h0 : a = 0
  · subst h0
    exact ⟨signed_zero _ _ (mul_zero_dur (good hf) r _), signed_zero _ _ (div_zero_dur (good hf) r _)⟩
  · have : decide (-a < 0) = !decide (a < 0) := by
      by_cases h : a < 0
      · simp [h]; omega
      · simp [h]; omega
    rw [this]
    exact ⟨(signed_neg _ _ _).1, (signed_neg _ _ _).1⟩

/-- **C42**, negating the REAL/LREAL (any bit pattern `x` of the format) negates the result. -/
theorem C42_negate_factor (f : FloatFmt) (r : DurRounding) (a : Int) (x y : Nat) (hxy : OppositeSign f x y) :
    MUL_TIME_FLOAT f r a y = negRes (MUL_TIME_FLOAT f r a x) ∧
    DIV_TIME_FLOAT f r a y = negRes (DIV_TIME_FLOAT f r a x) := by
  obtain ⟨hx, rfl⟩ := (oppositeSign_iff f x y).1 hxy
  rw [Nat.add_assoc, Nat.pow_add, Nat.pow_one] at hx
  have hp := Nat.two_pow_pos (f.mbits + f.ebits)
  have key : f.neg (f.negate x) = !f.neg x ∧ f.abs (f.negate x) = f.abs x := by
    unfold negate FloatFmt.abs
    by_cases hn : f.neg x = true
    · rw [if_pos hn, hn]
      unfold neg at hn ⊢
      generalize 2 ^ (f.mbits + f.ebits) = B at *
      rw [decide_eq_true_eq] at hn
      have hge : B ≤ x := by
        rcases Nat.lt_or_ge x B with h | h
        · rw [Nat.div_eq_of_lt h] at hn; simp at hn
        · exact h
      have h1 : (x - B) / B = 0 := Nat.div_eq_of_lt (by omega)
      constructor
      · simp [h1]
      · rw [Nat.mod_eq_sub_mod hge]
    · have hn : f.neg x = false := by simpa using hn
      rw [hn, if_neg (by simp)]
      unfold neg at hn ⊢
      generalize 2 ^ (f.mbits + f.ebits) = B at *
      rw [decide_eq_false_iff_not] at hn
      have hlt : x < B := by
        rcases Nat.lt_or_ge x B with h | h
        · exact h
        · exfalso
          have h1 : x / B = 1 := Nat.div_eq_of_lt_le (by omega) (by omega)
          rw [h1] at hn; simp at hn
      constructor
      · rw [Nat.add_div_right _ hp, Nat.div_eq_of_lt hlt]; rfl
      · simp
  unfold MUL_TIME_FLOAT DIV_TIME_FLOAT
  rw [key.1, key.2]
  exact ⟨(signed_neg _ _ _).2, (signed_neg _ _ _).2⟩

/-- **C42**, the sign of a result is the product of the operand signs. -/
theorem C42_sign (f : FloatFmt) (r : DurRounding) (a : Int) (x : Nat) (n : Int)
    (h : MUL_TIME_FLOAT f r a x = .ok n ∨ DIV_TIME_FLOAT f r a x = .ok n) :
    ((a < 0 ↔ SignBit f x) → 0 ≤ n) ∧ (¬ (a < 0 ↔ SignBit f x) → n ≤ 0) := by
  rw [signBit_iff]
  have key : ∀ d, signedResult (decide (a < 0)) (f.neg x) d = .ok n →
      ((a < 0 ↔ f.neg x = true) → 0 ≤ n) ∧ (¬ (a < 0 ↔ f.neg x = true) → n ≤ 0) := by
    intro d h
    unfold signedResult at h
    rw [Res.bind_eq_ok] at h
    obtain ⟨m, -, h⟩ := h
    rw [Res.bind_eq_ok] at h
    obtain ⟨k, hk, h⟩ := h
    rw [Res.unwrap_eq_ok] at hk
    have hk0 : 0 ≤ k := by
      unfold IntTy.checked at hk
      split at hk
      · have := (Option.some.inj hk).symm; omega
      · cases hk
    have h := (Res.ok.inj h).symm
    subst h
    by_cases ha : a < 0 <;> cases hx : f.neg x <;> simp [ha] <;> omega
  rcases h with h | h
  · exact key _ h
  · exact key _ h

/-- **C42**, special operands: a NaN or infinite factor, a NaN divisor and a zero divisor panic; a zero
factor gives 0, and so does an infinite divisor. -/
theorem C42_special (f : FloatFmt) (hf : IsFloatTy f) (r : DurRounding) (a : Int) (ha : IntTy.i64.InRange a)
    (x : Nat) :
    (¬ IsFinite f x → MUL_TIME_FLOAT f r a x = .panic) ∧
    (floatValue f x = 0 → MUL_TIME_FLOAT f r a x = .ok 0) ∧
    (IsNaN f x ∨ floatValue f x = 0 → DIV_TIME_FLOAT f r a x = .panic) ∧
    (¬ IsNaN f x → ¬ IsFinite f x → DIV_TIME_FLOAT f r a x = .ok 0) := by
  have hv : floatValue f x = 0 → f.val x = 0 := by
    rw [floatValue_val f (ebits_of hf)]
    intro h
    rcases div_eq_zero_iff.1 h with h | h
    · exact_mod_cast h
    · exact absurd h f.qpos.ne'
  suffices hs : (f.is_nan x = true ∨ f.is_infinite x = true → MUL_TIME_FLOAT f r a x = .panic) ∧
      (f.val x = 0 → MUL_TIME_FLOAT f r a x = .ok 0) ∧
      (f.is_nan x = true ∨ f.val x = 0 → DIV_TIME_FLOAT f r a x = .panic) ∧
      (f.is_infinite x = true → DIV_TIME_FLOAT f r a x = .ok 0) by
    obtain ⟨s1, s2, s3, s4⟩ := hs
    refine ⟨fun h => s1 ?_, fun h => s2 (hv h), fun h => s3 (h.imp (isNaN_iff f x).1 hv), fun h h' => s4 ?_⟩
    · rw [isFinite_iff] at h
      cases h1 : f.is_nan x <;> cases h2 : f.is_infinite x <;> simp_all
    · rw [isFinite_iff] at h'
      rw [not_isNaN_iff] at h
      cases h2 : f.is_infinite x <;> simp_all
  have g := good hf
  have hT : a.natAbs ≤ 2 ^ 63 := by
    have := ha.1; have := ha.2
    simp only [IntTy.i64, IntTy.lo, IntTy.hi] at *
    norm_num at *
    omega
  obtain ⟨hfin, -⟩ := g.as_secs_err a.natAbs hT
  obtain ⟨n1, n2⟩ := f.finite_of_lt_inf hfin
  have hinfnan : f.is_infinite x = true → f.is_nan x = false := by
    unfold is_infinite is_nan
    intro h
    simp only [Bool.and_eq_true, decide_eq_true_eq] at h
    simp [h.2]
  have hmag : f.val x = 0 → f.mag x = 0 := by
    unfold val; split <;> omega
  have hz : f.mag x = 0 → f.is_nan x = false ∧ f.is_infinite x = false := by
    intro h
    have hp : 0 < 2 ^ f.mbits := Nat.two_pow_pos _
    have he : 0 < f.emax := by
      have := g.e2; have := g.e1; omega
    have hs : f.signif x = 0 := by
      unfold mag at h
      rcases Nat.mul_eq_zero.1 h with h | h
      · exact h
      · exact absurd h (Nat.two_pow_pos _).ne'
    have hne : f.expo x ≠ f.emax := by
      intro h'
      unfold signif at hs
      rw [h', if_neg (by omega)] at hs
      omega
    simp [is_nan, is_infinite, hne]
  refine ⟨?_, ?_, ?_, ?_⟩
  · intro h
    have : StdDuration.mul f r a.natAbs (f.abs x) = .panic := by
      unfold StdDuration.mul mulPos
      rw [abs_nan, abs_infinite, n1, n2]
      rcases h with h | h
      · rw [h, if_pos (by simp)]; exact from_secs_nan g r
      · rw [h, hinfnan h, if_neg (by simp), if_pos (by simp)]
        split
        · exact from_secs_nan g r
        · exact from_secs_inf f r
    unfold MUL_TIME_FLOAT; rw [this]; rfl
  · intro h
    obtain ⟨z1, z2⟩ := hz (hmag h)
    have : StdDuration.mul f r a.natAbs (f.abs x) = .ok 0 := by
      unfold StdDuration.mul mulPos
      rw [abs_nan, abs_infinite, abs_mag, n1, n2, z1, z2, hmag h, Nat.zero_mul, g.round_zero,
        if_neg (by simp), if_neg (by simp)]
      exact from_secs_zero g r
    unfold MUL_TIME_FLOAT; rw [this]
    cases decide (a < 0) <;> cases f.neg x <;> rfl
  · intro h
    have : StdDuration.div f r a.natAbs (f.abs x) = .panic := by
      unfold StdDuration.div divPos
      rw [abs_nan, abs_infinite, abs_mag, n1, n2]
      rcases h with h | h
      · rw [h, if_pos (by simp)]; exact from_secs_nan g r
      · obtain ⟨z1, z2⟩ := hz (hmag h)
        rw [z1, z2, hmag h, if_neg (by simp), if_neg (by simp), if_neg (by simp), if_pos rfl]
        split
        · exact from_secs_nan g r
        · exact from_secs_inf f r
    unfold DIV_TIME_FLOAT; rw [this]; rfl
  · intro h
    have : StdDuration.div f r a.natAbs (f.abs x) = .ok 0 := by
      unfold StdDuration.div divPos
      rw [abs_nan, abs_infinite, n1, n2, h, hinfnan h, if_neg (by simp), if_neg (by simp), if_pos rfl]
      exact from_secs_zero g r
    unfold DIV_TIME_FLOAT; rw [this]
    cases decide (a < 0) <;> cases f.neg x <;> rfl

/-- LREAL -2.5 is `0xC004000000000000`, infinity `0x7FF0000000000000`. -/
example : MUL_TIME_FLOAT .f64 .nearestEven 1000000000 0xC004000000000000 = .ok (-2500000000) ∧
    MUL_TIME_FLOAT .f64 .nearestEven 1 0x7FF0000000000000 = .panic ∧
    DIV_TIME_FLOAT .f32 .trunc 5000000000 0x3f000000 = .ok 10000000000 := by decide +kernel

/-! ### C72, C73: accuracy -/

private theorem value_abs (f : FloatFmt) (hf : IsFloatTy f) (x : Nat) : |floatValue f x| = f.rat (f.abs x) := by
  rw [floatValue_val f (ebits_of hf)]
  unfold FloatFmt.rat
  rw [abs_mag, abs_div, abs_of_pos f.qpos]
  congr 1
  unfold val
  split
  · push_cast; rw [abs_neg]; exact abs_of_nonneg (by positivity)
  · push_cast; exact abs_of_nonneg (by positivity)

private theorem value_sign (f : FloatFmt) (hf : IsFloatTy f) (x : Nat) :
    floatValue f x = if f.neg x then -(f.rat (f.abs x)) else f.rat (f.abs x) := by
  rw [floatValue_val f (ebits_of hf)]
  unfold FloatFmt.rat
  rw [abs_mag]
  unfold val
  split
  · push_cast; ring
  · push_cast; ring

private theorem int_sign (a : Int) : (a : ℚ) = if decide (a < 0) then -(a.natAbs : ℚ) else (a.natAbs : ℚ) := by
  rw [Nat.cast_natAbs, Int.cast_abs]
  by_cases h : a < 0
  · have h' : (a : ℚ) < 0 := by exact_mod_cast h
    simp only [h, decide_true, if_true]
    rw [abs_of_neg h', neg_neg]
  · have h' : (0 : ℚ) ≤ a := by exact_mod_cast (by omega : 0 ≤ a)
    simp only [h, decide_false, Bool.false_eq_true, if_false]
    rw [abs_of_nonneg h']

/-- From the magnitude to the signed result. -/
private theorem signed_accuracy (n1 n2 : Bool) (d : Res Nat) (Y e : ℚ) (he : 0 ≤ e)
    (h1 : ∀ n, d = .ok n → |(n : ℚ) - Y| ≤ e) (h2 : Y < 2 ^ 63 → ∃ n, d = .ok n) :
    (∀ n, signedResult n1 n2 d = .ok n → |(n : ℚ) - (if xor n1 n2 then -Y else Y)| ≤ e) ∧
    (Y + e < 2 ^ 63 - 1 → ∃ n, signedResult n1 n2 d = .ok n) := by
  constructor
  · intro n hn
    unfold signedResult at hn
    rw [Res.bind_eq_ok] at hn
    obtain ⟨m, hm, hn⟩ := hn
    rw [Res.bind_eq_ok] at hn
    obtain ⟨k, hk, hn⟩ := hn
    rw [Res.unwrap_eq_ok] at hk
    have hkm : k = m := by
      unfold IntTy.checked at hk
      split at hk
      · exact (Option.some.inj hk).symm
      · cases hk
    have hn := (Res.ok.inj hn).symm
    subst hn hkm
    have := h1 m hm
    cases xor n1 n2
    · simpa using this
    · simp only [if_true]
      push_cast
      rw [show -(m : ℚ) - -Y = -((m : ℚ) - Y) by ring, abs_neg]
      exact this
  · intro hlt
    obtain ⟨n, hn⟩ := h2 (by linarith)
    have hb := h1 n hn
    rw [abs_le] at hb
    have hn' : (n : ℚ) < 2 ^ 63 - 1 := by linarith [hb.2]
    have hn2 : n < 2 ^ 63 - 1 := by
      have e : ((2 ^ 63 - 1 : Nat) : ℚ) = 2 ^ 63 - 1 := by norm_num
      rw [← e] at hn'
      exact_mod_cast hn'
    refine ⟨if xor n1 n2 then -(n : Int) else n, ?_⟩
    unfold signedResult
    rw [hn]
    simp only [Res.bind_ok]
    have : IntTy.i64.checked (n : Int) = some (n : Int) := by
      unfold IntTy.checked
      rw [if_pos]
      simp only [IntTy.InRange, IntTy.i64, IntTy.lo, IntTy.hi]
      norm_num
      omega
    rw [this]
    rfl

/-- **C72.** MUL of a TIME `a` by a finite REAL/LREAL: a returned result differs from the exact product by at most
five half-ulps of it plus the error of one rounding to whole nanoseconds (half a nanosecond; with a standard library that
truncates, one); and the function returns unless the exact product is out of range, up to
that error. -/
theorem C72_mul_accuracy (f : FloatFmt) (hf : IsFloatTy f) (r : DurRounding) (a : Int) (ha : IntTy.i64.InRange a)
    (x : Nat) (hx : IsFinite f x) :
    let exact := (a : ℚ) * floatValue f x
    let err := 5 * halfUlp f * |exact| + if r = .trunc then 1 else 1 / 2
    (∀ n, MUL_TIME_FLOAT f r a x = .ok n → |(n : ℚ) - exact| ≤ err) ∧
    (|exact| + err < 2 ^ 63 - 1 → ∃ n, MUL_TIME_FLOAT f r a x = .ok n) := by
  have hn := hx.nan
  have hi := hx.inf
  have g := good hf
  have hT : a.natAbs ≤ 2 ^ 63 := by
    have := ha.1; have := ha.2
    simp only [IntTy.i64, IntTy.lo, IntTy.hi] at *
    norm_num at *
    omega
  obtain ⟨hfin, herr⟩ := g.as_secs_err a.natAbs hT
  obtain ⟨n1, n2⟩ := f.finite_of_lt_inf hfin
  have hx0 := GoodFmt.rat_nonneg (f := f) (f.abs x)
  have hmul : StdDuration.mul f r a.natAbs (f.abs x) =
      from_secs f r (f.roundMag (f.mag (f.abs x) * f.mag (as_secs f a.natAbs)) (2 ^ f.qexp)) := by
    unfold StdDuration.mul mulPos
    rw [abs_nan, abs_infinite, n1, n2, hn, hi, if_neg (by simp), if_neg (by simp)]
  obtain ⟨p1, p2⟩ := g.finish r (f.mag (f.abs x) * f.mag (as_secs f a.natAbs)) (2 ^ f.qexp) (Nat.two_pow_pos _)
    (f.rat (f.abs x) * f.rat (as_secs f a.natAbs)) ((a.natAbs : ℚ) / 1000000000 * f.rat (f.abs x))
    (by unfold FloatFmt.rat; push_cast; ring) (by positivity)
    (by rw [show f.rat (f.abs x) * f.rat (as_secs f a.natAbs) - (a.natAbs : ℚ) / 1000000000 * f.rat (f.abs x) =
            (f.rat (as_secs f a.natAbs) - (a.natAbs : ℚ) / 1000000000) * f.rat (f.abs x) by ring,
          abs_mul, abs_of_nonneg hx0, ← mul_assoc]
        exact mul_le_mul_of_nonneg_right herr hx0)
  rw [← hmul] at p1 p2
  have eY : (a.natAbs : ℚ) / 1000000000 * f.rat (f.abs x) * 1000000000 = (a.natAbs : ℚ) * f.rat (f.abs x) := by ring
  rw [eY] at p1 p2
  have eE : (if xor (decide (a < 0)) (f.neg x) then -((a.natAbs : ℚ) * f.rat (f.abs x))
      else (a.natAbs : ℚ) * f.rat (f.abs x)) = (a : ℚ) * floatValue f x := by
    conv_rhs => rw [int_sign a, value_sign f hf]
    cases decide (a < 0) <;> cases f.neg x <;> simp
  have eA : |(a : ℚ) * floatValue f x| = (a.natAbs : ℚ) * f.rat (f.abs x) := by
    rw [abs_mul, value_abs f hf]
    congr 1
    rw [Nat.cast_natAbs, Int.cast_abs]
  have hu := GoodFmt.ulp_pos (f := f)
  have := signed_accuracy (decide (a < 0)) (f.neg x) (StdDuration.mul f r a.natAbs (f.abs x))
    ((a.natAbs : ℚ) * f.rat (f.abs x)) (5 * f.ulp * ((a.natAbs : ℚ) * f.rat (f.abs x)) + if r = .trunc then 1 else 1 / 2)
    (by split <;> positivity) p1 p2
  rw [eE] at this
  simp only [eA]
  exact this

/-- **C73.** The same for DIV of a TIME by a finite non-zero REAL/LREAL. -/
theorem C73_div_accuracy (f : FloatFmt) (hf : IsFloatTy f) (r : DurRounding) (a : Int) (ha : IntTy.i64.InRange a)
    (x : Nat) (hx : IsFinite f x) (h0 : floatValue f x ≠ 0) :
    let exact := (a : ℚ) / floatValue f x
    let err := 5 * halfUlp f * |exact| + if r = .trunc then 1 else 1 / 2
    (∀ n, DIV_TIME_FLOAT f r a x = .ok n → |(n : ℚ) - exact| ≤ err) ∧
    (|exact| + err < 2 ^ 63 - 1 → ∃ n, DIV_TIME_FLOAT f r a x = .ok n) := by
  have hn := hx.nan
  have hi := hx.inf
  have g := good hf
  have hT : a.natAbs ≤ 2 ^ 63 := by
    have := ha.1; have := ha.2
    simp only [IntTy.i64, IntTy.lo, IntTy.hi] at *
    norm_num at *
    omega
  obtain ⟨hfin, herr⟩ := g.as_secs_err a.natAbs hT
  obtain ⟨n1, n2⟩ := f.finite_of_lt_inf hfin
  have hx0 : 0 < f.rat (f.abs x) := by
    rw [← value_abs f hf]; exact abs_pos.2 h0
  have hm0 : 0 < f.mag (f.abs x) := by
    rcases Nat.eq_zero_or_pos (f.mag (f.abs x)) with h | h
    · unfold FloatFmt.rat at hx0; rw [h] at hx0; simp at hx0
    · exact h
  have hm0' : (0 : ℚ) < f.mag (f.abs x) := by exact_mod_cast hm0
  have hdiv : StdDuration.div f r a.natAbs (f.abs x) =
      from_secs f r (f.roundMag (f.mag (as_secs f a.natAbs) * 2 ^ f.qexp) (f.mag (f.abs x))) := by
    unfold StdDuration.div divPos
    rw [abs_nan, abs_infinite, n1, n2, hn, hi, if_neg (by simp), if_neg (by simp), if_neg (by simp),
      if_neg (by omega)]
  obtain ⟨p1, p2⟩ := g.finish r (f.mag (as_secs f a.natAbs) * 2 ^ f.qexp) (f.mag (f.abs x)) hm0
    (f.rat (as_secs f a.natAbs) / f.rat (f.abs x)) ((a.natAbs : ℚ) / 1000000000 / f.rat (f.abs x))
    (by unfold FloatFmt.rat; push_cast; have := f.qpos; field_simp) (by positivity)
    (by rw [show f.rat (as_secs f a.natAbs) / f.rat (f.abs x) - (a.natAbs : ℚ) / 1000000000 / f.rat (f.abs x) =
            (f.rat (as_secs f a.natAbs) - (a.natAbs : ℚ) / 1000000000) / f.rat (f.abs x) by ring,
          abs_div, abs_of_pos hx0, ← mul_div_assoc]
        exact div_le_div_of_nonneg_right herr hx0.le)
  rw [← hdiv] at p1 p2
  have eY : (a.natAbs : ℚ) / 1000000000 / f.rat (f.abs x) * 1000000000 = (a.natAbs : ℚ) / f.rat (f.abs x) := by ring
  rw [eY] at p1 p2
  have eE : (if xor (decide (a < 0)) (f.neg x) then -((a.natAbs : ℚ) / f.rat (f.abs x))
      else (a.natAbs : ℚ) / f.rat (f.abs x)) = (a : ℚ) / floatValue f x := by
    conv_rhs => rw [int_sign a, value_sign f hf]
    cases decide (a < 0) <;> cases f.neg x <;> simp [div_neg, neg_div]
  have eA : |(a : ℚ) / floatValue f x| = (a.natAbs : ℚ) / f.rat (f.abs x) := by
    rw [abs_div, value_abs f hf]
    congr 1
    rw [Nat.cast_natAbs, Int.cast_abs]
  have hu := GoodFmt.ulp_pos (f := f)
  have := signed_accuracy (decide (a < 0)) (f.neg x) (StdDuration.div f r a.natAbs (f.abs x))
    ((a.natAbs : ℚ) / f.rat (f.abs x)) (5 * f.ulp * ((a.natAbs : ℚ) / f.rat (f.abs x)) + if r = .trunc then 1 else 1 / 2)
    (by split <;> positivity) p1 p2
  rw [eE] at this
  simp only [eA]
  exact this

/-- Non-vacuity: 1.0 (REAL) is finite with value 1, and multiplying by it is *not* the identity for long times. -/
example : IsFinite .f32 0x3f800000 ∧ floatValue .f32 0x3f800000 = 1 ∧
    MUL_TIME_FLOAT .f32 .nearestEven 123456789123 0x3f800000 = .ok 123456787109 :=
  ⟨by unfold IsFinite; decide, by norm_num [floatValue, FloatFmt.f32], by decide +kernel⟩

/-- 1.0 and -1.0. -/
example : OppositeSign .f64 0x3FF0000000000000 0xBFF0000000000000 :=
  ⟨by decide, by decide, by decide, by decide⟩

end Verif
