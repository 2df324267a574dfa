import Mathlib.Tactic.Positivity
import Verif.Proofs.FloatPow
import Verif.Spec.FloatText
/-
C91, C92, C93: EXPT with an integer exponent.
-/
namespace Verif
open Spec

/-- A pattern of the format with value 1. -/
private theorem one_spec (f : FloatFmt) (hf : IsFloatTy f) :
    f.one < 2 ^ (1 + f.mbits + f.ebits) ∧ IsFinite f f.one ∧ floatValue f f.one = 1 ∧ f.neg f.one = false ∧ f.abs f.one = f.one := by
  have hs := stdFmt hf
  obtain ⟨o1, o2⟩ := f.one_eq hf
  have hol : f.one < 2 ^ (f.mbits + f.ebits) := f.le_inf_lt o2.le
  have ho := f.withSign_spec false f.one hol
  have ew : f.withSign false f.one = f.one := by unfold FloatFmt.withSign; simp
  rw [ew] at ho
  refine ⟨ho.2.2.2.2.1, ?_, ?_, ho.1, ho.2.2.2.2.2⟩
  · rw [(finite_abs_lt f _ ho.2.2.2.2.1).1, ho.2.2.2.2.2]; exact o2
  · rw [f.floatValue_eq hs.eb, ho.1, if_neg (by simp), o1]
    push_cast
    exact div_self (by positivity)

/-- The property of the loop for `powi`. -/
private theorem powi_ind (f : FloatFmt) (R : Nat → Nat → Prop) (x n : Nat) (h0 : R 0 f.one) (h1 : R 1 x)
    (hmul : ∀ k l a b, R k a → R l b → k + l ≤ n → 0 < l → R (k + l) (f.mul a b)) : R n (f.powiLoop x n f.one) := by
  have := f.powiLoop_ind R n hmul n x f.one 1 0 (by omega) h1 h0 (by omega)
  simpa using this

private theorem value_zero_iff (f : FloatFmt) (hf : IsFloatTy f) (x : Nat) : floatValue f x = 0 ↔ f.mag x = 0 := by
  rw [f.floatValue_eq (ebits_of hf)]
  have hQ : (2 : ℚ) ^ f.qexp ≠ 0 := by positivity
  split <;> simp [hQ]

/-! ### C91: exact results -/

/-- A number of the format. -/
def IsFloatNumber (f : FloatFmt) (v : ℚ) : Prop :=
  ∃ y, y < 2 ^ (1 + f.mbits + f.ebits) ∧ IsFinite f y ∧ floatValue f y = v

private theorem powi_exact (f : FloatFmt) (hf : IsFloatTy f) (x : Nat) (hx : x < 2 ^ (1 + f.mbits + f.ebits)) (hfx : IsFinite f x)
    (n : Nat) (h : ∀ j, j ≤ n → IsFloatNumber f (floatValue f x ^ j)) :
    f.powiLoop x n f.one < 2 ^ (1 + f.mbits + f.ebits) ∧ IsFinite f (f.powiLoop x n f.one) ∧
    floatValue f (f.powiLoop x n f.one) = floatValue f x ^ n := by
  obtain ⟨o1, o2, o3, -⟩ := one_spec f hf
  refine powi_ind f (fun k y => y < 2 ^ (1 + f.mbits + f.ebits) ∧ IsFinite f y ∧ floatValue f y = floatValue f x ^ k) x n
    ⟨o1, o2, by rw [o3, pow_zero]⟩ ⟨hx, hfx, by rw [pow_one]⟩ ?_
  rintro k l a b ⟨ha, hfa, va⟩ ⟨hb, hfb, vb⟩ hkl -
  have hn := (f.mul_rounds hf a b ha hb hfa hfb).nearest hf
  rw [va, vb, ← pow_add] at hn
  obtain ⟨z, hz, hfz, vz⟩ := h (k + l) hkl
  exact ⟨hn.1, f.nearest_exact hf hn z hz hfz vz⟩

private theorem powi_exact_int (f : FloatFmt) (hf : IsFloatTy f) (x : Nat) (hx : x < 2 ^ (1 + f.mbits + f.ebits)) (hfx : IsFinite f x)
    (b : Int) (h : ∀ j : Nat, j ≤ b.natAbs → IsFloatNumber f (floatValue f x ^ j))
    (hneg : b < 0 → floatValue f x ≠ 0 ∧ IsFloatNumber f (floatValue f x ^ b)) :
    IsFinite f (f.powi x b) ∧ floatValue f (f.powi x b) = floatValue f x ^ b := by
  obtain ⟨o1, o2, o3, -⟩ := one_spec f hf
  obtain ⟨p1, p2, p3⟩ := powi_exact f hf x hx hfx b.natAbs h
  unfold FloatFmt.powi
  dsimp only
  by_cases hb : b < 0
  · rw [if_pos hb]
    obtain ⟨v0, z, hz, hfz, vz⟩ := hneg hb
    have hn := (f.div_rounds hf f.one _ o1 p1 o2 p2 (by rw [p3]; exact pow_ne_zero _ v0)).nearest hf
    have e : (1 : ℚ) / floatValue f x ^ b.natAbs = floatValue f x ^ b := by
      have : b = -(b.natAbs : ℤ) := by omega
      conv_rhs => rw [this]
      rw [zpow_neg, zpow_natCast, one_div]
    rw [o3, p3, e] at hn
    exact f.nearest_exact hf hn z hz hfz vz
  · rw [if_neg hb]
    refine ⟨p2, ?_⟩
    rw [p3]
    have : b = (b.natAbs : ℤ) := by omega
    conv_rhs => rw [this]
    rw [zpow_natCast]

/-- **C91.** If the powers of the base up to the exponent are floats, EXPT with an integer exponent is exact. -/
theorem C91_exact (x : Nat) (b : Int) :
    (x < 2 ^ 32 → IsFinite .f32 x → (∀ j : Nat, j ≤ b.natAbs → IsFloatNumber .f32 (floatValue .f32 x ^ j)) →
      (b < 0 → floatValue .f32 x ≠ 0 ∧ IsFloatNumber .f32 (floatValue .f32 x ^ b)) →
      IsFinite .f32 (EXPT__REAL__DINT x b) ∧ floatValue .f32 (EXPT__REAL__DINT x b) = floatValue .f32 x ^ b) ∧
    (x < 2 ^ 64 → IsFinite .f64 x → (∀ j : Nat, j ≤ b.natAbs → IsFloatNumber .f64 (floatValue .f64 x ^ j)) →
      (b < 0 → floatValue .f64 x ≠ 0 ∧ IsFloatNumber .f64 (floatValue .f64 x ^ b)) →
      IsFinite .f64 (EXPT__LREAL__DINT x b) ∧ floatValue .f64 (EXPT__LREAL__DINT x b) = floatValue .f64 x ^ b) :=
  ⟨fun h1 h2 => powi_exact_int .f32 (.inl rfl) x h1 h2 b, fun h1 h2 => powi_exact_int .f64 (.inr rfl) x h1 h2 b⟩

/-- Numbers `m * 2^e` with a short significand are floats. -/
private theorem floatNumber_short (f : FloatFmt) (hf : IsFloatTy f) (s : Bool) (m j : Nat) (hm : m < 2 ^ (f.mbits + 1))
    (hlt : m * 2 ^ j < 2 ^ f.mbits * 2 ^ (f.emax - 1)) (v : ℚ)
    (hv : v = if s then -(((m * 2 ^ j : ℕ) : ℚ) / 2 ^ f.qexp) else ((m * 2 ^ j : ℕ) : ℚ) / 2 ^ f.qexp) : IsFloatNumber f v := by
  have hs := stdFmt hf
  obtain ⟨y, hy, ey⟩ := f.exists_pattern hs m hm j hlt
  have hy' := f.le_inf_lt hy.le
  obtain ⟨s1, s2, s3, s4, s5, s6⟩ := f.withSign_spec s y hy'
  refine ⟨f.withSign s y, s5, ?_, ?_⟩
  · rw [(finite_abs_lt f _ s5).1, s6]; exact hy
  · rw [f.floatValue_withSign hs.eb s y hy', ey, hv]

private theorem floatNumber_int (f : FloatFmt) (hf : IsFloatTy f) (i : Int) (hi : i.natAbs ≤ 2 ^ (f.mbits + 1)) :
    IsFloatNumber f i := by
  have hQ : (2 : ℚ) ^ f.qexp ≠ 0 := by positivity
  have hcast : ((i : ℤ) : ℚ) = if decide (i < 0) then -((i.natAbs : ℕ) : ℚ) else ((i.natAbs : ℕ) : ℚ) := by
    split
    · rename_i h
      have h := of_decide_eq_true h
      have : i = -(i.natAbs : ℤ) := by omega
      have := congrArg (Int.cast : ℤ → ℚ) this
      rw [Int.cast_neg, Int.cast_natCast] at this
      exact this
    · rename_i h
      have h : ¬ i < 0 := fun h' => h (decide_eq_true h')
      have : i = (i.natAbs : ℤ) := by omega
      have := congrArg (Int.cast : ℤ → ℚ) this
      rw [Int.cast_natCast] at this
      exact this
  rcases Nat.lt_or_eq_of_le hi with h | h
  · refine floatNumber_short f hf (decide (i < 0)) i.natAbs f.qexp h ?_ _ ?_
    · refine lt_of_lt_of_le (Nat.mul_lt_mul_of_pos_right h (Nat.two_pow_pos _)) ?_
      rcases hf with rfl | rfl <;> decide +kernel
    · rw [hcast]
      push_cast
      split <;> field_simp
  · refine floatNumber_short f hf (decide (i < 0)) 1 (f.qexp + (f.mbits + 1)) (Nat.one_lt_two_pow (by omega)) ?_ _ ?_
    · rcases hf with rfl | rfl <;> decide +kernel
    · rw [hcast, h]
      push_cast
      split <;> field_simp <;> ring

private theorem powi_integers (f : FloatFmt) (hf : IsFloatTy f) (x : Nat) (hx : x < 2 ^ (1 + f.mbits + f.ebits)) (hfx : IsFinite f x)
    (i : Int) (hi : floatValue f x = i) (n : Nat) (h : i.natAbs ^ n ≤ 2 ^ (f.mbits + 1)) :
    IsFinite f (f.powi x n) ∧ floatValue f (f.powi x n) = i ^ n := by
  have := powi_exact_int f hf x hx hfx n (by
    intro j hj
    rw [hi]
    have := floatNumber_int f hf (i ^ j) (by
      rw [Int.natAbs_pow]
      rcases Nat.eq_zero_or_pos i.natAbs with h0 | h0
      · rw [h0]
        refine le_trans (?_ : _ ≤ 1) (Nat.one_le_two_pow)
        rcases Nat.eq_zero_or_pos j with rfl | hj'
        · simp
        · rw [Nat.zero_pow hj']; omega
      · exact le_trans (Nat.pow_le_pow_right h0 (by simpa using hj)) h)
    push_cast at this
    exact this) (fun hb => by omega)
  rw [hi, zpow_natCast] at this
  exact this

/-- **C91**, for bases that are integers: exact as long as the result is at most `2^24` (REAL) resp. `2^53` (LREAL). -/
theorem C91_integers (x : Nat) (i : Int) (n : Nat) :
    (x < 2 ^ 32 → IsFinite .f32 x → floatValue .f32 x = i → i.natAbs ^ n ≤ 2 ^ 24 →
      IsFinite .f32 (EXPT__REAL__DINT x n) ∧ floatValue .f32 (EXPT__REAL__DINT x n) = i ^ n) ∧
    (x < 2 ^ 64 → IsFinite .f64 x → floatValue .f64 x = i → i.natAbs ^ n ≤ 2 ^ 53 →
      IsFinite .f64 (EXPT__LREAL__DINT x n) ∧ floatValue .f64 (EXPT__LREAL__DINT x n) = i ^ n) :=
  ⟨fun h1 h2 h3 h4 => powi_integers .f32 (.inl rfl) x h1 h2 i h3 n h4,
   fun h1 h2 h3 h4 => powi_integers .f64 (.inr rfl) x h1 h2 i h3 n h4⟩

/-- `(-3)^3 = -27` as LREAL and `7^8 = 5764801` as REAL. -/
example : floatValue .f64 0xC008000000000000 = ((-3 : ℤ) : ℚ) ∧ EXPT__LREAL__DINT 0xC008000000000000 3 = 0xC03B000000000000 ∧
    floatValue .f64 0xC03B000000000000 = -27 ∧ (-3 : ℤ).natAbs ^ 3 ≤ 2 ^ 53 := by
  refine ⟨by norm_num [floatValue, FloatFmt.f64], by decide +kernel, by norm_num [floatValue, FloatFmt.f64], by decide⟩
example : EXPT__REAL__DINT 0x40E00000 8 = 0x4AAFED82 ∧ floatValue .f32 0x4AAFED82 = 7 ^ 8 := by
  refine ⟨by decide +kernel, by norm_num [floatValue, FloatFmt.f32]⟩

/-- `0.125` is `2.0 ^ -3`: the hypotheses of `C91_exact` for a negative exponent. -/
example : (∀ j : Nat, j ≤ (-3 : Int).natAbs → IsFloatNumber .f64 (floatValue .f64 0x4000000000000000 ^ j)) ∧
    floatValue .f64 0x4000000000000000 ≠ 0 ∧ IsFloatNumber .f64 (floatValue .f64 0x4000000000000000 ^ (-3 : Int)) ∧
    EXPT__LREAL__DINT 0x4000000000000000 (-3) = 0x3FC0000000000000 := by
  have hv : floatValue .f64 0x4000000000000000 = 2 := by norm_num [floatValue, FloatFmt.f64]
  rw [hv]
  refine ⟨fun j hj => ?_, by norm_num, ⟨0x3FC0000000000000, by norm_num [FloatFmt.f64], by unfold IsFinite; decide, ?_⟩, by decide +kernel⟩
  · have := floatNumber_int .f64 (.inr rfl) (2 ^ j) (by
      rw [Int.natAbs_pow]
      exact Nat.pow_le_pow_right (by decide) (le_trans hj (by decide)))
    push_cast at this
    exact this
  · norm_num [floatValue, FloatFmt.f64]

/-! ### Special values -/

/-- The property of all computed powers of a base that is not NaN: its sign, and on which side of 1 its magnitude is. -/
private theorem powi_sign (f : FloatFmt) (hf : IsFloatTy f) (x : Nat) (hx : x < 2 ^ (1 + f.mbits + f.ebits)) (hn : ¬ IsNaN f x) (n : Nat) :
    f.powiLoop x n f.one < 2 ^ (1 + f.mbits + f.ebits) ∧ f.abs (f.powiLoop x n f.one) ≤ f.inf ∧
    f.neg (f.powiLoop x n f.one) = (f.neg x && decide (n % 2 = 1)) ∧
    (f.one ≤ f.abs x → f.one ≤ f.abs (f.powiLoop x n f.one)) ∧
    (f.abs x ≤ f.one → f.abs (f.powiLoop x n f.one) ≤ f.one) := by
  have hs := stdFmt hf
  obtain ⟨o1, o2, o3, o4, o5⟩ := one_spec f hf
  obtain ⟨q1, q2⟩ := f.one_eq hf
  have hQ : 0 < 2 ^ f.qexp := Nat.two_pow_pos _
  have hone : f.roundMag (2 ^ f.qexp * 2 ^ f.qexp) (2 ^ f.qexp) = f.one :=
    f.roundMag_exact hs.m1 hs.e2 _ _ _ hQ q2.le (by rw [q1])
  have hxi := (finite_abs_lt f x hx).2.1.1 hn
  refine powi_ind f (fun k y => y < 2 ^ (1 + f.mbits + f.ebits) ∧ f.abs y ≤ f.inf ∧
    f.neg y = (f.neg x && decide (k % 2 = 1)) ∧ (f.one ≤ f.abs x → f.one ≤ f.abs y) ∧ (f.abs x ≤ f.one → f.abs y ≤ f.one)) x n
    ⟨o1, by rw [o5]; omega, by rw [o4]; simp, by rw [o5]; simp, by rw [o5]; simp⟩ ⟨hx, hxi, by simp, id, id⟩ ?_
  rintro k l a b ⟨ha, ia, sa, ga, la⟩ ⟨hb, ib, sb, gb, lb⟩ - -
  have key : f.mulPos (f.abs a) (f.abs b) ≤ f.inf ∧ (f.one ≤ f.abs x → f.one ≤ f.mulPos (f.abs a) (f.abs b)) ∧
      (f.abs x ≤ f.one → f.mulPos (f.abs a) (f.abs b) ≤ f.one) := by
    rcases Nat.lt_or_ge (f.abs a) f.inf with hal | hai
    · rcases Nat.lt_or_ge (f.abs b) f.inf with hbl | hbi
      · rw [f.mulPos_finite hal hbl]
        refine ⟨f.roundMag_le_inf _ _, fun h => ?_, fun h => ?_⟩
        · conv_lhs => rw [← hone]
          refine f.roundMag_mono hs.m1 hs.e2 _ _ _ _ hQ hQ ?_
          have h1 : 2 ^ f.qexp ≤ f.mag (f.abs a) := by rw [← q1]; exact f.mag_le (ga h) (lt_trans hal f.inf_lt)
          have h2 : 2 ^ f.qexp ≤ f.mag (f.abs b) := by rw [← q1]; exact f.mag_le (gb h) (lt_trans hbl f.inf_lt)
          have := Nat.mul_le_mul h1 h2
          rw [div_le_div_iff_of_pos_right (by exact_mod_cast hQ)]
          exact_mod_cast this
        · conv_rhs => rw [← hone]
          refine f.roundMag_mono hs.m1 hs.e2 _ _ _ _ hQ hQ ?_
          have h1 : f.mag (f.abs a) ≤ 2 ^ f.qexp := by rw [← q1]; exact f.mag_le (la h) (lt_trans q2 f.inf_lt)
          have h2 : f.mag (f.abs b) ≤ 2 ^ f.qexp := by rw [← q1]; exact f.mag_le (lb h) (lt_trans q2 f.inf_lt)
          have := Nat.mul_le_mul h1 h2
          rw [div_le_div_iff_of_pos_right (by exact_mod_cast hQ)]
          exact_mod_cast this
      · have hbe : f.abs b = f.inf := by omega
        have hg : f.one ≤ f.abs x := by
          by_contra hc; have := lb (by omega); omega
        have h1 : 2 ^ f.qexp ≤ f.mag (f.abs a) := by rw [← q1]; exact f.mag_le (ga hg) (lt_trans hal f.inf_lt)
        have h2 := mag_lt_inf f _ q2
        have hm : f.mulPos (f.abs a) (f.abs b) = f.inf := by
          unfold FloatFmt.mulPos
          rw [hbe, f.not_nan_le ia, f.inf_spec.1, f.inf_spec.2]
          simp only [Bool.false_eq_true, or_self, if_false, or_true, if_true]
          rw [if_neg (by omega)]
        rw [hm]
        exact ⟨le_refl _, fun _ => q2.le, fun h => by have := lb h; omega⟩
    · have hae : f.abs a = f.inf := by omega
      have hg : f.one ≤ f.abs x := by
        by_contra hc; have := la (by omega); omega
      have h1 : 2 ^ f.qexp ≤ f.mag (f.abs b) := by
        rw [← q1]; exact f.mag_le (gb hg) (lt_of_le_of_lt ib f.inf_lt)
      have h2 := mag_lt_inf f _ q2
      have hm : f.mulPos (f.abs a) (f.abs b) = f.inf := by
        unfold FloatFmt.mulPos
        rw [hae, f.not_nan_le ib, f.inf_spec.1, f.inf_spec.2]
        simp only [Bool.false_eq_true, or_self, if_false, true_or, if_true]
        rw [if_neg (by omega)]
      rw [hm]
      exact ⟨le_refl _, fun _ => q2.le, fun h => by have := la h; omega⟩
  obtain ⟨m1, m2, m3⟩ := f.mul_spec key.1
  rw [m2, m1, sa, sb]
  refine ⟨m3, key.1, ?_, key.2.1, key.2.2⟩
  cases f.neg x with
  | false => simp
  | true =>
    rcases Nat.mod_two_eq_zero_or_one k with h | h <;> rcases Nat.mod_two_eq_zero_or_one l with h' | h' <;>
      simp [h, h', Nat.add_mod]

private theorem divPos_one_le_inf (f : FloatFmt) (hf : IsFloatTy f) (p : Nat) (hp : p ≤ f.inf) : f.divPos f.one p ≤ f.inf := by
  obtain ⟨q1, q2⟩ := f.one_eq hf
  unfold FloatFmt.divPos
  rw [f.not_nan_le hp, (f.finite_of_lt_inf q2).1, (f.finite_of_lt_inf q2).2]
  have : f.mag f.one ≠ 0 := by rw [q1]; positivity
  simp only [Bool.false_eq_true, or_self, if_false, this]
  split
  · omega
  · split
    · exact le_refl _
    · exact f.roundMag_le_inf _ _

private theorem powi_special (f : FloatFmt) (hf : IsFloatTy f) (x : Nat) (hx : x < 2 ^ (1 + f.mbits + f.ebits)) (b : Int) :
    (IsNaN f (f.powi x b) ↔ IsNaN f x ∧ b ≠ 0) ∧ (f.powi x 0 = f.one) ∧ (¬ IsNaN f x → f.powi x 1 = x) ∧
    (¬ IsNaN f x → (SignBit f (f.powi x b) ↔ SignBit f x ∧ b % 2 = 1)) := by
  have hs := stdFmt hf
  obtain ⟨o1, o2, o3, o4, o5⟩ := one_spec f hf
  have h0 : f.powi x 0 = f.one := by
    unfold FloatFmt.powi; rw [FloatFmt.powiLoop]; simp
  -- a base that is not NaN
  have hmain : ¬ IsNaN f x → ¬ IsNaN f (f.powi x b) ∧ (SignBit f (f.powi x b) ↔ SignBit f x ∧ b % 2 = 1) := by
    intro hn
    obtain ⟨p1, p2, p3, -⟩ := powi_sign f hf x hx hn b.natAbs
    have hpar : decide (b.natAbs % 2 = 1) = decide (b % 2 = 1) := by
      congr 1; rw [eq_iff_iff]; omega
    rw [hpar] at p3
    unfold FloatFmt.powi
    dsimp only
    split
    · have hd : f.divPos (f.abs f.one) (f.abs (f.powiLoop x b.natAbs f.one)) ≤ f.inf := by
        rw [o5]; exact divPos_one_le_inf f hf _ p2
      obtain ⟨d1, d2, d3⟩ := f.div_spec hd
      refine ⟨?_, ?_⟩
      · rw [(finite_abs_lt f _ d3).2.1, d2]; exact hd
      · rw [signBit_iff, signBit_iff, d1, o4, p3]; simp
    · refine ⟨?_, ?_⟩
      · rw [(finite_abs_lt f _ p1).2.1]; exact p2
      · rw [signBit_iff, signBit_iff, p3]; simp
  refine ⟨?_, h0, ?_, fun h => (hmain h).2⟩
  · constructor
    · intro h
      refine ⟨?_, ?_⟩
      · by_contra hc
        exact (hmain hc).1 h
      · rintro rfl
        rw [h0] at h
        exact (not_isNaN_iff f _).2 o2.nan h
    · rintro ⟨hnan, hb⟩
      have hl := powi_ind f (fun k y => y < 2 ^ (1 + f.mbits + f.ebits) ∧ (0 < k → f.is_nan y = true)) x b.natAbs
        ⟨o1, by simp⟩ ⟨hx, fun _ => (isNaN_iff f x).1 hnan⟩ (by
          rintro k l a c ⟨ha, na⟩ ⟨hc, nc⟩ - hl
          obtain ⟨m1, m2⟩ := f.mul_nan hs a c ha hc (.inr (nc hl))
          exact ⟨m2, fun _ => m1⟩)
      have hln := hl.2 (by omega)
      rw [isNaN_iff]
      unfold FloatFmt.powi
      dsimp only
      split
      · unfold FloatFmt.div FloatFmt.divPos
        rw [(finite_abs_lt f _ hl.1).2.2.2.1] at hln
        dsimp only
        rw [if_pos (show f.is_nan (f.abs f.one) = true ∨ f.is_nan (f.abs (f.powiLoop x b.natAbs f.one)) = true from .inr hln),
          f.nan_spec hs.m1, if_pos rfl]
        exact f.nan_spec hs.m1
      · exact hln
  · intro hn
    unfold FloatFmt.powi
    rw [FloatFmt.powiLoop]
    simp [f.one_mul' hf x hx hn]

/-- **C91**, special cases: NaN exactly for a NaN base and an exponent other than 0; `x^0 = 1` for every base,
`x^1 = x`; the sign. -/
theorem C91_special (x : Nat) (b : Int) :
    (x < 2 ^ 32 →
      (IsNaN .f32 (EXPT__REAL__DINT x b) ↔ IsNaN .f32 x ∧ b ≠ 0) ∧ EXPT__REAL__DINT x 0 = 0x3F800000 ∧
      (¬ IsNaN .f32 x → EXPT__REAL__DINT x 1 = x) ∧
      (¬ IsNaN .f32 x → (SignBit .f32 (EXPT__REAL__DINT x b) ↔ SignBit .f32 x ∧ b % 2 = 1))) ∧
    (x < 2 ^ 64 →
      (IsNaN .f64 (EXPT__LREAL__DINT x b) ↔ IsNaN .f64 x ∧ b ≠ 0) ∧ EXPT__LREAL__DINT x 0 = 0x3FF0000000000000 ∧
      (¬ IsNaN .f64 x → EXPT__LREAL__DINT x 1 = x) ∧
      (¬ IsNaN .f64 x → (SignBit .f64 (EXPT__LREAL__DINT x b) ↔ SignBit .f64 x ∧ b % 2 = 1))) := by
  have e1 : FloatFmt.f32.one = 0x3F800000 := by decide +kernel
  have e2 : FloatFmt.f64.one = 0x3FF0000000000000 := by decide +kernel
  constructor
  · intro h; have := powi_special .f32 (.inl rfl) x h b
    rw [e1] at this; exact this
  · intro h; have := powi_special .f64 (.inr rfl) x h b
    rw [e2] at this; exact this

/-- NaN to the 0 is 1; `(-0.0)^-3` is minus infinity, `(-inf)^-3` is `-0.0`. -/
example : IsNaN .f64 0x7FF8000000000000 ∧ EXPT__LREAL__DINT 0x7FF8000000000000 0 = 0x3FF0000000000000 ∧
    EXPT__LREAL__DINT 0x8000000000000000 (-3) = 0xFFF0000000000000 ∧
    EXPT__LREAL__DINT 0xFFF0000000000000 (-3) = 0x8000000000000000 := by
  refine ⟨by unfold IsNaN; decide, ?_⟩
  decide +kernel

/-! ### C92: accuracy -/

/-- The smallest normal number of the format, `2^-126` for REAL and `2^-1022` for LREAL. -/
def minNormal (f : FloatFmt) : ℚ := 2 ^ (2 - 2 ^ (f.ebits - 1) : ℤ)

/-- The smallest normal number and twice its reciprocal, in units. -/
theorem minNormal_units (f : FloatFmt) (hf : IsFloatTy f) :
    (2 : ℚ) ^ f.mbits / 2 ^ f.qexp = minNormal f ∧
    (2 : ℚ) ^ (2 * f.qexp - 2 * f.mbits + 1 + f.mbits) / 2 ^ f.qexp = 2 / minNormal f ∧ 0 < minNormal f ∧ minNormal f ≤ 1 := by
  unfold minNormal
  refine ⟨?_, ?_, by positivity, ?_⟩
  · rw [← zpow_natCast, ← zpow_natCast, ← zpow_sub₀ (by norm_num)]
    congr 1
    rcases hf with rfl | rfl <;> decide
  · rw [← zpow_natCast, ← zpow_natCast, ← zpow_sub₀ (by norm_num)]
    rw [show (2 : ℚ) / 2 ^ (2 - 2 ^ (f.ebits - 1) : ℤ) = 2 ^ (1 - (2 - 2 ^ (f.ebits - 1)) : ℤ) by
      rw [zpow_sub₀ (by norm_num) 1, zpow_one]]
    congr 1
    rcases hf with rfl | rfl <;> decide
  · refine zpow_le_one_of_nonpos₀ (by norm_num) ?_
    rcases hf with rfl | rfl <;> decide

private theorem pow_between (c : ℚ) (hc : 0 < c) (m : ℚ) (hm1 : m ≤ 1) (n j : Nat) (hj : j ≤ n) (h : m ≤ c ^ n) : m ≤ c ^ j := by
  rcases le_total c 1 with h1 | h1
  · exact h.trans (pow_le_pow_of_le_one hc.le h1 hj)
  · exact hm1.trans (one_le_pow₀ h1)

private theorem pow_between' (c : ℚ) (hc : 0 < c) (m : ℚ) (hm1 : 1 ≤ m) (n j : Nat) (hj : j ≤ n) (h : c ^ n ≤ m) : c ^ j ≤ m := by
  rcases le_total c 1 with h1 | h1
  · exact (pow_le_one₀ hc.le h1).trans hm1
  · exact (pow_le_pow_right₀ h1 hj).trans h

private theorem halfUlp_range (f : FloatFmt) : 0 < halfUlp f ∧ halfUlp f < 1 := by
  unfold halfUlp
  refine ⟨by positivity, ?_⟩
  rw [div_lt_one (by positivity)]
  exact one_lt_pow₀ (by norm_num) (by omega)

private theorem powi_err (f : FloatFmt) (hf : IsFloatTy f) (x : Nat) (hx : x < 2 ^ (1 + f.mbits + f.ebits)) (hfx : IsFinite f x)
    (n : Nat) (hn : 0 < n) (hlo : minNormal f ≤ ((1 - halfUlp f) * |floatValue f x|) ^ n)
    (hhi : ((1 + halfUlp f) * |floatValue f x|) ^ n ≤ 2 / minNormal f) :
    f.powiLoop x n f.one < 2 ^ (1 + f.mbits + f.ebits) ∧ IsFinite f (f.powiLoop x n f.one) ∧
    ∃ δ, floatValue f (f.powiLoop x n f.one) = floatValue f x ^ n * δ ∧ (1 - halfUlp f) ^ (n - 1) ≤ δ ∧ δ ≤ (1 + halfUlp f) ^ (n - 1) := by
  obtain ⟨o1, o2, o3, -, -⟩ := one_spec f hf
  obtain ⟨r1, r2, r3, r4⟩ := minNormal_units f hf
  obtain ⟨u1, u2⟩ := halfUlp_range f
  set u := halfUlp f with hu
  set v := floatValue f x with hv
  have hl0 : (0 : ℚ) < 1 - u := by linarith
  have hv0 : 0 < |v| := by
    rcases (abs_nonneg v).lt_or_eq with h | h
    · exact h
    · rw [← h, mul_zero, zero_pow hn.ne'] at hlo; linarith
  have hmx : (1 : ℚ) ≤ 2 / minNormal f := by rw [le_div_iff₀ r3]; linarith
  have hmain := powi_ind f (fun k y => y < 2 ^ (1 + f.mbits + f.ebits) ∧ IsFinite f y ∧ (k = 0 → y = f.one) ∧
    ∃ δ, floatValue f y = v ^ k * δ ∧ (1 - u) ^ (k - 1) ≤ δ ∧ δ ≤ (1 + u) ^ (k - 1)) x n
    ⟨o1, o2, fun _ => rfl, 1, by rw [o3]; simp, by simp, by simp⟩
    ⟨hx, hfx, by simp, 1, by rw [← hv]; simp, by simp, by simp⟩ (by
      rintro k l a b ⟨ha, hfa, za, δa, va, la, ga⟩ ⟨hb, hfb, zb, δb, vb, lb, gb⟩ hkl hl
      rcases Nat.eq_zero_or_pos k with rfl | hk
      · rw [za rfl, f.one_mul' hf b hb ((not_isNaN_iff f b).2 hfb.nan), Nat.zero_add]
        exact ⟨hb, hfb, zb, δb, vb, lb, gb⟩
      · have pa : 0 < δa := lt_of_lt_of_le (pow_pos hl0 _) la
        have pb : 0 < δb := lt_of_lt_of_le (pow_pos hl0 _) lb
        have hr := f.mul_rounds hf a b ha hb hfa hfb
        have ep : floatValue f a * floatValue f b = v ^ (k + l) * (δa * δb) := by rw [va, vb, pow_add]; ring
        have eab : |floatValue f a * floatValue f b| = |v| ^ (k + l) * (δa * δb) := by
          rw [ep, abs_mul, abs_pow, abs_of_pos (mul_pos pa pb)]
        have e2 : k - 1 + (l - 1) + 1 = k + l - 1 := by omega
        have dlo : (1 - u) ^ (k - 1 + (l - 1)) ≤ δa * δb := by
          rw [pow_add]; exact mul_le_mul la lb (pow_nonneg hl0.le _) pa.le
        have dhi : δa * δb ≤ (1 + u) ^ (k - 1 + (l - 1)) := by
          rw [pow_add]; exact mul_le_mul ga gb pb.le (by positivity)
        have vpos : 0 < |v| ^ (k + l) := pow_pos hv0 _
        obtain ⟨t1, t2, δ, t3, t4, t5⟩ := hr.err hf (by
            rw [r1, eab]
            refine (pow_between _ (mul_pos hl0 hv0) _ r4 n (k + l) hkl hlo).trans ?_
            rw [mul_pow, mul_comm]
            refine mul_le_mul_of_nonneg_left (le_trans ?_ dlo) vpos.le
            exact pow_le_pow_of_le_one hl0.le (by linarith) (by omega)) (by
            rw [r2, eab]
            refine le_trans ?_ (pow_between' _ (mul_pos (by linarith) hv0) _ hmx n (k + l) hkl hhi)
            rw [mul_pow, mul_comm ((1 + u) ^ _)]
            refine mul_le_mul_of_nonneg_left (dhi.trans ?_) vpos.le
            exact pow_le_pow_right₀ (by linarith) (by omega))
        have pδ : 0 < δ := lt_of_lt_of_le hl0 t4
        refine ⟨t1, t2, by omega, δa * δb * δ, ?_, ?_, ?_⟩
        · rw [t3, ep]; ring
        · rw [← e2, pow_succ]
          exact mul_le_mul dlo t4 hl0.le (mul_pos pa pb).le
        · rw [← e2, pow_succ]
          exact mul_le_mul dhi t5 pδ.le (by positivity))
  exact ⟨hmain.1, hmain.2.1, hmain.2.2.2⟩

private theorem powi_err_neg (f : FloatFmt) (hf : IsFloatTy f) (x : Nat) (hx : x < 2 ^ (1 + f.mbits + f.ebits)) (hfx : IsFinite f x)
    (n : Nat) (hn : 0 < n) (hlo : minNormal f ≤ ((1 - halfUlp f) * |floatValue f x|) ^ n)
    (hhi : ((1 + halfUlp f) * |floatValue f x|) ^ n ≤ 1 / minNormal f) :
    IsFinite f (f.powi x (-(n : ℤ))) ∧ ∃ δ, floatValue f (f.powi x (-(n : ℤ))) = floatValue f x ^ (-(n : ℤ)) * δ ∧
      (1 - halfUlp f) / (1 + halfUlp f) ^ (n - 1) ≤ δ ∧ δ ≤ (1 + halfUlp f) / (1 - halfUlp f) ^ (n - 1) := by
  obtain ⟨o1, o2, o3, -, -⟩ := one_spec f hf
  obtain ⟨r1, r2, r3, r4⟩ := minNormal_units f hf
  obtain ⟨u1, u2⟩ := halfUlp_range f
  have hl0 : (0 : ℚ) < 1 - halfUlp f := by linarith
  obtain ⟨p1, p2, δ, p3, p4, p5⟩ := powi_err f hf x hx hfx n hn hlo
    (hhi.trans (by rw [div_le_div_iff_of_pos_right r3]; norm_num))
  have hv0 : floatValue f x ≠ 0 := by
    intro h
    rw [h, abs_zero, mul_zero, zero_pow hn.ne'] at hlo; linarith
  have pδ : 0 < δ := lt_of_lt_of_le (pow_pos hl0 _) p4
  have hav : 0 < |floatValue f x| ^ n := pow_pos (abs_pos.2 hv0) n
  have hr := f.div_rounds hf f.one _ o1 p1 o2 p2 (by rw [p3]; exact mul_ne_zero (pow_ne_zero _ hv0) pδ.ne')
  rw [o3, p3] at hr
  have eab : |1 / (floatValue f x ^ n * δ)| = 1 / (|floatValue f x| ^ n * δ) := by
    rw [abs_div, abs_one, abs_mul, abs_pow, abs_of_pos pδ]
  obtain ⟨t1, t2, δ', t3, t4, t5⟩ := hr.err hf (by
      rw [r1, eab, le_div_iff₀ (by positivity)]
      rw [le_div_iff₀ r3] at hhi
      refine le_trans ?_ hhi
      rw [mul_comm (minNormal f)]
      refine mul_le_mul_of_nonneg_right ?_ r3.le
      rw [mul_pow, mul_comm ((1 + halfUlp f) ^ n)]
      refine mul_le_mul_of_nonneg_left (p5.trans ?_) hav.le
      exact pow_le_pow_right₀ (by linarith) (by omega)) (by
      rw [r2, eab, div_le_div_iff₀ (by positivity) r3, one_mul]
      refine hlo.trans ?_
      rw [mul_pow, mul_comm ((1 - halfUlp f) ^ n)]
      have : (1 - halfUlp f) ^ n ≤ δ := le_trans (pow_le_pow_of_le_one hl0.le (by linarith) (by omega)) p4
      have := mul_le_mul_of_nonneg_left this hav.le
      have h2 := mul_pos hav pδ
      linarith)
  have pδ' : 0 < δ' := lt_of_lt_of_le hl0 t4
  have e : f.powi x (-(n : ℤ)) = f.div f.one (f.powiLoop x n f.one) := by
    unfold FloatFmt.powi
    dsimp only
    rw [if_pos (by omega), Int.natAbs_neg, Int.natAbs_natCast]
  rw [e]
  refine ⟨t2, δ' / δ, ?_, ?_, ?_⟩
  · rw [t3, zpow_neg, zpow_natCast]; field_simp
  · exact div_le_div₀ pδ'.le t4 pδ p5
  · exact div_le_div₀ (by linarith) t5 (pow_pos hl0 _) p4

/-- **C92.** Away from overflow and underflow the computed power of a finite number is the exact power times a factor
near 1: `n - 1` roundings for a positive exponent `n`, `n` for the exponent `-n`. -/
theorem C92_accuracy (x n : Nat) (hn : 0 < n) :
    (x < 2 ^ 32 → IsFinite .f32 x → minNormal .f32 ≤ ((1 - halfUlp .f32) * |floatValue .f32 x|) ^ n →
      (((1 + halfUlp .f32) * |floatValue .f32 x|) ^ n ≤ 2 / minNormal .f32 →
        IsFinite .f32 (EXPT__REAL__DINT x n) ∧ ∃ δ, floatValue .f32 (EXPT__REAL__DINT x n) = floatValue .f32 x ^ n * δ ∧
          (1 - halfUlp .f32) ^ (n - 1) ≤ δ ∧ δ ≤ (1 + halfUlp .f32) ^ (n - 1)) ∧
      (((1 + halfUlp .f32) * |floatValue .f32 x|) ^ n ≤ 1 / minNormal .f32 →
        IsFinite .f32 (EXPT__REAL__DINT x (-n)) ∧ ∃ δ, floatValue .f32 (EXPT__REAL__DINT x (-n)) = floatValue .f32 x ^ (-(n : ℤ)) * δ ∧
          (1 - halfUlp .f32) / (1 + halfUlp .f32) ^ (n - 1) ≤ δ ∧ δ ≤ (1 + halfUlp .f32) / (1 - halfUlp .f32) ^ (n - 1))) ∧
    (x < 2 ^ 64 → IsFinite .f64 x → minNormal .f64 ≤ ((1 - halfUlp .f64) * |floatValue .f64 x|) ^ n →
      (((1 + halfUlp .f64) * |floatValue .f64 x|) ^ n ≤ 2 / minNormal .f64 →
        IsFinite .f64 (EXPT__LREAL__DINT x n) ∧ ∃ δ, floatValue .f64 (EXPT__LREAL__DINT x n) = floatValue .f64 x ^ n * δ ∧
          (1 - halfUlp .f64) ^ (n - 1) ≤ δ ∧ δ ≤ (1 + halfUlp .f64) ^ (n - 1)) ∧
      (((1 + halfUlp .f64) * |floatValue .f64 x|) ^ n ≤ 1 / minNormal .f64 →
        IsFinite .f64 (EXPT__LREAL__DINT x (-n)) ∧ ∃ δ, floatValue .f64 (EXPT__LREAL__DINT x (-n)) = floatValue .f64 x ^ (-(n : ℤ)) * δ ∧
          (1 - halfUlp .f64) / (1 + halfUlp .f64) ^ (n - 1) ≤ δ ∧ δ ≤ (1 + halfUlp .f64) / (1 - halfUlp .f64) ^ (n - 1))) := by
  have hp : ∀ f : FloatFmt, f.powi x (n : ℤ) = f.powiLoop x n f.one := by
    intro f; unfold FloatFmt.powi; dsimp only; rw [if_neg (by omega), Int.natAbs_natCast]
  constructor
  · intro h1 h2 h3
    refine ⟨fun h4 => ?_, powi_err_neg .f32 (.inl rfl) x h1 h2 n hn h3⟩
    unfold EXPT__REAL__DINT
    rw [hp]
    exact (powi_err .f32 (.inl rfl) x h1 h2 n hn h3 h4).2
  · intro h1 h2 h3
    refine ⟨fun h4 => ?_, powi_err_neg .f64 (.inr rfl) x h1 h2 n hn h3⟩
    unfold EXPT__LREAL__DINT
    rw [hp]
    exact (powi_err .f64 (.inr rfl) x h1 h2 n hn h3 h4).2

/-- The hypotheses hold for `1.1 ^ 10` and `1.1 ^ -10`. -/
example : (0x3FF199999999999A : Nat) < 2 ^ 64 ∧ IsFinite .f64 0x3FF199999999999A ∧
    minNormal .f64 ≤ ((1 - halfUlp .f64) * |floatValue .f64 0x3FF199999999999A|) ^ 10 ∧
    ((1 + halfUlp .f64) * |floatValue .f64 0x3FF199999999999A|) ^ 10 ≤ 1 / minNormal .f64 := by
  have hv : floatValue .f64 0x3FF199999999999A = 2476979795053773 / 2251799813685248 := by norm_num [floatValue, FloatFmt.f64]
  have hu : halfUlp .f64 = 1 / 2 ^ 53 := rfl
  have hm := minNormal_units .f64 (.inr rfl)
  have hm2 : minNormal .f64 ≤ 1 / 2 := by
    have : minNormal .f64 ≤ 2 ^ (-1 : ℤ) := by
      unfold minNormal
      exact zpow_le_zpow_right₀ (by norm_num) (by decide)
    norm_num at this ⊢
    exact this
  have hm3 : (100 : ℚ) ≤ 1 / minNormal .f64 := by
    rw [le_div_iff₀ hm.2.2.1]
    have : minNormal .f64 ≤ 2 ^ (-7 : ℤ) := by
      unfold minNormal
      exact zpow_le_zpow_right₀ (by norm_num) (by decide)
    norm_num at this ⊢
    linarith
  refine ⟨by norm_num, by unfold IsFinite; decide, hm2.trans ?_, le_trans ?_ hm3⟩
  · rw [hv, hu]; norm_num [abs_of_pos]
  · rw [hv, hu]; norm_num [abs_of_pos]

/-! ### C93: exponents of other integer types -/

/-- **C93** is false: the exponent is cut to 32 bits. `2.0 ^ 4294967296` as ULINT is 1, `2.0 ^ 4294967295` as UDINT is
0.5, and `2.0 ^ 2147483648` as LINT is 0 (all should be infinite). -/
theorem C93_refuted :
    EXPT__LREAL__int 0x4000000000000000 4294967296 = 0x3FF0000000000000 ∧
    EXPT__LREAL__int 0x4000000000000000 4294967295 = 0x3FE0000000000000 ∧
    EXPT__REAL__int 0x40000000 4294967296 = 0x3F800000 ∧
    EXPT__REAL__int 0x40000000 4294967295 = 0x3F000000 ∧
    EXPT__LREAL__int 0x4000000000000000 2147483648 = 0 := by
  decide +kernel

/-- **C93**, what holds: for exponents in the range of DINT, in particular all of the types SINT, INT, USINT, UINT, the result
is that of the DINT function; in general only the exponent modulo `2^32` matters, so UDINT exponents from `2^31` on act as negative ones. -/
theorem C93_partial (x : Nat) (b : Int) :
    (-2147483648 ≤ b → b ≤ 2147483647 →
      EXPT__REAL__int x b = EXPT__REAL__DINT x b ∧ EXPT__LREAL__int x b = EXPT__LREAL__DINT x b) ∧
    (∀ b', b' % 4294967296 = b % 4294967296 →
      EXPT__REAL__int x b' = EXPT__REAL__int x b ∧ EXPT__LREAL__int x b' = EXPT__LREAL__int x b) ∧
    (2147483648 ≤ b → b ≤ 4294967295 →
      EXPT__REAL__int x b = EXPT__REAL__DINT x (b - 4294967296) ∧ EXPT__LREAL__int x b = EXPT__LREAL__DINT x (b - 4294967296)) := by
  have hw : ∀ c : Int, IntTy.i32.wrap c = if c % 4294967296 < 2147483648 then c % 4294967296 else c % 4294967296 - 4294967296 := by
    intro c
    have e : IntTy.i32.wrap c = Int.bmod c 4294967296 := rfl
    rw [e, Int.bmod_def]; rfl
  unfold EXPT__REAL__int EXPT__LREAL__int
  refine ⟨fun h1 h2 => ?_, fun b' h => ?_, fun h1 h2 => ?_⟩
  · have : IntTy.i32.wrap b = b := by rw [hw]; split <;> omega
    rw [this]; exact ⟨rfl, rfl⟩
  · have : IntTy.i32.wrap b' = IntTy.i32.wrap b := by rw [hw, hw, h]
    rw [this]; exact ⟨rfl, rfl⟩
  · have : IntTy.i32.wrap b = b - 4294967296 := by rw [hw]; split <;> omega
    rw [this]; exact ⟨rfl, rfl⟩

/-- `2.0 ^ -1 = 0.5`, also with a LINT exponent. -/
example : EXPT__LREAL__int 0x4000000000000000 (-1) = 0x3FE0000000000000 ∧
    EXPT__LREAL__DINT 0x4000000000000000 (-1) = 0x3FE0000000000000 := by decide +kernel

end Verif
