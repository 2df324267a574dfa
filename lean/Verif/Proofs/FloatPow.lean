import Mathlib.Tactic.Linarith
import Mathlib.Tactic.FieldSimp
import Mathlib.Tactic.Ring
import Verif.Proofs.FloatSpacing
import Verif.Model.Arith
/-
Multiplication and division of floats, powers by squaring.
-/
namespace Verif

/-- A finite number: its pattern without sign is below infinity. -/
theorem finite_abs_lt (f : FloatFmt) (x : Nat) (hx : x < 2 ^ (1 + f.mbits + f.ebits)) :
    (IsFinite f x ↔ f.abs x < f.inf) ∧ (¬ IsNaN f x ↔ f.abs x ≤ f.inf) ∧ f.mag x = f.mag (f.abs x) ∧
    f.is_nan x = f.is_nan (f.abs x) ∧ f.is_infinite x = f.is_infinite (f.abs x) := by
  have e := f.eq_withSign x hx
  obtain ⟨-, s2, s3, s4, -, -⟩ := f.withSign_spec (f.neg x) (f.abs x) (f.abs_lt x)
  rw [← e] at s2 s3 s4
  obtain ⟨n1, n2⟩ := f.nan_iff (f.abs x) (f.abs_lt x)
  refine ⟨?_, ?_, s2, s3, s4⟩
  · rw [isFinite_iff, s3, s4]
    constructor
    · rintro ⟨h1, h2⟩
      rcases Nat.lt_trichotomy (f.abs x) f.inf with h | h | h
      · exact h
      · rw [n2.2 h] at h2; cases h2
      · rw [n1.2 h] at h1; cases h1
    · intro h
      constructor
      · cases hn : f.is_nan (f.abs x) with
        | false => rfl
        | true => have := n1.1 hn; omega
      · cases hn : f.is_infinite (f.abs x) with
        | false => rfl
        | true => have := n2.1 hn; omega
  · rw [not_isNaN_iff, s3]
    constructor
    · intro h1
      by_contra hc
      rw [n1.2 (by omega)] at h1; cases h1
    · intro h
      cases hn : f.is_nan (f.abs x) with
      | false => rfl
      | true => have := n1.1 hn; omega

namespace FloatFmt
variable (f : FloatFmt)

theorem one_eq (h : IsFloatTy f) : f.mag f.one = 2 ^ f.qexp ∧ f.one < f.inf := by
  have hs := stdFmt h
  have := f.roundMag_short hs 1 (Nat.one_lt_two_pow (by omega)) f.qexp (1 * 2 ^ f.qexp) 1 (by norm_num)
    (by rcases h with rfl | rfl <;> decide +kernel) (by ring)
  unfold one ofNat
  rw [this.1]
  exact ⟨by ring, this.2⟩

theorem not_nan_le {p : Nat} (h : p ≤ f.inf) : f.is_nan p = false := by
  rcases Nat.lt_or_eq_of_le h with h | h
  · exact (f.finite_of_lt_inf h).1
  · rw [h]; exact f.inf_spec.1

theorem le_inf_lt {p : Nat} (h : p ≤ f.inf) : p < 2 ^ (f.mbits + f.ebits) := lt_of_le_of_lt h f.inf_lt'

/-- The product of two magnitudes. -/
theorem mulPos_finite {a b : Nat} (ha : a < f.inf) (hb : b < f.inf) :
    f.mulPos a b = f.roundMag (f.mag a * f.mag b) (2 ^ f.qexp) := by
  unfold mulPos
  obtain ⟨a1, a2⟩ := f.finite_of_lt_inf ha
  obtain ⟨b1, b2⟩ := f.finite_of_lt_inf hb
  rw [a1, a2, b1, b2]; simp

theorem mulPos_le_inf {a b : Nat} (ha : a ≤ f.inf) (hb : b ≤ f.inf) (hz : f.is_infinite a ∨ f.is_infinite b → f.mag a ≠ 0 ∧ f.mag b ≠ 0) :
    f.mulPos a b ≤ f.inf := by
  unfold mulPos
  rw [f.not_nan_le ha, f.not_nan_le hb]
  simp only [Bool.false_eq_true, or_self, if_false]
  split
  · rename_i hi
    have := hz hi
    rw [if_neg (by omega)]
  · exact f.roundMag_le_inf _ _

/-- Sign and magnitude of a product that is not NaN. -/
theorem mul_spec {a b : Nat} (h : f.mulPos (f.abs a) (f.abs b) ≤ f.inf) :
    f.neg (f.mul a b) = (f.neg a != f.neg b) ∧ f.abs (f.mul a b) = f.mulPos (f.abs a) (f.abs b) ∧
    f.mul a b < 2 ^ (1 + f.mbits + f.ebits) := by
  unfold mul
  dsimp only
  rw [f.not_nan_le h]
  simp only [Bool.false_eq_true, if_false]
  obtain ⟨s1, -, -, -, s5, s6⟩ := f.withSign_spec (f.neg a != f.neg b) _ (f.le_inf_lt h)
  exact ⟨s1, s6, s5⟩

theorem div_spec {a b : Nat} (h : f.divPos (f.abs a) (f.abs b) ≤ f.inf) :
    f.neg (f.div a b) = (f.neg a != f.neg b) ∧ f.abs (f.div a b) = f.divPos (f.abs a) (f.abs b) ∧
    f.div a b < 2 ^ (1 + f.mbits + f.ebits) := by
  unfold div
  dsimp only
  rw [f.not_nan_le h]
  simp only [Bool.false_eq_true, if_false]
  obtain ⟨s1, -, -, -, s5, s6⟩ := f.withSign_spec (f.neg a != f.neg b) _ (f.le_inf_lt h)
  exact ⟨s1, s6, s5⟩

/-- NaN in, NaN out. -/
theorem mul_nan (hs : StdFmt f) (a b : Nat) (ha : a < 2 ^ (1 + f.mbits + f.ebits)) (hb : b < 2 ^ (1 + f.mbits + f.ebits))
    (h : f.is_nan a = true ∨ f.is_nan b = true) : f.is_nan (f.mul a b) = true ∧ f.mul a b < 2 ^ (1 + f.mbits + f.ebits) := by
  have h' : f.is_nan (f.abs a) = true ∨ f.is_nan (f.abs b) = true := by
    rw [← (finite_abs_lt f a ha).2.2.2.1, ← (finite_abs_lt f b hb).2.2.2.1]; exact h
  unfold mul mulPos
  rw [if_pos h']
  have := f.nan_spec hs.m1
  dsimp only
  rw [this, if_pos rfl]
  refine ⟨this, ?_⟩
  have hlt := f.inf_lt'
  unfold nan
  have : f.inf + 2 ^ (f.mbits - 1) < 2 ^ (f.mbits + f.ebits) + 2 ^ (f.mbits + f.ebits) := by
    have : 2 ^ (f.mbits - 1) ≤ 2 ^ (f.mbits + f.ebits) := Nat.pow_le_pow_right (by decide) (by omega)
    omega
  rw [f.two_pow_split]; omega

/-- `r` is a sign and a rounded quotient of value `v`. -/
def Rounds (v : ℚ) (r : Nat) : Prop :=
  ∃ s num den, 0 < den ∧ r = f.withSign s (f.roundMag num den) ∧
    v = if s then -((num : ℚ) / den / 2 ^ f.qexp) else (num : ℚ) / den / 2 ^ f.qexp

theorem Rounds.nearest {f : FloatFmt} (hf : IsFloatTy f) {v : ℚ} {r : Nat} (h : f.Rounds v r) : IsNearestFloat f v r := by
  obtain ⟨s, num, den, hd, rfl, hv⟩ := h
  exact f.round_signed (stdFmt hf) s num den hd v hv

/-- The largest power of two of the format. -/
theorem roundMag_lt_inf (hf : IsFloatTy f) (num den : Nat) (hd : 0 < den) (h : (num : ℚ) / den ≤ 2 ^ (2 * f.qexp - 2 * f.mbits + 1 + f.mbits)) :
    f.roundMag num den < f.inf := by
  have hs := stdFmt hf
  have h1 := f.roundMag_short hs 1 (Nat.one_lt_two_pow (by omega)) (2 * f.qexp - 2 * f.mbits + 1 + f.mbits)
    (1 * 2 ^ (2 * f.qexp - 2 * f.mbits + 1 + f.mbits)) 1 (by norm_num)
    (by rcases hf with rfl | rfl <;> decide +kernel) (by ring)
  refine lt_of_le_of_lt (f.roundMag_mono hs.m1 hs.e2 _ _ _ _ hd (by norm_num) ?_) h1.2
  push_cast
  rw [one_mul, div_one]
  exact h

/-- The relative error in the normal range is at most half an ulp. -/
theorem Rounds.err {f : FloatFmt} (hf : IsFloatTy f) {v : ℚ} {r : Nat} (h : f.Rounds v r)
    (h1 : 2 ^ f.mbits / 2 ^ f.qexp ≤ |v|) (h2 : |v| ≤ 2 ^ (2 * f.qexp - 2 * f.mbits + 1 + f.mbits) / 2 ^ f.qexp) :
    r < 2 ^ (1 + f.mbits + f.ebits) ∧ IsFinite f r ∧ ∃ δ, floatValue f r = v * δ ∧ 1 - halfUlp f ≤ δ ∧ δ ≤ 1 + halfUlp f := by
  obtain ⟨s, num, den, hd, rfl, hv⟩ := h
  have hs := stdFmt hf
  have hQ : (0 : ℚ) < 2 ^ f.qexp := by positivity
  have hd' : (0 : ℚ) < den := by exact_mod_cast hd
  have hav : |v| = (num : ℚ) / den / 2 ^ f.qexp := by
    have : (0 : ℚ) ≤ (num : ℚ) / den / 2 ^ f.qexp := by positivity
    rw [hv]; split
    · rw [abs_neg, abs_of_nonneg this]
    · rw [abs_of_nonneg this]
  rw [hav] at h1 h2
  have h1' := (div_le_div_iff_of_pos_right hQ).1 h1
  have h2' := (div_le_div_iff_of_pos_right hQ).1 h2
  have hlt := f.roundMag_lt_inf hf num den hd h2'
  have hlt' := f.le_inf_lt hlt.le
  obtain ⟨s1, s2, s3, s4, s5, s6⟩ := f.withSign_spec s _ hlt'
  have hfin : IsFinite f (f.withSign s (f.roundMag num den)) := by
    rw [(finite_abs_lt f _ s5).1, s6]; exact hlt
  refine ⟨s5, hfin, ?_⟩
  have hval := f.floatValue_withSign hs.eb s _ hlt'
  have herr := f.round_err num den hd hlt
  have hu : halfUlp f = f.ulp := rfl
  have hle : (1 : ℚ) / 2 / 2 ^ f.qexp ≤ f.ulp * ((num : ℚ) / den / 2 ^ f.qexp) := by
    unfold ulp
    have h3 : (1 : ℚ) / 2 / 2 ^ f.qexp = 1 / 2 ^ (f.mbits + 1) * (2 ^ f.mbits / 2 ^ f.qexp) := by
      rw [pow_succ]; field_simp
    rw [h3]
    exact mul_le_mul_of_nonneg_left h1 (by positivity)
  rw [max_eq_left hle] at herr
  set w : ℚ := (num : ℚ) / den / 2 ^ f.qexp with hw
  have hwpos : 0 < w := lt_of_lt_of_le (by positivity) h1
  refine ⟨f.rat (f.roundMag num den) / w, ?_, ?_, ?_⟩
  · rw [hval, hv]
    unfold rat
    cases s <;> simp <;> field_simp
  · rw [hu, le_div_iff₀ hwpos]
    linarith [(abs_le.1 herr).1]
  · rw [hu, div_le_iff₀ hwpos]
    linarith [(abs_le.1 herr).2]

/-- Rounding a number of the format is exact. -/
theorem nearest_exact (hf : IsFloatTy f) {v : ℚ} {r : Nat} (h : IsNearestFloat f v r) (z : Nat)
    (hz : z < 2 ^ (1 + f.mbits + f.ebits)) (hfz : IsFinite f z) (hv : floatValue f z = v) :
    IsFinite f r ∧ floatValue f r = v := by
  have h1 := (h.2.2 z hz ((not_isNaN_iff f z).2 hfz.nan)).1
  rw [hv, sub_self, abs_zero] at h1
  have h2 : floatValue f r = v := by linarith [abs_eq_zero.1 (le_antisymm h1 (abs_nonneg _))]
  refine ⟨?_, h2⟩
  rw [(finite_abs_lt f r h.1).1]
  have hle := (finite_abs_lt f r h.1).2.1.1 h.2.1
  rcases Nat.lt_or_eq_of_le hle with hlt | heq
  · exact hlt
  · exfalso
    have hzl := (finite_abs_lt f z hz).1.1 hfz
    have hm := mag_lt_inf f _ hzl
    have e : |floatValue f r| = |floatValue f z| := by rw [h2, hv]
    have hQ : (0 : ℚ) < 2 ^ f.qexp := by positivity
    have ab : ∀ y, |floatValue f y| = (f.mag y : ℚ) / 2 ^ f.qexp := by
      intro y
      have : (0 : ℚ) ≤ (f.mag y : ℚ) / 2 ^ f.qexp := by positivity
      rw [f.floatValue_eq (stdFmt hf).eb]; split
      · rw [abs_neg, abs_of_nonneg this]
      · rw [abs_of_nonneg this]
    rw [ab, ab, div_left_inj' hQ.ne', (finite_abs_lt f r h.1).2.2.1, (finite_abs_lt f z hz).2.2.1, heq] at e
    have : f.mag f.inf = f.mag (f.abs z) := by exact_mod_cast e
    omega

/-- Multiplication is correctly rounded. -/
theorem mul_rounds (hf : IsFloatTy f) (a b : Nat) (ha : a < 2 ^ (1 + f.mbits + f.ebits)) (hb : b < 2 ^ (1 + f.mbits + f.ebits))
    (hfa : IsFinite f a) (hfb : IsFinite f b) : f.Rounds (floatValue f a * floatValue f b) (f.mul a b) := by
  have hs := stdFmt hf
  obtain ⟨a1, -, a3, -⟩ := finite_abs_lt f a ha
  obtain ⟨b1, -, b3, -⟩ := finite_abs_lt f b hb
  have hp := f.mulPos_finite (a1.1 hfa) (b1.1 hfb)
  have hm : f.mul a b = f.withSign (f.neg a != f.neg b) (f.roundMag (f.mag (f.abs a) * f.mag (f.abs b)) (2 ^ f.qexp)) := by
    unfold mul
    dsimp only
    rw [hp, f.not_nan_le (f.roundMag_le_inf _ _)]; simp
  refine ⟨_, _, _, Nat.two_pow_pos _, hm, ?_⟩
  rw [f.floatValue_eq hs.eb, f.floatValue_eq hs.eb, a3, b3]
  have hQ : (2 : ℚ) ^ f.qexp ≠ 0 := by positivity
  push_cast
  cases f.neg a <;> cases f.neg b <;> simp <;> field_simp

/-- Division by a number that is not zero is correctly rounded. -/
theorem div_rounds (hf : IsFloatTy f) (a b : Nat) (ha : a < 2 ^ (1 + f.mbits + f.ebits)) (hb : b < 2 ^ (1 + f.mbits + f.ebits))
    (hfa : IsFinite f a) (hfb : IsFinite f b) (h0 : floatValue f b ≠ 0) :
    f.Rounds (floatValue f a / floatValue f b) (f.div a b) := by
  have hs := stdFmt hf
  obtain ⟨a1, -, a3, -⟩ := finite_abs_lt f a ha
  obtain ⟨b1, -, b3, -⟩ := finite_abs_lt f b hb
  have hQ : (2 : ℚ) ^ f.qexp ≠ 0 := by positivity
  have hb0 : f.mag b ≠ 0 := by
    intro h; apply h0; rw [f.floatValue_eq hs.eb, h]; simp
  have hp : f.divPos (f.abs a) (f.abs b) = f.roundMag (f.mag (f.abs a) * 2 ^ f.qexp) (f.mag (f.abs b)) := by
    unfold divPos
    obtain ⟨x1, x2⟩ := f.finite_of_lt_inf (a1.1 hfa)
    obtain ⟨y1, y2⟩ := f.finite_of_lt_inf (b1.1 hfb)
    rw [x1, x2, y1, y2]
    rw [b3] at hb0
    simp [hb0]
  have hm : f.div a b = f.withSign (f.neg a != f.neg b) (f.roundMag (f.mag (f.abs a) * 2 ^ f.qexp) (f.mag (f.abs b))) := by
    unfold div
    dsimp only
    rw [hp, f.not_nan_le (f.roundMag_le_inf _ _)]; simp
  refine ⟨_, _, _, by rw [← b3]; omega, hm, ?_⟩
  rw [f.floatValue_eq hs.eb, f.floatValue_eq hs.eb, a3, b3]
  have hb' : (f.mag (f.abs b) : ℚ) ≠ 0 := by rw [← b3]; exact_mod_cast hb0
  push_cast
  cases f.neg a <;> cases f.neg b <;> simp <;> field_simp

/-- `1 * b = b`. -/
theorem one_mul' (hf : IsFloatTy f) (b : Nat) (hb : b < 2 ^ (1 + f.mbits + f.ebits)) (hn : ¬ IsNaN f b) : f.mul f.one b = b := by
  have hs := stdFmt hf
  obtain ⟨o1, o2⟩ := f.one_eq hf
  have hol : f.one < 2 ^ (f.mbits + f.ebits) := f.le_inf_lt o2.le
  have ho := f.withSign_spec false f.one hol
  have ew : f.withSign false f.one = f.one := by unfold withSign; simp
  rw [ew] at ho
  have hb2 := (finite_abs_lt f b hb).2.1.1 hn
  have hm : f.mulPos f.one (f.abs b) = f.abs b := by
    rcases Nat.lt_or_eq_of_le hb2 with h | h
    · rw [f.mulPos_finite o2 h, o1, Nat.mul_comm]
      exact f.roundMag_exact hs.m1 hs.e2 _ _ _ (by positivity) (by omega) (by ring)
    · unfold mulPos
      rw [h, f.inf_spec.1, f.inf_spec.2, (f.finite_of_lt_inf o2).1]
      have h1 : f.mag f.inf ≠ 0 := by
        have := mag_lt_inf f _ o2
        omega
      have h2 : f.mag f.one ≠ 0 := by rw [o1]; positivity
      simp [h1, h2]
  unfold mul
  dsimp only
  rw [ho.2.2.2.2.2, hm, f.not_nan_le hb2, ho.1]
  simp only [Bool.false_eq_true, if_false, Bool.false_bne]
  exact (f.eq_withSign b hb).symm

/-- A property of powers that multiplication preserves holds for the result of the loop. -/
theorem powiLoop_ind (R : Nat → Nat → Prop) (N : Nat)
    (hmul : ∀ k l a b, R k a → R l b → k + l ≤ N → 0 < l → R (k + l) (f.mul a b)) (b : Nat) :
    ∀ (a acc A C : Nat), 0 < A → R A a → R C acc → C + A * b ≤ N → R (C + A * b) (f.powiLoop a b acc) := by
  induction b using Nat.strongRecOn with
  | ind b ih =>
    intro a acc A C hA ha hc hN
    unfold powiLoop
    have hb := Nat.div_add_mod b 2
    have hacc : R (C + A * (b % 2)) (if b % 2 = 1 then f.mul acc a else acc) := by
      rcases Nat.mod_two_eq_zero_or_one b with h | h
      · rw [h]; simpa using hc
      · rw [h, if_pos rfl, Nat.mul_one]
        refine hmul _ _ _ _ hc ha ?_ hA
        have : A * 1 ≤ A * b := Nat.mul_le_mul_left _ (by omega)
        omega
    simp only
    split
    · rename_i h0
      rw [h0] at hb
      rw [← hb]; simpa using hacc
    · rename_i h0
      have e : C + A * b = C + A * (b % 2) + (A + A) * (b / 2) := by
        conv_lhs => rw [← hb]
        ring
      rw [e] at hN ⊢
      refine ih (b / 2) (by omega) _ _ _ _ (by omega) (hmul _ _ _ _ ha ha ?_ hA) hacc hN
      have : (A + A) * 1 ≤ (A + A) * (b / 2) := Nat.mul_le_mul_left _ (by omega)
      omega

end FloatFmt
end Verif
