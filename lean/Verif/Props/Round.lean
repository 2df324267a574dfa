import Verif.Proofs.DurationFloat
import Verif.Proofs.FloatValue
import Verif.Proofs.FloatRound
import Verif.Model.Round
/-
C68: ROUND.
-/
namespace Verif
open FloatFmt Spec

private theorem good {f : FloatFmt} (h : IsFloatTy f) : GoodFmt f := by
  rcases h with rfl | rfl
  · exact good_f32
  · exact good_f64

/-- `roundMag` is exact on numbers that have a short enough significand. -/
private theorem round_exact (f : FloatFmt) (m j : Nat) (hm : m < 2 ^ (f.mbits + 1))
    (hfin : f.roundMag (m * 2 ^ j) 1 < f.inf) : f.mag (f.roundMag (m * 2 ^ j) 1) = m * 2 ^ j := by
  have hs := f.excess_spec (m * 2 ^ j / 1)
  unfold roundMag at hfin ⊢
  simp only at hfin ⊢
  rw [Nat.div_one] at *
  generalize hse : f.excess (m * 2 ^ j) = s at *
  have hsj : s ≤ j ∨ s = 0 := by
    rcases hs.2 with h | h
    · exact .inr h
    · left
      have h2 : 2 ^ s * 2 ^ f.mbits < 2 ^ j * 2 ^ (f.mbits + 1) := by
        calc 2 ^ s * 2 ^ f.mbits ≤ m * 2 ^ j := h
          _ < 2 ^ (f.mbits + 1) * 2 ^ j := Nat.mul_lt_mul_of_pos_right hm (Nat.two_pow_pos _)
          _ = _ := Nat.mul_comm _ _
      rw [← Nat.pow_add, ← Nat.pow_add] at h2
      have := (Nat.pow_lt_pow_iff_right (by decide : 1 < 2)).1 h2
      omega
  obtain ⟨k, hk⟩ : ∃ k, m * 2 ^ j = k * 2 ^ s := by
    rcases hsj with h | h
    · refine ⟨m * 2 ^ (j - s), ?_⟩
      rw [Nat.mul_assoc, ← Nat.pow_add]
      congr 2; omega
    · exact ⟨m * 2 ^ j, by rw [h]; simp⟩
  have hr : rne (m * 2 ^ j) (1 * 2 ^ s) = k := by
    rw [hk, Nat.one_mul]
    unfold rne
    simp
  rw [hr] at hfin ⊢
  rw [hk] at hs ⊢
  have hkl : k < 2 ^ (f.mbits + 1) := by
    have := hs.1
    rw [Nat.mul_comm (2 ^ s)] at this
    exact Nat.lt_of_mul_lt_mul_right this
  split at hfin
  · rename_i hlt
    rw [if_pos hlt]
    apply f.mag_pattern s k hkl.le _ hlt
    rcases hs.2 with h | h
    · exact .inl h
    · right
      rw [Nat.mul_comm (2 ^ s)] at h
      exact Nat.le_of_mul_le_mul_right h (Nat.two_pow_pos s)
  · omega

private theorem signif_lt (f : FloatFmt) (x : Nat) : f.signif x < 2 ^ (f.mbits + 1) := by
  have h := Nat.mod_lt x (Nat.two_pow_pos f.mbits)
  unfold signif frac
  rw [Nat.pow_succ]
  split <;> omega

/-- The rounded magnitude is representable. -/
private theorem rounded_repr (f : FloatFmt) (x : Nat) :
    ∃ m j, (2 * f.mag x + 2 ^ f.qexp) / (2 * 2 ^ f.qexp) * 2 ^ f.qexp = m * 2 ^ j ∧ m < 2 ^ (f.mbits + 1) := by
  have hs := signif_lt f x
  unfold mag
  generalize f.signif x = c at *
  generalize max (f.expo x) 1 - 1 = e
  by_cases he : f.qexp ≤ e
  · refine ⟨c, e, ?_, hs⟩
    obtain ⟨d, rfl⟩ := Nat.exists_eq_add_of_le he
    have h1 : 2 * (c * 2 ^ (f.qexp + d)) + 2 ^ f.qexp = 2 ^ f.qexp + 2 * 2 ^ f.qexp * (c * 2 ^ d) := by
      rw [Nat.pow_add]; ring
    have hp := Nat.two_pow_pos f.qexp
    rw [h1, Nat.add_mul_div_left _ _ (by omega), Nat.div_eq_of_lt (by omega), Nat.zero_add, Nat.pow_add]
    ring
  · -- below 2^mbits ones
    have hlt : (2 * (c * 2 ^ e) + 2 ^ f.qexp) / (2 * 2 ^ f.qexp) < 2 ^ (f.mbits + 1) := by
      have hp := Nat.two_pow_pos f.qexp
      have he' : 2 ^ (e + 1) ≤ 2 ^ f.qexp := Nat.pow_le_pow_right (by decide) (by omega)
      rw [Nat.div_lt_iff_lt_mul (by omega)]
      have h2 : 2 * (c * 2 ^ e) = c * 2 ^ (e + 1) := by rw [Nat.pow_succ]; ring
      have h3 : c * 2 ^ (e + 1) ≤ c * 2 ^ f.qexp := Nat.mul_le_mul_left _ he'
      have h4 : (c + 1) * 2 ^ f.qexp ≤ 2 ^ (f.mbits + 1) * 2 ^ f.qexp := Nat.mul_le_mul_right _ hs
      have h5 : (c + 1) * 2 ^ f.qexp = c * 2 ^ f.qexp + 2 ^ f.qexp := by ring
      have h6 : 0 < 2 ^ (f.mbits + 1) * 2 ^ f.qexp := Nat.mul_pos (Nat.two_pow_pos _) hp
      have h7 : 2 ^ (f.mbits + 1) * (2 * 2 ^ f.qexp) = 2 * (2 ^ (f.mbits + 1) * 2 ^ f.qexp) := by ring
      omega
    exact ⟨_, f.qexp, rfl, hlt⟩

private theorem mag_lt_of_finite (f : FloatFmt) (x : Nat) (hn : f.is_nan x = false) (hi : f.is_infinite x = false) :
    f.mag x < 2 ^ (f.mbits + 1) * 2 ^ (f.emax - 2) ∨ f.emax ≤ 1 := by
  by_cases h1 : f.emax ≤ 1
  · exact .inr h1
  left
  have hs := signif_lt f x
  have he : f.expo x < f.emax := by
    have hle : f.expo x ≤ f.emax := by
      have := Nat.mod_lt (x / 2 ^ f.mbits) (Nat.two_pow_pos f.ebits)
      unfold expo emax; omega
    rcases Nat.lt_or_eq_of_le hle with h | h
    · exact h
    · exfalso
      simp only [is_nan, is_infinite, h, decide_true, Bool.true_and, decide_eq_false_iff_not] at hn hi
      exact hn hi
  unfold mag
  calc f.signif x * 2 ^ (max (f.expo x) 1 - 1) < 2 ^ (f.mbits + 1) * 2 ^ (max (f.expo x) 1 - 1) :=
        Nat.mul_lt_mul_of_pos_right hs (Nat.two_pow_pos _)
    _ ≤ 2 ^ (f.mbits + 1) * 2 ^ (f.emax - 2) :=
        Nat.mul_le_mul_left _ (Nat.pow_le_pow_right (by decide) (by omega))

/-- Patterns of finite floats split into sign and magnitude pattern; adding the sign bit to a pattern below
infinity changes neither the magnitude nor the classification. -/
private theorem sign_add (f : FloatFmt) (p : Nat) (hp : p < f.inf) (b : Bool) :
    let y := p + (if b then 2 ^ (f.mbits + f.ebits) else 0)
    f.neg y = b ∧ f.mag y = f.mag p ∧ f.is_nan y = false ∧ f.is_infinite y = false ∧
      f.abs y = p ∧ y < 2 * 2 ^ (f.mbits + f.ebits) := by
  have hB := Nat.two_pow_pos (f.mbits + f.ebits)
  have hlt : p < 2 ^ (f.mbits + f.ebits) := by
    refine Nat.lt_of_lt_of_le hp ?_
    unfold inf emax
    rw [Nat.pow_add, Nat.mul_comm (2 ^ f.mbits)]
    exact Nat.mul_le_mul_right _ (Nat.sub_le _ _)
  have hexp : f.expo (p + 2 ^ (f.mbits + f.ebits)) = f.expo p := by
    unfold expo
    rw [Nat.pow_add, Nat.add_mul_div_left _ _ (Nat.two_pow_pos _), Nat.add_mod_right]
  have hfr : f.frac (p + 2 ^ (f.mbits + f.ebits)) = f.frac p := by
    unfold frac
    rw [Nat.pow_add, Nat.add_mul_mod_self_left]
  obtain ⟨c1, c2⟩ := f.finite_of_lt_inf hp
  cases b
  · simp only [Bool.false_eq_true, if_false, Nat.add_zero]
    refine ⟨?_, trivial, c1, c2, Nat.mod_eq_of_lt hlt, by omega⟩
    unfold neg
    rw [Nat.div_eq_of_lt hlt]; rfl
  · simp only [if_true]
    refine ⟨?_, ?_, ?_, ?_, ?_, by omega⟩
    · unfold neg
      rw [Nat.add_div_right _ hB, Nat.div_eq_of_lt hlt]; rfl
    · unfold mag signif; rw [hexp, hfr]
    · rw [← c1]; unfold is_nan; rw [hexp, hfr]
    · rw [← c2]; unfold is_infinite; rw [hexp, hfr]
    · unfold FloatFmt.abs; rw [Nat.add_mod_right, Nat.mod_eq_of_lt hlt]

/-- What `round` computes on finite values. -/
private theorem round_mag (f : FloatFmt) (hf : IsFloatTy f) (x : Nat) (hn : f.is_nan x = false)
    (hi : f.is_infinite x = false) :
    f.neg (f.round x) = f.neg x ∧
    f.mag (f.round x) = (2 * f.mag x + 2 ^ f.qexp) / (2 * 2 ^ f.qexp) * 2 ^ f.qexp ∧
    f.is_nan (f.round x) = false ∧ f.is_infinite (f.round x) = false := by
  have hfin : f.roundMag ((2 * f.mag x + 2 ^ f.qexp) / (2 * 2 ^ f.qexp) * 2 ^ f.qexp) 1 < f.inf := by
    by_cases hbig : f.mag x < 2 ^ (f.qexp + 64)
    · have g := good hf
      apply f.roundMag_finite _ _ (f.qexp + 65) (by decide) (by have := g.e1; omega) (by have := g.e2; omega)
      have hp := Nat.two_pow_pos f.qexp
      have h1 : (2 * f.mag x + 2 ^ f.qexp) / (2 * 2 ^ f.qexp) * (2 * 2 ^ f.qexp) ≤ 2 * f.mag x + 2 ^ f.qexp :=
        Nat.div_mul_le_self _ _
      have h2 : (2 * f.mag x + 2 ^ f.qexp) / (2 * 2 ^ f.qexp) * (2 * 2 ^ f.qexp) =
        2 * ((2 * f.mag x + 2 ^ f.qexp) / (2 * 2 ^ f.qexp) * 2 ^ f.qexp) := by ring
      rw [Nat.pow_add] at hbig ⊢
      omega
    · -- already an integer: the same magnitude
      have hsame : (2 * f.mag x + 2 ^ f.qexp) / (2 * 2 ^ f.qexp) * 2 ^ f.qexp = f.mag x := by
        have hs := signif_lt f x
        have g := good hf
        have hmb : f.mbits + 1 ≤ 64 := by rcases hf with rfl | rfl <;> decide
        unfold mag at hbig ⊢
        generalize f.signif x = c at *
        generalize max (f.expo x) 1 - 1 = e at *
        have he : f.qexp ≤ e := by
          by_contra hc
          apply hbig
          calc c * 2 ^ e < 2 ^ (f.mbits + 1) * 2 ^ e := Nat.mul_lt_mul_of_pos_right hs (Nat.two_pow_pos _)
            _ = 2 ^ (f.mbits + 1 + e) := (Nat.pow_add _ _ _).symm
            _ ≤ 2 ^ (f.qexp + 64) := Nat.pow_le_pow_right (by decide) (by omega)
        obtain ⟨d, rfl⟩ := Nat.exists_eq_add_of_le he
        have h1 : 2 * (c * 2 ^ (f.qexp + d)) + 2 ^ f.qexp = 2 ^ f.qexp + 2 * 2 ^ f.qexp * (c * 2 ^ d) := by
          rw [Nat.pow_add]; ring
        have hp := Nat.two_pow_pos f.qexp
        rw [h1, Nat.add_mul_div_left _ _ (by omega), Nat.div_eq_of_lt (by omega), Nat.zero_add, Nat.pow_add]
        ring
      rw [hsame]
      -- the pattern of a finite magnitude is below infinity
      have hm := (mag_lt_of_finite f x hn hi).resolve_right (by rcases hf with rfl | rfl <;> decide)
      have hs := f.excess_spec (f.mag x / 1)
      rw [Nat.div_one] at hs
      have hlt' : f.excess (f.mag x) ≤ f.emax - 2 := by
        rcases hs.2 with h | h
        · omega
        · have h2 : 2 ^ f.excess (f.mag x) * 2 ^ f.mbits < 2 ^ (f.mbits + 1) * 2 ^ (f.emax - 2) := Nat.lt_of_le_of_lt h hm
          rw [← Nat.pow_add, ← Nat.pow_add] at h2
          have := (Nat.pow_lt_pow_iff_right (by decide : 1 < 2)).1 h2
          omega
      -- exact: the significand does not carry
      have hrep : ∃ k, f.mag x = k * 2 ^ f.excess (f.mag x) ∧ k < 2 ^ (f.mbits + 1) := by
        have hsl := signif_lt f x
        have hle : f.excess (f.mag x) ≤ max (f.expo x) 1 - 1 ∨ f.excess (f.mag x) = 0 := by
          rcases hs.2 with h | h
          · exact .inr h
          · left
            have h2 : 2 ^ f.excess (f.mag x) * 2 ^ f.mbits < 2 ^ (f.mbits + 1) * 2 ^ (max (f.expo x) 1 - 1) := by
              refine Nat.lt_of_le_of_lt h ?_
              conv_lhs => unfold mag
              exact Nat.mul_lt_mul_of_pos_right hsl (Nat.two_pow_pos _)
            rw [← Nat.pow_add, ← Nat.pow_add] at h2
            have := (Nat.pow_lt_pow_iff_right (by decide : 1 < 2)).1 h2
            omega
        have hex : ∃ k, f.mag x = k * 2 ^ f.excess (f.mag x) := by
          rcases hle with h | h
          · refine ⟨f.signif x * 2 ^ (max (f.expo x) 1 - 1 - f.excess (f.mag x)), ?_⟩
            rw [Nat.mul_assoc, ← Nat.pow_add, Nat.sub_add_cancel h]
            rfl
          · exact ⟨f.mag x, by rw [h]; simp⟩
        obtain ⟨k, hk⟩ := hex
        refine ⟨k, hk, ?_⟩
        have h3 := hs.1
        generalize f.excess (f.mag x) = s at *
        rw [hk, Nat.mul_comm (2 ^ _)] at h3
        exact Nat.lt_of_mul_lt_mul_right h3
      obtain ⟨k, hk, hkl⟩ := hrep
      unfold roundMag
      simp only [Nat.div_one]
      have hr : rne (f.mag x) (1 * 2 ^ f.excess (f.mag x)) = k := by
        generalize f.excess (f.mag x) = s at *
        rw [hk, Nat.one_mul]
        unfold rne
        simp
      have hlt : f.excess (f.mag x) * 2 ^ f.mbits + rne (f.mag x) (1 * 2 ^ f.excess (f.mag x)) < f.inf := by
        rw [hr]
        unfold inf
        have he2 : 2 ≤ f.emax := by rcases hf with rfl | rfl <;> decide
        calc f.excess (f.mag x) * 2 ^ f.mbits + k < f.excess (f.mag x) * 2 ^ f.mbits + 2 * 2 ^ f.mbits := by
              rw [Nat.pow_succ] at hkl; omega
          _ = (f.excess (f.mag x) + 2) * 2 ^ f.mbits := by ring
          _ ≤ f.emax * 2 ^ f.mbits := Nat.mul_le_mul_right _ (by omega)
      rw [if_pos hlt]
      exact hlt
  obtain ⟨m, j, hmj, hm⟩ := rounded_repr f x
  have hmag : f.mag (f.roundMag ((2 * f.mag x + 2 ^ f.qexp) / (2 * 2 ^ f.qexp) * 2 ^ f.qexp) 1) =
      (2 * f.mag x + 2 ^ f.qexp) / (2 * 2 ^ f.qexp) * 2 ^ f.qexp := by
    rw [hmj] at hfin ⊢
    exact round_exact f m j hm hfin
  obtain ⟨s1, s2, s3, s4, -, -⟩ := sign_add f _ hfin (f.neg x)
  have hround : f.round x = f.roundMag ((2 * f.mag x + 2 ^ f.qexp) / (2 * 2 ^ f.qexp) * 2 ^ f.qexp) 1 +
      (if f.neg x then 2 ^ (f.mbits + f.ebits) else 0) := by
    unfold FloatFmt.round
    rw [hn, hi, if_neg (by simp)]
  rw [hround]
  exact ⟨s1, s2.trans hmag, s3, s4⟩

/-- The nearest integer of the specification is unique. -/
theorem nearestInt_unique (v : ℚ) (m n : ℤ) (hm : IsNearestInt v m) (hn : IsNearestInt v n) : m = n := by
  obtain ⟨a1, a2⟩ := hm
  obtain ⟨b1, b2⟩ := hn
  by_contra hne
  rw [abs_le] at a1 b1
  have hd : |(m : ℚ) - n| ≤ 1 := by rw [abs_le]; constructor <;> linarith [a1.1, a1.2, b1.1, b1.2]
  have hd2 : |m - n| ≤ 1 := by
    have : ((|m - n| : ℤ) : ℚ) ≤ 1 := by push_cast; exact hd
    exact_mod_cast this
  have hcases : m = n + 1 ∨ n = m + 1 := by
    rw [abs_le] at hd2; omega
  have key : ∀ p q : ℤ, q = p + 1 → -(1 / 2) ≤ v - p ∧ v - p ≤ 1 / 2 → -(1 / 2) ≤ v - q ∧ v - q ≤ 1 / 2 →
      (|v - p| = 1 / 2 → |v| ≤ |(p : ℚ)|) → (|v - q| = 1 / 2 → |v| ≤ |(q : ℚ)|) → False := by
    intro p q hpq h1 h2 t1 t2
    subst hpq
    push_cast at h2 t2
    have hv : v = p + 1 / 2 := by linarith [h1.2, h2.1]
    have e1 : |v - p| = 1 / 2 := by rw [hv]; norm_num
    have e2 : |v - (p + 1)| = 1 / 2 := by rw [hv]; norm_num
    have u1 := t1 e1
    have u2 := t2 e2
    rw [hv] at u1 u2
    rcases le_or_gt 0 p with hp | hp
    · have hp' : (0 : ℚ) ≤ p := by exact_mod_cast hp
      rw [abs_of_nonneg (by linarith), abs_of_nonneg hp'] at u1
      linarith
    · have hp' : (p : ℚ) + 1 ≤ 0 := by exact_mod_cast hp
      rw [abs_of_nonpos (by linarith), abs_of_nonpos hp'] at u2
      linarith
  rcases hcases with h | h
  · exact key n m h b1 a1 b2 a2
  · exact key m n h a1 b1 a2 b2

theorem round_nearest (f : FloatFmt) (hf : IsFloatTy f) (x : Nat) (hn : f.is_nan x = false) (hi : f.is_infinite x = false) :
    f.is_nan (f.round x) = false ∧ f.is_infinite (f.round x) = false ∧ f.neg (f.round x) = f.neg x ∧
    ∃ n : ℤ, floatValue f (f.round x) = n ∧ IsNearestInt (floatValue f x) n := by
  obtain ⟨h1, h2, h3, h4⟩ := round_mag f hf x hn hi
  refine ⟨h3, h4, h1, ?_⟩
  have hp : (0 : ℚ) < 2 ^ f.qexp := f.qpos
  have hpn := Nat.two_pow_pos f.qexp
  -- the rounded magnitude
  generalize hk : (2 * f.mag x + 2 ^ f.qexp) / (2 * 2 ^ f.qexp) = k at h2
  have b1 : k * (2 * 2 ^ f.qexp) ≤ 2 * f.mag x + 2 ^ f.qexp := by rw [← hk]; exact Nat.div_mul_le_self _ _
  have b2 : 2 * f.mag x + 2 ^ f.qexp < (k + 1) * (2 * 2 ^ f.qexp) := by
    rw [← hk]; exact Nat.lt_mul_of_div_lt (Nat.lt_succ_self _) (by omega)
  have c1 : (k : ℚ) * (2 * 2 ^ f.qexp) ≤ 2 * f.mag x + 2 ^ f.qexp := by exact_mod_cast b1
  have c2 : (2 : ℚ) * f.mag x + 2 ^ f.qexp < (k + 1) * (2 * 2 ^ f.qexp) := by exact_mod_cast b2
  have d1 : (k : ℚ) - 1 / 2 ≤ f.mag x / 2 ^ f.qexp := by rw [le_div_iff₀ hp]; linarith
  have d2 : (f.mag x : ℚ) / 2 ^ f.qexp < k + 1 / 2 := by rw [div_lt_iff₀ hp]; linarith
  have d0 : (0 : ℚ) ≤ f.mag x / 2 ^ f.qexp := by positivity
  have hk0 : (0 : ℚ) ≤ k := by positivity
  have hval : ∀ y, floatValue f y = if f.neg y then -((f.mag y : ℚ) / 2 ^ f.qexp) else (f.mag y : ℚ) / 2 ^ f.qexp := by
    intro y
    rw [floatValue_val f (ebits_of hf)]
    unfold val
    split
    · push_cast; ring
    · push_cast; ring
  rw [hval, hval, h1, h2]
  have e : ((k * 2 ^ f.qexp : Nat) : ℚ) / 2 ^ f.qexp = k := by
    push_cast; field_simp
  rw [e]
  generalize (f.mag x : ℚ) / 2 ^ f.qexp = v at *
  cases f.neg x
  · refine ⟨k, by simp, ?_, ?_⟩
    · simp only [Bool.false_eq_true, if_false, Int.cast_natCast]
      rw [abs_le]; constructor <;> linarith
    · simp only [Bool.false_eq_true, if_false, Int.cast_natCast]
      intro ht
      rw [abs_of_nonneg d0, abs_of_nonneg hk0]
      rcases le_or_gt 0 (v - k) with h | h
      · rw [abs_of_nonneg h] at ht; linarith
      · linarith
  · refine ⟨-k, by simp, ?_, ?_⟩
    · simp only [if_true, Int.cast_neg, Int.cast_natCast]
      rw [abs_le]; constructor <;> linarith
    · simp only [if_true, Int.cast_neg, Int.cast_natCast]
      intro ht
      rw [abs_neg, abs_neg, abs_of_nonneg d0, abs_of_nonneg hk0]
      rcases le_or_gt 0 (v - k) with h | h
      · rw [show -v - -(k : ℚ) = -(v - k) by ring, abs_neg, abs_of_nonneg h] at ht; linarith
      · linarith

theorem round_integers_monotone (f : FloatFmt) (hf : IsFloatTy f) :
    (∀ x, (f.is_nan x = true ∨ f.is_infinite x = true) → f.round x = x) ∧
    (∀ x (k : ℤ), f.is_nan x = false → f.is_infinite x = false → floatValue f x = k →
      floatValue f (f.round x) = floatValue f x) ∧
    (∀ x y, f.is_nan x = false → f.is_infinite x = false → f.is_nan y = false → f.is_infinite y = false →
      floatValue f x ≤ floatValue f y → floatValue f (f.round x) ≤ floatValue f (f.round y)) := by
  refine ⟨?_, ?_, ?_⟩
  · intro x h
    unfold FloatFmt.round
    rw [if_pos h]
  · intro x k h1 h2 hk
    obtain ⟨-, -, -, n, hn, hnear⟩ := round_nearest f hf x h1 h2
    rw [hn, hk]
    rw [hk] at hnear
    have hself : IsNearestInt (k : ℚ) k := ⟨by simp, by simp⟩
    rw [nearestInt_unique _ _ _ hnear hself]
  · intro x y a1 a2 b1 b2 hle
    obtain ⟨-, -, -, m, hm, c1, c2⟩ := round_nearest f hf x a1 a2
    obtain ⟨-, -, -, n, hn, d1, d2⟩ := round_nearest f hf y b1 b2
    rw [hm, hn]
    by_contra hlt
    have hlt : n + 1 ≤ m := by
      have : (n : ℚ) < m := not_le.1 hlt
      exact_mod_cast this
    have hlt' : (n : ℚ) + 1 ≤ m := by exact_mod_cast hlt
    generalize floatValue f x = v at *
    generalize floatValue f y = w at *
    have hc := c1
    have hd := d1
    rw [abs_le] at hc hd
    -- both are at distance exactly 1/2
    have hvw : v = w := by linarith [hc.1, hd.2]
    subst hvw
    have := nearestInt_unique v m n ⟨c1, c2⟩ ⟨d1, d2⟩
    omega

private theorem neg_abs_split (f : FloatFmt) (x : Nat) (hx : x < 2 * 2 ^ (f.mbits + f.ebits)) :
    f.neg (f.negate x) = (!f.neg x) ∧ f.mag (f.negate x) = f.mag x ∧
    f.is_nan (f.negate x) = f.is_nan x ∧ f.is_infinite (f.negate x) = f.is_infinite x := by
  have hB := Nat.two_pow_pos (f.mbits + f.ebits)
  have hexp : ∀ p, f.expo (p + 2 ^ (f.mbits + f.ebits)) = f.expo p := by
    intro p
    unfold expo
    rw [Nat.pow_add, Nat.add_mul_div_left _ _ (Nat.two_pow_pos _), Nat.add_mod_right]
  have hfr : ∀ p, f.frac (p + 2 ^ (f.mbits + f.ebits)) = f.frac p := by
    intro p
    unfold frac
    rw [Nat.pow_add, Nat.add_mul_mod_self_left]
  have hneg : f.neg x = decide (2 ^ (f.mbits + f.ebits) ≤ x) := by
    unfold neg
    rcases Nat.lt_or_ge x (2 ^ (f.mbits + f.ebits)) with h | h
    · rw [Nat.div_eq_of_lt h]; simp; omega
    · have h1 : x / 2 ^ (f.mbits + f.ebits) = 1 := Nat.div_eq_of_lt_le (by omega) (by omega)
      rw [h1]; simp; omega
  unfold negate
  rw [hneg]
  by_cases h : 2 ^ (f.mbits + f.ebits) ≤ x
  · simp only [h, decide_true, if_true]
    obtain ⟨p, rfl⟩ := Nat.exists_eq_add_of_le h
    rw [Nat.add_comm, Nat.add_sub_cancel]
    refine ⟨?_, ?_, ?_, ?_⟩
    · unfold neg; rw [Nat.div_eq_of_lt (by omega)]; rfl
    · unfold mag signif; rw [hexp, hfr]
    · unfold is_nan; rw [hexp, hfr]
    · unfold is_infinite; rw [hexp, hfr]
  · simp only [h, decide_false, Bool.false_eq_true, if_false]
    refine ⟨?_, ?_, ?_, ?_⟩
    · unfold neg; rw [Nat.add_div_right _ hB, Nat.div_eq_of_lt (by omega)]; rfl
    · unfold mag signif; rw [hexp, hfr]
    · unfold is_nan; rw [hexp, hfr]
    · unfold is_infinite; rw [hexp, hfr]

theorem round_odd (f : FloatFmt) (hf : IsFloatTy f) (x : Nat) (hx : x < 2 * 2 ^ (f.mbits + f.ebits)) :
    f.round (f.negate x) = f.negate (f.round x) := by
  obtain ⟨a1, a2, a3, a4⟩ := neg_abs_split f x hx
  by_cases hc : f.is_nan x = true ∨ f.is_infinite x = true
  · have h1 : f.round x = x := (round_integers_monotone f hf).1 x hc
    have h2 : f.round (f.negate x) = f.negate x := (round_integers_monotone f hf).1 _ (by rw [a3, a4]; exact hc)
    rw [h1, h2]
  · have hn : f.is_nan x = false := by cases h : f.is_nan x <;> simp_all
    have hi : f.is_infinite x = false := by cases h : f.is_infinite x <;> simp_all
    have h1 := (round_mag f hf x hn hi).1
    unfold negate
    rw [h1]
    have e1 : f.round x = f.roundMag ((2 * f.mag x + 2 ^ f.qexp) / (2 * 2 ^ f.qexp) * 2 ^ f.qexp) 1 +
        (if f.neg x then 2 ^ (f.mbits + f.ebits) else 0) := by
      unfold FloatFmt.round
      rw [hn, hi, if_neg (by simp)]
    have e2 : f.round (f.negate x) = f.roundMag ((2 * f.mag x + 2 ^ f.qexp) / (2 * 2 ^ f.qexp) * 2 ^ f.qexp) 1 +
        (if !f.neg x then 2 ^ (f.mbits + f.ebits) else 0) := by
      unfold FloatFmt.round
      rw [a3, a4, hn, hi, a2, a1, if_neg (by simp)]
    have e3 : f.round (if f.neg x then x - 2 ^ (f.mbits + f.ebits) else x + 2 ^ (f.mbits + f.ebits)) =
        f.round (f.negate x) := rfl
    rw [e3, e2, e1]
    cases f.neg x <;> simp

/-- `R` is the ROUND of the float type `f`. -/
inductive IsRound : FloatFmt → (Nat → Nat) → Prop
  | real : IsRound .f32 ROUND__REAL
  | lreal : IsRound .f64 ROUND__LREAL

private theorem isRound {f : FloatFmt} {R : Nat → Nat} (h : IsRound f R) : IsFloatTy f ∧ R = f.round := by
  cases h
  · exact ⟨.inl rfl, rfl⟩
  · exact ⟨.inr rfl, rfl⟩

/-- **C68.** ROUND of a finite REAL/LREAL is finite, has the same sign, and its value is the nearest integer, ties
away from zero. -/
theorem C68_nearest {f : FloatFmt} {R : Nat → Nat} (hR : IsRound f R) (x : Nat) (hx : IsFinite f x) :
    IsFinite f (R x) ∧ (SignBit f (R x) ↔ SignBit f x) ∧
    ∃ n : ℤ, floatValue f (R x) = n ∧ IsNearestInt (floatValue f x) n := by
  obtain ⟨hf, rfl⟩ := isRound hR
  obtain ⟨h1, h2, h3, h4⟩ := round_nearest f hf x hx.nan hx.inf
  exact ⟨.mk h1 h2, by rw [signBit_iff, signBit_iff, h3], h4⟩

/-- **C68**, integers are fixed, ROUND is monotone, NaN and infinities are kept. -/
theorem C68_integers_monotone {f : FloatFmt} {R : Nat → Nat} (hR : IsRound f R) :
    (∀ x, ¬ IsFinite f x → R x = x) ∧
    (∀ x (k : ℤ), IsFinite f x → floatValue f x = k → floatValue f (R x) = floatValue f x) ∧
    (∀ x y, IsFinite f x → IsFinite f y → floatValue f x ≤ floatValue f y →
      floatValue f (R x) ≤ floatValue f (R y)) := by
  obtain ⟨hf, rfl⟩ := isRound hR
  obtain ⟨h1, h2, h3⟩ := round_integers_monotone f hf
  refine ⟨fun x hx => h1 x ?_, fun x k hx => h2 x k hx.nan hx.inf, fun x y hx hy => h3 x y hx.nan hx.inf hy.nan hy.inf⟩
  rw [isFinite_iff] at hx
  cases a1 : f.is_nan x <;> cases a2 : f.is_infinite x <;> simp_all

/-- **C68**, ROUND is odd: ROUND(-x) = -ROUND(x), for every bit pattern. -/
theorem C68_odd {f : FloatFmt} {R : Nat → Nat} (hR : IsRound f R) (x y : Nat) (hxy : OppositeSign f x y) :
    OppositeSign f (R x) (R y) := by
  obtain ⟨hf, rfl⟩ := isRound hR
  obtain ⟨hx, rfl⟩ := (oppositeSign_iff f x y).1 hxy
  refine (oppositeSign_iff f _ _).2 ⟨?_, round_odd f hf x (by rwa [Nat.add_assoc, Nat.pow_add, Nat.pow_one] at hx)⟩
  unfold FloatFmt.round
  split
  · exact hx
  · have := f.roundMag_le_inf ((2 * f.mag x + 2 ^ f.qexp) / (2 * 2 ^ f.qexp) * 2 ^ f.qexp) 1
    have := f.inf_lt
    have e : 2 ^ (1 + f.mbits + f.ebits) = 2 * (2 ^ f.ebits * 2 ^ f.mbits) := by
      rw [Nat.add_assoc, Nat.pow_add, Nat.pow_add, Nat.pow_one, Nat.mul_comm (2 ^ f.ebits)]
    have e' : 2 ^ (f.mbits + f.ebits) = 2 ^ f.ebits * 2 ^ f.mbits := by rw [Nat.pow_add, Nat.mul_comm]
    rw [e, e']
    dsimp only
    split <;> omega

/-- `ROUND(2.5) = 3`, `ROUND(-2.5) = -3`, `ROUND(0.49999997) = 0` (REAL). -/
example : ROUND__REAL 0x40200000 = 0x40400000 ∧ ROUND__REAL 0xC0200000 = 0xC0400000 ∧
    ROUND__REAL 0x3EFFFFFF = 0 ∧ ROUND__LREAL 0x4330000000000001 = 0x4330000000000001 := by decide +kernel

/-- 2.5 is finite, and -2.5 is it with the other sign. -/
example : IsFinite .f32 0x40200000 ∧ OppositeSign .f32 0x40200000 0xC0200000 :=
  ⟨by unfold IsFinite; decide, by decide, by decide, by decide, by decide⟩

end Verif
