import Verif.Proofs.FloatRound
import Verif.Proofs.FloatValue
import Verif.Model.StFloat
/-
Signed floats: sign bit and magnitude, nearest rounding with a sign, exact conversions.
-/
namespace Verif

/-- What the proofs need to know about a format. -/
structure StdFmt (f : FloatFmt) : Prop where
  m1 : 1 ≤ f.mbits
  e2 : 2 ≤ f.emax
  eb : 2 ≤ f.ebits

theorem stdFmt {f : FloatFmt} (h : IsFloatTy f) : StdFmt f := by
  rcases h with rfl | rfl <;> exact ⟨by decide, by decide, by decide⟩

namespace FloatFmt
variable (f : FloatFmt)

theorem two_pow_split : 2 ^ (1 + f.mbits + f.ebits) = 2 * 2 ^ (f.mbits + f.ebits) := by
  rw [Nat.add_assoc, Nat.pow_add]

theorem inf_lt' : f.inf < 2 ^ (f.mbits + f.ebits) := by
  have := f.inf_lt
  rw [Nat.pow_add, Nat.mul_comm]; exact this

theorem expo_add (p : Nat) : f.expo (p + 2 ^ (f.mbits + f.ebits)) = f.expo p := by
  unfold expo
  rw [Nat.pow_add, Nat.add_mul_div_left _ _ (Nat.two_pow_pos _), Nat.add_mod_right]

theorem frac_add (p : Nat) : f.frac (p + 2 ^ (f.mbits + f.ebits)) = f.frac p := by
  unfold frac
  rw [Nat.pow_add, Nat.add_mul_mod_self_left]

/-- The sign bit changes only the sign. -/
theorem withSign_spec (b : Bool) (p : Nat) (hp : p < 2 ^ (f.mbits + f.ebits)) :
    f.neg (f.withSign b p) = b ∧ f.mag (f.withSign b p) = f.mag p ∧ f.is_nan (f.withSign b p) = f.is_nan p ∧
    f.is_infinite (f.withSign b p) = f.is_infinite p ∧ f.withSign b p < 2 ^ (1 + f.mbits + f.ebits) ∧
    f.abs (f.withSign b p) = p := by
  have hB := Nat.two_pow_pos (f.mbits + f.ebits)
  rw [two_pow_split]
  unfold withSign
  cases b
  · simp only [Bool.false_eq_true, if_false, Nat.add_zero]
    refine ⟨?_, trivial, trivial, trivial, by omega, Nat.mod_eq_of_lt hp⟩
    unfold neg; rw [Nat.div_eq_of_lt hp]; rfl
  · simp only [if_true]
    refine ⟨?_, ?_, ?_, ?_, by omega, ?_⟩
    · unfold neg; rw [Nat.add_div_right _ hB, Nat.div_eq_of_lt hp]; rfl
    · unfold mag signif; rw [expo_add, frac_add]
    · unfold is_nan; rw [expo_add, frac_add]
    · unfold is_infinite; rw [expo_add, frac_add]
    · unfold FloatFmt.abs; rw [Nat.add_mod_right, Nat.mod_eq_of_lt hp]

/-- Every pattern is a sign and a pattern without sign. -/
theorem eq_withSign (x : Nat) (hx : x < 2 ^ (1 + f.mbits + f.ebits)) : x = f.withSign (f.neg x) (f.abs x) := by
  rw [two_pow_split] at hx
  unfold withSign FloatFmt.abs neg
  rcases Nat.lt_or_ge x (2 ^ (f.mbits + f.ebits)) with h | h
  · rw [Nat.div_eq_of_lt h, Nat.mod_eq_of_lt h]; simp
  · have h1 : x / 2 ^ (f.mbits + f.ebits) = 1 := Nat.div_eq_of_lt_le (by omega) (by omega)
    have := Nat.div_add_mod x (2 ^ (f.mbits + f.ebits))
    rw [h1] at this ⊢
    simp; omega

theorem abs_lt (x : Nat) : f.abs x < 2 ^ (f.mbits + f.ebits) := Nat.mod_lt _ (Nat.two_pow_pos _)

/-- A pattern without sign is a number or infinity up to that of infinity, a NaN above. -/
theorem nan_iff (p : Nat) (hp : p < 2 ^ (f.mbits + f.ebits)) :
    (f.is_nan p = true ↔ f.inf < p) ∧ (f.is_infinite p = true ↔ p = f.inf) := by
  have hM := Nat.two_pow_pos f.mbits
  have hlt : p / 2 ^ f.mbits < 2 ^ f.ebits := by
    rw [Nat.pow_add] at hp; exact Nat.div_lt_of_lt_mul hp
  have h1 := Nat.div_add_mod p (2 ^ f.mbits)
  have h2 := Nat.mod_lt p hM
  have hexp : f.expo p = p / 2 ^ f.mbits := Nat.mod_eq_of_lt hlt
  unfold is_nan is_infinite
  rw [hexp]
  unfold frac inf
  have hE := Nat.two_pow_pos f.ebits
  have hle : p / 2 ^ f.mbits ≤ f.emax := by unfold emax; omega
  generalize p / 2 ^ f.mbits = e at *
  generalize p % 2 ^ f.mbits = r at *
  generalize 2 ^ f.mbits = M at *
  generalize f.emax = X at *
  simp only [Bool.and_eq_true, decide_eq_true_eq]
  rcases Nat.lt_or_eq_of_le hle with h | h
  · have h3 : (e + 1) * M ≤ X * M := Nat.mul_le_mul_right _ h
    rw [Nat.add_mul, Nat.one_mul, Nat.mul_comm e] at h3
    constructor
    · constructor
      · omega
      · intro h4; omega
    · constructor
      · omega
      · intro h4; omega
  · subst h
    rw [Nat.mul_comm e M]
    constructor
    · constructor
      · intro h4; omega
      · intro h4; exact ⟨rfl, by omega⟩
    · constructor
      · intro h4; omega
      · intro h4; exact ⟨rfl, by omega⟩

theorem floatValue_eq (h : 2 ≤ f.ebits) (x : Nat) : floatValue f x = if f.neg x then -((f.mag x : ℚ) / 2 ^ f.qexp)
    else (f.mag x : ℚ) / 2 ^ f.qexp := by
  rw [floatValue_val f h]
  unfold val
  split
  · push_cast; ring
  · push_cast; ring

theorem floatValue_withSign (h : 2 ≤ f.ebits) (b : Bool) (p : Nat) (hp : p < 2 ^ (f.mbits + f.ebits)) :
    floatValue f (f.withSign b p) = if b then -((f.mag p : ℚ) / 2 ^ f.qexp) else (f.mag p : ℚ) / 2 ^ f.qexp := by
  obtain ⟨h1, h2, -⟩ := f.withSign_spec b p hp
  rw [f.floatValue_eq h, h1, h2]

theorem mag_zero' : f.mag 0 = 0 := by
  unfold mag signif expo frac; simp

/-- Rounding a signed number: sign bit and rounded magnitude. -/
theorem round_signed (h : StdFmt f) (b : Bool) (num den : Nat) (hd : 0 < den) (v : ℚ)
    (hv : v = if b then -((num : ℚ) / den / 2 ^ f.qexp) else (num : ℚ) / den / 2 ^ f.qexp) :
    IsNearestFloat f v (f.withSign b (f.roundMag num den)) := by
  have hle := f.roundMag_le_inf num den
  have hlt : f.roundMag num den < 2 ^ (f.mbits + f.ebits) := by have := f.inf_lt'; omega
  obtain ⟨s1, s2, s3, s4, s5, s6⟩ := f.withSign_spec b _ hlt
  have hQ : (0 : ℚ) < 2 ^ f.qexp := by positivity
  refine ⟨s5, ?_, ?_⟩
  · rw [not_isNaN_iff, s3]
    have := (f.nan_iff _ hlt).1
    cases hn : f.is_nan (f.roundMag num den)
    · rfl
    · have := this.1 hn; omega
  intro y hy hyn
  rw [not_isNaN_iff] at hyn
  rw [f.floatValue_withSign h.eb b _ hlt]
  have hy1 := f.eq_withSign y hy
  have hya := f.abs_lt y
  obtain ⟨t1, t2, t3, t4, -, -⟩ := f.withSign_spec (f.neg y) (f.abs y) hya
  have hyle : f.abs y ≤ f.inf := by
    by_contra hc
    have := (f.nan_iff _ hya).1.2 (by omega)
    rw [← t3, ← hy1, hyn] at this
    cases this
  have hyv : floatValue f y = if f.neg y then -((f.mag (f.abs y) : ℚ) / 2 ^ f.qexp)
      else (f.mag (f.abs y) : ℚ) / 2 ^ f.qexp := by
    conv_lhs => rw [hy1]
    exact f.floatValue_withSign h.eb _ _ hya
  obtain ⟨n1, n2⟩ := f.roundMag_nearest h.m1 h.e2 num den hd (f.abs y) hyle
  obtain ⟨z1, z2⟩ := f.roundMag_nearest h.m1 h.e2 num den hd 0 (by omega)
  rw [f.mag_zero', Nat.cast_zero, sub_zero] at z1 z2
  have heven : (f.withSign b (f.roundMag num den)) % 2 = f.roundMag num den % 2 := by
    unfold withSign
    have : 2 ^ (f.mbits + f.ebits) % 2 = 0 := by
      obtain ⟨k, hk⟩ := Nat.exists_eq_add_of_le' h.m1
      rw [hk, show k + 1 + f.ebits = k + f.ebits + 1 by omega, Nat.pow_succ]; omega
    split <;> omega
  rw [heven]
  have hq0 : (0 : ℚ) ≤ (num : ℚ) / den := by positivity
  have ha0 : (0 : ℚ) ≤ f.mag (f.abs y) := by positivity
  have hr0 : (0 : ℚ) ≤ f.mag (f.roundMag num den) := by positivity
  have habs : ∀ a : ℚ, |a / 2 ^ f.qexp| = |a| / 2 ^ f.qexp := by
    intro a; rw [abs_div, abs_of_pos hQ]
  have hL : |v - (if b then -((f.mag (f.roundMag num den) : ℚ) / 2 ^ f.qexp)
      else (f.mag (f.roundMag num den) : ℚ) / 2 ^ f.qexp)| =
      |(num : ℚ) / den - f.mag (f.roundMag num den)| / 2 ^ f.qexp := by
    rw [← habs, hv]
    cases b
    · simp only [Bool.false_eq_true, if_false]; rw [sub_div]
    · simp only [if_true]; rw [sub_div, ← abs_neg]; congr 1; ring
  rw [hL, hyv]
  by_cases hb : f.neg y = b
  · -- same sign
    have hL2 : |v - (if f.neg y then -((f.mag (f.abs y) : ℚ) / 2 ^ f.qexp)
        else (f.mag (f.abs y) : ℚ) / 2 ^ f.qexp)| = |(num : ℚ) / den - f.mag (f.abs y)| / 2 ^ f.qexp := by
      rw [← habs, hv, hb]
      cases b
      · simp only [Bool.false_eq_true, if_false]; rw [sub_div]
      · simp only [if_true]; rw [sub_div, ← abs_neg]; congr 1; ring
    rw [hL2]
    refine ⟨div_le_div_of_nonneg_right n1 hQ.le, ?_⟩
    intro heq
    rcases n2 ((div_left_inj' (ne_of_gt hQ)).1 heq) with e | e
    · left; rw [hb, e]
    · exact .inr e
  · -- opposite sign: zero is at least as near
    have hL2 : |v - (if f.neg y then -((f.mag (f.abs y) : ℚ) / 2 ^ f.qexp)
        else (f.mag (f.abs y) : ℚ) / 2 ^ f.qexp)| = ((num : ℚ) / den + f.mag (f.abs y)) / 2 ^ f.qexp := by
      rw [← abs_of_nonneg (show 0 ≤ (num : ℚ) / den + f.mag (f.abs y) by positivity), ← habs, hv]
      revert hb
      cases b <;> cases f.neg y <;> intro hb
      · exact absurd rfl hb
      · simp only [Bool.false_eq_true, if_false, if_true]; congr 1; ring
      · simp only [Bool.false_eq_true, if_false, if_true]; rw [← abs_neg]; congr 1; ring
      · exact absurd rfl hb
    rw [hL2]
    rw [abs_of_nonneg hq0] at z1
    refine ⟨div_le_div_of_nonneg_right (by linarith) hQ.le, ?_⟩
    intro heq
    have e := (div_left_inj' (ne_of_gt hQ)).1 heq
    have e1 : (f.mag (f.abs y) : ℚ) = 0 := by linarith
    rw [abs_of_nonneg hq0] at z2
    rcases z2 (by rw [e, e1, add_zero]) with z | z
    · left
      rw [← z, e1, f.mag_zero']; simp
    · exact .inr z

/-- A number with a short significand below infinity has a pattern. -/
theorem exists_pattern (h : StdFmt f) (m : Nat) (hm : m < 2 ^ (f.mbits + 1)) (j : Nat)
    (hlt : m * 2 ^ j < 2 ^ f.mbits * 2 ^ (f.emax - 1)) : ∃ y, y < f.inf ∧ f.mag y = m * 2 ^ j := by
  have hM := Nat.two_pow_pos f.mbits
  induction j generalizing m with
  | zero =>
    rw [Nat.pow_succ] at hm
    have h2 : 2 * 2 ^ f.mbits ≤ f.emax * 2 ^ f.mbits := Nat.mul_le_mul_right _ h.e2
    refine ⟨m, by unfold inf; omega, ?_⟩
    have := f.mag_pattern' 0 m (by rw [Nat.pow_succ]; omega) (.inl rfl)
      (by have := f.inf_lt; unfold inf at this; omega)
    simpa using this
  | succ j ih =>
    by_cases c : m < 2 ^ f.mbits
    · obtain ⟨y, hy, e⟩ := ih (2 * m) (by rw [Nat.pow_succ]; omega) (by
        rw [Nat.pow_succ] at hlt
        calc 2 * m * 2 ^ j = m * (2 ^ j * 2) := by ring
          _ < _ := hlt)
      refine ⟨y, hy, ?_⟩
      rw [e, Nat.pow_succ]; ring
    · have hj : j + 1 < f.emax - 1 := by
        have h1 : 2 ^ f.mbits * 2 ^ (j + 1) < 2 ^ f.mbits * 2 ^ (f.emax - 1) :=
          Nat.lt_of_le_of_lt (Nat.mul_le_mul_right _ (by omega)) hlt
        exact (Nat.pow_lt_pow_iff_right (by decide)).1 (Nat.lt_of_mul_lt_mul_left h1)
      have hi : (j + 1) * 2 ^ f.mbits + m < f.inf := by
        unfold inf
        have : (j + 3) * 2 ^ f.mbits ≤ f.emax * 2 ^ f.mbits := Nat.mul_le_mul_right _ (by omega)
        rw [Nat.pow_succ] at hm
        rw [Nat.add_mul] at this ⊢
        omega
      exact ⟨_, hi, f.mag_pattern' (j + 1) m (by omega) (.inr (by omega)) (by have := f.inf_lt; omega)⟩

/-- Rounding a number with a short significand is exact. -/
theorem roundMag_short (h : StdFmt f) (m : Nat) (hm : m < 2 ^ (f.mbits + 1)) (j num den : Nat) (hd : 0 < den)
    (hlt : m * 2 ^ j < 2 ^ f.mbits * 2 ^ (f.emax - 1)) (e : num = m * 2 ^ j * den) :
    f.mag (f.roundMag num den) = m * 2 ^ j ∧ f.roundMag num den < f.inf := by
  obtain ⟨y, hy, ey⟩ := f.exists_pattern h m hm j hlt
  have := f.roundMag_exact h.m1 h.e2 num den y hd (by omega) (by rw [ey]; exact e)
  rw [this]
  exact ⟨ey, hy⟩

end FloatFmt

/-- For rounding, infinity counts as `2^128` (REAL) and `2^1024` (LREAL). -/
theorem floatValue_inf : floatValue .f32 FloatFmt.f32.inf = 2 ^ 128 ∧ floatValue .f64 FloatFmt.f64.inf = 2 ^ 1024 := by
  have h : ∀ f : FloatFmt, StdFmt f → ∀ k, 2 ^ f.mbits * 2 ^ (f.emax - 1) = 2 ^ k * 2 ^ f.qexp →
      floatValue f f.inf = 2 ^ k := by
    intro f hf k hk
    have hn : f.neg f.inf = false := by
      unfold FloatFmt.neg; rw [Nat.div_eq_of_lt f.inf_lt']; rfl
    rw [f.floatValue_eq hf.eb, hn, f.mag_inf (by have := hf.e2; omega), hk]
    have : (2 : ℚ) ^ f.qexp ≠ 0 := by positivity
    rw [if_neg (by decide)]
    push_cast
    field_simp
  refine ⟨h .f32 (stdFmt (.inl rfl)) 128 ?_, h .f64 (stdFmt (.inr rfl)) 1024 ?_⟩
  · rw [← Nat.pow_add, ← Nat.pow_add]; exact congrArg (fun k => 2 ^ k) (by decide)
  · rw [← Nat.pow_add, ← Nat.pow_add]; exact congrArg (fun k => 2 ^ k) (by decide)

end Verif
