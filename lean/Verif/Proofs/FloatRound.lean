import Verif.Proofs.FloatArith
import Verif.Spec.Float
/-
`roundMag` rounds to the nearest float, ties to even; the patterns up to that of infinity are
ordered like the numbers they denote.
-/
namespace Verif
namespace FloatFmt
variable (f : FloatFmt)

/-- `mag_pattern` without the restriction to finite patterns. -/
theorem mag_pattern' (s m : Nat) (h1 : m ≤ 2 ^ (f.mbits + 1)) (h2 : s = 0 ∨ 2 ^ f.mbits ≤ m)
    (h3 : s * 2 ^ f.mbits + m < 2 ^ f.ebits * 2 ^ f.mbits) : f.mag (s * 2 ^ f.mbits + m) = m * 2 ^ s := by
  have hM : 0 < 2 ^ f.mbits := Nat.two_pow_pos _
  have hE : 0 < 2 ^ f.ebits := Nat.two_pow_pos _
  rw [Nat.pow_succ] at h1
  unfold mag signif expo frac
  generalize 2 ^ f.mbits = M at *
  generalize 2 ^ f.ebits = E at *
  by_cases c1 : m < M
  · have hs : s = 0 := by omega
    subst hs
    simp only [Nat.zero_mul, Nat.zero_add, Nat.div_eq_of_lt c1, Nat.zero_mod, if_true, Nat.mod_eq_of_lt c1]
    simp
  · have key : ∀ k e, k < M → s * M + m = k + M * e → 1 ≤ e → (s * M + m) / M % E = e ∧ (s * M + m) % M = k := by
      intro k e hk hp he
      rw [hp] at h3 ⊢
      rw [Nat.add_mul_div_left _ _ hM, Nat.div_eq_of_lt hk, Nat.zero_add, Nat.add_mul_mod_self_left,
        Nat.mod_eq_of_lt hk]
      refine ⟨Nat.mod_eq_of_lt ?_, rfl⟩
      have : M * e < E * M := by omega
      rw [Nat.mul_comm] at this
      exact Nat.lt_of_mul_lt_mul_right this
    by_cases c2 : m < 2 * M
    · obtain ⟨e1, e2⟩ := key (m - M) (s + 1) (by omega)
        (by rw [Nat.mul_add, Nat.mul_comm M s]; omega) (by omega)
      rw [e1, e2, if_neg (by omega), show max (s + 1) 1 - 1 = s by omega, show m - M + M = m by omega]
    · have hm : m = 2 * M := by omega
      obtain ⟨e1, e2⟩ := key 0 (s + 2) hM (by rw [Nat.mul_add, Nat.mul_comm M s]; omega) (by omega)
      rw [e1, e2, if_neg (by omega), show max (s + 2) 1 - 1 = s + 1 by omega, hm, Nat.zero_add, Nat.pow_succ]
      ring

/-- A pattern as exponent and significand. -/
theorem pattern_split (y : Nat) : ∃ s m, y = s * 2 ^ f.mbits + m ∧ m < 2 ^ (f.mbits + 1) ∧
    (s = 0 ∨ 2 ^ f.mbits ≤ m) := by
  have hM : 0 < 2 ^ f.mbits := Nat.two_pow_pos _
  have h1 := Nat.div_add_mod y (2 ^ f.mbits)
  have h2 := Nat.mod_lt y hM
  rcases Nat.eq_zero_or_pos (y / 2 ^ f.mbits) with h | h
  · rw [h] at h1
    exact ⟨0, y, by omega, by rw [Nat.pow_succ]; omega, .inl rfl⟩
  · refine ⟨y / 2 ^ f.mbits - 1, y % 2 ^ f.mbits + 2 ^ f.mbits, ?_, by rw [Nat.pow_succ]; omega, .inr (by omega)⟩
    obtain ⟨k, hk⟩ := Nat.exists_eq_add_of_le' h
    rw [hk] at h1 ⊢
    rw [Nat.add_sub_cancel]
    rw [Nat.mul_add, Nat.mul_one, Nat.mul_comm] at h1
    omega

theorem mag_succ_lt (y : Nat) (h : y + 1 < 2 ^ f.ebits * 2 ^ f.mbits) : f.mag y < f.mag (y + 1) := by
  obtain ⟨s, m, rfl, h1, h2⟩ := f.pattern_split y
  rw [Nat.add_assoc, f.mag_pattern' s m (by omega) h2 (by omega),
    f.mag_pattern' s (m + 1) (by omega) (by omega) (by omega)]
  have := Nat.two_pow_pos s
  rw [Nat.add_mul, Nat.one_mul]; omega

/-- Patterns without sign are ordered like their values. -/
theorem mag_lt {x y : Nat} (h : x < y) (hy : y < 2 ^ f.ebits * 2 ^ f.mbits) : f.mag x < f.mag y := by
  induction y with
  | zero => omega
  | succ n ih =>
    rcases Nat.lt_or_eq_of_le (Nat.le_of_lt_succ h) with h' | h'
    · exact Nat.lt_trans (ih h' (by omega)) (f.mag_succ_lt n hy)
    · rw [h']; exact f.mag_succ_lt n hy

theorem mag_le {x y : Nat} (h : x ≤ y) (hy : y < 2 ^ f.ebits * 2 ^ f.mbits) : f.mag x ≤ f.mag y := by
  rcases Nat.lt_or_eq_of_le h with h' | h'
  · exact (f.mag_lt h' hy).le
  · rw [h']

theorem inf_lt : f.inf < 2 ^ f.ebits * 2 ^ f.mbits := by
  have hM : 0 < 2 ^ f.mbits := Nat.two_pow_pos _
  have hE : 0 < 2 ^ f.ebits := Nat.two_pow_pos _
  unfold inf emax
  exact Nat.mul_lt_mul_of_pos_right (by omega) hM

/-- The number that infinity stands for when rounding: the first power of two that is too large. -/
theorem mag_inf (he : 1 ≤ f.emax) : f.mag f.inf = 2 ^ f.mbits * 2 ^ (f.emax - 1) := by
  have e : f.inf = (f.emax - 1) * 2 ^ f.mbits + 2 ^ f.mbits := by
    unfold inf
    obtain ⟨k, hk⟩ := Nat.exists_eq_add_of_le' he
    rw [hk, Nat.add_sub_cancel]; ring
  have h := f.inf_lt
  rw [e] at h ⊢
  exact f.mag_pattern' _ _ (by rw [Nat.pow_succ]; omega) (.inr (Nat.le_refl _)) h

/-- `roundMag` gives the nearest pattern, ties to even; infinity counts as the first power of two
that is too large. -/
theorem roundMag_nearest (hm : 1 ≤ f.mbits) (he : 2 ≤ f.emax) (num den : Nat) (hd : 0 < den) (y : Nat)
    (hy : y ≤ f.inf) :
    |(num : ℚ) / den - f.mag (f.roundMag num den)| ≤ |(num : ℚ) / den - f.mag y| ∧
    (|(num : ℚ) / den - f.mag (f.roundMag num den)| = |(num : ℚ) / den - f.mag y| →
      y = f.roundMag num den ∨ f.roundMag num den % 2 = 0) := by
  have hs := f.excess_spec (num / den)
  have hr : f.roundMag num den = if f.excess (num / den) * 2 ^ f.mbits +
      rne num (den * 2 ^ f.excess (num / den)) < f.inf then f.excess (num / den) * 2 ^ f.mbits +
      rne num (den * 2 ^ f.excess (num / den)) else f.inf := rfl
  rw [hr]
  generalize f.excess (num / den) = s at *
  have hD : 0 < den * 2 ^ s := Nat.mul_pos hd (Nat.two_pow_pos s)
  have hm1 : num / (den * 2 ^ s) < 2 ^ (f.mbits + 1) := by
    rw [← Nat.div_div_eq_div_mul]; exact Nat.div_lt_of_lt_mul hs.1
  have hm2 : s = 0 ∨ 2 ^ f.mbits ≤ num / (den * 2 ^ s) := by
    rcases hs.2 with h | h
    · exact .inl h
    · right
      rw [← Nat.div_div_eq_div_mul, Nat.le_div_iff_mul_le (Nat.two_pow_pos s), Nat.mul_comm]; exact h
  have hdm := Nat.div_add_mod num (den * 2 ^ s)
  have hlt := Nat.mod_lt num hD
  unfold rne
  simp only
  generalize num / (den * 2 ^ s) = m0 at *
  generalize num % (den * 2 ^ s) = r0 at *
  have hd' : (0 : ℚ) < den := by exact_mod_cast hd
  have hS : (0 : ℚ) < 2 ^ s := by positivity
  -- the exact quotient
  have hq : (num : ℚ) / den = m0 * 2 ^ s + r0 / den := by
    have : (num : ℚ) = den * 2 ^ s * m0 + r0 := by exact_mod_cast hdm.symm
    rw [this]; field_simp
  have hr0 : (0 : ℚ) ≤ r0 / den := by positivity
  have hr1 : (r0 : ℚ) / den < 2 ^ s := by
    rw [div_lt_iff₀ hd', mul_comm]; exact_mod_cast hlt
  rw [hq]
  by_cases hbig : f.inf ≤ s * 2 ^ f.mbits + m0
  · -- beyond the largest finite number
    have hP : ∀ k, s * 2 ^ f.mbits + m0 ≤ k → (if k < f.inf then k else f.inf) = f.inf := by
      intro k hk; rw [if_neg (by omega)]
    have hP2 : ∀ a b c : Nat, m0 ≤ a → m0 ≤ b → m0 ≤ c → (if s * 2 ^ f.mbits + (if 2 * r0 < den * 2 ^ s then a
        else if den * 2 ^ s < 2 * r0 then b else c) < f.inf then s * 2 ^ f.mbits + (if 2 * r0 < den * 2 ^ s then a
        else if den * 2 ^ s < 2 * r0 then b else c) else f.inf) = f.inf := by
      intro a b c ha hb hc
      apply hP
      split
      · omega
      · split <;> omega
    rw [hP2 m0 (m0 + 1) (m0 + m0 % 2) (by omega) (by omega) (by omega)]
    -- q ≥ mag inf
    have hse : f.emax ≤ s + 1 := by
      by_contra hc
      have : s + 2 ≤ f.emax := by omega
      have h1 := Nat.mul_le_mul_right (2 ^ f.mbits) this
      rw [Nat.pow_succ] at hm1
      unfold inf at hbig
      rw [Nat.add_mul] at h1
      omega
    have hqi : ((f.mag f.inf : Nat) : ℚ) ≤ m0 * 2 ^ s := by
      rw [f.mag_inf (by omega)]
      have h1 : 2 ^ f.mbits ≤ m0 := by
        rcases hm2 with h | h
        · omega
        · exact h
      have h2 : 2 ^ (f.emax - 1) ≤ 2 ^ s := Nat.pow_le_pow_right (by decide) (by omega)
      exact_mod_cast Nat.mul_le_mul h1 h2
    have hyi : ((f.mag y : Nat) : ℚ) ≤ f.mag f.inf := by exact_mod_cast f.mag_le hy f.inf_lt
    rw [abs_of_nonneg (by linarith), abs_of_nonneg (by linarith)]
    refine ⟨by linarith, ?_⟩
    intro heq
    left
    by_contra hne
    have : ((f.mag y : Nat) : ℚ) < f.mag f.inf := by
      exact_mod_cast f.mag_lt (Nat.lt_of_le_of_ne hy hne) f.inf_lt
    linarith
  · -- the two neighbours
    have hi := f.inf_lt
    have hlo : f.mag (s * 2 ^ f.mbits + m0) = m0 * 2 ^ s := f.mag_pattern' s m0 (by omega) hm2 (by omega)
    have hhi : f.mag (s * 2 ^ f.mbits + (m0 + 1)) = (m0 + 1) * 2 ^ s :=
      f.mag_pattern' s (m0 + 1) (by omega) (by omega) (by omega)
    have hhi' : ((f.mag (s * 2 ^ f.mbits + (m0 + 1)) : Nat) : ℚ) = m0 * 2 ^ s + 2 ^ s := by
      rw [hhi]; push_cast; ring
    have hlo' : ((f.mag (s * 2 ^ f.mbits + m0) : Nat) : ℚ) = m0 * 2 ^ s := by rw [hlo]; push_cast; rfl
    have hclamp : ∀ k, k ≤ m0 + 1 → (if s * 2 ^ f.mbits + k < f.inf then s * 2 ^ f.mbits + k else f.inf) =
        s * 2 ^ f.mbits + k := by
      intro k hk
      split
      · rfl
      · omega
    -- a candidate lies below or above
    have hside : ((f.mag y : Nat) : ℚ) ≤ m0 * 2 ^ s ∧ (y = s * 2 ^ f.mbits + m0 ∨ ((f.mag y : Nat) : ℚ) < m0 * 2 ^ s) ∨
        (m0 * 2 ^ s + 2 ^ s : ℚ) ≤ f.mag y ∧ (y = s * 2 ^ f.mbits + (m0 + 1) ∨ (m0 * 2 ^ s + 2 ^ s : ℚ) < f.mag y) := by
      rcases Nat.lt_trichotomy y (s * 2 ^ f.mbits + m0) with h | h | h
      · left
        have : ((f.mag y : Nat) : ℚ) < f.mag (s * 2 ^ f.mbits + m0) := by exact_mod_cast f.mag_lt h (by omega)
        rw [hlo'] at this
        exact ⟨this.le, .inr this⟩
      · left
        rw [h, hlo']
        exact ⟨le_refl _, .inl rfl⟩
      · right
        rcases Nat.lt_or_eq_of_le (show s * 2 ^ f.mbits + (m0 + 1) ≤ y by omega) with h' | h'
        · have : ((f.mag (s * 2 ^ f.mbits + (m0 + 1)) : Nat) : ℚ) < f.mag y := by
            exact_mod_cast f.mag_lt h' (by omega)
          rw [hhi'] at this
          exact ⟨this.le, .inr this⟩
        · rw [← h', hhi']
          exact ⟨le_refl _, .inl rfl⟩
    have hden : ∀ a : ℚ, (a : ℚ) * den / den = a := by intro a; field_simp
    generalize hρ : (r0 : ℚ) / den = ρ at *
    have cmp1 : 2 * r0 < den * 2 ^ s → 2 * ρ < 2 ^ s := by
      intro h
      have h' : (2 : ℚ) * r0 < den * 2 ^ s := by exact_mod_cast h
      rw [← hρ, ← mul_div_assoc, div_lt_iff₀ hd']; linarith
    have cmp2 : den * 2 ^ s < 2 * r0 → (2 : ℚ) ^ s < 2 * ρ := by
      intro h
      have h' : (den : ℚ) * 2 ^ s < 2 * r0 := by exact_mod_cast h
      rw [← hρ, ← mul_div_assoc, lt_div_iff₀ hd']; linarith
    have cmp3 : den * 2 ^ s = 2 * r0 → (2 : ℚ) ^ s = 2 * ρ := by
      intro h
      have h' : (den : ℚ) * 2 ^ s = 2 * r0 := by exact_mod_cast h
      rw [← hρ, ← mul_div_assoc, eq_div_iff (ne_of_gt hd')]; linarith
    by_cases k1 : 2 * r0 < den * 2 ^ s
    · rw [if_pos k1, hclamp m0 (by omega), hlo']
      have := cmp1 k1
      rw [show (m0 : ℚ) * 2 ^ s + ρ - m0 * 2 ^ s = ρ by ring, abs_of_nonneg hr0]
      rcases hside with ⟨h1, h2⟩ | ⟨h1, h2⟩
      · rw [abs_of_nonneg (by linarith)]
        refine ⟨by linarith, fun heq => ?_⟩
        rcases h2 with h2 | h2
        · exact .inl h2
        · exfalso; linarith
      · rw [abs_of_nonpos (by linarith)]
        refine ⟨by linarith, fun heq => ?_⟩
        exfalso; linarith
    · rw [if_neg k1]
      by_cases k2 : den * 2 ^ s < 2 * r0
      · rw [if_pos k2, hclamp (m0 + 1) (by omega), hhi']
        have := cmp2 k2
        rw [abs_of_nonpos (show (m0 : ℚ) * 2 ^ s + ρ - (m0 * 2 ^ s + 2 ^ s) ≤ 0 by linarith)]
        rcases hside with ⟨h1, h2⟩ | ⟨h1, h2⟩
        · rw [abs_of_nonneg (by linarith)]
          refine ⟨by linarith, fun heq => ?_⟩
          exfalso; linarith
        · rw [abs_of_nonpos (by linarith)]
          refine ⟨by linarith, fun heq => ?_⟩
          rcases h2 with h2 | h2
          · exact .inl h2
          · exfalso; linarith
      · rw [if_neg k2, hclamp (m0 + m0 % 2) (by omega)]
        have h3 := cmp3 (by omega)
        have heven : (s * 2 ^ f.mbits + (m0 + m0 % 2)) % 2 = 0 := by
          obtain ⟨k, hk⟩ := Nat.exists_eq_add_of_le' hm
          rw [hk, Nat.pow_succ, ← Nat.mul_assoc]
          omega
        refine ⟨?_, fun _ => .inr heven⟩
        have hval : |(m0 : ℚ) * 2 ^ s + ρ - f.mag (s * 2 ^ f.mbits + (m0 + m0 % 2))| = ρ := by
          rcases Nat.mod_two_eq_zero_or_one m0 with e | e
          · rw [e, Nat.add_zero, hlo', show (m0 : ℚ) * 2 ^ s + ρ - m0 * 2 ^ s = ρ by ring, abs_of_nonneg hr0]
          · rw [e, hhi', show (m0 : ℚ) * 2 ^ s + ρ - (m0 * 2 ^ s + 2 ^ s) = -ρ by linarith, abs_neg,
              abs_of_nonneg hr0]
        rw [hval]
        rcases hside with ⟨h1, h2⟩ | ⟨h1, h2⟩
        · rw [abs_of_nonneg (by linarith)]; linarith
        · rw [abs_of_nonpos (by linarith)]; linarith

/-- Rounding an exactly representable number gives its pattern. -/
theorem roundMag_exact (hm : 1 ≤ f.mbits) (he : 2 ≤ f.emax) (num den x : Nat) (hd : 0 < den) (hx : x ≤ f.inf)
    (h : num = f.mag x * den) : f.roundMag num den = x := by
  have h1 := (f.roundMag_nearest hm he num den hd x hx).1
  have hd' : (den : ℚ) ≠ 0 := by exact_mod_cast (Nat.pos_iff_ne_zero.1 hd)
  have e : (num : ℚ) / den = f.mag x := by rw [h]; push_cast; field_simp
  rw [e, sub_self, abs_zero] at h1
  have h2 : (f.mag x : ℚ) = f.mag (f.roundMag num den) := by
    have := abs_nonneg ((f.mag x : ℚ) - f.mag (f.roundMag num den))
    have h3 : |(f.mag x : ℚ) - f.mag (f.roundMag num den)| = 0 := le_antisymm h1 this
    exact sub_eq_zero.1 (abs_eq_zero.1 h3)
  have h2' : f.mag x = f.mag (f.roundMag num den) := by exact_mod_cast h2
  have hle := f.roundMag_le_inf num den
  have hi := f.inf_lt
  rcases Nat.lt_trichotomy x (f.roundMag num den) with h' | h' | h'
  · have := f.mag_lt h' (by omega); omega
  · exact h'.symm
  · have := f.mag_lt h' (by omega); omega

/-- Rounding is monotone. -/
theorem roundMag_mono (hm : 1 ≤ f.mbits) (he : 2 ≤ f.emax) (a b c d : Nat) (hb : 0 < b) (hd : 0 < d)
    (h : (a : ℚ) / b ≤ (c : ℚ) / d) : f.roundMag a b ≤ f.roundMag c d := by
  by_contra hc
  have hlt : f.roundMag c d < f.roundMag a b := by omega
  have ha := f.roundMag_le_inf a b
  have hm1 : (f.mag (f.roundMag c d) : ℚ) < f.mag (f.roundMag a b) := by
    exact_mod_cast f.mag_lt hlt (by have := f.inf_lt; omega)
  obtain ⟨n1, t1⟩ := f.roundMag_nearest hm he a b hb (f.roundMag c d) (by omega)
  obtain ⟨n2, t2⟩ := f.roundMag_nearest hm he c d hd (f.roundMag a b) ha
  have n3 := (f.roundMag_nearest hm he a b hb (f.roundMag c d + 1) (by omega)).1
  generalize (a : ℚ) / b = u at *
  generalize (c : ℚ) / d = v at *
  generalize hA : (f.mag (f.roundMag a b) : ℚ) = A at *
  generalize hC : (f.mag (f.roundMag c d) : ℚ) = C at *
  -- u is at least half way to A, v at most: both are the midpoint
  have hu : C + A ≤ 2 * u := by
    by_contra hh
    rw [not_le] at hh
    rcases le_or_gt C u with k | k
    · rw [abs_of_nonneg (show 0 ≤ u - C by linarith), abs_of_nonpos (show u - A ≤ 0 by linarith)] at n1; linarith
    · rw [abs_of_nonpos (show u - C ≤ 0 by linarith), abs_of_nonpos (show u - A ≤ 0 by linarith)] at n1; linarith
  have hv : 2 * v ≤ C + A := by
    by_contra hh
    rw [not_le] at hh
    rcases le_or_gt v A with k | k
    · rw [abs_of_nonneg (show 0 ≤ v - C by linarith), abs_of_nonpos (show v - A ≤ 0 by linarith)] at n2; linarith
    · rw [abs_of_nonneg (show 0 ≤ v - C by linarith), abs_of_nonneg (show 0 ≤ v - A by linarith)] at n2; linarith
  have huv : u = v := by linarith
  subst huv
  have heq : |u - A| = |u - C| := by
    rw [abs_of_nonpos (show u - A ≤ 0 by linarith), abs_of_nonneg (show 0 ≤ u - C by linarith)]; linarith
  have e1 : f.roundMag a b % 2 = 0 := (t1 heq).resolve_left (by omega)
  have e2 : f.roundMag c d % 2 = 0 := (t2 heq.symm).resolve_left (by omega)
  -- an odd pattern lies strictly between
  have hmid : f.roundMag c d + 1 < f.roundMag a b := by omega
  have hi := f.inf_lt
  have m1 : C < f.mag (f.roundMag c d + 1) := by
    rw [← hC]; exact_mod_cast f.mag_lt (Nat.lt_succ_self _) (by omega)
  have m2 : (f.mag (f.roundMag c d + 1) : ℚ) < A := by
    rw [← hA]; exact_mod_cast f.mag_lt hmid (by omega)
  generalize (f.mag (f.roundMag c d + 1) : ℚ) = Z at *
  rw [abs_of_nonpos (show u - A ≤ 0 by linarith)] at n3
  rcases le_or_gt u Z with k | k
  · rw [abs_of_nonpos (show u - Z ≤ 0 by linarith)] at n3; linarith
  · rw [abs_of_nonneg (show 0 ≤ u - Z by linarith)] at n3; linarith

end FloatFmt
end Verif
