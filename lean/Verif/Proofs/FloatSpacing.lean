import Mathlib.Tactic.Linarith
import Mathlib.Tactic.FieldSimp
import Verif.Proofs.FloatSign
/-
The distance between neighbouring floats.
-/
namespace Verif
namespace FloatFmt
variable (f : FloatFmt)

/-- Numbers from `2^K` on are multiples of `2^(K - mbits)`. -/
theorem mag_dvd (p K : Nat) (hp : p < 2 ^ (f.mbits + f.ebits)) (h : 2 ^ K ≤ f.mag p) : 2 ^ (K - f.mbits) ∣ f.mag p := by
  obtain ⟨s, m, rfl, h1, h2⟩ := f.pattern_split p
  have hm := f.mag_pattern' s m (by omega) h2 (by rw [← Nat.pow_add, Nat.add_comm f.ebits]; exact hp)
  rw [hm] at h ⊢
  have hs : K - f.mbits ≤ s := by
    by_contra hc
    have h3 : s + (f.mbits + 1) ≤ K := by omega
    have h4 : m * 2 ^ s < 2 ^ (f.mbits + 1) * 2 ^ s := Nat.mul_lt_mul_of_pos_right h1 (Nat.two_pow_pos s)
    rw [← Nat.pow_add] at h4
    have h5 : 2 ^ (f.mbits + 1 + s) ≤ 2 ^ K := Nat.pow_le_pow_right (by decide) (by omega)
    omega
  exact Dvd.dvd.mul_left (Nat.pow_dvd_pow 2 hs) m

/-- Two different magnitudes, one of them more than `2^K`, differ by at least `2^(K - mbits)`. -/
theorem mag_gap (p q K : Nat) (hK : f.mbits ≤ K) (hp : p < 2 ^ (f.mbits + f.ebits)) (hq : q < 2 ^ (f.mbits + f.ebits))
    (h : 2 ^ K < f.mag p) (hne : f.mag p ≠ f.mag q) :
    f.mag p + 2 ^ (K - f.mbits) ≤ f.mag q ∨ f.mag q + 2 ^ (K - f.mbits) ≤ f.mag p := by
  obtain ⟨a, ha⟩ := f.mag_dvd p K hp h.le
  have hKd : 2 ^ (K - f.mbits) ∣ 2 ^ K := Nat.pow_dvd_pow 2 (by omega)
  obtain ⟨c, hc⟩ := hKd
  have hD := Nat.two_pow_pos (K - f.mbits)
  rcases Nat.lt_or_ge (f.mag q) (2 ^ K) with hq' | hq'
  · right
    rw [ha, hc] at h
    have : c < a := Nat.lt_of_mul_lt_mul_left h
    have : 2 ^ (K - f.mbits) * (c + 1) ≤ 2 ^ (K - f.mbits) * a := Nat.mul_le_mul_left _ (by omega)
    rw [Nat.mul_add, Nat.mul_one] at this
    omega
  · obtain ⟨b, hb⟩ := f.mag_dvd q K hq hq'
    rcases Nat.lt_trichotomy a b with hab | hab | hab
    · left
      have : 2 ^ (K - f.mbits) * (a + 1) ≤ 2 ^ (K - f.mbits) * b := Nat.mul_le_mul_left _ (by omega)
      rw [Nat.mul_add, Nat.mul_one] at this
      omega
    · exact absurd (by rw [ha, hb, hab]) hne
    · right
      have : 2 ^ (K - f.mbits) * (b + 1) ≤ 2 ^ (K - f.mbits) * a := Nat.mul_le_mul_left _ (by omega)
      rw [Nat.mul_add, Nat.mul_one] at this
      omega

end FloatFmt

/-- The value of a finite float is less than that of infinity. -/
theorem mag_lt_inf (f : FloatFmt) (p : Nat) (hp : p < f.inf) : f.mag p < f.mag f.inf := f.mag_lt hp f.inf_lt

/-- Two patterns with the same sign bit and value are the same. -/
theorem pattern_ext (f : FloatFmt) (h : 2 ≤ f.ebits) (x y : Nat) (hx : x < 2 ^ (1 + f.mbits + f.ebits))
    (hy : y < 2 ^ (1 + f.mbits + f.ebits)) (hs : f.neg x = f.neg y) (hv : floatValue f x = floatValue f y) : x = y := by
  have ex := f.eq_withSign x hx
  have ey := f.eq_withSign y hy
  have mx := (f.withSign_spec (f.neg x) _ (f.abs_lt x)).2.1
  have my := (f.withSign_spec (f.neg y) _ (f.abs_lt y)).2.1
  rw [← ex] at mx
  rw [← ey] at my
  have hm : f.mag x = f.mag y := by
    rw [f.floatValue_eq h, f.floatValue_eq h, hs] at hv
    have hQ : (2 : ℚ) ^ f.qexp ≠ 0 := by positivity
    have : (f.mag x : ℚ) = f.mag y := by
      split at hv
      · have := neg_injective hv
        rwa [div_left_inj' hQ] at this
      · rwa [div_left_inj' hQ] at hv
    exact_mod_cast this
  rw [mx, my] at hm
  have bx := f.abs_lt x
  have bY := f.abs_lt y
  rw [Nat.pow_add, Nat.mul_comm] at bx bY
  have : f.abs x = f.abs y := by
    rcases Nat.lt_trichotomy (f.abs x) (f.abs y) with hc | hc | hc
    · have := f.mag_lt hc bY; omega
    · exact hc
    · have := f.mag_lt hc bx; omega
  rw [ex, ey, hs, this]

/-- The values of different floats, one of them of absolute value more than `2^k`, differ by at least `2^(k - mbits)`. -/
theorem value_gap (f : FloatFmt) (h : 2 ≤ f.ebits) (x y k : Nat) (hx : x < 2 ^ (1 + f.mbits + f.ebits))
    (hy : y < 2 ^ (1 + f.mbits + f.ebits)) (hk : 2 ^ k < |floatValue f x|) (hne : floatValue f x ≠ floatValue f y) :
    (2 : ℚ) ^ k / 2 ^ f.mbits ≤ |floatValue f x - floatValue f y| := by
  have ex := f.eq_withSign x hx
  have ey := f.eq_withSign y hy
  have mx := (f.withSign_spec (f.neg x) _ (f.abs_lt x)).2.1
  have my := (f.withSign_spec (f.neg y) _ (f.abs_lt y)).2.1
  rw [← ex] at mx
  rw [← ey] at my
  have hQ : (0 : ℚ) < 2 ^ f.qexp := by positivity
  have h1 : (1 : ℚ) ≤ 2 ^ f.mbits := one_le_pow₀ (by norm_num)
  have hx0 : (0 : ℚ) ≤ (f.mag x : ℚ) / 2 ^ f.qexp := by positivity
  have hy0 : (0 : ℚ) ≤ (f.mag y : ℚ) / 2 ^ f.qexp := by positivity
  have habs : |floatValue f x| = (f.mag x : ℚ) / 2 ^ f.qexp := by
    rw [f.floatValue_eq h]
    split
    · rw [abs_neg, abs_of_nonneg hx0]
    · exact abs_of_nonneg hx0
  rw [habs] at hk
  by_cases hs : f.neg x = f.neg y
  · have hmne : f.mag x ≠ f.mag y := by
      intro hm; apply hne; rw [f.floatValue_eq h, f.floatValue_eq h, hs, hm]
    have hkn : 2 ^ (f.qexp + k) < f.mag x := by
      rw [lt_div_iff₀ hQ, ← pow_add, Nat.add_comm] at hk; exact_mod_cast hk
    have hmb : f.mbits ≤ f.qexp + k := by unfold FloatFmt.qexp; omega
    have hgap := f.mag_gap (f.abs x) (f.abs y) (f.qexp + k) hmb (f.abs_lt x) (f.abs_lt y) (by rw [← mx]; exact hkn)
      (by rw [← mx, ← my]; exact hmne)
    rw [← mx, ← my] at hgap
    have hpow : ((2 ^ (f.qexp + k - f.mbits) : Nat) : ℚ) = 2 ^ k / 2 ^ f.mbits * 2 ^ f.qexp := by
      have : (2 : ℚ) ^ (f.qexp + k - f.mbits) * 2 ^ f.mbits = 2 ^ k * 2 ^ f.qexp := by
        rw [← pow_add, ← pow_add]; congr 1; omega
      push_cast
      field_simp
      linarith
    have hd : (2 : ℚ) ^ k / 2 ^ f.mbits ≤ |(f.mag x : ℚ) / 2 ^ f.qexp - (f.mag y : ℚ) / 2 ^ f.qexp| := by
      rw [← sub_div, abs_div, abs_of_pos hQ, le_div_iff₀ hQ, ← hpow]
      rcases hgap with hg | hg
      · have : (f.mag x : ℚ) + ((2 ^ (f.qexp + k - f.mbits) : Nat) : ℚ) ≤ f.mag y := by exact_mod_cast hg
        rw [abs_sub_comm, abs_of_nonneg (by have : (0 : ℚ) ≤ ((2 ^ (f.qexp + k - f.mbits) : Nat) : ℚ) := by positivity
                                            linarith)]
        linarith
      · have : (f.mag y : ℚ) + ((2 ^ (f.qexp + k - f.mbits) : Nat) : ℚ) ≤ f.mag x := by exact_mod_cast hg
        rw [abs_of_nonneg (by have : (0 : ℚ) ≤ ((2 ^ (f.qexp + k - f.mbits) : Nat) : ℚ) := by positivity
                              linarith)]
        linarith
    rw [f.floatValue_eq h, f.floatValue_eq h, hs]
    split
    · rw [show -((f.mag x : ℚ) / 2 ^ f.qexp) - -((f.mag y : ℚ) / 2 ^ f.qexp) =
        -((f.mag x : ℚ) / 2 ^ f.qexp - (f.mag y : ℚ) / 2 ^ f.qexp) by ring, abs_neg]; exact hd
    · exact hd
  · have hbig : (2 : ℚ) ^ k / 2 ^ f.mbits ≤ 2 ^ k := by
      rw [div_le_iff₀ (by positivity)]
      have : (0 : ℚ) ≤ 2 ^ k := by positivity
      nlinarith
    have hsum : |floatValue f x - floatValue f y| = (f.mag x : ℚ) / 2 ^ f.qexp + (f.mag y : ℚ) / 2 ^ f.qexp := by
      rw [f.floatValue_eq h, f.floatValue_eq h]
      cases hnx : f.neg x <;> cases hny : f.neg y
      · exact absurd (by rw [hnx, hny]) hs
      · simp only [Bool.false_eq_true, if_false, if_true]
        rw [sub_neg_eq_add, abs_of_nonneg (by linarith)]
      · simp only [Bool.false_eq_true, if_false, if_true]
        rw [show -((f.mag x : ℚ) / 2 ^ f.qexp) - (f.mag y : ℚ) / 2 ^ f.qexp =
          -((f.mag x : ℚ) / 2 ^ f.qexp + (f.mag y : ℚ) / 2 ^ f.qexp) by ring, abs_neg, abs_of_nonneg (by linarith)]
      · exact absurd (by rw [hnx, hny]) hs
    rw [hsum]; linarith

/-- A number has one nearest float (apart from the sign of zero): the specification `IsNearestFloat` leaves no choice. -/
theorem nearestFloat_unique (f : FloatFmt) (h : StdFmt f) (v : ℚ) (r r' : Nat) (hr : IsNearestFloat f v r)
    (hr' : IsNearestFloat f v r') (hs : f.neg r = f.neg r') : r = r' := by
  -- between two different even patterns with the same sign there is a third one
  have key : ∀ r r', IsNearestFloat f v r → IsNearestFloat f v r' → f.neg r = f.neg r' → f.abs r < f.abs r' → False := by
    intro r r' ⟨b1, n1, m1⟩ ⟨b2, n2, m2⟩ hs hlt
    obtain ⟨l12, t12⟩ := m1 r' b2 n2
    obtain ⟨l21, t21⟩ := m2 r b1 n1
    have heq := le_antisymm l12 l21
    have er := f.eq_withSign r b1
    have er' := f.eq_withSign r' b2
    have sp := f.withSign_spec (f.neg r) _ (f.abs_lt r)
    have sp' := f.withSign_spec (f.neg r') _ (f.abs_lt r')
    rw [← er] at sp
    rw [← er'] at sp'
    have ha' := f.abs_lt r'
    have hmlt : f.mag r < f.mag r' := by
      rw [sp.2.1, sp'.2.1]
      exact f.mag_lt hlt (by rw [Nat.pow_add, Nat.mul_comm] at ha'; exact ha')
    have hQ : (0 : ℚ) < 2 ^ f.qexp := by positivity
    have hvne : floatValue f r ≠ floatValue f r' := by
      rw [f.floatValue_eq h.eb, f.floatValue_eq h.eb, hs]
      have : (f.mag r : ℚ) / 2 ^ f.qexp < f.mag r' / 2 ^ f.qexp := by
        rw [div_lt_div_iff_of_pos_right hQ]; exact_mod_cast hmlt
      split
      · intro hc; linarith
      · intro hc; linarith
    have even1 : r % 2 = 0 := (t12 heq).resolve_left hvne.symm
    have even2 : r' % 2 = 0 := (t21 heq.symm).resolve_left hvne
    have evenB : 2 ^ (f.mbits + f.ebits) % 2 = 0 := by
      obtain ⟨j, hj⟩ := Nat.exists_eq_add_of_le' (show 1 ≤ f.mbits + f.ebits by have := h.m1; omega)
      rw [hj, Nat.pow_succ]; omega
    have hp : f.abs r % 2 = 0 := by
      unfold FloatFmt.withSign at er
      split at er <;> omega
    have hp' : f.abs r' % 2 = 0 := by
      unfold FloatFmt.withSign at er'
      split at er' <;> omega
    have hmid : f.abs r + 1 < f.abs r' := by omega
    -- the pattern after `r`
    have hb : f.abs r + 1 < 2 ^ (f.mbits + f.ebits) := by omega
    have sy := f.withSign_spec (f.neg r) _ hb
    have hinf : f.abs r' ≤ f.inf := by
      have := f.nan_iff (f.abs r') ha'
      rw [not_isNaN_iff, sp'.2.2.1] at n2
      by_contra hc
      rw [this.1.2 (by omega)] at n2; cases n2
    have ny : ¬ IsNaN f (f.withSign (f.neg r) (f.abs r + 1)) := by
      rw [not_isNaN_iff, sy.2.2.1]
      cases hc : f.is_nan (f.abs r + 1) with
      | false => rfl
      | true => have := (f.nan_iff _ hb).1.1 hc; omega
    have ly := (m1 _ sy.2.2.2.2.1 ny).1
    have ly' := (m2 _ sy.2.2.2.2.1 ny).1
    have g1 : f.mag r < f.mag (f.abs r + 1) := by
      rw [sp.2.1]; exact f.mag_lt (Nat.lt_succ_self _) (by rw [Nat.pow_add, Nat.mul_comm] at hb; exact hb)
    have g2 : f.mag (f.abs r + 1) < f.mag r' := by
      rw [sp'.2.1]; exact f.mag_lt hmid (by rw [Nat.pow_add, Nat.mul_comm] at ha'; exact ha')
    have q1 : (f.mag r : ℚ) / 2 ^ f.qexp < f.mag (f.abs r + 1) / 2 ^ f.qexp := by
      rw [div_lt_div_iff_of_pos_right hQ]; exact_mod_cast g1
    have q2 : (f.mag (f.abs r + 1) : ℚ) / 2 ^ f.qexp < f.mag r' / 2 ^ f.qexp := by
      rw [div_lt_div_iff_of_pos_right hQ]; exact_mod_cast g2
    rw [f.floatValue_withSign h.eb _ _ hb] at ly ly'
    rw [f.floatValue_eq h.eb r] at heq ly
    rw [f.floatValue_eq h.eb r', ← hs] at heq ly'
    have mid : ∀ a b c : ℚ, a < b → b < c → |v - a| = |v - c| → |v - a| ≤ |v - b| → |v - c| ≤ |v - b| → False := by
      intro a b c hab hbc e1 e2 e3
      rcases le_total (v - a) 0 with p | p
      · rw [abs_of_nonpos p, abs_of_nonpos (by linarith)] at e1; linarith
      · rcases le_total (v - c) 0 with s | s
        · rw [abs_of_nonneg p] at e1 e2
          rw [abs_of_nonpos s] at e1 e3
          rcases le_total (v - b) 0 with t | t
          · rw [abs_of_nonpos t] at e2 e3; linarith
          · rw [abs_of_nonneg t] at e2 e3; linarith
        · rw [abs_of_nonneg p, abs_of_nonneg s] at e1; linarith
    cases hn : f.neg r
    · rw [hn] at heq ly ly'
      simp only [Bool.false_eq_true, if_false] at heq ly ly'
      exact mid _ _ _ q1 q2 heq ly ly'
    · rw [hn] at heq ly ly'
      simp only [if_true] at heq ly ly'
      exact mid _ _ _ (neg_lt_neg q2) (neg_lt_neg q1) heq.symm ly' ly
  have e : f.abs r = f.abs r' := by
    rcases Nat.lt_trichotomy (f.abs r) (f.abs r') with hc | hc | hc
    · exact (key r r' hr hr' hs hc).elim
    · exact hc
    · exact (key r' r hr' hr hs.symm hc).elim
  rw [f.eq_withSign r hr.1, f.eq_withSign r' hr'.1, hs, e]

end Verif
