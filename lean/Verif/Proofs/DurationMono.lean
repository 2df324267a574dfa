import Verif.Proofs.DurationFloat
import Verif.Proofs.FloatSpacing
/-
Scaling a duration by a float is monotone: lemmas for C109.
-/
namespace Verif
open FloatFmt StdDuration

namespace FloatFmt
variable (f : FloatFmt)

/-- The spacing of the magnitudes grows. -/
theorem mag_convex (y : Nat) (h : y + 2 < 2 ^ f.ebits * 2 ^ f.mbits) : 2 * f.mag (y + 1) ≤ f.mag y + f.mag (y + 2) := by
  obtain ⟨s, m, e, h1, h2⟩ := f.pattern_split (y + 1)
  have hM := Nat.two_pow_pos f.mbits
  have ha := f.mag_pattern' s (m + 1) (by omega) (by omega) (by omega)
  have hb := f.mag_pattern' s m (by omega) h2 (by omega)
  rw [← Nat.add_assoc, ← e] at ha
  rw [← e] at hb
  rw [show y + 2 = y + 1 + 1 from rfl, ha, hb, Nat.add_mul, Nat.one_mul]
  suffices m * 2 ^ s ≤ f.mag y + 2 ^ s by omega
  by_cases hm : s = 0 ∨ 2 ^ f.mbits + 1 ≤ m
  · rcases Nat.eq_zero_or_pos m with rfl | hm0
    · simp
    · have hc := f.mag_pattern' s (m - 1) (by omega) (by omega) (by omega)
      rw [show s * 2 ^ f.mbits + (m - 1) = y by omega] at hc
      rw [hc]
      obtain ⟨k, rfl⟩ : ∃ k, m = k + 1 := ⟨m - 1, by omega⟩
      rw [Nat.add_sub_cancel, Nat.add_mul, Nat.one_mul]
  · obtain ⟨s', rfl⟩ : ∃ k, s = k + 1 := ⟨s - 1, by omega⟩
    have hm' : m = 2 ^ f.mbits := by omega
    have hc := f.mag_pattern' s' (2 * 2 ^ f.mbits - 1) (by rw [Nat.pow_succ]; omega) (.inr (by omega))
      (by rw [Nat.add_mul] at e; omega)
    rw [show s' * 2 ^ f.mbits + (2 * 2 ^ f.mbits - 1) = y by rw [Nat.add_mul] at e; omega] at hc
    rw [hc, hm', Nat.pow_succ, Nat.sub_mul]
    have : 2 ^ f.mbits * (2 ^ s' * 2) = 2 * 2 ^ f.mbits * 2 ^ s' := by ring
    omega

/-- `roundMag_nearest` for whole numbers of units. -/
theorem roundMag_nearest_nat (h : StdFmt f) (n y : Nat) (hy : y ≤ f.inf) :
    ((n : ℤ) - f.mag (f.roundMag n 1)).natAbs ≤ ((n : ℤ) - f.mag y).natAbs ∧
    (((n : ℤ) - f.mag (f.roundMag n 1)).natAbs = ((n : ℤ) - f.mag y).natAbs →
      y = f.roundMag n 1 ∨ f.roundMag n 1 % 2 = 0) := by
  obtain ⟨h1, h2⟩ := f.roundMag_nearest h.m1 h.e2 n 1 (by decide) y hy
  have e : ∀ p : Nat, |(n : ℚ) / (1 : Nat) - f.mag p| = (((n : ℤ) - f.mag p).natAbs : ℚ) := by
    intro p
    rw [Nat.cast_natAbs]
    push_cast
    simp
  rw [e, e] at h1 h2
  exact ⟨by exact_mod_cast h1, fun h => h2 (by exact_mod_cast h)⟩

end FloatFmt

namespace GoodFmt
variable {f : FloatFmt} (g : GoodFmt f)
include g

theorem std : StdFmt f := by
  refine ⟨by have := g.m1; omega, by have := g.e1; have := g.e2; omega, ?_⟩
  by_contra h
  have h1 := g.e1
  have hb : f.ebits ≤ 1 := by omega
  have : 2 ^ (f.ebits - 1) = 1 := by rw [show f.ebits - 1 = 0 by omega]; rfl
  unfold qexp at h1
  omega

theorem ofNat_mono {m n : Nat} (h : m ≤ n) : f.ofNat m ≤ f.ofNat n := by
  unfold FloatFmt.ofNat
  refine f.roundMag_mono g.std.m1 g.std.e2 _ _ _ _ (by decide) (by decide) ?_
  have : m * 2 ^ f.qexp ≤ n * 2 ^ f.qexp := Nat.mul_le_mul_right _ h
  push_cast
  rw [div_one, div_one]
  exact_mod_cast this

/-- Adding one second to a rounded number of seconds does not overtake the next number of seconds. -/
theorem ofNat_add_one (s : Nat) (hs : s < 2 ^ 63) :
    f.roundMag (f.mag (f.ofNat s) + 2 ^ f.qexp) 1 ≤ f.ofNat (s + 1) := by
  have hq := Nat.two_pow_pos f.qexp
  obtain ⟨hfin, -⟩ := g.ofNat_err s (by omega)
  have hinf := f.inf_lt
  rcases Nat.lt_or_ge (s * 2 ^ f.qexp) (f.mag (f.ofNat s)) with hgt | hle
  · -- rounded up: the sum is rounded back
    refine Nat.le_trans ?_ (g.ofNat_mono (Nat.le_succ s))
    by_contra hc
    have hc : f.ofNat s < f.roundMag (f.mag (f.ofNat s) + 2 ^ f.qexp) 1 := by omega
    have hdvd : 2 ^ f.qexp ∣ f.mag (f.ofNat s) := by
      rcases Nat.lt_or_ge (f.mag (f.ofNat s)) (2 ^ (f.qexp + f.mbits)) with h | h
      · exfalso
        have hs2 : s < 2 ^ f.mbits := by
          have : s * 2 ^ f.qexp < 2 ^ f.mbits * 2 ^ f.qexp := by
            rw [← Nat.pow_add, Nat.add_comm f.mbits]; omega
          exact Nat.lt_of_mul_lt_mul_right this
        have := (f.roundMag_short g.std s (by rw [Nat.pow_succ]; omega) f.qexp (s * 2 ^ f.qexp) 1 (by decide)
          (Nat.lt_of_lt_of_le (Nat.mul_lt_mul_of_pos_right hs hq) (by
            rw [← Nat.pow_add, ← Nat.pow_add]
            exact Nat.pow_le_pow_right (by decide) (by have := g.e2; omega))) (by simp)).1
        unfold FloatFmt.ofNat at hgt
        omega
      · have := f.mag_dvd (f.ofNat s) (f.qexp + f.mbits) (by rw [Nat.add_comm, Nat.pow_add]; omega) h
        rwa [Nat.add_sub_cancel] at this
    have hR0 : f.ofNat s ≠ 0 := by
      intro h; rw [h, GoodFmt.mag_zero] at hgt; omega
    have hPle := f.roundMag_le_inf (f.mag (f.ofNat s) + 2 ^ f.qexp) 1
    obtain ⟨n1, t1⟩ := f.roundMag_nearest_nat g.std (s * 2 ^ f.qexp) (f.ofNat s - 1) (by omega)
    obtain ⟨n2, t2⟩ := f.roundMag_nearest_nat g.std (f.mag (f.ofNat s) + 2 ^ f.qexp) (f.ofNat s) (by omega)
    have hA := f.mag_lt (x := f.ofNat s - 1) (y := f.ofNat s) (by omega) (by omega)
    have hB := f.mag_lt (x := f.ofNat s) (y := f.ofNat s + 1) (by omega) (by omega)
    have hBP := f.mag_le (x := f.ofNat s + 1) (y := f.roundMag (f.mag (f.ofNat s) + 2 ^ f.qexp) 1) (by omega) (by omega)
    have hBP' : f.roundMag (f.mag (f.ofNat s) + 2 ^ f.qexp) 1 = f.ofNat s + 1 ∨
        f.mag (f.ofNat s + 1) < f.mag (f.roundMag (f.mag (f.ofNat s) + 2 ^ f.qexp) 1) := by
      rcases Nat.lt_or_ge (f.ofNat s + 1) (f.roundMag (f.mag (f.ofNat s) + 2 ^ f.qexp) 1) with h | h
      · exact .inr (f.mag_lt h (by omega))
      · left; omega
    have hconv := f.mag_convex (f.ofNat s - 1) (by omega)
    rw [show f.ofNat s - 1 + 1 = f.ofNat s by omega, show f.ofNat s - 1 + 2 = f.ofNat s + 1 by omega] at hconv
    change _ ≤ _ at n1
    rw [show f.roundMag (s * 2 ^ f.qexp) 1 = f.ofNat s from rfl] at n1 t1
    have hstep : s * 2 ^ f.qexp + 2 ^ f.qexp ≤ f.mag (f.ofNat s) := by
      obtain ⟨k, hk⟩ := hdvd
      rw [hk, Nat.mul_comm (2 ^ f.qexp) k] at hgt ⊢
      have : s < k := Nat.lt_of_mul_lt_mul_right hgt
      have := Nat.mul_le_mul_right (2 ^ f.qexp) (show s + 1 ≤ k from this)
      rw [Nat.add_mul, Nat.one_mul] at this
      exact this
    generalize f.roundMag (f.mag (f.ofNat s) + 2 ^ f.qexp) 1 = P at *
    generalize f.ofNat s = R at *
    generalize f.mag R = M at *
    generalize f.mag (R + 1) = B at *
    generalize f.mag (R - 1) = A at *
    generalize f.mag P = MP at *
    generalize s * 2 ^ f.qexp = S at *
    generalize 2 ^ f.qexp = Q at *
    omega
  · unfold FloatFmt.ofNat at hle ⊢
    refine f.roundMag_mono g.std.m1 g.std.e2 _ _ _ _ (by decide) (by decide) ?_
    rw [Nat.add_mul, Nat.one_mul]
    push_cast
    rw [div_one, div_one]
    exact_mod_cast (by omega)

/-- The fraction of a second of `v` nanoseconds, as `as_secs` computes it. -/
private theorem frac_le (v w : Nat) (h : v ≤ w) :
    f.roundMag (f.mag (f.ofNat v) * 2 ^ f.qexp) (f.mag (f.ofNat 1000000000)) ≤
      f.roundMag (f.mag (f.ofNat w) * 2 ^ f.qexp) (f.mag (f.ofNat 1000000000)) := by
  have hG : 0 < f.mag (f.ofNat 1000000000) := by
    rw [g.g1]; exact Nat.mul_pos (by decide) (Nat.two_pow_pos _)
  refine f.roundMag_mono g.std.m1 g.std.e2 _ _ _ _ hG hG ?_
  have h1 : f.mag (f.ofNat v) ≤ f.mag (f.ofNat w) :=
    f.mag_le (g.ofNat_mono h) (Nat.lt_of_le_of_lt (f.roundMag_le_inf _ _) f.inf_lt)
  have hG' : (0 : ℚ) < (f.mag (f.ofNat 1000000000) : Nat) := by exact_mod_cast hG
  rw [div_le_div_iff_of_pos_right hG']
  exact_mod_cast Nat.mul_le_mul_right _ h1

private theorem frac_one : f.mag (f.roundMag (f.mag (f.ofNat 1000000000) * 2 ^ f.qexp) (f.mag (f.ofNat 1000000000))) = 2 ^ f.qexp := by
  have hG : 0 < f.mag (f.ofNat 1000000000) := by
    rw [g.g1]; exact Nat.mul_pos (by decide) (Nat.two_pow_pos _)
  have := (f.roundMag_short g.std 1 (by have := Nat.two_pow_pos f.mbits; rw [Nat.pow_succ]; omega) f.qexp
    (f.mag (f.ofNat 1000000000) * 2 ^ f.qexp) (f.mag (f.ofNat 1000000000)) hG (by
      rw [Nat.one_mul, ← Nat.pow_add]
      exact Nat.pow_lt_pow_right (by decide) (by have := g.e2; omega)) (by rw [Nat.one_mul, Nat.mul_comm])).1
  rw [this, Nat.one_mul]

theorem as_secs_eq (n : Nat) (hn : n ≤ 2 ^ 63) : as_secs f n = f.roundMag (f.mag (f.ofNat (n / 1000000000)) +
    f.mag (f.roundMag (f.mag (f.ofNat (n % 1000000000)) * 2 ^ f.qexp) (f.mag (f.ofNat 1000000000)))) 1 := by
  obtain ⟨a1, a2⟩ := f.finite_of_lt_inf (g.ofNat_err (n / 1000000000) (by omega)).1
  obtain ⟨b1, b2⟩ := f.finite_of_lt_inf (g.ofNat_err (n % 1000000000) (by omega)).1
  obtain ⟨c1, c2⟩ := f.finite_of_lt_inf g.g2
  have hG : f.mag (f.ofNat 1000000000) ≠ 0 := by
    rw [g.g1]; exact (Nat.mul_pos (by decide) (Nat.two_pow_pos _)).ne'
  have hd : f.divPos (f.ofNat (n % 1000000000)) (f.ofNat 1000000000) =
      f.roundMag (f.mag (f.ofNat (n % 1000000000)) * 2 ^ f.qexp) (f.mag (f.ofNat 1000000000)) := by
    unfold divPos
    simp [b1, b2, c1, c2, hG]
  unfold as_secs
  rw [hd]
  have hF : f.roundMag (f.mag (f.ofNat (n % 1000000000)) * 2 ^ f.qexp) (f.mag (f.ofNat 1000000000)) < f.inf := by
    refine Nat.lt_of_le_of_lt (g.frac_le _ 1000000000 (by omega)) ?_
    rcases Nat.lt_or_ge (f.roundMag (f.mag (f.ofNat 1000000000) * 2 ^ f.qexp) (f.mag (f.ofNat 1000000000))) f.inf with h | h
    · exact h
    · exfalso
      have h := f.mag_le h (Nat.lt_of_le_of_lt (f.roundMag_le_inf _ _) f.inf_lt)
      rw [g.frac_one, f.mag_inf (by have := g.std.e2; omega), ← Nat.pow_add] at h
      have : 2 ^ f.qexp < 2 ^ (f.mbits + (f.emax - 1)) := Nat.pow_lt_pow_right (by decide) (by have := g.e2; omega)
      omega
  obtain ⟨d1, d2⟩ := f.finite_of_lt_inf hF
  unfold addPos
  simp [a1, a2, d1, d2]

/-- The number of seconds of a duration, as a float, is monotone in the duration. -/
theorem as_secs_mono {n n' : Nat} (h : n ≤ n') (hn : n' ≤ 2 ^ 63) : as_secs f n ≤ as_secs f n' := by
  rw [g.as_secs_eq n (by omega), g.as_secs_eq n' hn]
  have hR : ∀ a b, f.roundMag a b < 2 ^ f.ebits * 2 ^ f.mbits := fun a b => Nat.lt_of_le_of_lt (f.roundMag_le_inf _ _) f.inf_lt
  have mono1 : ∀ a b : Nat, a ≤ b → f.roundMag a 1 ≤ f.roundMag b 1 := by
    intro a b h
    refine f.roundMag_mono g.std.m1 g.std.e2 _ _ _ _ (by decide) (by decide) ?_
    push_cast
    rw [div_one, div_one]
    exact_mod_cast h
  rcases Nat.lt_or_ge (n / 1000000000) (n' / 1000000000) with hs | hs
  · have h1 := f.mag_le (g.frac_le (n % 1000000000) 1000000000 (by omega)) (hR _ _)
    rw [g.frac_one] at h1
    refine Nat.le_trans (mono1 _ (f.mag (f.ofNat (n / 1000000000)) + 2 ^ f.qexp) (by omega)) ?_
    refine Nat.le_trans (g.ofNat_add_one _ (by omega)) ?_
    refine Nat.le_trans (g.ofNat_mono (show n / 1000000000 + 1 ≤ n' / 1000000000 by omega)) ?_
    have := f.roundMag_exact g.std.m1 g.std.e2 (f.mag (f.ofNat (n' / 1000000000))) 1 (f.ofNat (n' / 1000000000)) (by decide)
      (f.roundMag_le_inf _ _) (by rw [Nat.mul_one])
    conv_lhs => rw [← this]
    exact mono1 _ _ (by omega)
  · have e : n / 1000000000 = n' / 1000000000 := Nat.le_antisymm (Nat.div_le_div_right h) hs
    rw [e]
    have h1 := f.mag_le (g.frac_le (n % 1000000000) (n' % 1000000000) (by omega)) (hR _ _)
    exact mono1 _ _ (by omega)

omit g in
theorem roundNanos_mono (r : DurRounding) {a b d : Nat} (hd : 0 < d) (h : a ≤ b) : roundNanos r a d ≤ roundNanos r b d := by
  cases r
  · exact Nat.div_le_div_right h
  · show rne a d ≤ rne b d
    unfold rne
    have ha := Nat.div_add_mod a d
    have hb := Nat.div_add_mod b d
    have hra := Nat.mod_lt a hd
    have hrb := Nat.mod_lt b hd
    have hq : a / d ≤ b / d := Nat.div_le_div_right h
    rcases Nat.lt_or_ge (a / d) (b / d) with hlt | hge
    · simp only
      generalize a / d = p at *
      generalize b / d = q at *
      (repeat' split) <;> omega
    · have e : a / d = b / d := by omega
      rw [e] at ha ⊢
      have : a % d ≤ b % d := by omega
      generalize b / d = q at *
      simp only
      (repeat' split) <;> omega

omit g in
theorem from_secs_mono (r : DurRounding) {x y m : Nat} (h : x ≤ y) (hy : y ≤ f.inf) (hm : from_secs f r y = .ok m) :
    ∃ k, from_secs f r x = .ok k ∧ k ≤ m := by
  have hlt : y < f.inf := by
    rcases Nat.lt_or_ge y f.inf with h | h
    · exact h
    · obtain rfl : y = f.inf := by omega
      unfold from_secs at hm
      rw [if_pos (.inr f.inf_spec.2)] at hm
      cases hm
  obtain ⟨a1, a2⟩ := f.finite_of_lt_inf hlt
  obtain ⟨b1, b2⟩ := f.finite_of_lt_inf (Nat.lt_of_le_of_lt h hlt)
  have hmag := f.mag_le h (by have := f.inf_lt; omega)
  unfold from_secs at hm ⊢
  rw [a1, a2, if_neg (by simp)] at hm
  rw [b1, b2, if_neg (by simp)]
  split at hm
  · cases hm
  · rw [if_neg (by omega)]
    obtain rfl := Res.ok.inj hm
    exact ⟨_, rfl, roundNanos_mono r (Nat.two_pow_pos _) (Nat.mul_le_mul_right _ hmag)⟩

omit g in
private theorem lt_inf_of_finite {x : Nat} (hx : x < 2 ^ (f.mbits + f.ebits)) (h1 : f.is_nan x = false) (h2 : f.is_infinite x = false) :
    x < f.inf := by
  have hM := Nat.two_pow_pos f.mbits
  have he : f.expo x = x / 2 ^ f.mbits := by
    unfold expo
    refine Nat.mod_eq_of_lt ?_
    rw [Nat.div_lt_iff_lt_mul hM, ← Nat.pow_add, Nat.add_comm]
    exact hx
  have hne : f.expo x ≠ f.emax := by
    intro h
    unfold is_nan at h1
    unfold is_infinite at h2
    by_cases hf : f.frac x = 0 <;> simp_all
  have hlt : x / 2 ^ f.mbits < 2 ^ f.ebits := by
    rw [← he]; exact Nat.mod_lt _ (Nat.two_pow_pos _)
  have : x / 2 ^ f.mbits < f.emax := by
    unfold emax at *
    omega
  unfold inf
  exact (Nat.div_lt_iff_lt_mul hM).1 this

/-- Scaling with smaller operands: no abort where the larger operands give none, and a result that is not larger. -/
theorem mul_mono (r : DurRounding) {n n' x y m : Nat} (hn : n ≤ n') (hn' : n' ≤ 2 ^ 63) (hxy : x ≤ y)
    (hy : y < 2 ^ (f.mbits + f.ebits)) (hm : StdDuration.mul f r n' y = .ok m) :
    ∃ k, StdDuration.mul f r n x = .ok k ∧ k ≤ m := by
  obtain ⟨s1, s2⟩ := f.finite_of_lt_inf (g.as_secs_err n' hn').1
  obtain ⟨t1, t2⟩ := f.finite_of_lt_inf (g.as_secs_err n (by omega)).1
  have hnan : from_secs f r f.nan = .panic := by
    unfold from_secs; rw [if_pos (.inl (f.nan_spec g.std.m1))]
  have hinf : from_secs f r f.inf = .panic := by
    unfold from_secs; rw [if_pos (.inr f.inf_spec.2)]
  unfold StdDuration.mul mulPos at hm
  rw [s1, s2] at hm
  cases y1 : f.is_nan y with
  | true => rw [y1, if_pos (by simp), hnan] at hm; cases hm
  | false =>
    cases y2 : f.is_infinite y with
    | true =>
      rw [y1, y2, if_neg (by simp), if_pos (by simp)] at hm
      split at hm
      · rw [hnan] at hm; cases hm
      · rw [hinf] at hm; cases hm
    | false =>
      have hyi := lt_inf_of_finite hy y1 y2
      obtain ⟨x1, x2⟩ := f.finite_of_lt_inf (Nat.lt_of_le_of_lt hxy hyi)
      rw [y1, y2, if_neg (by simp), if_neg (by simp)] at hm
      unfold StdDuration.mul mulPos
      rw [x1, x2, t1, t2, if_neg (by simp), if_neg (by simp)]
      refine from_secs_mono r ?_ (f.roundMag_le_inf _ _) hm
      refine f.roundMag_mono g.std.m1 g.std.e2 _ _ _ _ (Nat.two_pow_pos _) (Nat.two_pow_pos _) ?_
      have h1 := f.mag_le hxy (by have := f.inf_lt; omega)
      have h2 := f.mag_le (g.as_secs_mono hn hn') (by have := f.inf_lt; have := (g.as_secs_err n' hn').1; omega)
      rw [div_le_div_iff_of_pos_right (by positivity)]
      exact_mod_cast Nat.mul_le_mul h1 h2

/-- Dividing a smaller duration by a larger number. -/
theorem div_mono (r : DurRounding) {n n' x y m : Nat} (hn : n ≤ n') (hn' : n' ≤ 2 ^ 63) (hxy : y ≤ x) (hx : x ≤ f.inf)
    (hm : StdDuration.div f r n' y = .ok m) :
    ∃ k, StdDuration.div f r n x = .ok k ∧ k ≤ m := by
  obtain ⟨s1, s2⟩ := f.finite_of_lt_inf (g.as_secs_err n' hn').1
  obtain ⟨t1, t2⟩ := f.finite_of_lt_inf (g.as_secs_err n (by omega)).1
  have hnan : from_secs f r f.nan = .panic := by
    unfold from_secs; rw [if_pos (.inl (f.nan_spec g.std.m1))]
  have hinf : from_secs f r f.inf = .panic := by
    unfold from_secs; rw [if_pos (.inr f.inf_spec.2)]
  have hzero : from_secs f r 0 = .ok 0 := by
    have h : 0 < f.inf := Nat.lt_of_le_of_lt (Nat.zero_le _) g.g2
    obtain ⟨a, b⟩ := f.finite_of_lt_inf h
    have hp := Nat.two_pow_pos f.qexp
    unfold from_secs
    rw [a, b, GoodFmt.mag_zero, if_neg (by simp), if_neg (by omega)]
    cases r <;> simp [roundNanos, rne]
  rcases Nat.lt_or_ge x f.inf with hlt | hge
  · obtain ⟨x1, x2⟩ := f.finite_of_lt_inf hlt
    obtain ⟨y1, y2⟩ := f.finite_of_lt_inf (Nat.lt_of_le_of_lt hxy hlt)
    have hmag := f.mag_le hxy (by have := f.inf_lt; omega)
    unfold StdDuration.div divPos at hm ⊢
    rw [s1, s2, y1, y2, if_neg (by simp), if_neg (by simp), if_neg (by simp)] at hm
    rw [t1, t2, x1, x2, if_neg (by simp), if_neg (by simp), if_neg (by simp)]
    by_cases hy0 : f.mag y = 0
    · rw [if_pos hy0] at hm
      split at hm
      · rw [hnan] at hm; cases hm
      · rw [hinf] at hm; cases hm
    · rw [if_neg hy0] at hm
      rw [if_neg (by omega)]
      refine from_secs_mono r ?_ (f.roundMag_le_inf _ _) hm
      refine f.roundMag_mono g.std.m1 g.std.e2 _ _ _ _ (by omega) (by omega) ?_
      have h2 := f.mag_le (g.as_secs_mono hn hn') (by have := f.inf_lt; have := (g.as_secs_err n' hn').1; omega)
      have hy1 : (0 : ℚ) < f.mag y := by exact_mod_cast Nat.pos_of_ne_zero hy0
      have hx1 : (0 : ℚ) < f.mag x := by exact_mod_cast (by omega : 0 < f.mag x)
      rw [div_le_div_iff₀ hx1 hy1]
      exact_mod_cast Nat.mul_le_mul (Nat.mul_le_mul_right _ h2) hmag
  · obtain rfl : x = f.inf := by omega
    unfold StdDuration.div divPos
    rw [t1, t2, f.inf_spec.1, f.inf_spec.2, if_neg (by simp), if_neg (by simp), if_pos rfl]
    exact ⟨0, hzero, Nat.zero_le _⟩

end GoodFmt
end Verif
