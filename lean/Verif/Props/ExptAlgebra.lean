import Mathlib.Tactic.Positivity
import Mathlib.Tactic.Linarith
import Verif.Props.Arith
import Verif.Props.Expt
/-
C124: EXPT with an integer exponent as a function of the base, and the root of a square.
-/
namespace Verif
open Spec

/-! ### Two computations of a power, step by step -/

/-- A relation that multiplication preserves holds between the results of the loop for two bases. -/
private theorem powiLoop_rel (f : FloatFmt) (S : Nat → Nat → Prop)
    (hmul : ∀ a a' b b', S a a' → S b b' → S (f.mul a b) (f.mul a' b')) (n : Nat) :
    ∀ a a' acc acc', S a a' → S acc acc' → S (f.powiLoop a n acc) (f.powiLoop a' n acc') := by
  induction n using Nat.strongRecOn with
  | ind n ih =>
    intro a a' acc acc' ha hc
    have hacc : S (if n % 2 = 1 then f.mul acc a else acc) (if n % 2 = 1 then f.mul acc' a' else acc') := by
      split
      · exact hmul _ _ _ _ hc ha
      · exact hc
    unfold FloatFmt.powiLoop
    by_cases h : n / 2 = 0
    · simp only [h, dif_pos]; exact hacc
    · simp only [h, dif_neg, not_false_eq_true]
      exact ih _ (by omega) _ _ _ _ (hmul _ _ _ _ ha ha) hacc

private theorem one_pattern' (f : FloatFmt) (hf : IsFloatTy f) : f.abs f.one = f.one ∧ f.neg f.one = false ∧ f.one < 2 ^ (1 + f.mbits + f.ebits) := by
  have hol : f.one < 2 ^ (f.mbits + f.ebits) := f.le_inf_lt (f.one_eq hf).2.le
  have ho := f.withSign_spec false f.one hol
  have ew : f.withSign false f.one = f.one := by unfold FloatFmt.withSign; simp
  rw [ew] at ho
  exact ⟨ho.2.2.2.2.2, ho.1, ho.2.2.2.2.1⟩

/-! ### The sign of the base -/

private theorem mulPos_lt (f : FloatFmt) (a b : Nat) (hn : f.is_nan (f.mulPos a b) ≠ true) (hs : StdFmt f) :
    f.mulPos a b < 2 ^ (f.mbits + f.ebits) := by
  have hi := f.inf_lt'
  have hnan := f.nan_spec hs.m1
  unfold FloatFmt.mulPos at hn ⊢
  split
  · rename_i h; rw [if_pos h] at hn; exact absurd hnan hn
  · rename_i h
    rw [if_neg h] at hn
    split
    · rename_i h2
      rw [if_pos h2] at hn
      split
      · rename_i h3; rw [if_pos h3] at hn; exact absurd hnan hn
      · exact hi
    · exact lt_of_le_of_lt (f.roundMag_le_inf _ _) hi

private theorem mul_abs (f : FloatFmt) (hs : StdFmt f) (a a' b b' : Nat) (ha : f.abs a = f.abs a') (hb : f.abs b = f.abs b') :
    f.abs (f.mul a b) = f.abs (f.mul a' b') := by
  unfold FloatFmt.mul
  dsimp only
  rw [ha, hb]
  split
  · rfl
  · rename_i hn
    have hlt := mulPos_lt f _ _ hn hs
    rw [(f.withSign_spec _ _ hlt).2.2.2.2.2, (f.withSign_spec _ _ hlt).2.2.2.2.2]

private theorem div_abs (f : FloatFmt) (a b b' : Nat) (hle : f.divPos (f.abs a) (f.abs b') ≤ f.inf) (hb : f.abs b = f.abs b') :
    f.abs (f.div a b) = f.abs (f.div a b') := by
  rw [(f.div_spec (a := a) (b := b') hle).2.1, (f.div_spec (a := a) (b := b) (by rw [hb]; exact hle)).2.1, hb]

private theorem divPos_one_le (f : FloatFmt) (hf : IsFloatTy f) (p : Nat) (hp : p ≤ f.inf) : f.divPos f.one p ≤ f.inf := by
  obtain ⟨q1, q2⟩ := f.one_eq hf
  unfold FloatFmt.divPos
  rw [f.not_nan_le hp, (f.finite_of_lt_inf q2).1, (f.finite_of_lt_inf q2).2]
  have : f.mag f.one ≠ 0 := by rw [q1]; positivity
  simp only [Bool.false_eq_true, or_self, if_false, this]
  split
  · omega
  · split
    · exact le_refl _
    · exact f.roundMag_le_inf _ _

/-- What `C91_special` says, for either format. -/
private theorem special' (f : FloatFmt) (hf : IsFloatTy f) (x : Nat) (hx : x < 2 ^ (1 + f.mbits + f.ebits)) (hn : ¬ IsNaN f x) (b : Int) :
    ¬ IsNaN f (f.powi x b) ∧ (SignBit f (f.powi x b) ↔ SignBit f x ∧ b % 2 = 1) := by
  rcases hf with rfl | rfl
  · obtain ⟨h1, -, -, h4⟩ := (C91_special x b).1 hx
    exact ⟨fun h => hn (h1.1 h).1, h4 hn⟩
  · obtain ⟨h1, -, -, h4⟩ := (C91_special x b).2 hx
    exact ⟨fun h => hn (h1.1 h).1, h4 hn⟩

private theorem powi_lt (f : FloatFmt) (hf : IsFloatTy f) (x : Nat) (hx : x < 2 ^ (1 + f.mbits + f.ebits)) (n : Nat) :
    f.powiLoop x n f.one < 2 ^ (1 + f.mbits + f.ebits) := by
  have h := f.powiLoop_ind (fun _ y => y < 2 ^ (1 + f.mbits + f.ebits)) n (by
    intro k l a b ha hb _ _
    by_cases hna : f.is_nan (f.mulPos (f.abs a) (f.abs b)) = true
    · by_cases hnn : f.is_nan a = true ∨ f.is_nan b = true
      · exact (f.mul_nan (stdFmt hf) a b ha hb hnn).2
      · unfold FloatFmt.mul
        dsimp only
        rw [if_pos hna]
        unfold FloatFmt.mulPos at hna ⊢
        have e1 := (finite_abs_lt f a ha).2.2.2.1
        have e2 := (finite_abs_lt f b hb).2.2.2.1
        have hab : ¬ (f.is_nan (f.abs a) = true ∨ f.is_nan (f.abs b) = true) := by rw [← e1, ← e2]; exact hnn
        rw [if_neg hab] at hna ⊢
        have hi := f.inf_lt'
        have hsp := f.two_pow_split
        split
        · split
          · unfold FloatFmt.nan
            have : 2 ^ (f.mbits - 1) ≤ 2 ^ (f.mbits + f.ebits) := Nat.pow_le_pow_right (by decide) (by omega)
            omega
          · omega
        · have := f.roundMag_le_inf (f.mag (f.abs a) * f.mag (f.abs b)) (2 ^ f.qexp)
          omega
    · have hlt := mulPos_lt f _ _ hna (stdFmt hf)
      unfold FloatFmt.mul
      dsimp only
      rw [if_neg hna]
      exact (f.withSign_spec _ _ hlt).2.2.2.2.1) n x f.one 1 0 (by omega) hx (one_pattern' f hf).2.2 (by omega)
  exact h

private theorem powi_nat (f : FloatFmt) (x n : Nat) : f.powi x n = f.powiLoop x n f.one := by
  unfold FloatFmt.powi
  dsimp only
  rw [if_neg (by omega), Int.natAbs_natCast]

private theorem powiLoop_not_nan (f : FloatFmt) (hf : IsFloatTy f) (x : Nat) (hx : x < 2 ^ (1 + f.mbits + f.ebits)) (hn : ¬ IsNaN f x)
    (n : Nat) : ¬ IsNaN f (f.powiLoop x n f.one) := by
  have := (special' f hf x hx hn n).1
  rwa [powi_nat] at this

private theorem powi_pattern (f : FloatFmt) (hf : IsFloatTy f) (x : Nat) (hx : x < 2 ^ (1 + f.mbits + f.ebits)) (hn : ¬ IsNaN f x) (b : Int) :
    f.powi x b < 2 ^ (1 + f.mbits + f.ebits) := by
  have h1 := powi_lt f hf x hx b.natAbs
  have hnl := powiLoop_not_nan f hf x hx hn b.natAbs
  unfold FloatFmt.powi
  dsimp only
  split
  · refine (f.div_spec ?_).2.2
    rw [(one_pattern' f hf).1]
    exact divPos_one_le f hf _ ((finite_abs_lt f _ h1).2.1.1 hnl)
  · exact h1

private theorem powi_abs (f : FloatFmt) (hf : IsFloatTy f) (x y : Nat) (hx : x < 2 ^ (1 + f.mbits + f.ebits)) (hn : ¬ IsNaN f x)
    (hxy : f.abs y = f.abs x) (b : Int) : f.abs (f.powi y b) = f.abs (f.powi x b) := by
  have h1 := powi_lt f hf x hx b.natAbs
  have hnl := powiLoop_not_nan f hf x hx hn b.natAbs
  have hrel := powiLoop_rel f (fun a a' => f.abs a = f.abs a') (fun a a' c c' h h' => mul_abs f (stdFmt hf) a a' c c' h h')
    b.natAbs y x f.one f.one hxy rfl
  unfold FloatFmt.powi
  dsimp only
  split
  · refine div_abs f _ _ _ ?_ hrel
    rw [(one_pattern' f hf).1]
    exact divPos_one_le f hf _ ((finite_abs_lt f _ h1).2.1.1 hnl)
  · exact hrel

private theorem powi_negate (f : FloatFmt) (hf : IsFloatTy f) (x y : Nat) (hx : x < 2 ^ (1 + f.mbits + f.ebits))
    (hy : y < 2 ^ (1 + f.mbits + f.ebits)) (hn : ¬ IsNaN f x) (hxy : f.abs y = f.abs x) (hne : y ≠ x) (b : Int) :
    (b % 2 = 0 → f.powi y b = f.powi x b) ∧
    (b % 2 = 1 → f.abs (f.powi y b) = f.abs (f.powi x b) ∧ f.powi y b ≠ f.powi x b) := by
  have ex := f.eq_withSign x hx
  have ey := f.eq_withSign y hy
  have hsg : f.neg y ≠ f.neg x := by
    intro h; apply hne; rw [ex, ey, hxy, h]
  have hny : ¬ IsNaN f y := by
    rw [(finite_abs_lt f y hy).2.1, hxy, ← (finite_abs_lt f x hx).2.1]; exact hn
  have ha := powi_abs f hf x y hx hn hxy b
  have px := powi_pattern f hf x hx hn b
  have py := powi_pattern f hf y hy hny b
  have sx := (special' f hf x hx hn b).2
  have sy := (special' f hf y hy hny b).2
  rw [signBit_iff, signBit_iff] at sx sy
  constructor
  · intro hb
    have e1 : f.neg (f.powi x b) = false := by
      rw [Bool.eq_false_iff]; intro h; have := (sx.1 h).2; omega
    have e2 : f.neg (f.powi y b) = false := by
      rw [Bool.eq_false_iff]; intro h; have := (sy.1 h).2; omega
    rw [f.eq_withSign _ px, f.eq_withSign _ py, ha, e1, e2]
  · intro hb
    refine ⟨ha, fun h => hsg ?_⟩
    have e1 : f.neg (f.powi x b) = f.neg x := by
      rw [Bool.eq_iff_iff, sx]; simp [hb]
    have e2 : f.neg (f.powi y b) = f.neg y := by
      rw [Bool.eq_iff_iff, sy]; simp [hb]
    rw [← e1, ← e2, h]

/-- **C124.** Flipping the sign of a base that is not NaN changes nothing for an even exponent, and flips the sign of the result,
nothing else, for an odd one. (The lower 31 resp. 63 bits of a float are its magnitude, the top bit is the sign.) -/
theorem C124_sign (x y : Nat) (b : Int) :
    (x < 2 ^ 32 → y < 2 ^ 32 → ¬ IsNaN .f32 x → y % 2 ^ 31 = x % 2 ^ 31 → y ≠ x →
      (b % 2 = 0 → EXPT__REAL__DINT y b = EXPT__REAL__DINT x b) ∧
      (b % 2 = 1 → EXPT__REAL__DINT y b % 2 ^ 31 = EXPT__REAL__DINT x b % 2 ^ 31 ∧ EXPT__REAL__DINT y b ≠ EXPT__REAL__DINT x b)) ∧
    (x < 2 ^ 64 → y < 2 ^ 64 → ¬ IsNaN .f64 x → y % 2 ^ 63 = x % 2 ^ 63 → y ≠ x →
      (b % 2 = 0 → EXPT__LREAL__DINT y b = EXPT__LREAL__DINT x b) ∧
      (b % 2 = 1 → EXPT__LREAL__DINT y b % 2 ^ 63 = EXPT__LREAL__DINT x b % 2 ^ 63 ∧ EXPT__LREAL__DINT y b ≠ EXPT__LREAL__DINT x b)) :=
  ⟨fun h1 h2 h3 h4 h5 => powi_negate .f32 (.inl rfl) x y h1 h2 h3 h4 h5 b,
   fun h1 h2 h3 h4 h5 => powi_negate .f64 (.inr rfl) x y h1 h2 h3 h4 h5 b⟩

/-! ### Order -/

private theorem mul_pos_pattern (f : FloatFmt) (a b : Nat) (ha : a ≤ f.inf) (hb : b ≤ f.inf) (h : f.mulPos a b ≤ f.inf) :
    f.mul a b = f.mulPos a b := by
  have al := f.le_inf_lt ha
  have bl := f.le_inf_lt hb
  have ea : f.abs a = a := Nat.mod_eq_of_lt al
  have eb : f.abs b = b := Nat.mod_eq_of_lt bl
  have na : f.neg a = false := by unfold FloatFmt.neg; rw [Nat.div_eq_of_lt al]; simp
  have nb : f.neg b = false := by unfold FloatFmt.neg; rw [Nat.div_eq_of_lt bl]; simp
  unfold FloatFmt.mul
  dsimp only
  rw [ea, eb, na, nb, f.not_nan_le h]
  simp [FloatFmt.withSign]

/-- Products of numbers on the same side of 1 stay on that side. -/
private theorem mulPos_side (f : FloatFmt) (hf : IsFloatTy f) (a b : Nat) (ha : a ≤ f.inf) (hb : b ≤ f.inf) :
    (f.one ≤ a → f.one ≤ b → f.one ≤ f.mulPos a b ∧ f.mulPos a b ≤ f.inf) ∧ (a ≤ f.one → b ≤ f.one → f.mulPos a b ≤ f.one) := by
  have hs := stdFmt hf
  obtain ⟨q1, q2⟩ := f.one_eq hf
  have hQ : 0 < 2 ^ f.qexp := Nat.two_pow_pos _
  have hone : f.roundMag (2 ^ f.qexp * 2 ^ f.qexp) (2 ^ f.qexp) = f.one :=
    f.roundMag_exact hs.m1 hs.e2 _ _ _ hQ q2.le (by rw [q1])
  constructor
  · intro ga gb
    have h1 : 2 ^ f.qexp ≤ f.mag a := by rw [← q1]; exact f.mag_le ga (lt_of_le_of_lt ha f.inf_lt)
    have h2 : 2 ^ f.qexp ≤ f.mag b := by rw [← q1]; exact f.mag_le gb (lt_of_le_of_lt hb f.inf_lt)
    refine ⟨?_, f.mulPos_le_inf ha hb (fun _ => ⟨by omega, by omega⟩)⟩
    unfold FloatFmt.mulPos
    rw [f.not_nan_le ha, f.not_nan_le hb]
    simp only [Bool.false_eq_true, or_self, if_false]
    split
    · rw [if_neg (by omega)]; exact q2.le
    · conv_lhs => rw [← hone]
      refine f.roundMag_mono hs.m1 hs.e2 _ _ _ _ hQ hQ ?_
      have := Nat.mul_le_mul h1 h2
      rw [div_le_div_iff_of_pos_right (by exact_mod_cast hQ)]
      exact_mod_cast this
  · intro la lb
    have h1 : f.mag a ≤ 2 ^ f.qexp := by rw [← q1]; exact f.mag_le la (lt_trans q2 f.inf_lt)
    have h2 : f.mag b ≤ 2 ^ f.qexp := by rw [← q1]; exact f.mag_le lb (lt_trans q2 f.inf_lt)
    rw [f.mulPos_finite (lt_of_le_of_lt la q2) (lt_of_le_of_lt lb q2)]
    conv_rhs => rw [← hone]
    refine f.roundMag_mono hs.m1 hs.e2 _ _ _ _ hQ hQ ?_
    have := Nat.mul_le_mul h1 h2
    rw [div_le_div_iff_of_pos_right (by exact_mod_cast hQ)]
    exact_mod_cast this

/-- `a` is a possible intermediate result for the base `x`: a number or infinity on the same side of 1 as `x`. -/
private def Side (f : FloatFmt) (x a : Nat) : Prop := a ≤ f.inf ∧ (f.one ≤ x → f.one ≤ a) ∧ (x ≤ f.one → a ≤ f.one)

private theorem Side.mul {f : FloatFmt} (hf : IsFloatTy f) {x a b : Nat} (ha : Side f x a) (hb : Side f x b) :
    f.mul a b = f.mulPos a b ∧ Side f x (f.mulPos a b) := by
  obtain ⟨s1, s2⟩ := mulPos_side f hf a b ha.1 hb.1
  have hle : f.mulPos a b ≤ f.inf := by
    rcases Nat.le_total f.one x with h | h
    · exact (s1 (ha.2.1 h) (hb.2.1 h)).2
    · exact le_trans (s2 (ha.2.2 h) (hb.2.2 h)) (f.one_eq hf).2.le
  exact ⟨mul_pos_pattern f a b ha.1 hb.1 hle, hle, fun h => (s1 (ha.2.1 h) (hb.2.1 h)).1, fun h => s2 (ha.2.2 h) (hb.2.2 h)⟩

/-- Larger factors have a larger product. -/
private theorem mulPos_mono (f : FloatFmt) (hf : IsFloatTy f) {x y a a' b b' : Nat} (ha : Side f x a) (hb : Side f x b)
    (ha' : Side f y a') (hb' : Side f y b') (h1 : a ≤ a') (h2 : b ≤ b') : f.mulPos a b ≤ f.mulPos a' b' := by
  have hs := stdFmt hf
  obtain ⟨q1, q2⟩ := f.one_eq hf
  have hQ : 0 < 2 ^ f.qexp := Nat.two_pow_pos _
  have hle := (ha.mul hf hb).2.1
  by_cases hfin : a' < f.inf ∧ b' < f.inf
  · obtain ⟨fa, fb⟩ := hfin
    rw [f.mulPos_finite fa fb, f.mulPos_finite (by omega) (by omega)]
    refine f.roundMag_mono hs.m1 hs.e2 _ _ _ _ hQ hQ ?_
    have m1 := f.mag_le h1 (lt_trans fa f.inf_lt)
    have m2 := f.mag_le h2 (lt_trans fb f.inf_lt)
    have := Nat.mul_le_mul m1 m2
    rw [div_le_div_iff_of_pos_right (by exact_mod_cast hQ)]
    exact_mod_cast this
  · -- one factor is infinite, so the base is at least 1 and the other factor is not zero
    have hinf : a' = f.inf ∨ b' = f.inf := by
      have := ha'.1; have := hb'.1; omega
    have hg : f.one ≤ y := by
      by_contra hc
      have l1 := ha'.2.2 (by omega)
      have l2 := hb'.2.2 (by omega)
      omega
    have g1 : 2 ^ f.qexp ≤ f.mag a' := by rw [← q1]; exact f.mag_le (ha'.2.1 hg) (lt_of_le_of_lt ha'.1 f.inf_lt)
    have g2 : 2 ^ f.qexp ≤ f.mag b' := by rw [← q1]; exact f.mag_le (hb'.2.1 hg) (lt_of_le_of_lt hb'.1 f.inf_lt)
    have : f.mulPos a' b' = f.inf := by
      unfold FloatFmt.mulPos
      rw [f.not_nan_le ha'.1, f.not_nan_le hb'.1]
      simp only [Bool.false_eq_true, or_self, if_false]
      rw [if_pos (by rcases hinf with h | h
                     · left; rw [h]; exact f.inf_spec.2
                     · right; rw [h]; exact f.inf_spec.2), if_neg (by omega)]
    rw [this]; exact hle

private theorem powiLoop_mono (f : FloatFmt) (hf : IsFloatTy f) (x y n : Nat) (hxy : x ≤ y) (hy : y ≤ f.inf) :
    f.powiLoop x n f.one ≤ f.powiLoop y n f.one ∧ f.powiLoop y n f.one ≤ f.inf := by
  have h := powiLoop_rel f (fun a a' => Side f x a ∧ Side f y a' ∧ a ≤ a') (by
    rintro a a' b b' ⟨sa, sa', h1⟩ ⟨sb, sb', h2⟩
    obtain ⟨e1, s1⟩ := sa.mul hf sb
    obtain ⟨e2, s2⟩ := sa'.mul hf sb'
    rw [e1, e2]
    exact ⟨s1, s2, mulPos_mono f hf sa sb sa' sb' h1 h2⟩) n x y f.one f.one
    ⟨⟨by omega, id, id⟩, ⟨hy, id, id⟩, hxy⟩
    ⟨⟨(f.one_eq hf).2.le, fun _ => le_refl _, fun _ => le_refl _⟩, ⟨(f.one_eq hf).2.le, fun _ => le_refl _, fun _ => le_refl _⟩, le_refl _⟩
  exact ⟨h.2.2, h.2.1.1⟩

private theorem divPos_one_anti (f : FloatFmt) (hf : IsFloatTy f) (a b : Nat) (hab : a ≤ b) (hb : b ≤ f.inf) :
    f.divPos f.one b ≤ f.divPos f.one a := by
  have hs := stdFmt hf
  obtain ⟨q1, q2⟩ := f.one_eq hf
  have h1 := divPos_one_le f hf b hb
  have hm1 : f.mag f.one ≠ 0 := by rw [q1]; positivity
  rcases Nat.lt_or_eq_of_le hb with hlt | heq
  · have hal : a < f.inf := by omega
    by_cases ha0 : f.mag a = 0
    · have : f.divPos f.one a = f.inf := by
        unfold FloatFmt.divPos
        rw [f.not_nan_le hal.le, (f.finite_of_lt_inf q2).1, (f.finite_of_lt_inf q2).2, (f.finite_of_lt_inf hal).2]
        simp [ha0, hm1]
      rw [this]; exact h1
    · have hmab := f.mag_le hab (lt_trans hlt f.inf_lt)
      have e : ∀ c, c < f.inf → f.mag c ≠ 0 → f.divPos f.one c = f.roundMag (f.mag f.one * 2 ^ f.qexp) (f.mag c) := by
        intro c hc h0
        unfold FloatFmt.divPos
        rw [(f.finite_of_lt_inf hc).1, (f.finite_of_lt_inf q2).1, (f.finite_of_lt_inf q2).2, (f.finite_of_lt_inf hc).2]
        simp [h0]
      rw [e a hal ha0, e b hlt (by omega)]
      refine f.roundMag_mono hs.m1 hs.e2 _ _ _ _ (by omega) (by omega) ?_
      have hp : (0 : ℚ) < f.mag a := by exact_mod_cast Nat.pos_of_ne_zero ha0
      have hq : (f.mag a : ℚ) ≤ f.mag b := by exact_mod_cast hmab
      exact div_le_div_of_nonneg_left (by positivity) hp hq
  · have : f.divPos f.one b = 0 := by
      unfold FloatFmt.divPos
      rw [heq, f.inf_spec.1, (f.finite_of_lt_inf q2).1, (f.finite_of_lt_inf q2).2, f.inf_spec.2]
      simp
    omega

private theorem pos_pattern (f : FloatFmt) (x : Nat) (hx : x < 2 ^ (1 + f.mbits + f.ebits)) (hn : ¬ IsNaN f x)
    (hs : ¬ SignBit f x) : x ≤ f.inf := by
  have h := (finite_abs_lt f x hx).2.1.1 hn
  have e := f.eq_withSign x hx
  have : f.neg x = false := by rw [Bool.eq_false_iff]; rw [signBit_iff] at hs; exact hs
  rw [this] at e
  have e' : f.withSign false (f.abs x) = f.abs x := by unfold FloatFmt.withSign; simp
  rw [e'] at e; omega

private theorem value_le_iff (f : FloatFmt) (hf : IsFloatTy f) (x y : Nat) (hx : x ≤ f.inf) (hy : y ≤ f.inf) :
    floatValue f x ≤ floatValue f y ↔ x ≤ y := by
  have hQ : (0 : ℚ) < 2 ^ f.qexp := by positivity
  have e : ∀ z, z ≤ f.inf → floatValue f z = (f.mag z : ℚ) / 2 ^ f.qexp := by
    intro z hz
    have := f.floatValue_withSign (ebits_of hf) false z (f.le_inf_lt hz)
    have ez : f.withSign false z = z := by unfold FloatFmt.withSign; simp
    rw [ez] at this; simpa using this
  rw [e x hx, e y hy, div_le_div_iff_of_pos_right hQ, Nat.cast_le]
  constructor
  · intro h
    by_contra hc
    have := f.mag_lt (show y < x by omega) (lt_of_le_of_lt hx f.inf_lt)
    omega
  · exact fun h => f.mag_le h (lt_of_le_of_lt hy f.inf_lt)

private theorem powi_mono (f : FloatFmt) (hf : IsFloatTy f) (x y : Nat) (hx : x < 2 ^ (1 + f.mbits + f.ebits))
    (hy : y < 2 ^ (1 + f.mbits + f.ebits)) (hnx : ¬ IsNaN f x) (hny : ¬ IsNaN f y) (sx : ¬ SignBit f x) (sy : ¬ SignBit f y)
    (hxy : floatValue f x ≤ floatValue f y) (b : Int) :
    (0 ≤ b → floatValue f (f.powi x b) ≤ floatValue f (f.powi y b)) ∧
    (b < 0 → floatValue f (f.powi y b) ≤ floatValue f (f.powi x b)) := by
  have px := pos_pattern f x hx hnx sx
  have py := pos_pattern f y hy hny sy
  rw [value_le_iff f hf x y px py] at hxy
  obtain ⟨m1, m2⟩ := powiLoop_mono f hf x y b.natAbs hxy py
  unfold FloatFmt.powi
  dsimp only
  constructor
  · intro hb
    rw [if_neg (by omega), if_neg (by omega), value_le_iff f hf _ _ (by omega) m2]
    exact m1
  · intro hb
    rw [if_pos hb, if_pos hb]
    have e : ∀ p, p ≤ f.inf → f.div f.one p = f.divPos f.one p := by
      intro p hp
      have ea : f.abs p = p := Nat.mod_eq_of_lt (f.le_inf_lt hp)
      have na : f.neg p = false := by unfold FloatFmt.neg; rw [Nat.div_eq_of_lt (f.le_inf_lt hp)]; simp
      unfold FloatFmt.div
      dsimp only
      rw [ea, na, (one_pattern' f hf).1, (one_pattern' f hf).2.1, f.not_nan_le (divPos_one_le f hf p hp)]
      simp [FloatFmt.withSign]
    rw [e _ m2, e _ (by omega), value_le_iff f hf _ _ (divPos_one_le f hf _ m2) (divPos_one_le f hf _ (by omega))]
    exact divPos_one_anti f hf _ _ m1 m2

/-- **C124.** On bases that are not negative EXPT is monotone in the base for an exponent from 0 on, antitone for a negative
one; an infinity counts as larger than all numbers (it is given the first power of two that is too large). -/
theorem C124_monotone (x y : Nat) (b : Int) :
    (x < 2 ^ 32 → y < 2 ^ 32 → ¬ IsNaN .f32 x → ¬ IsNaN .f32 y → ¬ SignBit .f32 x → ¬ SignBit .f32 y →
      floatValue .f32 x ≤ floatValue .f32 y →
      (0 ≤ b → floatValue .f32 (EXPT__REAL__DINT x b) ≤ floatValue .f32 (EXPT__REAL__DINT y b)) ∧
      (b < 0 → floatValue .f32 (EXPT__REAL__DINT y b) ≤ floatValue .f32 (EXPT__REAL__DINT x b))) ∧
    (x < 2 ^ 64 → y < 2 ^ 64 → ¬ IsNaN .f64 x → ¬ IsNaN .f64 y → ¬ SignBit .f64 x → ¬ SignBit .f64 y →
      floatValue .f64 x ≤ floatValue .f64 y →
      (0 ≤ b → floatValue .f64 (EXPT__LREAL__DINT x b) ≤ floatValue .f64 (EXPT__LREAL__DINT y b)) ∧
      (b < 0 → floatValue .f64 (EXPT__LREAL__DINT y b) ≤ floatValue .f64 (EXPT__LREAL__DINT x b))) :=
  ⟨fun h1 h2 h3 h4 h5 h6 h7 => powi_mono .f32 (.inl rfl) x y h1 h2 h3 h4 h5 h6 h7 b,
   fun h1 h2 h3 h4 h5 h6 h7 => powi_mono .f64 (.inr rfl) x y h1 h2 h3 h4 h5 h6 h7 b⟩

/-! ### Negative exponents -/

private theorem powi_reciprocal (f : FloatFmt) (hf : IsFloatTy f) (x : Nat) (hx : x < 2 ^ (1 + f.mbits + f.ebits)) (hnx : ¬ IsNaN f x)
    (n : Nat) (hn : 0 < n) :
    (IsFinite f (f.powi x n) → floatValue f (f.powi x n) ≠ 0 → IsNearestFloat f (1 / floatValue f (f.powi x n)) (f.powi x (-n))) ∧
    (¬ IsFinite f (f.powi x n) → IsFinite f (f.powi x (-n)) ∧ floatValue f (f.powi x (-n)) = 0) ∧
    (floatValue f (f.powi x n) = 0 → ¬ IsFinite f (f.powi x (-n)) ∧ ¬ IsNaN f (f.powi x (-n))) := by
  have hlt := powi_lt f hf x hx n
  have hnn := powiLoop_not_nan f hf x hx hnx n
  obtain ⟨o1, o2, o3⟩ := one_pattern' f hf
  obtain ⟨q1, q2⟩ := f.one_eq hf
  have e : f.powi x (-n) = f.div f.one (f.powi x n) := by
    rw [powi_nat]
    unfold FloatFmt.powi
    dsimp only
    rw [if_pos (by omega), show (-(n : Int)).natAbs = n by omega]
  rw [e, powi_nat]
  generalize f.powiLoop x n f.one = y at *
  have hyi := (finite_abs_lt f y hlt).2.1.1 hnn
  have hd : f.divPos (f.abs f.one) (f.abs y) ≤ f.inf := by rw [o1]; exact divPos_one_le f hf _ hyi
  obtain ⟨d1, d2, d3⟩ := f.div_spec hd
  have hone : IsFinite f f.one ∧ floatValue f f.one = 1 := by
    refine ⟨?_, ?_⟩
    · rw [(finite_abs_lt f _ o3).1, o1]; exact q2
    · rw [f.floatValue_eq (ebits_of hf), o2, if_neg (by simp), q1]
      push_cast
      exact div_self (by positivity)
  refine ⟨fun hfin h0 => ?_, fun hfin => ?_, fun h0 => ?_⟩
  · have := (f.div_rounds hf f.one y o3 hlt hone.1 hfin h0).nearest hf
    rwa [hone.2] at this
  · have hye : f.abs y = f.inf := by
      rw [(finite_abs_lt f y hlt).1] at hfin; omega
    have hz : f.divPos (f.abs f.one) (f.abs y) = 0 := by
      unfold FloatFmt.divPos
      rw [o1, hye, f.inf_spec.1, (f.finite_of_lt_inf q2).1, (f.finite_of_lt_inf q2).2, f.inf_spec.2]
      simp
    rw [hz] at d2
    constructor
    · rw [(finite_abs_lt f _ d3).1, d2]; omega
    · rw [f.floatValue_eq (ebits_of hf), (finite_abs_lt f _ d3).2.2.1, d2, f.mag_zero']; simp
  · have hm : f.mag (f.abs y) = 0 := by
      rw [← (finite_abs_lt f y hlt).2.2.1]
      rw [f.floatValue_eq (ebits_of hf)] at h0
      have hQ : (2 : ℚ) ^ f.qexp ≠ 0 := by positivity
      split at h0 <;> simpa [hQ] using h0
    have hyl : f.abs y < f.inf := by
      rcases Nat.lt_or_eq_of_le hyi with h | h
      · exact h
      · have := mag_lt_inf f _ q2
        rw [h] at hm; omega
    have hz : f.divPos (f.abs f.one) (f.abs y) = f.inf := by
      unfold FloatFmt.divPos
      rw [o1, (f.finite_of_lt_inf hyl).1, (f.finite_of_lt_inf q2).1, (f.finite_of_lt_inf q2).2, (f.finite_of_lt_inf hyl).2]
      have : f.mag f.one ≠ 0 := by rw [q1]; positivity
      simp [hm, this]
    rw [hz] at d2
    constructor
    · rw [(finite_abs_lt f _ d3).1, d2]; omega
    · rw [(finite_abs_lt f _ d3).2.1, d2]

/-- **C124.** A negative exponent gives the correctly rounded reciprocal of the power with the positive exponent; zero, when that
power is infinite, and infinity, when it is zero. -/
theorem C124_reciprocal (x n : Nat) (hn : 0 < n) :
    (x < 2 ^ 32 → ¬ IsNaN .f32 x →
      (IsFinite .f32 (EXPT__REAL__DINT x n) → floatValue .f32 (EXPT__REAL__DINT x n) ≠ 0 →
        IsNearestFloat .f32 (1 / floatValue .f32 (EXPT__REAL__DINT x n)) (EXPT__REAL__DINT x (-n))) ∧
      (¬ IsFinite .f32 (EXPT__REAL__DINT x n) → IsFinite .f32 (EXPT__REAL__DINT x (-n)) ∧ floatValue .f32 (EXPT__REAL__DINT x (-n)) = 0) ∧
      (floatValue .f32 (EXPT__REAL__DINT x n) = 0 → ¬ IsFinite .f32 (EXPT__REAL__DINT x (-n)) ∧ ¬ IsNaN .f32 (EXPT__REAL__DINT x (-n)))) ∧
    (x < 2 ^ 64 → ¬ IsNaN .f64 x →
      (IsFinite .f64 (EXPT__LREAL__DINT x n) → floatValue .f64 (EXPT__LREAL__DINT x n) ≠ 0 →
        IsNearestFloat .f64 (1 / floatValue .f64 (EXPT__LREAL__DINT x n)) (EXPT__LREAL__DINT x (-n))) ∧
      (¬ IsFinite .f64 (EXPT__LREAL__DINT x n) → IsFinite .f64 (EXPT__LREAL__DINT x (-n)) ∧ floatValue .f64 (EXPT__LREAL__DINT x (-n)) = 0) ∧
      (floatValue .f64 (EXPT__LREAL__DINT x n) = 0 → ¬ IsFinite .f64 (EXPT__LREAL__DINT x (-n)) ∧ ¬ IsNaN .f64 (EXPT__LREAL__DINT x (-n)))) :=
  ⟨fun h1 h2 => powi_reciprocal .f32 (.inl rfl) x h1 h2 n hn, fun h1 h2 => powi_reciprocal .f64 (.inr rfl) x h1 h2 n hn⟩

/-- So a tiny power is lost: `2.0 ^ -1074` is an LREAL, but `2.0 ^ 1074` is infinite and EXPT gives 0. -/
example : ¬ IsFinite .f64 (EXPT__LREAL__DINT 0x4000000000000000 1074) ∧ EXPT__LREAL__DINT 0x4000000000000000 (-1074) = 0 ∧
    EXPT__LREAL__DINT 0x3FE0000000000000 1074 = 1 := by
  have e : EXPT__LREAL__DINT 0x4000000000000000 1074 = FloatFmt.f64.inf := by decide +kernel
  rw [e]
  exact ⟨by unfold IsFinite; decide +kernel, by decide +kernel, by decide +kernel⟩

/-! ### The root of a square -/

private theorem pow_lt_iff (a b : Nat) : 2 ^ a < 2 ^ b ↔ a < b := Nat.pow_lt_pow_iff_right (by decide)

/-- The root of the rounded square of a magnitude. -/
private theorem root_units (f : FloatFmt) (hf : IsFloatTy f) (p : Nat) (hp : p < f.inf)
    (hfin : f.roundMag (f.mag p * f.mag p) (2 ^ f.qexp) < f.inf) (hlo : 2 ^ f.qexp * 2 ^ f.mbits ≤ f.mag p * f.mag p) :
    f.roundSqrt (f.mag (f.roundMag (f.mag p * f.mag p) (2 ^ f.qexp)) * 2 ^ f.qexp) = p := by
  have hs := stdFmt hf
  have hMQ : f.mbits + 1 ≤ f.qexp := by rcases hf with rfl | rfl <;> decide
  have hpl := f.le_inf_lt hp.le
  generalize hm : f.mag p = m at *
  generalize hy : f.roundMag (m * m) (2 ^ f.qexp) = y at *
  have hm0 : m ≠ 0 := by rintro rfl; have := Nat.two_pow_pos (f.qexp + f.mbits); rw [Nat.pow_add] at this; omega
  have hK1 : 2 ^ m.log2 ≤ m := Nat.log2_self_le hm0
  have hK2 : m < 2 ^ (m.log2 + 1) := Nat.lt_log2_self
  generalize m.log2 = K at hK1 hK2
  have hm2 : m * m < 2 ^ (2 * K + 2) := by
    have : m * m < 2 ^ (K + 1) * 2 ^ (K + 1) := Nat.mul_lt_mul'' hK2 hK2
    rwa [← Nat.pow_add, show K + 1 + (K + 1) = 2 * K + 2 by omega] at this
  have hQK : f.qexp + f.mbits < 2 * K + 2 := by
    rw [← pow_lt_iff, Nat.pow_add]; omega
  have hKM : f.mbits ≤ K := by omega
  have hQ0 : 0 < 2 ^ f.qexp := Nat.two_pow_pos _
  -- two magnitudes that are as near as this are the same
  have hr := f.roundSqrt_le_inf (f.mag y * 2 ^ f.qexp)
  have hnear := (f.roundSqrt_nearest hs (f.mag y * 2 ^ f.qexp)).2.2 p (lt_of_lt_of_le hpl (Nat.pow_le_pow_right (by decide) (by omega)))
    ((not_isNaN_iff f p).2 (f.not_nan_le hp.le))
  generalize f.roundSqrt (f.mag y * 2 ^ f.qexp) = r at hr hnear
  have hv : ∀ z, z ≤ f.inf → (floatValue f z : ℝ) = (f.mag z : ℝ) / 2 ^ f.qexp := by
    intro z hz
    have := f.floatValue_withSign (ebits_of hf) false z (f.le_inf_lt hz)
    have ez : f.withSign false z = z := by unfold FloatFmt.withSign; simp
    rw [ez] at this; rw [this]; simp
  have hQr : (0 : ℝ) < 2 ^ f.qexp := by positivity
  have hn1 := hnear.1
  rw [hv r hr, hv p hp.le, ← sub_div, ← sub_div, abs_div, abs_div, abs_of_pos hQr, div_le_div_iff_of_pos_right hQr, hm] at hn1
  have hinj : f.mag r = m → r = p := by
    intro h
    rcases Nat.lt_trichotomy r p with hc | hc | hc
    · have := f.mag_lt hc (lt_trans hp f.inf_lt); omega
    · exact hc
    · have := f.mag_lt hc (lt_of_le_of_lt hr f.inf_lt); omega
  apply hinj
  generalize hN : f.mag y * 2 ^ f.qexp = N at *
  have hw0 : 0 ≤ √(N : ℝ) := Real.sqrt_nonneg _
  have hww : √(N : ℝ) * √(N : ℝ) = N := Real.mul_self_sqrt (by positivity)
  generalize √(N : ℝ) = w at hw0 hww hn1
  rcases Nat.eq_or_lt_of_le hK1 with hpow | hgt
  · -- a power of two: its square is exact
    have hex : N = m * m := by
      have e2 : m * m = 2 ^ (2 * K - f.qexp) * 2 ^ f.qexp := by
        rw [← hpow, ← Nat.pow_add, ← Nat.pow_add]; congr 1
        have : f.qexp + f.mbits ≤ 2 * K := by
          rw [← hpow, ← Nat.pow_add, ← Nat.pow_add] at hlo
          have := (Nat.pow_le_pow_iff_right (by decide : 1 < 2)).1 hlo
          omega
        omega
      have hlt : 1 * 2 ^ (2 * K - f.qexp) < 2 ^ f.mbits * 2 ^ (f.emax - 1) := by
        by_contra hc
        have hmi := f.mag_inf (by have := hs.e2; omega)
        have h1 := f.roundMag_exact hs.m1 hs.e2 (f.mag f.inf * 1) 1 f.inf (by omega) (le_refl _) rfl
        have h2 := f.roundMag_mono hs.m1 hs.e2 (f.mag f.inf * 1) 1 (m * m) (2 ^ f.qexp) (by omega) hQ0 (by
          rw [e2]; push_cast
          rw [mul_one, div_one, mul_div_assoc, div_self (by positivity), mul_one, hmi]
          exact_mod_cast (by omega : 2 ^ f.mbits * 2 ^ (f.emax - 1) ≤ 2 ^ (2 * K - f.qexp)))
        rw [h1, hy] at h2; omega
      have := (f.roundMag_short hs 1 (Nat.one_lt_two_pow (by omega)) (2 * K - f.qexp) (m * m) (2 ^ f.qexp) hQ0 hlt
        (by rw [Nat.one_mul]; exact e2)).1
      rw [hy] at this
      rw [← hN, this, Nat.one_mul, ← e2]
    have hwm : w = m := by
      have : w * w = (m : ℝ) * m := by rw [hww, hex]; push_cast; rfl
      exact (mul_self_inj hw0 (by positivity)).1 this
    rw [hwm, sub_self, abs_zero] at hn1
    have := abs_eq_zero.1 (le_antisymm hn1 (abs_nonneg _))
    have : (f.mag r : ℝ) = m := by linarith
    exact_mod_cast this
  · -- otherwise the neighbours of `m` are `2^(K - mbits)` away
    by_contra hne
    have hgap := f.mag_gap p r K hKM hpl (f.le_inf_lt hr) (by rw [hm]; exact hgt) (by rw [hm]; exact fun h => hne h.symm)
    rw [hm] at hgap
    obtain ⟨s, hs0, hb1, hb2⟩ := f.roundMag_spec (m * m) (2 ^ f.qexp) hQ0 (by rw [hy]; exact hfin)
    rw [hy, hN] at hb1 hb2
    have hlo' : 2 ^ (f.qexp + s + f.mbits) ≤ m * m := by
      rw [Nat.pow_add, Nat.pow_add]
      rcases hs0 with h | h
      · rw [h, Nat.pow_zero, Nat.mul_one]; exact hlo
      · exact h
    have hsK : f.qexp + s + f.mbits < 2 * K + 2 := by rw [← pow_lt_iff]; omega
    rw [← Nat.pow_add] at hb1 hb2
    -- in real numbers
    have R1 : 2 * ((m : ℝ) * m) ≤ 2 * N + 2 ^ (f.qexp + s) := by exact_mod_cast hb1
    have R2 : 2 * (N : ℝ) ≤ 2 * ((m : ℝ) * m) + 2 ^ (f.qexp + s) := by exact_mod_cast hb2
    have R3 : (2 : ℝ) ^ K < m := by exact_mod_cast hgt
    have R4 : (2 : ℝ) ^ (K - f.mbits) ≤ |(m : ℝ) - f.mag r| := by
      rcases hgap with h | h
      · have : (m : ℝ) + 2 ^ (K - f.mbits) ≤ f.mag r := by exact_mod_cast h
        rw [abs_sub_comm]
        exact le_trans (by linarith) (le_abs_self _)
      · have : (f.mag r : ℝ) + 2 ^ (K - f.mbits) ≤ m := by exact_mod_cast h
        exact le_trans (by linarith) (le_abs_self _)
    have R5 : (2 : ℝ) ^ (K - f.mbits) ≤ 2 * |w - m| := by
      have := abs_sub_le (m : ℝ) w (f.mag r)
      rw [abs_sub_comm (m : ℝ) w] at this
      linarith
    have hsum : 0 ≤ w + m := by positivity
    have R6 : 2 * |w - m| * (w + m) ≤ 2 ^ (f.qexp + s) := by
      have e : |w - m| * (w + m) = |w * w - m * m| := by
        rw [show w * w - (m : ℝ) * m = (w - m) * (w + m) by ring, abs_mul, abs_of_nonneg hsum]
      rw [mul_assoc, e, hww]
      have : |(N : ℝ) - m * m| ≤ 2 ^ (f.qexp + s) / 2 := by rw [abs_le]; constructor <;> linarith
      linarith
    have R7 : (2 : ℝ) ^ (K - f.mbits) * (w + m) ≤ 2 ^ (f.qexp + s) := le_trans (mul_le_mul_of_nonneg_right R5 hsum) R6
    have hG : (0 : ℝ) < 2 ^ (K - f.mbits) := by positivity
    rcases Nat.lt_or_ge (f.qexp + s + f.mbits) (2 * K + 1) with hc | hc
    · have h1 : (2 : ℝ) ^ (f.qexp + s) ≤ 2 ^ (K - f.mbits) * 2 ^ K := by
        rw [← pow_add]; exact pow_le_pow_right₀ (by norm_num) (by omega)
      have h2 : (2 : ℝ) ^ K < w + m := by linarith
      have := mul_lt_mul_of_pos_left h2 hG
      linarith
    · have h1 : (2 : ℝ) ^ (f.qexp + s) = 2 ^ (K - f.mbits) * (2 * 2 ^ K) := by
        rw [← pow_succ', ← pow_add]; congr 1; omega
      have h3 : (2 : ℝ) ^ K ≤ w := by
        have h4 : (2 : ℝ) ^ (f.qexp + s) ≤ m * m := by
          have : 2 ^ (f.qexp + s) ≤ m * m := le_trans (Nat.pow_le_pow_right (by decide) (by omega)) hlo'
          exact_mod_cast this
        have h5 : (2 : ℝ) ^ (2 * K + 1) ≤ m * m := by
          have : 2 ^ (2 * K + 1) ≤ m * m := le_trans (Nat.pow_le_pow_right (by decide) hc) hlo'
          exact_mod_cast this
        have h6 : (2 : ℝ) ^ K * 2 ^ K ≤ w * w := by
          rw [hww, ← pow_add, ← two_mul]
          rw [pow_succ] at h5
          linarith
        exact (mul_self_le_mul_self_iff (by positivity) hw0).2 h6
      have h2 : 2 * (2 : ℝ) ^ K < w + m := by linarith
      have := mul_lt_mul_of_pos_left h2 hG
      linarith

theorem powi_two (f : FloatFmt) (hf : IsFloatTy f) (x : Nat) (hx : x < 2 ^ (1 + f.mbits + f.ebits)) (hfx : IsFinite f x) :
    f.powi x 2 = f.mul x x ∧ f.mul x x = f.roundMag (f.mag (f.abs x) * f.mag (f.abs x)) (2 ^ f.qexp) := by
  have hfa := (finite_abs_lt f x hx).1.1 hfx
  have hle : f.mulPos (f.abs x) (f.abs x) ≤ f.inf := by rw [f.mulPos_finite hfa hfa]; exact f.roundMag_le_inf _ _
  obtain ⟨m1, m2, m3⟩ := f.mul_spec hle
  have hpat : f.mul x x = f.mulPos (f.abs x) (f.abs x) := by
    have e := f.eq_withSign _ m3
    rw [m1, m2, show (f.neg x != f.neg x) = false by simp] at e
    rw [e]; simp [FloatFmt.withSign]
  refine ⟨?_, by rw [hpat, f.mulPos_finite hfa hfa]⟩
  have hnn : ¬ IsNaN f (f.mul x x) := by rw [(finite_abs_lt f _ m3).2.1, m2]; exact hle
  unfold FloatFmt.powi
  rw [if_neg (by decide), show (2 : Int).natAbs = 2 from rfl]
  rw [FloatFmt.powiLoop]
  simp only [Nat.reduceMod, Nat.reduceDiv, zero_ne_one, if_false, one_ne_zero, dite_false]
  rw [FloatFmt.powiLoop]
  simp only [Nat.reduceMod, Nat.reduceDiv, if_true, dite_true]
  exact f.one_mul' hf _ m3 hnn

/-- The square is correctly rounded. -/
private theorem square_nearest (f : FloatFmt) (hf : IsFloatTy f) (x : Nat) (hx : x < 2 ^ (1 + f.mbits + f.ebits)) (hfx : IsFinite f x) :
    IsNearestFloat f (floatValue f x ^ 2) (f.powi x 2) := by
  rw [(powi_two f hf x hx hfx).1, pow_two]
  exact (f.mul_rounds hf x x hx hx hfx hfx).nearest hf

/-- **C124.** EXPT with the exponent 2 is correctly rounded: the float nearest to the square of the base. -/
theorem C124_square (x : Nat) :
    (x < 2 ^ 32 → IsFinite .f32 x → IsNearestFloat .f32 (floatValue .f32 x ^ 2) (EXPT__REAL__DINT x 2)) ∧
    (x < 2 ^ 64 → IsFinite .f64 x → IsNearestFloat .f64 (floatValue .f64 x ^ 2) (EXPT__LREAL__DINT x 2)) :=
  ⟨square_nearest .f32 (.inl rfl) x, square_nearest .f64 (.inr rfl) x⟩

private theorem sqrt_powi_two (f : FloatFmt) (hf : IsFloatTy f) (x : Nat) (hx : x < 2 ^ (1 + f.mbits + f.ebits)) (hfx : IsFinite f x)
    (hlo : minNormal f ≤ floatValue f x ^ 2) (hfin : IsFinite f (f.powi x 2)) : f.sqrt (f.powi x 2) = f.abs x := by
  have hfa := (finite_abs_lt f x hx).1.1 hfx
  obtain ⟨e1, e2⟩ := powi_two f hf x hx hfx
  rw [e1, e2] at hfin ⊢
  have hle := f.roundMag_le_inf (f.mag (f.abs x) * f.mag (f.abs x)) (2 ^ f.qexp)
  have hpl := f.le_inf_lt hle
  have hlt : f.roundMag (f.mag (f.abs x) * f.mag (f.abs x)) (2 ^ f.qexp) < f.inf := by
    rcases Nat.lt_or_eq_of_le hle with h | h
    · exact h
    · rw [h] at hfin
      have h1 := hfin.inf
      rw [f.inf_spec.2] at h1; cases h1
  have hQ : (0 : ℚ) < 2 ^ f.qexp := by positivity
  have hunits : 2 ^ f.qexp * 2 ^ f.mbits ≤ f.mag (f.abs x) * f.mag (f.abs x) := by
    have hmn := (minNormal_units f hf).1.symm
    have hv2 : floatValue f x ^ 2 = (f.mag (f.abs x) : ℚ) / 2 ^ f.qexp * ((f.mag (f.abs x) : ℚ) / 2 ^ f.qexp) := by
      rw [f.floatValue_eq (ebits_of hf), (finite_abs_lt f x hx).2.2.1]
      split <;> ring
    rw [hmn, hv2, ← mul_div_assoc, div_le_div_iff_of_pos_right hQ, div_mul_eq_mul_div, le_div_iff₀ hQ] at hlo
    rw [Nat.mul_comm]
    exact_mod_cast hlo
  have hroot := root_units f hf (f.abs x) hfa hlt hunits
  -- the square is a positive finite number
  have hm0 : f.mag (f.roundMag (f.mag (f.abs x) * f.mag (f.abs x)) (2 ^ f.qexp)) ≠ 0 := by
    intro h0
    rw [h0, Nat.zero_mul] at hroot
    have h00 : f.roundSqrt 0 = 0 := by
      unfold FloatFmt.roundSqrt
      simp only [Nat.mul_zero, Nat.sqrt_zero, if_true, Nat.add_zero]
      exact f.roundMag_exact (stdFmt hf).m1 (stdFmt hf).e2 0 4 0 (by omega) (Nat.zero_le _) (by rw [f.mag_zero', Nat.zero_mul])
    rw [h00] at hroot
    rw [← hroot, f.mag_zero'] at hunits
    have : 0 < 2 ^ f.qexp * 2 ^ f.mbits := by positivity
    omega
  generalize f.roundMag (f.mag (f.abs x) * f.mag (f.abs x)) (2 ^ f.qexp) = y at *
  have hny : f.neg y = false := by unfold FloatFmt.neg; rw [Nat.div_eq_of_lt hpl]; simp
  unfold FloatFmt.sqrt
  rw [(f.finite_of_lt_inf hlt).1, (f.finite_of_lt_inf hlt).2, if_neg (by simp), if_neg hm0, hny, if_neg (by simp), if_neg (by simp)]
  exact hroot

/-- **C124.** SQRT undoes squaring: the root of the square of a number is its absolute value (the number without its sign bit),
exactly and in spite of two roundings, as long as the square does not overflow and is not smaller than the smallest normal number. -/
theorem C124_root_of_square (x : Nat) :
    (x < 2 ^ 32 → IsFinite .f32 x → minNormal .f32 ≤ floatValue .f32 x ^ 2 → IsFinite .f32 (EXPT__REAL__DINT x 2) →
      SQRT__REAL (EXPT__REAL__DINT x 2) = x % 2 ^ 31) ∧
    (x < 2 ^ 64 → IsFinite .f64 x → minNormal .f64 ≤ floatValue .f64 x ^ 2 → IsFinite .f64 (EXPT__LREAL__DINT x 2) →
      SQRT__LREAL (EXPT__LREAL__DINT x 2) = x % 2 ^ 63) :=
  ⟨sqrt_powi_two .f32 (.inl rfl) x, sqrt_powi_two .f64 (.inr rfl) x⟩

/-- The bound is needed: `2^-540` squared is `0`, below all LREALs; `(2^600)^2` is infinite. -/
example : SQRT__LREAL (EXPT__LREAL__DINT 0x1E30000000000000 2) = 0 ∧
    SQRT__LREAL (EXPT__LREAL__DINT 0x6570000000000000 2) = FloatFmt.f64.inf := by decide +kernel

/-- The base -0.1, whose square is not exact: odd and even powers, the root of the square; the same for 0.1. The hypotheses of
`C124_root_of_square` and `C124_sign` hold. -/
example : EXPT__LREAL__DINT 0xBFB999999999999A 2 = 0x3F847AE147AE147C ∧ EXPT__LREAL__DINT 0x3FB999999999999A 2 = 0x3F847AE147AE147C ∧
    EXPT__LREAL__DINT 0xBFB999999999999A 3 = 0xBF50624DD2F1A9FD ∧ EXPT__LREAL__DINT 0x3FB999999999999A 3 = 0x3F50624DD2F1A9FD ∧
    SQRT__LREAL 0x3F847AE147AE147C = 0x3FB999999999999A := by decide +kernel
example : IsFinite .f64 0xBFB999999999999A ∧ minNormal .f64 ≤ floatValue .f64 0xBFB999999999999A ^ 2 ∧
    IsFinite .f64 (EXPT__LREAL__DINT 0xBFB999999999999A 2) ∧ ¬ IsNaN .f64 0x3FB999999999999A ∧
    0xBFB999999999999A % 2 ^ 63 = 0x3FB999999999999A % 2 ^ 63 := by
  have e : EXPT__LREAL__DINT 0xBFB999999999999A 2 = 0x3F847AE147AE147C := by decide +kernel
  rw [e]
  refine ⟨by unfold IsFinite; decide, ?_, by unfold IsFinite; decide, by unfold IsNaN; decide, by decide⟩
  have : minNormal .f64 ≤ 2 ^ (-7 : ℤ) := by
    unfold minNormal; exact zpow_le_zpow_right₀ (by norm_num) (by norm_num [FloatFmt.f64])
  refine this.trans ?_
  norm_num [floatValue, FloatFmt.f64]

/-- `1.1 ≤ 1.5`: the cubes, and the powers with exponent -3, which are in the opposite order. -/
example : ¬ IsNaN .f64 0x3FF199999999999A ∧ ¬ SignBit .f64 0x3FF199999999999A ∧
    floatValue .f64 0x3FF199999999999A ≤ floatValue .f64 0x3FF8000000000000 ∧
    EXPT__LREAL__DINT 0x3FF199999999999A 3 < EXPT__LREAL__DINT 0x3FF8000000000000 3 ∧
    EXPT__LREAL__DINT 0x3FF8000000000000 (-3) < EXPT__LREAL__DINT 0x3FF199999999999A (-3) := by
  refine ⟨by unfold IsNaN; decide, by unfold SignBit; decide, ?_, by decide +kernel, by decide +kernel⟩
  norm_num [floatValue, FloatFmt.f64]

end Verif
