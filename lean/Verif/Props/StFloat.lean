import Verif.Proofs.FloatSpacing
import Verif.Props.Round
import Verif.Model.StFloatTable
/-
C76-C82: conversions between REAL/LREAL and integers, REAL <-> LREAL, TRUNC, ABS of REAL/LREAL.
-/
namespace Verif
open FloatFmt Spec

/-! ### The table -/

private def isFloat (f : FloatFmt) : Bool := decide (f = .f32) || decide (f = .f64)

private theorem isFloat_iff {f : FloatFmt} (h : isFloat f = true) : IsFloatTy f := by
  simpa [isFloat, IsFloatTy] using h

/-- Every entry of the table has one of these shapes. -/
private def wf (c : StFloatConv) : Bool :=
  match c.src, c.dst, c.inTy, c.outTy, c.body with
  | .flt f, .int t, .flt f', .int t', .round => isFloat f && decide (f' = f) && decide (t'.ty = t.ty)
  | .int t, .flt f, .int t', .flt f', .assign => isFloat f && decide (f' = f) && decide (t'.ty = t.ty)
  | .flt f, .flt g, .flt f', .flt g', .assign =>
    isFloat f && isFloat g && decide (f' = f) && decide (g' = g) && decide (f ≠ g)
  | _, _, _, _, _ => false

private theorem table_wf : ∀ c ∈ stFloatConversions, wf c = true := by decide +kernel

private theorem run_to_int {c : StFloatConv} (hc : c ∈ stFloatConversions) {f : FloatFmt} {t : StType}
    (hs : c.src = .flt f) (hd : c.dst = .int t) : IsFloatTy f ∧ ∀ x, c.run (.flt x) =
      (do .ok (.int (← f.toInt t.ty (f.round x)))) := by
  have h := table_wf c hc
  obtain ⟨s, d, i, o, b⟩ := c
  simp only at hs hd
  subst hs hd
  cases i <;> cases o <;> cases b <;> simp only [wf, Bool.and_eq_true, decide_eq_true_eq, Bool.false_eq_true] at h
  obtain ⟨⟨h1, rfl⟩, h3⟩ := h
  refine ⟨isFloat_iff h1, fun x => ?_⟩
  simp only [StFloatConv.run, stCast, h3]

private theorem run_of_int {c : StFloatConv} (hc : c ∈ stFloatConversions) {f : FloatFmt} {t : StType}
    (hs : c.src = .int t) (hd : c.dst = .flt f) : IsFloatTy f ∧ ∀ n, c.run (.int n) = .ok (.flt (f.ofInt n)) := by
  have h := table_wf c hc
  obtain ⟨s, d, i, o, b⟩ := c
  simp only at hs hd
  subst hs hd
  cases i <;> cases o <;> cases b <;> simp only [wf, Bool.and_eq_true, decide_eq_true_eq, Bool.false_eq_true] at h
  obtain ⟨⟨h1, rfl⟩, h3⟩ := h
  exact ⟨isFloat_iff h1, fun n => by simp only [StFloatConv.run, stCast]⟩

private theorem run_convert {c : StFloatConv} (hc : c ∈ stFloatConversions) {f g : FloatFmt}
    (hs : c.src = .flt f) (hd : c.dst = .flt g) : (IsFloatTy f ∧ IsFloatTy g) ∧
      ∀ x, c.run (.flt x) = .ok (.flt (f.convert g x)) := by
  have h := table_wf c hc
  obtain ⟨s, d, i, o, b⟩ := c
  simp only at hs hd
  subst hs hd
  cases i <;> cases o <;> cases b <;> simp only [wf, Bool.and_eq_true, decide_eq_true_eq, Bool.false_eq_true] at h
  obtain ⟨⟨⟨⟨h1, h2⟩, rfl⟩, rfl⟩, h5⟩ := h
  exact ⟨⟨isFloat_iff h1, isFloat_iff h2⟩, fun n => by simp only [StFloatConv.run, stCast, if_neg h5]⟩

/-! ### Float to integer -/

/-- An integral value: truncation changes nothing. -/
private theorem tdiv_val (f : FloatFmt) (hf : IsFloatTy f) (x : Nat) (n : ℤ) (h : floatValue f x = n) :
    (f.val x).tdiv (2 ^ f.qexp : Nat) = n := by
  have hQ : (2 : ℚ) ^ f.qexp ≠ 0 := by positivity
  have h2 : (f.val x : ℚ) = n * 2 ^ f.qexp := by
    rw [floatValue_val f (ebits_of hf)] at h; rw [div_eq_iff hQ] at h; exact h
  have h3 : f.val x = n * ((2 ^ f.qexp : Nat) : Int) := by
    have : (f.val x : ℚ) = ((n * ((2 ^ f.qexp : Nat) : Int) : Int) : ℚ) := by rw [h2]; push_cast; ring
    exact_mod_cast this
  rw [h3]
  exact Int.mul_tdiv_cancel _ (by have := Nat.two_pow_pos f.qexp; omega)

private theorem toInt_round (f : FloatFmt) (hf : IsFloatTy f) (t : IntTy) (x : Nat) (hx : IsFinite f x) (n : ℤ)
    (hn : IsNearestInt (floatValue f x) n) : f.toInt t (f.round x) = if t.InRange n then .ok n else .ub := by
  obtain ⟨h1, h2, -, k, hk, hnear⟩ := round_nearest f hf x hx.nan hx.inf
  have : k = n := nearestInt_unique _ _ _ hnear hn
  subst this
  unfold toInt
  rw [h1, h2, if_neg (by simp)]
  dsimp only
  rw [tdiv_val f hf _ k hk]

/-- **C76.** Every REAL/LREAL to integer (or TIME/LTIME) conversion gives the integer nearest to its argument, halves
away from zero, provided that integer belongs to the result type. -/
theorem C76_nearest : ∀ c ∈ stFloatConversions, ∀ f t, c.src = .flt f → c.dst = .int t →
    ∀ x, IsFinite f x → ∀ n : ℤ, IsNearestInt (floatValue f x) n → t.ty.InRange n →
    c.run (.flt x) = .ok (.int n) := by
  intro c hc f t hs hd x hx n hn hr
  obtain ⟨hf, hrun⟩ := run_to_int hc hs hd
  rw [hrun, toInt_round f hf t.ty x hx n hn, if_pos hr]
  rfl

/-- LREAL_TO_INT(-2.5) = -3 and REAL_TO_USINT(254.5) = 255. -/
example : (∃ c ∈ stFloatConversions, c.src = .flt .f64 ∧ c.dst = .int .INT ∧
      c.run (.flt 0xC004000000000000) = .ok (.int (-3))) ∧
    (∃ c ∈ stFloatConversions, c.src = .flt .f32 ∧ c.dst = .int .USINT ∧
      c.run (.flt 0x437E8000) = .ok (.int 255)) := by decide +kernel

/-- The conversions with a float source and an integer target: for each of these types there is one. -/
example : ∀ t ∈ [StType.LINT, .DINT, .INT, .SINT, .ULINT, .UDINT, .UINT, .USINT], ∀ f ∈ [FloatFmt.f32, .f64],
    ∃ c ∈ stFloatConversions, c.src = .flt f ∧ c.dst = .int t := by decide +kernel

/-- A conversion to an integer type always has a defined result. -/
def AlwaysDefined (c : StFloatConv) (t : StType) : Prop :=
  ∀ x, ∃ n, t.ty.InRange n ∧ c.run (.flt x) = .ok (.int n)

/-- **C77**, false for every one of the conversions: the value is cast without a range check. -/
theorem C77_refuted : ∀ c ∈ stFloatConversions, ∀ f t, c.src = .flt f → c.dst = .int t → ¬ AlwaysDefined c t := by
  intro c hc f t hs hd h
  obtain ⟨hf, hrun⟩ := run_to_int hc hs hd
  obtain ⟨n, -, hn⟩ := h f.nan
  have hnan := f.nan_spec (stdFmt hf).m1
  rw [hrun, (round_integers_monotone f hf).1 _ (.inl hnan)] at hn
  unfold toInt at hn
  rw [if_pos (.inl hnan)] at hn
  cases hn

private theorem nearest_exists (f : FloatFmt) (hf : IsFloatTy f) (x : Nat) (hx : IsFinite f x) :
    ∃ n : ℤ, IsNearestInt (floatValue f x) n := by
  obtain ⟨-, -, -, k, -, hnear⟩ := round_nearest f hf x hx.nan hx.inf
  exact ⟨k, hnear⟩

/-- **C77**, what holds: the result is undefined exactly for NaN, infinities and numbers whose nearest integer is
outside the result type; no conversion panics. -/
theorem C77_partial : ∀ c ∈ stFloatConversions, ∀ f t, c.src = .flt f → c.dst = .int t → ∀ x,
    c.run (.flt x) ≠ .panic ∧
    (c.run (.flt x) = .ub ↔ ¬ (IsFinite f x ∧ ∃ n : ℤ, IsNearestInt (floatValue f x) n ∧ t.ty.InRange n)) := by
  intro c hc f t hs hd x
  obtain ⟨hf, hrun⟩ := run_to_int hc hs hd
  rw [hrun]
  by_cases hx : IsFinite f x
  · obtain ⟨n, hn⟩ := nearest_exists f hf x hx
    rw [toInt_round f hf t.ty x hx n hn]
    by_cases hr : t.ty.InRange n
    · rw [if_pos hr]
      refine ⟨by simp, ?_⟩
      simp only [Res.bind_ok, reduceCtorEq, false_iff, not_not]
      exact ⟨hx, n, hn, hr⟩
    · rw [if_neg hr]
      refine ⟨by simp, ?_⟩
      simp only [Res.bind_ub, true_iff]
      rintro ⟨-, m, hm, hmr⟩
      rw [nearestInt_unique _ _ _ hm hn] at hmr
      exact hr hmr
  · have hc' : f.is_nan x = true ∨ f.is_infinite x = true := by
      by_contra hcon
      apply hx
      rw [isFinite_iff]
      cases h1 : f.is_nan x <;> cases h2 : f.is_infinite x <;> simp_all
    rw [(round_integers_monotone f hf).1 _ hc']
    have : f.toInt t.ty x = .ub := by unfold toInt; rw [if_pos hc']
    rw [this]
    refine ⟨by simp, ?_⟩
    simp only [Res.bind_ub, true_iff]
    rintro ⟨h, -⟩
    exact hx h

/-- Both cases occur: LREAL_TO_SINT(127.4) is defined, LREAL_TO_SINT(127.5) is not. -/
example : ∃ c ∈ stFloatConversions, c.src = .flt .f64 ∧ c.dst = .int .SINT ∧
    c.run (.flt 0x405FD9999999999A) = .ok (.int 127) ∧ c.run (.flt 0x405FE00000000000) = .ub := by decide +kernel

/-! ### Integer to float -/

private theorem natAbs_rat (n : Int) : ((n.natAbs : Nat) : ℚ) = |(n : ℚ)| := by
  rw [Nat.cast_natAbs]; push_cast; rfl

private theorem ofInt_nearest (f : FloatFmt) (hf : IsFloatTy f) (n : Int) : IsNearestFloat f n (f.ofInt n) := by
  refine f.round_signed (stdFmt hf) (decide (n < 0)) _ 1 (by decide) n ?_
  have hQ : (2 : ℚ) ^ f.qexp ≠ 0 := by positivity
  have e : ((n.natAbs * 2 ^ f.qexp : Nat) : ℚ) / (1 : Nat) / 2 ^ f.qexp = |(n : ℚ)| := by
    push_cast [natAbs_rat]; field_simp
  rw [e]
  by_cases h : n < 0
  · have h' : (n : ℚ) < 0 := by exact_mod_cast h
    rw [decide_eq_true h, if_pos rfl, abs_of_neg h', neg_neg]
  · have h' : (0 : ℚ) ≤ n := by exact_mod_cast not_lt.1 h
    rw [decide_eq_false h, if_neg (by decide), abs_of_nonneg h']

private theorem pow_bound (f : FloatFmt) (hf : IsFloatTy f) : f.qexp + 65 + 1 ≤ f.mbits + (f.emax - 1) := by
  rcases hf with rfl | rfl <;> decide +kernel

/-- Integers up to `2^64` do not round to infinity. -/
private theorem ofInt_lt_inf (f : FloatFmt) (hf : IsFloatTy f) (n : Nat) (hn : n ≤ 2 ^ 65) :
    f.roundMag (n * 2 ^ f.qexp) 1 < f.inf := by
  have h := stdFmt hf
  have hp := pow_bound f hf
  have hlt : (1 : Nat) * 2 ^ (f.qexp + 65) < 2 ^ f.mbits * 2 ^ (f.emax - 1) := by
    rw [Nat.one_mul, ← Nat.pow_add]; exact Nat.pow_lt_pow_right (by decide) (by omega)
  obtain ⟨-, hb⟩ := f.roundMag_short h 1 (Nat.one_lt_two_pow (by omega)) (f.qexp + 65)
    (1 * 2 ^ (f.qexp + 65) * 1) 1 (by decide) hlt rfl
  refine Nat.lt_of_le_of_lt (f.roundMag_mono h.m1 h.e2 _ 1 _ 1 (by decide) (by decide) ?_) hb
  rw [Nat.cast_one, div_one, div_one]
  have : n * 2 ^ f.qexp ≤ 1 * 2 ^ (f.qexp + 65) * 1 := by
    rw [Nat.one_mul, Nat.mul_one, Nat.add_comm, Nat.pow_add]; exact Nat.mul_le_mul_right _ hn
  exact_mod_cast this

private theorem ofInt_value (f : FloatFmt) (hf : IsFloatTy f) (n : Int) (hn : n.natAbs ≤ 2 ^ 65) :
    IsFinite f (f.ofInt n) ∧ f.neg (f.ofInt n) = decide (n < 0) ∧
    (n.natAbs ≤ 2 ^ (f.mbits + 1) → floatValue f (f.ofInt n) = n) := by
  have hfin := ofInt_lt_inf f hf n.natAbs hn
  have hlt : f.roundMag (n.natAbs * 2 ^ f.qexp) 1 < 2 ^ (f.mbits + f.ebits) := by have := f.inf_lt'; omega
  obtain ⟨s1, s2, s3, s4, -, -⟩ := f.withSign_spec (decide (n < 0)) _ hlt
  obtain ⟨c1, c2⟩ := f.finite_of_lt_inf hfin
  refine ⟨.mk (s3.trans c1) (s4.trans c2), s1, ?_⟩
  intro hsm
  have h := stdFmt hf
  have hp := pow_bound f hf
  have hmag : f.mag (f.roundMag (n.natAbs * 2 ^ f.qexp) 1) = n.natAbs * 2 ^ f.qexp := by
    have hlt2 : n.natAbs * 2 ^ f.qexp < 2 ^ f.mbits * 2 ^ (f.emax - 1) := by
      calc n.natAbs * 2 ^ f.qexp ≤ 2 ^ 65 * 2 ^ f.qexp := Nat.mul_le_mul_right _ hn
        _ = 2 ^ (65 + f.qexp) := (Nat.pow_add _ _ _).symm
        _ < 2 ^ (f.mbits + (f.emax - 1)) := Nat.pow_lt_pow_right (by decide) (by omega)
        _ = _ := Nat.pow_add _ _ _
    rcases Nat.lt_or_eq_of_le hsm with hl | he
    · exact (f.roundMag_short h _ hl f.qexp _ 1 (by decide) hlt2 (by rw [Nat.mul_one])).1
    · rw [he, ← Nat.pow_add] at hlt2 ⊢
      have := (f.roundMag_short h 1 (Nat.one_lt_two_pow (by omega)) (f.mbits + 1 + f.qexp)
        (2 ^ (f.mbits + 1 + f.qexp)) 1 (by decide) (by rw [Nat.one_mul]; exact hlt2) (by simp)).1
      rw [this, Nat.one_mul]
  have hQ : (2 : ℚ) ^ f.qexp ≠ 0 := by positivity
  unfold ofInt
  rw [f.floatValue_withSign (ebits_of hf) _ _ hlt, hmag]
  have e : ((n.natAbs * 2 ^ f.qexp : Nat) : ℚ) / 2 ^ f.qexp = |(n : ℚ)| := by
    push_cast [natAbs_rat]; field_simp
  rw [e]
  by_cases hneg : n < 0
  · have h' : (n : ℚ) < 0 := by exact_mod_cast hneg
    rw [decide_eq_true hneg, if_pos rfl, abs_of_neg h', neg_neg]
  · have h' : (0 : ℚ) ≤ n := by exact_mod_cast not_lt.1 hneg
    rw [decide_eq_false hneg, if_neg (by decide), abs_of_nonneg h']

private theorem range_natAbs (t : StType) (n : Int) (h : t.ty.InRange n) : n.natAbs ≤ 2 ^ 65 := by
  have h1 := h.1
  have h2 := h.2
  revert h1 h2
  cases t <;> simp only [StType.ty, IntTy.lo, IntTy.hi, IntTy.bool, IntTy.u8, IntTy.u16, IntTy.u32, IntTy.u64, IntTy.i8,
    IntTy.i16, IntTy.i32, IntTy.i64] <;> intro h1 h2 <;> norm_num at h1 h2 ⊢ <;> omega

/-- **C78.** Every integer (or TIME/LTIME) to REAL/LREAL conversion gives the nearest float, ties to even; the
result is finite, negative exactly for negative integers, and exact up to 2^24 (REAL) or
2^53 (LREAL) in magnitude. -/
theorem C78_nearest : ∀ c ∈ stFloatConversions, ∀ t f, c.src = .int t → c.dst = .flt f →
    ∀ n, t.ty.InRange n → ∃ r, c.run (.int n) = .ok (.flt r) ∧ IsNearestFloat f n r ∧ IsFinite f r ∧
      (SignBit f r ↔ n < 0) ∧ (|n| ≤ 2 ^ (f.mbits + 1) → floatValue f r = n) := by
  intro c hc t f hs hd n hr
  obtain ⟨hf, hrun⟩ := run_of_int hc hs hd
  obtain ⟨h1, h2, h3⟩ := ofInt_value f hf n (range_natAbs t n hr)
  refine ⟨_, hrun n, ofInt_nearest f hf n, h1, by rw [signBit_iff, h2]; simp, ?_⟩
  intro h
  apply h3
  have : ((n.natAbs : Nat) : Int) ≤ ((2 ^ (f.mbits + 1) : Nat) : Int) := by
    rw [Int.natCast_natAbs]; push_cast; exact h
  exact_mod_cast this

/-- LINT_TO_REAL(16777217) = 16777216 (tie to even), ULINT_TO_LREAL(2^64-1) = 2^64, DINT_TO_LREAL is exact. -/
example : (∃ c ∈ stFloatConversions, c.src = .int .LINT ∧ c.dst = .flt .f32 ∧
      c.run (.int 16777217) = .ok (.flt 0x4B800000)) ∧
    (∃ c ∈ stFloatConversions, c.src = .int .ULINT ∧ c.dst = .flt .f64 ∧
      c.run (.int (2 ^ 64 - 1)) = .ok (.flt 0x43F0000000000000)) := by decide +kernel

/-- **C78**, larger integers never give smaller floats. -/
theorem C78_monotone : ∀ c ∈ stFloatConversions, ∀ t f, c.src = .int t → c.dst = .flt f →
    ∀ m n, t.ty.InRange m → t.ty.InRange n → m ≤ n → ∃ r s, c.run (.int m) = .ok (.flt r) ∧
      c.run (.int n) = .ok (.flt s) ∧ floatValue f r ≤ floatValue f s := by
  intro c hc t f hs hd m n hm hn hmn
  obtain ⟨hf, hrun⟩ := run_of_int hc hs hd
  refine ⟨_, _, hrun m, hrun n, ?_⟩
  have h := stdFmt hf
  have hQ : (0 : ℚ) < 2 ^ f.qexp := by positivity
  have hlt : ∀ k : Int, f.roundMag (k.natAbs * 2 ^ f.qexp) 1 < 2 ^ (f.mbits + f.ebits) := by
    intro k
    have := f.roundMag_le_inf (k.natAbs * 2 ^ f.qexp) 1
    have := f.inf_lt'
    omega
  have hmono : ∀ a b : Nat, a ≤ b → (f.mag (f.roundMag (a * 2 ^ f.qexp) 1) : ℚ) / 2 ^ f.qexp ≤
      f.mag (f.roundMag (b * 2 ^ f.qexp) 1) / 2 ^ f.qexp := by
    intro a b hab
    refine div_le_div_of_nonneg_right ?_ hQ.le
    have hle := f.roundMag_mono h.m1 h.e2 (a * 2 ^ f.qexp) 1 (b * 2 ^ f.qexp) 1 (by decide) (by decide) (by
      have := Nat.mul_le_mul_right (2 ^ f.qexp) hab
      rw [Nat.cast_one, div_one, div_one]; exact_mod_cast this)
    have := f.mag_le hle (by have := f.roundMag_le_inf (b * 2 ^ f.qexp) 1; have := f.inf_lt; omega)
    exact_mod_cast this
  have hpos : ∀ a : Nat, (0 : ℚ) ≤ f.mag a / 2 ^ f.qexp := by intro a; positivity
  unfold ofInt
  rw [f.floatValue_withSign (ebits_of hf) _ _ (hlt m), f.floatValue_withSign (ebits_of hf) _ _ (hlt n)]
  by_cases h1 : m < 0 <;> by_cases h2 : n < 0
  · rw [decide_eq_true h1, decide_eq_true h2, if_pos rfl, if_pos rfl]
    exact neg_le_neg (hmono _ _ (by omega))
  · rw [decide_eq_true h1, decide_eq_false h2, if_pos rfl, if_neg (by decide)]
    have a := hpos (f.roundMag (m.natAbs * 2 ^ f.qexp) 1)
    have b := hpos (f.roundMag (n.natAbs * 2 ^ f.qexp) 1)
    linarith
  · omega
  · rw [decide_eq_false h1, decide_eq_false h2, if_neg (by decide), if_neg (by decide)]
    exact hmono _ _ (by omega)

/-! ### Round trips -/

/-- Converting to a float type and back gives the number again. -/
def RoundTrip (t : StType) (f : FloatFmt) : Prop :=
  ∀ c ∈ stFloatConversions, ∀ c' ∈ stFloatConversions, c.src = .int t → c.dst = .flt f → c'.src = .flt f →
    c'.dst = .int t → ∀ n, t.ty.InRange n → (do c'.run (← c.run (.int n))) = .ok (.int n)

/-- **C79**, false for 64-bit integers through LREAL and for 32- and 64-bit integers through REAL. -/
theorem C79_refuted : ¬ RoundTrip .LINT .f64 ∧ ¬ RoundTrip .ULINT .f64 ∧ ¬ RoundTrip .LINT .f32 ∧
    ¬ RoundTrip .ULINT .f32 ∧ ¬ RoundTrip .DINT .f32 ∧ ¬ RoundTrip .UDINT .f32 ∧ ¬ RoundTrip .TIME .f64 := by
  have key : ∀ (t : StType) (f : FloatFmt) (n : Int), (t.ty.InRange n ∧ ∃ c ∈ stFloatConversions, ∃ c' ∈ stFloatConversions,
      c.src = .int t ∧ c.dst = .flt f ∧ c'.src = .flt f ∧ c'.dst = .int t ∧
      (do c'.run (← c.run (.int n))) ≠ .ok (.int n)) → ¬ RoundTrip t f := by
    rintro t f n ⟨h1, c, hc, c', hc', a, b, d, e, h2⟩ h
    exact h2 (h c hc c' hc' a b d e n h1)
  refine ⟨key _ _ (2 ^ 53 + 1) ?_, key _ _ (2 ^ 53 + 1) ?_, key _ _ (2 ^ 24 + 1) ?_, key _ _ (2 ^ 24 + 1) ?_,
    key _ _ (2 ^ 24 + 1) ?_, key _ _ (2 ^ 24 + 1) ?_, key _ _ (2 ^ 53 + 1) ?_⟩
  all_goals
    refine ⟨by decide, ?_⟩
    decide +kernel

/-- **C79**, what holds: numbers up to 2^24 (through REAL) or 2^53 (through LREAL) in magnitude survive. -/
theorem C79_partial : ∀ c ∈ stFloatConversions, ∀ c' ∈ stFloatConversions, ∀ t f, c.src = .int t → c.dst = .flt f →
    c'.src = .flt f → c'.dst = .int t → ∀ n, t.ty.InRange n → |n| ≤ 2 ^ (f.mbits + 1) →
    (do c'.run (← c.run (.int n))) = .ok (.int n) := by
  intro c hc c' hc' t f hs hd hs' hd' n hr hn
  obtain ⟨r, e1, -, e3, -, e5⟩ := C78_nearest c hc t f hs hd n hr
  rw [e1, Res.bind_ok]
  refine C76_nearest c' hc' f t hs' hd' r e3 n ?_ hr
  rw [e5 hn]
  exact ⟨by simp, by simp⟩

/-- Floats of magnitude `2^mbits` and more are integers. -/
private theorem big_float_integer (f : FloatFmt) (hf : IsFloatTy f) (x : Nat) (hx : x < 2 ^ (1 + f.mbits + f.ebits))
    (h : (2 : ℚ) ^ f.mbits ≤ |floatValue f x|) : ∃ k : ℤ, floatValue f x = k := by
  have ex := f.eq_withSign x hx
  have mx := (f.withSign_spec (f.neg x) _ (f.abs_lt x)).2.1
  rw [← ex] at mx
  have hQ : (0 : ℚ) < 2 ^ f.qexp := by positivity
  have hx0 : (0 : ℚ) ≤ (f.mag x : ℚ) / 2 ^ f.qexp := by positivity
  have hv := f.floatValue_eq (ebits_of hf) x
  have habs : |floatValue f x| = (f.mag x : ℚ) / 2 ^ f.qexp := by
    rw [hv]
    split
    · rw [abs_neg, abs_of_nonneg hx0]
    · exact abs_of_nonneg hx0
  rw [habs, le_div_iff₀ hQ, ← pow_add] at h
  have hn : 2 ^ (f.qexp + f.mbits) ≤ f.mag (f.abs x) := by
    rw [← mx, Nat.add_comm]; exact_mod_cast h
  obtain ⟨a, ha⟩ := f.mag_dvd (f.abs x) (f.qexp + f.mbits) (f.abs_lt x) hn
  rw [← mx, Nat.add_sub_cancel] at ha
  have e : (f.mag x : ℚ) / 2 ^ f.qexp = a := by
    rw [ha]; push_cast; field_simp
  rw [e] at hv
  rw [hv]
  split
  · exact ⟨-a, by push_cast; rfl⟩
  · exact ⟨a, by push_cast; rfl⟩

/-- **C79**, the exact condition: a number survives the way through a float type exactly when it is a number of
that float type. -/
theorem C79_exact_partial : ∀ c ∈ stFloatConversions, ∀ c' ∈ stFloatConversions, ∀ t f, c.src = .int t →
    c.dst = .flt f → c'.src = .flt f → c'.dst = .int t → ∀ n, t.ty.InRange n →
    ((do c'.run (← c.run (.int n))) = .ok (.int n) ↔
      ∃ x < 2 ^ (1 + f.mbits + f.ebits), IsFinite f x ∧ floatValue f x = n) := by
  intro c hc c' hc' t f hs hd hs' hd' n hr
  obtain ⟨r, e1, e2, e3, -, e5⟩ := C78_nearest c hc t f hs hd n hr
  obtain ⟨hf, hrun⟩ := run_to_int hc' hs' hd'
  rw [e1, Res.bind_ok]
  constructor
  · intro h
    refine ⟨r, e2.1, e3, ?_⟩
    by_cases hn : |n| ≤ 2 ^ (f.mbits + 1)
    · exact e5 hn
    · obtain ⟨k, hk⟩ := nearest_exists f hf r e3
      rw [hrun, toInt_round f hf t.ty r e3 k hk] at h
      have hkn : k = n := by
        by_cases hkr : t.ty.InRange k
        · rw [if_pos hkr] at h; cases h; rfl
        · rw [if_neg hkr] at h; cases h
      subst hkn
      have h1 : (2 : ℚ) ^ (f.mbits + 1) < |(k : ℚ)| := by
        have : (2 : ℤ) ^ (f.mbits + 1) < |k| := by omega
        exact_mod_cast this
      have h2 := hk.1
      have h3 : |(k : ℚ)| - |floatValue f r| ≤ 1 / 2 := by
        rw [abs_sub_comm] at h2
        exact le_trans (abs_sub_abs_le_abs_sub _ _) h2
      have h4 : (1 : ℚ) ≤ 2 ^ f.mbits := one_le_pow₀ (by norm_num)
      have h5 : (2 : ℚ) ^ (f.mbits + 1) = 2 * 2 ^ f.mbits := by rw [pow_succ]; ring
      obtain ⟨m, hm⟩ := big_float_integer f hf r e2.1 (by linarith)
      rw [hm] at h2 ⊢
      have h6 : |m - k| ≤ 0 := by
        have : ((|m - k| : ℤ) : ℚ) < 1 := by push_cast; linarith
        have : |m - k| < 1 := by exact_mod_cast this
        omega
      have : m = k := by have := abs_nonpos_iff.1 h6; omega
      rw [this]
  · rintro ⟨x, hx, hfin, hv⟩
    have hnan : ¬ IsNaN f x := by rw [not_isNaN_iff]; exact hfin.nan
    have h1 := (e2.2.2 x hx hnan).1
    rw [hv, sub_self, abs_zero] at h1
    have h2 : floatValue f r = n := by
      have := abs_nonpos_iff.1 h1
      linarith
    refine C76_nearest c' hc' f t hs' hd' r e3 n ?_ hr
    rw [h2]
    exact ⟨by simp, by simp⟩

/-- 2^53 + 2 is a LREAL and comes back, 2^53 + 1 is none and does not. -/
example : ∃ c ∈ stFloatConversions, ∃ c' ∈ stFloatConversions, c.src = .int .LINT ∧ c.dst = .flt .f64 ∧
    c'.src = .flt .f64 ∧ c'.dst = .int .LINT ∧
    (do c'.run (← c.run (.int (2 ^ 53 + 2)))) = .ok (.int (2 ^ 53 + 2)) ∧
    (do c'.run (← c.run (.int (2 ^ 53 + 1)))) = .ok (.int (2 ^ 53)) := by decide +kernel

/-- **C79**, hence all of DINT, UDINT and smaller types through LREAL, and INT, UINT and smaller ones through REAL. -/
theorem C79_small_types : (∀ t ∈ [StType.DINT, .INT, .SINT, .UDINT, .UINT, .USINT], RoundTrip t .f64) ∧
    (∀ t ∈ [StType.INT, .SINT, .UINT, .USINT], RoundTrip t .f32) := by
  have key : ∀ (t : StType) (f : FloatFmt), (∀ n, t.ty.InRange n → |n| ≤ 2 ^ (f.mbits + 1)) → RoundTrip t f := by
    intro t f h c hc c' hc' a b d e n hr
    exact C79_partial c hc c' hc' t f a b d e n hr (h n hr)
  refine ⟨?_, ?_⟩
  · intro t ht
    apply key
    intro n hn
    have h1 := hn.1
    have h2 := hn.2
    rw [abs_le]
    simp only [List.mem_cons, List.not_mem_nil, or_false] at ht
    rcases ht with rfl | rfl | rfl | rfl | rfl | rfl <;>
      simp only [StType.ty, IntTy.lo, IntTy.hi, IntTy.u8, IntTy.u16, IntTy.u32, IntTy.i8,
        IntTy.i16, IntTy.i32] at h1 h2 <;> norm_num [f64] at h1 h2 ⊢ <;> omega
  · intro t ht
    apply key
    intro n hn
    have h1 := hn.1
    have h2 := hn.2
    rw [abs_le]
    simp only [List.mem_cons, List.not_mem_nil, or_false] at ht
    rcases ht with rfl | rfl | rfl | rfl <;>
      simp only [StType.ty, IntTy.lo, IntTy.hi, IntTy.u8, IntTy.u16, IntTy.i8, IntTy.i16] at h1 h2 <;>
      norm_num [f32] at h1 h2 ⊢ <;> omega

/-- Both directions exist for these types. -/
example : ∀ t ∈ [StType.DINT, .INT, .SINT, .UDINT, .UINT, .USINT], ∃ c ∈ stFloatConversions, ∃ c' ∈ stFloatConversions,
    c.src = .int t ∧ c.dst = .flt .f64 ∧ c'.src = .flt .f64 ∧ c'.dst = .int t := by decide +kernel

/-! ### REAL and LREAL -/

theorem convert_nearest (f g : FloatFmt) (hf : IsFloatTy f) (hg : IsFloatTy g) (x : Nat) (hx : IsFinite f x) :
    IsNearestFloat g (floatValue f x) (f.convert g x) ∧ g.neg (f.convert g x) = f.neg x := by
  unfold convert
  rw [hx.nan, hx.inf, if_neg (by decide), if_neg (by decide)]
  have hlt : g.roundMag (f.mag x * 2 ^ g.qexp) (2 ^ f.qexp) < 2 ^ (g.mbits + g.ebits) := by
    have := g.roundMag_le_inf (f.mag x * 2 ^ g.qexp) (2 ^ f.qexp)
    have := g.inf_lt'
    omega
  refine ⟨g.round_signed (stdFmt hg) _ _ _ (Nat.two_pow_pos _) _ ?_, (g.withSign_spec _ _ hlt).1⟩
  rw [f.floatValue_eq (ebits_of hf)]
  have hQ : (2 : ℚ) ^ g.qexp ≠ 0 := by positivity
  have e : ((f.mag x * 2 ^ g.qexp : Nat) : ℚ) / (2 ^ f.qexp : Nat) / 2 ^ g.qexp = f.mag x / 2 ^ f.qexp := by
    push_cast; field_simp
  rw [e]

/-- **C80.** LREAL_TO_REAL and REAL_TO_LREAL give the nearest number of the result type, ties to even (infinity
beyond the half-way point), and keep the sign; NaN and infinities stay what they are. -/
theorem C80_nearest : ∀ c ∈ stFloatConversions, ∀ f g, c.src = .flt f → c.dst = .flt g → ∀ x,
    ∃ r, c.run (.flt x) = .ok (.flt r) ∧ (SignBit g r ↔ SignBit f x) ∧
      (IsFinite f x → IsNearestFloat g (floatValue f x) r) ∧
      (IsNaN f x ↔ IsNaN g r) ∧ (¬ IsNaN f x → ¬ IsFinite f x → ¬ IsFinite g r) := by
  intro c hc f g hs hd x
  suffices ∃ r, c.run (.flt x) = .ok (.flt r) ∧ g.neg r = f.neg x ∧
      (IsFinite f x → IsNearestFloat g (floatValue f x) r) ∧
      (IsNaN f x → IsNaN g r) ∧ (f.is_infinite x = true → g.is_infinite r = true) by
    obtain ⟨r, h1, h2, h3, h4, h5⟩ := this
    have h6 : ¬ IsNaN f x → ¬ IsFinite f x → g.is_infinite r = true := by
      intro a b
      rw [not_isNaN_iff] at a
      rw [isFinite_iff] at b
      exact h5 (by cases h : f.is_infinite x <;> simp_all)
    refine ⟨r, h1, by rw [signBit_iff, signBit_iff, h2], h3, ⟨h4, fun h => Classical.byContradiction fun hn => ?_⟩,
      fun a b c => ?_⟩
    · by_cases hf : IsFinite f x
      · exact (h3 hf).2.1 h
      · have h7 := h6 hn hf
        rw [isNaN_iff] at h
        simp only [is_nan, is_infinite, Bool.and_eq_true, decide_eq_true_eq] at h h7
        exact h.2 h7.2
    · have := h6 a b
      rw [c.inf] at this
      cases this
  simp only [isNaN_iff]
  obtain ⟨⟨hf, hg⟩, hrun⟩ := run_convert hc hs hd
  have hnan : g.nan < 2 ^ (g.mbits + g.ebits) := by rcases hg with rfl | rfl <;> decide +kernel
  obtain ⟨a1, -, a3, -⟩ := g.withSign_spec (f.neg x) g.nan hnan
  obtain ⟨b1, -, -, b4, -⟩ := g.withSign_spec (f.neg x) g.inf g.inf_lt'
  refine ⟨_, hrun x, ?_⟩
  cases h1 : f.is_nan x
  · cases h2 : f.is_infinite x
    · obtain ⟨n1, n2⟩ := convert_nearest f g hf hg x (.mk h1 h2)
      exact ⟨n2, fun _ => n1, by simp, by simp⟩
    · have e : f.convert g x = g.withSign (f.neg x) g.inf := by
        unfold convert; rw [h1, h2, if_neg (by decide), if_pos rfl]
      rw [e]
      refine ⟨b1, fun h => ?_, by simp, fun _ => by rw [b4]; exact g.inf_spec.2⟩
      have := h.inf; rw [h2] at this; cases this
  · have e : f.convert g x = g.withSign (f.neg x) g.nan := by
      unfold convert; rw [h1, if_pos rfl]
    rw [e]
    refine ⟨a1, fun h => ?_, fun _ => by rw [a3]; exact g.nan_spec (stdFmt hg).m1, fun h => ?_⟩
    · have := h.nan; rw [h1] at this; cases this
    · exfalso
      simp only [is_nan, is_infinite, Bool.and_eq_true, decide_eq_true_eq] at h1 h
      exact h1.2 h.2

/-- LREAL_TO_REAL(0.1) rounds up, LREAL_TO_REAL(1e39) is infinite, LREAL_TO_REAL(1+2^-24) is the tie 1. -/
example : FloatFmt.f64.convert .f32 0x3FB999999999999A = 0x3DCCCCCD ∧
    FloatFmt.f64.convert .f32 0x48078287F49C4A1D = 0x7F800000 ∧
    FloatFmt.f64.convert .f32 0x3FF0000010000000 = 0x3F800000 := by decide +kernel

private theorem signif_lt (f : FloatFmt) (x : Nat) : f.signif x < 2 ^ (f.mbits + 1) := by
  have h := Nat.mod_lt x (Nat.two_pow_pos f.mbits)
  unfold signif frac
  rw [Nat.pow_succ]
  split <;> omega

theorem finite_abs (f : FloatFmt) (x : Nat) (hx : x < 2 ^ (1 + f.mbits + f.ebits)) (h : IsFinite f x) :
    f.abs x < f.inf ∧ f.mag x = f.mag (f.abs x) := by
  have e := f.eq_withSign x hx
  obtain ⟨-, s2, s3, s4, -, -⟩ := f.withSign_spec (f.neg x) (f.abs x) (f.abs_lt x)
  rw [← e] at s2 s3 s4
  obtain ⟨n1, n2⟩ := f.nan_iff (f.abs x) (f.abs_lt x)
  refine ⟨?_, s2⟩
  rcases Nat.lt_trichotomy (f.abs x) f.inf with c | c | c
  · exact c
  · have := n2.2 c; rw [← s4, h.inf] at this; cases this
  · have := n1.2 c; rw [← s3, h.nan] at this; cases this

private theorem short_bound (c e a b : Nat) (hc : c < 2 ^ 24) (h : 24 + e ≤ a + b) : c * 2 ^ e < 2 ^ a * 2 ^ b := by
  calc c * 2 ^ e < 2 ^ 24 * 2 ^ e := Nat.mul_lt_mul_of_pos_right hc (Nat.two_pow_pos _)
    _ = 2 ^ (24 + e) := (Nat.pow_add _ _ _).symm
    _ ≤ 2 ^ (a + b) := Nat.pow_le_pow_right (by decide) h
    _ = _ := Nat.pow_add _ _ _

/-- A finite REAL as an LREAL: same number. -/
theorem extend_exact (x : Nat) (hx : x < 2 ^ 32) (h : IsFinite .f32 x) :
    IsFinite .f64 (FloatFmt.f32.convert .f64 x) ∧
    FloatFmt.f64.mag (FloatFmt.f32.convert .f64 x) * 2 ^ FloatFmt.f32.qexp = FloatFmt.f32.mag x * 2 ^ FloatFmt.f64.qexp ∧
    FloatFmt.f64.neg (FloatFmt.f32.convert .f64 x) = FloatFmt.f32.neg x := by
  have hstd : StdFmt .f64 := stdFmt (.inr rfl)
  obtain ⟨ha, hm⟩ := finite_abs .f32 x hx h
  have hs := signif_lt .f32 x
  have hexpo : FloatFmt.f32.expo x < 256 := Nat.mod_lt _ (by decide)
  have hconv : FloatFmt.f32.convert .f64 x = FloatFmt.f64.withSign (FloatFmt.f32.neg x)
      (FloatFmt.f64.roundMag (FloatFmt.f32.mag x * 2 ^ FloatFmt.f64.qexp) (2 ^ FloatFmt.f32.qexp)) := by
    unfold convert
    rw [h.nan, h.inf, if_neg (by decide), if_neg (by decide)]
  have hmag : FloatFmt.f32.mag x = FloatFmt.f32.signif x * 2 ^ (max (FloatFmt.f32.expo x) 1 - 1) := rfl
  rw [hconv]
  rw [hmag]
  generalize FloatFmt.f32.signif x = c at *
  generalize he : max (FloatFmt.f32.expo x) 1 - 1 = e at *
  have he2 : e ≤ 255 := by omega
  have hc : c < 2 ^ 24 := hs
  obtain ⟨d, e1, hd⟩ : ∃ d, FloatFmt.f64.qexp = d + FloatFmt.f32.qexp ∧ d ≤ 925 := ⟨925, by decide, Nat.le_refl _⟩
  have hnum : c * 2 ^ e * 2 ^ FloatFmt.f64.qexp = c * 2 ^ (e + d) * 2 ^ FloatFmt.f32.qexp := by
    rw [e1, Nat.pow_add 2 d FloatFmt.f32.qexp, Nat.pow_add 2 e d]; ring
  have hle : 24 + (e + d) ≤ FloatFmt.f64.mbits + (FloatFmt.f64.emax - 1) := by
    have h1 : FloatFmt.f64.emax = 2047 := by decide
    have h2 : FloatFmt.f64.mbits = 52 := by decide
    omega
  have hbound := short_bound c (e + d) _ _ hc hle
  obtain ⟨r1, r2⟩ := FloatFmt.f64.roundMag_short hstd c
    (Nat.lt_of_lt_of_le hc (Nat.pow_le_pow_right (by decide) (by decide))) (e + d)
    (c * 2 ^ e * 2 ^ FloatFmt.f64.qexp) (2 ^ FloatFmt.f32.qexp) (Nat.two_pow_pos _) hbound hnum
  have hlt : FloatFmt.f64.roundMag (c * 2 ^ e * 2 ^ FloatFmt.f64.qexp) (2 ^ FloatFmt.f32.qexp) < 2 ^ (FloatFmt.f64.mbits + FloatFmt.f64.ebits) := by
    have := FloatFmt.f64.inf_lt'; omega
  obtain ⟨s1, s2, s3, s4, -, -⟩ := FloatFmt.f64.withSign_spec (FloatFmt.f32.neg x) _ hlt
  obtain ⟨c1, c2⟩ := FloatFmt.f64.finite_of_lt_inf r2
  exact ⟨.mk (s3.trans c1) (s4.trans c2), by rw [s2, r1, hnum], s1⟩

theorem extend_value (x : Nat) (hx : x < 2 ^ 32) (h : IsFinite .f32 x) :
    floatValue .f64 (FloatFmt.f32.convert .f64 x) = floatValue .f32 x := by
  obtain ⟨-, e2, e3⟩ := extend_exact x hx h
  rw [FloatFmt.floatValue_eq _ (by decide), FloatFmt.floatValue_eq _ (by decide), e3]
  have h1 : ((FloatFmt.f64.mag (FloatFmt.f32.convert .f64 x) : Nat) : ℚ) * 2 ^ FloatFmt.f32.qexp = FloatFmt.f32.mag x * 2 ^ FloatFmt.f64.qexp := by
    exact_mod_cast e2
  have h2 : ((FloatFmt.f64.mag (FloatFmt.f32.convert .f64 x) : Nat) : ℚ) / 2 ^ FloatFmt.f64.qexp = FloatFmt.f32.mag x / 2 ^ FloatFmt.f32.qexp := by
    rw [div_eq_div_iff (by positivity) (by positivity)]; exact h1
  rw [h2]

/-- A number converted to the other format exactly comes back. -/
private theorem convert_back (x y : Nat) (hx : x < 2 ^ 32) (h : IsFinite .f32 x) (hy : IsFinite .f64 y)
    (hmag : FloatFmt.f64.mag y * 2 ^ FloatFmt.f32.qexp = FloatFmt.f32.mag x * 2 ^ FloatFmt.f64.qexp) :
    FloatFmt.f64.convert .f32 y = FloatFmt.f32.withSign (FloatFmt.f64.neg y) (FloatFmt.f32.abs x) := by
  obtain ⟨ha, hm⟩ := finite_abs .f32 x hx h
  have hstd : StdFmt .f32 := stdFmt (.inl rfl)
  have hexact := FloatFmt.f32.roundMag_exact hstd.m1 hstd.e2 (FloatFmt.f64.mag y * 2 ^ FloatFmt.f32.qexp) (2 ^ FloatFmt.f64.qexp)
    (FloatFmt.f32.abs x) (Nat.two_pow_pos _) (by omega) (by rw [← hm]; exact hmag)
  unfold convert
  rw [hy.nan, hy.inf, if_neg (by decide), if_neg (by decide)]
  rw [hexact]

/-- **C80**, REAL_TO_LREAL is exact and LREAL_TO_REAL undoes it, bit for bit (NaNs excepted). -/
theorem C80_exact : ∀ c ∈ stFloatConversions, c.src = .flt .f32 → c.dst = .flt .f64 →
    ∀ c' ∈ stFloatConversions, c'.src = .flt .f64 → c'.dst = .flt .f32 →
    ∀ x, x < 2 ^ 32 → ¬ IsNaN .f32 x →
    ∃ r, c.run (.flt x) = .ok (.flt r) ∧
      (IsFinite .f32 x → IsFinite .f64 r ∧ floatValue .f64 r = floatValue .f32 x) ∧
      c'.run (.flt r) = .ok (.flt x) := by
  intro c hc hs hd c' hc' hs' hd' x hx hn
  rw [not_isNaN_iff] at hn
  obtain ⟨-, hrun⟩ := run_convert hc hs hd
  obtain ⟨-, hrun'⟩ := run_convert hc' hs' hd'
  refine ⟨_, hrun x, ?_, ?_⟩
  · intro hi
    exact ⟨(extend_exact x hx hi).1, extend_value x hx hi⟩
  · rw [hrun']
    have hx' := FloatFmt.f32.eq_withSign x hx
    cases hi : FloatFmt.f32.is_infinite x
    · obtain ⟨e1, e2, e3⟩ := extend_exact x hx (.mk hn hi)
      rw [convert_back x _ hx (.mk hn hi) e1 e2, e3, ← hx']
    · -- infinities
      have e : FloatFmt.f32.convert .f64 x = FloatFmt.f64.withSign (FloatFmt.f32.neg x) FloatFmt.f64.inf := by
        unfold convert; rw [hn, hi, if_neg (by decide), if_pos rfl]
      obtain ⟨s1, -, s3, s4, -, -⟩ := FloatFmt.f64.withSign_spec (FloatFmt.f32.neg x) _ FloatFmt.f64.inf_lt'
      rw [e]
      have hinf : FloatFmt.f32.abs x = FloatFmt.f32.inf := by
        apply (FloatFmt.f32.nan_iff _ (FloatFmt.f32.abs_lt x)).2.1
        rw [← (FloatFmt.f32.withSign_spec (FloatFmt.f32.neg x) _ (FloatFmt.f32.abs_lt x)).2.2.2.1, ← hx']
        exact hi
      unfold convert
      rw [s3, s4, s1, FloatFmt.f64.inf_spec.1, FloatFmt.f64.inf_spec.2, if_neg (by decide), if_pos rfl, ← hinf, ← hx']

/-- The two conversions exist; the pattern of 0.1 in REAL survives the round trip. -/
example : (∃ c ∈ stFloatConversions, c.src = .flt .f32 ∧ c.dst = .flt .f64 ∧
      c.run (.flt 0x3DCCCCCD) = .ok (.flt 0x3FB99999A0000000)) ∧
    (∃ c ∈ stFloatConversions, c.src = .flt .f64 ∧ c.dst = .flt .f32 ∧
      c.run (.flt 0x3FB99999A0000000) = .ok (.flt 0x3DCCCCCD)) := by decide +kernel

/-! ### TRUNC -/

private theorem tdiv_trunc (a : Int) (b : Nat) (hb : 0 < b) : IsTruncation ((a : ℚ) / b) (a.tdiv b) := by
  have hb' : (0 : ℚ) < b := by exact_mod_cast hb
  have key : ∀ k : Nat, |(((k : Int).tdiv b : Int) : ℚ)| ≤ |((k : Int) : ℚ) / b| ∧
      |((k : Int) : ℚ) / b| < |(((k : Int).tdiv b : Int) : ℚ)| + 1 ∧
      0 ≤ ((k : Int) : ℚ) / b * (((k : Int).tdiv b : Int) : ℚ) := by
    intro k
    have e : (k : Int).tdiv b = ((k / b : Nat) : Int) := by
      rw [Int.tdiv_eq_ediv_of_nonneg (by omega)]; exact (Int.natCast_div k b).symm
    rw [e]
    push_cast
    have h1 := Nat.div_mul_le_self k b
    have h2 := Nat.lt_mul_of_div_lt (Nat.lt_succ_self (k / b)) hb
    have h1' : ((k / b : Nat) : ℚ) * b ≤ k := by exact_mod_cast h1
    have h2' : (k : ℚ) < ((k / b : Nat) + 1) * b := by exact_mod_cast h2
    rw [abs_of_nonneg (by positivity), abs_of_nonneg (by positivity)]
    refine ⟨?_, ?_, by positivity⟩
    · rw [le_div_iff₀ hb']; exact h1'
    · rw [div_lt_iff₀ hb']; exact h2'
  obtain ⟨k, rfl | rfl⟩ := a.eq_nat_or_neg
  · exact key k
  · obtain ⟨h1, h2, h3⟩ := key k
    unfold IsTruncation
    rw [Int.neg_tdiv]
    push_cast at *
    rw [neg_div, abs_neg, abs_neg, neg_mul_neg]
    exact ⟨h1, h2, h3⟩

/-- Only one integer is the truncation of a number. -/
private theorem trunc_unique (v : ℚ) (m n : ℤ) (hm : IsTruncation v m) (hn : IsTruncation v n) : m = n := by
  obtain ⟨a1, a2, a3⟩ := hm
  obtain ⟨b1, b2, b3⟩ := hn
  have h1 : |(m : ℚ)| < |(n : ℚ)| + 1 := by linarith
  have h2 : |(n : ℚ)| < |(m : ℚ)| + 1 := by linarith
  have h1' : |m| < |n| + 1 := by exact_mod_cast h1
  have h2' : |n| < |m| + 1 := by exact_mod_cast h2
  have h3 : |m| = |n| := by omega
  rcases (abs_eq_abs.1 h3) with h | h
  · exact h
  · by_cases h0 : n = 0
    · omega
    · subst h
      exfalso
      push_cast at a3 a1
      have hz : v * n = 0 := by linarith
      have hn0 : (n : ℚ) ≠ 0 := by exact_mod_cast h0
      have hv : v = 0 := (mul_eq_zero.1 hz).resolve_right hn0
      rw [hv, abs_zero] at b1
      exact hn0 (abs_eq_zero.1 (le_antisymm b1 (abs_nonneg _)))

/-- **C81.** TRUNC of a REAL or LREAL cuts off the fraction when the result fits a LINT. -/
theorem C81_truncates (f : FloatFmt) (TRUNC : Nat → Res Int)
    (hT : (f = .f32 ∧ TRUNC = TRUNC__REAL) ∨ (f = .f64 ∧ TRUNC = TRUNC__LREAL)) (x : Nat) (hx : IsFinite f x)
    (n : ℤ) (hn : IsTruncation (floatValue f x) n) (hr : IntTy.i64.InRange n) : TRUNC x = .ok n := by
  have e : TRUNC x = f.toInt .i64 x := by rcases hT with ⟨rfl, rfl⟩ | ⟨rfl, rfl⟩ <;> rfl
  have h := tdiv_trunc (f.val x) (2 ^ f.qexp) (Nat.two_pow_pos _)
  have hv : ((f.val x : Int) : ℚ) / (2 ^ f.qexp : Nat) = floatValue f x := by
    rw [floatValue_val f (ebits_of (by rcases hT with ⟨h, -⟩ | ⟨h, -⟩ <;> simp [IsFloatTy, h]))]; push_cast; rfl
  rw [hv] at h
  have := trunc_unique _ _ _ h hn
  rw [e]
  unfold toInt
  rw [hx.nan, hx.inf, if_neg (by simp)]
  dsimp only
  rw [this, if_pos hr]

/-- **C81**, the result is undefined for NaN, infinities and magnitudes beyond the LINT range, and only then. -/
theorem C81_undefined (f : FloatFmt) (TRUNC : Nat → Res Int)
    (hT : (f = .f32 ∧ TRUNC = TRUNC__REAL) ∨ (f = .f64 ∧ TRUNC = TRUNC__LREAL)) (x : Nat) :
    TRUNC x ≠ .panic ∧
    (TRUNC x = .ub ↔ ¬ (IsFinite f x ∧ ∃ n : ℤ, IsTruncation (floatValue f x) n ∧ IntTy.i64.InRange n)) := by
  have e : TRUNC x = f.toInt .i64 x := by rcases hT with ⟨rfl, rfl⟩ | ⟨rfl, rfl⟩ <;> rfl
  have h := tdiv_trunc (f.val x) (2 ^ f.qexp) (Nat.two_pow_pos _)
  have hv : ((f.val x : Int) : ℚ) / (2 ^ f.qexp : Nat) = floatValue f x := by
    rw [floatValue_val f (ebits_of (by rcases hT with ⟨h, -⟩ | ⟨h, -⟩ <;> simp [IsFloatTy, h]))]; push_cast; rfl
  rw [hv] at h
  rw [e]
  unfold toInt
  cases h1 : f.is_nan x <;> cases h2 : f.is_infinite x <;> simp only [Bool.false_eq_true, or_false, or_true, if_true, if_false]
  · split
    · rename_i hr
      exact ⟨by simp, by simp only [reduceCtorEq, false_iff, not_not]; exact ⟨.mk h1 h2, _, h, hr⟩⟩
    · rename_i hr
      refine ⟨by simp, by simp only [true_iff]; rintro ⟨-, m, hm, hmr⟩; rw [trunc_unique _ _ _ hm h] at hmr; exact hr hmr⟩
  all_goals
    refine ⟨by simp, by simp only [true_iff]; rintro ⟨hf, -⟩; have a := hf.nan; have b := hf.inf; simp_all⟩

/-- TRUNC(-2.75) = -2, TRUNC(1e19) is undefined. -/
example : TRUNC__REAL 0xC0300000 = .ok (-2) ∧ TRUNC__LREAL 0x43E158E460913D00 = .ub ∧
    TRUNC__LREAL 0xC3E0000000000000 = .ok (-2 ^ 63) := by decide +kernel

/-! ### ABS -/

private theorem negate_spec (f : FloatFmt) (x : Nat) (hx : x < 2 ^ (1 + f.mbits + f.ebits)) :
    f.negate x = f.withSign (!f.neg x) (f.abs x) := by
  have e := f.eq_withSign x hx
  have ha := f.abs_lt x
  unfold negate
  rw [two_pow_split] at hx
  cases h : f.neg x
  · rw [h] at e
    unfold withSign at e ⊢
    simp at e ⊢
    omega
  · rw [h] at e
    unfold withSign at e ⊢
    simp at e ⊢
    omega

private theorem val_zero (f : FloatFmt) : f.val 0 = 0 := by
  unfold val; rw [f.mag_zero']; simp

/-- **C82.** ABS of a finite REAL or LREAL is finite and its value is the absolute value. -/
theorem C82_value (f : FloatFmt) (ABS : Nat → Nat)
    (hA : (f = .f32 ∧ ABS = ABS__REAL) ∨ (f = .f64 ∧ ABS = ABS__LREAL)) (x : Nat)
    (hx : x < 2 ^ (1 + f.mbits + f.ebits)) (hf : IsFinite f x) :
    IsFinite f (ABS x) ∧ floatValue f (ABS x) = |floatValue f x| := by
  -- ABS__LREAL in terms of sign and magnitude
  have key : ∀ y, y < 2 ^ 64 → IsFinite .f64 y → IsFinite .f64 (ABS__LREAL y) ∧
      FloatFmt.f64.mag (ABS__LREAL y) = FloatFmt.f64.mag y ∧
      (FloatFmt.f64.neg (ABS__LREAL y) = true → FloatFmt.f64.mag y = 0) := by
    intro y hy hyf
    have hz : FloatFmt.f64.is_nan 0 = false := by decide
    unfold ABS__LREAL FloatFmt.lt
    rw [hyf.nan, hz, val_zero]
    simp only [Bool.not_false, Bool.true_and, decide_eq_true_eq]
    by_cases hneg : FloatFmt.f64.val y < 0
    · rw [if_pos hneg, negate_spec .f64 y hy]
      have hn : FloatFmt.f64.neg y = true := by
        by_contra hc
        unfold val at hneg
        rw [if_neg hc] at hneg
        omega
      rw [hn]
      obtain ⟨a1, a2, a3, a4, -, -⟩ := FloatFmt.f64.withSign_spec (!true) (FloatFmt.f64.abs y) (FloatFmt.f64.abs_lt y)
      obtain ⟨-, b2, b3, b4, -, -⟩ := FloatFmt.f64.withSign_spec (FloatFmt.f64.neg y) (FloatFmt.f64.abs y) (FloatFmt.f64.abs_lt y)
      rw [← FloatFmt.f64.eq_withSign y hy] at b2 b3 b4
      refine ⟨.mk (a3.trans (b3.symm.trans hyf.nan)) (a4.trans (b4.symm.trans hyf.inf)), a2.trans b2.symm, ?_⟩
      rw [a1]; simp
    · rw [if_neg hneg]
      refine ⟨hyf, rfl, ?_⟩
      intro hn
      unfold val at hneg
      rw [if_pos hn] at hneg
      omega
  have fin : ∀ (g : FloatFmt) (_ : IsFloatTy g) (a y : Nat), g.mag a = g.mag y → (g.neg a = true → g.mag y = 0) →
      floatValue g a = |floatValue g y| := by
    intro g hg a y h1 h2
    have hpos : (0 : ℚ) ≤ g.mag y / 2 ^ g.qexp := by positivity
    have habs : |floatValue g y| = g.mag y / 2 ^ g.qexp := by
      rw [g.floatValue_eq (ebits_of hg)]
      split
      · rw [abs_neg, abs_of_nonneg hpos]
      · rw [abs_of_nonneg hpos]
    rw [habs, g.floatValue_eq (ebits_of hg), h1]
    split
    · rename_i h; rw [h2 h]; simp
    · rfl
  rcases hA with ⟨rfl, rfl⟩ | ⟨rfl, rfl⟩
  · obtain ⟨e1, e2, e3⟩ := extend_exact x hx hf
    have hlt64 : FloatFmt.f32.convert .f64 x < 2 ^ 64 := (convert_nearest .f32 .f64 (.inl rfl) (.inr rfl) x hf).1.1
    obtain ⟨k1, k2, k3⟩ := key _ hlt64 e1
    have hback := convert_back x (ABS__LREAL (FloatFmt.f32.convert .f64 x)) hx hf k1 (by rw [k2]; exact e2)
    obtain ⟨ha, hm⟩ := finite_abs .f32 x hx hf
    obtain ⟨w1, w2, w3, w4, -, -⟩ := FloatFmt.f32.withSign_spec
      (FloatFmt.f64.neg (ABS__LREAL (FloatFmt.f32.convert .f64 x))) (FloatFmt.f32.abs x) (FloatFmt.f32.abs_lt x)
    obtain ⟨c1, c2⟩ := FloatFmt.f32.finite_of_lt_inf ha
    have hA : ABS__REAL x = FloatFmt.f32.withSign (FloatFmt.f64.neg (ABS__LREAL (FloatFmt.f32.convert .f64 x)))
        (FloatFmt.f32.abs x) := hback
    rw [hA]
    refine ⟨.mk (w3.trans c1) (w4.trans c2), fin .f32 (.inl rfl) _ x (w2.trans hm.symm) ?_⟩
    rw [w1]
    intro hn
    have h0 := k3 hn
    rw [h0, Nat.zero_mul] at e2
    rcases Nat.mul_eq_zero.1 e2.symm with h | h
    · exact h
    · exact absurd h (Nat.pos_iff_ne_zero.1 (Nat.two_pow_pos _))
  · obtain ⟨k1, k2, k3⟩ := key x hx hf
    exact ⟨k1, fin .f64 (.inr rfl) _ x k2 k3⟩

/-- ABS(-1.5) = 1.5 for REAL and LREAL. -/
example : ABS__REAL 0xBFC00000 = 0x3FC00000 ∧ ABS__LREAL 0xBFF8000000000000 = 0x3FF8000000000000 := by decide +kernel

/-- The sign bit of ABS is never set. -/
def AbsClearsSign (f : FloatFmt) (ABS : Nat → Nat) : Prop :=
  ∀ x, x < 2 ^ (1 + f.mbits + f.ebits) → IsFinite f x → ¬ SignBit f (ABS x)

/-- **C82**, false for the sign bit: ABS(-0.0) is -0.0. -/
theorem C82_sign_refuted : ¬ AbsClearsSign .f32 ABS__REAL ∧ ¬ AbsClearsSign .f64 ABS__LREAL := by
  constructor
  · intro h
    have := h 0x80000000 (by decide) (by unfold IsFinite; decide)
    revert this
    decide +kernel
  · intro h
    have := h 0x8000000000000000 (by decide) (by unfold IsFinite; decide)
    revert this
    decide +kernel

end Verif
