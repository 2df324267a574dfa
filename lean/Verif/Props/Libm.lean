import Verif.Spec.Libm
import Verif.Props.Arith
import Verif.Props.StFloat
import Verif.Proofs.FloatPow
/-
C98, C99: the functions that call libm, for every libm of a given accuracy.
-/
namespace Verif
open Spec

/-! ### A correctly rounding libm -/

private theorem exists_approx (f : FloatFmt) (hf : IsFloatTy f) (v : ℝ) : ∃ r, Approximates f (halfUlp f : ℚ) v r := by
  have hs := stdFmt hf
  have hQ : (0 : ℝ) < 2 ^ f.qexp := by positivity
  by_cases hv : |v| ≤ 2 ^ (2 ^ (f.ebits - 1) - 1)
  case neg => exact ⟨0, fun h => absurd h hv⟩
  set n := ⌊|v| * 2 ^ f.qexp * 4⌋₊ with hn
  have n1 : (n : ℝ) ≤ |v| * 2 ^ f.qexp * 4 := Nat.floor_le (by positivity)
  have n2 : |v| * 2 ^ f.qexp * 4 < n + 1 := Nat.lt_floor_add_one _
  have hlt : f.roundMag n 4 < f.inf := by
    refine f.roundMag_lt_inf hf n 4 (by norm_num) ?_
    have e : 2 * f.qexp - 2 * f.mbits + 1 + f.mbits = f.qexp + (2 ^ (f.ebits - 1) - 1) := by
      rcases hf with rfl | rfl <;> decide
    rw [e]
    refine (Rat.cast_le (K := ℝ)).1 ?_
    rw [pow_add]
    have := mul_le_mul_of_nonneg_right hv hQ.le
    push_cast
    linarith
  have hlt' := f.le_inf_lt hlt.le
  have s5 := (f.withSign_spec (decide (v < 0)) _ hlt').2.2.2.2
  have hval := f.floatValue_withSign hs.eb (decide (v < 0)) _ hlt'
  refine ⟨f.withSign (decide (v < 0)) (f.roundMag n 4), fun _ => ⟨?_, ?_⟩⟩
  · rw [(finite_abs_lt f _ s5.1).1, s5.2]; exact hlt
  have herr := f.round_err n 4 (by norm_num) hlt
  have h1 : floatValue f 1 = 1 / 2 ^ f.qexp := by
    have h2 : f.neg 1 = false ∧ f.mag 1 = 1 := by rcases hf with rfl | rfl <;> decide +kernel
    rw [f.floatValue_eq hs.eb, h2.1, h2.2]; simp
  have hval' : (floatValue f (f.withSign (decide (v < 0)) (f.roundMag n 4)) : ℝ) =
      if v < 0 then -(f.rat (f.roundMag n 4) : ℝ) else (f.rat (f.roundMag n 4) : ℝ) := by
    rw [hval]; unfold FloatFmt.rat
    split <;> rename_i h <;> simp only [decide_eq_true_eq] at h <;> simp [h]
  have habs : |(floatValue f (f.withSign (decide (v < 0)) (f.roundMag n 4)) : ℝ) - v| =
      abs ((f.rat (f.roundMag n 4) : ℝ) - |v|) := by
    rw [hval']
    split <;> rename_i h
    · rw [abs_of_neg h, ← abs_neg]; congr 1; ring
    · rw [abs_of_nonneg (not_lt.1 h)]
  rw [habs, h1]
  have herr' : |(f.rat (f.roundMag n 4) : ℝ) - (n : ℝ) / 4 / 2 ^ f.qexp| ≤
      max ((halfUlp f : ℚ) * ((n : ℝ) / 4 / 2 ^ f.qexp)) (1 / 2 / 2 ^ f.qexp) := by
    have := (Rat.cast_le (K := ℝ)).2 herr
    push_cast at this
    exact this
  have hu : (0 : ℝ) ≤ ((halfUlp f : ℚ) : ℝ) := by
    have : (0 : ℚ) ≤ halfUlp f := by unfold halfUlp; positivity
    exact_mod_cast this
  have w1 : (n : ℝ) / 4 / 2 ^ f.qexp ≤ |v| := by
    rw [div_div, div_le_iff₀ (by positivity)]; linarith
  have w2 : |v| ≤ (n : ℝ) / 4 / 2 ^ f.qexp + 1 / 4 / 2 ^ f.qexp := by
    rw [← add_div, ← add_div, div_div, le_div_iff₀ (by positivity)]; linarith
  have hm : max ((halfUlp f : ℚ) * ((n : ℝ) / 4 / 2 ^ f.qexp)) (1 / 2 / 2 ^ f.qexp) ≤
      (halfUlp f : ℚ) * |v| + 1 / 2 / 2 ^ f.qexp := by
    have a := mul_le_mul_of_nonneg_left w1 hu
    have b : (0 : ℝ) ≤ 1 / 2 / 2 ^ f.qexp := by positivity
    have c : (0 : ℝ) ≤ (halfUlp f : ℚ) * |v| := mul_nonneg hu (abs_nonneg v)
    exact max_le (by linarith) (by linarith)
  have e1 : (((1 / 2 ^ f.qexp : ℚ)) : ℝ) = 1 / 4 / 2 ^ f.qexp + 1 / 4 / 2 ^ f.qexp + 1 / 2 / 2 ^ f.qexp := by
    push_cast; ring
  have b : (0 : ℝ) ≤ 1 / 4 / 2 ^ f.qexp := by positivity
  rw [e1]
  have := abs_le.1 (herr'.trans hm)
  rw [abs_le]
  constructor <;> linarith [this.1, this.2]

/-- There is a libm of the accuracy of one rounding. -/
theorem exists_accurate (f : FloatFmt) (hf : IsFloatTy f) : ∃ m : Libm, m.Accurate f (halfUlp f : ℚ) := by
  choose rnd h using exists_approx f hf
  exact ⟨{
    ln := fun x => rnd (Real.log (floatValue f x))
    log10 := fun x => rnd (Real.logb 10 (floatValue f x))
    exp := fun x => rnd (Real.exp (floatValue f x))
    sin := fun x => rnd (Real.sin (floatValue f x))
    cos := fun x => rnd (Real.cos (floatValue f x))
    tan := fun x => rnd (Real.tan (floatValue f x))
    asin := fun x => rnd (Real.arcsin (floatValue f x))
    acos := fun x => rnd (Real.arccos (floatValue f x))
    atan := fun x => rnd (Real.arctan (floatValue f x))
    atan2 := fun y x => rnd (Complex.arg ⟨floatValue f x, floatValue f y⟩)
    powf := fun x y => rnd ((floatValue f x : ℝ) ^ (floatValue f y : ℝ)) },
    ⟨fun _ _ _ => h _, fun _ _ _ => h _, fun _ _ => h _, fun _ _ => h _, fun _ _ => h _, fun _ _ => h _,
      fun _ _ _ => h _, fun _ _ _ => h _, fun _ _ => h _, fun _ _ _ _ _ => h _, fun _ _ _ _ _ => h _⟩⟩

/-! ### C98 -/

private theorem arg_of_pos {a b : ℝ} (h : 0 < b) : Complex.arg ⟨b, a⟩ = Real.arctan (a / b) := by
  have h1 : |Complex.arg ⟨b, a⟩| < Real.pi / 2 := Complex.abs_arg_lt_pi_div_two_iff.2 (.inl h)
  have h2 := Complex.tan_arg ⟨b, a⟩
  rw [← h2, Real.arctan_tan (abs_lt.1 h1).1 (abs_lt.1 h1).2]

/-- **C98**, REAL: LN, LOG, EXP, SIN, COS, TAN, ASIN, ACOS, ATAN, ATAN2(y, x) and EXPT are as accurate as the
library's functions of the same meaning. -/
theorem C98_real (libm : Platform) (ε : ℝ) (h : libm.f32.Accurate .f32 ε) (x y : Nat) (hx : IsFinite .f32 x)
    (hy : IsFinite .f32 y) :
    let a : ℝ := floatValue .f32 x
    let b : ℝ := floatValue .f32 y
    (0 < a → Approximates .f32 ε (Real.log a) (libm.LN__REAL x)) ∧
    (0 < a → Approximates .f32 ε (Real.log a / Real.log 10) (libm.LOG__REAL x)) ∧
    Approximates .f32 ε (Real.exp a) (libm.EXP__REAL x) ∧
    Approximates .f32 ε (Real.sin a) (libm.SIN__REAL x) ∧
    Approximates .f32 ε (Real.cos a) (libm.COS__REAL x) ∧
    Approximates .f32 ε (Real.tan a) (libm.TAN__REAL x) ∧
    (|a| ≤ 1 → Approximates .f32 ε (Real.arcsin a) (libm.ASIN__REAL x)) ∧
    (|a| ≤ 1 → Approximates .f32 ε (Real.arccos a) (libm.ACOS__REAL x)) ∧
    Approximates .f32 ε (Real.arctan a) (libm.ATAN__REAL x) ∧
    (0 < b → Approximates .f32 ε (Real.arctan (a / b)) (libm.ATAN2__REAL x y)) ∧
    (a ≠ 0 → Approximates .f32 ε (Complex.arg ⟨b, a⟩) (libm.ATAN2__REAL x y)) ∧
    (0 < a → Approximates .f32 ε (a ^ b) (libm.EXPT__REAL__REAL x y)) := by
  intro a b
  have pos : 0 < a → 0 < floatValue .f32 x := fun h => Rat.cast_pos.1 h
  have one : |a| ≤ 1 → |floatValue .f32 x| ≤ 1 := fun h => by
    refine (Rat.cast_le (K := ℝ)).1 ?_
    push_cast; exact h
  refine ⟨fun p => h.ln x hx (pos p), fun p => h.log10 x hx (pos p), h.exp x hx, h.sin x hx, h.cos x hx, h.tan x hx,
    fun p => h.asin x hx (one p), fun p => h.acos x hx (one p), h.atan x hx, fun p => ?_, fun p => ?_,
    fun p => h.powf x y hx hy (pos p)⟩
  · have := h.atan2 x y hx hy (.inr (Rat.cast_pos.1 p))
    rwa [arg_of_pos p] at this
  · exact h.atan2 x y hx hy (.inl (Rat.cast_ne_zero.1 p))

/-- **C98**, LREAL. -/
theorem C98_lreal (libm : Platform) (ε : ℝ) (h : libm.f64.Accurate .f64 ε) (x y : Nat) (hx : IsFinite .f64 x)
    (hy : IsFinite .f64 y) :
    let a : ℝ := floatValue .f64 x
    let b : ℝ := floatValue .f64 y
    (0 < a → Approximates .f64 ε (Real.log a) (libm.LN__LREAL x)) ∧
    (0 < a → Approximates .f64 ε (Real.log a / Real.log 10) (libm.LOG__LREAL x)) ∧
    Approximates .f64 ε (Real.exp a) (libm.EXP__LREAL x) ∧
    Approximates .f64 ε (Real.sin a) (libm.SIN__LREAL x) ∧
    Approximates .f64 ε (Real.cos a) (libm.COS__LREAL x) ∧
    Approximates .f64 ε (Real.tan a) (libm.TAN__LREAL x) ∧
    (|a| ≤ 1 → Approximates .f64 ε (Real.arcsin a) (libm.ASIN__LREAL x)) ∧
    (|a| ≤ 1 → Approximates .f64 ε (Real.arccos a) (libm.ACOS__LREAL x)) ∧
    Approximates .f64 ε (Real.arctan a) (libm.ATAN__LREAL x) ∧
    (0 < b → Approximates .f64 ε (Real.arctan (a / b)) (libm.ATAN2__LREAL x y)) ∧
    (a ≠ 0 → Approximates .f64 ε (Complex.arg ⟨b, a⟩) (libm.ATAN2__LREAL x y)) ∧
    (0 < a → Approximates .f64 ε (a ^ b) (libm.EXPT__LREAL__LREAL x y)) := by
  intro a b
  have pos : 0 < a → 0 < floatValue .f64 x := fun h => Rat.cast_pos.1 h
  have one : |a| ≤ 1 → |floatValue .f64 x| ≤ 1 := fun h => by
    refine (Rat.cast_le (K := ℝ)).1 ?_
    push_cast; exact h
  refine ⟨fun p => h.ln x hx (pos p), fun p => h.log10 x hx (pos p), h.exp x hx, h.sin x hx, h.cos x hx, h.tan x hx,
    fun p => h.asin x hx (one p), fun p => h.acos x hx (one p), h.atan x hx, fun p => ?_, fun p => ?_,
    fun p => h.powf x y hx hy (pos p)⟩
  · have := h.atan2 x y hx hy (.inr (Rat.cast_pos.1 p))
    rwa [arg_of_pos p] at this
  · exact h.atan2 x y hx hy (.inl (Rat.cast_ne_zero.1 p))

/-- The hypotheses of C98 and C99 are met by a library that rounds once, e.g. for the arguments 1.5 and 2.0. -/
example : ∃ libm : Platform, libm.f32.Accurate .f32 (halfUlp .f32 : ℚ) ∧ libm.f64.Accurate .f64 (halfUlp .f64 : ℚ) := by
  obtain ⟨m, hm⟩ := exists_accurate .f32 (.inl rfl)
  obtain ⟨m', hm'⟩ := exists_accurate .f64 (.inr rfl)
  exact ⟨⟨m, m'⟩, hm, hm'⟩
example : IsFinite .f32 0x3FC00000 ∧ IsFinite .f32 0x40000000 := by unfold IsFinite; decide

/-! ### C99 -/

/-- **C99**, EXPT of an LREAL with a REAL exponent: the exponent is taken exactly. -/
theorem C99_lreal_real (libm : Platform) (ε : ℝ) (h : libm.f64.Accurate .f64 ε) (x y : Nat) (hx : IsFinite .f64 x)
    (hy : IsFinite .f32 y) (hy' : y < 2 ^ 32) (h0 : 0 < floatValue .f64 x) :
    Approximates .f64 ε ((floatValue .f64 x : ℝ) ^ (floatValue .f32 y : ℝ)) (libm.EXPT__LREAL__REAL x y) := by
  have := h.powf x (FloatFmt.f32.convert .f64 y) hx (extend_exact y hy' hy).1 h0
  rwa [extend_value y hy' hy] at this

/-- **C99**, EXPT of a REAL with an LREAL exponent: the exponent is rounded to the nearest REAL first, ties to even, infinite
with the same sign on overflow; so an exponent that is a REAL number is taken exactly. -/
theorem C99_real_lreal (libm : Platform) (ε : ℝ) (h : libm.f32.Accurate .f32 ε) (x y : Nat) (hx : IsFinite .f32 x)
    (hy : IsFinite .f64 y) (h0 : 0 < floatValue .f32 x) :
    (∃ y', IsNearestFloat .f32 (floatValue .f64 y) y' ∧ (SignBit .f32 y' ↔ SignBit .f64 y) ∧
      libm.EXPT__REAL__LREAL x y = libm.EXPT__REAL__REAL x y' ∧
      (IsFinite .f32 y' → Approximates .f32 ε ((floatValue .f32 x : ℝ) ^ (floatValue .f32 y' : ℝ)) (libm.EXPT__REAL__LREAL x y))) ∧
    ((∃ z, z < 2 ^ 32 ∧ IsFinite .f32 z ∧ floatValue .f32 z = floatValue .f64 y) →
      Approximates .f32 ε ((floatValue .f32 x : ℝ) ^ (floatValue .f64 y : ℝ)) (libm.EXPT__REAL__LREAL x y)) := by
  obtain ⟨n1, n2⟩ := convert_nearest .f64 .f32 (.inr rfl) (.inl rfl) y hy
  constructor
  · refine ⟨_, n1, ?_, rfl, fun hf => h.powf x _ hx hf h0⟩
    have e : ∀ (f : FloatFmt) (x : Nat), SignBit f x ↔ f.neg x = true := fun f x => by
      unfold SignBit FloatFmt.neg; simp
    rw [e, e, n2]
  · rintro ⟨z, hz, hf, he⟩
    obtain ⟨e1, e2⟩ := FloatFmt.nearest_exact .f32 (.inl rfl) n1 z hz hf he
    have := h.powf x _ hx e1 h0
    rwa [e2] at this

end Verif
