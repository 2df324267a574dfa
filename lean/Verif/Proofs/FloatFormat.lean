import Mathlib.Tactic.Ring
import Mathlib.Tactic.FieldSimp
import Mathlib.Tactic.Linarith
import Mathlib.Tactic.Positivity
import Mathlib.Tactic.NormNum
import Verif.Proofs.FloatParse
/-
`core`'s float formatting against the specification.
-/
namespace Verif
open Spec FloatFmt

/-! ### Rounding to even -/

theorem rne_nearestEven (num den : Nat) (hd : 0 < den) : IsNearestEven ((num : ℚ) / den) (rne num den) := by
  have hd' : (0 : ℚ) < den := by exact_mod_cast hd
  have h1 := Nat.div_add_mod num den
  have h2 := Nat.mod_lt num hd
  unfold rne
  dsimp only
  generalize num / den = q at *
  generalize num % den = r at *
  have hv : (num : ℚ) / den = q + (r : ℚ) / den := by
    rw [← h1]; push_cast; field_simp
  rw [hv]
  have hr : 0 ≤ (r : ℚ) / den := by positivity
  split
  · rename_i h
    have : (r : ℚ) / den < 1 / 2 := by
      rw [div_lt_div_iff₀ hd' (by norm_num)]; exact_mod_cast (by omega : r * 2 < 1 * den)
    have e : (q : ℚ) + (r : ℚ) / den - q = (r : ℚ) / den := by ring
    refine ⟨?_, fun hh => ?_⟩
    · rw [e, abs_of_nonneg hr]; exact this.le
    · rw [e, abs_of_nonneg hr] at hh; linarith
  · split
    · rename_i h h'
      have l1 : 1 / 2 < (r : ℚ) / den := by
        rw [div_lt_div_iff₀ (by norm_num) hd']; exact_mod_cast (by omega : 1 * den < r * 2)
      have l2 : (r : ℚ) / den < 1 := by
        rw [div_lt_one hd']; exact_mod_cast h2
      have e : (q : ℚ) + (r : ℚ) / den - ((q + 1 : ℕ) : ℚ) = -(1 - (r : ℚ) / den) := by push_cast; ring
      refine ⟨?_, fun hh => ?_⟩
      · rw [e, abs_neg, abs_of_nonneg (by linarith)]; linarith
      · rw [e, abs_neg, abs_of_nonneg (by linarith)] at hh; linarith
    · rename_i h h'
      have l1 : (r : ℚ) / den = 1 / 2 := by
        rw [div_eq_div_iff (by linarith) (by norm_num)]; exact_mod_cast (by omega : r * 2 = 1 * den)
      rw [l1]
      rcases Nat.mod_two_eq_zero_or_one q with h0 | h0
      · rw [h0, Nat.add_zero]
        refine ⟨?_, fun _ => h0⟩
        rw [add_sub_cancel_left]; norm_num
      · rw [h0]
        refine ⟨?_, fun _ => by omega⟩
        have e : (q : ℚ) + 1 / 2 - ((q + 1 : ℕ) : ℚ) = -(1 / 2) := by push_cast; ring
        rw [e]; norm_num

/-- Rounding to even preserves the order (and so is a function). -/
theorem nearestEven_mono {v w : ℚ} {m n : Nat} (hm : IsNearestEven v m) (hn : IsNearestEven w n) (h : v ≤ w) : m ≤ n := by
  obtain ⟨a1, a2⟩ := hm
  obtain ⟨b1, b2⟩ := hn
  by_contra hc
  have hc' : (n : ℚ) + 1 ≤ m := by exact_mod_cast (by omega : n + 1 ≤ m)
  rw [abs_le] at a1 b1
  have e1 : v - m = -(1 / 2) := by linarith [a1.1, b1.2]
  have e2 : w - n = 1 / 2 := by linarith [a1.1, b1.2]
  have e3 : (m : ℚ) = n + 1 := by linarith [a1.1, b1.2]
  have e4 : m = n + 1 := by exact_mod_cast e3
  have := a2 (by rw [e1]; norm_num)
  have := b2 (by rw [e2]; norm_num)
  omega

theorem nearestEven_unique {v : ℚ} {m n : Nat} (hm : IsNearestEven v m) (hn : IsNearestEven v n) : m = n :=
  Nat.le_antisymm (nearestEven_mono hm hn le_rfl) (nearestEven_mono hn hm le_rfl)

theorem nearestEven_nat (n : Nat) : IsNearestEven (n : ℚ) n := by
  refine ⟨by rw [sub_self]; norm_num, fun h => ?_⟩
  rw [sub_self] at h; norm_num at h

/-! ### Digits -/

theorem decimal_length_bounds (n : Nat) (hn : 0 < n) :
    10 ^ ((decimal n).length - 1) ≤ n ∧ n < 10 ^ (decimal n).length ∧ 0 < (decimal n).length := by
  have hl : (decimal n).length = (Nat.digits 10 n).length := by
    unfold decimal; rw [if_neg (by omega)]; simp
  have hpos : 0 < (decimal n).length := List.length_pos_iff.2 (decimal_ne_nil n)
  refine ⟨?_, ?_, hpos⟩
  · by_contra hc
    rw [Nat.not_le, ← Nat.digits_length_le_iff (by omega)] at hc
    omega
  · rw [← Nat.digits_length_le_iff (by omega)]; omega

theorem fmtMicro_eq (n : Nat) : fmtMicro n = sixDecimals n := by
  unfold fmtMicro sixDecimals
  rw [fmtNat_eq, fmtZeros_eq]; rfl

theorem fmtSign_eq (f : FloatFmt) (x : Nat) : fmtSign f x = signText f x := by
  unfold fmtSign signText FloatFmt.neg SignBit
  simp only [decide_eq_true_eq]; rfl

theorem sixDecimals_length (n : Nat) : (sixDecimals n).length = (decimal (n / 10 ^ 6)).length + 7 := by
  unfold sixDecimals
  rw [List.length_append, List.length_append,
    padded_length 6 _ (by omega) (Nat.mod_lt _ (by norm_num))]
  rfl

theorem numeral_append {a b : List Nat} {m n : Nat} (h : Numeral 10 a m) (h' : Numeral 10 b n) :
    Numeral 10 (a ++ b) (m * 10 ^ b.length + n) := by
  obtain ⟨ds, h1, h2, rfl⟩ := h
  obtain ⟨es, h1', h2', rfl⟩ := h'
  refine ⟨ds ++ es, forall2_append h1 h1', by simp [h2], ?_⟩
  rw [List.reverse_append, Nat.ofDigits_append, List.length_reverse, h1'.length_eq]
  ring

theorem numeral_zeros (k : Nat) {b : List Nat} {n : Nat} (h : Numeral 10 b n) :
    Numeral 10 (List.replicate k 48 ++ b) n := by
  induction k with
  | zero => exact h
  | succ k ih =>
    rw [List.replicate_succ, List.cons_append]
    have h0 : Numeral 10 [48] 0 := ⟨[0], .cons ⟨by omega, .inl ⟨by omega, rfl⟩⟩ .nil, by simp, by simp⟩
    have := numeral_append h0 ih
    rwa [Nat.zero_mul, Nat.zero_add] at this

theorem numeral_padded (w n : Nat) : Numeral 10 (padded w n) n := numeral_zeros _ (numeral_decimal n)

/-- The value of a number with six decimals and an optional exponent. -/
theorem literal_micro (n : Nat) {ex : List Nat} {e : Int} (hex : ExponentPart ex e) :
    DecimalLiteral (sixDecimals n ++ ex) ((n : ℚ) / 10 ^ 6 * 10 ^ e) := by
  have hl : (padded 6 (n % 10 ^ 6)).length = 6 := padded_length 6 _ (by omega) (Nat.mod_lt _ (by norm_num))
  refine ⟨decimal (n / 10 ^ 6), ascii ".", padded 6 (n % 10 ^ 6), ex, n, e, rfl, .inl rfl, ?_, hex, ?_⟩
  · have := numeral_append (numeral_decimal (n / 10 ^ 6)) (numeral_padded 6 (n % 10 ^ 6))
    rwa [hl, Nat.div_add_mod'] at this
  · rw [hl, zpow_sub₀ (by norm_num)]
    have : ((10 : ℚ) ^ ((6 : ℕ) : ℤ)) = 10 ^ 6 := by norm_num
    rw [this]; ring

theorem literal_six (n : Nat) : DecimalLiteral (sixDecimals n) ((n : ℚ) / 10 ^ 6) := by
  have := literal_micro n (ex := []) (e := 0) (.inl ⟨rfl, rfl⟩)
  rwa [List.append_nil, zpow_zero, mul_one] at this

theorem literal_scientific (n k : Nat) : DecimalLiteral (scientific n k) ((n : ℚ) / 10 ^ 6 * 10 ^ k) := by
  have := literal_micro n (ex := ascii "e" ++ decimal k) (e := k)
    (.inr ⟨"e", by simp, ("", 1), by simp [signs], decimal k, k, by simp [ascii], numeral_decimal k, by simp⟩)
  rw [zpow_natCast] at this
  unfold scientific
  rwa [List.append_assoc]

/-! ### `floor() < limit` -/

theorem floorLt_iff (f : FloatFmt) (h : 2 ≤ f.ebits) (x : Nat) (b : Int) :
    floorLt f x b = true ↔ ¬ IsNaN f x ∧ floatValue f x < b := by
  have hQ : (0 : ℚ) < 2 ^ f.qexp := by positivity
  have hQ' : (0 : Int) < (2 ^ f.qexp : Nat) := by exact_mod_cast Nat.two_pow_pos _
  unfold floorLt
  rw [Bool.and_eq_true, Bool.not_eq_true', not_isNaN_iff, decide_eq_true_eq, Int.ediv_lt_iff_lt_mul hQ',
    floatValue_val f h, div_lt_iff₀ hQ]
  apply and_congr_right; intro _
  constructor
  · intro hh
    have : (f.val x : ℚ) < ((b * ((2 ^ f.qexp : Nat) : Int) : Int) : ℚ) := by exact_mod_cast hh
    push_cast at this; exact this
  · intro hh
    have : (f.val x : ℚ) < ((b * ((2 ^ f.qexp : Nat) : Int) : Int) : ℚ) := by push_cast; exact hh
    exact_mod_cast this

theorem abs_floatValue (f : FloatFmt) (h : 2 ≤ f.ebits) (x : Nat) : |floatValue f x| = (f.mag x : ℚ) / 2 ^ f.qexp := by
  have hQ : (0 : ℚ) ≤ (f.mag x : ℚ) / 2 ^ f.qexp := by positivity
  rw [f.floatValue_eq h]
  split
  · rw [abs_neg, abs_of_nonneg hQ]
  · exact abs_of_nonneg hQ

/-! ### The two formats -/

theorem fmtFixed_finite (f : FloatFmt) (h : 2 ≤ f.ebits) (x : Nat) (hx : IsFinite f x) :
    ∃ n, IsNearestEven (|floatValue f x| * 10 ^ 6) n ∧ fmtFixed f x = signText f x ++ sixDecimals n := by
  refine ⟨rne (f.mag x * 1000000) (2 ^ f.qexp), ?_, ?_⟩
  · have := rne_nearestEven (f.mag x * 1000000) (2 ^ f.qexp) (Nat.two_pow_pos _)
    have e : |floatValue f x| * 10 ^ 6 = ((f.mag x * 1000000 : Nat) : ℚ) / ((2 ^ f.qexp : Nat) : ℚ) := by
      rw [abs_floatValue f h]; push_cast; ring
    rw [e]; exact this
  · unfold fmtFixed
    rw [hx.nan, hx.inf, fmtSign_eq, fmtMicro_eq]; rfl

theorem fmtExp_finite (f : FloatFmt) (h : 2 ≤ f.ebits) (x : Nat) (hx : IsFinite f x) (hv : 10 ^ 6 ≤ floatValue f x) :
    ∃ k m n e : ℕ, (10 : ℚ) ^ k ≤ floatValue f x ∧ floatValue f x < 10 ^ (k + 1) ∧
      IsNearestEven (floatValue f x * 10 ^ 6 / 10 ^ k) m ∧
      10 ^ 6 ≤ n ∧ n < 10 ^ 7 ∧ n * 10 ^ e = m * 10 ^ k ∧ fmtExp f x = scientific n e := by
  have hQ : (0 : ℚ) < 2 ^ f.qexp := by positivity
  have hQn : 0 < 2 ^ f.qexp := Nat.two_pow_pos _
  have hvp : 0 ≤ floatValue f x := le_trans (by norm_num) hv
  have hval : floatValue f x = (f.mag x : ℚ) / 2 ^ f.qexp := by rw [← abs_floatValue f h, abs_of_nonneg hvp]
  have hneg : f.neg x = false := by
    cases hn : f.neg x with
    | false => rfl
    | true =>
      rw [f.floatValue_eq h, hn] at hv
      have : (0 : ℚ) ≤ (f.mag x : ℚ) / 2 ^ f.qexp := by positivity
      have h6 : (0 : ℚ) < 10 ^ 6 := by norm_num
      simp only [if_true] at hv
      linarith
  have hI : 10 ^ 6 ≤ f.mag x / 2 ^ f.qexp := by
    rw [Nat.le_div_iff_mul_le hQn]
    rw [hval, le_div_iff₀ hQ] at hv
    exact_mod_cast hv
  obtain ⟨b1, b2, b3⟩ := decimal_length_bounds (f.mag x / 2 ^ f.qexp) (by omega)
  have hk : ∃ k, (decimal (f.mag x / 2 ^ f.qexp)).length = k + 1 := ⟨_, (Nat.sub_add_cancel b3).symm⟩
  obtain ⟨k, hk⟩ := hk
  rw [hk, Nat.add_sub_cancel] at b1
  rw [hk] at b2
  have hk6 : 6 ≤ k := by
    by_contra hc
    have : 10 ^ (k + 1) ≤ 10 ^ 6 := Nat.pow_le_pow_right (by omega) (by omega)
    omega
  have c1 : (10 : ℚ) ^ k ≤ floatValue f x := by
    rw [Nat.le_div_iff_mul_le hQn] at b1
    rw [hval, le_div_iff₀ hQ]; exact_mod_cast b1
  have c2 : floatValue f x < 10 ^ (k + 1) := by
    rw [Nat.div_lt_iff_lt_mul hQn] at b2
    rw [hval, div_lt_iff₀ hQ]; exact_mod_cast b2
  have hden : 0 < 2 ^ f.qexp * 10 ^ (k - 6) := Nat.mul_pos hQn (Nat.pow_pos (by omega))
  have hm := rne_nearestEven (f.mag x) (2 ^ f.qexp * 10 ^ (k - 6)) hden
  have hpk : (10 : ℚ) ^ k = 10 ^ (k - 6) * 10 ^ 6 := by rw [← pow_add]; congr 1; omega
  have hpp : (0 : ℚ) < 10 ^ (k - 6) := by positivity
  have em : floatValue f x * 10 ^ 6 / 10 ^ k = (f.mag x : ℚ) / ((2 ^ f.qexp * 10 ^ (k - 6) : Nat) : ℚ) := by
    rw [hval, hpk]; push_cast; field_simp
  rw [← em] at hm
  have hlo : 10 ^ 6 ≤ rne (f.mag x) (2 ^ f.qexp * 10 ^ (k - 6)) := by
    refine nearestEven_mono (v := ((10 ^ 6 : ℕ) : ℚ)) (nearestEven_nat _) hm ?_
    rw [le_div_iff₀ (by positivity)]
    push_cast
    have h6 : (0 : ℚ) < 10 ^ 6 := by norm_num
    nlinarith
  have hhi : rne (f.mag x) (2 ^ f.qexp * 10 ^ (k - 6)) ≤ 10 ^ 7 := by
    refine nearestEven_mono hm (w := ((10 ^ 7 : ℕ) : ℚ)) (nearestEven_nat _) ?_
    rw [div_le_iff₀ (by positivity)]
    push_cast
    have e7 : (10000000 : ℚ) * 10 ^ k = 10 ^ 6 * 10 ^ (k + 1) := by rw [pow_succ 10 k]; ring
    rw [e7, mul_comm]
    exact mul_le_mul_of_nonneg_left c2.le (by positivity)
  have hfe : fmtExp f x = if rne (f.mag x) (2 ^ f.qexp * 10 ^ (k - 6)) < 10000000 then
      scientific (rne (f.mag x) (2 ^ f.qexp * 10 ^ (k - 6))) k else scientific 1000000 (k + 1) := by
    unfold fmtExp
    rw [hx.nan, hx.inf]
    simp only [fmtNat_eq, hk, Nat.add_sub_cancel, fmtMicro_eq, fmtSign, hneg, Bool.false_eq_true, if_false,
      List.nil_append]
    rfl
  generalize rne (f.mag x) (2 ^ f.qexp * 10 ^ (k - 6)) = m at *
  rcases Nat.lt_or_ge m 10000000 with hlt | hge
  · rw [if_pos hlt] at hfe
    exact ⟨k, m, m, k, c1, c2, hm, hlo, hlt, rfl, hfe⟩
  · rw [if_neg (by omega)] at hfe
    have : m = 10 ^ 7 := by norm_num at hhi ⊢; omega
    refine ⟨k, m, 1000000, k + 1, c1, c2, hm, by norm_num, by norm_num, ?_, hfe⟩
    rw [this, pow_succ 10 k]; ring

end Verif
