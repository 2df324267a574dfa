import Verif.Proofs.FloatFormat
import Verif.Proofs.FloatSpacing
import Verif.Props.StFloat
import Verif.Props.IntText
/-
C83-C86: REAL and LREAL as text.
-/
namespace Verif
open Spec FloatFmt

/-! ### C83: the text -/

private theorem writeBuf_text (dest t : List Nat) (hd : 81 ≤ dest.length) :
    writeBuf (some dest) t = writeText dest t := by
  unfold writeBuf writeText DEFAULT_STRING_LEN
  dsimp only
  rw [if_neg (by omega)]
  by_cases h : t.length ≤ 81
  · rw [if_neg (by omega), if_pos h]
  · rw [if_pos (by omega), if_neg h]

private theorem fixed_special (f : FloatFmt) (x : Nat) : (IsNaN f x → fmtFixed f x = ascii "NaN" ∧ fmtExp f x = ascii "NaN") ∧
    (¬ IsNaN f x → ¬ IsFinite f x → fmtFixed f x = signText f x ++ ascii "inf" ∧ fmtExp f x = signText f x ++ ascii "inf") := by
  constructor
  · intro h
    rw [isNaN_iff] at h
    unfold fmtFixed fmtExp
    rw [if_pos h, if_pos h]; exact ⟨rfl, rfl⟩
  · intro h h'
    rw [not_isNaN_iff] at h
    rw [isFinite_iff] at h'
    have hi : f.is_infinite x = true := by
      cases hi : f.is_infinite x with
      | true => rfl
      | false => exact absurd ⟨h, hi⟩ h'
    unfold fmtFixed fmtExp
    rw [h, hi, fmtSign_eq]; exact ⟨rfl, rfl⟩

/-- Both formats with a limit. -/
private theorem text_of (f : FloatFmt) (h : 2 ≤ f.ebits) (limit : Int) (hl : 10 ^ 6 ≤ limit) (x : Nat) :
    FloatText f limit x (if floorLt f x limit then fmtFixed f x else fmtExp f x) := by
  have hl' : (10 : ℚ) ^ 6 ≤ limit := by exact_mod_cast hl
  obtain ⟨s1, s2⟩ := fixed_special f x
  refine ⟨?_, ?_, ?_, ?_⟩
  · intro hn; obtain ⟨a, b⟩ := s1 hn; split <;> assumption
  · intro hn hf; obtain ⟨a, b⟩ := s2 hn hf; split <;> assumption
  · intro hf hv
    rw [if_pos ((floorLt_iff f h x limit).2 ⟨(not_isNaN_iff f x).2 hf.nan, hv⟩)]
    exact fmtFixed_finite f h x hf
  · intro hf hv
    rw [if_neg (fun hc => absurd ((floorLt_iff f h x limit).1 hc).2 (not_lt.2 hv))]
    exact fmtExp_finite f h x hf (le_trans hl' hv)

/-- **C83.** LREAL_TO_STRING writes the value with six decimals, or from `10^14` on with seven significant digits in
scientific notation, correctly rounded (ties to even); see `FloatText`. -/
theorem C83_lreal (x : Nat) : ∃ t, FloatText .f64 (10 ^ 14) x t ∧
    ∀ dest, 81 ≤ dest.length → LREAL_TO_STRING_EXT x (some dest) = writeText dest t := by
  have h := text_of .f64 (by decide) 100000000000000 (by norm_num) x
  have e : ((100000000000000 : Int) : ℚ) = 10 ^ 14 := by norm_num
  rw [e] at h
  refine ⟨_, h, fun dest hd => ?_⟩
  rw [← writeBuf_text _ _ hd]
  unfold LREAL_TO_STRING_EXT
  split <;> rfl

/-- **C83**, REAL_TO_STRING_EXT (which takes an LREAL) changes to scientific notation at a million. -/
theorem C83_real_ext (x : Nat) : ∃ t, FloatText .f64 (10 ^ 6) x t ∧
    ∀ dest, 81 ≤ dest.length → REAL_TO_STRING_EXT x (some dest) = writeText dest t := by
  have h := text_of .f64 (by decide) 1000000 (by norm_num) x
  have e : ((1000000 : Int) : ℚ) = 10 ^ 6 := by norm_num
  rw [e] at h
  refine ⟨_, h, fun dest hd => ?_⟩
  rw [← writeBuf_text _ _ hd]
  unfold REAL_TO_STRING_EXT
  split <;> rfl

/-- Sign, NaN, finiteness and value survive the extension of a REAL. -/
private theorem extend_text (limit : ℚ) (x : Nat) (hx : x < 2 ^ 32) (t : List Nat)
    (h : FloatText .f64 limit (FloatFmt.f32.convert .f64 x) t) : FloatText .f32 limit x t := by
  have hn : FloatFmt.f32.is_nan x = true → IsNaN .f64 (FloatFmt.f32.convert .f64 x) := by
    intro h1
    obtain ⟨-, -, s3, -⟩ := FloatFmt.f64.withSign_spec (FloatFmt.f32.neg x) FloatFmt.f64.nan (by decide +kernel)
    rw [isNaN_iff]
    unfold convert; rw [if_pos h1, s3]; decide +kernel
  have hi : FloatFmt.f32.is_nan x = false → FloatFmt.f32.is_infinite x = true →
      ¬ IsNaN .f64 (FloatFmt.f32.convert .f64 x) ∧ ¬ IsFinite .f64 (FloatFmt.f32.convert .f64 x) ∧
      FloatFmt.f64.neg (FloatFmt.f32.convert .f64 x) = FloatFmt.f32.neg x := by
    intro h1 h2
    obtain ⟨s1, -, s3, s4, -⟩ := FloatFmt.f64.withSign_spec (FloatFmt.f32.neg x) FloatFmt.f64.inf (by decide +kernel)
    have e : FloatFmt.f32.convert .f64 x = FloatFmt.f64.withSign (FloatFmt.f32.neg x) FloatFmt.f64.inf := by
      unfold convert; rw [h1, h2, if_neg (by decide), if_pos rfl]
    have i := FloatFmt.f64.inf_spec
    rw [e, not_isNaN_iff, isFinite_iff, s3, s4, i.1, i.2]
    exact ⟨rfl, by simp, s1⟩
  have sign : FloatFmt.f64.neg (FloatFmt.f32.convert .f64 x) = FloatFmt.f32.neg x →
      signText .f64 (FloatFmt.f32.convert .f64 x) = signText .f32 x := by
    intro h
    rw [← fmtSign_eq, ← fmtSign_eq]; unfold fmtSign; rw [h]
  obtain ⟨t1, t2, t3, t4⟩ := h
  refine ⟨?_, ?_, ?_, ?_⟩
  · intro h; rw [isNaN_iff] at h; exact t1 (hn h)
  · intro h h'
    rw [not_isNaN_iff] at h
    rw [isFinite_iff] at h'
    have h2 : FloatFmt.f32.is_infinite x = true := by
      cases h2 : FloatFmt.f32.is_infinite x with
      | true => rfl
      | false => exact absurd ⟨h, h2⟩ h'
    obtain ⟨a, b, c⟩ := hi h h2
    rw [t2 a b, sign c]
  · intro h hv
    obtain ⟨e1, -, e3⟩ := extend_exact x hx h
    rw [← sign e3, ← extend_value x hx h]
    rw [← extend_value x hx h] at hv
    exact t3 e1 hv
  · intro h hv
    obtain ⟨e1, -, e3⟩ := extend_exact x hx h
    rw [← extend_value x hx h]
    rw [← extend_value x hx h] at hv
    exact t4 e1 hv

/-- **C83**, REAL_TO_STRING: the text of the REAL, with the LREAL limit of `10^14`. -/
theorem C83_real (x : Nat) (hx : x < 2 ^ 32) : ∃ t, FloatText .f32 (10 ^ 14) x t ∧
    ∀ dest, 81 ≤ dest.length → REAL_TO_STRING x (some dest) = writeText dest t := by
  obtain ⟨t, h1, h2⟩ := C83_lreal (FloatFmt.f32.convert .f64 x)
  exact ⟨t, extend_text _ x hx t h1, h2⟩

/-- `FloatText` leaves no choice. -/
theorem C83_unique (f : FloatFmt) (limit : ℚ) (x : Nat) (t t' : List Nat) (h : FloatText f limit x t)
    (h' : FloatText f limit x t') : t = t' := by
  obtain ⟨a1, a2, a3, a4⟩ := h
  obtain ⟨b1, b2, b3, b4⟩ := h'
  by_cases hn : IsNaN f x
  · rw [a1 hn, b1 hn]
  by_cases hf : IsFinite f x
  · rcases lt_or_ge (floatValue f x) limit with hv | hv
    · obtain ⟨n, hn, rfl⟩ := a3 hf hv
      obtain ⟨n', hn', rfl⟩ := b3 hf hv
      rw [nearestEven_unique hn hn']
    · obtain ⟨k, m, n, e, c1, c2, c3, c4, c5, c6, rfl⟩ := a4 hf hv
      obtain ⟨k', m', n', e', d1, d2, d3, d4, d5, d6, rfl⟩ := b4 hf hv
      have pow_mono : ∀ i j : ℕ, (10 : ℚ) ^ i < 10 ^ (j + 1) → i ≤ j := by
        intro i j h
        have := (pow_lt_pow_iff_right₀ (by norm_num : (1 : ℚ) < 10)).1 h
        omega
      have hk : k = k' :=
        Nat.le_antisymm (pow_mono _ _ (lt_of_le_of_lt c1 d2)) (pow_mono _ _ (lt_of_le_of_lt d1 c2))
      subst hk
      rw [nearestEven_unique c3 d3, ← d6] at c6
      have key : ∀ n n' e e' : ℕ, n < 10 ^ 7 → 10 ^ 6 ≤ n' → n * 10 ^ e = n' * 10 ^ e' → e' ≤ e := by
        intro n n' e e' h1 h2 h3
        by_contra hc
        have : 10 ^ (e + 1) ≤ 10 ^ e' := Nat.pow_le_pow_right (by omega) (by omega)
        have h4 : 10 ^ 6 * 10 ^ (e + 1) ≤ n' * 10 ^ e' := Nat.mul_le_mul h2 this
        have h5 : n * 10 ^ e < 10 ^ 7 * 10 ^ e := Nat.mul_lt_mul_of_pos_right h1 (Nat.pow_pos (by omega))
        rw [Nat.pow_succ] at h4
        have : 10 ^ 6 * (10 ^ e * 10) = 10 ^ 7 * 10 ^ e := by ring
        omega
      have he : e = e' := Nat.le_antisymm (key _ _ _ _ d5 c4 c6.symm) (key _ _ _ _ c5 d4 c6)
      subst he
      rw [Nat.eq_of_mul_eq_mul_right (Nat.pow_pos (by omega)) c6]
  · rw [a2 hn hf, b2 hn hf]

/-- 1.5; -1/128, a tie that is rounded to the even digit; `10^14`; the largest LREAL; infinities and NaN. -/
example : LREAL_TO_STRING_EXT 0x3FF8000000000000 (some (List.replicate 81 0)) =
    .ok (ascii "1.500000" ++ List.replicate 73 0) := by decide +kernel
example : LREAL_TO_STRING_EXT 0xBF80000000000000 (some (List.replicate 81 0)) =
    .ok (ascii "-0.007812" ++ List.replicate 72 0) := by decide +kernel
example : LREAL_TO_STRING_EXT 0x42D6BCC41E900000 (some (List.replicate 81 0)) =
    .ok (ascii "1.000000e14" ++ List.replicate 70 0) := by decide +kernel
example : LREAL_TO_STRING_EXT 0x7FEFFFFFFFFFFFFF (some (List.replicate 81 0)) =
    .ok (ascii "1.797693e308" ++ List.replicate 69 0) := by decide +kernel
example : LREAL_TO_STRING_EXT 0xFFF0000000000000 (some (List.replicate 81 0)) =
    .ok (ascii "-inf" ++ List.replicate 77 0) := by decide +kernel
example : LREAL_TO_STRING_EXT 0xFFF8000000000000 (some (List.replicate 81 0)) =
    .ok (ascii "NaN" ++ List.replicate 78 0) := by decide +kernel
example : REAL_TO_STRING 0x3DCCCCCD (some (List.replicate 81 0)) =
    .ok (ascii "0.100000" ++ List.replicate 73 0) := by decide +kernel
example : REAL_TO_STRING_EXT 0x419D6F3454000000 (some (List.replicate 81 0)) =
    .ok (ascii "1.234568e8" ++ List.replicate 71 0) := by decide +kernel

/-! ### C84: accuracy and order of the numbers shown -/

private theorem sign_value (f : FloatFmt) (h : 2 ≤ f.ebits) (x : Nat) :
    floatValue f x = (if SignBit f x then -1 else 1) * |floatValue f x| := by
  rw [abs_floatValue f h, f.floatValue_eq h]
  unfold FloatFmt.neg SignBit
  by_cases hs : x / 2 ^ (f.mbits + f.ebits) % 2 = 1
  · simp [hs]
  · simp [hs]

private theorem signed_text (f : FloatFmt) (x : Nat) {body : List Nat} {w : ℚ} (h : DecimalLiteral body w) :
    SignedDecimal (signText f x ++ body) ((if SignBit f x then -1 else 1) * w) := by
  unfold signText
  split
  · exact ⟨("-", -1), by simp [signs], body, w, rfl, h, by norm_num⟩
  · exact ⟨("", 1), by simp [signs], body, w, rfl, h, by norm_num⟩

/-- The number that a text of a finite float shows. -/
private theorem text_shows (f : FloatFmt) (limit : ℚ) (x : Nat) (t : List Nat)
    (ht : FloatText f limit x t) (hx : IsFinite f x) :
    (floatValue f x < limit → ∃ n, IsNearestEven (|floatValue f x| * 10 ^ 6) n ∧
      SignedDecimal t ((if SignBit f x then -1 else 1) * ((n : ℚ) / 10 ^ 6))) ∧
    (limit ≤ floatValue f x → ∃ k m : ℕ, (10 : ℚ) ^ k ≤ floatValue f x ∧ floatValue f x < 10 ^ (k + 1) ∧
      IsNearestEven (floatValue f x * 10 ^ 6 / 10 ^ k) m ∧ SignedDecimal t ((m : ℚ) / 10 ^ 6 * 10 ^ k)) := by
  obtain ⟨-, -, t3, t4⟩ := ht
  constructor
  · intro hv
    obtain ⟨n, hn, rfl⟩ := t3 hx hv
    exact ⟨n, hn, signed_text f x (literal_six n)⟩
  · intro hv
    obtain ⟨k, m, n, e, c1, c2, c3, -, -, c6, rfl⟩ := t4 hx hv
    refine ⟨k, m, c1, c2, c3, ⟨("", 1), by simp [signs], _, _, rfl, literal_scientific n e, ?_⟩⟩
    have : ((n : ℚ) * 10 ^ e) = m * 10 ^ k := by exact_mod_cast c6
    have e1 : (n : ℚ) / 10 ^ 6 * 10 ^ e = n * 10 ^ e / 10 ^ 6 := by ring
    rw [e1, this]; push_cast; ring

/-- The number shown differs from the value by at most half a unit of the sixth decimal, from the limit on by
at most half a millionth of the value. -/
theorem text_accuracy (f : FloatFmt) (hf : IsFloatTy f) (limit : ℚ) (x : Nat) (t : List Nat)
    (ht : FloatText f limit x t) (hx : IsFinite f x) :
    ∃ q, SignedDecimal t q ∧ (floatValue f x < limit → |floatValue f x - q| ≤ 1 / 2 / 10 ^ 6) ∧
      (limit ≤ floatValue f x → |floatValue f x - q| ≤ 1 / 2 / 10 ^ 6 * floatValue f x) := by
  have h := ebits_of hf
  obtain ⟨t1, t2⟩ := text_shows f limit x t ht hx
  rcases lt_or_ge (floatValue f x) limit with hv | hv
  · obtain ⟨n, ⟨hn, -⟩, hs⟩ := t1 hv
    refine ⟨_, hs, fun _ => ?_, fun h' => absurd hv (not_lt.2 h')⟩
    have e : |floatValue f x| * 10 ^ 6 - n = 10 ^ 6 * (|floatValue f x| - n / 10 ^ 6) := by ring
    rw [e, abs_mul, abs_of_pos (by norm_num : (0 : ℚ) < 10 ^ 6)] at hn
    have hb : |(|floatValue f x| - (n : ℚ) / 10 ^ 6)| ≤ 1 / 2 / 10 ^ 6 := by
      rw [le_div_iff₀ (by norm_num)]; linarith
    have e2 : floatValue f x - (if SignBit f x then -1 else 1) * ((n : ℚ) / 10 ^ 6) =
        (if SignBit f x then -1 else 1) * (|floatValue f x| - (n : ℚ) / 10 ^ 6) := by
      rw [mul_sub, ← sign_value f h]
    rw [e2]
    split
    · rw [neg_one_mul, abs_neg]; exact hb
    · rw [one_mul]; exact hb
  · obtain ⟨k, m, c1, c2, ⟨c3, -⟩, hs⟩ := t2 hv
    refine ⟨_, hs, fun h' => absurd h' (not_lt.2 hv), fun _ => ?_⟩
    have hp : (0 : ℚ) < 10 ^ k := by positivity
    have e : floatValue f x - (m : ℚ) / 10 ^ 6 * 10 ^ k = (floatValue f x * 10 ^ 6 / 10 ^ k - m) * (10 ^ k / 10 ^ 6) := by
      field_simp
    rw [e, abs_mul, abs_of_pos (by positivity : (0 : ℚ) < 10 ^ k / 10 ^ 6)]
    calc |floatValue f x * 10 ^ 6 / 10 ^ k - m| * (10 ^ k / 10 ^ 6)
        ≤ 1 / 2 * (10 ^ k / 10 ^ 6) := mul_le_mul_of_nonneg_right c3 (by positivity)
      _ = 1 / 2 / 10 ^ 6 * 10 ^ k := by ring
      _ ≤ 1 / 2 / 10 ^ 6 * floatValue f x := mul_le_mul_of_nonneg_left c1 (by positivity)

private theorem nearest_div_le {v w : ℚ} {m n : Nat} (hm : IsNearestEven v m) (hn : IsNearestEven w n) (h : v ≤ w) :
    (m : ℚ) / 10 ^ 6 ≤ n / 10 ^ 6 := by
  have : (m : ℚ) ≤ n := by exact_mod_cast nearestEven_mono hm hn h
  exact div_le_div_of_nonneg_right this (by norm_num)

/-- The seven digits are between `10^6` and `10^7`. -/
private theorem seven_digits {v : ℚ} {k m : Nat} (h1 : (10 : ℚ) ^ k ≤ v) (h2 : v < 10 ^ (k + 1))
    (hm : IsNearestEven (v * 10 ^ 6 / 10 ^ k) m) :
    (10 : ℚ) ^ k ≤ (m : ℚ) / 10 ^ 6 * 10 ^ k ∧ (m : ℚ) / 10 ^ 6 * 10 ^ k ≤ 10 ^ (k + 1) := by
  have hp : (0 : ℚ) < 10 ^ k := by positivity
  have lo := nearest_div_le (nearestEven_nat (10 ^ 6)) hm (by
    rw [le_div_iff₀ hp]; push_cast; nlinarith)
  have hi := nearest_div_le hm (nearestEven_nat (10 ^ 7)) (by
    rw [div_le_iff₀ hp]; push_cast; rw [pow_succ] at h2; nlinarith)
  push_cast at lo hi
  have lo' : (1 : ℚ) ≤ (m : ℚ) / 10 ^ 6 := by linarith
  have hi' : (m : ℚ) / 10 ^ 6 ≤ 10 := by linarith
  generalize (m : ℚ) / 10 ^ 6 = q at lo' hi' ⊢
  constructor
  · nlinarith
  · rw [pow_succ]; nlinarith

/-- Of two finite floats the larger one never shows a smaller number. -/
theorem text_monotone (f : FloatFmt) (hf : IsFloatTy f) (L : Nat) (x y : Nat) (t u : List Nat)
    (ht : FloatText f (10 ^ L) x t) (hu : FloatText f (10 ^ L) y u) (hx : IsFinite f x) (hy : IsFinite f y)
    (hxy : floatValue f x ≤ floatValue f y) :
    ∃ p q, SignedDecimal t p ∧ SignedDecimal u q ∧ p ≤ q := by
  have h := ebits_of hf
  obtain ⟨t1, t2⟩ := text_shows f _ x t ht hx
  obtain ⟨u1, u2⟩ := text_shows f _ y u hu hy
  have sx := sign_value f h x
  have sy := sign_value f h y
  have ax := abs_nonneg (floatValue f x)
  have ay := abs_nonneg (floatValue f y)
  rcases lt_or_ge (floatValue f x) (10 ^ L) with hv | hv
  · obtain ⟨n, hn, hs⟩ := t1 hv
    have n0 : (0 : ℚ) ≤ (n : ℚ) / 10 ^ 6 := by positivity
    rcases lt_or_ge (floatValue f y) (10 ^ L) with hw | hw
    · obtain ⟨n', hn', hs'⟩ := u1 hw
      have n0' : (0 : ℚ) ≤ (n' : ℚ) / 10 ^ 6 := by positivity
      refine ⟨_, _, hs, hs', ?_⟩
      by_cases bx : SignBit f x <;> by_cases bY : SignBit f y
      · rw [if_pos bx] at sx ⊢
        rw [if_pos bY] at sy ⊢
        have := nearest_div_le hn' hn (by nlinarith)
        linarith
      · rw [if_pos bx, if_neg bY]; linarith
      · rw [if_neg bx] at sx ⊢
        rw [if_pos bY] at sy ⊢
        have z1 : |floatValue f x| = 0 := by linarith
        have z2 : |floatValue f y| = 0 := by linarith
        rw [z1, zero_mul] at hn
        rw [z2, zero_mul] at hn'
        have e1 := nearestEven_unique hn (by simpa using nearestEven_nat 0)
        have e2 := nearestEven_unique hn' (by simpa using nearestEven_nat 0)
        rw [e1, e2]; norm_num
      · rw [if_neg bx] at sx ⊢
        rw [if_neg bY] at sy ⊢
        have := nearest_div_le hn hn' (by nlinarith)
        linarith
    · obtain ⟨k, m, c1, c2, c3, hs'⟩ := u2 hw
      refine ⟨_, _, hs, hs', ?_⟩
      have hk : L ≤ k := by
        have := (pow_lt_pow_iff_right₀ (by norm_num : (1 : ℚ) < 10)).1 (lt_of_le_of_lt hw c2)
        omega
      have hq := (seven_digits c1 c2 c3).1
      have hLk : (10 : ℚ) ^ L ≤ 10 ^ k := pow_le_pow_right₀ (by norm_num) hk
      have hL0 : (0 : ℚ) < 10 ^ L := by positivity
      by_cases bx : SignBit f x
      · rw [if_pos bx]; linarith
      · rw [if_neg bx] at sx ⊢
        have := nearest_div_le hn (nearestEven_nat (10 ^ L * 10 ^ 6)) (by push_cast; nlinarith)
        push_cast at this
        linarith
  · have hw := le_trans hv hxy
    obtain ⟨k, m, c1, c2, c3, hs⟩ := t2 hv
    obtain ⟨k', m', d1, d2, d3, hs'⟩ := u2 hw
    refine ⟨_, _, hs, hs', ?_⟩
    rcases Nat.lt_trichotomy k k' with hk | hk | hk
    · have h1 := (seven_digits c1 c2 c3).2
      have h2 := (seven_digits d1 d2 d3).1
      have : (10 : ℚ) ^ (k + 1) ≤ 10 ^ k' := pow_le_pow_right₀ (by norm_num) (by omega)
      linarith
    · subst hk
      have hp : (0 : ℚ) < 10 ^ k := by positivity
      have := nearest_div_le c3 d3 (by
        apply div_le_div_of_nonneg_right _ hp.le
        exact mul_le_mul_of_nonneg_right hxy (by norm_num))
      exact mul_le_mul_of_nonneg_right this hp.le
    · exfalso
      have : (10 : ℚ) ^ (k' + 1) ≤ 10 ^ k := pow_le_pow_right₀ (by norm_num) (by omega)
      linarith

/-! ### C85: texts that do not fit -/

private theorem abs_lt_inf (f : FloatFmt) (hf : IsFloatTy f) (x : Nat) (hx : x < 2 ^ (1 + f.mbits + f.ebits))
    (hfin : IsFinite f x) : |floatValue f x| < 2 ^ 1024 ∧ (f = .f32 → |floatValue f x| < 2 ^ 128) := by
  obtain ⟨a1, a2⟩ := finite_abs f x hx hfin
  have hm := mag_lt_inf f _ a1
  rw [← a2] at hm
  have hn : f.neg f.inf = false := by unfold FloatFmt.neg; rw [Nat.div_eq_of_lt f.inf_lt']; rfl
  have hlt : |floatValue f x| < floatValue f f.inf := by
    rw [abs_floatValue f (ebits_of hf), f.floatValue_eq (ebits_of hf), hn]
    simp only [Bool.false_eq_true, if_false]
    rw [div_lt_div_iff_of_pos_right (by positivity)]
    exact_mod_cast hm
  obtain ⟨i32, i64⟩ := floatValue_inf
  rcases hf with rfl | rfl
  · rw [i32] at hlt
    exact ⟨lt_trans hlt (pow_lt_pow_right₀ (by norm_num) (by norm_num)), fun _ => hlt⟩
  · rw [i64] at hlt
    exact ⟨hlt, fun h => absurd h (by decide)⟩

/-- From `2^53` on every LREAL is an integer. -/
private theorem large_integer (x : Nat) (hx : x < 2 ^ 64) (hfin : IsFinite .f64 x) (h : 2 ^ 53 ≤ |floatValue .f64 x|) :
    ∃ N : ℕ, |floatValue .f64 x| = N := by
  obtain ⟨a1, a2⟩ := finite_abs .f64 x hx hfin
  have hQ : (0 : ℚ) < 2 ^ FloatFmt.f64.qexp := by positivity
  rw [abs_floatValue .f64 (by decide)] at h ⊢
  rw [le_div_iff₀ hQ, ← pow_add] at h
  have h' : 2 ^ (FloatFmt.f64.qexp + 53) ≤ FloatFmt.f64.mag (FloatFmt.f64.abs x) := by
    rw [← a2, Nat.add_comm]; exact_mod_cast h
  have hd := FloatFmt.f64.mag_dvd _ _ (FloatFmt.f64.abs_lt x) h'
  have hd' : 2 ^ FloatFmt.f64.qexp ∣ FloatFmt.f64.mag x := by
    rw [a2]
    exact dvd_trans (Nat.pow_dvd_pow 2 (by show FloatFmt.f64.qexp ≤ FloatFmt.f64.qexp + 53 - 52; omega)) hd
  obtain ⟨N, hN⟩ := hd'
  refine ⟨N, ?_⟩
  rw [hN]; push_cast; field_simp

private theorem six_short (n : Nat) (k : Nat) (h : n < 10 ^ (k + 1) * 10 ^ 6) : (sixDecimals n).length ≤ k + 8 := by
  rw [sixDecimals_length]
  have := decimal_length_le (n / 10 ^ 6) (k + 1) (by omega) (Nat.div_lt_of_lt_mul (by rw [Nat.mul_comm]; exact h))
  omega

private theorem six_long (n : Nat) (k : Nat) (h : 10 ^ k * 10 ^ 6 ≤ n) : k + 8 ≤ (sixDecimals n).length := by
  rw [sixDecimals_length]
  have h1 : 10 ^ k ≤ n / 10 ^ 6 := (Nat.le_div_iff_mul_le (by norm_num)).2 h
  have h2 : 0 < 10 ^ k := Nat.pow_pos (by omega)
  obtain ⟨-, b2, -⟩ := decimal_length_bounds (n / 10 ^ 6) (by omega)
  have := (Nat.pow_lt_pow_iff_right (by omega : 1 < 10)).1 (lt_of_le_of_lt h1 b2)
  omega

private theorem signText_length (f : FloatFmt) (x : Nat) : (signText f x).length = if SignBit f x then 1 else 0 := by
  unfold signText; split <;> rfl

/-- A text in scientific notation is short. -/
private theorem scientific_short (v : ℚ) (k m n e : Nat) (hv : v < 2 ^ 1024) (h1 : (10 : ℚ) ^ k ≤ v)
    (h2 : v < 10 ^ (k + 1)) (hm : IsNearestEven (v * 10 ^ 6 / 10 ^ k) m) (hn : 10 ^ 6 ≤ n) (hn' : n < 10 ^ 7)
    (he : n * 10 ^ e = m * 10 ^ k) : (scientific n e).length ≤ 81 := by
  have hk : k < 1024 := by
    have : (10 : ℚ) ^ k < 10 ^ 1024 :=
      lt_of_le_of_lt h1 (lt_trans hv (pow_lt_pow_left₀ (by norm_num) (by norm_num) (by norm_num)))
    exact (pow_lt_pow_iff_right₀ (by norm_num : (1 : ℚ) < 10)).1 this
  have hm7 := (seven_digits h1 h2 hm).2
  have he1 : ((n : ℚ) * 10 ^ e) = m * 10 ^ k := by exact_mod_cast he
  have he2 : e ≤ k + 1 := by
    have h6 : (10 : ℚ) ^ 6 * 10 ^ e ≤ n * 10 ^ e :=
      mul_le_mul_of_nonneg_right (by exact_mod_cast hn) (by positivity)
    have h7 : (m : ℚ) * 10 ^ k ≤ 10 ^ 6 * 10 ^ (k + 1) := by
      have e1 : (m : ℚ) * 10 ^ k = 10 ^ 6 * ((m : ℚ) / 10 ^ 6 * 10 ^ k) := by ring
      rw [e1]; exact mul_le_mul_of_nonneg_left hm7 (by positivity)
    have h8 : (10 : ℚ) ^ e ≤ 10 ^ (k + 1) := by
      have : (10 : ℚ) ^ 6 * 10 ^ e ≤ 10 ^ 6 * 10 ^ (k + 1) := by linarith
      exact le_of_mul_le_mul_left this (by positivity)
    exact (pow_le_pow_iff_right₀ (by norm_num : (1 : ℚ) < 10)).1 h8
  have l1 := six_short n 0 (by norm_num at hn' ⊢; omega)
  have l2 := decimal_length_le e 4 (by omega) (by norm_num; omega)
  unfold scientific
  rw [List.length_append, List.length_append]
  have : (ascii "e").length = 1 := rfl
  omega

/-- The exact length of what is written for a number below the limit. -/
private theorem fixed_fits (x : Nat) (hx : x < 2 ^ 64) (hfin : IsFinite .f64 x) (hv : floatValue .f64 x < 10 ^ 14)
    (n : Nat) (hn : IsNearestEven (|floatValue .f64 x| * 10 ^ 6) n) :
    (signText .f64 x ++ sixDecimals n).length ≤ 81 ↔ -10 ^ 73 < floatValue .f64 x := by
  have hs := sign_value .f64 (by decide) x
  have ha := abs_nonneg (floatValue .f64 x)
  rw [List.length_append, signText_length]
  by_cases hb : SignBit .f64 x
  · rw [if_pos hb] at hs ⊢
    constructor
    · intro hl
      by_contra hc
      have hge : (10 : ℚ) ^ 73 ≤ |floatValue .f64 x| := by linarith
      have := nearestEven_mono (nearestEven_nat (10 ^ 73 * 10 ^ 6)) hn (by
        push_cast; nlinarith)
      have := six_long n 73 this
      omega
    · intro hv'
      have hlt : |floatValue .f64 x| < 10 ^ 73 := by linarith
      have hn' : n < 10 ^ (72 + 1) * 10 ^ 6 := by
        rcases lt_or_ge (|floatValue .f64 x|) (2 ^ 53) with h53 | h53
        · have := nearestEven_mono hn (nearestEven_nat (2 ^ 53 * 10 ^ 6)) (by push_cast; nlinarith)
          exact lt_of_le_of_lt this (by norm_num)
        · obtain ⟨N, hN⟩ := large_integer x hx hfin h53
          rw [hN] at hn hlt
          have : n = N * 10 ^ 6 := nearestEven_unique hn (by
            have := nearestEven_nat (N * 10 ^ 6); push_cast at this ⊢; exact this)
          have hN' : N < 10 ^ 73 := by exact_mod_cast hlt
          rw [this]
          exact Nat.mul_lt_mul_of_pos_right hN' (by norm_num)
      have := six_short n 72 hn'
      omega
  · rw [if_neg hb] at hs ⊢
    have hlt : |floatValue .f64 x| < 10 ^ 14 := by linarith
    have := nearestEven_mono hn (nearestEven_nat (10 ^ 14 * 10 ^ 6)) (by push_cast; nlinarith)
    have := six_short n 14 (lt_of_le_of_lt this (by norm_num))
    constructor
    · intro _; have : (0 : ℚ) < 10 ^ 73 := by positivity
      linarith
    · intro _; omega

/-- C85 is false: LREAL_TO_STRING of the most negative LREAL aborts the program. -/
theorem C85_refuted : ¬ (∀ (x : Nat) (dest : List Nat), x < 2 ^ 64 → IsFinite .f64 x → 81 ≤ dest.length →
    LREAL_TO_STRING_EXT x (some dest) ≠ .panic) := by
  intro h
  exact h 0xFFEFFFFFFFFFFFFF (List.replicate 81 0) (by norm_num) (by unfold IsFinite; decide) (by decide) (by decide +kernel)

/-- What is true: LREAL_TO_STRING into a buffer of at least 81 bytes aborts exactly for finite numbers of `-10^73` and
below; otherwise it returns normally. -/
theorem C85_partial (x : Nat) (hx : x < 2 ^ 64) (dest : List Nat) (hd : 81 ≤ dest.length) :
    (LREAL_TO_STRING_EXT x (some dest) = .panic ↔ IsFinite .f64 x ∧ floatValue .f64 x ≤ -10 ^ 73) ∧
    (LREAL_TO_STRING_EXT x (some dest) = .panic ∨
      ∃ out, LREAL_TO_STRING_EXT x (some dest) = .ok out ∧ out.length = dest.length) := by
  obtain ⟨t, ⟨t1, t2, t3, t4⟩, ht⟩ := C83_lreal x
  rw [ht dest hd]
  have hw : writeText dest t = .panic ↔ ¬ t.length ≤ 81 := by
    unfold writeText; split <;> simp_all
  constructor
  · rw [hw]
    by_cases hfin : IsFinite .f64 x
    · rcases lt_or_ge (floatValue .f64 x) (10 ^ 14) with hv | hv
      · obtain ⟨n, hn, rfl⟩ := t3 hfin hv
        rw [fixed_fits x hx hfin hv n hn, not_lt]
        exact ⟨fun h => ⟨hfin, h⟩, fun h => h.2⟩
      · obtain ⟨k, m, n, e, c1, c2, c3, c4, c5, c6, rfl⟩ := t4 hfin hv
        have hb := (abs_lt_inf .f64 (.inr rfl) x hx hfin).1
        have := scientific_short _ k m n e (lt_of_le_of_lt (le_abs_self _) hb) c1 c2 c3 c4 c5 c6
        constructor
        · intro h; exact absurd this h
        · rintro ⟨-, h⟩
          have : (0 : ℚ) < 10 ^ 73 := by positivity
          have : (0 : ℚ) < 10 ^ 14 := by positivity
          linarith
    · constructor
      · intro h
        exfalso; apply h
        by_cases hn : IsNaN .f64 x
        · rw [t1 hn]; decide
        · rw [t2 hn hfin, List.length_append, signText_length]
          have : (ascii "inf").length = 3 := rfl
          split <;> omega
      · rintro ⟨h, -⟩; exact absurd h hfin
  · unfold writeText
    split
    · right
      refine ⟨_, rfl, ?_⟩
      rw [List.length_append, List.length_drop]; omega
    · exact .inl rfl

/-- **C85**, REAL_TO_STRING never aborts. -/
theorem C85_real (x : Nat) (hx : x < 2 ^ 32) (dest : List Nat) (hd : 81 ≤ dest.length) :
    ∃ out, REAL_TO_STRING x (some dest) = .ok out ∧ out.length = dest.length := by
  have h64 : FloatFmt.f32.convert .f64 x < 2 ^ 64 := by
    unfold convert
    split
    · exact (FloatFmt.f64.withSign_spec _ FloatFmt.f64.nan (by decide +kernel)).2.2.2.2.1
    · split
      · exact (FloatFmt.f64.withSign_spec _ _ FloatFmt.f64.inf_lt').2.2.2.2.1
      · exact (FloatFmt.f64.withSign_spec _ _ (lt_of_le_of_lt (FloatFmt.f64.roundMag_le_inf _ _)
          FloatFmt.f64.inf_lt')).2.2.2.2.1
  obtain ⟨p1, p2⟩ := C85_partial (FloatFmt.f32.convert .f64 x) h64 dest hd
  rcases p2 with p2 | p2
  · exfalso
    obtain ⟨q1, q2⟩ := p1.1 p2
    have hfin : IsFinite .f32 x := by
      rw [isFinite_iff] at q1 ⊢
      obtain ⟨q3, q4⟩ := q1
      unfold convert at q3 q4
      cases h1 : FloatFmt.f32.is_nan x
      · cases h2 : FloatFmt.f32.is_infinite x
        · exact ⟨rfl, rfl⟩
        · rw [h1, h2, if_neg (by decide), if_pos rfl,
            (FloatFmt.f64.withSign_spec _ _ FloatFmt.f64.inf_lt').2.2.2.1, FloatFmt.f64.inf_spec.2] at q4
          cases q4
      · rw [h1, if_pos rfl, (FloatFmt.f64.withSign_spec _ FloatFmt.f64.nan (by decide +kernel)).2.2.1] at q3
        exact absurd q3 (by decide +kernel)
    rw [extend_value x hx hfin] at q2
    have := (abs_lt_inf .f32 (.inl rfl) x hx hfin).2 rfl
    have h2 := neg_abs_le (floatValue .f32 x)
    have : (2 : ℚ) ^ 128 < 10 ^ 73 := by norm_num
    linarith
  · exact p2

/-- The LREAL nearest to `-1e73` is a little above it and just fits; the next one below does not. -/
example : LREAL_TO_STRING_EXT 0xCF16A3A275D49491 (some (List.replicate 81 0)) =
    .ok (ascii "-9999999999999999830336967949613257980309080240684656321838454199566729216.000000") := by decide +kernel
example : LREAL_TO_STRING_EXT 0xCF16A3A275D49492 (some (List.replicate 81 0)) = .panic := by decide +kernel
example : REAL_TO_STRING 0xFF7FFFFF (some (List.replicate 81 0)) =
    .ok (ascii "-340282346638528859811704183484516925440.000000" ++ List.replicate 34 0) := by decide +kernel

end Verif
