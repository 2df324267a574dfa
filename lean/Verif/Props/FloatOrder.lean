import Verif.Props.FloatRead
import Verif.Props.StFloat
/-
C114: conversions of floats keep the order of numbers.
-/
namespace Verif
open Spec

private theorem nearest_even {f : FloatFmt} {u : ℚ} {r z : Nat} (hr : IsNearestFloat f u r) (hv : floatValue f z = floatValue f r)
    (hb : z < 2 ^ (1 + f.mbits + f.ebits)) (hn : ¬ IsNaN f z) (he : z % 2 = 0) : IsNearestFloat f u z :=
  ⟨hb, hn, fun y h1 h2 => ⟨by rw [hv]; exact (hr.2.2 y h1 h2).1, fun _ => Or.inr he⟩⟩

private theorem zeros (f : FloatFmt) (hf : IsFloatTy f) : ∀ z ∈ [0, 2 ^ (f.mbits + f.ebits)],
    floatValue f z = 0 ∧ z < 2 ^ (1 + f.mbits + f.ebits) ∧ ¬ IsNaN f z ∧ z % 2 = 0 ∧
    f.neg z = decide (z ≠ 0) := by
  rcases hf with rfl | rfl <;>
    simp [FloatFmt.f32, FloatFmt.f64, floatValue, IsNaN, FloatFmt.neg]

/-- Rounding to the nearest float is monotone. -/
theorem nearest_mono (f : FloatFmt) (hf : IsFloatTy f) {u v : ℚ} {r s : Nat} (hr : IsNearestFloat f u r)
    (hs : IsNearestFloat f v s) (h : u ≤ v) : floatValue f r ≤ floatValue f s := by
  refine not_lt.1 fun hlt => ?_
  have h1 := (hr.2.2 s hs.1 hs.2.1).1
  have h2 := (hs.2.2 r hr.1 hr.2.1).1
  have e1 : floatValue f r + floatValue f s ≤ 2 * u := by
    by_contra hc
    have : u < floatValue f r := by linarith
    rw [abs_of_neg (by linarith : u - floatValue f r < 0)] at h1
    rcases abs_cases (u - floatValue f s) with h | h <;> linarith
  have e2 : 2 * v ≤ floatValue f r + floatValue f s := by
    by_contra hc
    rw [abs_of_pos (by linarith : 0 < v - floatValue f s)] at h2
    rcases abs_cases (v - floatValue f r) with h | h <;> linarith
  obtain rfl : u = v := by linarith
  have huniq := nearestFloat_unique f (stdFmt hf) u
  obtain ⟨p1, p2, p3, p4, p5⟩ := zeros f hf 0 (by simp)
  obtain ⟨q1, q2, q3, q4, q5⟩ := zeros f hf (2 ^ (f.mbits + f.ebits)) (by simp)
  have hpos : ∀ x, f.neg x = false → 0 ≤ floatValue f x := by
    intro x hx; rw [f.floatValue_eq (ebits_of hf), hx]; simp; positivity
  have hneg : ∀ x, f.neg x = true → floatValue f x ≤ 0 := by
    intro x hx; rw [f.floatValue_eq (ebits_of hf), hx]; simp; positivity
  have hne : r ≠ s := by rintro rfl; exact lt_irrefl _ hlt
  cases hnr : f.neg r <;> cases hns : f.neg s
  · exact hne (huniq r s hr hs (by rw [hnr, hns]))
  · have a1 := hpos r hnr
    have a2 := hneg s hns
    rcases eq_or_lt_of_le a1 with h0 | h0
    · have := huniq _ s (nearest_even hr (by rw [q1, h0]) q2 q3 q4) hs (by rw [q5, hns]; simp)
      rw [← this, q1, ← h0] at hlt; exact lt_irrefl _ hlt
    rcases eq_or_lt_of_le a2 with h0' | h0'
    · have := huniq r _ hr (nearest_even hs (by rw [p1, h0']) p2 p3 p4) (by rw [p5, hnr]; simp)
      rw [this, p1, h0'] at hlt; exact lt_irrefl _ hlt
    · have h3 := (hr.2.2 0 p2 p3).1
      rw [p1, sub_zero] at h3
      rcases abs_cases u with h | h <;> rcases abs_cases (u - floatValue f r) with g | g <;> linarith
  · linarith [hpos s hns, hneg r hnr]
  · exact hne (huniq r s hr hs (by rw [hnr, hns]))

private theorem table_floats (c : StFloatConv) (hc : c ∈ stFloatConversions) :
    (∀ f, c.src = .flt f → IsFloatTy f) ∧ (∀ f, c.dst = .flt f → IsFloatTy f) := by
  have key : ∀ c ∈ stFloatConversions,
      (match c.src with | .flt f => decide (f = .f32) || decide (f = .f64) | _ => true) = true ∧
      (match c.dst with | .flt f => decide (f = .f32) || decide (f = .f64) | _ => true) = true := by decide +kernel
  obtain ⟨h1, h2⟩ := key c hc
  refine ⟨fun f hf => ?_, fun f hf => ?_⟩
  · rw [hf] at h1; simpa [IsFloatTy] using h1
  · rw [hf] at h2; simpa [IsFloatTy] using h2

/-- **C114**, LREAL_TO_REAL and REAL_TO_LREAL: a larger number never gives a smaller one. -/
theorem C114_float_float : ∀ c ∈ stFloatConversions, ∀ f g, c.src = .flt f → c.dst = .flt g → ∀ x y, IsFinite f x →
    IsFinite f y → floatValue f x ≤ floatValue f y →
    ∃ r s, c.run (.flt x) = .ok (.flt r) ∧ c.run (.flt y) = .ok (.flt s) ∧ floatValue g r ≤ floatValue g s := by
  intro c hc f g hs hd x y hx hy hxy
  obtain ⟨r, hr, -, nr, -⟩ := C80_nearest c hc f g hs hd x
  obtain ⟨s, hs', -, ns, -⟩ := C80_nearest c hc f g hs hd y
  have hg : IsFloatTy g := (table_floats c hc).2 g hd
  exact ⟨r, s, hr, hs', nearest_mono g hg (nr hx) (ns hy) hxy⟩

/-- `IsNearestInt` is monotone. -/
private theorem nearestInt_mono {u v : ℚ} {m n : ℤ} (hm : IsNearestInt u m) (hn : IsNearestInt v n) (h : u ≤ v) : m ≤ n := by
  rcases eq_or_lt_of_le h with rfl | h
  · exact (nearestInt_unique u m n hm hn).le
  · by_contra hc
    have h1 : (n : ℚ) + 1 ≤ m := by exact_mod_cast (by omega : n + 1 ≤ m)
    have a := abs_le.1 hm.1
    have b := abs_le.1 hn.1
    linarith

/-- **C114**, REAL/LREAL to an integer type or TIME: where both results are defined, they are ordered like the numbers. -/
theorem C114_float_int : ∀ c ∈ stFloatConversions, ∀ f t, c.src = .flt f → c.dst = .int t → ∀ x y m n,
    floatValue f x ≤ floatValue f y → c.run (.flt x) = .ok (.int m) → c.run (.flt y) = .ok (.int n) → m ≤ n := by
  intro c hc f t hs hd x y m n hxy hm hn
  have key : ∀ x m, c.run (.flt x) = .ok (.int m) → IsNearestInt (floatValue f x) m := by
    intro x m hm
    have h := (C77_partial c hc f t hs hd x).2
    rw [hm] at h
    obtain ⟨hx, k, hk, hr⟩ := not_not.1 fun hc => (by simpa using h.2 hc : False)
    have := C76_nearest c hc f t hs hd x hx k hk hr
    rw [hm] at this
    obtain rfl : m = k := by simpa using this
    exact hk
  exact nearestInt_mono (key x m hm) (key y n hn) hxy

private theorem trunc_mono {u v : ℚ} {m n : ℤ} (hm : IsTruncation u m) (hn : IsTruncation v n) (h : u ≤ v) : m ≤ n := by
  by_contra hc
  have h1 : (n : ℚ) + 1 ≤ m := by exact_mod_cast (by omega : n + 1 ≤ m)
  obtain ⟨a1, a2, a3⟩ := hm
  obtain ⟨b1, b2, b3⟩ := hn
  rcases lt_or_ge n 0 with hn0 | hn0
  · -- `n < 0`, so `v < 0`, and `u ≤ v` is at most `v`
    have hnq : (n : ℚ) ≤ -1 := by exact_mod_cast (by omega : n ≤ -1)
    have hv : v ≤ n := by
      have : v ≤ 0 := by nlinarith
      rw [abs_of_nonpos this, abs_of_nonpos (by linarith)] at b1; linarith
    rw [abs_of_nonpos (by linarith : u ≤ 0)] at a1 a2
    rcases lt_or_ge m 0 with hm0 | hm0
    · have hmq : (m : ℚ) < 0 := by exact_mod_cast hm0
      rw [abs_of_neg hmq] at a2; linarith
    · obtain rfl | hm1 : m = 0 ∨ 1 ≤ m := by omega
      · simp at a2; linarith
      · have hmq : (1 : ℚ) ≤ m := by exact_mod_cast hm1
        nlinarith
  · have hnq : (0 : ℚ) ≤ n := by exact_mod_cast hn0
    have hu : (m : ℚ) ≤ u := by
      have : 0 ≤ u := by nlinarith
      rw [abs_of_nonneg this, abs_of_nonneg (by linarith)] at a1; linarith
    rw [abs_of_nonneg (by linarith : 0 ≤ v), abs_of_nonneg hnq] at b2
    linarith

/-- **C114**, TRUNC: where both results are defined, they are ordered like the numbers. -/
theorem C114_trunc (f : FloatFmt) (TRUNC : Nat → Res Int)
    (hT : (f = .f32 ∧ TRUNC = TRUNC__REAL) ∨ (f = .f64 ∧ TRUNC = TRUNC__LREAL)) (x y : Nat) (m n : ℤ)
    (hxy : floatValue f x ≤ floatValue f y) (hm : TRUNC x = .ok m) (hn : TRUNC y = .ok n) : m ≤ n := by
  have key : ∀ x m, TRUNC x = .ok m → IsTruncation (floatValue f x) m := by
    intro x m hm
    have h := (C81_undefined f TRUNC hT x).2
    rw [hm] at h
    obtain ⟨hx, k, hk, hr⟩ := not_not.1 fun hc => (by simpa using h.2 hc : False)
    have := C81_truncates f TRUNC hT x hx k hk hr
    rw [hm] at this
    obtain rfl : m = k := by simpa using this
    exact hk
  exact trunc_mono (key x m hm) (key y n hn) hxy

/-- **C114**, STRING_TO_LREAL and STRING_TO_REAL: the text of a larger number is never read as a smaller one. -/
theorem C114_text (ma mb a b : List Nat) (ha : Holds ma a) (hb : Holds mb b) (v w : ℚ) (hv : SignedDecimal a v)
    (hw : SignedDecimal b w) (h : v ≤ w) :
    (∃ r s, STRING_TO_LREAL (some ma) = .ok r ∧ STRING_TO_LREAL (some mb) = .ok s ∧ floatValue .f64 r ≤ floatValue .f64 s) ∧
    (∃ r s, STRING_TO_REAL (some ma) = .ok r ∧ STRING_TO_REAL (some mb) = .ok s ∧ floatValue .f32 r ≤ floatValue .f32 s) := by
  obtain ⟨sg, hsg, body, v', he, hd, rfl⟩ := hv
  obtain ⟨sg', hsg', body', w', he', hd', rfl⟩ := hw
  obtain ⟨⟨r, r1, r2, -⟩, ⟨p, p1, p2, -⟩⟩ := C86_decimal ma a ha sg hsg body he v' hd
  obtain ⟨⟨s, s1, s2, -⟩, ⟨q, q1, q2, -⟩⟩ := C86_decimal mb b hb sg' hsg' body' he' w' hd'
  exact ⟨⟨r, s, r1, s1, nearest_mono .f64 (.inr rfl) r2 s2 h⟩, ⟨p, q, p1, q1, nearest_mono .f32 (.inl rfl) p2 q2 h⟩⟩

/-- 0.1 and 0.1 + 2^-56 become the same REAL; 2.4 and 2.6 the integers 2 and 3; "-0.1" and "1e-1" are a pair of texts. -/
example : (∃ c ∈ stFloatConversions, c.src = .flt .f64 ∧ c.dst = .flt .f32 ∧
      c.run (.flt 0x3FB999999999999A) = .ok (.flt 0x3DCCCCCD) ∧ c.run (.flt 0x3FB999999999999B) = .ok (.flt 0x3DCCCCCD)) ∧
    (∃ c ∈ stFloatConversions, c.src = .flt .f64 ∧ c.dst = .int .INT ∧
      c.run (.flt 0x4003333333333333) = .ok (.int 2) ∧ c.run (.flt 0x4004CCCCCCCCCCCD) = .ok (.int 3)) ∧
    TRUNC__LREAL 0xC004CCCCCCCCCCCD = .ok (-2) ∧ TRUNC__LREAL 0x4004CCCCCCCCCCCD = .ok 2 ∧
    STRING_TO_REAL (some (ascii "-0.1" ++ [0])) = .ok 0xBDCCCCCD ∧ STRING_TO_REAL (some (ascii "1e-1" ++ [0])) = .ok 0x3DCCCCCD := by
  refine ⟨?_, ?_, ?_⟩ <;> decide +kernel

end Verif
