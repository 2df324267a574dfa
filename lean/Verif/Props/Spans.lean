import Verif.Props.Duration
/-
C176: a span of time divided into equal parts; the mean of durations.
-/
namespace Verif
open Spec

/-! ### The programs (user code; they call the arithmetic functions for TIME and DT) -/

/-- Point `K` of the span from `A` to `B` in `N` parts: `ADD(A, MUL(DIV(SUB(B, A), N), K))`. `t` is the type of `N` and `K`. -/
def spanPoint (t : IntTy) (a b n k : Int) : Res Int := do
  let d ← SUB_DT_DT b a
  let q ← DIV_TIME_INT t d n
  let o ← MUL_TIME_INT t q k
  ADD_DT_TIME a o

/-- The same with the product first: `ADD(A, DIV(MUL(SUB(B, A), K), N))`. -/
def spanPointMulFirst (t : IntTy) (a b n k : Int) : Res Int := do
  let d ← SUB_DT_DT b a
  let m ← MUL_TIME_INT t d k
  let o ← DIV_TIME_INT t m n
  ADD_DT_TIME a o

/-- `SUM := T#0s; FOR I := 1 TO N DO SUM := ADD(SUM, X[I]); END_FOR; MEAN := DIV(SUM, N);` -/
def meanTime (t : IntTy) (xs : List Int) : Res Int := do
  let sum ← xs.foldlM ADD_TIME 0
  DIV_TIME_INT t sum xs.length

private theorem exact_ok {v : Int} (h : IntTy.i64.InRange v) : exactOrPanic v = .ok v := by
  unfold exactOrPanic; rw [if_pos h]

private theorem range_iff {v : Int} : IntTy.i64.InRange v ↔ -2 ^ 63 ≤ v ∧ v < 2 ^ 63 := by
  simp [IntTy.InRange, IntTy.lo, IntTy.hi, IntTy.i64]; omega

private theorem div_nonneg' (t : IntTy) {d n : Int} (hd : 0 ≤ d ∧ d < 2 ^ 63) (hn : 0 < n ∧ n < 2 ^ 63) (ht : t.InRange n) :
    DIV_TIME_INT t d n = .ok (d / n) := by
  obtain ⟨q, e, r, h1, h2, h3⟩ := (C40_div t d n (range_iff.2 (by omega)) ht hn.2).2 (by omega)
  have hr : 0 ≤ r := by
    rcases h3 with h | h
    · omega
    · rcases Int.lt_or_le r 0 with h' | h'
      · rw [Int.sign_eq_neg_one_of_neg h'] at h
        have := Int.sign_eq_neg_one_iff_neg.1 h.symm
        omega
      · exact h'
  have hq : q = d / n := by
    have : (q * n + r) / n = q := by
      rw [Int.add_comm, Int.add_mul_ediv_right _ _ (by omega), Int.ediv_eq_zero_of_lt hr (by omega)]; omega
    rw [h1, this]
  rw [e, hq]

/-- **C176**, equal parts: the points are at equal distances and in order, the first one is the beginning, and the last one is less than N nanoseconds
before the end. -/
theorem C176_equal_parts (t : IntTy) (a b n : Int) (ha : IntTy.i64.InRange a) (hb : IntTy.i64.InRange b) (hab : a ≤ b) (hd : b - a < 2 ^ 63)
    (hn : 0 < n ∧ n < 2 ^ 63) (ht : ∀ k, 0 ≤ k → k ≤ n → t.InRange k) :
    ∃ q, 0 ≤ q ∧ q * n ≤ b - a ∧ b - a < q * n + n ∧
      ∀ k, 0 ≤ k → k ≤ n → spanPoint t a b n k = .ok (a + q * k) ∧ a ≤ a + q * k ∧ a + q * k ≤ b := by
  refine ⟨(b - a) / n, Int.ediv_nonneg (by omega) (by omega), Int.ediv_mul_le _ (by omega), ?_, fun k h0 h1 => ?_⟩
  · have := Int.lt_ediv_add_one_mul_self (b - a) hn.1
    rw [Int.add_mul, Int.one_mul] at this
    exact this
  · have hq0 : 0 ≤ (b - a) / n := Int.ediv_nonneg (by omega) (by omega)
    have hqn : (b - a) / n * n ≤ b - a := Int.ediv_mul_le _ (by omega)
    have hk0 : 0 ≤ (b - a) / n * k := Int.mul_nonneg hq0 h0
    have hkn : (b - a) / n * k ≤ (b - a) / n * n := Int.mul_le_mul_of_nonneg_left h1 hq0
    rw [range_iff] at ha hb
    refine ⟨?_, by omega, by omega⟩
    unfold spanPoint
    rw [(C39_datetime_arithmetic b a).2.2.2.2.1, exact_ok (range_iff.2 (by omega)), Res.bind_ok,
      div_nonneg' t (by omega) hn (ht n (by omega) (by omega)), Res.bind_ok, C40_mul t _ k (by omega) (ht k h0 h1),
      exact_ok (range_iff.2 (by omega)), Res.bind_ok, (C39_datetime_arithmetic a _).1, exact_ok (range_iff.2 (by omega))]

/-- **C176**, with the product first every point is exact to the nanosecond and the last one is the end. -/
theorem C176_mul_first (t : IntTy) (a b n k : Int) (ha : IntTy.i64.InRange a) (hb : IntTy.i64.InRange b) (hab : a ≤ b) (hd : (b - a) * n < 2 ^ 63)
    (hn : 0 < n ∧ n < 2 ^ 63) (hk : 0 ≤ k ∧ k ≤ n) (ht : ∀ k, 0 ≤ k → k ≤ n → t.InRange k) :
    ∃ x, spanPointMulFirst t a b n k = .ok x ∧ (x - a) * n ≤ (b - a) * k ∧ (b - a) * k < (x - a + 1) * n ∧ (k = n → x = b) := by
  have hd0 : 0 ≤ b - a := by omega
  have hdn : b - a ≤ (b - a) * n := by
    have := Int.mul_le_mul_of_nonneg_left (show 1 ≤ n by omega) hd0
    omega
  have hk0 : 0 ≤ (b - a) * k := Int.mul_nonneg hd0 hk.1
  have hkn : (b - a) * k ≤ (b - a) * n := Int.mul_le_mul_of_nonneg_left hk.2 hd0
  have ho0 : 0 ≤ (b - a) * k / n := Int.ediv_nonneg hk0 (by omega)
  have hon : (b - a) * k / n ≤ b - a := by
    have := Int.ediv_le_ediv hn.1 hkn
    rwa [Int.mul_ediv_cancel _ (by omega)] at this
  rw [range_iff] at ha hb
  refine ⟨a + (b - a) * k / n, ?_, ?_, ?_, ?_⟩
  · unfold spanPointMulFirst
    rw [(C39_datetime_arithmetic b a).2.2.2.2.1, exact_ok (range_iff.2 (by omega)), Res.bind_ok, C40_mul t _ k (by omega) (ht k hk.1 hk.2),
      exact_ok (range_iff.2 (by omega)), Res.bind_ok, div_nonneg' t (by omega) hn (ht n (by omega) (by omega)), Res.bind_ok,
      (C39_datetime_arithmetic a _).1, exact_ok (range_iff.2 (by omega))]
  · rw [show a + (b - a) * k / n - a = (b - a) * k / n by omega]
    exact Int.ediv_mul_le _ (by omega)
  · rw [show a + (b - a) * k / n - a = (b - a) * k / n by omega]
    exact Int.lt_ediv_add_one_mul_self _ hn.1
  · rintro rfl
    rw [Int.mul_ediv_cancel _ (by omega)]
    omega

/-- **C176**, the price of the product first: it aborts for spans that the division first can divide (100 days in 2000 parts, the last but one of them). -/
theorem C176_mul_first_aborts :
    spanPointMulFirst .i32 0 8640000000000000 2000 1999 = .panic ∧
    spanPoint .i32 0 8640000000000000 2000 1999 = .ok 8635680000000000 := by decide +kernel

private theorem sum_ok : ∀ (xs : List Int) (acc : Int), IntTy.i64.InRange acc → (∀ x ∈ xs, IntTy.i64.InRange x) →
    (∀ p, p <+: xs → IntTy.i64.InRange (acc + p.sum)) → xs.foldlM ADD_TIME acc = .ok (acc + xs.sum)
  | [], acc, _, _, _ => by simp
  | x :: xs, acc, h1, h2, h3 => by
    have hx := h3 [x] ⟨xs, rfl⟩
    simp only [List.sum_cons, List.sum_nil, Int.add_zero] at hx
    rw [List.foldlM_cons, (C38_add_sub_time acc x h1 (h2 x (by simp))).1, exact_ok hx, Res.bind_ok,
      sum_ok xs (acc + x) hx (fun y hy => h2 y (by simp [hy])) (fun p hp => by
        have := h3 (x :: p) ((List.cons_prefix_cons).2 ⟨rfl, hp⟩)
        rwa [List.sum_cons, ← Int.add_assoc] at this)]
    simp [Int.add_assoc]

private theorem sum_bounds (l u : Int) : ∀ xs : List Int, (∀ x ∈ xs, l ≤ x ∧ x ≤ u) → l * xs.length ≤ xs.sum ∧ xs.sum ≤ u * xs.length
  | [], _ => by simp
  | x :: xs, h => by
    have h1 := sum_bounds l u xs fun y hy => h y (by simp [hy])
    have h2 := h x (by simp)
    simp only [List.sum_cons, List.length_cons, Nat.cast_add, Nat.cast_one, Int.mul_add, Int.mul_one]
    omega

/-- **C176**, the mean: if no partial sum is outside the range of TIME, the program returns the mean, cut off to whole nanoseconds, and the mean lies
between any bounds of the values. -/
theorem C176_mean (t : IntTy) (xs : List Int) (hne : xs ≠ []) (hr : ∀ x ∈ xs, IntTy.i64.InRange x) (hs : ∀ p, p <+: xs → IntTy.i64.InRange p.sum)
    (ht : t.InRange xs.length) (hl : (xs.length : Int) < 2 ^ 63) :
    ∃ m, meanTime t xs = .ok m ∧ (xs.sum - m * xs.length).natAbs < xs.length ∧ ∀ l u, (∀ x ∈ xs, l ≤ x ∧ x ≤ u) → l ≤ m ∧ m ≤ u := by
  have hpos : 0 < xs.length := List.length_pos_iff.2 hne
  have es : xs.foldlM ADD_TIME 0 = .ok xs.sum := by
    have := sum_ok xs 0 (by decide) hr (fun p hp => by rw [Int.zero_add]; exact hs p hp)
    rwa [Int.zero_add] at this
  obtain ⟨q, e, r, g1, g2, g3⟩ := (C40_div t xs.sum xs.length (hs xs (List.prefix_refl _)) ht hl).2 (by omega)
  refine ⟨q, by unfold meanTime; rw [es, Res.bind_ok, e], by omega, fun l u h => ?_⟩
  obtain ⟨b1, b2⟩ := sum_bounds l u xs h
  have hsg : (0 ≤ xs.sum → 0 ≤ r) ∧ (xs.sum ≤ 0 → r ≤ 0) := by
    rcases g3 with h | h
    · omega
    · constructor
      · intro h0
        by_contra hc
        rw [Int.sign_eq_neg_one_of_neg (by omega)] at h
        have := Int.sign_eq_neg_one_iff_neg.1 h.symm
        omega
      · intro h0
        by_contra hc
        rw [Int.sign_eq_one_of_pos (by omega)] at h
        have := Int.sign_eq_one_iff_pos.1 h.symm
        omega
  have hn : (0 : Int) < xs.length := by omega
  constructor
  · by_contra hc
    have : (q + 1) * xs.length ≤ l * xs.length := Int.mul_le_mul_of_nonneg_right (by omega) (by omega)
    rw [Int.add_mul, Int.one_mul] at this
    omega
  · by_contra hc
    have : (u + 1) * xs.length ≤ q * xs.length := Int.mul_le_mul_of_nonneg_right (by omega) (by omega)
    rw [Int.add_mul, Int.one_mul] at this
    omega

private theorem sum_panic : ∀ (xs : List Int) (acc : Int), IntTy.i64.InRange acc → (∀ x ∈ xs, IntTy.i64.InRange x) →
    (∃ p, p <+: xs ∧ ¬ IntTy.i64.InRange (acc + p.sum)) → xs.foldlM ADD_TIME acc = .panic
  | [], acc, h1, _, ⟨p, hp, hc⟩ => by
    rw [List.prefix_nil.1 hp] at hc
    exact absurd (by simpa using h1) hc
  | x :: xs, acc, h1, h2, ⟨p, hp, hc⟩ => by
    rw [List.foldlM_cons, (C38_add_sub_time acc x h1 (h2 x (by simp))).1]
    by_cases hx : IntTy.i64.InRange (acc + x)
    · rw [exact_ok hx, Res.bind_ok]
      refine sum_panic xs (acc + x) hx (fun y hy => h2 y (by simp [hy])) ?_
      cases p with
      | nil => exact absurd (by simpa using h1) hc
      | cons y p =>
        obtain ⟨rfl, hp'⟩ := List.cons_prefix_cons.1 hp
        exact ⟨p, hp', by rwa [List.sum_cons, ← Int.add_assoc] at hc⟩
    · unfold exactOrPanic
      rw [if_neg hx]
      rfl

/-- **C176**, the mean: otherwise the program aborts, also if the mean itself is in the range of TIME. -/
theorem C176_mean_aborts (t : IntTy) (xs : List Int) (hr : ∀ x ∈ xs, IntTy.i64.InRange x) (hs : ∃ p, p <+: xs ∧ ¬ IntTy.i64.InRange p.sum) :
    meanTime t xs = .panic := by
  unfold meanTime
  rw [sum_panic xs 0 (by decide) hr (by simpa only [Int.zero_add] using hs)]
  rfl

/-- Two durations of 200 years. -/
example : meanTime .i16 [6307200000000000000, 6307200000000000000] = .panic := by decide +kernel

/-- Three hours in seven parts, and the mean of three durations. -/
example : [0, 1, 2, 3, 4, 5, 6, 7].map (fun k : Int => spanPoint .i16 1000 10800000001000 7 k) =
    [.ok 1000, .ok 1542857143857, .ok 3085714286714, .ok 4628571429571, .ok 6171428572428, .ok 7714285715285, .ok 9257142858142, .ok 10800000000999] ∧
    spanPointMulFirst .i16 1000 10800000001000 7 7 = .ok 10800000001000 ∧ meanTime .i16 [-5, 3, -6] = .ok (-2) := by decide +kernel

end Verif
