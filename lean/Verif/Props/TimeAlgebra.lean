import Verif.Props.Duration
/-
C108: the arithmetic of TIME, DT, TOD and DATE obeys the rules of arithmetic whenever no step aborts.
-/
namespace Verif
open Spec

private theorem exact_ok {n c : Int} : exactOrPanic n = .ok c ↔ IntTy.i64.InRange n ∧ c = n := by
  unfold exactOrPanic
  split <;> rename_i h
  · simp [h, eq_comm]
  · simp [h]

private theorem add_ok {a b c : Int} (ha : IntTy.i64.InRange a) (hb : IntTy.i64.InRange b) :
    ADD_TIME a b = .ok c ↔ IntTy.i64.InRange (a + b) ∧ c = a + b := by rw [(C38_add_sub_time a b ha hb).1, exact_ok]

private theorem sub_ok {a b c : Int} (ha : IntTy.i64.InRange a) (hb : IntTy.i64.InRange b) :
    SUB_TIME a b = .ok c ↔ IntTy.i64.InRange (a - b) ∧ c = a - b := by rw [(C38_add_sub_time a b ha hb).2, exact_ok]

private theorem addDt_ok {a b c : Int} : ADD_DT_TIME a b = .ok c ↔ IntTy.i64.InRange (a + b) ∧ c = a + b := by
  rw [(C39_datetime_arithmetic a b).1, exact_ok]

private theorem subDt_ok {a b c : Int} : SUB_DT_TIME a b = .ok c ↔ IntTy.i64.InRange (a - b) ∧ c = a - b := by
  rw [(C39_datetime_arithmetic a b).2.2.1, exact_ok]

private theorem diffDt_ok {a b c : Int} : SUB_DT_DT a b = .ok c ↔ IntTy.i64.InRange (a - b) ∧ c = a - b := by
  rw [(C39_datetime_arithmetic a b).2.2.2.2.1, exact_ok]

/-- **C108**, TIME: ADD is commutative, also in whether it aborts; ADD and SUB undo each other; two additions that both succeed may be
regrouped when the other grouping succeeds too; T#0 is neutral; SUB is antisymmetric. -/
theorem C108_time (a b c d e : Int) (ha : IntTy.i64.InRange a) (hb : IntTy.i64.InRange b) (hc : IntTy.i64.InRange c) :
    ADD_TIME a b = ADD_TIME b a ∧ ADD_TIME a 0 = .ok a ∧ SUB_TIME a a = .ok 0 ∧
    (ADD_TIME a b = .ok c ↔ SUB_TIME c b = .ok a) ∧
    (ADD_TIME a b = .ok d → ADD_TIME b c = .ok e → ADD_TIME d c = ADD_TIME a e) ∧
    (SUB_TIME a b = .ok d → SUB_TIME b a = .ok e → e = -d ∧ ADD_TIME d e = .ok 0) := by
  have h0 : IntTy.i64.InRange 0 := by decide
  refine ⟨?_, ?_, ?_, ?_, ?_, ?_⟩
  · rw [(C38_add_sub_time a b ha hb).1, (C38_add_sub_time b a hb ha).1, Int.add_comm]
  · rw [add_ok ha h0]; simpa using ha
  · rw [sub_ok ha ha]; simp [h0]
  · rw [add_ok ha hb, sub_ok hc hb]
    constructor
    · rintro ⟨-, rfl⟩; simpa using ha
    · rintro ⟨-, h⟩
      have : c = a + b := by omega
      subst this; exact ⟨hc, rfl⟩
  · intro h1 h2
    rw [add_ok ha hb] at h1
    rw [add_ok hb hc] at h2
    obtain ⟨r1, rfl⟩ := h1
    obtain ⟨r2, rfl⟩ := h2
    rw [(C38_add_sub_time _ _ r1 hc).1, (C38_add_sub_time _ _ ha r2).1, Int.add_assoc]
  · intro h1 h2
    rw [sub_ok ha hb] at h1
    rw [sub_ok hb ha] at h2
    obtain ⟨r1, rfl⟩ := h1
    obtain ⟨r2, rfl⟩ := h2
    refine ⟨by omega, ?_⟩
    rw [add_ok r1 r2]
    have : a - b + (b - a) = 0 := by omega
    simp [this, h0]

/-- **C108**, the condition on the other grouping is needed: one grouping may abort while the other does not. -/
theorem C108_grouping_may_abort : ∃ a b c d, IntTy.i64.InRange a ∧ IntTy.i64.InRange b ∧ IntTy.i64.InRange c ∧
    ADD_TIME a b = .panic ∧ ADD_TIME b c = .ok d ∧ ADD_TIME a d = .ok a :=
  ⟨2 ^ 63 - 1, 1, -1, 0, by decide, by decide, by decide, by decide +kernel, by decide +kernel, by decide +kernel⟩

/-- **C108**, points in time: adding durations one after the other is adding their sum; the difference of two points is the duration
that leads from one to the other; differences add up along any chain of points (and the order of the points is that of the
differences). -/
theorem C108_points (x y z d e f : Int) (hx : IntTy.i64.InRange x) (hy : IntTy.i64.InRange y) (hd : IntTy.i64.InRange d)
    (he : IntTy.i64.InRange e) :
    (ADD_DT_TIME x d = .ok y → ADD_TIME d e = .ok f → ADD_DT_TIME y e = ADD_DT_TIME x f) ∧
    (ADD_DT_TIME x d = .ok y ↔ SUB_DT_DT y x = .ok d) ∧
    (ADD_DT_TIME x d = .ok y ↔ SUB_DT_TIME y d = .ok x) ∧
    (SUB_DT_DT x y = .ok d → SUB_DT_DT y z = .ok e → SUB_DT_DT x z = ADD_TIME d e) ∧
    (SUB_DT_DT x y = .ok d → (0 ≤ d ↔ y ≤ x)) := by
  refine ⟨?_, ?_, ?_, ?_, ?_⟩
  · intro h1 h2
    rw [addDt_ok] at h1
    rw [add_ok hd he] at h2
    obtain ⟨-, rfl⟩ := h1
    obtain ⟨-, rfl⟩ := h2
    rw [(C39_datetime_arithmetic _ _).1, (C39_datetime_arithmetic _ _).1, Int.add_assoc]
  · rw [addDt_ok, diffDt_ok]
    constructor
    · rintro ⟨-, rfl⟩
      have : x + d - x = d := by omega
      simp [this, hd]
    · rintro ⟨-, rfl⟩
      have : x + (y - x) = y := by omega
      simp [this, hy]
  · rw [addDt_ok, subDt_ok]
    constructor
    · rintro ⟨-, rfl⟩
      have : x + d - d = x := by omega
      simp [this, hx]
    · rintro ⟨-, rfl⟩
      have : y - d + d = y := by omega
      simp [this, hy]
  · intro h1 h2
    rw [diffDt_ok] at h1 h2
    obtain ⟨-, rfl⟩ := h1
    obtain ⟨-, rfl⟩ := h2
    rw [(C39_datetime_arithmetic x z).2.2.2.2.1, (C38_add_sub_time _ _ hd he).1]
    congr 1; omega
  · intro h1
    rw [diffDt_ok] at h1
    omega

/-- **C108**, order: adding the same duration keeps the order of durations and of points in time. -/
theorem C108_order (a a' b c c' : Int) (ha : IntTy.i64.InRange a) (ha' : IntTy.i64.InRange a') (hb : IntTy.i64.InRange b) :
    (ADD_TIME a b = .ok c → ADD_TIME a' b = .ok c' → (a < a' ↔ c < c')) ∧
    (SUB_TIME b a = .ok c → SUB_TIME b a' = .ok c' → (a < a' ↔ c' < c)) ∧
    (ADD_DT_TIME a b = .ok c → ADD_DT_TIME a' b = .ok c' → (a < a' ↔ c < c')) := by
  rw [add_ok ha hb, add_ok ha' hb, sub_ok hb ha, sub_ok hb ha', addDt_ok, addDt_ok]
  refine ⟨?_, ?_, ?_⟩ <;> rintro ⟨-, rfl⟩ ⟨-, rfl⟩ <;> omega

private theorem mul_ok {t : IntTy} {a x c : Int} (hx : t.InRange x) (hx' : x < 2 ^ 63) :
    MUL_TIME_INT t a x = .ok c ↔ IntTy.i64.InRange (a * x) ∧ c = a * x := by rw [C40_mul t a x hx' hx, exact_ok]

/-- **C108**, multiplication: MUL by n + m is the sum of MUL by n and by m; MUL distributes over ADD; DIV undoes MUL; MUL by 1 is the
identity. -/
theorem C108_mul (t : IntTy) (a b c d e n m : Int) (ha : IntTy.i64.InRange a) (hb : IntTy.i64.InRange b) (hn : t.InRange n)
    (hm : t.InRange m) (hnm : t.InRange (n + m)) (h1 : t.InRange 1) (hn' : n < 2 ^ 63) (hm' : m < 2 ^ 63) (hnm' : n + m < 2 ^ 63) :
    MUL_TIME_INT t a 1 = .ok a ∧
    (MUL_TIME_INT t a n = .ok c → MUL_TIME_INT t a m = .ok d → MUL_TIME_INT t a (n + m) = ADD_TIME c d) ∧
    (MUL_TIME_INT t a n = .ok c → MUL_TIME_INT t b n = .ok d → ADD_TIME a b = .ok e → MUL_TIME_INT t e n = ADD_TIME c d) ∧
    (MUL_TIME_INT t a n = .ok c → n ≠ 0 → DIV_TIME_INT t c n = .ok a) := by
  refine ⟨?_, ?_, ?_, ?_⟩
  · rw [mul_ok h1 (by omega)]; simpa using ha
  · intro e1 e2
    rw [mul_ok hn hn'] at e1
    rw [mul_ok hm hm'] at e2
    obtain ⟨r1, rfl⟩ := e1
    obtain ⟨r2, rfl⟩ := e2
    rw [C40_mul t a _ hnm' hnm, (C38_add_sub_time _ _ r1 r2).1, Int.mul_add]
  · intro e1 e2 e3
    rw [mul_ok hn hn'] at e1 e2
    rw [add_ok ha hb] at e3
    obtain ⟨r1, rfl⟩ := e1
    obtain ⟨r2, rfl⟩ := e2
    obtain ⟨-, rfl⟩ := e3
    rw [C40_mul t _ _ hn' hn, (C38_add_sub_time _ _ r1 r2).1, Int.add_mul]
  · intro e1 h0
    rw [mul_ok hn hn'] at e1
    obtain ⟨r1, rfl⟩ := e1
    obtain ⟨-, hq⟩ := C40_div t (a * n) n r1 hn hn'
    have hmin : ¬ (n = 0 ∨ (a * n = -2 ^ 63 ∧ n = -1)) := by
      rintro (h | ⟨h, rfl⟩)
      · exact h0 h
      · have := ha.2; simp [IntTy.hi, IntTy.i64] at this; omega
    obtain ⟨q, e, r, hr, hlt, -⟩ := hq hmin
    rw [e]
    congr 1
    -- a * n = q * n + r with |r| < |n|, so r = 0
    have hr' : (a - q) * n = r := by rw [Int.sub_mul]; omega
    have : a - q = 0 := by
      rcases Classical.em (a - q = 0) with h | h
      · exact h
      · have : n.natAbs ≤ r.natAbs := by
          rw [← hr', Int.natAbs_mul]
          exact Nat.le_mul_of_pos_left _ (by omega)
        omega
    omega

/-- **C108**, DIV loses less than one divisor: multiplying the quotient again gives a time between zero and the dividend, and less
than the divisor away from it. -/
theorem C108_div_mul (t : IntTy) (a n q c : Int) (ha : IntTy.i64.InRange a) (hn : t.InRange n) (hn' : n < 2 ^ 63)
    (hq : DIV_TIME_INT t a n = .ok q) (hc : MUL_TIME_INT t q n = .ok c) :
    c.natAbs ≤ a.natAbs ∧ (a - c).natAbs < n.natAbs ∧ 0 ≤ a * c := by
  rw [mul_ok hn hn'] at hc
  obtain ⟨-, rfl⟩ := hc
  obtain ⟨h1, h2⟩ := C40_div t a n ha hn hn'
  by_cases hz : n = 0 ∨ (a = -2 ^ 63 ∧ n = -1)
  · rw [h1 hz] at hq; cases hq
  · obtain ⟨q', e, r, hr, hlt, hs⟩ := h2 hz
    rw [e] at hq
    obtain rfl : q' = q := by simpa using hq
    -- the remainder has the sign of a and is not larger in magnitude than a
    have hmul : r.natAbs < n.natAbs := hlt
    generalize hp : q' * n = p at *
    have hdiv : p = 0 ∨ n.natAbs ≤ p.natAbs := by
      rcases Classical.em (q' = 0) with h | h
      · left; rw [← hp, h]; simp
      · right; rw [← hp, Int.natAbs_mul]; exact Nat.le_mul_of_pos_left _ (by omega)
    have key : (0 ≤ a ∧ 0 ≤ p ∧ p ≤ a) ∨ (a ≤ 0 ∧ p ≤ 0 ∧ a ≤ p) := by
      rcases Int.lt_trichotomy a 0 with h | h | h
      · rw [Int.sign_eq_neg_one_of_neg h, Int.sign_eq_neg_one_iff_neg] at hs
        omega
      · subst h
        simp only [Int.sign_zero, Int.sign_eq_zero_iff_zero] at hs
        omega
      · rw [Int.sign_eq_one_of_pos h, Int.sign_eq_one_iff_pos] at hs
        omega
    refine ⟨by omega, by omega, ?_⟩
    rcases key with ⟨h1, h2, -⟩ | ⟨h1, h2, -⟩
    · exact Int.mul_nonneg h1 h2
    · exact Int.mul_nonneg_of_nonpos_of_nonpos h1 h2

example : ADD_TIME 5 (-7) = .ok (-2) ∧ SUB_TIME (-2) (-7) = .ok 5 ∧ SUB_DT_DT 100 30 = .ok 70 ∧ SUB_DT_DT 30 (-5) = .ok 35 ∧
    SUB_DT_DT 100 (-5) = .ok 105 ∧ ADD_TIME 70 35 = .ok 105 ∧ MUL_TIME_INT .i16 (-7) 3 = .ok (-21) ∧
    DIV_TIME_INT .i16 (-21) 3 = .ok (-7) ∧ DIV_TIME_INT .i16 (-22) 3 = .ok (-7) := by decide +kernel

end Verif
