import Verif.Props.DelayChain
/-
C178: a compressor with a minimum running time and a minimum pause, made of two on-delays:
`on(IN := Q, PT := TRUN); off(IN := NOT Q, PT := TREST); Q := SEL(Q, X AND off.Q, X OR NOT on.Q);`
-/
namespace Verif
open Spec TimerParams

/-- The variables of the program. -/
structure Compressor where
  on : TimerParams
  off : TimerParams
  q : Bool

/-- One scan of the program (`TON`, src/timers.rs:109-131). `x` is the request, `a1`, `a2`, `b1`, `b2` are the clock readings of the two timers. -/
def compressorScan (run rest : Int) (s : Compressor) (x : Bool) (a1 a2 b1 b2 : Nat) : Res Compressor := do
  let on ← TON.call s.on ⟨s.q, run, a1, a2⟩
  let off ← TON.call s.off ⟨!s.q, rest, b1, b2⟩
  pure ⟨on, off, if s.q then x || !on.output else x && off.output⟩

/-- The variables after the first `k` scans. -/
def compressorRun (run rest : Int) (x : Nat → Bool) (a1 a2 b1 b2 : Nat → Nat) : Nat → Res Compressor
  | 0 => .ok ⟨TimerParams.default, TimerParams.default, false⟩
  | k + 1 => do compressorScan run rest (← compressorRun run rest x a1 a2 b1 b2 k) (x k) (a1 k) (a2 k) (b1 k) (b2 k)

/-- Q after the first `k` scans (FALSE for `k = 0`), or how the program ended. -/
def compressor (run rest : Int) (x : Nat → Bool) (a1 a2 b1 b2 : Nat → Nat) (k : Nat) : Res Bool := do
  pure (← compressorRun run rest x a1 a2 b1 b2 k).q

section
variable (run rest : Int) (x : Nat → Bool) (a1 a2 b1 b2 : Nat → Nat)

/-- Q and the start times of the two timers. -/
private def st : Nat → Bool × Option Nat × Option Nat
  | 0 => (false, none, none)
  | k + 1 =>
    let p := st k
    (if p.1 then x k || !tonQ run p.2.1 p.1 (a2 k) else x k && tonQ rest p.2.2 (!p.1) (b2 k), tonNext p.2.1 p.1 (a1 k), tonNext p.2.2 (!p.1) (b1 k))

private theorem run_is (h1 : 0 ≤ run ∧ run < 2 ^ 63) (h2 : 0 ≤ rest ∧ rest < 2 ^ 63) (k : Nat) :
    ∃ s, compressorRun run rest x a1 a2 b1 b2 k = .ok s ∧ s.q = (st run rest x a1 a2 b1 b2 k).1 ∧
      TonIs s.on (st run rest x a1 a2 b1 b2 k).2.1 ∧ TonIs s.off (st run rest x a1 a2 b1 b2 k).2.2 := by
  induction k with
  | zero => exact ⟨_, rfl, rfl, ⟨rfl, fun _ => rfl⟩, ⟨rfl, fun _ => rfl⟩⟩
  | succ k ih =>
    obtain ⟨s, e, hq, i1, i2⟩ := ih
    obtain ⟨t, e1, j1, q1⟩ := ton_is h1 i1 s.q (a1 k) (a2 k)
    obtain ⟨u, e2, j2, q2⟩ := ton_is h2 i2 (!s.q) (b1 k) (b2 k)
    have e' : compressorRun run rest x a1 a2 b1 b2 (k + 1) = .ok ⟨t, u, if s.q then x k || !t.output else x k && u.output⟩ := by
      rw [compressorRun, e, Res.bind_ok, compressorScan, e1, Res.bind_ok, e2, Res.bind_ok]; rfl
    refine ⟨_, e', ?_, ?_, ?_⟩
    · simp only [q1, q2, hq, st]
    · rw [hq] at j1; exact j1
    · rw [hq] at j2; exact j2

variable {run rest x a1 a2 b1 b2}

private theorem q_eq (h1 : 0 ≤ run ∧ run < 2 ^ 63) (h2 : 0 ≤ rest ∧ rest < 2 ^ 63) (k : Nat) :
    compressor run rest x a1 a2 b1 b2 k = .ok (st run rest x a1 a2 b1 b2 k).1 := by
  obtain ⟨s, e, h, -⟩ := run_is run rest x a1 a2 b1 b2 h1 h2 k
  rw [compressor, e, Res.bind_ok, ← h]; rfl

private theorem on_start {j k : Nat} (hs : j = 0 ∨ (st run rest x a1 a2 b1 b2 (j - 1)).1 = false) (hjk : j ≤ k)
    (h : ∀ i, j ≤ i → i ≤ k → (st run rest x a1 a2 b1 b2 i).1 = true) :
    (st run rest x a1 a2 b1 b2 j).2.1 = none ∧ (st run rest x a1 a2 b1 b2 (k + 1)).2.1 = some (a1 j) := by
  have h0 : (st run rest x a1 a2 b1 b2 j).2.1 = none := by
    cases j with
    | zero => rfl
    | succ j =>
      rcases hs with hs | hs
      · omega
      · rw [Nat.add_sub_cancel] at hs
        simp [st, hs, tonNext]
  refine ⟨h0, ?_⟩
  obtain ⟨n, rfl⟩ : ∃ n, k = j + n := ⟨k - j, by omega⟩
  clear hjk
  induction n with
  | zero => rw [Nat.add_zero] at *; simp [st, h j (by omega) (by omega), h0, tonNext]
  | succ n ih =>
    have := ih fun i a b => h i a (by omega)
    rw [show j + (n + 1) + 1 = (j + n + 1) + 1 by omega, st]
    simp only [this, h (j + n + 1) (by omega) (by omega), tonNext, if_true, Option.getD_some]

private theorem off_start {j k : Nat} (hs : j = 0 ∨ (st run rest x a1 a2 b1 b2 (j - 1)).1 = true) (hjk : j ≤ k)
    (h : ∀ i, j ≤ i → i ≤ k → (st run rest x a1 a2 b1 b2 i).1 = false) :
    (st run rest x a1 a2 b1 b2 j).2.2 = none ∧ (st run rest x a1 a2 b1 b2 (k + 1)).2.2 = some (b1 j) := by
  have h0 : (st run rest x a1 a2 b1 b2 j).2.2 = none := by
    cases j with
    | zero => rfl
    | succ j =>
      rcases hs with hs | hs
      · omega
      · rw [Nat.add_sub_cancel] at hs
        simp [st, hs, tonNext]
  refine ⟨h0, ?_⟩
  obtain ⟨n, rfl⟩ : ∃ n, k = j + n := ⟨k - j, by omega⟩
  clear hjk
  induction n with
  | zero => rw [Nat.add_zero] at *; simp [st, h j (by omega) (by omega), h0, tonNext]
  | succ n ih =>
    have := ih fun i a b => h i a (by omega)
    rw [show j + (n + 1) + 1 = (j + n + 1) + 1 by omega, st]
    simp only [this, h (j + n + 1) (by omega) (by omega), tonNext, if_true, Option.getD_some, Bool.not_false]

end

/-- **C178.** The program never aborts, and before the first scan the compressor is off. -/
theorem C178_total (run rest : Int) (h1 : 0 ≤ run ∧ run < 2 ^ 63) (h2 : 0 ≤ rest ∧ rest < 2 ^ 63) (x : Nat → Bool) (a1 a2 b1 b2 : Nat → Nat) (k : Nat) :
    (∃ q, compressor run rest x a1 a2 b1 b2 k = .ok q) ∧ compressor run rest x a1 a2 b1 b2 0 = .ok false :=
  ⟨⟨_, q_eq h1 h2 k⟩, rfl⟩

/-- **C178**, running: the compressor has been on since it was switched on by scan `j - 1`. Scan `k` leaves it on exactly if it is requested, or if it is the
first scan with the compressor on, or if at most the minimum running time has passed since that scan. -/
theorem C178_running (run rest : Int) (h1 : 0 ≤ run ∧ run < 2 ^ 63) (h2 : 0 ≤ rest ∧ rest < 2 ^ 63) (x : Nat → Bool) (a1 a2 b1 b2 : Nat → Nat)
    (j k : Nat) (hjk : j ≤ k) (hs : j = 0 ∨ compressor run rest x a1 a2 b1 b2 (j - 1) = .ok false)
    (h : ∀ i, j ≤ i → i ≤ k → compressor run rest x a1 a2 b1 b2 i = .ok true) :
    compressor run rest x a1 a2 b1 b2 (k + 1) = .ok true ↔ x k = true ∨ k = j ∨ (a2 k : Int) - a1 j ≤ run := by
  simp only [q_eq h1 h2, Res.ok.injEq] at hs h ⊢
  have hk := h k hjk (by omega)
  rw [st]
  simp only [hk, if_true]
  rcases Nat.lt_or_ge j k with hlt | hge
  · obtain ⟨m, rfl⟩ : ∃ m, k = m + 1 := ⟨k - 1, by omega⟩
    have e := (on_start hs (show j ≤ m by omega) fun i a b => h i a (by omega)).2
    rw [e]
    simp only [tonQ, Bool.true_and, Bool.or_eq_true, Bool.not_eq_true', decide_eq_false_iff_not]
    have : ¬ m + 1 = j := by omega
    simp only [this, false_or]
    constructor
    · rintro (h | h)
      · exact .inl h
      · exact .inr (by omega)
    · rintro (h | h)
      · exact .inl h
      · exact .inr (by omega)
  · obtain rfl : k = j := by omega
    have e := (on_start hs (Nat.le_refl k) fun i a b => h i a (by omega)).1
    rw [e]
    simp [tonQ]

/-- **C178**, resting: the compressor has been off since it was switched off by scan `j - 1` (or since the beginning, `j = 0`). Scan `k` switches it on exactly
if it is requested and more than the minimum pause has passed since the first scan with the compressor off. -/
theorem C178_resting (run rest : Int) (h1 : 0 ≤ run ∧ run < 2 ^ 63) (h2 : 0 ≤ rest ∧ rest < 2 ^ 63) (x : Nat → Bool) (a1 a2 b1 b2 : Nat → Nat)
    (j k : Nat) (hjk : j ≤ k) (hs : j = 0 ∨ compressor run rest x a1 a2 b1 b2 (j - 1) = .ok true)
    (h : ∀ i, j ≤ i → i ≤ k → compressor run rest x a1 a2 b1 b2 i = .ok false) :
    compressor run rest x a1 a2 b1 b2 (k + 1) = .ok true ↔ x k = true ∧ j < k ∧ rest < (b2 k : Int) - b1 j := by
  simp only [q_eq h1 h2, Res.ok.injEq] at hs h ⊢
  have hk := h k hjk (by omega)
  rw [st]
  simp only [hk, Bool.false_eq_true, if_false]
  rcases Nat.lt_or_ge j k with hlt | hge
  · obtain ⟨m, rfl⟩ : ∃ m, k = m + 1 := ⟨k - 1, by omega⟩
    have e := (off_start hs (show j ≤ m by omega) fun i a b => h i a (by omega)).2
    rw [e]
    simp only [tonQ, Bool.not_false, Bool.true_and, Bool.and_eq_true, decide_eq_true_eq, hlt, true_and]
    constructor
    · rintro ⟨a, b⟩; exact ⟨a, by omega⟩
    · rintro ⟨a, b⟩; exact ⟨a, by omega⟩
  · obtain rfl : k = j := by omega
    have e := (off_start hs (Nat.le_refl k) fun i a b => h i a (by omega)).1
    rw [e]
    simp [tonQ]

/-- The first value of the other kind in a sequence. -/
private theorem first_of (f : Nat → Res Bool) (b : Bool) (tot : ∀ i, ∃ q, f i = .ok q) (j : Nat) : ∀ n, f j = .ok b → f (j + n) = .ok (!b) →
    ∃ k, j ≤ k ∧ k < j + n ∧ (∀ i, j ≤ i → i ≤ k → f i = .ok b) ∧ f (k + 1) = .ok (!b)
  | 0, h1, h2 => by rw [Nat.add_zero, h1] at h2; cases b <;> cases Res.ok.inj h2
  | n + 1, h1, h2 => by
    by_cases hall : ∀ i, j ≤ i → i ≤ j + n → f i = .ok b
    · exact ⟨j + n, by omega, by omega, hall, h2⟩
    · obtain ⟨i, hi1, hi2, hi3⟩ : ∃ i, j ≤ i ∧ i ≤ j + n ∧ ¬ f i = .ok b := by
        refine Classical.byContradiction fun hc => hall fun i a b' => ?_
        exact Classical.byContradiction fun hd => hc ⟨i, a, b', hd⟩
      have : f (j + (i - j)) = .ok (!b) := by
        rw [show j + (i - j) = i by omega]
        obtain ⟨q, e⟩ := tot i
        rw [e] at hi3 ⊢
        cases q <;> cases b <;> simp_all
      obtain ⟨k, a1, a2, a3, a4⟩ := first_of f b tot j (i - j) h1 this
      exact ⟨k, a1, by omega, a3, a4⟩
termination_by n => n
decreasing_by omega

/-- **C178**, the guarantee: once switched on by scan `j - 1`, the compressor is on after every scan until more than the minimum running time has passed since
scan `j`; once switched off it stays off until more than the minimum pause has passed. The clock of each timer does not go backwards. -/
theorem C178_guarantee (run rest : Int) (h1 : 0 ≤ run ∧ run < 2 ^ 63) (h2 : 0 ≤ rest ∧ rest < 2 ^ 63) (x : Nat → Bool) (a1 a2 b1 b2 : Nat → Nat)
    (ma : ∀ i k, i ≤ k → a2 i ≤ a2 k) (mb : ∀ i k, i ≤ k → b2 i ≤ b2 k) (j k : Nat) (hjk : j ≤ k) :
    (compressor run rest x a1 a2 b1 b2 j = .ok true → compressor run rest x a1 a2 b1 b2 (j - 1) = .ok false →
      (a2 k : Int) - a1 j ≤ run → compressor run rest x a1 a2 b1 b2 (k + 1) = .ok true) ∧
    (compressor run rest x a1 a2 b1 b2 j = .ok false → compressor run rest x a1 a2 b1 b2 (j - 1) = .ok true →
      (b2 k : Int) - b1 j ≤ rest → compressor run rest x a1 a2 b1 b2 (k + 1) = .ok false) := by
  have tot : ∀ i, ∃ q, compressor run rest x a1 a2 b1 b2 i = .ok q := fun i => (C178_total run rest h1 h2 x a1 a2 b1 b2 i).1
  constructor
  · intro hj hp hc
    obtain ⟨q, e⟩ := tot (k + 1)
    cases q with
    | true => exact e
    | false =>
      obtain ⟨m, m1, m2, m3, m4⟩ := first_of _ true tot j (k + 1 - j) hj (by rw [show j + (k + 1 - j) = k + 1 by omega]; exact e)
      have hm := ma m k (by omega)
      have := (C178_running run rest h1 h2 x a1 a2 b1 b2 j m m1 (.inr hp) m3).2 (.inr (.inr (by omega)))
      rw [this] at m4
      cases Res.ok.inj m4
  · intro hj hp hc
    obtain ⟨q, e⟩ := tot (k + 1)
    cases q with
    | false => exact e
    | true =>
      obtain ⟨m, m1, m2, m3, m4⟩ := first_of _ false tot j (k + 1 - j) hj (by rw [show j + (k + 1 - j) = k + 1 by omega]; exact e)
      have hm := mb m k (by omega)
      have := (C178_resting run rest h1 h2 x a1 a2 b1 b2 j m m1 (.inr hp) m3).1 m4
      omega

/-- A request that flutters: minimum running time 30, minimum pause 50, a scan every 10. -/
example : (List.range 22).map (compressor 30 50 (fun k => decide (k % 3 = 1)) (10 * ·) (10 * ·) (10 * ·) (10 * ·)) =
    [false, false, false, false, false, false, false, false, true, true, true, true, true, false, false, false, false, false, false, false, true,
      true].map Res.ok := by decide +kernel

end Verif
