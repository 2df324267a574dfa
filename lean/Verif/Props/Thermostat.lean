import Verif.Model.Flanks
import Mathlib.Tactic.Ring
import Mathlib.Tactic.Linarith
/-
C177: a two-point controller, `l(SET := X <= LO, RESET1 := X >= HI); HEAT := l.Q1;`
-/
namespace Verif

/-! ### The program (user code; it calls RS) -/

/-- The latch after the first `k` scans; `x k` is the measured value in scan `k` (`RS`, src/bistable_functionblocks.rs:35-37). -/
def thermostatRun (lo hi : Int) (x : Nat → Int) : Nat → Res SetResetParams
  | 0 => .ok SetResetParams.default
  | k + 1 => do RS.call (← thermostatRun lo hi x k) ⟨decide (x k ≤ lo), decide (hi ≤ x k)⟩

/-- HEAT in scan `k`, or how the program ended. -/
def thermostat (lo hi : Int) (x : Nat → Int) (k : Nat) : Res Bool := do
  pure (← thermostatRun lo hi x (k + 1)).output

namespace Spec
/-- What is known about the process: with the heating on the measured value does not fall, with the heating off it does not rise, and it changes by at most
`d` between two scans. -/
def HeatedProcess (d : Int) (x : Nat → Int) (heat : Nat → Res Bool) : Prop :=
  ∀ k, (heat k = .ok true → x k ≤ x (k + 1) ∧ x (k + 1) ≤ x k + d) ∧ (heat k = .ok false → x k - d ≤ x (k + 1) ∧ x (k + 1) ≤ x k)

/-- The process reacts: with the heating on the value rises in each scan, with the heating off it falls. -/
def ReactsToHeat (x : Nat → Int) (heat : Nat → Res Bool) : Prop :=
  ∀ k, (heat k = .ok true → x k < x (k + 1)) ∧ (heat k = .ok false → x (k + 1) < x k)
end Spec
open Spec

/-- HEAT before scan `k` (FALSE before the first one). -/
private def q (lo hi : Int) (x : Nat → Int) : Nat → Bool
  | 0 => false
  | k + 1 => !decide (hi ≤ x k) && (decide (x k ≤ lo) || q lo hi x k)

private theorem run_q (lo hi : Int) (x : Nat → Int) : ∀ k, ∃ s, thermostatRun lo hi x k = .ok s ∧ s.output = q lo hi x k
  | 0 => ⟨_, rfl, rfl⟩
  | k + 1 => by
    obtain ⟨s, e, h⟩ := run_q lo hi x k
    refine ⟨_, by unfold thermostatRun; rw [e]; rfl, ?_⟩
    simp [RS, q, h]

private theorem heat_q (lo hi : Int) (x : Nat → Int) (k : Nat) : thermostat lo hi x k = .ok (q lo hi x (k + 1)) := by
  obtain ⟨s, e, h⟩ := run_q lo hi x (k + 1)
  unfold thermostat
  rw [e, ← h]
  rfl

private theorem heat_iff (lo hi : Int) (x : Nat → Int) (k : Nat) (b : Bool) : thermostat lo hi x k = .ok b ↔ q lo hi x (k + 1) = b := by
  rw [heat_q]
  exact ⟨fun h => Res.ok.inj h, fun h => by rw [h]⟩

private theorem q_succ (lo hi : Int) (x : Nat → Int) (k : Nat) : q lo hi x (k + 1) = true ↔ x k < hi ∧ (x k ≤ lo ∨ q lo hi x k = true) := by
  simp [q]

private theorem on_below {lo hi : Int} {x : Nat → Int} {k : Nat} (h : q lo hi x (k + 1) = true) : x k < hi := ((q_succ lo hi x k).1 h).1

private theorem off_above {lo hi : Int} (hl : lo < hi) {x : Nat → Int} {k : Nat} (h : q lo hi x (k + 1) = false) : lo < x k := by
  by_contra hc
  have : q lo hi x (k + 1) = true := (q_succ lo hi x k).2 ⟨by omega, .inl (by omega)⟩
  rw [h] at this
  cases this

/-- **C177**, the controller: it never aborts. HEAT is TRUE exactly if the value has been at LO or below it and has not reached HI since. -/
theorem C177_output (lo hi : Int) (x : Nat → Int) (k : Nat) :
    ∃ b, thermostat lo hi x k = .ok b ∧ (b = true ↔ ∃ j, j ≤ k ∧ x j ≤ lo ∧ ∀ i, j ≤ i → i ≤ k → x i < hi) := by
  refine ⟨_, heat_q lo hi x k, ?_⟩
  induction k with
  | zero =>
    rw [q_succ]
    constructor
    · rintro ⟨h1, h2 | h2⟩
      · exact ⟨0, by omega, h2, fun i _ hi' => by rw [show i = 0 by omega]; exact h1⟩
      · cases h2
    · rintro ⟨j, hj, h1, h2⟩
      rw [show j = 0 by omega] at h1
      exact ⟨h2 0 (by omega) (by omega), .inl h1⟩
  | succ k ih =>
    rw [q_succ, ih]
    constructor
    · rintro ⟨h1, h2 | ⟨j, hj, h2, h3⟩⟩
      · exact ⟨k + 1, by omega, h2, fun i hi1 hi2 => by rw [show i = k + 1 by omega]; exact h1⟩
      · refine ⟨j, by omega, h2, fun i hi1 hi2 => ?_⟩
        rcases Nat.lt_or_ge i (k + 1) with h | h
        · exact h3 i hi1 (by omega)
        · rw [show i = k + 1 by omega]; exact h1
    · rintro ⟨j, hj, h1, h2⟩
      refine ⟨h2 (k + 1) (by omega) (by omega), ?_⟩
      rcases Nat.lt_or_ge j (k + 1) with h | h
      · exact .inr ⟨j, by omega, h1, fun i a b => h2 i a (by omega)⟩
      · rw [show j = k + 1 by omega] at h1; exact .inl h1

/-- **C177**, the value stays in the band: it never leaves it by more than the change in one scan. -/
theorem C177_band (lo hi d : Int) (hl : lo < hi) (x : Nat → Int) (hp : HeatedProcess d x (thermostat lo hi x)) (h0 : lo - d ≤ x 0 ∧ x 0 ≤ hi + d)
    (k : Nat) : lo - d ≤ x k ∧ x k ≤ hi + d := by
  induction k with
  | zero => exact h0
  | succ k ih =>
    cases hq : q lo hi x (k + 1) with
    | true =>
      have := (hp k).1 ((heat_iff lo hi x k true).2 hq)
      have := on_below hq
      omega
    | false =>
      have := (hp k).2 ((heat_iff lo hi x k false).2 hq)
      have := off_above hl hq
      omega

private theorem drift {d : Int} {lo hi : Int} {x : Nat → Int} (hp : HeatedProcess d x (thermostat lo hi x)) (k n : Nat) :
    x (k + n) - x k ≤ n * d ∧ x k - x (k + n) ≤ n * d := by
  induction n with
  | zero => simp
  | succ n ih =>
    have step : x (k + n + 1) - x (k + n) ≤ d ∧ x (k + n) - x (k + n + 1) ≤ d := by
      cases hq : q lo hi x (k + n + 1) with
      | true => have := (hp (k + n)).1 ((heat_iff lo hi x (k + n) true).2 hq); omega
      | false => have := (hp (k + n)).2 ((heat_iff lo hi x (k + n) false).2 hq); omega
    rw [show k + (n + 1) = k + n + 1 by omega]
    push_cast
    rw [Int.add_mul, Int.one_mul]
    omega

/-- The first scan after `j` in which HEAT has changed. -/
private theorem first_change {lo hi : Int} {x : Nat → Int} {b : Bool} (j : Nat) : ∀ n, q lo hi x (j + 1) = b → q lo hi x (j + n + 1) = !b →
    ∃ m, m < n ∧ q lo hi x (j + m + 1) = b ∧ q lo hi x (j + m + 1 + 1) = !b
  | 0, h1, h2 => by rw [Nat.add_zero, h1] at h2; cases b <;> cases h2
  | n + 1, h1, h2 => by
    by_cases h : q lo hi x (j + n + 1) = b
    · exact ⟨n, by omega, h, h2⟩
    · obtain ⟨m, hm, r⟩ := first_change j n h1 (by revert h; cases q lo hi x (j + n + 1) <;> cases b <;> simp)
      exact ⟨m, by omega, r⟩

private theorem mul_mono {d : Int} (hd : 0 ≤ d) {m n : Nat} (h : m ≤ n) : (m : Int) * d ≤ n * d :=
  Int.mul_le_mul_of_nonneg_right (by omega) hd

/-- **C177**, how often the controller switches: between switching on (scan `j`) and a later scan `k` with HEAT off the value had to go from LO to HI, so
that `(k - j) * d` is not less than HI - LO; the same for switching off. -/
theorem C177_switching (lo hi d : Int) (hd : 0 ≤ d) (x : Nat → Int) (hp : HeatedProcess d x (thermostat lo hi x)) (j k : Nat)
    (hjk : j < k) :
    (thermostat lo hi x j = .ok true → (j = 0 ∨ thermostat lo hi x (j - 1) = .ok false) → thermostat lo hi x k = .ok false →
      hi - lo ≤ (k - j : Nat) * d) ∧
    (thermostat lo hi x j = .ok false → 0 < j → thermostat lo hi x (j - 1) = .ok true → thermostat lo hi x k = .ok true →
      hi - lo ≤ (k - j : Nat) * d) := by
  simp only [heat_iff]
  constructor
  · intro h1 h2 h3
    have hb : x j ≤ lo := by
      rcases ((q_succ lo hi x j).1 h1).2 with h | h
      · exact h
      · exfalso
        rcases h2 with rfl | h2
        · cases h
        · cases j with
          | zero => cases h
          | succ j => rw [Nat.add_sub_cancel] at h2; rw [h2] at h; cases h
    obtain ⟨m, hm, a1, a2⟩ := first_change (b := true) j (k - j) h1 (by rw [show j + (k - j) + 1 = k + 1 by omega]; exact h3)
    have ha : hi ≤ x (j + m + 1) := by
      by_contra hc
      have : q lo hi x (j + m + 1 + 1) = true := (q_succ lo hi x (j + m + 1)).2 ⟨by omega, .inr a1⟩
      rw [a2] at this
      cases this
    have := (drift hp j (m + 1)).1
    have := mul_mono hd (show m + 1 ≤ k - j by omega)
    rw [show j + (m + 1) = j + m + 1 by omega] at *
    omega
  · intro h1 hj h2 h3
    have hb : hi ≤ x j := by
      by_contra hc
      obtain ⟨i, rfl⟩ : ∃ i, j = i + 1 := ⟨j - 1, by omega⟩
      rw [Nat.add_sub_cancel] at h2
      have : q lo hi x (i + 1 + 1) = true := (q_succ lo hi x (i + 1)).2 ⟨by omega, .inr h2⟩
      rw [h1] at this
      cases this
    obtain ⟨m, hm, a1, a2⟩ := first_change (b := false) j (k - j) h1 (by rw [show j + (k - j) + 1 = k + 1 by omega]; exact h3)
    have ha : x (j + m + 1) ≤ lo := by
      rcases ((q_succ lo hi x (j + m + 1)).1 a2).2 with h | h
      · exact h
      · rw [a1] at h; cases h
    have := (drift hp j (m + 1)).2
    have := mul_mono hd (show m + 1 ≤ k - j by omega)
    rw [show j + (m + 1) = j + m + 1 by omega] at *
    omega

/-- **C177**, a process that reacts is not left to itself: the heating is switched off again after at most HI - X scans, and on again after at most X - LO. -/
theorem C177_reacts (lo hi : Int) (hl : lo < hi) (x : Nat → Int) (hr : ReactsToHeat x (thermostat lo hi x)) (k : Nat) :
    (thermostat lo hi x k = .ok true → ∃ j, k < j ∧ (j : Int) ≤ k + (hi - x k) ∧ thermostat lo hi x j = .ok false) ∧
    (thermostat lo hi x k = .ok false → ∃ j, k < j ∧ (j : Int) ≤ k + (x k - lo) ∧ thermostat lo hi x j = .ok true) := by
  simp only [heat_iff]
  have up : ∀ (n k : Nat), hi - x k ≤ n → q lo hi x (k + 1) = true → ∃ j, k < j ∧ (j : Int) ≤ k + (hi - x k) ∧ q lo hi x (j + 1) = false := by
    intro n
    induction n with
    | zero => intro k h1 h2; have := on_below h2; omega
    | succ n ih =>
      intro k h1 h2
      have hs := (hr k).1 ((heat_iff lo hi x k true).2 h2)
      have hb := on_below h2
      cases h3 : q lo hi x (k + 1 + 1) with
      | false => exact ⟨k + 1, by omega, by push_cast; omega, h3⟩
      | true =>
        obtain ⟨j, a1, a2, a3⟩ := ih (k + 1) (by push_cast at h1; omega) h3
        exact ⟨j, by omega, by push_cast at a2; omega, a3⟩
  have down : ∀ (n k : Nat), x k - lo ≤ n → q lo hi x (k + 1) = false → ∃ j, k < j ∧ (j : Int) ≤ k + (x k - lo) ∧ q lo hi x (j + 1) = true := by
    intro n
    induction n with
    | zero => intro k h1 h2; have := off_above hl h2; omega
    | succ n ih =>
      intro k h1 h2
      have hs := (hr k).2 ((heat_iff lo hi x k false).2 h2)
      have hb := off_above hl h2
      cases h3 : q lo hi x (k + 1 + 1) with
      | true => exact ⟨k + 1, by omega, by push_cast; omega, h3⟩
      | false =>
        obtain ⟨j, a1, a2, a3⟩ := ih (k + 1) (by push_cast at h1; omega) h3
        exact ⟨j, by omega, by push_cast at a2; omega, a3⟩
  exact ⟨up (hi - x k).toNat k (by omega), down (x k - lo).toNat k (by omega)⟩

/-! ### A process that meets the hypotheses -/

/-- One degree per scan, from 20 to 22 and back. -/
private def sawtooth (k : Nat) : Int := if k % 4 = 3 then 21 else 20 + (k % 4 : Nat)

private theorem mod4 (k : Nat) : (k % 4 = 0 ∧ (k + 1) % 4 = 1) ∨ (k % 4 = 1 ∧ (k + 1) % 4 = 2) ∨ (k % 4 = 2 ∧ (k + 1) % 4 = 3) ∨
    (k % 4 = 3 ∧ (k + 1) % 4 = 0) := by omega

private theorem sawtooth_q (k : Nat) : q 20 22 sawtooth (k + 1) = decide (k % 4 < 2) := by
  induction k with
  | zero => decide
  | succ k ih =>
    unfold q
    rw [ih]
    unfold sawtooth
    rcases mod4 k with ⟨h, h'⟩ | ⟨h, h'⟩ | ⟨h, h'⟩ | ⟨h, h'⟩ <;> simp [h, h']

example : HeatedProcess 1 sawtooth (thermostat 20 22 sawtooth) ∧ ReactsToHeat sawtooth (thermostat 20 22 sawtooth) := by
  have h : ∀ k, sawtooth (k + 1) = sawtooth k + if k % 4 < 2 then 1 else -1 := fun k => by
    unfold sawtooth
    rcases mod4 k with ⟨h, h'⟩ | ⟨h, h'⟩ | ⟨h, h'⟩ | ⟨h, h'⟩ <;> simp [h, h']
  constructor <;> intro k <;> simp only [heat_iff, sawtooth_q, h] <;> by_cases hk : k % 4 < 2 <;> simp [hk]

end Verif
