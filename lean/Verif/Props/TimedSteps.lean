import Verif.Props.DelayChain
/-
C184: a cycle of timed steps made of one on-delay, `t(IN := NOT t.Q, PT := D[STEP]); IF t.Q THEN STEP := (STEP + 1) MOD N; END_IF`.
-/
namespace Verif
open Spec TimerParams

/-- One scan of the program (`TON`, src/timers.rs:109-131): the instance and STEP; `d` are the durations. -/
def timedScan (n : Nat) (d : Nat → Int) (s : TimerParams × Nat) (c1 c2 : Nat) : Res (TimerParams × Nat) := do
  let t ← TON.call s.1 ⟨!s.1.output, d s.2, c1, c2⟩
  pure (t, if t.output then (s.2 + 1) % n else s.2)

/-- The instance and STEP after the first `k` scans. -/
def timedRun (n : Nat) (d : Nat → Int) (c1 c2 : Nat → Nat) : Nat → Res (TimerParams × Nat)
  | 0 => .ok (TimerParams.default, 0)
  | k + 1 => do timedScan n d (← timedRun n d c1 c2 k) (c1 k) (c2 k)

/-- STEP after scan `k`, or how the program ended. -/
def timedSteps (n : Nat) (d : Nat → Int) (c1 c2 : Nat → Nat) (k : Nat) : Res Nat := do
  pure (← timedRun n d c1 c2 (k + 1)).2

namespace Spec
/-- Scan `m` is the first after scan `s` that comes later than `T` after it. -/
structure FirstLater (T : Int) (c1 c2 : Nat → Nat) (s m : Nat) : Prop where
  after : s < m
  before : ∀ i, s < i → i < m → (c2 i : Int) - c1 s ≤ T
  later : T < (c2 m : Int) - c1 s

/-- Scan `s` starts the time of step `p`: scan 0 that of step 0, and the second scan after a step has ended that of the step after it, with step 0 after the last
of the `n` steps. -/
inductive StartsStep (n : Nat) (d : Nat → Int) (c1 c2 : Nat → Nat) : Nat → Nat → Prop where
  | first : StartsStep n d c1 c2 0 0
  | next {s p m : Nat} : StartsStep n d c1 c2 s p → FirstLater (d p) c1 c2 s m → StartsStep n d c1 c2 (m + 2) ((p + 1) % n)
end Spec

section
variable (n : Nat) (d : Nat → Int) (c1 c2 : Nat → Nat)

/-- The start of the timer, its output and STEP, before scan `k`. -/
private def ts : Nat → Option Nat × Bool × Nat
  | 0 => (none, false, 0)
  | k + 1 =>
    let p := ts k
    let q := tonQ (d p.2.2) p.1 (!p.2.1) (c2 k)
    (tonNext p.1 (!p.2.1) (c1 k), q, if q then (p.2.2 + 1) % n else p.2.2)

private theorem run_ts (hd : ∀ p, 0 ≤ d p ∧ d p < 2 ^ 63) (k : Nat) : ∃ s, timedRun n d c1 c2 k = .ok s ∧ TonIs s.1 (ts n d c1 c2 k).1 ∧
    s.1.output = (ts n d c1 c2 k).2.1 ∧ s.2 = (ts n d c1 c2 k).2.2 := by
  induction k with
  | zero => exact ⟨_, rfl, ⟨rfl, fun _ => rfl⟩, rfl, rfl⟩
  | succ k ih =>
    obtain ⟨s, e, i1, i2, i3⟩ := ih
    obtain ⟨t, e1, j1, q1⟩ := ton_is (hd s.2) i1 (!s.1.output) (c1 k) (c2 k)
    refine ⟨(t, if t.output then (s.2 + 1) % n else s.2), by rw [timedRun, e, Res.bind_ok, timedScan, e1, Res.bind_ok]; rfl, ?_, ?_, ?_⟩
    · rw [ts, ← i2]; exact j1
    · rw [ts, ← i2, ← i3]; exact q1
    · rw [ts, ← i2, ← i3, ← q1]

variable {n d c1 c2}

private theorem step_eq (hd : ∀ p, 0 ≤ d p ∧ d p < 2 ^ 63) (k : Nat) : timedSteps n d c1 c2 k = .ok (ts n d c1 c2 (k + 1)).2.2 := by
  obtain ⟨s, e, -, -, h⟩ := run_ts n d c1 c2 hd (k + 1)
  rw [timedSteps, e, Res.bind_ok, ← h]; rfl

private theorem holds {s p : Nat} (h : ts n d c1 c2 s = (none, false, p)) : ∀ k, (∀ i, s < i → i ≤ s + k → (c2 i : Int) - c1 s ≤ d p) → (0 ≤ d p) →
    ts n d c1 c2 (s + k + 1) = (some (c1 s), false, p)
  | 0, _, _ => by rw [Nat.add_zero, ts, h]; simp [tonQ, tonNext]
  | k + 1, hk, h0 => by
    have ih := holds h k (fun i a b => hk i a (by omega)) h0
    have := hk (s + k + 1) (by omega) (by omega)
    rw [show s + (k + 1) + 1 = (s + k + 1) + 1 by omega, ts, ih]
    have hq : tonQ (d p) (some (c1 s)) true (c2 (s + k + 1)) = false := by
      simp [tonQ]; omega
    simp [hq, tonNext]

private theorem ends {s p m : Nat} (h : ts n d c1 c2 s = (none, false, p)) (h0 : 0 ≤ d p) (hm : FirstLater (d p) c1 c2 s m) :
    ts n d c1 c2 (m + 1) = (some (c1 s), true, (p + 1) % n) ∧ ts n d c1 c2 (m + 2) = (none, false, (p + 1) % n) := by
  obtain ⟨h1, h2, h3⟩ := hm
  have e := holds h (m - s - 1) (fun i a b => h2 i a (by omega)) h0
  rw [show s + (m - s - 1) + 1 = m by omega] at e
  have e' : ts n d c1 c2 (m + 1) = (some (c1 s), true, (p + 1) % n) := by
    rw [ts, e]
    have hq : tonQ (d p) (some (c1 s)) true (c2 m) = true := by
      simp [tonQ]; omega
    simp [hq, tonNext]
  refine ⟨e', ?_⟩
  rw [ts, e']
  simp [tonQ, tonNext]

private theorem starts_ts (hd : ∀ p, 0 ≤ d p ∧ d p < 2 ^ 63) {s p : Nat} (h : StartsStep n d c1 c2 s p) : ts n d c1 c2 s = (none, false, p) := by
  induction h with
  | first => rfl
  | next _ hm ih => exact (ends ih (hd _).1 hm).2
end

private theorem least {P : Nat → Prop} (k : Nat) (h : P k) : ∃ m, P m ∧ ∀ i, i < m → ¬ P i := by
  induction k using Nat.strongRecOn with
  | ind k ih =>
    by_cases hk : ∃ i, i < k ∧ P i
    · obtain ⟨i, hi, hp⟩ := hk
      exact ih i hi hp
    · exact ⟨k, h, fun i hi hp => hk ⟨i, hi, hp⟩⟩

/-- **C184**, a step is held: after the scan `s` that starts its time, STEP is `p` for as long as no later scan comes later than the duration of the step. -/
theorem C184_held (n : Nat) (d : Nat → Int) (hd : ∀ p, 0 ≤ d p ∧ d p < 2 ^ 63) (c1 c2 : Nat → Nat) (s p k : Nat) (h : StartsStep n d c1 c2 s p) (hk : s ≤ k)
    (hi : ∀ i, s < i → i ≤ k → (c2 i : Int) - c1 s ≤ d p) : timedSteps n d c1 c2 k = .ok p := by
  have := holds (starts_ts hd h) (k - s) (fun i a b => hi i a (by omega)) (hd p).1
  rw [show s + (k - s) + 1 = k + 1 by omega] at this
  rw [step_eq hd, this]

/-- **C184**, the next step: the first scan that comes later than the duration of the step ends it, and STEP has its new value in this scan and in the next one. -/
theorem C184_next (n : Nat) (d : Nat → Int) (hd : ∀ p, 0 ≤ d p ∧ d p < 2 ^ 63) (c1 c2 : Nat → Nat) (s p m : Nat) (h : StartsStep n d c1 c2 s p)
    (hm : FirstLater (d p) c1 c2 s m) :
    timedSteps n d c1 c2 m = .ok ((p + 1) % n) ∧ timedSteps n d c1 c2 (m + 1) = .ok ((p + 1) % n) := by
  obtain ⟨e1, e2⟩ := ends (starts_ts hd h) (hd p).1 hm
  rw [step_eq hd, step_eq hd, e1, e2]
  exact ⟨rfl, rfl⟩

/-- **C184**, no step is skipped and none lasts for ever: if the clock goes on, then after any scan `K` every one of the `n` steps has its turn. -/
theorem C184_all_steps (n : Nat) (d : Nat → Int) (hd : ∀ p, 0 ≤ d p ∧ d p < 2 ^ 63) (c1 c2 : Nat → Nat) (hc : ∀ r, ∃ k, ∀ i, k ≤ i → r < c2 i)
    (p : Nat) (hp : p < n) (K : Nat) : ∃ s, K ≤ s ∧ StartsStep n d c1 c2 s p ∧ timedSteps n d c1 c2 s = .ok p := by
  have next : ∀ {s p}, StartsStep n d c1 c2 s p → ∃ s', s < s' ∧ StartsStep n d c1 c2 s' ((p + 1) % n) := by
    intro s p h
    obtain ⟨k, hk⟩ := hc (c1 s + (d p).toNat)
    have hd' := (hd p).1
    obtain ⟨m, ⟨m1, m2⟩, m3⟩ := least (P := fun m => s < m ∧ d p < (c2 m : Int) - c1 s) (k + s + 1)
      ⟨by omega, by have := hk (k + s + 1) (by omega); omega⟩
    exact ⟨m + 2, by omega, .next h ⟨m1, fun i a b => by have := m3 i b; omega, m2⟩⟩
  have any : ∀ j, ∃ s q, j ≤ s ∧ StartsStep n d c1 c2 s q ∧ q < n := by
    intro j
    induction j with
    | zero => exact ⟨0, 0, Nat.le_refl _, .first, by omega⟩
    | succ j ih =>
      obtain ⟨s, q, h1, h2, h3⟩ := ih
      obtain ⟨s', g1, g2⟩ := next h2
      exact ⟨s', _, by omega, g2, Nat.mod_lt _ (by omega)⟩
  have go : ∀ j s q, StartsStep n d c1 c2 s q → ∃ s', s ≤ s' ∧ StartsStep n d c1 c2 s' ((q + j) % n) ∨ j = 0 := by
    intro j
    induction j with
    | zero => exact fun s q _ => ⟨s, .inr rfl⟩
    | succ j ih =>
      intro s q h
      obtain ⟨s1, g1, g2⟩ := next h
      obtain ⟨s2, h | h⟩ := ih s1 _ g2
      · refine ⟨s2, .inl ⟨by omega, ?_⟩⟩
        have e : ((q + 1) % n + j) % n = (q + (j + 1)) % n := by rw [Nat.mod_add_mod, show q + 1 + j = q + (j + 1) by omega]
        rw [← e]; exact h.2
      · subst h
        exact ⟨s1, .inl ⟨by omega, g2⟩⟩
  obtain ⟨s, q, h1, h2, h3⟩ := any K
  obtain ⟨s', h | h⟩ := go (n - q + p) s q h2
  · rw [show q + (n - q + p) = p + n by omega, Nat.add_mod_right, Nat.mod_eq_of_lt hp] at h
    exact ⟨s', by omega, h.2, C184_held n d hd c1 c2 s' p s' h.2 (Nat.le_refl _) fun i _ _ => by omega⟩
  · omega

/-- Three steps of 150, 0 and 250, with a scan every 100. -/
example : (List.range 14).map (timedSteps 3 (fun p => [150, 0, 250].getD p 0) (fun i => 100 * i) (fun i => 100 * i)) =
    [.ok 0, .ok 0, .ok 1, .ok 1, .ok 1, .ok 2, .ok 2, .ok 2, .ok 2, .ok 2, .ok 0, .ok 0, .ok 0, .ok 0] := by
  decide

/-- The hypotheses of `C184_next` in this example, for step 0. -/
example : StartsStep 3 (fun p => [150, 0, 250].getD p 0) (fun i => 100 * i) (fun i => 100 * i) 0 0 ∧ FirstLater 150 (fun i => 100 * i) (fun i => 100 * i) 0 2 :=
  ⟨.first, by omega, fun i _ _ => by omega, by decide⟩

/-- A clock that goes on. -/
example : ∀ r, ∃ k, ∀ i, k ≤ i → r < 100 * i := fun r => ⟨r + 1, fun i _ => by omega⟩

end Verif
