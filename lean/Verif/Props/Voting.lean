import Verif.Props.DelayChain
/-
C183: two out of three with a supervision of the sensors,
`OUT := (A AND B) OR (A AND C) OR (B AND C); d(IN := NOT (A = B AND B = C), PT := T); f(SET1 := d.Q, RESET := ACK); FAULT := f.Q1;`
-/
namespace Verif
open Spec TimerParams

/-- What a scan reads: the three sensors, the acknowledgement and the two clock readings of the timer. -/
structure VotingIn where
  a : Bool
  b : Bool
  c : Bool
  ack : Bool
  c1 : Nat
  c2 : Nat

/-- The sensors of a scan do not agree. -/
def VotingIn.differ (i : VotingIn) : Bool := !((i.a == i.b) && (i.b == i.c))

/-- One scan of the program (`TON`, src/timers.rs:109-131; `SR`, src/bistable_functionblocks.rs:23-25); the two instances and OUT. -/
def votingScan (T : Int) (s : TimerParams × SetResetParams × Bool) (i : VotingIn) : Res (TimerParams × SetResetParams × Bool) := do
  let d ← TON.call s.1 ⟨i.differ, T, i.c1, i.c2⟩
  let f ← SR.call s.2.1 ⟨d.output, i.ack⟩
  pure (d, f, (i.a && i.b) || (i.a && i.c) || (i.b && i.c))

/-- The instances and OUT after the first `k` scans. -/
def votingRun (T : Int) (x : Nat → VotingIn) : Nat → Res (TimerParams × SetResetParams × Bool)
  | 0 => .ok (TimerParams.default, SetResetParams.default, false)
  | k + 1 => do votingScan T (← votingRun T x k) (x k)

/-- OUT and FAULT in scan `k`, or how the program ended. -/
def voting (T : Int) (x : Nat → VotingIn) (k : Nat) : Res (Bool × Bool) := do
  let s ← votingRun T x (k + 1)
  pure (s.2.2, s.2.1.output)

namespace Spec
/-- The three sensors of a scan are the same. -/
def Agree (i : VotingIn) : Prop := i.a = i.b ∧ i.b = i.c

/-- In scan `k` the sensors have been different for longer than `T`: since a scan `j` before it. -/
def TooLong (T : Int) (x : Nat → VotingIn) (k : Nat) : Prop :=
  ∃ j, j < k ∧ (∀ i, j ≤ i → i ≤ k → ¬ Agree (x i)) ∧ (∀ i, j = i + 1 → Agree (x i)) ∧ T < ((x k).c2 : Int) - (x j).c1

/-- At least two of the three sensors of a scan show `v`. -/
def TwoShow (v : Bool) (i : VotingIn) : Prop := (i.a = v ∧ i.b = v) ∨ (i.a = v ∧ i.c = v) ∨ (i.b = v ∧ i.c = v)
end Spec

private theorem differ_iff (i : VotingIn) : i.differ = true ↔ ¬ Agree i := by
  obtain ⟨a, b, c, _, _, _⟩ := i
  cases a <;> cases b <;> cases c <;> simp [VotingIn.differ, Agree]

section
variable (T : Int) (x : Nat → VotingIn)

/-- The start of the timer and FAULT, before scan `k`. -/
private def vt : Nat → Option Nat × Bool
  | 0 => (none, false)
  | k + 1 => (tonNext (vt k).1 (x k).differ (x k).c1, tonQ T (vt k).1 (x k).differ (x k).c2 || (!(x k).ack && (vt k).2))

private theorem run_vt (hT : 0 ≤ T ∧ T < 2 ^ 63) (k : Nat) : ∃ s, votingRun T x k = .ok s ∧ TonIs s.1 (vt T x k).1 ∧ s.2.1.output = (vt T x k).2 ∧
    (∀ j, k = j + 1 → s.2.2 = (((x j).a && (x j).b) || ((x j).a && (x j).c) || ((x j).b && (x j).c))) := by
  induction k with
  | zero => exact ⟨_, rfl, ⟨rfl, fun _ => rfl⟩, rfl, fun _ h => by omega⟩
  | succ k ih =>
    obtain ⟨s, e, i1, i2, -⟩ := ih
    obtain ⟨t, e1, j1, q1⟩ := ton_is hT i1 (x k).differ (x k).c1 (x k).c2
    have e' : votingRun T x (k + 1) = .ok (t, SR { s.2.1 with set := t.output, reset := (x k).ack },
        ((x k).a && (x k).b) || ((x k).a && (x k).c) || ((x k).b && (x k).c)) := by
      rw [votingRun, e, Res.bind_ok, votingScan, e1, Res.bind_ok]; rfl
    refine ⟨_, e', j1, ?_, fun j h => by rw [show j = k by omega]⟩
    simp only [SR, vt, q1, i2]

variable {T x}

private theorem start_iff (k v : Nat) : (vt T x k).1 = some v ↔
    ∃ j, j < k ∧ (∀ i, j ≤ i → i < k → ¬ Agree (x i)) ∧ (∀ i, j = i + 1 → Agree (x i)) ∧ v = (x j).c1 := by
  induction k generalizing v with
  | zero => exact ⟨fun h => by simp [vt] at h, fun ⟨j, h, _⟩ => by omega⟩
  | succ k ih =>
    rw [vt]
    by_cases hd : Agree (x k)
    · have : (x k).differ = false := by
        rw [← Bool.not_eq_true, differ_iff]; exact fun h => h hd
      rw [this]
      exact ⟨fun h => by simp [tonNext] at h, fun ⟨j, h, h1, _⟩ => absurd hd (h1 k (by omega) (by omega))⟩
    · have : (x k).differ = true := (differ_iff _).2 hd
      rw [this]
      simp only [tonNext, if_true, Option.some.injEq]
      cases hv : (vt T x k).1 with
      | some w =>
        obtain ⟨j, h1, h2, h3, h4⟩ := (ih w).1 hv
        have h2' : ∀ i, j ≤ i → i < k + 1 → ¬ Agree (x i) := fun i a b => by
          rcases Nat.lt_or_ge i k with h | h
          · exact h2 i a h
          · rw [show i = k by omega]; exact hd
        rw [Option.getD_some]
        constructor
        · rintro rfl
          exact ⟨j, by omega, h2', h3, h4⟩
        · rintro ⟨j', g1, g2, g3, g4⟩
          have : j' = j := by
            rcases Nat.lt_trichotomy j' j with h | h | h
            · exact absurd (h3 (j - 1) (by omega)) (g2 (j - 1) (by omega) (by omega))
            · exact h
            · exact absurd (g3 (j' - 1) (by omega)) (h2' (j' - 1) (by omega) (by omega))
          rw [h4, g4, this]
      | none =>
        rw [Option.getD_none]
        have hno : ∀ i, k = i + 1 → Agree (x i) := by
          rintro i rfl
          by_cases hi : Agree (x i)
          · exact hi
          · rw [vt, (differ_iff _).2 hi] at hv
            simp [tonNext] at hv
        constructor
        · rintro rfl
          exact ⟨k, by omega, fun i a b => by rw [show i = k by omega]; exact hd, hno, rfl⟩
        · rintro ⟨j, g1, g2, g3, g4⟩
          rcases Nat.lt_or_ge j k with h | h
          · exact absurd (hno (k - 1) (by omega)) (g2 (k - 1) (by omega) (by omega))
          · rw [g4, show j = k by omega]

private theorem q_iff (hT : 0 ≤ T) (k : Nat) : tonQ T (vt T x k).1 (x k).differ (x k).c2 = true ↔ TooLong T x k := by
  constructor
  · intro h
    cases hv : (vt T x k).1 with
    | none => rw [hv] at h; simp [tonQ] at h
    | some v =>
      rw [hv] at h
      simp only [tonQ, Bool.and_eq_true, decide_eq_true_eq] at h
      obtain ⟨j, h1, h2, h3, h4⟩ := (start_iff k v).1 hv
      refine ⟨j, h1, fun i a b => ?_, h3, by omega⟩
      rcases Nat.lt_or_ge i k with h' | h'
      · exact h2 i a h'
      · rw [show i = k by omega]; exact (differ_iff _).1 h.1
  · rintro ⟨j, h1, h2, h3, h4⟩
    rw [(start_iff k (x j).c1).2 ⟨j, h1, fun i a b => h2 i a (by omega), h3, rfl⟩]
    simp only [tonQ, Bool.and_eq_true, decide_eq_true_eq]
    exact ⟨(differ_iff _).2 (h2 k (by omega) (by omega)), by omega⟩

private theorem fault_iff (hT : 0 ≤ T) (k : Nat) :
    (vt T x (k + 1)).2 = true ↔ ∃ i, i ≤ k ∧ TooLong T x i ∧ ∀ m, i < m → m ≤ k → (x m).ack = false := by
  have step : ∀ k, (vt T x (k + 1)).2 = true ↔ TooLong T x k ∨ ((x k).ack = false ∧ (vt T x k).2 = true) := by
    intro k
    rw [← q_iff hT k, vt]
    simp only [Bool.or_eq_true, Bool.and_eq_true, Bool.not_eq_true']
  induction k with
  | zero =>
    rw [step]
    constructor
    · rintro (h | ⟨-, h⟩)
      · exact ⟨0, Nat.le_refl _, h, fun m _ _ => by omega⟩
      · simp [vt] at h
    · rintro ⟨i, hi, h, -⟩
      rw [show i = 0 by omega] at h
      exact .inl h
  | succ k ih =>
    rw [step]
    constructor
    · rintro (h | ⟨h0, h⟩)
      · exact ⟨k + 1, Nat.le_refl _, h, fun m _ _ => by omega⟩
      · obtain ⟨i, hi, h1, h2⟩ := ih.1 h
        refine ⟨i, by omega, h1, fun m a b => ?_⟩
        rcases Nat.lt_or_ge k m with h | h
        · rw [show m = k + 1 by omega]; exact h0
        · exact h2 m a h
    · rintro ⟨i, hi, h1, h2⟩
      rcases Nat.lt_or_ge k i with h | h
      · rw [show i = k + 1 by omega] at h1; exact .inl h1
      · exact .inr ⟨h2 (k + 1) (by omega) (Nat.le_refl _), ih.2 ⟨i, h, h1, fun m a b => h2 m a (by omega)⟩⟩
end

/-- **C183.** The program never aborts. OUT is what at least two of the sensors show; FAULT is TRUE exactly if in some scan up to this one the sensors had been
different for longer than `T`, and there has been no acknowledgement after that scan. -/
theorem C183_voting (T : Int) (hT : 0 ≤ T ∧ T < 2 ^ 63) (x : Nat → VotingIn) (k : Nat) :
    ∃ out fault, voting T x k = .ok (out, fault) ∧ TwoShow out (x k) ∧
      (fault = true ↔ ∃ i, i ≤ k ∧ TooLong T x i ∧ ∀ m, i < m → m ≤ k → (x m).ack = false) := by
  obtain ⟨s, e, -, h1, h2⟩ := run_vt T x hT (k + 1)
  refine ⟨s.2.2, s.2.1.output, by rw [voting, e, Res.bind_ok]; rfl, ?_, by rw [h1, fault_iff hT.1]⟩
  rw [h2 k rfl, TwoShow]
  cases (x k).a <;> cases (x k).b <;> cases (x k).c <;> simp

/-- **C183**, one defective sensor: if in every scan at least two sensors show `v`, OUT is `v`; if moreover the third shows the contrary from scan `j` on, FAULT is
TRUE in every scan later than `T` after scan `j`, acknowledged or not. -/
theorem C183_one_defective (T : Int) (hT : 0 ≤ T ∧ T < 2 ^ 63) (x : Nat → VotingIn) (v : Nat → Bool) (hv : ∀ k, TwoShow (v k) (x k)) (j k : Nat)
    (hjk : j < k) (hd : ∀ i, j ≤ i → i ≤ k → ¬ Agree (x i)) (h0 : ∀ i, j = i + 1 → Agree (x i)) (hl : T < ((x k).c2 : Int) - (x j).c1) :
    voting T x k = .ok (v k, true) := by
  obtain ⟨out, fault, e, h1, h2⟩ := C183_voting T hT x k
  have hf : fault = true := h2.2 ⟨k, Nat.le_refl _, ⟨j, hjk, hd, h0, hl⟩, fun m _ _ => by omega⟩
  have ho : out = v k := by
    have := hv k
    simp only [TwoShow] at h1 this
    rcases h1 with ⟨p, q⟩ | ⟨p, q⟩ | ⟨p, q⟩ <;> rcases this with ⟨r, s⟩ | ⟨r, s⟩ | ⟨r, s⟩ <;> simp_all
  rw [e, hf, ho]

/-- **C183**, no false alarm: while the sensors have never been different for longer than `T`, FAULT is FALSE. -/
theorem C183_no_false_alarm (T : Int) (hT : 0 ≤ T ∧ T < 2 ^ 63) (x : Nat → VotingIn) (k : Nat) (h : ∀ i, i ≤ k → ¬ TooLong T x i) :
    ∃ out, voting T x k = .ok (out, false) := by
  obtain ⟨out, fault, e, -, h2⟩ := C183_voting T hT x k
  cases fault with
  | false => exact ⟨out, e⟩
  | true =>
    obtain ⟨i, hi, h', -⟩ := h2.1 rfl
    exact absurd h' (h i hi)

/-- Sensor C hangs at FALSE from scan 1 on while the others are TRUE: with T = 150 and scans every 100, FAULT comes in scan 3; acknowledging it in scan 4 is in vain,
acknowledging it in scan 6, with the sensor repaired, is not. -/
example :
    (List.range 7).map (voting 150 fun k => ⟨decide (1 ≤ k), decide (1 ≤ k), decide (5 ≤ k), k == 4 || k == 6, 100 * k, 100 * k⟩) =
      [.ok (false, false), .ok (true, false), .ok (true, false), .ok (true, true), .ok (true, true), .ok (true, true), .ok (true, false)] := by
  decide

/-- The hypotheses of `C183_one_defective`. -/
example : let x : Nat → VotingIn := fun k => ⟨decide (1 ≤ k), decide (1 ≤ k), false, false, 100 * k, 100 * k⟩
    (∀ k, TwoShow (decide (1 ≤ k)) (x k)) ∧ (∀ i, 1 ≤ i → i ≤ 3 → ¬ Agree (x i)) ∧ (∀ i, 1 = i + 1 → Agree (x i)) ∧
    (150 : Int) < ((x 3).c2 : Int) - (x 1).c1 := by
  refine ⟨fun k => .inl ⟨rfl, rfl⟩, fun i h _ => ?_, fun i h => ?_, by decide⟩
  · simp [Agree]; omega
  · rw [show i = 0 by omega]; exact ⟨rfl, rfl⟩

end Verif
