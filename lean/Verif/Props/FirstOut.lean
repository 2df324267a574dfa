import Verif.Model.Flanks
/-
C182: a first-out annunciator, `FOR i := 0 TO N - 1 DO f[i](SET := X[i] AND NOT ANY, RESET1 := ACK); END_FOR ANY := f[0].Q1 OR ... OR f[N - 1].Q1;`
-/
namespace Verif

/-- One scan of the program on `n` alarms (`RS`, src/bistable_functionblocks.rs:35-37): `x` are the alarms, `ack` is the acknowledgement; the instances and ANY. -/
def firstOutScan (n : Nat) (s : List SetResetParams × Bool) (x : Nat → Bool) (ack : Bool) : Res (List SetResetParams × Bool) := do
  let f ← (List.range n).mapM fun i => RS.call (s.1.getD i SetResetParams.default) ⟨x i && !s.2, ack⟩
  pure (f, f.any (·.output))

/-- The instances and ANY after the first `k` scans. -/
def firstOutRun (n : Nat) (x : Nat → Nat → Bool) (ack : Nat → Bool) : Nat → Res (List SetResetParams × Bool)
  | 0 => .ok (List.replicate n SetResetParams.default, false)
  | k + 1 => do firstOutScan n (← firstOutRun n x ack k) (x k) (ack k)

/-- The lamp of alarm `i` in scan `k`, or how the program ended. -/
def firstOut (n : Nat) (x : Nat → Nat → Bool) (ack : Nat → Bool) (k i : Nat) : Res Bool := do
  pure ((← firstOutRun n x ack (k + 1)).1.getD i SetResetParams.default).output

namespace Spec
/-- An alarm of scan `j` is pending in scan `k`: one of the `n` alarms was TRUE in scan `j`, and there has been no acknowledgement since, that scan included. -/
def Pending (n : Nat) (x : Nat → Nat → Bool) (ack : Nat → Bool) (j k : Nat) : Prop :=
  j ≤ k ∧ (∃ i, i < n ∧ x j i = true) ∧ ∀ m, j ≤ m → m ≤ k → ack m = false

/-- Alarm `i` was among the first: it was TRUE in scan `j`, which is pending in scan `k`, and no alarm was pending when scan `j` began. -/
def AmongFirst (n : Nat) (x : Nat → Nat → Bool) (ack : Nat → Bool) (k i : Nat) : Prop :=
  ∃ j, Pending n x ack j k ∧ x j i = true ∧ ∀ j' j'', j = j'' + 1 → ¬ Pending n x ack j' j''
end Spec
open Spec

section
variable (n : Nat) (x : Nat → Nat → Bool) (ack : Nat → Bool)

private theorem mapM_ok {A B : Type} (f : A → B) : ∀ l : List A, l.mapM (fun a => (.ok (f a) : Res B)) = .ok (l.map f)
  | [] => rfl
  | a :: l => by rw [List.mapM_cons, mapM_ok f l]; rfl

/-- The lamps and ANY before scan `k`. -/
private def lamps : Nat → (Nat → Bool) × Bool
  | 0 => (fun _ => false, false)
  | k + 1 =>
    let l := fun i => !ack k && ((x k i && !(lamps k).2) || (lamps k).1 i)
    (l, (List.range n).any l)

private theorem run_lamps (k : Nat) : ∃ s, firstOutRun n x ack k = .ok s ∧ (∀ i, i < n → (s.1.getD i SetResetParams.default).output = (lamps n x ack k).1 i) ∧
    s.2 = (lamps n x ack k).2 := by
  induction k with
  | zero => exact ⟨_, rfl, fun i hi => by simp [lamps, hi, SetResetParams.default], rfl⟩
  | succ k ih =>
    obtain ⟨s, e, h1, h2⟩ := ih
    have hm := mapM_ok (fun i => RS { s.1.getD i SetResetParams.default with set := x k i && !s.2, reset := ack k }) (List.range n)
    refine ⟨_, by rw [firstOutRun, e, Res.bind_ok, firstOutScan]; exact (congrArg (· >>= _) hm), ?_, ?_⟩
    · intro i hi
      have := h1 i hi
      simp only [List.getD_eq_getElem?_getD, List.getElem?_map, List.getElem?_range hi, Option.map_some, Option.getD_some, RS] at this ⊢
      rw [this, h2]
      rfl
    · simp only [lamps, List.any_map]
      rw [Bool.eq_iff_iff]
      simp only [List.any_eq_true, List.mem_range]
      constructor
      · rintro ⟨i, hi, h⟩
        refine ⟨i, hi, ?_⟩
        have := h1 i hi
        simp only [Function.comp, RS] at h
        rw [this, h2] at h
        exact h
      · rintro ⟨i, hi, h⟩
        refine ⟨i, hi, ?_⟩
        have := h1 i hi
        simp only [Function.comp, RS]
        rw [this, h2]
        exact h

variable {n x ack}

private theorem lamp_eq {i : Nat} (hi : i < n) (k : Nat) : firstOut n x ack k i = .ok ((lamps n x ack (k + 1)).1 i) := by
  obtain ⟨s, e, h, -⟩ := run_lamps n x ack (k + 1)
  rw [firstOut, e, Res.bind_ok, ← h i hi]; rfl

private theorem pending_succ {j k : Nat} : Pending n x ack j (k + 1) ↔ ack (k + 1) = false ∧ (Pending n x ack j k ∨ (j = k + 1 ∧ ∃ i, i < n ∧ x j i = true)) := by
  constructor
  · rintro ⟨h1, h2, h3⟩
    refine ⟨h3 _ h1 (Nat.le_refl _), ?_⟩
    rcases Nat.lt_or_ge k j with h | h
    · exact .inr ⟨by omega, h2⟩
    · exact .inl ⟨h, h2, fun m a b => h3 m a (by omega)⟩
  · rintro ⟨h0, ⟨h1, h2, h3⟩ | ⟨rfl, h2⟩⟩
    · refine ⟨by omega, h2, fun m a b => ?_⟩
      rcases Nat.lt_or_ge k m with h | h
      · rw [show m = k + 1 by omega]; exact h0
      · exact h3 m a h
    · exact ⟨Nat.le_refl _, h2, fun m a b => by rw [show m = k + 1 by omega]; exact h0⟩

private theorem any_iff (k : Nat) : (lamps n x ack (k + 1)).2 = true ↔ ∃ i, i < n ∧ (lamps n x ack (k + 1)).1 i = true := by
  simp [lamps]

private theorem lamps_iff (k : Nat) : (∀ i, i < n → ((lamps n x ack (k + 1)).1 i = true ↔ AmongFirst n x ack k i)) ∧
    ((lamps n x ack (k + 1)).2 = true ↔ ∃ j, Pending n x ack j k) := by
  induction k with
  | zero =>
    have hl : ∀ i, (lamps n x ack 1).1 i = true ↔ ack 0 = false ∧ x 0 i = true := fun i => by simp [lamps]
    constructor
    · intro i hi
      rw [hl]
      constructor
      · rintro ⟨h1, h2⟩
        exact ⟨0, ⟨Nat.le_refl _, ⟨i, hi, h2⟩, fun m _ h => by rw [show m = 0 by omega]; exact h1⟩, h2, fun _ _ h => by omega⟩
      · rintro ⟨j, ⟨h0, -, h1⟩, h2, -⟩
        rw [show j = 0 by omega] at h2
        exact ⟨h1 0 (by omega) (by omega), h2⟩
    · rw [any_iff]
      constructor
      · rintro ⟨i, hi, h⟩
        obtain ⟨h1, h2⟩ := (hl i).1 h
        exact ⟨0, Nat.le_refl _, ⟨i, hi, h2⟩, fun m _ h => by rw [show m = 0 by omega]; exact h1⟩
      · rintro ⟨j, h0, ⟨i, hi, h2⟩, h1⟩
        rw [show j = 0 by omega] at h2
        exact ⟨i, hi, (hl i).2 ⟨h1 0 (by omega) (by omega), h2⟩⟩
  | succ k ih =>
    obtain ⟨ih1, ih2⟩ := ih
    have hl : ∀ i, (lamps n x ack (k + 2)).1 i = true ↔
        ack (k + 1) = false ∧ ((x (k + 1) i = true ∧ ¬ (lamps n x ack (k + 1)).2 = true) ∨ (lamps n x ack (k + 1)).1 i = true) := by
      intro i
      rw [lamps]
      simp only [Bool.and_eq_true, Bool.or_eq_true, Bool.not_eq_true', Bool.not_eq_true]
    constructor
    · intro i hi
      rw [hl, ih1 i hi, ih2]
      constructor
      · rintro ⟨h0, ⟨h1, h2⟩ | ⟨j, h1, h2, h3⟩⟩
        · refine ⟨k + 1, pending_succ.2 ⟨h0, .inr ⟨rfl, i, hi, h1⟩⟩, h1, fun j' j'' e h => h2 ⟨j', ?_⟩⟩
          rwa [show k = j'' by omega]
        · exact ⟨j, pending_succ.2 ⟨h0, .inl h1⟩, h2, h3⟩
      · rintro ⟨j, h1, h2, h3⟩
        obtain ⟨h0, h1 | ⟨rfl, -⟩⟩ := pending_succ.1 h1
        · exact ⟨h0, .inr ⟨j, h1, h2, h3⟩⟩
        · exact ⟨h0, .inl ⟨h2, fun ⟨j', h⟩ => h3 j' k rfl h⟩⟩
    · rw [any_iff]
      constructor
      · rintro ⟨i, hi, h⟩
        rw [hl, ih1 i hi] at h
        obtain ⟨h0, ⟨h1, -⟩ | ⟨j, h1, -⟩⟩ := h
        · exact ⟨k + 1, pending_succ.2 ⟨h0, .inr ⟨rfl, i, hi, h1⟩⟩⟩
        · exact ⟨j, pending_succ.2 ⟨h0, .inl h1⟩⟩
      · rintro ⟨j, h⟩
        obtain ⟨h0, h⟩ := pending_succ.1 h
        by_cases ha : (lamps n x ack (k + 1)).2 = true
        · obtain ⟨i, hi, h1⟩ := (any_iff k).1 ha
          exact ⟨i, hi, (hl i).2 ⟨h0, .inr h1⟩⟩
        · rcases h with h | ⟨rfl, i, hi, h⟩
          · exact absurd (ih2.2 ⟨j, h⟩) ha
          · exact ⟨i, hi, (hl i).2 ⟨h0, .inl ⟨h, ha⟩⟩⟩
end

/-- **C182.** The program never aborts, for any number of alarms. The lamp of an alarm is on exactly if the alarm was among the first since the last
acknowledgement. -/
theorem C182_lamp (n : Nat) (x : Nat → Nat → Bool) (ack : Nat → Bool) (k i : Nat) (hi : i < n) :
    ∃ b, firstOut n x ack k i = .ok b ∧ (b = true ↔ AmongFirst n x ack k i) :=
  ⟨_, lamp_eq hi k, (lamps_iff k).1 i hi⟩

/-- **C182**, no alarm is lost: while an alarm is pending, a lamp is on. -/
theorem C182_none_lost (n : Nat) (x : Nat → Nat → Bool) (ack : Nat → Bool) (j k : Nat) (h : Pending n x ack j k) :
    ∃ i, i < n ∧ firstOut n x ack k i = .ok true := by
  obtain ⟨i, hi, h⟩ := (any_iff k).1 ((lamps_iff k).2.2 ⟨j, h⟩)
  exact ⟨i, hi, by rw [lamp_eq hi, h]⟩

/-- **C182**, later alarms do not change the lamps: while an alarm is pending, and until it is acknowledged, every lamp stays as it is. -/
theorem C182_later_alarms (n : Nat) (x : Nat → Nat → Bool) (ack : Nat → Bool) (j k l i : Nat) (hi : i < n) (h : Pending n x ack j k) (hkl : k ≤ l)
    (ha : ∀ m, k ≤ m → m ≤ l → ack m = false) : firstOut n x ack l i = firstOut n x ack k i := by
  obtain ⟨d, rfl⟩ : ∃ d, l = k + d := ⟨l - k, by omega⟩
  clear hkl
  induction d with
  | zero => rfl
  | succ d ih =>
    have ih := ih fun m a b => ha m a (by omega)
    rw [← ih, lamp_eq hi, lamp_eq hi]
    have hany : (lamps n x ack (k + d + 1)).2 = true := (lamps_iff (k + d)).2.2 ⟨j, by have := h.1; omega, h.2.1, fun m a b => by
      rcases Nat.lt_or_ge m k with h' | h'
      · exact h.2.2 m a (by omega)
      · exact ha m h' (by omega)⟩
    have h0 := ha (k + d + 1) (by omega) (by omega)
    rw [show k + (d + 1) + 1 = (k + d + 1) + 1 by omega, lamps]
    simp [hany, h0]

/-- Three alarms: 1 and 2 come together in scan 1, 0 follows in scan 2, scan 4 acknowledges; alarm 0 is still there in scan 5. -/
example :
    (let x : Nat → Nat → Bool := fun k i => decide ((k = 1 ∧ (i = 1 ∨ i = 2)) ∨ (2 ≤ k ∧ i = 0))
     (List.range 6).map fun k => (List.range 3).map (firstOut 3 x (fun k => k == 4) k)) =
      [[.ok false, .ok false, .ok false], [.ok false, .ok true, .ok true], [.ok false, .ok true, .ok true], [.ok false, .ok true, .ok true],
        [.ok false, .ok false, .ok false], [.ok true, .ok false, .ok false]] := by
  decide

example : Pending 3 (fun k i => decide (k = 1 ∧ i = 1)) (fun k => k == 4) 1 3 :=
  ⟨by omega, ⟨1, by omega, rfl⟩, fun m _ _ => by simp; omega⟩

end Verif
