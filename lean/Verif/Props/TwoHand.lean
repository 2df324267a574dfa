import Verif.Props.DelayChain
/-
C181: a two-hand control,
`t(IN := A OR B, PT := T); l(SET := A AND B AND NOT t.Q AND r.Q1, RESET1 := NOT (A AND B)); r(SET1 := NOT (A OR B), RESET := l.Q1); OUT := l.Q1;`
-/
namespace Verif
open Spec TimerParams

/-- The instances of the program: `t` of TON, `l` of RS, `r` of SR. -/
structure TwoHand where
  t : TimerParams
  l : SetResetParams
  r : SetResetParams

/-- One scan of the program (`TON`, src/timers.rs:109-131; `RS`, `SR`, src/bistable_functionblocks.rs:23-37). `a`, `b` are the buttons, `c1`, `c2` the clock
readings. -/
def twoHandScan (T : Int) (s : TwoHand) (a b : Bool) (c1 c2 : Nat) : Res TwoHand := do
  let t ← TON.call s.t ⟨a || b, T, c1, c2⟩
  let l ← RS.call s.l ⟨a && b && !t.output && s.r.output, !(a && b)⟩
  let r ← SR.call s.r ⟨!(a || b), l.output⟩
  pure ⟨t, l, r⟩

/-- The instances after the first `k` scans. -/
def twoHandRun (T : Int) (a b : Nat → Bool) (c1 c2 : Nat → Nat) : Nat → Res TwoHand
  | 0 => .ok ⟨TimerParams.default, SetResetParams.default, SetResetParams.default⟩
  | k + 1 => do twoHandScan T (← twoHandRun T a b c1 c2 k) (a k) (b k) (c1 k) (c2 k)

/-- OUT in scan `k`, or how the program ended. -/
def twoHand (T : Int) (a b : Nat → Bool) (c1 c2 : Nat → Nat) (k : Nat) : Res Bool := do
  pure (← twoHandRun T a b c1 c2 (k + 1)).l.output

namespace Spec
/-- A stroke that is on in scan `k`: both buttons were released in scan `z`, at least one of them has been pressed since, both have been pressed since scan `j`,
and scan `j` came at most `T` after the first scan with a button pressed. -/
structure Stroke (T : Int) (a b : Nat → Bool) (c1 c2 : Nat → Nat) (z j k : Nat) : Prop where
  order : z < j ∧ j ≤ k
  released : a z = false ∧ b z = false
  pressed : ∀ i, z < i → i ≤ k → a i = true ∨ b i = true
  both : ∀ i, j ≤ i → i ≤ k → a i = true ∧ b i = true
  inTime : j = z + 1 ∨ (c2 j : Int) - c1 (z + 1) ≤ T
end Spec

section
variable (T : Int) (a b : Nat → Bool) (c1 c2 : Nat → Nat)

/-- The start of the timer, OUT and the readiness for a stroke, before scan `k`. -/
private def th : Nat → Option Nat × Bool × Bool
  | 0 => (none, false, false)
  | k + 1 =>
    let p := th k
    let l := a k && b k && (a k && b k && !tonQ T p.1 (a k || b k) (c2 k) && p.2.2 || p.2.1)
    (tonNext p.1 (a k || b k) (c1 k), l, !(a k || b k) || (!l && p.2.2))

private theorem run_th (hT : 0 ≤ T ∧ T < 2 ^ 63) (k : Nat) : ∃ s, twoHandRun T a b c1 c2 k = .ok s ∧ TonIs s.t (th T a b c1 c2 k).1 ∧
    s.l.output = (th T a b c1 c2 k).2.1 ∧ s.r.output = (th T a b c1 c2 k).2.2 := by
  induction k with
  | zero => exact ⟨_, rfl, ⟨rfl, fun _ => rfl⟩, rfl, rfl⟩
  | succ k ih =>
    obtain ⟨s, e, i1, i2, i3⟩ := ih
    obtain ⟨t, e1, j1, q1⟩ := ton_is hT i1 (a k || b k) (c1 k) (c2 k)
    have e' : twoHandRun T a b c1 c2 (k + 1) = .ok ⟨t, RS { s.l with set := a k && b k && !t.output && s.r.output, reset := !(a k && b k) },
        SR { s.r with set := !(a k || b k), reset := (RS { s.l with set := a k && b k && !t.output && s.r.output, reset := !(a k && b k) }).output }⟩ := by
      rw [twoHandRun, e, Res.bind_ok, twoHandScan, e1, Res.bind_ok]; rfl
    refine ⟨_, e', j1, ?_, ?_⟩
    · simp only [RS, th, q1, i2, i3, Bool.not_not]
    · simp only [SR, RS, th, q1, i2, i3, Bool.not_not]

variable {T a b c1 c2}

private theorem out_eq (hT : 0 ≤ T ∧ T < 2 ^ 63) (k : Nat) : twoHand T a b c1 c2 k = .ok (th T a b c1 c2 (k + 1)).2.1 := by
  obtain ⟨s, e, -, h, -⟩ := run_th T a b c1 c2 hT (k + 1)
  rw [twoHand, e, Res.bind_ok, ← h]; rfl

/-- What is known before scan `k`. -/
private def ThInv (T : Int) (a b : Nat → Bool) (c1 c2 : Nat → Nat) (k : Nat) : Prop :=
  ((th T a b c1 c2 k).2.2 = true → ∃ z, z < k ∧ (a z = false ∧ b z = false) ∧ (∀ i, z < i → i < k → a i = true ∨ b i = true) ∧
    (∀ i, z ≤ i → i < k → (th T a b c1 c2 (i + 1)).2.1 = false) ∧ (th T a b c1 c2 k).1 = if z + 1 = k then none else some (c1 (z + 1))) ∧
  ((th T a b c1 c2 k).2.1 = true → 0 < k ∧ ∃ z j, Stroke T a b c1 c2 z j (k - 1) ∧ ∀ i, z ≤ i → i < j → (th T a b c1 c2 (i + 1)).2.1 = false)

private theorem th_inv (k : Nat) : ThInv T a b c1 c2 k := by
  induction k with
  | zero => exact ⟨fun h => by simp [th] at h, fun h => by simp [th] at h⟩
  | succ k ih =>
    obtain ⟨ih1, ih2⟩ := ih
    refine ⟨fun h => ?_, fun h => ?_⟩
    · have hl : (th T a b c1 c2 (k + 1)).2.2 = (!(a k || b k) || (!(th T a b c1 c2 (k + 1)).2.1 && (th T a b c1 c2 k).2.2)) := rfl
      rw [hl] at h
      by_cases hp : a k = true ∨ b k = true
      · have hr : (th T a b c1 c2 (k + 1)).2.1 = false ∧ (th T a b c1 c2 k).2.2 = true := by
          rcases hp with hp | hp <;> simpa [hp] using h
        obtain ⟨z, hz, h1, h2, h3, h4⟩ := ih1 hr.2
        refine ⟨z, by omega, h1, fun i a1 a2 => ?_, fun i a1 a2 => ?_, ?_⟩
        · rcases Nat.lt_or_ge i k with h | h
          · exact h2 i a1 h
          · rw [show i = k by omega]; exact hp
        · rcases Nat.lt_or_ge i k with h | h
          · exact h3 i a1 h
          · rw [show i = k by omega]; exact hr.1
        · have e : (th T a b c1 c2 (k + 1)).1 = tonNext (th T a b c1 c2 k).1 (a k || b k) (c1 k) := rfl
          have hor : (a k || b k) = true := by simpa using hp
          rw [e, h4, hor, if_neg (show ¬ z + 1 = k + 1 by omega)]
          by_cases hk : z + 1 = k
          · rw [if_pos hk, hk]; rfl
          · rw [if_neg hk]; rfl
      · have hp : a k = false ∧ b k = false := by simpa using hp
        refine ⟨k, by omega, hp, fun i _ _ => by omega, fun i _ _ => ?_, ?_⟩
        · rw [show i = k by omega]; simp [th, hp.1]
        · simp [th, hp.1, hp.2, tonNext]
    · refine ⟨by omega, ?_⟩
      rw [Nat.add_sub_cancel]
      have hl : (th T a b c1 c2 (k + 1)).2.1 = (a k && b k && (a k && b k && !tonQ T (th T a b c1 c2 k).1 (a k || b k) (c2 k) && (th T a b c1 c2 k).2.2 ||
        (th T a b c1 c2 k).2.1)) := rfl
      rw [hl] at h
      simp only [Bool.and_eq_true, Bool.or_eq_true, Bool.not_eq_true'] at h
      obtain ⟨⟨ha, hb⟩, ⟨⟨-, hq⟩, hr⟩ | ho⟩ := h
      · obtain ⟨z, hz, h1, h2, h3, h4⟩ := ih1 hr
        refine ⟨z, k, ⟨⟨hz, Nat.le_refl _⟩, h1, fun i a1 a2 => ?_, fun i a1 a2 => ?_, ?_⟩, h3⟩
        · rcases Nat.lt_or_ge i k with h | h
          · exact h2 i a1 h
          · rw [show i = k by omega]; exact .inl ha
        · rw [show i = k by omega]; exact ⟨ha, hb⟩
        · by_cases hk : z + 1 = k
          · exact .inl hk.symm
          · rw [h4, if_neg hk, ha] at hq
            simp [tonQ] at hq
            right; omega
      · obtain ⟨h0, z, j, ⟨o1, o2, o3, o4, o5⟩, h2⟩ := ih2 ho
        refine ⟨z, j, ⟨⟨o1.1, by omega⟩, o2, fun i a1 a2 => ?_, fun i a1 a2 => ?_, o5⟩, h2⟩
        · rcases Nat.lt_or_ge i k with h | h
          · exact o3 i a1 (by omega)
          · rw [show i = k by omega]; exact .inl ha
        · rcases Nat.lt_or_ge i k with h | h
          · exact o4 i a1 (by omega)
          · rw [show i = k by omega]; exact ⟨ha, hb⟩

end

/-- **C181.** The program never aborts. -/
theorem C181_total (T : Int) (hT : 0 ≤ T ∧ T < 2 ^ 63) (a b : Nat → Bool) (c1 c2 : Nat → Nat) (k : Nat) : ∃ q, twoHand T a b c1 c2 k = .ok q :=
  ⟨_, out_eq hT k⟩

/-- **C181**, safety: whenever OUT is TRUE, both buttons have been pressed since a scan `j`, at most `T` after the first of them, both were released before that,
and OUT was FALSE from then until scan `j` (so there is one stroke for each time that both buttons are released). -/
theorem C181_safe (T : Int) (hT : 0 ≤ T ∧ T < 2 ^ 63) (a b : Nat → Bool) (c1 c2 : Nat → Nat) (k : Nat) (h : twoHand T a b c1 c2 k = .ok true) :
    ∃ z j, Stroke T a b c1 c2 z j k ∧ ∀ i, z ≤ i → i < j → twoHand T a b c1 c2 i = .ok false := by
  rw [out_eq hT, Res.ok.injEq] at h
  obtain ⟨-, z, j, h1, h2⟩ := (th_inv (k + 1)).2 h
  exact ⟨z, j, h1, fun i a1 a2 => by rw [out_eq hT, h2 i a1 a2]⟩

/-- **C181**, the stroke takes place: if scan `j` is the first with both buttons pressed, and came in time, OUT is TRUE from scan `j` on for as long as both are
pressed. -/
theorem C181_starts (T : Int) (hT : 0 ≤ T ∧ T < 2 ^ 63) (a b : Nat → Bool) (c1 c2 : Nat → Nat) (z j k : Nat) (h : Stroke T a b c1 c2 z j k)
    (hf : ∀ i, z < i → i < j → ¬ (a i = true ∧ b i = true)) : twoHand T a b c1 c2 k = .ok true := by
  obtain ⟨⟨o1, o1'⟩, o2, o3, o4, o5⟩ := h
  rw [out_eq hT, Res.ok.injEq]
  have ready : ∀ n, z + 1 + n ≤ j → (th T a b c1 c2 (z + 1 + n)).2 = (false, true) ∧
      (th T a b c1 c2 (z + 1 + n)).1 = if n = 0 then none else some (c1 (z + 1)) := by
    intro n
    induction n with
    | zero => intro _; simp [th, o2.1, o2.2, tonNext]
    | succ n ih =>
      intro hn
      obtain ⟨i1, i2⟩ := ih (by omega)
      have hp := o3 (z + 1 + n) (by omega) (by omega)
      have hnb := hf (z + 1 + n) (by omega) (by omega)
      have e : th T a b c1 c2 (z + 1 + n) = (if n = 0 then none else some (c1 (z + 1)), false, true) := Prod.ext i2 i1
      rw [show z + 1 + (n + 1) = (z + 1 + n) + 1 by omega, th, e]
      cases ha : a (z + 1 + n) <;> cases hb : b (z + 1 + n) <;> simp only [ha, hb] at hp hnb ⊢ <;> simp at hp hnb <;>
        (by_cases hn0 : n = 0 <;> simp [hn0, tonNext])
  have on : ∀ n, j + n ≤ k → (th T a b c1 c2 (j + n + 1)).2.1 = true := by
    intro n
    induction n with
    | zero =>
      intro _
      obtain ⟨i1, i2⟩ := ready (j - (z + 1)) (by omega)
      rw [show z + 1 + (j - (z + 1)) = j by omega] at i1 i2
      obtain ⟨ha, hb⟩ := o4 j (by omega) o1'
      have hq : tonQ T (th T a b c1 c2 j).1 true (c2 j) = false := by
        rw [i2]
        by_cases hz : j - (z + 1) = 0
        · rw [if_pos hz]; rfl
        · rw [if_neg hz]
          have : (c2 j : Int) - c1 (z + 1) ≤ T := by rcases o5 with h | h <;> omega
          simp [tonQ]; omega
      simp [th, ha, hb, hq, i1]
    | succ n ih =>
      intro hn
      have := ih (by omega)
      obtain ⟨ha, hb⟩ := o4 (j + (n + 1)) (by omega) hn
      rw [show j + (n + 1) + 1 = (j + n + 1) + 1 by omega, th, show j + n + 1 = j + (n + 1) by omega] 
      rw [show j + n + 1 = j + (n + 1) by omega] at this
      simp [ha, hb, this]
  have := on (k - j) (by omega)
  rwa [show j + (k - j) + 1 = k + 1 by omega] at this

/-- **C181**, a button that is tied down: if the second button comes later than `T` after the first, OUT stays FALSE until both have been released. -/
theorem C181_tied (T : Int) (hT : 0 ≤ T ∧ T < 2 ^ 63) (a b : Nat → Bool) (c1 c2 : Nat → Nat) (hc : ∀ i j, i ≤ j → c2 i ≤ c2 j) (z j k : Nat)
    (hz : a z = false ∧ b z = false) (hzj : z + 1 < j) (hp : ∀ i, z < i → i ≤ k → a i = true ∨ b i = true)
    (hf : ∀ i, z < i → i < j → ¬ (a i = true ∧ b i = true)) (hl : T < (c2 j : Int) - c1 (z + 1)) (hk : z ≤ k) :
    twoHand T a b c1 c2 k = .ok false := by
  obtain ⟨q, hq⟩ := C181_total T hT a b c1 c2 k
  cases q with
  | false => exact hq
  | true =>
    obtain ⟨z', j', ⟨⟨o1, o1'⟩, o2, o3, o4, o5⟩, -⟩ := C181_safe T hT a b c1 c2 k hq
    have e : z' = z := by
      rcases Nat.lt_trichotomy z' z with h | h | h
      · have := o3 z h hk; simp [hz.1, hz.2] at this
      · exact h
      · have := hp z' h (by omega); simp [o2.1, o2.2] at this
    subst e
    have hjj : j ≤ j' := by
      rcases Nat.lt_or_ge j' j with h | h
      · exact absurd (o4 j' (by omega) o1') (hf j' o1 h)
      · exact h
    have := hc j j' hjj
    rcases o5 with h | h <;> omega

/-- Both hands within 500 ms, then the left one is lifted for a moment: OUT is TRUE in scan 2 and stays FALSE after that until both have been released. -/
example :
    (let a : Nat → Bool := fun i => [false, true, true, false, true, false, true].getD i false
     let b : Nat → Bool := fun i => [false, false, true, true, true, false, true].getD i false
     (List.range 7).map (twoHand 500 a b (fun i => 100 * i) (fun i => 100 * i))) =
      [.ok false, .ok false, .ok true, .ok false, .ok false, .ok false, .ok true] := by
  decide

/-- The hypotheses of `C181_starts`. -/
example : Stroke 500 (fun i => decide (0 < i)) (fun i => decide (1 < i)) (fun i => 100 * i) (fun i => 100 * i) 0 2 5 :=
  ⟨by omega, by decide, fun i h _ => by simp; omega, fun i h _ => by simp; omega, .inr (by decide)⟩

/-- The hypotheses of `C181_tied`: the right hand comes 600 ms after the left. -/
example : (∀ i j, i ≤ j → 100 * i ≤ 100 * j) ∧ (∀ i, 0 < i → i < 7 → ¬ (decide (0 < i) = true ∧ decide (6 < i) = true)) ∧
    (500 : Int) < ((100 * 7 : Nat) : Int) - ((100 * (0 + 1) : Nat) : Int) :=
  ⟨fun i j h => by omega, fun i _ _ => by simp; omega, by decide⟩

end Verif
