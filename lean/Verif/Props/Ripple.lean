import Verif.Props.Divider
/-
C127: a toggle, `e(CLK := x); rs(SET := e.Q AND NOT rs.Q1, RESET1 := e.Q AND rs.Q1);` with `e` an R_TRIG or an F_TRIG, and the binary
counter made of toggles in series, each one driven by the falling edges of the one before.
-/
namespace Verif
open Spec

namespace Spec

/-- The number of falling edges of a signal that was `prev` before. -/
def fallingEdges (prev : Bool) : List Bool → Nat
  | [] => 0
  | x :: h => (if prev && !x then 1 else 0) + fallingEdges x h

/-- The number written by the bits, lowest bit first. -/
def binary : List Bool → Nat
  | [] => 0
  | b :: l => (if b then 1 else 0) + 2 * binary l

end Spec

/-- A toggle: the edge detector and the latch. -/
structure Toggle where
  edge : Trigger
  latch : SetResetParams

/-- A fresh toggle is all zero (src/flanks.rs:5-9, src/bistable_functionblocks.rs:3-7). -/
def Toggle.default : Toggle := ⟨Trigger.default, SetResetParams.default⟩

/-- One scan of the toggle with the edge detector `trig` (a call of `R_TRIG` or `F_TRIG`, src/flanks.rs:19-29, and one of `RS`,
src/bistable_functionblocks.rs:35-37). -/
def toggle (trig : Trigger → Bool → Res Trigger) (s : Toggle) (x : Bool) : Res Toggle := do
  let e ← trig s.edge x
  let l ← RS.call s.latch ⟨e.output && !s.latch.output, e.output && s.latch.output⟩
  pure ⟨e, l⟩

/-- `rs.Q1` after the scans `h`, or how the program ended. -/
def toggled (trig : Trigger → Bool → Res Trigger) (h : List Bool) : Res Bool :=
  outputs (toggle trig) Toggle.default (·.latch.output) h

/-- One scan of toggles in series with F_TRIG: the first one gets `x`, each other one the output of the one before (src/flanks.rs:26-29,
src/bistable_functionblocks.rs:35-37). -/
def ripple : List Toggle → Bool → Res (List Toggle)
  | [], _ => pure []
  | s :: ss, x => do
    let s ← toggle F_TRIG.call s x
    let ss ← ripple ss s.latch.output
    pure (s :: ss)

/-- The outputs of `k` toggles in series after the scans `h`, or how the program ended. -/
def rippled (k : Nat) (h : List Bool) : Res (List Bool) :=
  outputs ripple (List.replicate k Toggle.default) (·.map (·.latch.output)) h

private theorem falling_snoc : ∀ (h : List Bool) (b x : Bool), fallingEdges b (h ++ [x]) =
    fallingEdges b h + if ((h.getLast?).getD b) && !x then 1 else 0
  | [], b, x => by simp [fallingEdges]
  | y :: h, b, x => by
    rw [List.cons_append, fallingEdges, falling_snoc h y x, fallingEdges, Nat.add_assoc]
    congr 3
    cases h with
    | nil => rfl
    | cons z h => simp [List.getLast?_cons_cons]; cases hz : (z :: h).getLast? with
      | none => simp at hz
      | some w => simp

private theorem parity_succ (n : Nat) : decide ((n + 1) % 2 = 1) = !decide (n % 2 = 1) := by
  rcases Nat.mod_two_eq_zero_or_one n with h | h
  · rw [show (n + 1) % 2 = 1 by omega, h]; rfl
  · rw [show (n + 1) % 2 = 0 by omega, h]; rfl

private theorem toggle_r (h : List Bool) : ∃ s, runFB (toggle R_TRIG.call) Toggle.default h = .ok s ∧
    s.edge.internal.current_value = (h.getLast?).getD false ∧ s.latch.output = decide (risingEdges false h % 2 = 1) := by
  refine snoc_induction (P := fun h => ∃ s, runFB (toggle R_TRIG.call) Toggle.default h = .ok s ∧
    s.edge.internal.current_value = (h.getLast?).getD false ∧ s.latch.output = decide (risingEdges false h % 2 = 1)) ⟨_, rfl, rfl, rfl⟩ ?_ h
  rintro h x ⟨s, hs, h1, h2⟩
  rw [runFB_snoc_ok hs, edges_snoc]
  refine ⟨_, rfl, by simp [R_TRIG, Signal.rising_edge], ?_⟩
  simp only [R_TRIG, Signal.rising_edge, RS, h1, h2]
  generalize (h.getLast?).getD false = l
  generalize risingEdges false h = n
  cases l <;> cases x <;> simp [parity_succ] <;> cases decide (n % 2 = 1) <;> rfl

private theorem toggle_f (h : List Bool) : ∃ s, runFB (toggle F_TRIG.call) Toggle.default h = .ok s ∧
    s.edge.internal.current_value = (h.getLast?).getD false ∧ s.latch.output = decide (fallingEdges false h % 2 = 1) := by
  refine snoc_induction (P := fun h => ∃ s, runFB (toggle F_TRIG.call) Toggle.default h = .ok s ∧
    s.edge.internal.current_value = (h.getLast?).getD false ∧ s.latch.output = decide (fallingEdges false h % 2 = 1)) ⟨_, rfl, rfl, rfl⟩ ?_ h
  rintro h x ⟨s, hs, h1, h2⟩
  rw [runFB_snoc_ok hs, falling_snoc]
  refine ⟨_, rfl, by simp [F_TRIG, Signal.falling_edge], ?_⟩
  simp only [F_TRIG, Signal.falling_edge, RS, h1, h2]
  generalize (h.getLast?).getD false = l
  generalize fallingEdges false h = n
  cases l <;> cases x <;> simp [parity_succ] <;> cases decide (n % 2 = 1) <;> rfl

/-- **C127.** A toggle never aborts and its output is TRUE iff the number of edges so far is odd. -/
theorem C127_toggle (h : List Bool) :
    (∃ q, toggled R_TRIG.call h = .ok q ∧ (q = true ↔ risingEdges false h % 2 = 1)) ∧
    (∃ q, toggled F_TRIG.call h = .ok q ∧ (q = true ↔ fallingEdges false h % 2 = 1)) := by
  obtain ⟨s, hs, -, h2⟩ := toggle_r h
  obtain ⟨s', hs', -, h2'⟩ := toggle_f h
  refine ⟨⟨s.latch.output, by unfold toggled outputs; rw [hs]; rfl, by rw [h2, decide_eq_true_iff]⟩,
    ⟨s'.latch.output, by unfold toggled outputs; rw [hs']; rfl, by rw [h2', decide_eq_true_iff]⟩⟩

/-- What the toggle shows in the scans `g` after the scans `a`. -/
private def halves : List Bool → List Bool → List Bool
  | _, [] => []
  | a, x :: g => decide (fallingEdges false (a ++ [x]) % 2 = 1) :: halves (a ++ [x]) g

private theorem halves_append : ∀ (g g' a : List Bool), halves a (g ++ g') = halves a g ++ halves (a ++ g) g'
  | [], g', a => by simp [halves]
  | x :: g, g', a => by
    rw [List.cons_append, halves, halves, halves_append g g' (a ++ [x]), List.cons_append, List.append_assoc]; rfl

private theorem halves_snoc (h : List Bool) (x : Bool) :
    halves [] (h ++ [x]) = halves [] h ++ [decide (fallingEdges false (h ++ [x]) % 2 = 1)] := by
  rw [halves_append]; rfl

/-- The output of a toggle has one falling edge for every two of its input. -/
private theorem halves_edges (h : List Bool) : fallingEdges false (halves [] h) = fallingEdges false h / 2 ∧
    ((halves [] h).getLast?).getD false = decide (fallingEdges false h % 2 = 1) := by
  refine snoc_induction (P := fun h => fallingEdges false (halves [] h) = fallingEdges false h / 2 ∧
    ((halves [] h).getLast?).getD false = decide (fallingEdges false h % 2 = 1)) ⟨rfl, rfl⟩ ?_ h
  rintro h x ⟨h1, h2⟩
  rw [halves_snoc, falling_snoc, h1, h2]
  refine ⟨?_, by simp⟩
  rw [falling_snoc]
  generalize fallingEdges false h = n
  cases ((h.getLast?).getD false) <;> cases x <;> simp
  split <;> omega

private theorem ripple_run : ∀ (k : Nat) (h : List Bool), ∃ ss, runFB ripple (List.replicate k Toggle.default) h = .ok ss ∧
    ss.length = k ∧ binary (ss.map (·.latch.output)) = fallingEdges false h % 2 ^ k
  | 0, h => by
    refine ⟨[], ?_, rfl, by simp [binary, Nat.mod_one]⟩
    refine snoc_induction (P := fun h => runFB ripple [] h = .ok []) rfl ?_ h
    intro a x ih
    rw [runFB_snoc_ok ih]; rfl
  | k + 1, h => by
    have both : ∀ h : List Bool, ∃ s ss, runFB (toggle F_TRIG.call) Toggle.default h = .ok s ∧
        runFB ripple (List.replicate k Toggle.default) (halves [] h) = .ok ss ∧
        runFB ripple (List.replicate (k + 1) Toggle.default) h = .ok (s :: ss) := by
      intro h
      refine snoc_induction (P := fun h => ∃ s ss, runFB (toggle F_TRIG.call) Toggle.default h = .ok s ∧
        runFB ripple (List.replicate k Toggle.default) (halves [] h) = .ok ss ∧
        runFB ripple (List.replicate (k + 1) Toggle.default) h = .ok (s :: ss)) ⟨_, _, rfl, rfl, rfl⟩ ?_ h
      rintro a x ⟨s, ss, e1, e2, e3⟩
      obtain ⟨s', f1, -, f2⟩ := toggle_f (a ++ [x])
      obtain ⟨ss', g1, -⟩ := ripple_run k (halves [] (a ++ [x]))
      refine ⟨s', ss', f1, g1, ?_⟩
      rw [runFB_snoc_ok e1] at f1
      rw [halves_snoc, ← f2, runFB_snoc_ok e2] at g1
      rw [runFB_snoc_ok e3]
      simp only [ripple, f1, Res.bind_ok, g1, Res.pure_eq]
    obtain ⟨s, ss, e1, e2, e3⟩ := both h
    obtain ⟨s', f1, -, f2⟩ := toggle_f h
    obtain ⟨ss', g1, g2, g3⟩ := ripple_run k (halves [] h)
    rw [e1] at f1; obtain rfl := Res.ok.inj f1
    rw [e2] at g1; obtain rfl := Res.ok.inj g1
    refine ⟨s :: ss, e3, by simp [g2], ?_⟩
    rw [List.map_cons, binary, g3, f2, (halves_edges h).1, Nat.pow_succ, Nat.mul_comm (2 ^ k), Nat.mod_mul]
    congr 1
    rcases Nat.mod_two_eq_zero_or_one (fallingEdges false h) with h | h <;> simp [h]

/-- **C127.** Toggles in series never abort, and their outputs are the binary digits of the number of falling edges so far, modulo
`2 ^ k` for `k` toggles. -/
theorem C127_binary_counter (k : Nat) (h : List Bool) :
    ∃ bits, rippled k h = .ok bits ∧ bits.length = k ∧ binary bits = fallingEdges false h % 2 ^ k := by
  obtain ⟨ss, e1, e2, e3⟩ := ripple_run k h
  exact ⟨ss.map (·.latch.output), by unfold rippled outputs; rw [e1]; rfl, by simp [e2], e3⟩

/-- Five falling edges: the toggle is on, three toggles show 5 = 101 in binary, two toggles show 1. -/
example : toggled F_TRIG.call ((List.replicate 5 [true, false]).flatten) = .ok true ∧
    rippled 3 ((List.replicate 5 [true, false]).flatten) = .ok [true, false, true] ∧
    rippled 2 ((List.replicate 5 [true, false]).flatten) = .ok [true, false] ∧
    binary [true, false, true] = 5 ∧ fallingEdges false ((List.replicate 5 [true, false]).flatten) = 5 := by decide

end Verif
