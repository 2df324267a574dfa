import Verif.Model.Flanks
import Verif.Spec.FunctionBlocks
import Verif.Proofs.Lists
/-
C01-C05: edge triggers and latches.
-/
namespace Verif
open Spec

/-- The R_TRIG instance after the calls with the CLK values `h` (fresh instance first). -/
abbrev rTrigAfter (h : List Bool) : Res Trigger := runFB R_TRIG.call Trigger.default h
/-- The F_TRIG instance after the calls with the CLK values `h`. -/
abbrev fTrigAfter (h : List Bool) : Res Trigger := runFB F_TRIG.call Trigger.default h

/-- Q after the history `h`, as seen by the program (`none` if a call failed). -/
def rQ (h : List Bool) : Option Bool :=
  match rTrigAfter h with
  | .ok t => some t.output
  | _ => none
/-- Q of the F_TRIG after the history `h`. -/
def fQ (h : List Bool) : Option Bool :=
  match fTrigAfter h with
  | .ok t => some t.output
  | _ => none

private theorem rTrig_inv (h : List Bool) :
    ∃ t, rTrigAfter h = .ok t ∧ t.internal.current_value = h.getLast?.getD false := by
  refine snoc_induction ?_ ?_ h
  · exact ⟨_, rfl, rfl⟩
  · intro h c ih
    obtain ⟨t, ht, _⟩ := ih
    refine ⟨_, by simp only [rTrigAfter, runFB_append] at *; rw [ht]; rfl, ?_⟩
    simp [R_TRIG, Signal.rising_edge]

private theorem fTrig_inv (h : List Bool) :
    ∃ t, fTrigAfter h = .ok t ∧ t.internal.current_value = h.getLast?.getD false := by
  refine snoc_induction ?_ ?_ h
  · exact ⟨_, rfl, rfl⟩
  · intro h c ih
    obtain ⟨t, ht, _⟩ := ih
    refine ⟨_, by simp only [fTrigAfter, runFB_append] at *; rw [ht]; rfl, ?_⟩
    simp [F_TRIG, Signal.falling_edge]

private theorem rQ_snoc (h : List Bool) (c : Bool) :
    rQ (h ++ [c]) = some (c && !h.getLast?.getD false) := by
  obtain ⟨t, ht, hv⟩ := rTrig_inv h
  have : rTrigAfter (h ++ [c]) = .ok (R_TRIG { t with clk := c }) := by
    simp only [rTrigAfter, runFB_append] at *; rw [ht]; rfl
  rw [rQ, this]
  simp only [R_TRIG, Signal.rising_edge, hv]
  cases c <;> simp

private theorem fQ_snoc (h : List Bool) (c : Bool) :
    fQ (h ++ [c]) = some (!c && h.getLast?.getD false) := by
  obtain ⟨t, ht, hv⟩ := fTrig_inv h
  have : fTrigAfter (h ++ [c]) = .ok (F_TRIG { t with clk := c }) := by
    simp only [fTrigAfter, runFB_append] at *; rw [ht]; rfl
  rw [fQ, this]
  simp only [F_TRIG, Signal.falling_edge, hv]
  cases c <;> simp

/-- **C01.** Whatever CLK did before (`h`), the call with CLK = `c` succeeds, and then Q is
TRUE iff `c` is TRUE and the previous call (if any) had CLK FALSE. -/
theorem C01_r_trig_rising_edge (h : List Bool) (c : Bool) :
    ∃ q, rQ (h ++ [c]) = some q ∧ (q = true ↔ c = true ∧ (h = [] ∨ h.getLast? = some false)) := by
  refine ⟨_, rQ_snoc h c, ?_⟩
  rcases snoc_cases h with rfl | ⟨l, a, rfl⟩ <;> simp

example : rQ ([true, false] ++ [true]) = some true ∧ rQ ([true, true] ++ [true]) = some false := by
  decide

/-- **C02.** Whatever CLK did before (`h`), the call with CLK = `c` succeeds, and then Q is
TRUE iff `c` is FALSE and there was a previous call, with CLK TRUE. -/
theorem C02_f_trig_falling_edge (h : List Bool) (c : Bool) :
    ∃ q, fQ (h ++ [c]) = some q ∧ (q = true ↔ c = false ∧ h.getLast? = some true) := by
  refine ⟨_, fQ_snoc h c, ?_⟩
  rcases snoc_cases h with rfl | ⟨l, a, rfl⟩ <;> simp

/-- **C02**, first call: an F_TRIG never fires in its first call. -/
theorem C02_first_call (c : Bool) : fQ [c] = some false := by
  cases c <;> rfl

example : fQ ([true, true] ++ [false]) = some true ∧ fQ ([] ++ [false]) = some false := by decide

/-- The Q values of an R_TRIG after each of the calls `h`: entry `i` is Q after the first
`i+1` calls. -/
def rOutputs (h : List Bool) : List Bool :=
  (List.range h.length).map fun i => (rQ (h.take (i + 1))).getD false
/-- The Q values of an F_TRIG after each of the calls `h`. -/
def fOutputs (h : List Bool) : List Bool :=
  (List.range h.length).map fun i => (fQ (h.take (i + 1))).getD false

private theorem rOutputs_snoc (h : List Bool) (c : Bool) :
    rOutputs (h ++ [c]) = rOutputs h ++ [c && !h.getLast?.getD false] := by
  simp only [rOutputs, List.length_append, List.length_singleton, List.range_succ, List.map_append,
    List.map_cons, List.map_nil]
  congr 1
  · apply List.map_congr_left
    intro i hi
    rw [List.mem_range] at hi
    rw [List.take_append_of_le_length (by omega)]
  · rw [List.take_of_length_le (by simp), rQ_snoc]; rfl

private theorem fOutputs_snoc (h : List Bool) (c : Bool) :
    fOutputs (h ++ [c]) = fOutputs h ++ [!c && h.getLast?.getD false] := by
  simp only [fOutputs, List.length_append, List.length_singleton, List.range_succ, List.map_append,
    List.map_cons, List.map_nil]
  congr 1
  · apply List.map_congr_left
    intro i hi
    rw [List.mem_range] at hi
    rw [List.take_append_of_le_length (by omega)]
  · rw [List.take_of_length_le (by simp), fQ_snoc]; rfl

/-- **C03**, accounting: rising pulses minus falling pulses is the current level of CLK. -/
theorem C03_pulse_balance (h : List Bool) :
    pulses (rOutputs h) = pulses (fOutputs h) + (if h.getLast? = some true then 1 else 0) := by
  refine snoc_induction ?_ ?_ h
  · rfl
  · intro h c ih
    rw [rOutputs_snoc, fOutputs_snoc]
    simp only [pulses, List.count_append] at *
    rw [ih]
    rcases snoc_cases h with rfl | ⟨l, a, rfl⟩
    · cases c <;> simp
    · cases a <;> cases c <;> simp

/-- **C03**, exclusion: an R_TRIG and an F_TRIG fed with the same CLK never fire in the same
call. -/
theorem C03_never_both (h : List Bool) (c : Bool) :
    ¬ (rQ (h ++ [c]) = some true ∧ fQ (h ++ [c]) = some true) := by
  rw [rQ_snoc, fQ_snoc]; cases c <;> simp

/-- **C03**, single-call pulses: neither block fires in two consecutive calls. -/
theorem C03_no_consecutive_pulses (h : List Bool) (c d : Bool) :
    ¬ (rQ (h ++ [c]) = some true ∧ rQ (h ++ [c, d]) = some true) ∧
    ¬ (fQ (h ++ [c]) = some true ∧ fQ (h ++ [c, d]) = some true) := by
  have e : h ++ [c, d] = (h ++ [c]) ++ [d] := by simp
  rw [e, rQ_snoc (h ++ [c]) d, fQ_snoc (h ++ [c]) d, rQ_snoc, fQ_snoc]
  cases c <;> cases d <;> simp

example : rOutputs [true, true, false, true] = [true, false, false, true] ∧
    fOutputs [true, true, false, true] = [false, false, true, false] := by decide

/-! ### Latches -/

/-- Q1 of an SR latch after the history `h`. -/
def srQ (h : List LatchIn) : Option Bool :=
  match runFB SR.call SetResetParams.default h with
  | .ok s => some s.output
  | _ => none
/-- Q1 of an RS latch after the history `h`. -/
def rsQ (h : List LatchIn) : Option Bool :=
  match runFB RS.call SetResetParams.default h with
  | .ok s => some s.output
  | _ => none

private theorem sr_total (h : List LatchIn) :
    ∃ s, runFB SR.call SetResetParams.default h = .ok s := by
  refine snoc_induction ?_ ?_ h
  · exact ⟨_, rfl⟩
  · intro h c ⟨t, ht⟩
    exact ⟨_, by rw [runFB_append, ht]; rfl⟩

private theorem rs_total (h : List LatchIn) :
    ∃ s, runFB RS.call SetResetParams.default h = .ok s := by
  refine snoc_induction ?_ ?_ h
  · exact ⟨_, rfl⟩
  · intro h c ⟨t, ht⟩
    exact ⟨_, by rw [runFB_append, ht]; rfl⟩

private theorem srQ_snoc (h : List LatchIn) (i : LatchIn) :
    ∃ q, srQ h = some q ∧ srQ (h ++ [i]) = some (i.set || (!i.reset && q)) := by
  obtain ⟨s, hs⟩ := sr_total h
  refine ⟨s.output, by rw [srQ, hs], ?_⟩
  rw [srQ, runFB_append, hs]; rfl

private theorem rsQ_snoc (h : List LatchIn) (i : LatchIn) :
    ∃ q, rsQ h = some q ∧ rsQ (h ++ [i]) = some (!i.reset && (i.set || q)) := by
  obtain ⟨s, hs⟩ := rs_total h
  refine ⟨s.output, by rw [rsQ, hs], ?_⟩
  rw [rsQ, runFB_append, hs]; rfl

/-- Some call of the history satisfies `P` and every later one satisfies `Q`. -/
private theorem exists_split_snoc {α : Type} (P Q : α → Prop) (h : List α) (i : α) :
    (∃ pre x post, h ++ [i] = pre ++ x :: post ∧ P x ∧ ∀ y ∈ post, Q y) ↔
    (P i ∨ ((∃ pre x post, h = pre ++ x :: post ∧ P x ∧ ∀ y ∈ post, Q y) ∧ Q i)) := by
  constructor
  · rintro ⟨pre, x, post, e, hp, hq⟩
    rcases snoc_cases post with rfl | ⟨post', z, rfl⟩
    · have := List.append_inj' e rfl
      left
      have h2 : i = x := by simpa using this.2
      rwa [h2]
    · have e' : h ++ [i] = (pre ++ x :: post') ++ [z] := by simpa using e
      have := List.append_inj' e' rfl
      right
      have h2 : i = z := by simpa using this.2
      refine ⟨⟨pre, x, post', this.1, hp, fun y hy => hq y (by simp [hy])⟩, ?_⟩
      rw [h2]; exact hq z (by simp)
  · rintro (hp | ⟨⟨pre, x, post, e, hp, hq⟩, hi⟩)
    · exact ⟨h, i, [], by simp, hp, by simp⟩
    · refine ⟨pre, x, post ++ [i], by simp [e], hp, ?_⟩
      intro y hy
      rcases List.mem_append.1 hy with hy | hy
      · exact hq y hy
      · have : y = i := by simpa using hy
        rwa [this]

/-- **C04.** After any history an SR latch is defined, and Q1 is TRUE iff some call had SET1
TRUE and no later call had RESET TRUE with SET1 FALSE. -/
theorem C04_sr_set_dominant (h : List LatchIn) :
    ∃ q, srQ h = some q ∧
      (q = true ↔ ∃ pre x post, h = pre ++ x :: post ∧ x.set = true ∧
        ∀ y ∈ post, ¬ (y.reset = true ∧ y.set = false)) := by
  refine snoc_induction ?_ ?_ h
  · exact ⟨false, rfl, by simp⟩
  · rintro h i ⟨q, hq, iff⟩
    obtain ⟨q', hq', hn⟩ := srQ_snoc h i
    obtain rfl : q = q' := by rw [hq] at hq'; simpa using hq'
    refine ⟨_, hn, ?_⟩
    rw [exists_split_snoc (fun x : LatchIn => x.set = true)
      (fun y => ¬ (y.reset = true ∧ y.set = false)), ← iff]
    cases i.set <;> cases i.reset <;> cases q <;> simp

/-- **C05.** After any history an RS latch is defined, and Q1 is TRUE iff some call had SET
TRUE with RESET1 FALSE and no later call had RESET1 TRUE. -/
theorem C05_rs_reset_dominant (h : List LatchIn) :
    ∃ q, rsQ h = some q ∧
      (q = true ↔ ∃ pre x post, h = pre ++ x :: post ∧ (x.set = true ∧ x.reset = false) ∧
        ∀ y ∈ post, y.reset = false) := by
  refine snoc_induction ?_ ?_ h
  · exact ⟨false, rfl, by simp⟩
  · rintro h i ⟨q, hq, iff⟩
    obtain ⟨q', hq', hn⟩ := rsQ_snoc h i
    obtain rfl : q = q' := by rw [hq] at hq'; simpa using hq'
    refine ⟨_, hn, ?_⟩
    rw [exists_split_snoc (fun x : LatchIn => x.set = true ∧ x.reset = false)
      (fun y => y.reset = false), ← iff]
    cases i.set <;> cases i.reset <;> cases q <;> simp

/-- SET1 and RESET together: the SR latch is set, the RS latch is not. -/
example : srQ [⟨true, true⟩, ⟨false, false⟩] = some true ∧
    rsQ [⟨true, true⟩, ⟨false, false⟩] = some false := by decide

end Verif
