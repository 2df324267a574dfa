import Verif.Props.Bits
import Verif.Props.Flanks
import Verif.Props.Scan
/-
C136: a running light and a shift register, clocked by R_TRIG.
-/
namespace Verif
open Spec

namespace Spec

/-- The values of the data input (second component) in the scans in which the clock input (first component) has a rising edge, oldest first. `prev` is
the clock input before. -/
def samples (prev : Bool) : List (Bool × Bool) → List Bool
  | [] => []
  | (clk, data) :: h => (if !prev && clk then [data] else []) ++ samples clk h

/-- The bits of a word, least significant first. -/
def bitList {w : Nat} (x : BitVec w) : List Bool := (List.range w).map x.getLsbD

end Spec

/-- `rt(CLK := clk); IF rt.Q THEN lights := ROL(lights, 1); END_IF` (`R_TRIG`, src/flanks.rs:19-22, `ROL__*`, src/bit_shift_functions.rs:62-85). -/
def runningLight {w : Nat} (s : Trigger × BitVec w) (clk : Bool) : Res (Trigger × BitVec w) := do
  let rt ← R_TRIG.call s.1 clk
  pure (rt, if rt.output then ROL s.2 1 else s.2)

/-- `rt(CLK := clk); IF rt.Q THEN reg := SHL(reg, 1) OR data; END_IF` (`SHL__*`, src/bit_shift_functions.rs:6-29). -/
def shiftRegister (p : Profile) {w : Nat} (s : Trigger × BitVec w) (i : Bool × Bool) : Res (Trigger × BitVec w) := do
  let rt ← R_TRIG.call s.1 i.1
  if rt.output then
    let y ← SHL p s.2 1
    pure (rt, y ||| (if i.2 then 1#w else 0#w))
  else pure (rt, s.2)

private theorem rol_zero {w : Nat} (x : BitVec w) : ROL x 0 = x := by
  apply BitVec.eq_of_getLsbD_eq
  intro i hi
  have := C24_rol_bits x 0 i hi
  rwa [Nat.add_zero, Nat.mod_eq_of_lt hi] at this

private theorem edge (b c : Bool) : (c && (b ^^ c)) = (!b && c) := by cases b <;> cases c <;> rfl

private theorem running_is {w : Nat} (h : List Bool) : ∀ (t : Trigger) (x : BitVec w),
    ∃ t', runFB runningLight (t, x) h = .ok (t', ROL x (risingEdges t.internal.current_value h)) := by
  induction h with
  | nil => intro t x; exact ⟨t, by rw [risingEdges, rol_zero]; rfl⟩
  | cons c h ih =>
    intro t x
    have e : runFB runningLight (t, x) (c :: h) = runFB runningLight (R_TRIG { t with clk := c },
        if (c && (t.internal.current_value ^^ c)) then ROL x 1 else x) h := rfl
    obtain ⟨t', ht⟩ := ih (R_TRIG { t with clk := c }) (if (c && (t.internal.current_value ^^ c)) then ROL x 1 else x)
    refine ⟨t', ?_⟩
    rw [e, ht, risingEdges, edge, show (R_TRIG { t with clk := c }).internal.current_value = c from rfl]
    cases !t.internal.current_value && c
    · simp
    · simp [(C24_rotations_compose x 1 (risingEdges c h)).1]

/-- **C136.** The running light never aborts, and after `n` rising edges of the clock input every light has moved on by `n` places, round and round:
light `i` of the start is now at place `(i + n) MOD w`. -/
theorem C136_running_light {w : Nat} (x : BitVec w) (h : List Bool) :
    ∃ t y, runFB runningLight (Trigger.default, x) h = .ok (t, y) ∧
      ∀ i < w, y.getLsbD ((i + risingEdges false h) % w) = x.getLsbD i := by
  obtain ⟨t, ht⟩ := running_is h Trigger.default x
  exact ⟨t, _, ht, fun i hi => C24_rol_bits x _ i hi⟩

private theorem shl_one (p : Profile) {w : Nat} (hw : 1 < w) (x : BitVec w) : SHL p x 1 = .ok (x <<< 1) := by
  unfold SHL shiftCount; rw [if_pos hw]; rfl

private theorem bits_push {w : Nat} (hw : 1 < w) (x : BitVec w) (b : Bool) (l : List Bool) (i : Nat) (hi : i < w) :
    (l ++ bitList ((x <<< 1) ||| (if b then 1#w else 0#w)))[i]? = (l ++ b :: bitList x)[i]? := by
  rcases Nat.lt_or_ge i l.length with h | h
  · rw [List.getElem?_append_left h, List.getElem?_append_left h]
  · rw [List.getElem?_append_right h, List.getElem?_append_right h]
    generalize hj : i - l.length = j
    unfold bitList
    rw [List.getElem?_map, List.getElem?_range (by omega)]
    cases j with
    | zero => cases b <;> simp [Nat.lt_of_lt_of_le Nat.zero_lt_one hw.le]
    | succ j =>
      rw [List.getElem?_cons_succ, List.getElem?_map, List.getElem?_range (by omega)]
      cases b <;> simp <;> omega

private theorem register_is (p : Profile) {w : Nat} (hw : 1 < w) (h : List (Bool × Bool)) : ∀ (t : Trigger) (x : BitVec w),
    ∃ t' y, runFB (shiftRegister p) (t, x) h = .ok (t', y) ∧
      ∀ i < w, (bitList y)[i]? = ((samples t.internal.current_value h).reverse ++ bitList x)[i]? := by
  induction h with
  | nil => intro t x; exact ⟨t, x, rfl, fun i _ => rfl⟩
  | cons c h ih =>
    obtain ⟨clk, data⟩ := c
    intro t x
    have e : shiftRegister p (t, x) (clk, data) = .ok (R_TRIG { t with clk := clk },
        if !t.internal.current_value && clk then (x <<< 1) ||| (if data then 1#w else 0#w) else x) := by
      unfold shiftRegister
      rw [shl_one p hw]
      simp only [R_TRIG.call, R_TRIG, Signal.rising_edge, Res.bind_ok, edge]
      cases !t.internal.current_value && clk <;> rfl
    obtain ⟨t', y, h1, h2⟩ := ih (R_TRIG { t with clk := clk })
      (if !t.internal.current_value && clk then (x <<< 1) ||| (if data then 1#w else 0#w) else x)
    refine ⟨t', y, ?_, ?_⟩
    · rw [← h1]; show (shiftRegister p (t, x) (clk, data) >>= _) = _; rw [e]; rfl
    · intro i hi
      rw [h2 i hi, samples, show (R_TRIG { t with clk := clk }).internal.current_value = clk from rfl]
      cases !t.internal.current_value && clk
      · simp
      · simp only [if_true]
        rw [bits_push hw x data _ i hi]
        simp

/-- **C136.** The shift register never aborts, and it holds the last samples of the data input, the newest in bit 0; the bits beyond the first sample are
those of the start value, shifted on. -/
theorem C136_shift_register (p : Profile) {w : Nat} (hw : 1 < w) (x : BitVec w) (h : List (Bool × Bool)) :
    ∃ t y, runFB (shiftRegister p) (Trigger.default, x) h = .ok (t, y) ∧
      bitList y = ((samples false h).reverse ++ bitList x).take w := by
  obtain ⟨t, y, h1, h2⟩ := register_is p hw h Trigger.default x
  refine ⟨t, y, h1, List.ext_getElem? fun i => ?_⟩
  rcases Nat.lt_or_ge i w with hi | hi
  · rw [List.getElem?_take, if_pos hi]; exact h2 i hi
  · rw [List.getElem?_take, if_neg (by omega)]
    exact List.getElem?_eq_none (by simpa [bitList] using hi)

/-! ### Examples -/

/-- Eight lights, the first one on; three rising edges. -/
example : (runFB runningLight (Trigger.default, 0b00000001#8) [true, false, true, true, false, true] >>= fun s => pure s.2) = .ok 0b00001000#8 ∧
    risingEdges false [true, false, true, true, false, true] = 3 := by decide
/-- Samples TRUE, FALSE, TRUE; changes of the data input between the edges do not matter. -/
example : (runFB (shiftRegister .debug) (Trigger.default, 0b10000001#8)
      [(true, true), (false, false), (true, false), (true, true), (false, true), (true, true)] >>= fun s => pure s.2) = .ok 0b00001101#8 ∧
    samples false [(true, true), (false, false), (true, false), (true, true), (false, true), (true, true)] = [true, false, true] := by decide

end Verif
