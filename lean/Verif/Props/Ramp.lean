import Verif.Props.Selectors
import Verif.Proofs.Ints
/-
C132: a ramp (rate limiter) made of LIMIT.
-/
namespace Verif

/-- One scan of the program `out := LIMIT(out - step, in, out + step)` on variables of type `t`; sum and difference are those of the
type. -/
def rampScan (t : IntTy) (step out input : Int) : Int := limitInt (t.wrap (out - step)) input (t.wrap (out + step))

/-- The value of `out` after a number of scans. -/
def ramp (t : IntTy) (step out : Int) (inputs : List Int) : Int := inputs.foldl (rampScan t step) out

namespace Spec

/-- `v` is at least `step` away from both ends of the type. -/
def FarFromEnds (t : IntTy) (step v : Int) : Prop := t.lo + step ≤ v ∧ v ≤ t.hi - step

end Spec
open Spec

private theorem scan_eq {t : IntTy} (ht : 0 < t.bits) {step out : Int} (h0 : 0 ≤ step) (h : FarFromEnds t step out) (input : Int) :
    rampScan t step out input = max (out - step) (min input (out + step)) := by
  obtain ⟨h1, h2⟩ := h
  unfold rampScan
  rw [t.wrap_of_inRange ht (x := out - step) ⟨by omega, by omega⟩, t.wrap_of_inRange ht (x := out + step) ⟨by omega, by omega⟩]
  unfold limitInt
  split <;> try split
  all_goals omega

private theorem scan_far {t : IntTy} (ht : 0 < t.bits) {step out input : Int} (h0 : 0 ≤ step) (h : FarFromEnds t step out)
    (hi : FarFromEnds t step input) : FarFromEnds t step (rampScan t step out input) := by
  rw [scan_eq ht h0 h]
  unfold FarFromEnds at *
  omega

/-- **C132.** As long as start value and inputs keep a distance of `step` from the ends of the type, the output does so too
and changes by at most `step` in a scan, always towards the input and never beyond it; an input at a distance of at most
`step` is reached at once. -/
theorem C132_step (t : IntTy) (ht : 0 < t.bits) (step out : Int) (h0 : 0 ≤ step) (inputs : List Int) (input : Int)
    (h : ∀ v ∈ out :: inputs ++ [input], FarFromEnds t step v) :
    let before := ramp t step out inputs
    let after := ramp t step out (inputs ++ [input])
    FarFromEnds t step after ∧ |after - before| ≤ step ∧
    (before ≤ input → before ≤ after ∧ after ≤ input) ∧ (input ≤ before → input ≤ after ∧ after ≤ before) ∧
    (|input - before| ≤ step → after = input) := by
  have hfar : ∀ (inputs : List Int) (out : Int), (∀ v ∈ out :: inputs, FarFromEnds t step v) → FarFromEnds t step (ramp t step out inputs) := by
    intro inputs
    induction inputs with
    | nil => intro out h; exact h out (by simp)
    | cons x xs ih =>
      intro out h
      refine ih (rampScan t step out x) ?_
      intro v hv
      simp only [List.mem_cons] at hv
      rcases hv with rfl | hv
      · exact scan_far ht h0 (h out (by simp)) (h x (by simp))
      · exact h v (by simp [hv])
  have hb := hfar inputs out (fun v hv => h v (by simp at hv ⊢; rcases hv with hv | hv <;> simp [hv]))
  have e : ramp t step out (inputs ++ [input]) = rampScan t step (ramp t step out inputs) input := by
    unfold ramp; rw [List.foldl_append]; rfl
  have hi := h input (by simp)
  have hf := scan_far ht h0 hb hi
  have hs := scan_eq ht h0 hb input
  rw [e]
  refine ⟨hf, ?_, ?_, ?_, ?_⟩
  · rw [hs, abs_le]; omega
  · rw [hs]; omega
  · rw [hs]; omega
  · rw [hs, abs_le]; omega

/-- **C132.** With a constant input the output is on a straight line until it is at the input, and then stays there: after `k` scans it
has come `k * step` closer. -/
theorem C132_constant_input (t : IntTy) (ht : 0 < t.bits) (step out input : Int) (h0 : 0 ≤ step) (hout : FarFromEnds t step out)
    (hin : FarFromEnds t step input) (k : Nat) :
    ramp t step out (List.replicate k input) =
      if out ≤ input then min input (out + k * step) else max input (out - k * step) := by
  induction k with
  | zero => simp only [List.replicate_zero, ramp, List.foldl_nil]; split <;> simp <;> omega
  | succ k ih =>
    have e : ramp t step out (List.replicate (k + 1) input) = rampScan t step (ramp t step out (List.replicate k input)) input := by
      rw [List.replicate_succ']
      unfold ramp; rw [List.foldl_append]; rfl
    have hk : (0 : Int) ≤ k * step := Int.mul_nonneg (by omega) h0
    have e2 : ((k + 1 : Nat) : Int) * step = k * step + step := by push_cast; rw [Int.add_mul, Int.one_mul]
    rw [e, ih, e2]
    generalize (k : Int) * step = d at *
    unfold FarFromEnds at hout hin
    split
    · rw [scan_eq ht h0 (by unfold FarFromEnds; omega)]; omega
    · rw [scan_eq ht h0 (by unfold FarFromEnds; omega)]; omega

/-- **C132.** The input is reached: after `⌈|in - out| / step⌉` scans at the latest. -/
theorem C132_reaches (t : IntTy) (ht : 0 < t.bits) (step out input : Int) (h0 : 0 ≤ step) (hout : FarFromEnds t step out)
    (hin : FarFromEnds t step input) (k : Nat) (hk : |input - out| ≤ k * step) :
    ramp t step out (List.replicate k input) = input := by
  rw [C132_constant_input t ht step out input h0 hout hin k]
  have := abs_le.1 hk
  split <;> omega

/-- INT, step 10: from 0 towards 25, then back. -/
example : (∀ v ∈ [0, 25, 25, 25, -3], FarFromEnds .i16 10 v) ∧ ramp .i16 10 0 [25, 25] = 20 ∧ ramp .i16 10 0 [25, 25, 25] = 25 ∧
    ramp .i16 10 0 [25, 25, 25, -3] = 15 := by
  unfold FarFromEnds; decide

/-- The condition is needed: at the end of the range `out + step` is negative, and LIMIT with reversed bounds returns it. -/
example : ¬ FarFromEnds .i16 10 32767 ∧ ramp .i16 10 32767 [32767] = -32759 := by
  unfold FarFromEnds; decide

end Verif
